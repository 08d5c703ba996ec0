#!/usr/bin/env python3
"""Generate random single-token mutations of model definitions that have no entry in seeded/LOG.jsonl yet.
usage: automut.py seed count > mutations.py   (input of seed.py)"""
import re, glob, json, os, random, sys
V = os.path.join(os.path.dirname(os.path.abspath(__file__)), '..')
rnd = random.Random(int(sys.argv[1])); count = int(sys.argv[2])
SKIP = {'IrredTables.lean', 'KaraTables.lean', 'ConvTables.lean', 'LaneTables.lean', 'BlmTables.lean'}
if len(sys.argv) > 3: ONLY = set(sys.argv[3].split(','))
else: ONLY = None
CL = {'PolyHistory': 'C72', 'Words': 'C73', 'Cost': 'C75', 'CostPoly': 'C75', 'CheckedPoly': 'C76', 'Compare': 'C77', 'Space': 'C78', 'Ops': 'C80', 'CostTrsm': 'C81', 'CostPle': 'C82', 'SpaceElim': 'C83', 'Combine': 'C84', 'SpaceTrsm': 'C83', 'Blm': 'C40', 'Blocks': 'C62', 'Checked': 'C63', 'CheckedConv': 'C63', 'CheckedPle': 'C64', 'ViewPrograms': 'C67', 'Output': 'C68', 'OutputSlice': 'C71', 'CheckedApi': 'C66', 'CheckedBlm': 'C66', 'CheckedProg': 'C66', 'Programs': 'C65', 'CheckedRec': 'C64', 'CheckedSlice': 'C64', 'Conv': 'C26',
      'Entry': 'C58', 'Gf2e': 'C07', 'Gf2x': 'C01', 'Heap': 'C61', 'History': 'C58', 'M4ri': 'C17', 'MzdPoly': 'C55', 'Mzed': 'C12', 'MzedMat': 'C17',
      'NewtonJohn': 'C22', 'NjEchelon': 'C35', 'Perm': 'C38', 'Ple': 'C31', 'PleRec': 'C33', 'Print': 'C60', 'SliceOps': 'C28', 'Strassen': 'C23',
      'TrsmRec': 'C30', 'View': 'C59', 'Echelon': 'C34', 'Trsm': 'C29'}
OPS = [(r' < ', ' ≤ '), (r' ≤ ', ' < '), (r' \+ 1\b', ''), (r' - 1\b', ''), (r' \+ ', ' - '), (r' - ', ' + '), (r'(?<=[ (])0\b(?!#)', '1'), (r'(?<=[ (])1\b(?!#)', '2'), (r'(?<=[ (])1\b(?!#)', '0'),
       (r'(?<!\.)\b2\b(?!#)', '3'), (r'\b4\b', '3'), (r'\b8\b', '7'), (r'\b16\b', '15'), (r'(?<!#)\b64\b', '63'), (r'&&&', '|||'), (r'\^\^\^', '|||'), (r'<<<', '>>>'), (r'>>>', '<<<'),
       (r'\.nrows', '.ncols'), (r'\.ncols', '.nrows'), (r' = ', ' ≠ '), (r' ≠ ', ' = '), (r' i j\b', ' j i'), (r' A B\b', ' B A'), (r' B A\b', ' A B'), (r' r c\b', ' c r'),
       (r' ∧ ', ' ∨ '), (r' ∨ ', ' ∧ '), (r'\bsome A\b', 'some B'), (r' \* ', ' + '), (r' / ', ' % '), (r' % ', ' / '), (r'\btrue\b', 'false'), (r'\bfalse\b', 'true'),
       (r'\.upper\b', '.lower'), (r'Left\b', 'LeftTrans'), (r'(?<!fun) k\b', ' (k + 1)'), (r'(?<!fun) n\b', ' (n + 1)'), (r'(?<!fun) m\b', ' (m + 1)'), (r'(?<!fun) i\b', ' (i + 1)'), (r'(?<!fun) j\b', ' (j + 1)')]
seen = set()
for l in open(V + '/seeded/LOG.jsonl'):
    d = json.loads(l)['definition'].split()
    for x in d[1:]: seen.add(x)
cands = []
for p in sorted(glob.glob(V + '/lean/Verif/Model/*.lean')):
    b = os.path.basename(p)
    if b in SKIP or (ONLY and b[:-5] not in ONLY): continue
    s = open(p).read()
    ds = list(re.finditer(r'^(?:@\[.*?\]\s*)?(?:noncomputable )?def\s+([^\s:({\[]+)', s, re.M))
    for m in ds:
        if m.group(1) in seen: continue
        e = re.search(r'\n\n', s[m.end():])
        body = s[m.start():m.end() + (e.start() if e else len(s))]
        body = re.split(r'\n(?:/--|theorem|instance|structure|abbrev|namespace|end |open |section)', body)[0]
        i = body.find(':=')
        j = body.find('\n  |')
        st = min([x for x in (i, j) if x >= 0] or [0])
        opts = []
        for (a, c) in OPS:
            for h in re.finditer(a, body[st:]):
                q = st + h.start()
                ln = body.rfind('\n', 0, q) + 1
                if body[ln:q].lstrip().startswith('--') : continue
                opts.append((q, st + h.end(), c, a))
        if not opts: continue
        # choose the operator first, then the place
        ops = sorted({o[3] for o in opts}); op = rnd.choice(ops)
        q, q2, c, _ = rnd.choice([o for o in opts if o[3] == op])
        new = body[:q] + c + body[q2:]
        cands.append(('Model/' + b, m.group(1), body, new, CL.get(b[:-5], 'C58'), f'random mutation: "{body[q:q2].strip()}" replaced by "{c.strip()}" in ...{body[max(0,q-40):q2+40]}...'.replace('\n', ' ')))
rnd.shuffle(cands)
print('MUT=' + repr(cands[:count]))
print(len(cands), file=sys.stderr)
