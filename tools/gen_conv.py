#!/usr/bin/env python3
"""Extracts the unrolled statements of the conversions between packed and sliced matrices
(conversion.c, conversion_slice8.c, conversion_slice16.c, conversion_cling8.c, conversion_cling16.c)
into lean/Verif/Model/ConvTables.lean.  Every statement of every loop body is parsed (the script
fails on anything it does not recognise); constants are copied from the source."""
import re
D = '/repo/src/'
def load(fn):
    src = open(D + fn).read()
    s = re.sub(r'/\*.*?\*/|//[^\n]*', lambda m: re.sub(r'[^\n]', ' ', m.group(0)), src, flags=re.S)
    return s
def block(s, pos):
    """end of the brace block starting at the first { after pos"""
    i = s.index('{', pos); d = 0
    while True:
        d += (s[i] == '{') - (s[i] == '}')
        i += 1
        if d == 0: return i
out = []
ln = lambda s, p: s.count('\n', 0, p) + 1
W = {'02': 2, '04': 4, '08': 8, '16': 16}

def expand(body):
    def bulk(m):
        T, sh = m.group(1), m.group(2)
        return T + '[j2] |= ' + ' | '.join(f'word_slice_64_16(f[j+{i}]<<{sh} & x80008000)>>{60-4*i}' for i in range(16)) + ';'
    body = re.sub(r'word_slice_64_16_combine_bulk\((t\d), j2, f, j,\s*(\d+)\);', bulk, body)
    def rest(m):
        return ' '.join(f'r{k} |= word_slice_64_16(f[j+{m.group(1)}]<<{15-k} & x80008000)>>{m.group(2)};' for k in range(8))
    return re.sub(r'word_slice_64_16_slice_rest\(f, j\+\s*(\d+),\s*(\d+)\);', rest, body)

# the two macros themselves are checked here (conversion_slice16.c:30-49)
S16 = load('conversion_slice16.c')
mb = re.search(r'#define word_slice_64_16_combine_bulk\(T, Ti, F, Fi, shift\)\s*\\\n(.*?;)\n', S16, flags=re.S).group(1)
assert re.findall(r'F\[Fi\+\s*(\d+)\]<<shift & x80008000\)>>\s*(\d+)', mb) == [(str(i), str(60-4*i)) for i in range(16)]
assert re.sub(r'word_slice_64_16\(F\[Fi\+\s*\d+\]<<shift & x80008000\)>>\s*\d+|[\s\\|]', '', mb) == 'T[Ti]=;', mb
mr = re.search(r'#define word_slice_64_16_slice_rest\(F, Fi, shift\)\s*\\\n(.*?)\n\n', S16, flags=re.S).group(1)
assert re.findall(r'r(\d) \|= word_slice_64_16\(F\[Fi\]<<\s*(\d+) & x80008000\)>> shift;', mr) == [(str(k), str(15-k)) for k in range(8)]

def slice_pass(s, a, e, name, fn):
    body = expand(s[a:e]); w = None
    decl = dict((int(x), int(k)) for x, k in re.findall(r'word \*t(\d) = T->x\[\s*(\d+)\]->rows\[i\];', body))
    body2 = re.sub(r'word \*t\d = T->x\[\s*\d+\]->rows\[i\];|const word \* const f\s+= F->x->rows\[i\];', '', body)
    m = re.search(r'for\(j=0, j2=0; j\+(\d+) < F->x->width; j\+=(\d+),j2\+\+\) \{', body2)
    n = int(m.group(1)); assert n == int(m.group(2))
    be = block(body2, m.start())
    term = re.compile(r'word_slice_64_(\d\d)\(f\[j\+\s*(\d+)\]<<\s*(\d+) & (x[80]+)\)>>\s*(\d+)')
    def terms(t):
        r = []
        for x in re.sub(r'\\\n', ' ', t).split('|'):
            q = term.fullmatch(x.strip()); assert q, x
            assert W[q.group(1)] == n and q.group(4) == {4: 'x88888888', 8: 'x80808080', 16: 'x80008000'}[n]
            r.append((int(q.group(2)), int(q.group(3)), int(q.group(5))))
        return r
    bulk = []
    for st in body2[m.end():be-1].split(';'):
        if not st.strip(): continue
        q = re.fullmatch(r't(\d)\[j2\] (\|?=) (.*)', st.strip(), flags=re.S); assert q, st
        bulk.append((decl[int(q.group(1))], q.group(2) == '=', terms(q.group(3))))
    rest = body2[be:]
    m2 = re.search(r'switch\(F->x->width - j\) \{', rest); se = block(rest, m2.start())
    zero = rest[:m2.start()]
    assert set(re.findall(r'r(\d) =', zero)) == set(str(k) for k in decl) and re.fullmatch(r'(\s*r\d =)+ 0;\s*', zero), zero
    sw = rest[m2.end():se-1]
    parts = re.split(r'case\s+(\d+):', sw); assert not parts[0].strip()
    cases = []
    for lab, st in zip(parts[1::2], parts[2::2]):
        if lab == '1':
            assert re.search(r'break;\s*default:\s*m4ri_die\("impossible"\);\s*$', st); st = st[:st.index('break;')]
        l = []
        for x in st.split(';'):
            if not x.strip(): continue
            q = re.fullmatch(r'r(\d) \|= (.*)', x.strip(), flags=re.S); assert q, x
            t = terms(q.group(2)); assert len(t) == 1
            l.append((decl[int(q.group(1))], t[0]))
        cases.append((int(lab), l))
    fin = rest[se:]
    f = re.findall(r't(\d)\[j2\] \|= r(\d) & bitmask_end;', fin); assert all(a == b for a, b in f)
    assert re.fullmatch(r'[\s}]*', re.sub(r't\d\[j2\] \|= r\d & bitmask_end;', '', fin)), fin
    finals = [decl[int(a)] for a, _ in f]
    T = lambda t: f"⟨{t[0]}, {t[1]}, {t[2]}⟩"
    out.append(f"/-- {fn}:{ln(s,a)}-{ln(s,e)}. -/\ndef {name} : SlicePass where\n  bulk := [\n    " +
      ",\n    ".join(f"({k}, {str(asg).lower()}, [{', '.join(map(T, ts))}])" for k, asg, ts in bulk) +
      "]\n  cases := [\n    " + ",\n    ".join(f"({c}, [{', '.join(f'({k}, {T(t)})' for k, t in l)}])" for c, l in cases) +
      f"]\n  finals := {finals}\n")
    print(name, n, ln(s, a), ln(s, e), finals)

def loops(s, a, e, pat):
    r = []; i = a
    while True:
        m = re.compile(pat).search(s, i, e)
        if not m: return r
        b = block(s, m.start()); r.append((m.start(), s.index('{', m.start()) + 1, b)); i = b
RP = r'for\(size_t i=0; i<T->nrows; i\+\+\) \{'
C = load('conversion.c')
i4 = C.index('mzd_slice_t *_mzed_slice4(')
for nm, (h, a, e) in zip(['slicePass4_3', 'slicePass4_4'], loops(C, i4, block(C, i4), RP)): slice_pass(C, a, e, nm, 'conversion.c')
S8 = load('conversion_slice8.c')
for nm, (h, a, e) in zip([f'slicePass8_{k}' for k in (8, 7, 6, 5)], loops(S8, 0, len(S8), RP)): slice_pass(S8, a, e, nm, 'conversion_slice8.c')
l16 = loops(S16, 0, len(S16), RP); assert len(l16) == 9
for nm, (h, a, e) in zip(['slicePass16_lo', 'slicePass16_mid', 'slicePass16_16', 'slicePass16_15', 'slicePass16_14', 'slicePass16_13',
                          'slicePass16_11', 'slicePass16_10', 'slicePass16_9'], l16): slice_pass(S16, a, e, nm, 'conversion_slice16.c')

def cling_pass(s, a, e, name, fn):
    body = s[a:e]
    nested = body.find('switch(T->finite_field->degree)')
    extra = '' if nested < 0 else body[nested:]
    if nested >= 0: body = body[:nested]
    dpat = r'const word \*f(\d+)\s*= F->x\[\s*(\d+)\]->rows\[i\];'
    decl = dict((int(x), int(k)) for x, k in re.findall(dpat, body))
    body = re.sub(dpat + r'|word \*t  = T->x->rows\[i\];', '', body)
    m = re.search(r'for\(j=0, j2=0; j\+(\d+) < T->x->width; j\+=(\d+), j2\+\+\) \{', body); n = int(m.group(1)); assert n == int(m.group(2))
    assert not body[:m.start()].strip()
    be = block(body, m.start())
    term = re.compile(r'\(word_cling_64_(\d\d)\(f(\d+)\[j2\]<<\s*(\d+)\)>>\s*(\d+)\)')
    def terms(t):
        r = []
        for x in re.sub(r'\\\n', ' ', t).split('|'):
            q = term.fullmatch(x.strip()); assert q, x
            assert W[q.group(1)] == n
            r.append((decl[int(q.group(2))], int(q.group(3)), int(q.group(4))))
        return r
    def stmts(t):
        r = []; tmp = None
        for st in t.split(';'):
            st = st.strip()
            if not st: continue
            q = re.fullmatch(r't\[j\+\s*(\d+)\] (\|?=) ([^&]*)', st, flags=re.S)
            if q: r.append((int(q.group(1)), '.set' if q.group(2) == '=' else '.or', terms(q.group(3)))); continue
            q = re.fullmatch(r'tmp\s*=\s*(.*)', st, flags=re.S)
            if q: tmp = terms(q.group(1)); continue
            q = re.fullmatch(r't\[j\+(\d+)\] = \(t\[j\+(\d+)\] & ~bitmask_end\) \| \(tmp & bitmask_end\)', st); assert q, st
            assert q.group(1) == q.group(2) and tmp
            r.append((int(q.group(1)), '.masked', tmp)); tmp = None
        return r
    bulk = stmts(body[m.end():be-1])
    rest = body[be:]
    m2 = re.search(r'switch\(T->x->width - j\) \{', rest); se = block(rest, m2.start())
    pre = rest[:m2.start()].strip()
    save = bool(re.fullmatch(r'register word tmp\s*= t\[T->x->width\s*-\s*1\];', pre)); assert save or pre in ('', 'register word tmp=0;'), pre
    sw = rest[m2.end():se-1]
    sw = re.sub(r'default:\s*m4ri_die\("impossible"\);', '', sw)
    parts = re.split(r'case\s+(\d+):', sw); cases = []
    for lab, st in zip(parts[1::2], parts[2::2]):
        brk = 'break;' in st
        assert brk == (not save or lab == '1')
        cases.append((int(lab), stmts(st.replace('break;', ''))))
    fin = rest[se:]
    if save:
        k = 't[T->x->width-1] = (t[T->x->width-1] & bitmask_end) | (tmp & ~bitmask_end);'
        assert fin.strip().startswith(k), fin
        fin = fin.strip()[len(k):]
    assert not fin.strip().rstrip('}').strip(), fin
    T = lambda t: f"⟨{t[0]}, {t[1]}, {t[2]}⟩"
    St = lambda x: f"({x[0]}, {x[1]}, [{', '.join(map(T, x[2]))}])"
    out.append(f"/-- {fn}:{ln(s,a)}-{ln(s,a+len(s[a:e].rstrip()))}{' (up to the nested switch)' if extra else ''}. -/\ndef {name} : ClingPass where\n  bulk := [\n    " + ",\n    ".join(map(St, bulk)) +
      "]\n  cases := [\n    " + ",\n    ".join(f"({c}, [{', '.join(map(St, l))}])" for c, l in cases) +
      f"]\n  fall := {str(save).lower()}\n")
    print(name, n, ln(s, a), sorted(decl.values()), save, len(extra))
    return extra
i2 = C.index('mzed_t *_mzed_cling2(T' if 'mzed_t *_mzed_cling2(T' in C else 'mzed_t *_mzed_cling2(mzed_t *T')
(h, a, e), = loops(C, i2, block(C, i2), RP); cling_pass(C, a, e, 'clingPass2', 'conversion.c')
RQ = r'for\(rci_t i=0; i<T->nrows; i\+\+\) \{'
i4 = C.index('mzed_t *_mzed_cling4(mzed_t *T')
for nm, (h, a, e) in zip(['clingPass4_4', 'clingPass4_3'], loops(C, i4, block(C, i4), RQ)): cling_pass(C, a, e, nm, 'conversion.c')
C8 = load('conversion_cling8.c')
for nm, (h, a, e) in zip([f'clingPass8_{k}' for k in (8, 7, 6, 5)], loops(C8, 0, len(C8), RQ)): assert not cling_pass(C8, a, e, nm, 'conversion_cling8.c')
C16 = load('conversion_cling16.c')
l = loops(C16, 0, len(C16), RQ); assert len(l) == 5
for nm, (h, a, e) in zip(['clingPass16_lo', 'clingPass16_9', 'clingPass16_10', 'clingPass16_11'], l): assert not cling_pass(C16, a, e, nm, 'conversion_cling16.c')
h, a, e = l[4]
inner = loops(C16, a, e, RQ); assert len(inner) == 4
x = cling_pass(C16, a, e, 'clingPass16_mid', 'conversion_cling16.c')
assert x.startswith('switch(T->finite_field->degree) {')
for nm, (h, a, e) in zip(['clingPass16_13', 'clingPass16_14', 'clingPass16_15', 'clingPass16_16'], inner): assert not cling_pass(C16, a, e, nm, 'conversion_cling16.c')
open('/verif/lean/Verif/Model/ConvTables.lean', 'w').write('''/-!
Generated by tools/gen_conv.py from conversion.c, conversion_slice8.c, conversion_slice16.c,
conversion_cling8.c and conversion_cling16.c: the statements of the loop bodies, in source order.
-/

namespace M4rie

/-- `word_slice_64_..(f[j+word]<<lsh & mask)>>rsh` -/
structure SliceTerm where
  word : Nat
  lsh : Nat
  rsh : Nat
deriving DecidableEq

/-- One loop over the rows of a `_mzed_slice*` function.  `bulk`: statements `t_k[j2] = ..` (`true`) or
`t_k[j2] |= ..` (`false`) of the inner loop, with the slice index `k`; `cases`: the switch, one entry per label,
statements `r_k |= ..`, each case falling through to the next; `finals`: the `k` with
`t_k[j2] |= r_k & bitmask_end`. -/
structure SlicePass where
  bulk : List (Nat × Bool × List SliceTerm)
  cases : List (Nat × List (Nat × SliceTerm))
  finals : List Nat

/-- `word_cling_64_..(f_slice[j2]<<lsh)>>rsh` -/
structure ClingTerm where
  slice : Nat
  lsh : Nat
  rsh : Nat
deriving DecidableEq

/-- `t[..] = v`, `t[..] |= v`, `t[..] = (t[..] & ~bitmask_end) | (v & bitmask_end)` -/
inductive ClingOp where
  | set | or | masked
deriving DecidableEq

/-- One loop over the rows of a `_mzed_cling*` function: the statements (word offset, operation, terms) of the
inner loop and of the switch.  `fall`: the cases fall through, the last word is saved before the switch and
recombined under `bitmask_end` after it; otherwise every case ends in `break`. -/
structure ClingPass where
  bulk : List (Nat × ClingOp × List ClingTerm)
  cases : List (Nat × List (Nat × ClingOp × List ClingTerm))
  fall : Bool

''' + "\n".join(out) + "\nend M4rie\n")
