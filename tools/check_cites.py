#!/usr/bin/env python3
"""Check citations `file:a-b ... `name(` in the model comments: the C function named right after the citation
must occur in the cited lines.  Usage: check_cites.py [--fix]"""
import re, glob, os, sys
REPO = '/repo/src'
fix = '--fix' in sys.argv
bad = 0
def func_range(lines, name):
    """the lines of the definition of `name`"""
    for i, l in enumerate(lines):
        if re.search(r'\b%s\s*\(' % re.escape(name), l) and not l.startswith((' ', '\t', '*', '#', '/')):
            # definition: a '{' before a ';'
            j = i
            text = ''
            while j < len(lines):
                text += lines[j]
                if '{' in lines[j]: break
                if ';' in lines[j]: text = None; break
                j += 1
            if text is None: continue
            depth = 0
            for k in range(j, len(lines)):
                depth += lines[k].count('{') - lines[k].count('}')
                if depth <= 0 and k >= j and '}' in lines[k]:
                    return i + 1, k + 1
    return None
for p in sorted(glob.glob('/verif/lean/Verif/Model/*.lean')):
    s = open(p).read()
    def rep(m):
        global bad
        f, a, b, name = m.group(1), int(m.group(2)), int(m.group(3)), m.group(4)
        path = os.path.join(REPO, f)
        if not os.path.exists(path):
            print(p, 'no file', f); bad += 1; return m.group(0)
        lines = open(path).read().split('\n')
        r = func_range(lines, name)
        if r is None:
            if not any(re.search(r'\b%s\b' % re.escape(name), l) for l in lines[a-1:b]):
                print(os.path.basename(p), 'not found', f, a, b, name); bad += 1
            return m.group(0)
        if (a, b) != r:
            inside = r[0] <= a and b <= r[1]
            if not inside:
                print(os.path.basename(p), f, name, (a, b), 'should be', r); bad += 1
                if fix: return m.group(0).replace('%s:%d-%d' % (f, a, b), '%s:%d-%d' % (f, r[0], r[1]))
        return m.group(0)
    t = re.sub(r'([a-z0-9_]+\.(?:c|h|inl)):(\d+)-(\d+) `([A-Za-z0-9_]+)', rep, s)
    if fix and t != s: open(p, 'w').write(t)
print('bad', bad)
