#!/usr/bin/env python3
"""Extracts the statements of the formulas in /repo/src/karatsuba.c into lean/Verif/Model/KaraTables.lean:
one entry (indices of the a summands, of the b summands, targets) per product, in source order."""
import re
src = open('/repo/src/karatsuba.c').read()
line = lambda pos: src.count('\n', 0, pos) + 1
blank = lambda m: re.sub(r'[^\n]', ' ', m.group(0))
s = re.sub(r'/\*.*?\*/|//[^\n]*', blank, src, flags=re.S)
heads = list(re.finditer(r'void _mzd_ptr_addmul_karatsuba(\d+)\(const gf2e \*ff, mzd_t \*\*X, const mzd_t \*\*A, const mzd_t \*\*B\) \{', s))
def summands(t, v, tmp):
    t = t.strip()
    m = re.fullmatch(v + r'(\d+)', t)
    if m: return [int(m.group(1))]
    m = re.fullmatch(r'mzd_add\(' + tmp + r',\s*' + v + r'(\d+),\s*' + v + r'(\d+)\)', t)
    if m: return [int(m.group(1)), int(m.group(2))]
    m = re.fullmatch(r'mzd_sum\(' + tmp + r',\s*(\d+),\s*(.*)\)', t, flags=re.S)
    assert m, t
    l = [x.strip() for x in m.group(2).split(',')]
    assert len(l) == int(m.group(1)) > 1, t
    assert all(x[0] == v for x in l), t
    return [int(x[1:]) for x in l]
out = []
for h, nx in zip(heads, heads[1:] + [None]):
    d = int(h.group(1)); body = s[h.end(): nx.start() if nx else len(s)]
    decl = re.findall(r'const mzd_t \*([ab])(\d+)\s*= ([AB])\[\s*(\d+)\];', body)
    assert sorted(decl) == sorted((v, str(i), v.upper(), str(i)) for v in 'ab' for i in range(d)), d
    body = re.sub(r'const mzd_t \*([ab])(\d+)\s*= ([AB])\[\s*(\d+)\];', blank, body)
    terms = []
    if d == 2:
        m = re.search(r'mzd_addmul\(X\[1\], mzd_add\(t0, a0, a1\), mzd_add\(t1, b0, b1\), 0\);', body)
        body = body[:m.start()] + blank(m) + body[m.end():]   # modelled separately
    pat = r'_mzd_ptr_add_to_all\(ff,\s*mzd_mul\(t0,\s*(.*?),\s*0\),\s*X,\s*(\d+),\s*([\d,\s]+)\);'
    def take(m):
        pq = m.group(1); dep = 0; cut = None
        for i, c in enumerate(pq):
            dep += (c == '(') - (c == ')')
            if c == ',' and dep == 0: assert cut is None; cut = i
        targets = [int(x) for x in m.group(3).split(',')]
        assert len(targets) == int(m.group(2)), m.group(0)
        terms.append((summands(pq[:cut], 'a', 't1'), summands(pq[cut+1:], 'b', 't2'), targets))
        return blank(m)
    body = re.sub(pat, take, body, flags=re.S)
    body = re.sub(r'(mzd_t \*)?t\d = mzd_init\([^;]*;|mzd_free\(t\d\);', '', body)
    assert re.fullmatch(r'[\s;}]*', body), body
    out.append(f"/-- karatsuba.c:{line(h.start())}-{line(h.end() + body.rstrip().count('x') + len(s[h.end(): nx.start() if nx else len(s)].rstrip()))} "
               f"`_mzd_ptr_addmul_karatsuba{d}`" + (" (after its first statement, `X[1] += (a0+a1)*(b0+b1)`)" if d == 2 else "") +
               f". -/\ndef karaTerms{d} : List KaraTerm := [\n  " + ",\n  ".join(f"⟨{a}, {b}, {t}⟩" for a, b, t in terms) + "]\n")
    print(d, len(terms))
open('/verif/lean/Verif/Model/KaraTables.lean', 'w').write('''/-!
Generated by tools/gen_kara.py from karatsuba.c.  One entry per statement
`_mzd_ptr_add_to_all(ff, mzd_mul(t0, mzd_sum(t1, .., a_i, ..), mzd_sum(t2, .., b_j, ..), 0), X, n, t, ..)`:
the indices `i`, `j` of the summands (in order) and the targets `t`.
-/

namespace M4rie

/-- one statement of a formula -/
structure KaraTerm where
  as : List Nat
  bs : List Nat
  targets : List Nat

''' + "\n".join(out) + "\nend M4rie\n")
