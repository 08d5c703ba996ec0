#!/usr/bin/env python3
"""Generate Model/BlmTables.lean (tables of /repo/src/blm.c) and Proofs/BlmCert.lean (certificates)."""
import re, sys
root = '/verif/lean/Verif/'
src = open('/repo/src/blm.c').read()
lines = src.split('\n')
def lineno(pos): return src.count('\n', 0, pos) + 1
start = src.index('mzd_t *_small_multiplication_map(const')
end = src.index('_crt_modred_mat(const')
seg = src[start:end]
N, cite, dims = {}, {}, {}
ms = list(re.finditer(r'  case\s+(\d+):', seg))
for k, m in enumerate(ms):
    d = int(m.group(1))
    stop = ms[k+1].start() if k + 1 < len(ms) else seg.index('default:')
    blk = seg[m.start():stop]
    dims[d] = tuple(int(x) for x in re.search(r'mzd_init\(\s*(\d+),\s*(\d+)\)', blk).groups())
    rows = {int(a): int(b, 16) for a, b in re.findall(r'rows\[\s*(\d+)\]\[0\]\s*=\s*(0x[0-9a-f]+)', blk)}
    N[d] = [rows.get(i, 0) for i in range(dims[d][0])]
    assert len(rows) == dims[d][0]
    cite[d] = (lineno(start + m.start()), lineno(start + m.start() + len(blk.rstrip())) )
costs = [int(x) for x in re.search(r'\nconst int costs\[17\] = \{(.*?)\}', src).group(1).split(',')]
cl = lineno(src.index('\nconst int costs[17]') + 1)
out = ['/-!', 'Generated by tools/gen_blm.py from blm.c.', '-/', '', 'namespace M4rie', '',
  f'/-- blm.c:{cl} `costs`. -/', f'def crtCosts : List Nat := {costs}', '']
for d in sorted(N):
    out += [f'/-- blm.c:{cite[d][0]}-{cite[d][1]} `_small_multiplication_map`, case {d}: the words `A->rows[i][0]` of the {dims[d][0]} x {dims[d][1]} matrix. -/',
            f'def smallMap{d} : List Nat := [' + ', '.join(hex(x) for x in N[d]) + ']', '']
sl, el = lineno(start), lineno(end)
el = next(i for i in range(cite[16][1], 10**6) if lines[i] == '}') + 1
out += [f'/-- blm.c:{sl}-{el} `_small_multiplication_map(degree)`: the words of its rows; `none` is the `default:` branch (`m4ri_die`).',
        'The matrix has `degree` columns and as many rows as the list has entries. -/', 'def smallMap? : Nat → Option (List Nat)']
for d in sorted(N):
    assert dims[d][1] == d and dims[d][0] == costs[d]
    out.append(f'  | {d} => some smallMap{d}')
out += ['  | _ => none', '', 'end M4rie', '']
open(root + 'Model/BlmTables.lean', 'w').write('\n'.join(out))

# certificates
def col(d, a):  # bits k: N_k has bit a
    return sum(((r >> a) & 1) << k for k, r in enumerate(N[d]))
def solve(vecs, target, nb):
    """mask of vecs xoring to target"""
    basis = {}
    for i, v in enumerate(vecs):
        m = 1 << i
        while v:
            h = v.bit_length() - 1
            if h in basis:
                v ^= basis[h][0]; m ^= basis[h][1]
            else:
                basis[h] = (v, m); break
    m = 0; v = target
    while v:
        h = v.bit_length() - 1
        v ^= basis[h][0]; m ^= basis[h][1]
    return m
out = ['import Verif.Model.BlmTables', '', '/-!', 'Generated by tools/gen_blm.py: certificates for the tables of `_small_multiplication_map`.', '',
  '`smallRec d`: bit `t` of entry `k` says that product `k` contributes to the coefficient of `x^t`.',
  '`smallSpan d`: bit `i` of entry `k` says that the `i`-th pair `(v,w)`, `v ≤ w` (ordered by `v`, then `w`), contributes to the unit vector `k`.', '-/', '', 'namespace M4rie', '']
for d in sorted(N):
    m = costs[d]
    cs = [col(d, a) for a in range(d)]
    # functional h_t on F_2^m with h_t . (c_a & c_b) = [a+b=t]: solve transposed system
    pairs = [(a, b) for a in range(d) for b in range(a, d)]
    rows = [cs[a] & cs[b] for a, b in pairs]
    # unknown h (m bits): for pair i: parity(rows[i]&h) = rhs_i. columns: colvec_k = bits i
    colv = [sum(((rows[i] >> k) & 1) << i for i in range(len(pairs))) for k in range(m)]
    rec = []
    for t in range(2*d-1):
        rhs = sum((1 << i) for i, (a, b) in enumerate(pairs) if a + b == t)
        h = solve(colv, rhs, m)
        rec.append(h)
    sp = [solve(rows, 1 << k, m) for k in range(m)]
    recT = [sum(((rec[t] >> k) & 1) << t for t in range(2*d-1)) for k in range(m)]
    out += [f'def smallRec{d} : List Nat := [' + ', '.join(hex(x) for x in recT) + ']', '',
            f'def smallSpan{d} : List Nat := [' + ', '.join(hex(x) for x in sp) + ']', '']
for nm in ('Rec', 'Span'):
    out += [f'def small{nm} : Nat → List Nat'] + [f'  | {d} => small{nm}{d}' for d in sorted(N)] + ['  | _ => []', '']
out += ['end M4rie', '']
open(root + 'Proofs/BlmCert.lean', 'w').write('\n'.join(out))
