#!/usr/bin/env python3
"""Generates lean/Verif/Model/PoseidonGLConsts.lean from /repo/poseidon/goldilocks_constants.go and
lean/Verif/Proofs/PoseidonGLTables.lean (auxiliary matrices for the fast-partial-round proof)."""
import re
src = open('/repo/poseidon/goldilocks_constants.go').read()
P = 2**64 - 2**32 + 1
def block(name):
    m = re.search(r'^var ' + name + r' = [^\n]*\n(.*?)^}', src, re.S | re.M)
    start = src[:m.start()].count('\n') + 1
    end = src[:m.end()].count('\n') + 1
    return m.group(1), start, end
def val(tok):
    tok = tok.strip()
    if tok == 'ZERO_VAR': return 0
    m = re.fullmatch(r'(?:frontend\.Variable\()?uint64\((0x[0-9a-fA-F]+|\d+)\)\)?', tok)
    assert m, tok
    return int(m[1], 0)
def toks(b): return [val(t) for t in re.sub(r'//[^\n]*', '', b).replace('\n', ' ').split(',') if t.strip()]
def flat(name):
    b, s, e = block(name); return toks(b), s, e
def flat2(name):
    b, s, e = block(name)
    return [toks(r) for r in re.findall(r'\{([^{}]*)\}', b, re.S)], s, e
out = ['/-!', '# Constant tables of `poseidon/goldilocks_constants.go` (generated by tools/gen_gl_consts.py)', '-/', '',
       'set_option autoImplicit false', '', 'namespace Verif.PoseidonGL', '']
def wrap(xs, ind):
    lines, cur = [], ' ' * ind
    for k, x in enumerate(xs):
        t = str(x) + (', ' if k + 1 < len(xs) else '')
        if len(cur) + len(t) > 110:
            lines.append(cur.rstrip()); cur = ' ' * ind
        cur += t
    lines.append(cur.rstrip())
    return '\n'.join(lines)
T = {}
for n in ['ALL_ROUND_CONSTANTS', 'MDS_MATRIX_CIRC', 'MDS_MATRIX_CIRC_VARS', 'MDS_MATRIX_DIAG', 'MDS_MATRIX_DIAG_VARS', 'FAST_PARTIAL_FIRST_ROUND_CONSTANT', 'FAST_PARTIAL_ROUND_CONSTANTS']:
    v, s, e = flat(n); T[n] = v
    out += ['/-- `%s`, `poseidon/goldilocks_constants.go:%d-%d`. -/' % (n, s, e), 'def %s : List Nat := [' % n, wrap(v, 2) + ']', '']
def table2(n, v, doc):
    return [doc, 'def %s : List (List Nat) := [' % n] + [wrap(r, 2).replace('  ', '  [', 1) + ']' + (',' if k + 1 < len(v) else ']') for k, r in enumerate(v)] + ['']
for n in ['FAST_PARTIAL_ROUND_VS', 'FAST_PARTIAL_ROUND_W_HATS', 'FAST_PARTIAL_ROUND_INITIAL_MATRIX', 'FAST_PARTIAL_ROUND_W_HATS_VARS']:
    v, s, e = flat2(n); T[n] = v
    assert all(len(r) == 11 for r in v)
    out += table2(n, v, '/-- `%s`, `poseidon/goldilocks_constants.go:%d-%d`. -/' % (n, s, e))
for n in ['MDS0TO0', 'MDS0TO0_VAR']:
    m = re.search(r'^var ' + n + r' = (\S+)', src, re.M)
    T[n] = val(m[1])
    out += ['/-- `%s`, `poseidon/goldilocks_constants.go:%d`. -/' % (n, src[:m.start()].count('\n') + 1), 'def %s : Nat := %d' % (n, T[n]), '']
out += ['end Verif.PoseidonGL', '']
open('/verif/lean/Verif/Model/PoseidonGLConsts.lean', 'w').write('\n'.join(out))
print({k: (len(v) if isinstance(v, list) else v) for k, v in T.items()})

# auxiliary
W = 12
circ, diag = T['MDS_MATRIX_CIRC'], T['MDS_MATRIX_DIAG']
M = [[(circ[(j - i) % 12] + (diag[i] if i == j else 0)) % P for j in range(12)] for i in range(12)]
def mm(A, B): return [[sum(A[i][k] * B[k][j] for k in range(12)) % P for j in range(12)] for i in range(12)]
def mv(A, v): return [sum(A[i][k] * v[k] for k in range(12)) % P for i in range(12)]
def inv(A):
    n = 12
    A = [r[:] + [int(i == j) for j in range(n)] for i, r in enumerate(A)]
    for c in range(n):
        p = next(r for r in range(c, n) if A[r][c])
        A[c], A[p] = A[p], A[c]
        iv = pow(A[c][c], -1, P)
        A[c] = [x * iv % P for x in A[c]]
        for r in range(n):
            if r != c and A[r][c]:
                f = A[r][c]
                A[r] = [(x - f * y) % P for x, y in zip(A[r], A[c])]
    return [r[n:] for r in A]
Minv = inv(M)
assert mm(M, Minv) == [[int(i == j) for j in range(12)] for i in range(12)]
# result[d] = sum_r state[r]*INIT[r-1][d-1]
init = T['FAST_PARTIAL_ROUND_INITIAL_MATRIX']
Pm = [[0] * 12 for _ in range(12)]
Pm[0][0] = 1
for d in range(1, 12):
    for r in range(1, 12): Pm[d][r] = init[r - 1][d - 1]
def Fm(i):
    F = [[0] * 12 for _ in range(12)]
    F[0][0] = T['MDS0TO0']
    for k in range(1, 12):
        F[0][k] = T['FAST_PARTIAL_ROUND_W_HATS'][i][k - 1]
        F[k][0] = T['FAST_PARTIAL_ROUND_VS'][i][k - 1]
        F[k][k] = 1
    return F
rc = T['ALL_ROUND_CONSTANTS']
def c(i): return rc[12 * (4 + i):12 * (5 + i)] if i < 22 else [0] * 12
D = mv(Pm, [(a - b) % P for a, b in zip(T['FAST_PARTIAL_FIRST_ROUND_CONSTANT'], c(0))])
Ps, Ds = [Pm], [D]
for i in range(22):
    assert D[0] == 0
    F = Fm(i)
    Pn = mm(mm(F, Pm), Minv)
    assert Pn[0] == [1] + [0] * 11 and all(Pn[k][0] == 0 for k in range(1, 12))
    DD = D[:]; DD[0] = (DD[0] + T['FAST_PARTIAL_ROUND_CONSTANTS'][i]) % P
    D = [(a - b) % P for a, b in zip(mv(F, DD), mv(Pn, c(i + 1)))]
    Pm = Pn
    Ps.append(Pm); Ds.append(D)
assert Pm == [[int(i == j) for j in range(12)] for i in range(12)] and D == [0] * 12
out = ['/-!', '# Auxiliary tables for the fast-partial-round proof (generated by tools/gen_gl_consts.py)',
       '', 'Not part of the model: they are only used as witnesses whose properties are checked in the kernel.', '-/', '',
       'set_option autoImplicit false', '', 'namespace Verif.PoseidonGL', '']
out += ['/-- Change of basis `P_i` relating textbook and fast states before partial round `i`. -/', 'def auxP : List (List (List Nat)) := [']
out += [',\n'.join('  [' + ',\n   '.join('[' + wrap(r, 4).strip() + ']' for r in A) + ']' for A in Ps) + ']', '']
out += table2('auxD', Ds, '/-- Offset `D_i` before partial round `i`. -/')
out += ['end Verif.PoseidonGL', '']
open('/verif/lean/Verif/Proofs/PoseidonGLTables.lean', 'w').write('\n'.join(out))
