#!/usr/bin/env python3
"""Generates from /repo/poseidon/bn254_constants.go:
  lean/Verif/Model/PoseidonBNConsts.lean  (the code's tables)
  lean/Verif/Spec/PoseidonBNConsts.lean   (textbook round constants and Cauchy points; Lean checks them against the Grain LFSR)
  lean/Verif/Proofs/PoseidonBNTables.lean (witnesses: registers of the LFSR, change-of-basis matrices)"""
import re
R = 21888242871839275222246405745257275088548364400416034343698204186575808495617
bn = open('/repo/poseidon/bn254_constants.go').read()
C = [None] * 88; S = [None] * 392
M = [[None] * 4 for _ in range(4)]; Pm = [[None] * 4 for _ in range(4)]
lines = {}
def at(m): return bn[:m.start()].count('\n') + 1
for m in re.finditer(r'(cConstants|sConstants)\[(\d+)\], _ = new\(big.Int\).SetString\("(\w+)", (\d+)\)', bn):
    (C if m[1][0] == 'c' else S)[int(m[2])] = int(m[3], int(m[4])); lines.setdefault(m[1], []).append(at(m))
for m in re.finditer(r'(mMatrix|pMatrix)\[(\d+)\]\[(\d+)\], _ = new\(big.Int\).SetString\("(\w+)", (\d+)\)', bn):
    (M if m[1][0] == 'm' else Pm)[int(m[2])][int(m[3])] = int(m[4], int(m[5])); lines.setdefault(m[1], []).append(at(m))
assert None not in C + S + sum(M, []) + sum(Pm, [])
def lst(xs): return '[\n  ' + ',\n  '.join(str(x) for x in xs) + ']'
def lst2(xs): return '[\n  ' + ',\n  '.join('[' + ',\n   '.join(str(x) for x in r) + ']' for r in xs) + ']'
def cite(n): return '`%s`, `poseidon/bn254_constants.go:%d-%d`.' % (n, min(lines[n]), max(lines[n]))
def hdr(t, ns): return ['/-!', '# ' + t + ' (generated by tools/gen_bn_consts.py)', '-/', '', 'set_option autoImplicit false', '', 'namespace ' + ns, '']
o = hdr('Constant tables of `poseidon/bn254_constants.go`', 'Verif.PoseidonBN')
for n, v in [('cConstants', C), ('sConstants', S)]: o += ['/-- %s -/' % cite(n), 'def %s : List Nat := %s' % (n, lst(v)), '']
for n, v in [('mMatrix', M), ('pMatrix', Pm)]: o += ['/-- %s -/' % cite(n), 'def %s : List (List Nat) := %s' % (n, lst2(v)), '']
o += ['end Verif.PoseidonBN', '']
open('/verif/lean/Verif/Model/PoseidonBNConsts.lean', 'w').write('\n'.join(o))
# Grain
def nb(s): return (s ^ s >> 13 ^ s >> 23 ^ s >> 38 ^ s >> 51 ^ s >> 62) & 1
def step(s): return (s >> 1) + (nb(s) << 79)
bits = []
def ap(v, w): bits.extend(int(b) for b in bin(v)[2:].zfill(w))
ap(1, 2); ap(0, 4); ap(254, 12); ap(4, 12); ap(8, 10); ap(56, 10); bits.extend([1] * 30)
s = sum(b << i for i, b in enumerate(bits))
for _ in range(160): s = step(s)
certs = []; RC = []
def draw():
    global s
    s_in, v, need, n = s, 0, 254, 0
    while need:
        b = nb(s); s1 = step(s); c = nb(s1); s = step(s1); n += 1
        if b: v = 2 * v + c; need -= 1
    certs.append((s_in, n, v)); return v
while len(RC) < 256:
    v = draw()
    if v < R: RC.append(v)
XY = [draw() % R for _ in range(8)]
assert len(set(XY)) == 8
fin = s
Mx = [[pow(XY[i] + XY[4 + j], -1, R) for j in range(4)] for i in range(4)]
assert [list(c) for c in zip(*Mx)] == M
o = hdr('Textbook Poseidon constants for BN254, width 4: round constants and Cauchy points', 'Verif.Spec.BN')
o += ['/-- Round constants, four per round. Checked against the Grain LFSR in C24. -/', 'def roundConstants : List Nat := ' + lst(RC), '',
      '/-- Cauchy points `x_i` and `y_j` of the MDS matrix. Checked against the Grain LFSR in C24. -/',
      'def xs : List Nat := ' + lst(XY[:4]), '', 'def ys : List Nat := ' + lst(XY[4:]), '', 'end Verif.Spec.BN', '']
open('/verif/lean/Verif/Spec/PoseidonBNConsts.lean', 'w').write('\n'.join(o))
# change of basis
def mm(A, B): return [[sum(A[i][k] * B[k][j] for k in range(4)) % R for j in range(4)] for i in range(4)]
def mv(A, v): return [sum(A[i][k] * v[k] for k in range(4)) % R for i in range(4)]
def inv(A):
    n = 4
    A = [r[:] + [int(i == j) for j in range(n)] for i, r in enumerate(A)]
    for c in range(n):
        p = next(r for r in range(c, n) if A[r][c]); A[c], A[p] = A[p], A[c]
        iv = pow(A[c][c], -1, R); A[c] = [x * iv % R for x in A[c]]
        for r in range(n):
            if r != c and A[r][c]:
                f = A[r][c]; A[r] = [(x - f * y) % R for x, y in zip(A[r], A[c])]
    return [r[n:] for r in A]
Mi = inv(Mx)
PT = [list(c) for c in zip(*Pm)]
def rc(r): return RC[4 * r:4 * r + 4]
def F(i):
    b = S[7 * i:7 * i + 7]
    return [b[:4], [b[4], 1, 0, 0], [b[5], 0, 1, 0], [b[6], 0, 0, 1]]
Q = mm(PT, Mi)
D = [(a - b) % R for a, b in zip(mv(PT, C[16:20]), mv(Q, rc(4)))]
Qs, Ds = [Q], [D]
for i in range(56):
    assert D[0] == 0
    Qn = mm(mm(F(i), Q), Mi)
    assert Qn[0] == [1, 0, 0, 0] and all(Qn[k][0] == 0 for k in range(1, 4))
    DD = D[:]; DD[0] = (DD[0] + C[20 + i]) % R
    D = [(a - b) % R for a, b in zip(mv(F(i), DD), mv(Qn, rc(5 + i)))]
    Q = Qn; Qs.append(Q); Ds.append(D)
assert Q == [[int(i == j) for j in range(4)] for i in range(4)] and D == [0] * 4
o = hdr('Witness tables for the BN254 Poseidon proofs', 'Verif.PoseidonBN')
o += ['/-- Entries of the MDS matrix. -/', 'def mdsN : List (List Nat) := ' + lst2(Mx), '',
      '/-- Change of basis before partial round `i`. -/',
      'def auxQ : List (List (List Nat)) := [\n  ' + ',\n  '.join('[' + ',\n   '.join('[' + ', '.join(map(str, r)) + ']' for r in A) + ']' for A in Qs) + ']', '',
      '/-- Offset before partial round `i`. -/', 'def auxD : List (List Nat) := ' + lst2(Ds), '',
      '/-- Per drawn word: LFSR register before, number of bit pairs consumed, value. -/',
      'def grainCerts : List (Nat × Nat × Nat) := [\n  ' + ',\n  '.join('(%d, %d, %d)' % c for c in certs) + ']', '',
      '/-- Register after the last draw. -/', 'def grainFinal : Nat := %d' % fin, '', 'end Verif.PoseidonBN', '']
open('/verif/lean/Verif/Proofs/PoseidonBNTables.lean', 'w').write('\n'.join(o))
print(len(certs), len(RC))
