#!/usr/bin/env python3
"""Certificates for the comparison of the two reactivity methods (C81).

Writes lean/Verif/Data/XsRows*.lean, XsAcc.lean and lean/Verif/Lemmas/XsSum*.lean.  Nothing in these
files is trusted: every number is checked by Lean's kernel.
"""
import os, math
from decimal import Decimal
from fractions import Fraction as Fr
ROOT = os.path.join(os.path.dirname(os.path.abspath(__file__)), '..', 'lean', 'Verif')
XS = '/repo/tokamak_neutron_source/data/cross_sections/'
FILES = ['D_T_He_n.txt', 'D_D_He3_n.txt', 'D_D_T_p.txt']
# 1 + m_collider / m_target
RHO = [(1 + Fr(20141017, 30160493), 1 + Fr(20141018, 30160492)), (Fr(2), Fr(2)), (Fr(2), Fr(2))]
S = 1 << 96
B = 1 << 208
XD = 10 ** 44
NM, NJ, CH = 66, 9, 200

def load(f):
    rows = []
    for l in open(XS + f):
        l = l.split('#')[0].split()
        if len(l) == 2:
            rows.append((int(Decimal(l[0]) * 10 ** 12), int(Decimal(l[1]) * 10 ** 50)))
    return rows[:-1]

def iroot(n, k):
    x = 1 << (-(-n.bit_length() // k))
    while True:
        y = ((k - 1) * x + n // x ** (k - 1)) // k
        if y >= x:
            return x
        x = y

def exp_chain(P, n, a, b):
    s = P - (P * a // (b * 2 ** n) + 1)
    for _ in range(n):
        s = s * s // P
    return s

g = [iroot(10 ** (i + 9 * 333), 333) for i in range(1000)]
q = [exp_chain(1 << 200, 100, x + 1, 6400 * 10 ** 9) >> 104 for x in g]

def weights(r):
    rows = load(FILES[r]); rl, rh = RHO[r]
    out, j = [], 0
    for i in range(1000):
        gp = g[max(i - 1, 0)]; gn = g[min(i + 1, 999)]
        lo = rl.numerator * g[i] // rl.denominator
        hi = (rh.numerator * (g[i] + 1) + rh.denominator - 1) // rh.denominator
        while rows[j + 1][0] < hi:
            j += 1
        p, t = rows[j], rows[j + 1]
        assert p[0] <= lo and hi <= t[0]
        Nl = p[1] * (t[0] - hi) + t[1] * (lo - p[0])
        out.append((gn - gp - 1) * Nl * g[i] // ((t[0] - p[0]) * XD))
    return out

c = [weights(r) for r in range(3)]
V = [c[0][i] + B * c[1][i] + B * B * c[2][i] for i in range(1000)]

def q63(x):
    a = x
    for _ in range(5):
        a = a * a // S * x // S
    return a

def sums():
    acc = [[0] * NJ for _ in range(NM)]
    out = [acc]
    for k in range(0, 1000, CH):
        acc = [list(l) for l in acc]
        for i in range(k, k + CH):
            b = q63(q[i])
            for m in range(NM):
                x = b
                for j in range(NJ):
                    acc[m][j] += x * V[i]
                    x = x * x // S
                b = b * q[i] // S
        out.append(acc)
    return out

# Bosch-Hale: A, and integer polynomials U, V with kappa = A U / V in beta = 1/T
F = Fr
def bh(bg, c, k):
    c = [Fr(x) * k for x in c]
    Q = [c[5], c[3], c[1], Fr(k)]; N = [c[4], c[2], c[0], Fr(0)]
    P = [x - y for x, y in zip(Q, N)]
    if Q[0] == 0 and P[0] == 0:
        Q = Q[1:]; P = P[1:]
    A = Fr(bg) ** 2 / 4
    assert all(x.denominator == 1 for x in P + Q)
    return A, [0] + [int(x) for x in P], [int(x) for x in Q]
BH = [bh('34.3827', ['1.51361e-2', '7.51886e-2', '4.60643e-3', '1.35e-2', '-1.0675e-4', '1.366e-5'], 10 ** 8),
      bh('31.397', ['5.85778e-3', '7.68222e-3', 0, '-2.964e-6', 0, 0], 10 ** 9),
      bh('31.397', ['3.41267e-3', '1.99167e-3', 0, '1.0506e-5', 0, 0], 10 ** 9)]

def hev(l, n, d):
    v = 0
    for k, x in enumerate(reversed(l)):
        v = x * d ** (k + 1) + n * v
    return v

def bh_node(r, n):
    A, U, V = BH[r]
    u, v = hev(U, n, 6400), hev(V, n, 6400)
    y = iroot(10 ** 72 * A.numerator * u // (A.denominator * 6400 * v), 6)
    P = 1 << 200
    e1 = exp_chain(P, 106, 3 * y ** 2, 10 ** 24) + 3 * 2 ** 106
    e2 = exp_chain(P, 106, 3 * (y + 1) ** 2, 10 ** 24)
    gl = y ** 5 * P // (e1 * 10 ** 48)
    gh = (y + 1) ** 5 * P // (e2 * 10 ** 48) + 1
    return y, gl, gh

HDR = 'set_option autoImplicit false\nset_option maxRecDepth 100000\n\nnamespace TNS.Data\n\n'

def table(t):
    return '[\n  ' + ',\n  '.join('[' + ', '.join(map(str, l)) + ']' for l in t) + ']'

def write(name, s):
    open(os.path.join(ROOT, name), 'w').write(s)

def main():
    accs = sums()
    for k in range(1000 // CH):
        s = '/-\nGenerated by scripts/gen_xs.py: for the energies of the grid (energy in 1e-9 keV, rounded\ndown; exp(-energy / 6400 keV) in units of 2^-96; weights of the three reactions).\n-/\n\n' + HDR
        s += 'def xsRows%d : List (Nat × Nat × Nat) := [\n  ' % k
        s += ',\n  '.join('(%d, %d, %d)' % (g[i], q[i], V[i]) for i in range(k * CH, k * CH + CH)) + ']\n\nend TNS.Data\n'
        write('Data/XsRows%d.lean' % k, s)
        s = '/-\nGenerated by scripts/gen_xs.py: sums over the first %d energies at all nodes.\n-/\n\n' % (k * CH + CH) + HDR
        s += 'def xsAcc%d : List (List Nat) := %s\n\nend TNS.Data\n' % (k + 1, table(accs[k + 1]))
        write('Data/XsAcc%d.lean' % (k + 1), s)
        s = 'import Verif.Lemmas.NodeSums\nimport Verif.Data.XsRows%d\n' % k
        s += 'import Verif.Data.XsAcc%d\n' % (k + 1) + ('import Verif.Data.XsAcc%d\n' % k if k else '')
        s += '/-\nGenerated by scripts/gen_xs.py: the sums over rows %d to %d, evaluated by the kernel.\n-/\n\n' % (k * CH, k * CH + CH - 1)
        s += 'set_option autoImplicit false\nset_option maxRecDepth 100000\n\nnamespace TNS\n\n'
        if k == 0:
            s += '/-- The empty sums. -/\ndef xsZero : List (List Nat) := List.replicate 66 [0, 0, 0, 0, 0, 0, 0, 0, 0]\n\n'
        a = 'Data.xsAcc%d' % k if k else 'xsZero'
        s += 'theorem xsSum%d : beqLL (rows %d Data.xsRows%d %s) Data.xsAcc%d = true := by\n  decide +kernel\n\nend TNS\n' % (k, S, k, a, k + 1)
        write('Lemmas/XsSum%d.lean' % k, s)
    s = '/-\nGenerated by scripts/gen_xs.py: at the nodes, square roots of chi of the Bosch-Hale formula (1e-12) and\nlower and upper bounds of chi^(5/2) exp(3 chi) (1e-12).\n-/\n\n' + HDR
    for r, nm in enumerate(['DT', 'DDn', 'DDp']):
        t = [[bh_node(r, (63 + m) << j) for j in range(NJ)] for m in range(NM)]
        for k, p in enumerate(['y', 'gl', 'gh']):
            s += 'def %s%s : List (List Nat) := %s\n\n' % (p, nm, table([[x[k] for x in l] for l in t]))
    write('Data/BhNodes.lean', s + 'end TNS.Data\n')
    return accs

if __name__ == '__main__':
    main()
