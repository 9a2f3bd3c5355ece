#!/usr/bin/env python3
"""Write lean/Verif/Proofs/LagSquares/*.lean: X^(2^p) modulo the trinomials of the lagged Fibonacci engines."""
import os

LAGS = [(607, 273), (1279, 418), (2281, 1252), (3217, 576), (4423, 2098), (9689, 5502), (19937, 9842), (23209, 13470), (44497, 21034)]
OUT = os.path.join(os.path.dirname(__file__), '..', 'lean', 'Verif', 'Proofs', 'LagSquares')
CHUNK = 1000
LLCHUNK = 15000


def spread(J):
    e = 'v'
    for j in range(J - 1, -1, -1):
        e = 'round (nat_lit %d) (nat_lit %d) (%s)' % (2 ** (J + 1), 2 ** j, e)
    return e


def head(imports, title):
    return ''.join('import %s\n' % i for i in imports) + '''
/-!
# %s

Written by tools/gen_lag_squares.py.
-/

set_option Elab.async false
set_option maxRecDepth 100000
set_option exponentiation.threshold 100000

namespace Boost.Random
''' % title


def ll(p):
    M = 2 ** p - 1
    x, n, cps = 4, 0, [(0, 4)]
    while n < p - 2:
        m = min(LLCHUNK, p - 2 - n)
        for _ in range(m):
            x = (x * x - 2) % M
        n += m
        cps.append((n, x))
    assert x == 0
    out = ''
    for i, (n, x) in enumerate(cps):
        out += 'def l%d : Nat := nat_lit 0x%x\n' % (i, x)
    for i in range(len(cps) - 1):
        out += 'theorem ll%d : chk (llStep (2 ^ %d - 1)) (2 ^ %d) l%d %d l%d = true := by decide +kernel\n' % (i, p, p, i + 1, cps[i + 1][0] - cps[i][0], i)
    e = 'LL.start %d' % p
    for i in range(len(cps) - 1):
        out += 'theorem LL%d : LL %d %d l%d := (%s).next (by decide) ll%d rfl\n' % (i, p, cps[i + 1][0], i + 1, e, i)
        e = 'LL%d' % i
    return out + 'theorem prime : (2 ^ %d - 1).Prime := LL.prime (by decide) %s\n' % (p, e)


def steps(p, k):
    x, n, cps = 2, 0, [(0, 2)]
    while n < p:
        m = min(CHUNK, p - n)
        for _ in range(m):
            v = int('0'.join(bin(x)[2:]), 2)
            while v >> p:
                h = v >> p
                v ^= (h << p) ^ (h << k) ^ h
            x = v
        n += m
        cps.append((n, x))
    assert x == 2
    return cps


def defs(p, k):
    J = 0
    while 2 ** J <= p:
        J += 1
    r, d = 0, 2 * p - 2
    while d >= p:
        d, r = max(d - (p - k), p - 1) if d - (p - k) < p else d - (p - k), r + 1
    f = 'fold1 (nat_lit %d) (nat_lit %d) s' % (p, k)
    body = f
    for _ in range(r - 1):
        body = 'force (%s) fun s => %s' % (f, body)
    return '''open Polynomial Tausworthe
/-- The square. -/
def spread (v : Nat) : Nat := %s
def bound : Nat := Nat.pow (nat_lit 2) (nat_lit %d)
noncomputable def stp (x : Nat) : Nat := force (spread x) fun s => %s

theorem spread_eq (v : Nat) : spread v = spreadN (2 ^ (%d + 1)) %d v := rfl

attribute [local irreducible] spread

theorem squares : Squares (trinomial %d %d) bound stp := by
  refine squares_tri (J := %d) (r := %d) (Nat.pow_lt_pow_right (by decide) (by decide)) (fun x => ?_)
  rw [← spread_eq, stp%s]
  rfl

''' % (spread(J), p, body, J, J, p, k, J, r, ', force_eq' * r)


def chunks(cps, lo, hi, p, k):
    out = ''
    for i in range(lo, hi + 1):
        if i > lo or i == 0:
            out += 'def c%d : Nat := nat_lit 0x%x\n' % (i, cps[i][1])
    for i in range(lo, hi):
        out += 'theorem s%d : chk stp bound c%d %d c%d = true := by decide +kernel\n' % (i, i + 1, cps[i + 1][0] - cps[i][0], i)
    for i in range(lo, hi):
        prev = 'Reach.start (trinomial %d %d) (by decide +kernel)' % (p, k) if i == 0 else 'r%d' % (i - 1)
        out += 'theorem r%d : Reach (trinomial %d %d) bound %d c%d := (%s).next squares s%d rfl\n' % (i, p, k, cps[i + 1][0], i + 1, prev, i)
    return out


def main():
    os.makedirs(OUT, exist_ok=True)
    small = head(['Verif.Proofs.LagNat'], 'The trinomials of lagged_fibonacci607, 1279, 2281, 3217 and 4423')
    for p, q in LAGS:
        k = p - q
        cps = steps(p, k)
        n = len(cps) - 1
        end = 'theorem good : Lag.Good %d %d := Gf2N.good (by decide) (by decide) (by decide) prime r%d\n' % (p, k, n - 1)
        if p < 5000:
            small += 'namespace Gf2N.L%d\n' % p + defs(p, k) + ll(p) + chunks(cps, 0, n, p, k) + end + 'end Gf2N.L%d\n\n' % p
            continue
        parts = 1 if p < 15000 else 2 if p < 30000 else 4
        prev = 'Verif.Proofs.LagNat'
        base = head([prev], 'lagged_fibonacci%d: squaring, and the Mersenne prime' % p)
        prime = 'theorem prime : (2 ^ 19937 - 1).Prime := prime19937\n' if p == 19937 else ll(p)
        base += 'namespace Gf2N.L%d\n' % p + defs(p, k)
        for i, c in enumerate(cps):
            base += 'def c%d : Nat := nat_lit 0x%x\n' % (i, c[1])
        base += 'end Gf2N.L%d\nend Boost.Random\n' % p
        write('L%d' % p, base)
        write('L%dPrime' % p, head(['Verif.Proofs.LagNat'], '2^%d - 1 is prime' % p) + 'namespace Gf2N.L%d\n' % p + prime + 'end Gf2N.L%d\nend Boost.Random\n' % p)
        mods = ['Verif.Proofs.LagSquares.L%dPrime' % p]
        for j in range(parts):
            lo, hi = n * j // parts, n * (j + 1) // parts
            s = head(['Verif.Proofs.LagSquares.L%d' % p], 'lagged_fibonacci%d: repeated squaring' % p) + 'namespace Gf2N.L%d\nopen Tausworthe\n' % p
            for i in range(lo, hi):
                s += 'theorem s%d : chk stp bound c%d %d c%d = true := by decide +kernel\n' % (i, i + 1, cps[i + 1][0] - cps[i][0], i)
            s += 'end Gf2N.L%d\nend Boost.Random\n' % p
            write('L%dP%d' % (p, j), s)
            mods.append('Verif.Proofs.LagSquares.L%dP%d' % (p, j))
        s = head(mods, 'lagged_fibonacci%d: the power of X' % p) + 'namespace Gf2N.L%d\nopen Tausworthe\n' % p
        for i in range(n):
            pr = 'Reach.start (trinomial %d %d) (by decide +kernel)' % (p, k) if i == 0 else 'r%d' % (i - 1)
            s += 'theorem r%d : Reach (trinomial %d %d) bound %d c%d := (%s).next squares s%d rfl\n' % (i, p, k, cps[i + 1][0], i + 1, pr, i)
        write('L%dAll' % p, s + end + 'end Gf2N.L%d\nend Boost.Random\n' % p)
    write('Small', small + 'end Boost.Random\n')


def write(name, s):
    with open(os.path.join(OUT, name + '.lean'), 'w') as f:
        f.write(s)


main()
