#!/usr/bin/env python3
"""Write the generated modules under lean/Verif/Proofs/MtSquares: for each Mersenne Twister typedef, repeated
squaring of X modulo the characteristic polynomial, with the intermediate results as literals that the kernel
checks. Nothing in this script is trusted: wrong literals or wrong quotients make the generated proofs fail."""
import os, sys

ENGINES = {
    # name: w, n, m, r, a, steps in one theorem, modules
    'mt11213b': (32, 351, 175, 19, 0xccab8ee7, 300, 2),
    'mt19937': (32, 624, 397, 31, 0x9908b0df, 200, 4),
    'mt19937_64': (64, 312, 156, 31, 0xb5026f5aa96619e9, 100, 8),
}
OUT = os.path.join(os.path.dirname(os.path.abspath(__file__)), '..', 'lean', 'Verif', 'Proofs', 'MtSquares')


def char(w, n, m, r, a):
    p = 1
    for i in range(w):
        p = (p << (n - 1)) ^ (p << (m - 1)) if i < r else (p << n) ^ (p << m)
        if a >> i & 1:
            p ^= 1
    return p


def quotient(phi, k):
    """floor(X^(2k) / phi)"""
    q, r = 0, 1 << (2 * k)
    for d in range(2 * k, k - 1, -1):
        if r >> d & 1:
            q |= 1 << (d - k)
            r ^= phi << (d - k)
    return q


def camel(s):
    return s.capitalize().replace('_', 'x')


def lit(v):
    return '(nat_lit %d)' % v


def main():
    os.makedirs(OUT, exist_ok=True)
    for name, (w, n, m, r, a, chunk, files) in ENGINES.items():
        k = w * n - r
        phi = char(w, n, m, r, a)
        assert phi.bit_length() == k + 1
        mu = quotient(phi, k)
        terms = [k - i for i in range(k + 1) if mu >> i & 1]
        J = (k - 1).bit_length()
        K = 2 << J
        masks = [((1 << K) - 1) // ((1 << (1 << j)) + 1) for j in range(J)]

        def step(x):
            for j in range(J - 1, -1, -1):
                x = (x ^ (x << (1 << j))) & masks[j]
            h, q = x >> k, 0
            for t in terms:
                q ^= h >> t
            v = q
            for i in range(w):
                v = (v << (n - 1)) ^ (v << (m - 1)) if i < r else (v << n) ^ (v << m)
                if a >> i & 1:
                    v ^= q
            return x ^ v

        base = camel(name)
        head = 'namespace Boost.Random\nnamespace Gf2N.%s\n' % base
        tail = '\nend Gf2N.%s\nend Boost.Random\n' % base
        o = ['import Verif.Proofs.MtHorner\n\n/-!\n# %s: squaring modulo the characteristic polynomial\n\nWritten by tools/gen_mt_squares.py.\n-/\n' % name, head]
        o.append('set_option maxRecDepth 100000\nset_option exponentiation.threshold 100000\nopen Spec Polynomial\n')
        e = 'v'
        for j in range(J - 1, -1, -1):
            e = 'round %s %s (%s)' % (lit(K), lit(1 << j), e)
        o.append('/-- The square. -/\ndef spread (v : Nat) : Nat := %s' % e)
        e = 'q'
        for i in range(w):
            e = 'binom %s %s (%s)' % (lit(n - 1 if i < r else n), lit(m - 1 if i < r else m), e)
            if a >> i & 1:
                e = 'Nat.xor (%s) q' % e
        o.append('/-- The product with the characteristic polynomial. -/\ndef phi (q : Nat) : Nat := %s' % e)
        e = 'Nat.shiftRight h %s' % lit(terms[0])
        for t in terms[1:]:
            e = 'Nat.xor (Nat.shiftRight h %s) (%s)' % (lit(t), e)
        o.append('/-- An approximation of the quotient. Nothing is proved about it. -/\ndef quot (h : Nat) : Nat := %s' % e)
        o.append('def bound : Nat := Nat.pow (nat_lit 2) %s' % lit(k))
        o.append('noncomputable def stp (x : Nat) : Nat :=\n  force (spread x) fun s => force (Nat.shiftRight s %s) fun h => force (quot h) fun q => Nat.xor s (phi q)' % lit(k))
        o.append('''
theorem phi_eq (q : Nat) : phi q = hor %s q %d := rfl
theorem spread_eq (v : Nat) : spread v = spreadN (2 ^ (%d + 1)) %d v := rfl

attribute [local irreducible] phi spread quot

theorem squares : Squares (mtChar %s) bound stp := by
  refine squares_of (J := %d) (f := phi) (q := fun x => quot (Nat.shiftRight (spread x) (nat_lit %d))) ?_ (fun q => ?_) (fun x => ?_)
  · exact Nat.pow_lt_pow_right (by decide) (by decide)
  · rw [phi_eq, bitPoly_hor]; rfl
  · rw [← spread_eq, stp, force_eq, force_eq, force_eq]''' % (name, w, J, J, name, J, k))
        o.append(tail)
        open(os.path.join(OUT, base + '.lean'), 'w').write('\n'.join(o))
        # checkpoints
        marks = list(range(0, k, chunk)) + [k]
        x, pts, done = 2, [2], 0
        for b in marks[1:]:
            for _ in range(b - done):
                x = step(x)
                assert x.bit_length() <= k
            done = b
            pts.append(x)
        assert x == 2
        C = len(marks) - 1
        o = ['import Verif.Proofs.MtSquares.%s\n\n/-!\n# %s: powers of X, written by tools/gen_mt_squares.py\n-/\n' % (base, name), head]
        for i in range(C + 1):
            o.append('/-- `X ^ 2 ^ %d` -/\ndef c%d : Nat := nat_lit 0x%x' % (marks[i], i, pts[i]))
        o.append(tail)
        open(os.path.join(OUT, base + 'Data.lean'), 'w').write('\n'.join(o))
        per = -(-C // files)
        parts = [list(range(i, min(i + per, C))) for i in range(0, C, per)]
        for f, part in enumerate(parts):
            o = ['import Verif.Proofs.MtSquares.%sData\n\n/-!\n# %s: repeated squaring, written by tools/gen_mt_squares.py\n-/\n' % (base, name), 'set_option Elab.async false\n', head]
            for i in part:
                o.append('theorem s%d : chk stp bound c%d %d c%d = true := by decide +kernel' % (i, i + 1, marks[i + 1] - marks[i], i))
            o.append('\ntheorem part%d (h : Reach (Spec.mtChar %s) bound %d c%d) : Reach (Spec.mtChar %s) bound %d c%d :=' % (f, name, marks[part[0]], part[0], name, marks[part[-1] + 1], part[-1] + 1))
            for j, i in enumerate(part):
                o.append('  have h%s : Reach (Spec.mtChar %s) bound %d c%d := %s.next squares s%d rfl' % ('' if i == part[-1] else j, name, marks[i + 1], i + 1, 'h' if j == 0 else 'h%d' % (j - 1), i))
            o.append('  h')
            o.append(tail)
            open(os.path.join(OUT, '%sP%d.lean' % (base, f)), 'w').write('\n'.join(o))
        o = [''.join('import Verif.Proofs.MtSquares.%sP%d\n' % (base, f) for f in range(len(parts))) + '\n/-!\n# %s: the power of X\n\nWritten by tools/gen_mt_squares.py.\n-/\n' % name, head]
        e = '(Reach.start _ (by decide +kernel))'
        for f in range(len(parts)):
            e = '(part%d %s)' % (f, e)
        o.append('theorem all : Reach (Spec.mtChar %s) bound %d 2 := %s' % (name, k, e))
        o.append(tail)
        open(os.path.join(OUT, base + 'All.lean'), 'w').write('\n'.join(o))
        print(name, k, C, len(parts))


main()
