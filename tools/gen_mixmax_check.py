#!/usr/bin/env python3
"""Write lean/Verif/Proofs/MixmaxTable.lean (check of the skip table of mixmax against powers of X modulo the
characteristic polynomial of the matrix) and lean/Verif/Proofs/MixmaxPowers.lean (the powers behind its period)."""
p = 2**61 - 1
N = 17


def it(Y):
    tot = sum(Y) % p
    P, V, out = 0, tot, [tot]
    for i in range(1, N):
        PO = P * 2**36 % p
        P = (P + Y[i]) % p
        V = (V + PO + P) % p
        out.append(V)
    return out


vecs = [[1] + [0] * 16]
for i in range(17):
    vecs.append(it(vecs[-1]))
M = [[vecs[j][i] for j in range(17)] + [vecs[17][i]] for i in range(17)]
for c in range(17):
    pv = next(r for r in range(c, 17) if M[r][c] % p)
    M[c], M[pv] = M[pv], M[c]
    inv = pow(M[c][c], -1, p)
    M[c] = [x * inv % p for x in M[c]]
    for r in range(17):
        if r != c and M[r][c]:
            k = M[r][c]
            M[r] = [(x - k * y) % p for x, y in zip(M[r], M[c])]
f = [M[i][17] for i in range(17)]


B = 2**128


def pack(l):
    return sum(x << (128 * i) for i, x in enumerate(l))


def unpack(n):
    return [(n >> (128 * i)) % B % p for i in range(17)]


def fold(k, n):
    lo = pack([2**61 - 1] * k)
    hi = pack([2**67 - 1] * k)
    return (n & lo) + ((n >> 61) & hi)


t0 = pack(f)
T = [t0]
for i in range(16):
    t = B * T[-1]
    T.append(fold(17, fold(17, t % B**17 + t // B**17 * t0)))


def mulk(a, b):
    s = fold(34, fold(34, a * b))
    h, r = s >> 2176, s % 2**2176
    for t in T:
        r += (h % B) * t
        h //= B
    return fold(17, fold(17, r))


def bits(e):
    return [c == '1' for c in bin(e)[3:]]


def powk(b, e):
    r = b
    for x in bits(e):
        r = mulk(r, r)
        if x:
            r = mulk(b, r)
    return r


def lit(bs):
    return '[' + ', '.join('true' if b else 'false' for b in bs) + ']'


o = """import Verif.Proofs.MixmaxPacked

/-!
# Check of the skip table of `mixmax`

Written by `tools/gen_mixmax_check.py`. The whole table is checked by evaluation in the kernel: row `r` is
`X^(2^(512 + r))` modulo a polynomial that annihilates the matrix.
-/

namespace Boost.Random.Mixmax
open Spec Packed

set_option maxRecDepth 100000

/-- The matrix of `mixmax`. -/
abbrev matA : Matrix (Fin 17) (Fin 17) (ZMod mixP) := mixMatrix 17 (2 ^ 36 + 1)

/-- `X^17 = Σ f_i X^i` for the matrix. -/
def annih : List Nat := %s

/-- `X^17, ..., X^33`. -/
def redTable : List Nat := [
  %s]

/-- The number for `X^(2^512)`. -/
def mixSkip0 : Nat := %d

/-- Unit vectors. -/
def unitL (i : Nat) : List Nat := (List.replicate 17 0).set i 1

/-- One application of a polynomial to a unit vector. -/
def actUnit (row : List Nat) (i : Nat) : List Nat :=
  (skipRow 36 row (List.replicate 17 0) (unitL i) 1).map (· %% mixP)

theorem annih_units : ((List.range 17).all fun i => actUnit annih i == actUnit (List.replicate 17 0 ++ [1]) i) = true := by
  decide +kernel

theorem redTable_eq : redTable = mkT (pack annih) 17 (pack annih) := by decide +kernel

theorem mixSkip0_eq : powK redTable (2 ^ 128) (List.replicate 512 false) (2 ^ 128) = mixSkip0 := by decide +kernel

theorem mixSkip0_row : skipMat17 = canonL 17 mixSkip0 :: skipMat17.tail := by decide +kernel

theorem mixRows_sq : chkRows redTable mixSkip0 skipMat17.tail = true := by decide +kernel

end Boost.Random.Mixmax
""" % (f, ',\n  '.join(str(t) for t in T), powk(B, 2**512))
open('/verif/lean/Verif/Proofs/MixmaxTable.lean', 'w').write(o)

# the period: (p^17 - 1)/(p - 1) = q1 q2 C, with q1 and q2 prime
q1, q2 = 30720259, 10959824010647
C = (p**17 - 1) // (p - 1) // (q1 * q2)
y = powk(B, C)
z1, z2 = powk(y, q1), powk(y, q2)
z = powk(z1, q2)
assert unpack(z) == [1] + [0] * 16


def inv(z):
    w = fold(17, z + p - 1)
    g = pack(unpack(powk(w, p**17 - 2)))
    r = mulk(g, w)
    assert unpack(r) == [1] + [0] * 16
    return g


o = """import Verif.Proofs.MixmaxTable

/-!
# Powers of the MIXMAX matrix

Written by `tools/gen_mixmax_check.py`; checked by evaluation in the kernel. With `Φ = (p^17 - 1)/(p - 1)`,
`Φ = q1 q2 C` and `q1`, `q2` prime, `mixY` is `X^C`, `mixZ1` is `X^(C q1)`, `mixZ2` is `X^(C q2)` and `mixZ` is
`X^Φ`, all modulo the polynomial that annihilates the matrix; `mixG1` and `mixG2` are the inverses of
`mixZ1 - 1` and `mixZ2 - 1`.
"""
o += """-/

namespace Boost.Random.Mixmax
open Spec Packed

set_option maxRecDepth 100000

def mixQ1 : Nat := %d
def mixQ2 : Nat := %d
def mixC : Nat := %d

/-- The bits after the first one. -/
def bitsC : List Bool := %s
def bitsQ1 : List Bool := %s
def bitsQ2 : List Bool := %s

def mixY : Nat := %d
def mixZ1 : Nat := %d
def mixZ2 : Nat := %d
def mixZ : Nat := %d
def mixG1 : Nat := %d
def mixG2 : Nat := %d

theorem bitsC_eq : powE 1 bitsC 1 = mixC := by decide +kernel
theorem bitsQ1_eq : powE 1 bitsQ1 1 = mixQ1 := by decide +kernel
theorem bitsQ2_eq : powE 1 bitsQ2 1 = mixQ2 := by decide +kernel

theorem mixY_eq : powK redTable (2 ^ 128) bitsC (2 ^ 128) = mixY := by decide +kernel
theorem mixZ1_eq : powK redTable mixY bitsQ1 mixY = mixZ1 := by decide +kernel
theorem mixZ2_eq : powK redTable mixY bitsQ2 mixY = mixZ2 := by decide +kernel
theorem mixZ_eq : powK redTable mixZ1 bitsQ2 mixZ1 = mixZ := by decide +kernel

theorem mixZ_one : canonL 17 mixZ = 1 :: List.replicate 16 0 := by decide +kernel

theorem mixG_small : pack (canonL 17 mixG1) = mixG1 ∧ pack (canonL 17 mixG2) = mixG2 := by decide +kernel

theorem mixG1_eq : canonL 17 (mulK redTable mixG1 (fold ml17 mh17 (mixZ1 + (2 ^ 61 - 2)))) = 1 :: List.replicate 16 0 := by
  decide +kernel
theorem mixG2_eq : canonL 17 (mulK redTable mixG2 (fold ml17 mh17 (mixZ2 + (2 ^ 61 - 2)))) = 1 :: List.replicate 16 0 := by
  decide +kernel

end Boost.Random.Mixmax
""" % (q1, q2, C, lit(bits(C)), lit(bits(q1)), lit(bits(q2)), y, z1, z2, z, inv(z1), inv(z2))
open('/verif/lean/Verif/Proofs/MixmaxPowers.lean', 'w').write(o)
