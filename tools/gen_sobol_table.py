#!/usr/bin/env python3
"""Transcribe the table of include/boost/random/detail/sobol_table.hpp into lean/Verif/Model/SobolTable.lean."""
import re
src = open('/repo/include/boost/random/detail/sobol_table.hpp').read()
a = [int(x) for x in re.search(r'sobol_a\[num_polynomials\] = \{(.*?)\}', src, re.S).group(1).split(',')]
m = [int(x) for x in re.search(r'sobol_minit\[max_degree \* num_polynomials\] = \{(.*?)\}', src, re.S).group(1).split(',')]
assert len(a) == 3666 and len(m) == 15 * 3666 and max(a + m) < 65536
rows = [a[i] | sum(m[15 * i + k] << (16 * (k + 1)) for k in range(15)) for i in range(3666)]
out = ['''import Verif.Model.Qrng

/-!
# The table of the Sobol engine

Transcription of `include/boost/random/detail/sobol_table.hpp`, written by `tools/gen_sobol_table.py`. A row holds a polynomial in its low
16 bits and the 15 initial values in the next 15*16 bits; a chunk holds 64 rows, the first one lowest.
-/

namespace Boost.Random.Qrng
''']
chunks = [rows[i:i + 64] for i in range(0, 3666, 64)]
for n, c in enumerate(chunks):
    v = sum(r << (256 * i) for i, r in enumerate(c))
    out.append(f'/-- Rows {64*n} to {64*n+len(c)-1}; detail/sobol_table.hpp:46-4097. -/\ndef sobolChunk{n} : Nat := {v:#x}\n')
out.append('/-- All rows. -/\ndef sobolChunks : List Nat := [' + ', '.join(f'sobolChunk{n}' for n in range(len(chunks))) + ']\n')
out.append('''/-- Row `n` of the table. -/
def sobolRow (n : Nat) : Nat := (sobolChunks.getD (n / 64) 0 >>> (256 * (n % 64))) % 2 ^ 256

/-- `default_sobol_table`; detail/sobol_table.hpp:36-4103. -/
def defaultSobolTable : SobolTable where
  maxDimension := 3667
  polynomial n := sobolRow n % 2 ^ 16
  minit dim k := (sobolRow dim >>> (16 * (k + 1))) % 2 ^ 16

end Boost.Random.Qrng
''')
open('/verif/lean/Verif/Model/SobolTable.lean', 'w').write('\n'.join(out))
for i in range(3666):
    d = a[i].bit_length() - 1
    assert 1 <= d <= 15
    for k in range(15):
        x = m[15 * i + k]
        if k < d: assert x % 2 == 1 and x < 2 ** (k + 1), (i, k, x)
        else: assert x == 0
