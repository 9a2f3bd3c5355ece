#!/usr/bin/env python3
"""Transcribe the table of include/boost/random/detail/niederreiter_base2_table.hpp into lean/Verif/Model/NbTable.lean."""
import re
src = open('/repo/include/boost/random/detail/niederreiter_base2_table.hpp').read()
a = [int(x) for x in re.search(r'nb2_a\[max_dimension\] = \{(.*?)\}', src, re.S).group(1).split(',')]
assert len(a) == 4720 and max(a) < 65536
N = 80
out = ['''import Verif.Model.Niederreiter

/-!
# The table of the Niederreiter base 2 engine

Transcription of `include/boost/random/detail/niederreiter_base2_table.hpp`, written by `tools/gen_nb_table.py`. A chunk holds 80 polynomials of
16 bits each, the first one lowest.
-/

namespace Boost.Random.Qrng
''']
chunks = [a[i:i + N] for i in range(0, 4720, N)]
assert all(len(c) == N for c in chunks)
for n, c in enumerate(chunks):
    v = sum(r << (16 * i) for i, r in enumerate(c))
    out.append(f'/-- Polynomials {N*n} to {N*n+N-1}; detail/niederreiter_base2_table.hpp:41-502. -/\ndef nbChunk{n} : Nat := {v:#x}\n')
out.append('/-- All polynomials. -/\ndef nbChunks : List Nat := [' + ', '.join(f'nbChunk{n}' for n in range(len(chunks))) + ']\n')
out.append('''/-- `default_niederreiter_base2_table`; detail/niederreiter_base2_table.hpp:26-505. -/
def defaultNbTable : NbTable where
  maxDimension := 4720
  polynomial n := (nbChunks.getD (n / 80) 0 >>> (16 * (n % 80))) % 2 ^ 16

end Boost.Random.Qrng
''')
open('/verif/lean/Verif/Model/NbTable.lean', 'w').write('\n'.join(out))
