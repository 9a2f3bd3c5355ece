#!/usr/bin/env python3
"""Write lean/Verif/Model/MixmaxTable.lean from the table in the repository."""
import re
s = open('/repo/include/boost/random/detail/mixmax_skip_N17.ipp').read()
s = re.sub(r'/\*.*?\*/', '', s, flags=re.S)
s = s[s.index('{') + 1:]
R = [[int(x) for x in r.split(',')] for r in re.findall(r'\{([^{}]*)\}', s)]
assert len(R) == 128 and all(len(r) == 17 for r in R)
out = '''/-!
# The skip table of `mixmax`

Transcription of `include/boost/random/detail/mixmax_skip_N17.ipp`, written by `tools/gen_mixmax_table.py`.
-/

namespace Boost.Random.Mixmax

'''
for b in range(8):
    out += '/-- Rows %d to %d of the table; detail/mixmax_skip_N17.ipp. -/\ndef skipRows%d : List (List Nat) := [\n' % (16*b, 16*b+15, b)
    out += ',\n'.join('  [' + ', '.join(map(str, r)) + ']' for r in R[16*b:16*b+16]) + ']\n\n'
out += '''/-- `skipMat17`; mixmax.hpp:251-253, detail/mixmax_skip_N17.ipp. -/
def skipMat17 : List (List Nat) :=
  skipRows0 ++ skipRows1 ++ skipRows2 ++ skipRows3 ++ skipRows4 ++ skipRows5 ++ skipRows6 ++ skipRows7

end Boost.Random.Mixmax
'''
open('/verif/lean/Verif/Model/MixmaxTable.lean', 'w').write(out)
