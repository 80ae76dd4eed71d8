"""Writes lean/Verif/PiBounds.lean: 35-digit bounds on pi, by Mathlib's pi_lower_bound / pi_upper_bound tactics."""
from math import isqrt
P, N = 100, 64
S = 10 ** P
def seq(up):
    r, out = 0, []
    for _ in range(N):
        x = (2 * S + r) * S
        r = isqrt(x)
        if up and r * r < x: r += 1
        out.append('%d/10^%d' % (r, P))
    return out
def wrap(l): return ',\n    '.join(l)
open('/verif/lean/Verif/PiBounds.lean', 'w').write('''import Mathlib.Analysis.Real.Pi.Bounds

/-! Bounds on pi with 35 digits, written by tools/pibounds.py: enough to compare pi with the literal of `GLM_PI`. -/

namespace Cglm
open Real

theorem pi_gt_d35 : 3.14159265358979323846264338327950288 < π := by
  pi_lower_bound [
    %s]

theorem pi_lt_d35 : π < 3.14159265358979323846264338327950289 := by
  pi_upper_bound [
    %s]

end Cglm
''' % (wrap(seq(True)), wrap(seq(False))))
