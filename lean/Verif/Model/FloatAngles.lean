import Verif.Model.SampleAngle
import Verif.Model.FloatAverage
/-!
# The angles of `sample_per_angle_from` in floating point

With every arithmetic result rounded by `fl` (see Model/FloatAverage.lean; `roundBits 53` is double precision).
-/
namespace Strata.FloatAngles
open Strata Strata.Flow

/-- The number of values of `np.arange(start, stop, step)`, `ceil((stop - start) / step)`, where `stop` is `amax + size` (droplets/sample.py:54). -/
def count (fl : ℚ → ℚ) (amin amax size : ℚ) : ℕ := ⌈fl (fl (fl (amax + size) - amin) / size)⌉.toNat

/-- The values of `np.arange(amin, amax + size, size)` (droplets/sample.py:54): Numpy takes the difference of the first two values as the step. -/
def arange (fl : ℚ → ℚ) (amin amax size : ℚ) : List ℚ :=
  (List.range (count fl amin amax size)).map fun k : ℕ => fl (amin + fl ((k : ℚ) * fl (fl (amin + size) - amin)))

/-- The angles to sample (droplets/sample.py:52-54). -/
def outAngles (fl : ℚ → ℚ) (amin amax size : ℚ) : List ℚ := arange fl (max 0 amin) (min (fl (360 - size)) amax) size

end Strata.FloatAngles
