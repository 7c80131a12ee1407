import Verif.Model.ContactLine
import Verif.Model.FloatAverage
/-!
# Grid positions of contact line edges in floating point

With every arithmetic result rounded by `fl` (see Model/FloatAverage.lean; `roundBits 53` is double precision).
-/
namespace Strata.FloatEdges
open Strata

/-- `np.floor(x / dx)` (strata/contact_line_analysis.py:260). -/
def gridIndex (fl : ℚ → ℚ) (x dx : ℚ) : ℤ := ⌊fl (x / dx)⌋

/-- `get_coord_on_grid`, `(np.floor(x / dx) + 0.5) * dx` (strata/contact_line_analysis.py:257-260). -/
def coordOnGrid (fl : ℚ → ℚ) (x dx : ℚ) : ℚ := fl (fl ((gridIndex fl x dx : ℚ) + 1 / 2) * dx)

end Strata.FloatEdges
