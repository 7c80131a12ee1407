import Verif.Model.Files
import Verif.Model.FloatAverage
/-!
# Output numbers in floating point

`np.ceil(begin/group)` is a float, and the numbers of the output files are counted up from it.  The rounding `fl` is a parameter (see
Model/FloatAverage.lean; `roundBits 53` is double precision).  Dividing two integers in Python rounds the exact quotient once.
-/
namespace Strata.FloatFiles
open Strata Strata.Files

/-- The first output number, `np.ceil(begin/group)` (strata/utils.py:200; strata/interface/view.py:49). -/
def firstOutput (fl : ℚ → ℚ) (begin_ : ℤ) (group : ℕ) : ℚ := (⌈fl ((begin_ : ℚ) / (group : ℚ))⌉ : ℤ)

/-- The output number of group `k`: `num += 1` for every name before it (strata/utils.py:35-36). -/
def outputNumber (fl : ℚ → ℚ) (first : ℚ) : ℕ → ℚ
  | 0 => first
  | k + 1 => fl (outputNumber fl first k + 1)

/-- `'%s%05d%s' % (base, num, ext)` with a float: `%d` takes the whole part (strata/utils.py:35). -/
def outputName (base ext : Text) (num : ℚ) : Text := fileName base ext (if 0 ≤ num then ⌊num⌋ else ⌈num⌉)

/-- `find_groups_to_singles` (strata/utils.py:158-205) without `rolling` (with it the output numbers are integers). -/
def findGroupsToSingles (fl : ℚ → ℚ) (dir : Dir) (base output ext : Text) (outext : Option Text) (group : ℕ) (begin_ : ℤ) (end_ : Option ℤ) :
    List (List Text × Text) :=
  let found := yieldGroups dir base ext group false begin_ end_
  found.zip ((List.range found.length).map fun k : ℕ => outputName output (outext.getD ext) (outputNumber fl (firstOutput fl begin_ group) k))

end Strata.FloatFiles
