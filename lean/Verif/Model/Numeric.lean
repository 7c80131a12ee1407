import Verif.Model.Basic
import Mathlib.Data.Rat.Floor
import Mathlib.Data.List.Sort
import Mathlib.Data.List.Dedup
/-!
# Numpy primitives shared by several models

Standard Numpy reductions, on exact rationals.
-/
namespace Strata

/-- `np.min` of a non-empty array; an empty one raises `ValueError` (used at droplets/interface.py:168,
:185, droplets/average.py:231-234). -/
def npMin : List ℚ → Except Err ℚ
  | [] => .error .valueError
  | a :: l => .ok (l.foldl min a)

/-- `np.max` of a non-empty array; an empty one raises `ValueError` (droplets/interface.py:169). -/
def npMax : List ℚ → Except Err ℚ
  | [] => .error .valueError
  | a :: l => .ok (l.foldl max a)

/-- `np.unique`: sorted distinct values (droplets/interface.py:176, :183-184). -/
def npUnique (l : List ℚ) : List ℚ := l.dedup.insertionSort (· ≤ ·)

/-- `np.diff`: differences of neighbours (droplets/interface.py:183-184). -/
def npDiff : List ℚ → List ℚ
  | a :: b :: l => (b - a) :: npDiff (b :: l)
  | _ => []

end Strata
