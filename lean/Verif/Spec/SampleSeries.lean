import Verif.Model.SampleSeries
import Verif.Spec.Flow
import Verif.Spec.Resample
import Verif.Spec.Sample
import Mathlib.Algebra.BigOperators.Group.Finset.Basic
/-!
# Specification vocabulary for sampled series
-/
namespace Strata.SampleSeries
open Strata Strata.Flow Strata.Average Finset

/-- The bins at or above the cutoff `x` of a field, all bins without field. -/
def atOrAbove (f : Flow) (l : Option Label) (x : ℚ) : Finset ℕ :=
  (range (Flow.size f.data)).filter fun t => ∀ c ∈ l, x ≤ val f.data c t

/-- Sum, or mean and squared standard deviation, of a quantity over a set of bins; mean and deviation of no bins are
undefined. -/
def stats (sum : Bool) (S : Finset ℕ) (q : ℕ → ℚ) : Value :=
  if sum then .number (some (∑ t ∈ S, q t)) none
  else if S = ∅ then .number none (some none)
  else .number (some ((∑ t ∈ S, q t) / #S)) (some (some ((∑ t ∈ S, (q t - (∑ s ∈ S, q s) / #S) ^ 2) / #S)))

/-- The flow of column `i` of the map (stored column after column, `ny` bins each) is `a (y - z)`. -/
def LinearColumn (f : Flow) (ny i : ℕ) (a z : ℚ) : Prop :=
  ∀ j, j < ny → val f.data "U" (i * ny + j) = a * (val f.data "Y" (i * ny + j) - z)

end Strata.SampleSeries
