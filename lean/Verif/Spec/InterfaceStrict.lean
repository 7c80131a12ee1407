import Verif.Spec.Interface
/-!
# Specification vocabulary: comparing two searches of the same bins
-/
namespace Strata.Interface
open Strata

/-- The two maps have the same bins, in the same order, and nowhere less of the searched quantity in `s'`. -/
def NoLess (s s' : System) : Prop :=
  s'.length = s.length ∧ ∀ j, j < s.length →
    (row s' j).x = (row s j).x ∧ (row s' j).y = (row s j).y ∧ (row s j).v ≤ (row s' j).v

/-- The settings of a search that decide which bins count as liquid: cut-off, radius and number of bins. -/
structure Criterion where
  cutoff : ℚ
  radius : ℚ
  bins : ℤ

/-- `k'` asks for no more than `k`: a lower (or equal) cut-off, a larger radius, fewer bins. -/
structure Criterion.Looser (k' k : Criterion) : Prop where
  cutoff : k'.cutoff ≤ k.cutoff
  radius : k.radius ≤ k'.radius
  bins : k'.bins ≤ k.bins

/-- The options of a search with this criterion. -/
def Criterion.opts (k : Criterion) (longest : Bool) (ylims : Option ℚ × Option ℚ) : Opts :=
  { cutoff := some k.cutoff, radius := some k.radius, bins := k.bins, longest := longest, ylims := ylims }

end Strata.Interface
