import Verif.Model.SpreadingFit
/-!
# Specification vocabulary for power law fits
-/
namespace Strata.SpreadingFit
open Strata Strata.Files Strata.PyText Strata.Spreading

/-- A time in limits, of which either may be missing. -/
def InLims (lims : Option ℚ × Option ℚ) (t : ℚ) : Prop := (∀ a, lims.1 = some a → a ≤ t) ∧ ∀ b, lims.2 = some b → t ≤ b

instance (lims : Option ℚ × Option ℚ) (t : ℚ) : Decidable (InLims lims t) :=
  match lims with
  | (none, none) => .isTrue (by simp [InLims])
  | (some a, none) => decidable_of_iff (a ≤ t) (by simp [InLims])
  | (none, some b) => decidable_of_iff (t ≤ b) (by simp [InLims])
  | (some a, some b) => decidable_of_iff (a ≤ t ∧ t ≤ b) (by simp [InLims])

/-- The points within limits, all if there are none. -/
def within (lims : Option ℚ × Option ℚ) (s : Series) : Series :=
  if ∃ p ∈ s, InLims lims p.1 then s.filter fun p => decide (InLims lims p.1) else s

/-- The points a fit is based on: within the limits and after the impact. -/
def used (lims : Option ℚ × Option ℚ) (s : Series) : Series := (within lims s).filter fun p => decide (0 < p.1)

/-- The distance of points from the power law `r = a*t^k` in a logarithmic plot, squared. -/
noncomputable def misfit (pts : Series) (a k : ℝ) : ℝ := (pts.map fun p => (Real.logb 10 p.2 - Real.logb 10 (a * (p.1 : ℝ) ^ k)) ^ 2).sum

/-- What is known of `leastsq`: for finite numbers it finds the line with the least sum of squared residuals. -/
def Minimises (lsq : Leastsq) : Prop :=
  ∀ pts : List (ℝ × ℝ), 2 ≤ pts.length → ∀ a b : ℝ,
    let q := lsq (pts.map fun p => (p.1, some p.2))
    (pts.map fun p => (p.2 - (q.1 + q.2 * p.1)) ^ 2).sum ≤ (pts.map fun p => (p.2 - (a + b * p.1)) ^ 2).sum

end Strata.SpreadingFit
