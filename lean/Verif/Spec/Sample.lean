import Verif.Model.SampleAngle
import Verif.Spec.Resample
/-!
# Specification vocabulary for sampling by angle
-/
namespace Strata.Sample
open Strata Strata.Flow Strata.Average

/-- `θ` is the direction of the vector `d` in degrees, counted counter-clockwise from the positive x axis, in [0, 360). -/
def IsDirection (d : ℚ × ℚ) (θ : ℝ) : Prop :=
  0 ≤ θ ∧ θ < 360 ∧ ∃ r : ℝ, 0 < r ∧ (d.1 : ℝ) = r * Real.cos (θ * Real.pi / 180) ∧ (d.2 : ℝ) = r * Real.sin (θ * Real.pi / 180)

/-- Where the bin in row `t` is, seen from the origin. -/
def offset (r : Record) (co : Label × Label) (o : ℚ × ℚ) (t : ℕ) : ℚ × ℚ := (val r co.1 t - o.1, val r co.2 t - o.2)

/-- The distance of the bin in row `t` from the origin is within the limits. -/
def InRadius (r : Record) (co : Label × Label) (o : ℚ × ℚ) (rmin : ℚ) (rmax : Option ℚ) (t : ℕ) : Prop :=
  ∃ ρ : ℝ, 0 ≤ ρ ∧ ρ ^ 2 = ((offset r co o t).1 : ℝ) ^ 2 + ((offset r co o t).2 : ℝ) ^ 2 ∧ (rmin : ℝ) ≤ ρ ∧ ∀ m, rmax = some m → ρ ≤ (m : ℝ)

/-- The bin in row `t` is within the limits of radius and angle and in the half-open angular interval number `k`. -/
def InInterval (r : Record) (co : Label × Label) (o : ℚ × ℚ) (amin amax rmin : ℚ) (rmax : Option ℚ) (size : ℚ) (k t : ℕ) : Prop :=
  InRadius r co o rmin rmax t ∧ ∃ θ, IsDirection (offset r co o t) θ ∧ (amin : ℝ) ≤ θ ∧ θ ≤ (amax : ℝ) ∧
    (amin : ℝ) + size * k ≤ θ ∧ θ < (amin : ℝ) + size * (k + 1)

/-- `θ` degrees, in (-180, 180], is the angle of the vector `(u, v)` from the positive x axis. -/
def IsAngle (u v : ℚ) (θ : ℝ) : Prop :=
  -180 < θ ∧ θ ≤ 180 ∧ ∃ r : ℝ, 0 < r ∧ (u : ℝ) = r * Real.cos (θ * Real.pi / 180) ∧ (v : ℝ) = r * Real.sin (θ * Real.pi / 180)

open Classical in
/-- The weighted mean of the rows with a property; 0 if the weights do not have a positive sum. -/
noncomputable def meanOf (n : ℕ) (v w : ℕ → ℚ) (P : ℕ → Prop) : ℚ :=
  if 0 < ∑ t ∈ (Finset.range n).filter P, w t then (∑ t ∈ (Finset.range n).filter P, v t * w t) / ∑ t ∈ (Finset.range n).filter P, w t else 0


end Strata.Sample
