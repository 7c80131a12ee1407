import Mathlib.Data.Rat.Floor
import Mathlib.Data.List.Chain
import Mathlib.Data.List.ReduceOption
/-!
# Specification vocabulary for droplet spreading in a periodic box

The physical droplet has edges `(L, R)` on the real line; the program only sees their positions
relative to the box.
-/
namespace Strata.Spec

/-- Position relative to a box of length `B`. -/
def wrap (B x : ℚ) : ℚ := x - B * ⌊x / B⌋

/-- Index of the periodic image of the box that contains `x`. -/
def image (B x : ℚ) : ℤ := ⌊x / B⌋

/-- A droplet with edges `p` fits in the box. -/
def Fits (B : ℚ) (p : ℚ × ℚ) : Prop := p.1 ≤ p.2 ∧ p.2 < p.1 + B

/-- Between two observations both edges move by less than half a box. -/
def Slow (B : ℚ) (p q : ℚ × ℚ) : Prop := |q.1 - p.1| < B / 2 ∧ |q.2 - p.2| < B / 2

/-- At most one of the edges changes periodic image. -/
def AtMostOneCrosses (B : ℚ) (p q : ℚ × ℚ) : Prop :=
  image B q.1 = image B p.1 ∨ image B q.2 = image B p.2

instance (B : ℚ) (p : ℚ × ℚ) : Decidable (Fits B p) := inferInstanceAs (Decidable (_ ∧ _))
instance (B : ℚ) (p q : ℚ × ℚ) : Decidable (Slow B p q) := inferInstanceAs (Decidable (_ ∧ _))
instance (B : ℚ) (p q : ℚ × ℚ) : Decidable (AtMostOneCrosses B p q) := inferInstanceAs (Decidable (_ ∨ _))

end Strata.Spec

namespace Strata.Spec

/-- `p` is the first entry of `s` whose value is closest to `radius`. -/
def IsFirstClosest (radius : ℚ) (s : List (ℚ × ℚ)) (p : ℚ × ℚ) : Prop :=
  ∃ pre post, s = pre ++ p :: post ∧ (∀ x ∈ pre, |p.2 - radius| < |x.2 - radius|) ∧
    ∀ x ∈ post, |p.2 - radius| ≤ |x.2 - radius|

end Strata.Spec
