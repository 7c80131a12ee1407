import Verif.Model.ContactLine
import Verif.Spec.Interface
import Verif.Spec.Average
/-!
# Specification vocabulary for contact line extraction
-/
namespace Strata.ContactLine
open Strata Strata.Flow Strata.Average Strata.Interface

/-- `v` lies between two numbers with the property. -/
def Spanned (S : ℚ → Prop) (v : ℚ) : Prop := (∃ a, S a ∧ a ≤ v) ∧ ∃ b, S b ∧ v ≤ b

/-- The interface layer `p` (rows of its left and right bin) is the lowest one or at most `height` above it. -/
def UsedLayer (s : System) (pts : List (ℕ × ℕ)) (height : ℚ) (p : ℕ × ℕ) : Prop :=
  p ∈ pts ∧ ∀ f, pts.head? = some f → p = f ∨ (row s p.1).y ≤ (row s f.1).y + height

/-- `p` is the highest used layer that is the lowest layer or at most `eh` above it. -/
def BoxLayer (s : System) (pts : List (ℕ × ℕ)) (height eh : ℚ) (p : ℕ × ℕ) : Prop :=
  UsedLayer s pts height p ∧ UsedLayer s pts eh p ∧
  ∀ q, UsedLayer s pts height q → UsedLayer s pts eh q → (row s q.1).y ≤ (row s p.1).y

/-- Bin `t` lies in the closed box spanned by the interface bins of the used layers (on the side given by `side`) and the
position `w` to the right of the interface bin of the box layer. -/
def InBox (s : System) (pts : List (ℕ × ℕ)) (side : ℕ × ℕ → ℕ) (w height eh : ℚ) (t : ℕ) : Prop :=
  t < s.length ∧ ∃ p, BoxLayer s pts height eh p ∧
    Spanned (fun a => a = (row s (side p)).x + w ∨ ∃ q, UsedLayer s pts height q ∧ a = (row s (side q)).x) (row s t).x ∧
    Spanned (fun a => ∃ q, UsedLayer s pts height q ∧ a = (row s (side q)).y) (row s t).y

end Strata.ContactLine
