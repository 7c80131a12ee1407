import Verif.Spec.Spreading
/-! # Droplet histories that keep a distance `d` from what rounding could confuse -/
namespace Strata.Spec

/-- Both edges are seen at least `d` away from the sides of the box. -/
def Inside (B d : ℚ) (p : ℚ × ℚ) : Prop := (d ≤ wrap B p.1 ∧ wrap B p.1 ≤ B - d) ∧ d ≤ wrap B p.2 ∧ wrap B p.2 ≤ B - d

/-- Between two observations both edges move by at most half a box less `d`. -/
def Steady (B d : ℚ) (p q : ℚ × ℚ) : Prop := |q.1 - p.1| ≤ B / 2 - d ∧ |q.2 - p.2| ≤ B / 2 - d

/-- The history stays within `N` boxes of where it began (or of any other of its observations). -/
def Near (B : ℚ) (N : ℕ) (hist : List (ℚ × ℚ)) : Prop :=
  ∀ p ∈ hist, ∀ q ∈ hist, |image B p.1 - image B q.1| ≤ N ∧ |image B p.2 - image B q.1| ≤ N

instance (B d : ℚ) (p : ℚ × ℚ) : Decidable (Inside B d p) := inferInstanceAs (Decidable (_ ∧ _))
instance (B d : ℚ) (p q : ℚ × ℚ) : Decidable (Steady B d p q) := inferInstanceAs (Decidable (_ ∧ _))
instance (B : ℚ) (N : ℕ) (hist : List (ℚ × ℚ)) : Decidable (Near B N hist) := inferInstanceAs (Decidable (∀ p ∈ hist, ∀ q ∈ hist, _))

end Strata.Spec
