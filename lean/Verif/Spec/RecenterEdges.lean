import Verif.Spec.SpreadingFiles
/-!
# Specification: maps whose liquid is one piece away from the sides of the box (C137)
-/
namespace Strata.Spec

/-- The bins reaching the cut-off keep away from the sides of the periodic box: between the last such column and the first one of the next period there is at least one column without, and more than
the search radius. -/
def ClearOfSides (M : ℕ → ℕ → ℚ) (nx ny : ℕ) (dx r c : ℚ) : Prop :=
  ∀ k j k' j', k < nx → j < ny → k' < nx → j' < ny → c ≤ M k j → c ≤ M k' j' → k' + 1 < k + nx ∧ r < dx * ((k : ℚ) + nx - k')

/-- The wet columns of a layer are neighbours of each other. -/
def OnePiece (wet : ℕ → Prop) (nx : ℕ) : Prop := ∀ a b k, a ≤ k → k ≤ b → b < nx → wet a → wet b → wet k

end Strata.Spec
