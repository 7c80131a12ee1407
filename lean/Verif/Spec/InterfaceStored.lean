import Verif.Model.Interface
import Mathlib.Data.List.Perm.Basic
/-!
# Specification vocabulary for the same bins stored in another way

The interface as positions instead of row numbers, the bins that matter to a search, and what makes the layer of
the floor unambiguous.
-/
namespace Strata.Interface
open Strata

/-- What a reported pair of rows says about the droplet: height, left edge, right edge. -/
def edges (s : System) (p : ℕ × ℕ) : ℚ × ℚ × ℚ := ((row s p.1).y, (row s p.1).x, (row s p.2).x)

/-- Everything reported for a map, as positions, or the error. -/
def foundEdges (s : System) (box : Option (ℚ × ℚ)) (o : Opts) : Except Err (List (ℚ × ℚ × ℚ)) :=
  (getInterface s box o).map fun out => out.map (edges s)

/-- The bins of a map whose value reaches the cut-off. -/
def full (c : ℚ) (s : System) : System := s.filter fun d => c ≤ d.v

/-- If a floor is given, no other layer is as close to it as the closest one. -/
def OneFloor (s : System) (floor : Option ℚ) : Prop :=
  ∀ f, floor = some f → ∀ a ∈ s, ∀ b ∈ s, (∀ d ∈ s, |a.y - f| ≤ |d.y - f| ∧ |b.y - f| ≤ |d.y - f|) → a.y = b.y

/-- If a floor is given, it is the height of one of the layers. -/
def FloorLayer (s : System) (floor : Option ℚ) : Prop := ∀ f, floor = some f → ∃ a ∈ s, a.y = f

end Strata.Interface
