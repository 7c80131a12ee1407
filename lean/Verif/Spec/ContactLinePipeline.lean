import Verif.Model.ContactLine
import Verif.Spec.Resample
/-!
# Specification vocabulary for averaged contact line edges

An edge of a map is a closed box in it.
-/
namespace Strata.ContactLine
open Strata Strata.Flow Strata.Average Strata.Resample

/-- An edge: the map, its information and the limits of the box. -/
structure Edge where
  map : Record
  info : Info
  xlim : ℚ × ℚ
  ylim : ℚ × ℚ

/-- The position is in the box. -/
def Edge.InBox (e : Edge) (x y : ℚ) : Prop := e.xlim.1 ≤ x ∧ x ≤ e.xlim.2 ∧ e.ylim.1 ≤ y ∧ y ≤ e.ylim.2

instance (e : Edge) (x y : ℚ) : Decidable (e.InBox x y) := by unfold Edge.InBox; infer_instance

/-- The rows of the map in the box, in order. -/
def Edge.rows (e : Edge) : List ℕ := (List.range (Flow.size e.map)).filter fun t => decide (e.InBox (val e.map "X" t) (val e.map "Y" t))

/-- The cells of the edge. -/
def Edge.cells (e : Edge) : Record := gather e.rows e.map

/-- The value of a field of the map at a position in the box, 0 elsewhere. -/
def Edge.value (e : Edge) (l : Label) (x y : ℚ) : ℚ := if e.InBox x y then valueAt e.map l x y else 0

/-- The inner corner of the edge: the largest x of its cells for the left edge, the smallest for the right one, and the smallest y. -/
structure Corner (direction : String) (e : Edge) (c : ℚ × ℚ) : Prop where
  x : ∃ t ∈ e.rows, val e.map "X" t = c.1
  y : ∃ t ∈ e.rows, val e.map "Y" t = c.2
  xmost : ∀ t ∈ e.rows, if direction = "left" then val e.map "X" t ≤ c.1 else c.1 ≤ val e.map "X" t
  lowest : ∀ t ∈ e.rows, c.2 ≤ val e.map "Y" t

/-- An edge of a full grid, with cells in at least two layers. -/
structure GoodEdge (sp : ℚ × ℚ) (ls : List Label) (e : Edge) : Prop where
  grid : ∃ x0 y0 nx ny, FullGrid e.map sp x0 y0 nx ny
  labels : names e.map = ls
  spacing : e.info.spacing = some sp
  layers : ∃ s ∈ e.rows, ∃ t ∈ e.rows, val e.map "Y" s ≠ val e.map "Y" t

end Strata.ContactLine
