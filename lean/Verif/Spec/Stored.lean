import Verif.Spec.Flow
/-!
# Specification vocabulary for C161: the same map, stored in another order
-/
namespace Strata.Flow

/-- Two maps with the same information, the same fields and the same bins, in whatever order the bins are stored. -/
structure SameMap (f g : Flow) : Prop where
  left : Wf f.data
  right : Wf g.data
  info : f.info = g.info
  fields : names f.data = names g.data
  bins : (bins f.data).Perm (bins g.data)

/-- Two calls that fail alike, or both succeed with related results. -/
def Alike {α β : Type} (R : α → β → Prop) (a : Except Err α) (b : Except Err β) : Prop :=
  (∃ x y, a = .ok x ∧ b = .ok y ∧ R x y) ∨ ∃ e, a = .error e ∧ b = .error e

/-- The arrows of a quiver plot, one by one: position, flow and weight. -/
def arrowList (a : List ℚ × List ℚ × List ℚ × List ℚ × List ℚ) : List (ℚ × ℚ × ℚ × ℚ × ℚ) :=
  a.1.zip (a.2.1.zip (a.2.2.1.zip (a.2.2.2.1.zip a.2.2.2.2)))

end Strata.Flow
