import Verif.Spec.FieldUnits
import Verif.Model.SimpleAverage
/-!
# Specification vocabulary for simple maps in other units
-/
namespace Strata.Flow
open Strata

/-- The columns of a map in the new units. -/
def FieldUnits.record (u : FieldUnits) (d : Record) : Record := d.map fun c => (c.1, c.2.map (u.value c.1))

/-- The information of a simple map in the new units. -/
def FieldUnits.cinfo (u : FieldUnits) (i : SimpleAverage.CInfo) : SimpleAverage.CInfo :=
  { i with
    spacing := u.lengths i.spacing
    origin := (u.value "X" i.origin.1, u.value "Y" i.origin.2) }

/-- Lengths have one unit, and the origin of the coordinates stays where it is. -/
def FieldUnits.Lengths (u : FieldUnits) (c : ℚ) : Prop := u.factor "X" = c ∧ u.factor "Y" = c ∧ u.x0 = 0 ∧ u.y0 = 0

/-- No mass and no number of a map is negative. -/
def NoNegative (d : Record) : Prop := ∀ l, l = "M" ∨ l = "N" → ∀ c, col? d l = some c → ∀ v ∈ c, 0 ≤ v

end Strata.Flow
