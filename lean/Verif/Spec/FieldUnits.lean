import Verif.Spec.Average
/-!
# Specification vocabulary for maps in other units

Every field has a unit of its own: its values are multiplied by a positive factor. The origin of the coordinates may move.
-/
namespace Strata.Flow
open Strata

/-- A change of the units of a map: a factor for every field, and the new origin. -/
structure FieldUnits where
  factor : Label → ℚ
  x0 : ℚ := 0
  y0 : ℚ := 0

/-- No unit is zero or negative. -/
def FieldUnits.Valid (u : FieldUnits) : Prop := ∀ l, 0 < u.factor l

/-- A value of a field in the new units. -/
def FieldUnits.value (u : FieldUnits) (l : Label) (v : ℚ) : ℚ :=
  u.factor l * v + (if l = "X" then u.x0 else if l = "Y" then u.y0 else 0)

/-- A pair of lengths along x and y in the new units. -/
def FieldUnits.lengths (u : FieldUnits) (d : ℚ × ℚ) : ℚ × ℚ := (u.factor "X" * d.1, u.factor "Y" * d.2)

/-- A map in the new units. -/
def FieldUnits.flow (u : FieldUnits) (f : Flow) : Flow :=
  ⟨f.data.map fun c => (c.1, c.2.map (u.value c.1)),
    { f.info with
      origin := f.info.origin.map fun o => (u.value "X" o.1, u.value "Y" o.2)
      spacing := f.info.spacing.map u.lengths }⟩

/-- What a field is translated by, in its new unit. -/
def FieldUnits.shift (u : FieldUnits) (l : Label) : Shift → Shift
  | .scalar v => .scalar (u.factor l * v)
  | .array vs => .array (vs.map (u.factor l * ·))

/-- A pair of limits of a coordinate in the new units. -/
def FieldUnits.lims (u : FieldUnits) (l : Label) (p : Option ℚ × Option ℚ) : Option ℚ × Option ℚ := (p.1.map (u.value l), p.2.map (u.value l))

end Strata.Flow
