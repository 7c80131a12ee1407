import Verif.Model.Interface
import Mathlib.Order.Monotone.Basic
/-!
# Specification vocabulary for a change of units

The same map written in other units: lengths are multiplied by a common factor, the origin of the coordinates
may move, the searched quantity goes through an affine conversion (as from Celsius to Fahrenheit) and every
remaining field through some increasing conversion of its own.
-/
namespace Strata.Interface
open Strata

/-- A change of units. -/
structure Units where
  scale : ℚ
  x0 : ℚ := 0
  y0 : ℚ := 0
  vscale : ℚ
  v0 : ℚ := 0
  other : ℕ → ℚ → ℚ := fun _ v => v

/-- No unit is zero or negative and no conversion turns an order around. -/
structure Units.Valid (u : Units) : Prop where
  scale : 0 < u.scale
  vscale : 0 < u.vscale
  other : ∀ i, StrictMono (u.other i)

/-- A length (a radius, the size of the box) in the new units. -/
def Units.len (u : Units) (d : ℚ) : ℚ := u.scale * d

/-- A position along y in the new units. -/
def Units.height (u : Units) (y : ℚ) : ℚ := u.scale * y + u.y0

/-- A value of the searched quantity in the new units. -/
def Units.value (u : Units) (v : ℚ) : ℚ := u.vscale * v + u.v0

/-- A bin in the new units. -/
def Units.cell (u : Units) (c : Cell) : Cell :=
  ⟨u.scale * c.x + u.x0, u.height c.y, u.value c.v, c.fields.mapIdx u.other⟩

/-- A map in the new units. -/
def Units.map (u : Units) (s : System) : System := List.map u.cell s

/-- The same options in the new units. -/
def Units.opts (u : Units) (o : Opts) : Opts :=
  { o with
    cutoff := o.cutoff.map u.value
    radius := o.radius.map u.len
    ylims := (o.ylims.1.map u.height, o.ylims.2.map u.height) }

/-- The size of the box in the new units. -/
def Units.box (u : Units) (b : Option (ℚ × ℚ)) : Option (ℚ × ℚ) := b.map fun b => (u.len b.1, u.len b.2)

end Strata.Interface
