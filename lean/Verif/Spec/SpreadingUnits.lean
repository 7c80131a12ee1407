import Verif.Spec.InterfaceUnits
import Verif.Spec.Flow
import Verif.Model.SpreadingEdges
/-!
# Specification vocabulary for a series of maps in other units

The same simulation written in other units: lengths and times are multiplied by a factor each, the origin of the heights may
move, the density goes through an affine conversion and every other field through some increasing conversion.
-/
namespace Strata.Spreading
open Strata Strata.Flow Strata.Interface

/-- A change of the units of a series. -/
structure SeriesUnits where
  length : ℚ
  y0 : ℚ := 0
  density : ℚ
  density0 : ℚ := 0
  time : ℚ := 1
  other : Label → ℚ → ℚ := fun _ v => v

/-- No unit is zero or negative and no conversion turns an order around. -/
structure SeriesUnits.Valid (u : SeriesUnits) : Prop where
  length : 0 < u.length
  density : 0 < u.density
  other : ∀ l, StrictMono (u.other l)

/-- A value of a field in the new units. -/
def SeriesUnits.value (u : SeriesUnits) (l : Label) (v : ℚ) : ℚ :=
  if l = "X" then u.length * v else if l = "Y" then u.length * v + u.y0 else if l = "M" then u.density * v + u.density0 else u.other l v

/-- A map in the new units. -/
def SeriesUnits.flow (u : SeriesUnits) (f : Flow) : Flow :=
  ⟨f.data.map fun c => (c.1, c.2.map (u.value c.1)),
    { f.info with
      origin := f.info.origin.map fun o => (u.length * o.1, u.length * o.2 + u.y0)
      spacing := f.info.spacing.map fun d => (u.length * d.1, u.length * d.2) }⟩

/-- The options of the search in the new units. -/
def SeriesUnits.opts (u : SeriesUnits) (o : Opts) : Opts :=
  { o with
    cutoff := o.cutoff.map fun v => u.density * v + u.density0
    radius := o.radius.map fun r => u.length * r
    ylims := (o.ylims.1.map fun y => u.length * y + u.y0, o.ylims.2.map fun y => u.length * y + u.y0) }

/-- A line of the result in the new units. -/
def SeriesUnits.row (u : SeriesUnits) (r : Row) : Row := ⟨u.time * r.time, u.length * r.radius, u.length * r.left, u.length * r.right⟩

/-- A line of the file in the new units. -/
def SeriesUnits.line (u : SeriesUnits) : Line → Line
  | .impact t p => .impact (u.time * t) p
  | .row r => .row (u.row r)

end Strata.Spreading
