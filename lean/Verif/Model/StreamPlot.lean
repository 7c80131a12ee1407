import Verif.Model.View
import Verif.Model.FloatGrid
/-!
# Model of the drawing of streamlines, in floating point
-/
namespace Strata.StreamPlot
open Strata Strata.Flow Strata.View

/-- `int((x1 - x0) / dx)` with rounded difference and quotient (strata/view_flowmap.py:114-115). -/
def quotient (fl : ℚ → ℚ) (extent d : ℚ) : ℤ := pyInt (fl (fl extent / d))

/-- `x0 + np.arange(nx) * dx` with rounded product and sum, for the positions found without rounding (strata/view_flowmap.py:119-120). -/
def positions (fl : ℚ → ℚ) (d : ℚ) (exact : List ℚ) : List ℚ := (List.range exact.length).map fun i : ℕ => FloatGrid.place fl (exact.headD 0) d (i : ℤ)

/-- `get_streamline_data` (strata/view_flowmap.py:81-128): `View.streamlines` with rounded arithmetic.  Comparisons of positions are
exact; simplifications as there. -/
def streamData (fl : ℚ → ℚ) (f : Flow) (coords : Label × Label) (colour : Label) (clim : Label × Option ℚ)
    (xlim ylim : Option ℚ × Option ℚ) : Except Err Streamlines := do
  let s ← View.streamlines (quotient fl) f coords colour clim xlim ylim
  let sp := f.info.spacing.getD (0, 0)
  .ok { s with x := positions fl sp.1 s.x, y := positions fl sp.2 s.y }

/-- What `plt.streamplot` is given besides the data: the density along x and y and the line widths; `none` is a masked width. -/
structure Call where
  density : ℕ × ℕ
  widths : List (List (Option ℚ))
  deriving DecidableEq, Repr

/-- The largest of the values that are not masked, `None` if there are none (`MaskedArray.max`, strata/view_flowmap.py:140). -/
def largest (rows : List (List (Option ℚ))) : Option ℚ := rows.flatten.reduceOption.max?

/-- One line width: dividing by a masked value or by zero gives a masked one (strata/view_flowmap.py:140). -/
def width (m : Option ℚ) (w : Option ℚ) : Option ℚ :=
  match m, w with
  | some m, some w => if m = 0 then none else some (3 / 2 * w / m)
  | _, _ => none

/-- `plot_streamlines` (strata/view_flowmap.py:131-144): what it passes to `plt.streamplot`.  `shape` is `us.shape`; a map without any
rows and columns is not modelled. -/
def plot (shape : ℕ × ℕ) (lineWeights : List (List (Option ℚ))) : Call :=
  ⟨(shape.2 / 30, shape.1 / 30), lineWeights.map fun r => r.map (width (largest lineWeights))⟩

end Strata.StreamPlot
