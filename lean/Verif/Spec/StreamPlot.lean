import Verif.Model.StreamPlot
import Verif.Spec.View
/-!
# Specification vocabulary for the drawing of streamlines
-/
namespace Strata.StreamPlot
open Strata Strata.Flow Strata.Average

/-- The rows of the map are the bins of a grid with columns at `px 0, px 1, …` and rows at `py 0, py 1, …`, column by column. -/
structure Stored (r : Record) (px py : ℕ → ℚ) (nx ny : ℕ) : Prop where
  wf : Wf r
  hasX : "X" ∈ names r
  hasY : "Y" ∈ names r
  size : Flow.size r = nx * ny
  nxpos : 0 < nx
  nypos : 0 < ny
  x : ∀ i j, i < nx → j < ny → val r "X" (i * ny + j) = px i
  y : ∀ i j, i < nx → j < ny → val r "Y" (i * ny + j) = py j

/-- The positions are those of a grid of bins of width `d`, up to an eighth of the width (from rounding). -/
def NearGrid (p : ℕ → ℚ) (o d : ℚ) (n : ℕ) : Prop := 0 < d ∧ ∀ i, i < n → |p i - (o + d * (i : ℚ))| ≤ d / 8

/-- In how many cells of the picture a streamline may start.  (What is known of matplotlib: the picture is divided into 30 times the
density cells per direction, and every streamline starts in a cell of its own.) -/
def cells (c : Call) : ℕ := (30 * c.density.1) * (30 * c.density.2)

end Strata.StreamPlot
