import Verif.Model.View
import Verif.Spec.Resample
/-!
# Specification vocabulary for the data behind the figures
-/
namespace Strata.View
open Strata Strata.Flow Strata.Average

/-- The slope of the values `f` at positions `x` at number `i` of `n`: between its two neighbours, or, at the ends, between
itself and its only neighbour. -/
def slope (n : ℕ) (x f : ℕ → ℚ) (i : ℕ) : ℚ :=
  (f (min (i + 1) (n - 1)) - f (i - 1)) / (x (min (i + 1) (n - 1)) - x (i - 1))

/-- Row `t` fulfils the cutoff, if there is one. -/
def AboveCutoff (r : Record) (clim : Option Label × Option ℚ) (t : ℕ) : Prop :=
  ∀ l c, clim = (some l, some c) → c ≤ val r l t

/-- The rows of the map are the nodes of a grid, column by column (x-major), as the reshaping expects. -/
structure XMajor (r : Record) (sp : ℚ × ℚ) (x0 y0 : ℚ) (nx ny : ℕ) : Prop where
  wf : Wf r
  hasX : "X" ∈ names r
  hasY : "Y" ∈ names r
  size : Flow.size r = nx * ny
  x : ∀ i j, i < nx → j < ny → val r "X" (i * ny + j) = x0 + sp.1 * (i : ℚ)
  y : ∀ i j, i < nx → j < ny → val r "Y" (i * ny + j) = y0 + sp.2 * (j : ℚ)

end Strata.View
