import Verif.Model.Average
import Verif.Spec.Flow
/-!
# Specification vocabulary for averages

A field of a map is looked at as a function of the row number (`val`) or of the position (`valueAt`).
-/
namespace Strata.Average
open Strata Strata.Flow

/-- The value of field `l` in row `t` (0 if there is none). -/
def val (r : Record) (l : Label) (t : ℕ) : ℚ := ((col? r l).getD []).getD t 0

/-- The record is a full regular grid: `nx × ny` rows, y-major, lowest bin at `(x0, y0)`, bins `spacing` apart. -/
structure Lattice (r : Record) (spacing : ℚ × ℚ) (x0 y0 : ℚ) (nx ny : ℕ) (coords : Label × Label := ("X", "Y")) : Prop where
  wf : Wf r
  nxpos : 0 < nx
  nypos : 0 < ny
  size : size r = nx * ny
  hasX : coords.1 ∈ names r
  hasY : coords.2 ∈ names r
  x : ∀ t, t < nx * ny → val r coords.1 t = x0 + spacing.1 * ((t % nx : ℕ) : ℚ)
  y : ∀ t, t < nx * ny → val r coords.2 t = y0 + spacing.2 * ((t / nx : ℕ) : ℚ)

/-- The value of field `l` of a record at position `(x, y)`: that of the first row there, 0 if there is none. -/
def valueAt (r : Record) (l : Label) (x y : ℚ) (coords : Label × Label := ("X", "Y")) : ℚ :=
  ((List.range (Flow.size r)).find? fun t => decide (val r coords.1 t = x ∧ val r coords.2 t = y)).elim 0 (val r l)

/-- A flow map on a full regular grid with shape and spacing set. -/
def GridMap (f : Flow) (spacing : ℚ × ℚ) : Prop :=
  ∃ (x0 y0 : ℚ) (nx ny : ℕ), f.info.shape = some ((nx : ℤ), (ny : ℤ)) ∧ f.info.spacing = some spacing ∧
    Lattice f.data spacing x0 y0 nx ny

/-- All bins lie on one lattice through `(ox, oy)`. -/
def OnLattice (spacing : ℚ × ℚ) (ox oy : ℚ) (r : Record) (coords : Label × Label := ("X", "Y")) : Prop :=
  ∀ t, t < Flow.size r → (∃ k : ℤ, val r coords.1 t = ox + spacing.1 * k) ∧ ∃ k : ℤ, val r coords.2 t = oy + spacing.2 * k

/-- Records of the same kind: same labels, same number of rows. -/
def Uniform (ds : List Record) (ls : List Label) (n : ℕ) : Prop :=
  ∀ d ∈ ds, Wf d ∧ names d = ls ∧ Flow.size d = n

/-- The sum of a field over all bins. -/
def total (r : Record) (l : Label) : ℚ := ((col? r l).getD []).sum

end Strata.Average
