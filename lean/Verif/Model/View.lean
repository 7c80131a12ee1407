import Verif.Model.SampleAngle
import Verif.Model.Numeric
/-!
# Model of `strata/view_flowmap.py`: the data behind the figures

Only the functions that calculate what is drawn are modelled; drawing is not.  `append_fields` returns the record with a new
last field; the model returns that field next to the record.  Its values are real numbers, or `none` for infinite and NaN
values.
-/
namespace Strata.View
open Strata Strata.Flow Strata.Average Strata.Sample

/-- `append_fields(data, name, ...)` refuses a name the record already has (strata/view_flowmap.py:367, :393, :429-432,
:465-467). -/
def newName (r : Record) (l : Label) : Except Err Unit :=
  if l ∈ names r then .error .valueError else .ok ()

/-- `add_absolute_flow` (strata/view_flowmap.py:348-367): the new field 'flow'. -/
noncomputable def absoluteFlow (r : Record) : Except Err (List ℝ) := do
  let us ← field r "U"
  let vs ← field r "V"
  newName r "flow"
  .ok (List.zipWith (fun u v : ℚ => Real.sqrt ((u : ℝ) ^ 2 + (v : ℝ) ^ 2)) us vs)

/-- `add_radial_flow` (strata/view_flowmap.py:370-393): the new field 'radial'. -/
noncomputable def radialFlow (r : Record) (o : ℚ × ℚ) : Except Err (List ℝ) := do
  let ys ← field r "Y"
  let xs ← field r "X"
  let us ← field r "U"
  let vs ← field r "V"
  newName r "radial"
  .ok ((List.range (size r)).map fun t : ℕ =>
    let angle := arctan2 (ys.getD t 0 - o.2) (xs.getD t 0 - o.1)
    (us.getD t 0 : ℝ) * Real.sin angle - (vs.getD t 0 : ℝ) * Real.cos angle)

/-- The colouring by radial flow of `view_flowfields`: around the centre of mass (strata/view_flowmap.py:57-59). -/
noncomputable def radialColour (f : Flow) : Except Err (List ℝ) := do
  match ← centerOfMass f with
  | [x, y] => radialFlow f.data (x, y)
  | _ => .error .valueError

/-- `np.gradient` along one axis of length `n` with spacing `h` and `edge_order=1`, at position `i`: central differences
inside, two point differences at the two ends (strata/view_flowmap.py:425-427, :456-458). -/
def gradient1 (n : ℕ) (h : ℚ) (f : ℕ → ℚ) (i : ℕ) : ℚ :=
  if i = 0 then (f 1 - f 0) / h
  else if i + 1 = n then (f (n - 1) - f (n - 2)) / h
  else (f (i + 1) - f (i - 1)) / (2 * h)

/-- `np.gradient(M, *spacing)` of a column of shape `(ny, nx)` in row `t`: along axis 0 with the first spacing and along
axis 1 with the second one (strata/view_flowmap.py:425-427, :456-458). -/
def massGradients (nx ny : ℕ) (sp : ℚ × ℚ) (m : ℕ → ℚ) (t : ℕ) : ℚ × ℚ :=
  (gradient1 ny sp.1 (fun j => m (j * nx + t % nx)) (t / nx), gradient1 nx sp.2 (fun i => m (t / nx * nx + i)) (t % nx))

/-- The common part of `add_density_gradient` and `add_evaporation` (strata/view_flowmap.py:418-427, :449-458): the flow
object, whose data is sorted in place, its shape and its spacing and the mass.  Unset shape or spacing make Numpy raise
`TypeError`; a wrong shape, or an axis with fewer than two bins, `ValueError`.  Negative shapes (where `reshape` infers an
axis) are taken as wrong ones. -/
def massOnGrid (f : Flow) : Except Err (Flow × ℕ × ℕ × (ℚ × ℚ) × List ℚ) := do
  let g ← sort f
  match f.info.shape with
  | none => .error .typeError
  | some (nx, ny) =>
    if nx < 0 ∨ ny < 0 ∨ (size g.data : ℤ) ≠ nx * ny then .error .valueError
    else do
      let m ← field g.data "M"
      if nx < 2 ∨ ny < 2 then .error .valueError
      else match f.info.spacing with
        | none => .error .typeError
        | some sp => .ok (g, nx.toNat, ny.toNat, sp, m)

/-- `add_density_gradient` (strata/view_flowmap.py:415-432): the flow object and the new fields 'grad_rho_x' and
'grad_rho_y'. -/
def densityGradient (f : Flow) : Except Err (Flow × List (Option ℚ) × List (Option ℚ)) := do
  let (g, nx, ny, sp, m) ← massOnGrid f
  newName g.data "grad_rho_x"
  newName g.data "grad_rho_y"
  .ok (g, (List.range (nx * ny)).map fun t : ℕ => if sp.2 = 0 then none else some (massGradients nx ny sp (fun k => m.getD k 0) t).2,
    (List.range (nx * ny)).map fun t : ℕ => if sp.1 = 0 then none else some (massGradients nx ny sp (fun k => m.getD k 0) t).1)

/-- `add_evaporation` (strata/view_flowmap.py:436-467): the flow object and the new field 'evaporation'. -/
def evaporation (f : Flow) : Except Err (Flow × List (Option ℚ)) := do
  let (g, nx, ny, sp, m) ← massOnGrid f
  let us ← field g.data "U"
  let vs ← field g.data "V"
  newName g.data "evaporation"
  .ok (g, (List.range (nx * ny)).map fun t : ℕ => if sp.1 = 0 ∨ sp.2 = 0 then none else
    some (us.getD t 0 * (massGradients nx ny sp (fun k => m.getD k 0) t).2 + vs.getD t 0 * (massGradients nx ny sp (fun k => m.getD k 0) t).1))

/-! ## Arrows -/

/-- `cut_system` (strata/view_flowmap.py:176-182): which bins are within the limits.  An absent limit is the smallest or
largest value, which an empty array has not. -/
def cutSystem (cs : List ℚ) (lims : Option ℚ × Option ℚ) : Except Err (List Bool) := do
  let cmin ← match lims.1 with | some v => .ok v | none => npMin cs
  let cmax ← match lims.2 with | some v => .ok v | none => npMax cs
  .ok (cs.map fun c => decide (cmin ≤ c) && decide (c ≤ cmax))

/-- The mask of the cutoff, if there is one (strata/view_flowmap.py:194-196). -/
def cutoffMask (r : Record) (clim : Option Label × Option ℚ) : Except Err (List Bool) :=
  match clim.1 with
  | none => .ok (List.replicate (size r) true)
  | some l => do cutSystem (← field r l) (clim.2, none)

/-- The arrows: x, y, u, v and weight of each (strata/view_flowmap.py:205). -/
abbrev Arrows := List ℚ × List ℚ × List ℚ × List ℚ × List ℚ

/-- `get_quiver_data` (strata/view_flowmap.py:147-205).  A colour that is no field of the data gives unit weights. -/
def quiver (r : Record) (labels coords : Label × Label) (colour : Option Label) (clim : Option Label × Option ℚ)
    (xlim ylim : Option ℚ × Option ℚ) : Except Err Arrows := do
  let xs ← field r coords.1
  let ys ← field r coords.2
  let us ← field r labels.1
  let vs ← field r labels.2
  let mx ← cutSystem xs xlim
  let my ← cutSystem ys ylim
  let mc ← cutoffMask r clim
  let weights := (colour.bind (col? r)).getD (List.replicate (size r) 1)
  let inds := (List.range (size r)).filter fun t : ℕ =>
    decide (us.getD t 0 ≠ 0) && decide (vs.getD t 0 ≠ 0) && mx.getD t false && my.getD t false && mc.getD t false
  .ok (pick inds xs, pick inds ys, pick inds us, pick inds vs, pick inds weights)

/-! ## Streamlines -/

/-- `v if v else ∓inf` of a lower limit: `None` and 0 are no limit (strata/view_flowmap.py:97, :99). -/
def lowerLimit (m : ℚ) : Option ℚ → ℚ
  | none => m
  | some v => if v = 0 then m else max m v

/-- The same for an upper limit (strata/view_flowmap.py:98, :100). -/
def upperLimit (m : ℚ) : Option ℚ → ℚ
  | none => m
  | some v => if v = 0 then m else min m v

/-- What `get_streamline_data` returns: the positions of columns and rows, and the fields U, V, colour and M as lists of rows
(strata/view_flowmap.py:119-128). -/
structure Streamlines where
  x : List ℚ
  y : List ℚ
  u : List (List ℚ)
  v : List (List ℚ)
  weights : List (List ℚ)
  lineWeights : List (List ℚ)
  deriving DecidableEq, Repr

/-- `column.reshape(nx, ny).transpose()` as a list of rows (strata/view_flowmap.py:117). -/
def reshapeT (nx ny : ℕ) (c : List ℚ) : List (List ℚ) :=
  (List.range ny).map fun j : ℕ => (List.range nx).map fun i : ℕ => c.getD (i * ny + j) 0

/-- `get_streamline_data` (strata/view_flowmap.py:81-128).  `quot a d` is `int(a / d)`, whose value depends on the rounding of
the floating point division.  Masked bins (with a value below the cutoff) are left out when the extent of the data is
determined, but remain in the arrays; whether they are masked there is not represented, and data with nothing but masked
bins are not modelled.  Without a cutoff (`None`) the comparison raises `TypeError`. -/
def streamlines (quot : ℚ → ℚ → ℤ) (f : Flow) (coords : Label × Label) (colour : Label) (clim : Label × Option ℚ)
    (xlim ylim : Option ℚ × Option ℚ) : Except Err Streamlines := do
  let cs ← field f.data clim.1
  match clim.2, f.info.spacing with
  | some cutoff, some (dx, dy) => do
    let shown := fun t : ℕ => !decide (cs.getD t 0 < cutoff)
    let gx ← field f.data "X"
    let gy ← field f.data "Y"
    let all := (List.range (size f.data)).filter shown
    let x0 := lowerLimit (← npMin (pick all gx)) xlim.1
    let x1 := upperLimit (← npMax (pick all gx)) xlim.2
    let y0 := lowerLimit (← npMin (pick all gy)) ylim.1
    let y1 := upperLimit (← npMax (pick all gy)) ylim.2
    let xs ← field f.data coords.1
    let ys ← field f.data coords.2
    let inds := (List.range (size f.data)).filter fun t : ℕ =>
      decide (x0 ≤ xs.getD t 0) && decide (xs.getD t 0 ≤ x1) && decide (y0 ≤ ys.getD t 0) && decide (ys.getD t 0 ≤ y1)
    let left := inds.filter shown
    let x0 ← npMin (pick left xs)
    let x1 ← npMax (pick left xs)
    let y0 ← npMin (pick left ys)
    let y1 ← npMax (pick left ys)
    let nx := quot (x1 - x0) dx + 2
    let ny := quot (y1 - y0) dy + 2
    if nx < 0 ∨ ny < 0 ∨ (inds.length : ℤ) ≠ nx * ny then .error .valueError
    else do
      let us ← field f.data "U"
      let vs ← field f.data "V"
      let ws ← field f.data colour
      let ms ← field f.data "M"
      let nx := nx.toNat
      let ny := ny.toNat
      .ok ⟨(List.range nx).map fun i : ℕ => x0 + (i : ℚ) * dx, (List.range ny).map fun j : ℕ => y0 + (j : ℚ) * dy,
        reshapeT nx ny (pick inds us), reshapeT nx ny (pick inds vs), reshapeT nx ny (pick inds ws), reshapeT nx ny (pick inds ms)⟩
  | _, _ => .error .typeError

end Strata.View
