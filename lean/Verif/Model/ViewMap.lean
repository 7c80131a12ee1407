import Verif.Model.View
/-!
# Model of `view_flowmap_2d` (`strata/view_flowmap.py`): what height maps and contour maps show

Drawing itself is left out: the model ends with the arrays handed to (or, for height maps, calculated by) Matplotlib.  Values
are real numbers; `none` is an infinite or NaN value, or, in the cells of a height map, a blank cell.
-/
namespace Strata.View
open Strata Strata.Flow Strata.Average Strata.Sample

/-! ## Two-dimensional histograms -/

/-- The range of the cells along one axis: from the smallest to the largest position; widened by 1/2 in both directions if
these are equal, (0, 1) for no positions (`np.histogram2d`, called by `hist2d` at strata/view_flowmap.py:314). -/
def cellRange (xs : List ℚ) : ℚ × ℚ :=
  match npMin xs, npMax xs with
  | .ok lo, .ok hi => if lo = hi then (lo - 1 / 2, hi + 1 / 2) else (lo, hi)
  | _, _ => (0, 1)

/-- The position of boundary `k` of `n` cells (strata/view_flowmap.py:314). -/
def cellEdge (n : ℕ) (r : ℚ × ℚ) (k : ℕ) : ℚ := r.1 + (k : ℚ) * ((r.2 - r.1) / (n : ℚ))

/-- The cell a position is counted in: the number of boundaries not above it, minus one; the last boundary belongs to the
last cell (strata/view_flowmap.py:314). -/
def cellOf (n : ℕ) (r : ℚ × ℚ) (x : ℚ) : ℕ :=
  ((List.range (n + 1)).filter fun k : ℕ => decide (cellEdge n r k ≤ x)).length - (if x = cellEdge n r n then 1 else 0) - 1

/-- The sum of the values of the rows in cell `(i, j)`, undefined if one of them is (strata/view_flowmap.py:314). -/
def cellSum {V : Type} [Add V] [Zero V] (nx ny : ℕ) (xs ys : List ℚ) (ws : List (Option V)) (i j : ℕ) : Option V :=
  (((List.range xs.length).filter fun t : ℕ =>
      decide (cellOf nx (cellRange xs) (xs.getD t 0) = i) && decide (cellOf ny (cellRange ys) (ys.getD t 0) = j)).mapM
    fun t : ℕ => ws.getD t none).map List.sum

/-- A cell whose value is outside the limits is left blank (the arguments `cmin` and `cmax`, strata/view_flowmap.py:314-315). -/
noncomputable def blank (lims : Option ℝ × Option ℝ) (v : Option ℝ) : Option ℝ :=
  open scoped Classical in
  v.bind fun h => if (∃ c, lims.1 = some c ∧ h < c) ∨ (∃ c, lims.2 = some c ∧ c < h) then none else some h

/-! ## The data of one map -/

/-- The data of one map: the fields of the file and the added ones. -/
structure Shown where
  base : Record
  extra : List (Label × List (Option ℝ)) := []

/-- A field of it; a missing one raises `ValueError`. -/
def Shown.values (s : Shown) (l : Label) : Except Err (List (Option ℝ)) :=
  match col? s.base l, s.extra.lookup l with
  | some c, _ => .ok (c.map fun v : ℚ => some (v : ℝ))
  | none, some c => .ok c
  | none, none => .error .valueError

/-- The viscosity 8.77e-4 (strata/view_flowmap.py:269). -/
def viscosity : ℚ := 877 / 1000000

/-- The fields added for a label, and the label drawn (strata/view_flowmap.py:264-275). -/
noncomputable def addFields (label : Label) (f : Flow) : Except Err (Label × Shown) :=
  if label = "flow" then do
    let c ← absoluteFlow f.data
    .ok ("flow", ⟨f.data, [("flow", c.map some)]⟩)
  else if label = "visc_diss" then do
    let (g, c) ← viscousDissipation f viscosity (weight := some "M")
    newName g.data "visc"
    .ok ("visc", ⟨g.data, [("visc", c.map fun v => v.map fun q : ℚ => (q : ℝ))]⟩)
  else if label = "evaporation" then do
    let (g, c) ← evaporation f
    .ok ("evaporation", ⟨g.data, [("evaporation", c.map fun v => v.map fun q : ℚ => (q : ℝ))]⟩)
  else if label = "grad_rho_x" ∨ label = "grad_rho_y" then do
    let (g, c, d) ← densityGradient f
    .ok (label, ⟨g.data, [("grad_rho_x", c.map fun v => v.map fun q : ℚ => (q : ℝ)), ("grad_rho_y", d.map fun v => v.map fun q : ℚ => (q : ℝ))]⟩)
  else .ok (label, ⟨f.data, []⟩)

/-- The rows with these numbers. -/
def Shown.rows (s : Shown) (idx : List ℕ) : Shown :=
  ⟨gather idx s.base, s.extra.map fun p => (p.1, idx.map fun t : ℕ => p.2.getD t none)⟩

/-- The cutoff, if both its label and its value are given (strata/view_flowmap.py:277-278): `lims` raises `KeyError` for a label
that is not there.  Simplified: rows with an undefined value are removed, also if the value is infinite. -/
noncomputable def applyCutoff (cl : Option Label) (co : Option ℚ) (s : Shown) : Except Err Shown :=
  open scoped Classical in
  match cl, co with
  | some l, some c =>
    match s.values l with
    | .error _ => .error .keyError
    | .ok vs => .ok (s.rows ((List.range vs.length).filter fun t : ℕ => ∃ v, vs.getD t none = some v ∧ (c : ℝ) ≤ v))
  | _, _ => .ok s

/-- The options used here: the coordinates, the cutoff, the limits of cells and those of contours. -/
structure MapOpts where
  coords : Label × Label := ("X", "Y")
  cutoffLabel : Option Label := some "M"
  cutoff : Option ℚ := none
  clim : Option ℝ × Option ℝ := (none, none)
  vlim : Option ℝ × Option ℝ := (none, none)
  levels : Bool := false

/-- What is drawn: the cells of a height map, or the positions and values of a contour map. -/
inductive Drawing where
  | height (cells : List (List (Option ℝ)))
  | contour (xs ys : List (List ℚ)) (values : List (List (Option ℝ)))

/-- The kinds of maps. -/
inductive Kind where
  | height | contour
  deriving DecidableEq, Repr

/-- The drawing function for a type of map (strata/view_flowmap.py:247-254). -/
def kindOf (type : String) : Except Err Kind :=
  if type = "height" then .ok .height else if type = "contour" then .ok .contour else .error .typeError

/-- `height` (strata/view_flowmap.py:303-317).  The shape is that of the file; unset, or not positive, it is refused. -/
noncomputable def drawHeight (o : MapOpts) (info : Info) (s : Shown) (label : Label) : Except Err Drawing := do
  let xs ← field s.base o.coords.1
  let ys ← field s.base o.coords.2
  let ws ← s.values label
  match info.shape with
  | none => .error .keyError
  | some (nx, ny) =>
    if nx < 1 ∨ ny < 1 then .error .valueError
    else .ok (.height ((List.range nx.toNat).map fun i : ℕ => (List.range ny.toNat).map fun j : ℕ =>
      blank o.clim (cellSum nx.toNat ny.toNat xs ys ws i j)))

/-- `clip` with limits that may be absent (strata/view_flowmap.py:331-332). -/
noncomputable def clip (lims : Option ℝ × Option ℝ) (v : ℝ) : ℝ :=
  let v := match lims.1 with | none => v | some a => max v a
  match lims.2 with | none => v | some b => min v b

/-- The values of a contour map: clipped if there are limits and no explicit levels (strata/view_flowmap.py:330-332). -/
noncomputable def contourValues (o : MapOpts) (ws : List (Option ℝ)) : List (Option ℝ) :=
  if o.levels then ws else ws.map fun v => v.map (clip o.vlim)

/-- A column of shape `(nx, ny)` (strata/view_flowmap.py:334-336). -/
def reshape {V : Type} (nx ny : ℕ) (d : V) (c : List V) : List (List V) :=
  (List.range nx).map fun i : ℕ => (List.range ny).map fun j : ℕ => c.getD (i * ny + j) d

/-- `contour` (strata/view_flowmap.py:320-346).  Data of another size than that of the shape raise `ValueError`; negative shapes
(where `reshape` infers an axis) are taken as wrong ones. -/
noncomputable def drawContour (o : MapOpts) (info : Info) (s : Shown) (label : Label) : Except Err Drawing := do
  let ws ← s.values label
  let xs ← field s.base o.coords.1
  let ys ← field s.base o.coords.2
  match info.shape with
  | none => .error .keyError
  | some (nx, ny) =>
    if nx < 0 ∨ ny < 0 ∨ (size s.base : ℤ) ≠ nx * ny then .error .valueError
    else .ok (.contour (reshape nx.toNat ny.toNat 0 xs) (reshape nx.toNat ny.toNat 0 ys)
      (reshape nx.toNat ny.toNat none (contourValues o ws)))

/-- One pass of the loop: the label of the next pass and the drawing (strata/view_flowmap.py:261-283). -/
noncomputable def viewOne (k : Kind) (o : MapOpts) (label : Label) (f : Flow) : Except Err (Label × Drawing) := do
  let (l, s) ← addFields label f
  let s ← applyCutoff o.cutoffLabel o.cutoff s
  let d ← match k with | .height => drawHeight o f.info s l | .contour => drawContour o f.info s l
  .ok (l, d)

/-- The loop over the maps (strata/view_flowmap.py:261-284): what is drawn, and how the call ends. -/
noncomputable def viewLoop (k : Kind) (o : MapOpts) : Label → List Flow → List Drawing × Except Err Unit
  | _, [] => ([], .ok ())
  | label, f :: fs =>
    match viewOne k o label f with
    | .error e => ([], .error e)
    | .ok (l, d) => let r := viewLoop k o l fs; (d :: r.1, r.2)

/-- `view_flowmap_2d` (strata/view_flowmap.py:222-284) on the maps read from the files; the printing of averages is left out. -/
noncomputable def viewMaps (maps : List Flow) (label : Label := "M") (type : String := "heightmap") (o : MapOpts := {}) : List Drawing × Except Err Unit :=
  match kindOf type with
  | .error e => ([], .error e)
  | .ok k => viewLoop k o label maps

end Strata.View
