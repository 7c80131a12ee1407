import Verif.Model.ContactLineMerge
/-!
# Model of the averages of contact line edges (`add_adjusted_flow`, `get_averaged_contact_line_edges`, strata/contact_line_analysis.py)

The cells of one edge of a map are given as a record with the information of the map.
-/
namespace Strata.ContactLine
open Strata Strata.Flow Strata.Average Strata.Interface

/-- The rows of a map as used by the interface search with mass as label (strata/contact_line_analysis.py:340-342). -/
def systemOf (r : Record) : Except Err System := do
  let xs ← field r "X"
  let ys ← field r "Y"
  let ms ← field r "M"
  .ok ((List.range (size r)).map fun t : ℕ => ⟨xs.getD t 0, ys.getD t 0, ms.getD t 0, (r.filter fun c => decide (c.1 ≠ "X")).map fun c => c.2.getD t 0⟩)

/-- The cells of the left and right edge of one map (strata/contact_line_analysis.py:338-342); the map is built without information, so that it has no box. -/
def mapEdges (r : Record) (o : Opts) (area : ℚ × ℚ := (0, 0)) (eh : ℚ := 0) : Except Err (Record × Record) := do
  let s ← systemOf r
  let c ← contactLineCells s none o area eh
  .ok (gather c.1 r, gather c.2 r)

/-- `add_adjusted_flow` (strata/contact_line_analysis.py:429-464): the adjustment and the cells moved to the origin and sorted.  An unset spacing cannot be
unpacked (`TypeError`). -/
def addAdjusted (bins : Record) (direction : String) (info : Info) : Except Err ((ℚ × ℚ) × Flow) :=
  match info.spacing with
  | none => .error .typeError
  | some (dx, dy) => do
    let a ← adjustCells bins direction
    let f ← mk (asArgs a.2) (infoDict info)
    let f ← sort f
    let ys ← field f.data "Y"
    let n ← cutShape ys dx dy
    .ok (a.1, ⟨f.data, { shape := some ((n.1 : ℤ), (n.2 : ℤ)), origin := some a.1, spacing := f.info.spacing, numBins := some ((n.1 * n.2 : ℕ) : ℤ) }⟩)

/-- The average of one edge over the maps of a group (strata/contact_line_analysis.py:303-319): the mean adjustment along x and the averaged cells.
`np.array(data_list).T.tolist()` separates adjustments and maps (versions of NumPy that accept arrays of objects of different shapes). -/
def edgeAverage (huge : ℚ) (direction : String) (cells : List (Record × Info)) : Except Err (ℚ × Flow) := do
  let adj ← cells.mapM fun c => addAdjusted c.1 direction c.2
  let out ← averageFlowData huge (adj.map Prod.snd) edgeWeights true
  .ok ((adj.map fun a => a.1.1).sum / adj.length, out)

/-- The averaged edges of a group, moved back (strata/contact_line_analysis.py:303-323); `spacing` is that of the last map of the group. -/
def groupEdges (huge : ℚ) (spacing : ℚ × ℚ) (recenter : Bool) (left right : List (Record × Info)) : Except Err (Flow × Flow) := do
  let l ← edgeAverage huge "left" left
  let r ← edgeAverage huge "right" right
  let d ← adjustCoordinates l.2.data r.2.data (l.1, r.1) spacing.1 (coordOnGrid 0 spacing.2) recenter
  .ok (⟨d.1, l.2.info⟩, ⟨d.2, r.2.info⟩)

/-- The optional fusion (strata/contact_line_analysis.py:68-69). -/
def maybeFuse (fuse : Bool) (e : Flow × Flow) (dx : ℚ) : Except Err (Flow × Flow) :=
  if fuse then do
    let d ← fuseEdges e.1.data e.2.data dx
    .ok (⟨d.1, e.1.info⟩, ⟨d.2, e.2.info⟩)
  else .ok e

/-- What `extract_contact_line_bins` computes for one group (strata/contact_line_analysis.py:65-71), to be written by line 72.  The spacing of the first averaged
edge is used; without one it cannot be unpacked. -/
def combinedGroup (huge : ℚ) (spacing : ℚ × ℚ) (recenter fuse : Bool) (left right : List (Record × Info)) : Except Err Flow := do
  let e ← groupEdges huge spacing recenter left right
  match e.1.info.spacing with
  | none => .error .typeError
  | some sp => do
    let e ← maybeFuse fuse e sp.1
    combineFlow e.1 e.2 sp

end Strata.ContactLine
