import Verif.Model.Spreading
import Verif.Model.Average
import Verif.Model.Interface
/-!
# Model of `get_spreading_edges` and of the collection of a spreading curve from maps (strata/spreading/collect.py)
-/
namespace Strata.Spreading
open Strata Strata.Flow Strata.Average Strata.Interface

/-- The rows of a record array with the chosen coordinates and label (fields of `flow.data`, droplets/interface.py:151-161,
strata/spreading/collect.py:193).  A missing field raises `ValueError`. -/
def cells (d : Record) (label : Label) (coords : Label × Label := ("X", "Y")) : Except Err System := do
  let xs ← field d coords.1
  let ys ← field d coords.2
  let vs ← field d label
  .ok ((List.range (size d)).map fun t : ℕ =>
    ⟨xs.getD t 0, ys.getD t 0, vs.getD t 0, (d.filter fun c => c.1 ≠ coords.1).map fun c => c.2.getD t 0⟩)

/-- `|ceil(y - floor) - 1|` (strata/spreading/collect.py:192). -/
def floorMeasure (floor y : ℚ) : ℤ := |⌈y - floor⌉ - 1|

/-- `ys[np.abs(np.ceil(ys - floor) - 1).argmin()]` (strata/spreading/collect.py:190-192): the first height with the least
measure. -/
def floorLayer (floor : ℚ) : List ℚ → Except Err ℚ
  | [] => .error .valueError
  | y :: ys => .ok (ys.foldl (fun best z => if floorMeasure floor z < floorMeasure floor best then z else best) y)

/-- `get_floor_height` with the test for a given floor (strata/spreading/collect.py:190-196). -/
def floorHeight (floor : Option ℚ) (ys : List ℚ) : Except Err (Option ℚ) :=
  match floor with
  | none => .ok none
  | some f => (floorLayer f ys).map some

/-- The loop over the interface (strata/spreading/collect.py:201-211). -/
def firstInLayer (s : System) (yfloor : Option ℚ) (pts : List (ℕ × ℕ)) : Option (ℚ × ℚ) :=
  (pts.find? fun p => match yfloor with | none => true | some y => decide ((row s p.1).y = y)).map fun p =>
    ((row s p.1).x, (row s p.2).x)

/-- `get_spreading_edges` (strata/spreading/collect.py:156-211); `none` is `(None, None)`.  The `ylims` and the radius of
the options are overwritten. -/
def spreadingEdges (s : System) (box : Option (ℚ × ℚ)) (radius : ℚ) (floor : Option ℚ) (o : Interface.Opts) :
    Except Err (Option (ℚ × ℚ)) := do
  let yfloor ← floorHeight floor (s.map (·.y))
  let pts ← getInterface s box { o with ylims := (yfloor, yfloor), radius := some radius }
  .ok (firstInLayer s yfloor pts)

/-- One map of `collect` (strata/spreading/collect.py:113-119): the search is for the longest connected stretch.  The size of the
box is only used if edges were found. -/
def frameOf (f : Flow) (path : Text) (radius : ℚ) (floor : Option ℚ) (o : Interface.Opts) : Except Err Frame := do
  let s ← cells f.data "M"
  let e ← spreadingEdges s (boxSize f) radius floor { o with longest := true }
  match e, boxSize f with
  | none, b => .ok ⟨(b.getD (0, 0)).1, none, path⟩
  | some e, some b => .ok ⟨b.1, some e, path⟩
  | some _, none => .error .typeError

/-- `collect` on the maps of a series (strata/spreading/collect.py:111-153).  Simplified: an exception for one map ends the call, lines
written before it are not recorded. -/
def collectMaps (dt t0 : ℚ) (save flag : Bool) (radius : ℚ) (floor : Option ℚ) (o : Interface.Opts) (maps : List (Flow × Text)) :
    Except Err State := do
  let frames ← maps.mapM fun m => frameOf m.1 m.2 radius floor o
  .ok (collect dt t0 save flag frames)

end Strata.Spreading
