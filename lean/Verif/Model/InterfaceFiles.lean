import Verif.Model.SpreadingEdges
import Verif.Model.Sample
import Mathlib.Analysis.SpecialFunctions.Trigonometric.Arctan
import Mathlib.Analysis.SpecialFunctions.Trigonometric.Inverse
/-!
# Model of `strata/interface/{collect,sample,angle,view}.py`

Numbers are exact rationals, lengths and angles exact reals.  Left out: headers of the output files, figures and progress bars.
-/
namespace Strata.InterfaceFiles
open Strata Strata.Flow Strata.Average Strata.Interface Strata.Spreading

/-! ## Heights and rows (strata/interface/collect.py) -/

/-- `YIndexData` (strata/interface/collect.py:136-137). -/
structure YIndex where
  ymin : ℚ
  ymax : ℚ
  dy : ℚ
  num : ℕ
  deriving DecidableEq, Repr

/-- `get_yindex_data` (strata/interface/collect.py:139-154); fewer than two heights have no difference. -/
def yindexData (ys : List ℚ) : Except Err YIndex :=
  match npUnique (npDiff ys) with
  | [] => .error .indexError
  | dy :: _ => do .ok ⟨← npMin ys, ← npMax ys, dy, ys.length⟩

/-- `get_yindex_for_value` (strata/interface/collect.py:156-164), for ascending heights (`dy > 0`). -/
def yindexOf (y : ℚ) (d : YIndex) : ℕ := (pyInt ((min (max y d.ymin) d.ymax - d.ymin) / d.dy)).toNat

/-- `xs_new[imin:imax + 1] = src` for `xs_new` with `n` entries, all `None` (strata/interface/collect.py:197, :220): a source of another
length raises `ValueError`, unless it has one entry. -/
def sliceAssign {α : Type} (n imin imax : ℕ) (src : List α) : Except Err (List (Option α)) :=
  let len := min (imax + 1) n - imin
  if src.length = len then .ok ((List.range n).map fun i : ℕ => if imin ≤ i ∧ i ≤ imax then src[i - imin]? else none)
  else match src with
    | [a] => .ok ((List.range n).map fun i : ℕ => if imin ≤ i ∧ i ≤ imax then some a else none)
    | _ => .error .valueError

/-- `transfer_values` (strata/interface/collect.py:166-222). -/
def transferValues {α : Type} (old : Option (List α × YIndex)) (new : YIndex) : Except Err (List (Option α)) :=
  match old with
  | none => .ok (List.replicate new.num none)
  | some (xs, d) =>
    if isClose d.ymin new.ymin ∧ isClose d.ymax new.ymax ∧ isClose d.dy new.dy ∧ d.num = new.num then .ok (xs.map some)
    else if ¬ isClose d.dy new.dy then .error .valueError
    else sliceAssign new.num (yindexOf d.ymin new) (yindexOf d.ymax new)
      ((xs.take (yindexOf new.ymax d + 1)).drop (yindexOf new.ymin d))

/-- The leading part of `fill_pbc_info_for_empty_y_values` (strata/interface/collect.py:251-259). -/
def fillFront {α : Type} (l : List (Option α)) : List (Option α) :=
  match l.find? Option.isSome with
  | none => l
  | some v => (l.takeWhile fun o => o.isNone).map (fun _ => v) ++ l.dropWhile fun o => o.isNone

/-- `fill_pbc_info_for_empty_y_values` (strata/interface/collect.py:238-268). -/
def fillInfo (l : List (Option PeriodicInfo)) : List (Option PeriodicInfo) :=
  if l.any Option.isSome then (fillFront (fillFront l).reverse).reverse
  else List.replicate l.length (some initPeriodicInfo)

/-- The new information of one height (strata/interface/collect.py:280-290). -/
def updateRow (box : ℚ) (info : Option PeriodicInfo) (l r : ℚ) : PeriodicInfo :=
  match info with
  | some i => updateInfo i box l r
  | none => initPeriodicInfo (some l) (some r)

/-- One point of an interface (strata/interface/collect.py:227-229). -/
structure Point where
  x : ℚ
  y : ℚ
  deriving DecidableEq, Repr

/-- `create_interface_array` (strata/interface/collect.py:224-236). -/
def interfaceArray (ys ls rs : List ℚ) : List Point :=
  List.zipWith Point.mk (ls ++ rs.reverse) (ys ++ ys.reverse)

/-- What is kept between maps: the periodic information of every height and the heights (strata/interface/collect.py:53-54). -/
abbrev Memory := Option (List PeriodicInfo × YIndex)

/-- `update_interface_with_pbc_info` (strata/interface/collect.py:270-304). -/
def updateInterface (ys ls rs : List ℚ) (box : ℚ) (old : Memory) : Except Err (List Point × Memory) := do
  let new ← yindexData ys
  let infos := List.zipWith (fun i (e : ℚ × ℚ) => updateRow box i e.1 e.2) (fillInfo (← transferValues old new)) (ls.zip rs)
  let edges := List.zipWith (fun i (e : ℚ × ℚ) => addMultipliers i box e.1 e.2) infos (ls.zip rs)
  .ok (interfaceArray ys (edges.map Prod.fst) (edges.map Prod.snd), some (infos, new))

/-- The value of `recenter` (strata/interface/collect.py:128-131); other values do nothing. -/
inductive Centre where
  | zero | com | other
  deriving DecidableEq, Repr

/-- `ys -= ys[0]` (strata/interface/collect.py:126). -/
def fromBase (pts : List Point) : List Point := pts.map fun p => { p with y := p.y - (pts.headD ⟨0, 0⟩).y }

/-- The recentring (strata/interface/collect.py:128-131). -/
def recentre (c : Centre) (f : Flow) (label xl : Label) (pts : List Point) : Except Err (List Point) :=
  match c with
  | .zero => .ok (pts.map fun p => { p with x := p.x - ((pts.headD ⟨0, 0⟩).x + (pts.getLastD ⟨0, 0⟩).x) / 2 })
  | .com => do
    let m ← Sample.npAverage (← field f.data xl) (← field f.data label)
    .ok (pts.map fun p => { p with x := p.x - m })
  | .other => .ok pts

/-- `get_interface_coordinates` (strata/interface/collect.py:78-133).  If no interface is found the unpacking raises `ValueError`. -/
def interfaceCoordinates (f : Flow) (label : Label) (old : Memory) (c : Centre) (o : Interface.Opts) (coords : Label × Label := ("X", "Y")) :
    Except Err (List Point × Memory) := do
  let s ← cells f.data label coords
  let pts ← getInterface s (boxSize f) { o with longest := true }
  match pts, boxSize f with
  | [], _ => .error .valueError
  | _, none => .error .typeError
  | p :: rest, some b => do
    let r ← updateInterface ((p :: rest).map fun p => (row s p.1).y) ((p :: rest).map fun p => (row s p.1).x)
      ((p :: rest).map fun p => (row s p.2).x) b.1 old
    .ok (← recentre c f label coords.1 (fromBase r.1), r.2)

/-- A number in a file written with `'%.3f'` and read again (strata/interface/collect.py:368): three decimals, ties to even. -/
def written (x : ℚ) : ℚ := (pyRound (1000 * x) : ℚ) / 1000

/-- `write_interface_data` (strata/interface/collect.py:307-369): the rows of the file. -/
def fileRows (pts : List Point) : List Point := pts.map fun p => ⟨written p.x, written p.y⟩

/-- The loop of `collect_interfaces` (strata/interface/collect.py:62-69): the rows of the files written and how the call ends. -/
def collectInterfaces (c : Centre) (o : Interface.Opts) : Memory → List Flow → List (List Point) × Except Err Unit
  | _, [] => ([], .ok ())
  | m, f :: fs =>
    match interfaceCoordinates f "M" m c o with
    | .error e => ([], .error e)
    | .ok (pts, m') =>
      let r := collectInterfaces c o m' fs
      (fileRows pts :: r.1, r.2)

/-! ## Area and circumference (strata/interface/sample.py) -/

/-- `np.isclose(a, b)` on arrays with broadcasting of single entries (strata/interface/sample.py:115). -/
def closeAll (a b : List ℚ) : Except Err Bool :=
  if a.length = b.length then .ok ((List.zipWith isClose a b).all id)
  else match a, b with
    | [x], b => .ok (b.all fun y => isClose x y)
    | a, [y] => .ok (a.all fun x => isClose x y)
    | _, _ => .error .valueError

/-- `get_trapezoid_base` (strata/interface/sample.py:103-107): the mean widths between neighbouring heights. -/
def meanWidths : List ℚ → List ℚ → List ℚ
  | l :: l' :: ls, r :: r' :: rs => 1 / 2 * ((r - l) + (r' - l')) :: meanWidths (l' :: ls) (r' :: rs)
  | _, _ => []

/-- `get_area_of_interface` (strata/interface/sample.py:92-123). -/
def area (xs ys : List ℚ) : Except Err ℚ := do
  let n := xs.length / 2
  if ← closeAll (ys.take n) (ys.drop n).reverse then
    .ok (List.zipWith (· * ·) (npDiff (ys.take n)) (meanWidths (xs.take n) (xs.drop n).reverse)).sum
  else .error .typeError

/-- `calc_length` (strata/interface/sample.py:126-139). -/
noncomputable def length (xs ys : List ℚ) : ℝ :=
  (List.zipWith (fun dx dy : ℚ => Real.sqrt ((dx : ℝ) ^ 2 + (dy : ℝ) ^ 2)) (npDiff xs) (npDiff ys)).sum

/-- The loop of `sample_interfaces` (strata/interface/sample.py:60-79) from file number `k`: times and samples, which are also the lines
written.  Files whose sampling raises `TypeError` are skipped, other exceptions end the call. -/
def sampleLoop {α γ : Type} (sample : γ → Except Err α) (dt : ℚ) : ℕ → List γ → List (ℚ × α) × Except Err Unit
  | _, [] => ([], .ok ())
  | k, f :: fs =>
    match sample f with
    | .ok v => let r := sampleLoop sample dt (k + 1) fs; (((k : ℚ) * dt, v) :: r.1, r.2)
    | .error .typeError => sampleLoop sample dt (k + 1) fs
    | .error e => ([], .error e)

/-! ## Contact angles (strata/interface/angle.py) -/

/-- Order of `sort(order='Y')`: by height and then by the other field (strata/interface/angle.py:203, :208). -/
def lowerFirst (p q : Point) : Prop := p.y < q.y ∨ p.y = q.y ∧ p.x ≤ q.x

instance : DecidableRel lowerFirst := fun _ _ => inferInstanceAs (Decidable (_ ∨ _))

/-- `read_interface_file` (strata/interface/angle.py:192-210): the two edges, from the bottom. -/
def edgesOf (pts : List Point) : List Point × List Point :=
  let n := pts.length / 2
  ((pts.take n).insertionSort lowerFirst, (pts.reverse.take n).insertionSort lowerFirst)

/-- `np.abs(edge['Y'] - y0 - height).argmin()` (strata/interface/angle.py:218): the first point closest to the height. -/
def pointAt (edge : List Point) (first : Point) (height : ℚ) : Point :=
  edge.foldl (fun best p => if |p.y - first.y - height| < |best.y - first.y - height| then p else best) first

/-- `measure_angle` (strata/interface/angle.py:213-227); none is NaN (0/0). -/
noncomputable def measureAngle (edge : List Point) (right : Bool) (height : ℚ) : Except Err (Option ℝ) :=
  match edge with
  | [] => .error .indexError
  | p0 :: rest =>
    let p1 := pointAt (p0 :: rest) p0 height
    let dx := if right then -(p1.x - p0.x) else p1.x - p0.x
    let dy := p1.y - p0.y
    if dx = 0 ∧ dy = 0 then .ok none
    else .ok (some (Real.arccos ((dx : ℝ) / Real.sqrt ((dx : ℝ) ^ 2 + (dy : ℝ) ^ 2)) * 180 / Real.pi))

/-- `fit_angle_from_segment` (strata/interface/angle.py:230-234); the chord must not be 0. -/
noncomputable def fitAngle (left right : List Point) : Except Err ℝ :=
  match left, right with
  | l :: _, r :: _ => do
    let chord := r.x - l.x
    let height := ((← npMax (left.map (·.y))) + (← npMax (right.map (·.y)))) / 2
    .ok (2 * (Real.arctan (2 * (height : ℝ) / (chord : ℝ)) * 180 / Real.pi))
  | _, _ => .error .indexError

/-- The lists returned by `interface_contact_angle` (strata/interface/angle.py:64-69); none is NaN. -/
structure Angles where
  fit : List ℝ
  measured : List (Option ℝ)
  left : List (Option ℝ)
  right : List (Option ℝ)

/-- `np.mean([left, right])`: NaN if one of them is (strata/interface/angle.py:82). -/
noncomputable def meanAngle (l r : Option ℝ) : Option ℝ :=
  match l, r with
  | some a, some b => some ((a + b) / 2)
  | _, _ => none

/-- The fit, if asked for (strata/interface/angle.py:74-75). -/
noncomputable def fitIf (fit : Bool) (pts : List Point) : Except Err (Option ℝ) :=
  if fit then (fitAngle (edgesOf pts).1 (edgesOf pts).2).map some else .ok none

/-- One file of the loop (strata/interface/angle.py:71-82): the fit, if asked for, and the angles of the two edges, if a height was given. -/
noncomputable def angleRow (fit : Bool) (height : Option ℚ) (pts : List Point) : Except Err (Option ℝ × Option (Option ℝ × Option ℝ)) := do
  let f ← fitIf fit pts
  match height with
  | none => .ok (f, none)
  | some h => do
    let l ← measureAngle (edgesOf pts).1 false h
    let r ← measureAngle (edgesOf pts).2 true h
    .ok (f, some (l, r))

/-- `interface_contact_angle` on the files of a series (strata/interface/angle.py:71-92): times and angles. -/
noncomputable def contactAngles (fit : Bool) (height : Option ℚ) (dt : ℚ) (files : List (List Point)) : Except Err (List ℚ × Angles) := do
  let rows ← files.mapM (angleRow fit height)
  let fits := rows.filterMap Prod.fst
  let sides := rows.filterMap Prod.snd
  let num := if height.isSome then sides.length else if fit then fits.length else 0
  .ok ((List.range num).map fun i : ℕ => (i : ℚ) * dt, ⟨fits, sides.map fun e => meanAngle e.1 e.2, sides.map Prod.fst, sides.map Prod.snd⟩)

/-! ## Averages of interfaces (strata/interface/view.py) -/

/-- A pandas series of one side: positions by height (strata/interface/view.py:169-174). -/
abbrev Side := List (ℚ × ℚ)

/-- `get_boundary_sides` (strata/interface/view.py:169-174): height and position. -/
def sides (pts : List Point) : Side × Side :=
  let n := pts.length / 2
  ((pts.take n).map fun p => (p.y, p.x), (pts.drop n).map fun p => (p.y, p.x))

/-- `average_edge` (strata/interface/view.py:176-180): the columns are joined on the heights; heights missing in one of the interfaces
are dropped.  The joined index begins with the heights of the first series, in their order; if a series has a height twice the
join raises an exception (`ValueError`; simplified: not if all series have the same heights).  An empty list has no mean (`ValueError`). -/
def averageSide (l : List Side) : Except Err Side :=
  match l with
  | [] => .error .valueError
  | first :: rest =>
    if (first :: rest).all fun s => decide (s.map Prod.fst).Nodup then
      .ok ((first.map Prod.fst).filterMap fun y =>
        ((first :: rest).mapM fun s : Side => s.lookup y).map fun xs : List ℚ => (y, xs.sum / (xs.length : ℚ)))
    else .error .valueError

/-- `stitch_edge_series` (strata/interface/view.py:230-241). -/
def stitch (left right : Side) : List Point :=
  (left ++ right.insertionSort fun a b => b.1 ≤ a.1).map fun p => ⟨p.2, p.1⟩

/-- `average_interfaces` (strata/interface/view.py:157-185). -/
def averageInterfaces (l : List (List Point)) : Except Err (List Point) := do
  let left ← averageSide (l.map fun p => (sides p).1)
  let right ← averageSide (l.map fun p => (sides p).2)
  .ok (stitch left right)

/-- `write_interface_data` with the averaged interface (strata/interface/view.py:85, strata/interface/collect.py:367): a series indexed by
heights has no entry `'X'`. -/
def writeAverage (_interface : List Point) : Except Err (List Point) := .error .keyError

/-- The loop of `view_interfaces` (strata/interface/view.py:74-94): groups that cannot be read or averaged are skipped; the writing is
not protected. -/
def viewInterfaces (save : Bool) : List (List (List Point)) → Except Err (List (List Point))
  | [] => .ok []
  | g :: gs =>
    match averageInterfaces g with
    | .error _ => viewInterfaces save gs
    | .ok p => do
      let _ ← if save then writeAverage p else .ok p
      .ok (p :: (← viewInterfaces save gs))

end Strata.InterfaceFiles
