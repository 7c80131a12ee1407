import Verif.Model.Basic
import Mathlib.Algebra.Order.Floor.Ring
import Mathlib.Data.Rat.Floor
/-!
# Model of `strata/spreading/*.py`

Positions, times and radii are exact rationals.  Progress bars and the text of the file header are
left out.  `get_spreading_edges` enters `collect` as the per-frame result `edges` (its own model is
`Verif.Model.SpreadingEdges`, `frameOf`).
-/
namespace Strata.Spreading
open Strata

/-- `PeriodicInfo` (strata/spreading/collect.py:214-217). -/
structure PeriodicInfo where
  leftPrev : Option ℚ
  rightPrev : Option ℚ
  multLeft : ℤ
  multRight : ℤ
  deriving DecidableEq, Repr

/-- `init_periodic_info` (strata/spreading/collect.py:219-229). -/
def initPeriodicInfo (left right : Option ℚ := none) : PeriodicInfo := ⟨left, right, 0, 0⟩

/-- Python's `%` on floats with a positive right operand (used at strata/spreading/collect.py:269). -/
def pyMod (x b : ℚ) : ℚ := x - b * ⌊x / b⌋

/-- `get_pbc_edge_multiplier_addition` (strata/spreading/collect.py:266-272). -/
def multAddition (x box : ℚ) : ℤ :=
  if pyMod x box > |box - pyMod x box| then -1 else 1

/-- `detect_crossing_event` (strata/spreading/collect.py:274-282). -/
def crossing (l r lp rp : ℚ) : Bool :=
  let aheadNow := decide (l > r)
  let aheadPrev := decide (lp > rp)
  (aheadNow && !aheadPrev) || (!aheadNow && aheadPrev)

/-- `check_and_update_periodic_info` (strata/spreading/collect.py:231-320).  A missing previous
position makes the comparison raise `TypeError`, which selects the first-step branch. -/
def updateInfo (info : PeriodicInfo) (box l r : ℚ) : PeriodicInfo :=
  let xl := l + info.multLeft * box
  let xr := r + info.multRight * box
  let (ml, mr) :=
    match info.leftPrev, info.rightPrev with
    | some lp, some rp =>
      if crossing l r lp rp then
        if |l - lp| > |r - rp| then (info.multLeft + multAddition xl box, info.multRight)
        else (info.multLeft, info.multRight + multAddition xr box)
      else (info.multLeft, info.multRight)
    | _, _ => if l > r then (info.multLeft, info.multRight + 1) else (info.multLeft, info.multRight)
  ⟨some l, some r, ml, mr⟩

/-- `add_pbc_multipliers_to_edges` (strata/spreading/collect.py:322-328). -/
def addMultipliers (info : PeriodicInfo) (box l r : ℚ) : ℚ × ℚ :=
  (l + info.multLeft * box, r + info.multRight * box)

/-- What one input map contributes: the box size `flow.size()[0]`, the wetting edges (or `None, None`,
strata/spreading/collect.py:115-119) and the file name. -/
structure Frame where
  box : ℚ
  edges : Option (ℚ × ℚ)
  path : Text
  deriving DecidableEq, Repr

/-- One line of the result (strata/spreading/collect.py:129-143, 391-396). -/
structure Row where
  time : ℚ
  radius : ℚ
  left : ℚ
  right : ℚ
  deriving DecidableEq, Repr

/-- What is appended to the output file: the impact block (373-388) or a data row (391-396). -/
inductive Line where
  | impact (time : ℚ) (path : Text)
  | row (r : Row)
  deriving DecidableEq, Repr

/-- Variables of the loop in `collect` (strata/spreading/collect.py:97-153).  `flag` is the function
attribute `write_spreading.impact`, which lives as long as the process. -/
structure State where
  info : PeriodicInfo
  time : ℚ
  rows : List Row
  flag : Bool
  lines : List Line
  deriving DecidableEq, Repr

/-- One iteration (strata/spreading/collect.py:113-145); `i` is the loop index. -/
def step (dt : ℚ) (save : Bool) (s : State) (i : ℕ) (f : Frame) : State :=
  match f.edges with
  | none => s
  | some (l, r) =>
    let info := updateInfo s.info f.box l r
    let (la, ra) := addMultipliers info f.box l r
    let row : Row := ⟨s.time, |(1 / 2) * (ra - la)|, la, ra⟩
    let (flag, lines) :=
      if save then
        (true, s.lines ++ (if s.flag then [] else [Line.impact (i * dt) f.path]) ++ [Line.row row])
      else (s.flag, s.lines)
    ⟨info, s.time + dt, s.rows ++ [row], flag, lines⟩

/-- The loop over `enumerate(read_from_files(*files))` from index `i`
(strata/spreading/collect.py:113-148). -/
def loop (dt : ℚ) (save : Bool) : State → ℕ → List Frame → State
  | s, _, [] => s
  | s, i, f :: fs => loop dt save (step dt save s i f) (i + 1) fs

/-- `collect` (strata/spreading/collect.py:19-153); `flag` is the value of `write_spreading.impact`
left behind by earlier calls in the same process (initially false, line 391).  The lines written
after the file header are in `lines`. -/
def collect (dt t0 : ℚ) (save : Bool) (flag : Bool) (frames : List Frame) : State :=
  loop dt save ⟨initPeriodicInfo, t0, [], flag, []⟩ 0 frames

/-! ## `strata/spreading/view.py`, `strata/spreading/fit.py` -/

/-- A pandas series: (index label, value) in order. -/
abbrev Series := List (ℚ × ℚ)

/-- Index label of the first entry with the least `f` value (`Series.idxmin`). -/
def argminLabel (f : ℚ → ℚ) : Series → Option (ℚ × ℚ)
  | [] => none
  | p :: s =>
    match argminLabel f s with
    | none => some p
    | some q => if f q.2 < f p.2 then some q else some p

/-- `calc_closest_time` (strata/spreading/view.py:113-114); `idxmin` of an empty series raises. -/
def closestTime (radius : ℚ) (s : Series) : Except Err ℚ :=
  match argminLabel (fun v => |v - radius|) s with
  | none => .error .valueError
  | some p => .ok p.1

/-- `np.min` of a list (strata/spreading/view.py:120). -/
def minList : List ℚ → Except Err ℚ
  | [] => .error .valueError
  | x :: xs => .ok (xs.foldl min x)

/-- `sync_time_at_radius` (strata/spreading/view.py:100-121). -/
def syncTimeAtRadius (data : List Series) (radius : ℚ) : Except Err (List Series) := do
  let times ← data.mapM (closestTime radius)
  let sync ← minList times
  data.mapM fun s => do
    let c ← closestTime radius s
    .ok (s.map fun p => (p.1 - (c - sync), p.2))

/-- A scaling argument: one number or a list (strata/spreading/view.py:124-162). -/
inductive Factor where
  | one (v : ℚ)
  | many (vs : List ℚ)


/-- Length of a broadcast operand; a scalar counts as 1. -/
def Factor.len : Factor → ℕ
  | .one _ => 1
  | .many vs => vs.length

/-- Result length of `np.broadcast` for 1-d operands: all lengths different from 1 must agree. -/
def broadcastLen (ns : List ℕ) : Option ℕ :=
  match ns.filter (· ≠ 1) with
  | [] => some 1
  | n :: rest => if rest.all (· = n) then some n else none

/-- Repeat a length-1 list to length `n`. -/
def stretch {α : Type} (n : ℕ) : List α → List α
  | [a] => List.replicate n a
  | l => l

/-- `scale_series` (strata/spreading/view.py:150-155), for non-zero factors. -/
def scaleSeries (s : Series) (tau R : ℚ) : Series := s.map fun p => (p.1 / tau, p.2 / R)

/-- `scale_spreading_data` (strata/spreading/view.py:124-168), for non-zero factors. -/
def scaleData (data : List Series) (tau R : Factor) : Except Err (List Series) :=
  match broadcastLen [data.length, tau.len, R.len] with
  | none => .error .typeError
  | some n =>
    let ts := match tau with | .one v => List.replicate n v | .many vs => stretch n vs
    let rs := match R with | .one v => List.replicate n v | .many vs => stretch n vs
    .ok (((stretch n data).zip (ts.zip rs)).map fun x => scaleSeries x.1 x.2.1 x.2.2)

/-- `combine_spreading_data` (strata/spreading/view.py:68-97). -/
def combineData (data : List Series) (sync : Option ℚ) (tau R : Factor) : Except Err (List Series) := do
  let d ← scaleData data tau R
  match sync with
  | none => .ok d
  | some r => syncTimeAtRadius d r

/-- `get_inds_in_limits` (strata/spreading/fit.py:139-159) for a series without missing values; the
fallback `series.notnull()` is then true everywhere (also taken for an empty series, whose `np.min`
raises). -/
def indsInLimits (s : Series) (xmin xmax : Option ℚ) : List Bool :=
  let ts := s.map Prod.fst
  match minList ts, minList (ts.map (fun t => -t)) with
  | .ok lo, .ok nhi =>
    let a := xmin.getD lo
    let b := xmax.getD (-nhi)
    let inds := ts.map fun t => decide (t ≥ a ∧ t ≤ b)
    if inds.any id then inds else ts.map fun _ => true
  | _, _ => ts.map fun _ => true

end Strata.Spreading
