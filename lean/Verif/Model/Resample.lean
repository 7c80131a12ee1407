import Verif.Model.Average
/-!
# Model of `droplets/resample.py`

Simplifications: numbers of bins to combine and the supersampling factor are natural numbers (for negative ones see
Model/ResampleInt.lean); unset shape or spacing raise `TypeError` in the arithmetic.
-/
namespace Strata.Resample
open Strata Strata.Flow Strata.Average

/-- `_cut_system_limits` (droplets/resample.py:218-240).  `np.min` of an empty selection raises. -/
def cutSystemLimits (f : Flow) (xlim ylim : Option ℚ × Option ℚ) (coords : Label × Label) : Except Err Flow := do
  let xs ← field f.data coords.1
  let ys ← field f.data coords.2
  let inds := (List.range (size f.data)).filter fun t =>
    inLims xlim.1 xlim.2 (xs.getD t 0) && inLims ylim.1 ylim.2 (ys.getD t 0)
  let data := gather inds f.data
  let dx ← field data coords.1
  let dy ← field data coords.2
  let ox ← npMin dx
  let oy ← npMin dy
  mk (asArgs data) [("shape", pairVal (some ((dx.dedup.length : ℚ), (dy.dedup.length : ℚ)))),
    ("origin", pairVal (some (ox, oy))), ("spacing", pairVal f.info.spacing),
    ("num_bins", .num (dx.dedup.length * dy.dedup.length : ℕ))]

/-- Geometry of a resampled grid (droplets/resample.py:249-254, :275-280). -/
structure GridInfo where
  spacing : ℚ × ℚ
  shape : ℕ × ℕ
  origin : ℚ × ℚ
  deriving DecidableEq, Repr

/-- The information dictionary of a resampled grid (droplets/resample.py:249-254, :274-279). -/
def GridInfo.dict (i : GridInfo) : InfoDict :=
  [("spacing", pairVal (some i.spacing)), ("shape", pairVal (some ((i.shape.1 : ℚ), (i.shape.2 : ℚ)))),
   ("origin", pairVal (some i.origin)), ("num_bins", .num (i.shape.1 * i.shape.2 : ℕ))]

/-- `np.meshgrid` of the coordinates, raveled (droplets/resample.py:259-263, :284-288). -/
def GridInfo.xs (i : GridInfo) : List ℚ :=
  (List.range (i.shape.1 * i.shape.2)).map fun t => i.origin.1 + i.spacing.1 * ((t % i.shape.1 : ℕ) : ℚ)

/-- See `GridInfo.xs` (droplets/resample.py:259-263, :284-288). -/
def GridInfo.ys (i : GridInfo) : List ℚ :=
  (List.range (i.shape.1 * i.shape.2)).map fun t => i.origin.2 + i.spacing.2 * ((t / i.shape.1 : ℕ) : ℚ)

/-- `_get_downscaled_grid_info` (droplets/resample.py:243-256). -/
def downscaledInfo (f : Flow) (n : ℕ × ℕ) : Except Err GridInfo :=
  match f.info.spacing, f.info.shape, f.info.origin with
  | some (dx, dy), some (sx, sy), some (ox, oy) =>
    if n.1 = 0 ∨ n.2 = 0 then .error .zeroDivisionError
    else
      let new := (dx * n.1, dy * n.2)
      .ok ⟨new, ((sx / n.1).toNat, (sy / n.2).toNat), (ox + 1 / 2 * (new.1 - dx), oy + 1 / 2 * (new.2 - dy))⟩
  | _, _, _ => .error .typeError

/-- `column.reshape(sy, sx)[ny*I:ny*(I+1), nx*J:nx*(J+1)]` (droplets/resample.py:199-213); the blocks never reach
beyond the array because the new shape is the floored quotient. -/
def block (sx nx ny J I : ℕ) (c : List ℚ) : List ℚ :=
  (List.range ny).flatMap fun b => (List.range nx).map fun a => c.getD ((ny * I + b) * sx + (nx * J + a)) 0

/-- `np.average(values, weights=weights)`, 0 if the weights sum to zero (droplets/resample.py:204-209). -/
def wavg (vs ws : List ℚ) : ℚ := if ws.sum = 0 then 0 else (List.zipWith (· * ·) vs ws).sum / ws.sum

/-- `_combine_bins` (droplets/resample.py:178-215). -/
def combineBins (i : GridInfo) (f : Flow) (n : ℕ × ℕ) (coords : Label × Label) (weights : List (Label × Label)) :
    Except Err Record := do
  let sorted ← sortRecord f.data [coords.2, coords.1]
  match f.info.shape with
  | none => .error .typeError
  | some (sx, sy) =>
    if (size sorted : ℤ) ≠ sx * sy then .error .valueError
    else if i.shape.1 * i.shape.2 ≠ 0 ∧ ¬ weights.all (fun lw => decide (lw.1 ∈ names sorted ∧ lw.2 ∈ names sorted)) then
      .error .valueError
    else
      let cell := fun (F : ℕ → ℕ → ℚ) => (List.range (i.shape.1 * i.shape.2)).map fun t => F (t % i.shape.1) (t / i.shape.1)
      let blk := fun l J I => block sx.toNat n.1 n.2 J I ((col? sorted l).getD [])
      .ok ((names sorted).map fun l => (l,
        match weights.reverse.lookup l with
        | some w => cell fun J I => wavg (blk l J I) (blk w J I)
        | none =>
          if l = coords.2 then i.ys else if l = coords.1 then i.xs
          else cell fun J I => (blk l J I).sum))

/-- `downsample_flow_data` (droplets/resample.py:7-59). -/
def downsample (f : Flow) (n : ℕ × ℕ) (coords : Label × Label := ("X", "Y")) (weights : List (Label × Label) := [])
    (xlim ylim : Option ℚ × Option ℚ := (none, none)) : Except Err Flow := do
  let f ← cutSystemLimits f xlim ylim coords
  let info ← downscaledInfo f n
  let data ← combineBins info f n coords weights
  mk (asArgs data) info.dict

/-! ## Supersampling -/

/-- `_get_superscaled_grid_info` (droplets/resample.py:266-281). -/
def superscaledInfo (f : Flow) (n : ℕ) (coords : Label × Label) : Except Err GridInfo :=
  match f.info.shape, f.info.spacing with
  | some (sx, sy), some (dx, dy) =>
    if n = 0 then .error .zeroDivisionError
    else do
      let ox ← npMin (← field f.data coords.1)
      let oy ← npMin (← field f.data coords.2)
      .ok ⟨(dx / n, dy / n), ((sx * n).toNat, (sy * n).toNat), (ox, oy)⟩
  | _, _ => .error .typeError

/-- `_transfer_data_to_finer_grid` (droplets/resample.py:154-175) for one column: `nx`, `ny` is the shape of the
coarse data. -/
def finerCol (nx ny n : ℕ) (c : List ℚ) : List ℚ :=
  (List.range (nx * n * (ny * n))).map fun t => c.getD ((t / (nx * n)) / n * nx + (t % (nx * n)) / n) 0

/-- `data[i0:i1, j0:j1]` with `i0 = max(0, i - n)`, `i1 = i + n + 1` (cut at the end of the array)
(droplets/resample.py:128-138); `NX`, `NY` is the shape of the fine grid, the row is `i` and the column `j`. -/
def windowBins (NX NY n i j : ℕ) (c : List ℚ) : List ℚ :=
  (List.range NY).flatMap fun a => (List.range NX).filterMap fun b =>
    if i - n ≤ a ∧ a < i + n + 1 ∧ j - n ≤ b ∧ b < j + n + 1 then some (c.getD (a * NX + b) 0) else none

/-- The loop `for (l, w) in weights: data[l] *= data[w]` (droplets/resample.py:124-125). -/
def premultiply (r : Record) (weights : List (Label × Label)) : Except Err Record :=
  weights.foldlM (fun r lw => do
    let v ← field r lw.1
    let w ← field r lw.2
    .ok (setCol r lw.1 (List.zipWith (· * ·) v w))) r

/-- `_supersample_data_on_grid` (droplets/resample.py:117-152).  A mean over an empty window does not occur: the
window contains the bin itself. -/
def supersampleOnGrid (NX NY factor : ℕ) (fine : Record) (coords : Label × Label) (weights : List (Label × Label)) :
    Except Err Record := do
  let data ← premultiply fine weights
  let n := factor - 1
  let win := fun l t => windowBins NX NY n (t / NX) (t % NX) ((col? data l).getD [])
  .ok ((names fine).map fun l => (l,
    match weights.reverse.lookup l with
    | some w => (List.range (NX * NY)).map fun t =>
      if (win w t).sum ≠ 0 then (win l t).sum / (win w t).sum else 0
    | none =>
      if l = coords.1 ∨ l = coords.2 then (col? fine l).getD []
      else (List.range (NX * NY)).map fun t => (win l t).sum / (win l t).length))

/-- `supersample_flow_data` (droplets/resample.py:62-115). -/
def supersample (f : Flow) (factor : Option ℕ) (coords : Label × Label := ("X", "Y"))
    (weights : List (Label × Label) := []) : Except Err Flow :=
  match factor with
  | none => copy f
  | some 1 => copy f
  | some n => do
    let f ← copy f
    let f ← sort f coords
    let info ← superscaledInfo f n coords
    let nx := info.shape.1 / n
    let ny := info.shape.2 / n
    if size f.data ≠ ny * nx then .error .valueError
    else
      let fine := f.data.map fun lc => (lc.1,
        if lc.1 = coords.2 then info.ys else if lc.1 = coords.1 then info.xs else finerCol nx ny n lc.2)
      let data ← supersampleOnGrid info.shape.1 info.shape.2 n fine coords weights
      mk (asArgs data) info.dict

end Strata.Resample
