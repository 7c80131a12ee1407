import Verif.Model.SampleAngle
/-!
# Model of `strata/sample_average.py`: sampling a series of files

Numbers are exact rationals, NaN is `none`; a standard deviation is represented by its square.  Left out: the text of the
header and of the numbers in the output file, progress and printed output.
-/
namespace Strata.SampleSeries
open Strata Strata.Flow Strata.Average Strata.Sample

/-- A sampled value with its standard deviation, if there is one (strata/sample_average.py:200-219); `var` is the square
of the standard deviation.  Flow angles are real numbers. -/
inductive Value where
  | number (v : Option ℚ) (var : Option (Option ℚ))
  | angle (degrees : ℝ)

/-- `np.mean(values)`: NaN for no values or if one of them is NaN (strata/sample_average.py:210, :244). -/
def mean (vs : List (Option ℚ)) : Option ℚ :=
  (vs.mapM id).bind fun vs : List ℚ => if vs = [] then none else some (vs.sum / (vs.length : ℚ))

/-- The square of `np.std(values)` (strata/sample_average.py:211, :244). -/
def var (vs : List (Option ℚ)) : Option ℚ := (mean vs).bind fun m => mean (vs.map fun v => v.map fun v => (v - m) ^ 2)

/-- `np.sum(values)` (strata/sample_average.py:216). -/
def sum (vs : List (Option ℚ)) : Option ℚ := (vs.mapM id).map List.sum

/-- Arguments of `sample_average_files` that change the samples (strata/sample_average.py:13-15, :87-92). -/
structure Opts where
  sum : Bool := false
  cutoffLabel : Option Label := none
  cutoff : Option ℚ := none
  viscosity : ℚ := 877 / 1000000
  floor : ℚ := 0
  xlim : Option ℚ × Option ℚ := (none, none)
  ylim : Option ℚ × Option ℚ := (none, none)

/-- The data to sample for labels other than `flow_angle`, and the flow object, which is sorted in place for `visc_diss`
(strata/sample_average.py:176-187). -/
def sampleData (o : Opts) (f : Flow) (label : Label) : Except Err (Flow × List (Option ℚ)) :=
  if label = "inertial_energy" then do .ok (f, (← inertialEnergy f).map some)
  else if label = "visc_diss" then viscousDissipation f o.viscosity
  else do .ok (f, (← field f.data label).map some)

/-- The limit of the selection: the given one or the midpoint (strata/sample_average.py:190-191). -/
def cutoffOf (c : List ℚ) : Option ℚ → Except Err ℚ
  | some x => .ok x
  | none => do .ok (1 / 2 * ((← npMax c) + (← npMin c)))

/-- The rows at or above the cutoff; all without cutoff label (strata/sample_average.py:189-198).  A missing field raises `ValueError`,
which is not caught. -/
def rows (o : Opts) (f : Flow) : Except Err (List ℕ) :=
  match o.cutoffLabel with
  | none => .ok (List.range (size f.data))
  | some l => do
    let c ← field f.data l
    let x ← cutoffOf c o.cutoff
    .ok (whereIdx (fun v => decide (x ≤ v)) c)

/-- The mean angle of the selected bins (strata/sample_average.py:185, :195, :201-208). -/
noncomputable def angleOf (f : Flow) (idx : List ℕ) : Except Err Value := do
  let u ← field f.data "U"
  let v ← field f.data "V"
  let m ← field f.data "M"
  let g ← Flow.mk (asArgs [("U", pick idx u), ("V", pick idx v), ("M", pick idx m)]) []
  match ← flowAngle g ["U", "V"] true (some "M") with
  | a :: _ => .ok (.angle a)
  | [] => .error .indexError

/-- Sum, or mean and standard deviation, of the selected values (strata/sample_average.py:195, :210-217). -/
def statistics (o : Opts) (idx : List ℕ) (vs : List (Option ℚ)) : Value :=
  let vs := idx.map fun t => vs.getD t none
  if o.sum then .number (sum vs) none else .number (mean vs) (some (var vs))

/-- `sample_value` (strata/sample_average.py:173-219). -/
noncomputable def sampleValue (o : Opts) (f : Flow) (label : Label) : Except Err (Flow × Value) :=
  if label = "flow_angle" then do
    let idx ← rows o f
    if o.sum then .error .valueError else .ok (f, ← angleOf f idx)
  else do
    let (g, vs) ← sampleData o f label
    let idx ← rows o g
    .ok (g, statistics o idx vs)

/-! ## Slip length -/

/-- Mean of a list of numbers. -/
def avg (c : List ℚ) : ℚ := c.sum / (c.length : ℚ)

/-- `scipy.stats.linregress(us, ys)`: slope and intercept (strata/sample_average.py:240).  If all `us` are identical, recent
versions raise `ValueError` (older ones return NaN). -/
def linregress (us ys : List ℚ) : Except Err (ℚ × ℚ) :=
  let d := (us.map fun u => (u - avg us) ^ 2).sum
  if d = 0 then .error .valueError
  else
    let slope := (List.zipWith (fun u y => (u - avg us) * (y - avg ys)) us ys).sum / d
    .ok (slope, avg ys - slope * avg us)

/-- Column `i` of data reshaped to `(nx, ny)` (strata/sample_average.py:233-235). -/
def column (ny : ℕ) (c : List ℚ) (i : ℕ) : List ℚ := (List.range ny).map fun j : ℕ => c.getD (i * ny + j) 0

/-- The slip lengths of all columns (strata/sample_average.py:230-242).  An unset shape raises `TypeError`; negative shapes
(where `reshape` infers an axis) are taken as wrong ones. -/
def slipLengths (floor : ℚ) (f : Flow) : Except Err (List ℚ) :=
  match f.info.shape with
  | none => .error .typeError
  | some (nx, ny) =>
    if nx < 0 ∨ ny < 0 ∨ (size f.data : ℤ) ≠ nx * ny then .error .valueError
    else do
      let ys ← field f.data "Y"
      let us ← field f.data "U"
      (List.range nx.toNat).mapM fun i => do
        let r ← linregress (column ny.toNat us i) (column ny.toNat ys i)
        .ok (-(r.2 - floor))

/-- `sample_slip_length` (strata/sample_average.py:222-244). -/
def slipLength (floor : ℚ) (f : Flow) : Except Err Value := do
  let ls ← slipLengths floor f
  .ok (.number (mean (ls.map some)) (some (var (ls.map some))))

/-! ## The series -/

/-- The value of one label (strata/sample_average.py:122-128) and the flow object afterwards. -/
noncomputable def sampleLabel (o : Opts) (f : Flow) (label : Label) : Except Err (Flow × Value) :=
  if label = "slip_length" then do .ok (f, ← slipLength o.floor f) else sampleValue o f label

/-- The loop over the labels (strata/sample_average.py:120-136): they share the flow object. -/
noncomputable def sampleLabels (o : Opts) : Flow → List Label → Except Err (List Value)
  | _, [] => .ok []
  | f, l :: ls => do
    let (g, v) ← sampleLabel o f l
    .ok (v :: (← sampleLabels o g ls))

/-- The fields of a file (strata/sample_average.py:115). -/
def fields : List Label := ["X", "Y", "U", "V", "M", "N", "T"]

/-- The flow object of a file (strata/sample_average.py:115-118). -/
def frame (o : Opts) (file : Record × InfoDict) : Except Err Flow := do
  let d ← fields.mapM fun l => (col? file.1 l).elim (.error .keyError) fun c => .ok (Arg.tuple l c)
  let f ← Flow.mk d file.2
  if o.xlim ≠ (none, none) ∨ o.ylim ≠ (none, none) then cut f o.xlim o.ylim else .ok f

/-- The lines written to the output file and the outcome of the call; `none` is the bare `return` after an exception while sampling
(strata/sample_average.py:130-136). -/
structure Outcome where
  lines : List (ℚ × List Value)
  result : Except Err (Option (List (List Value)))

/-- The loop over the files, beginning with number `k` (strata/sample_average.py:114-153): the lines written and the values per
frame. -/
noncomputable def loop (o : Opts) (dt : ℚ) (labels : List Label) : ℕ → List (Record × InfoDict) → Outcome
  | _, [] => ⟨[], .ok (some [])⟩
  | k, file :: rest =>
    match frame o file with
    | .error e => ⟨[], .error e⟩
    | .ok f =>
      match sampleLabels o f labels with
      | .error _ => ⟨[], .ok none⟩
      | .ok vs =>
        let r := loop o dt labels (k + 1) rest
        ⟨((k : ℚ) * dt, vs) :: r.lines, r.result.map fun t => t.map fun t => vs :: t⟩

/-- `sample_average_files` (strata/sample_average.py:13-170): the lines of the output file, the times and the values, one
list per label.  Without labels the computation of the times raises `IndexError`. -/
noncomputable def sampleAverage (o : Opts) (dt : ℚ) (labels : List Label) (files : List (Record × InfoDict)) :
    List (ℚ × List Value) × Except Err (Option (List ℚ × List (List Value))) :=
  let r := loop o dt labels 0 files
  (r.lines, r.result.bind fun t =>
    match t with
    | none => .ok none
    | some frames =>
      if labels = [] then .error .indexError
      else .ok (some ((List.range frames.length).map fun k : ℕ => (k : ℚ) * dt,
        labels.zipIdx.map fun l => frames.filterMap fun vs => vs[l.2]?)))

end Strata.SampleSeries
