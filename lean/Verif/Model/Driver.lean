import Verif.Model.SimpleAverage
import Verif.Model.Sample
/-!
# Model of `strata/average.py`: the averaging of a series of files

Simplifications: values are exact rationals; the file reader is a parameter (both readers are modelled elsewhere), as is
`get_spreading_edges`; progress output is left out.
-/
namespace Strata.Driver
open Strata Strata.Flow Strata.Average Strata.SimpleAverage Strata.Files Strata.Bytes

/-- The information dict on its way from the reader to the writer; a spacing that is not a number is `none`, as is an
origin that is missing (strata/average.py:157-160, :234-239). -/
structure DInfo where
  shape : ℕ × ℕ
  spacing : Option ℚ × Option ℚ
  origin : Option (ℚ × ℚ)
  numBins : ℕ
  deriving DecidableEq, Repr

/-! ## Cutting -/

/-- `lim if lim != None else …` (strata/average.py:248-251). -/
def limit (lim : Option ℚ) (default : Except Err ℚ) : Except Err ℚ := lim.elim default .ok

/-- `cut_system` (strata/average.py:244-258); coordinates of different lengths cannot be compared together, other columns
must have the length of the mask. -/
def cutSystem (d : Record) (xlim ylim : Option ℚ × Option ℚ) : Except Err Record := do
  let xs ← key d "X"
  let ys ← key d "Y"
  let xmin ← limit xlim.1 (npMin xs)
  let xmax ← limit xlim.2 (npMax xs)
  let ymin ← limit ylim.1 (npMin ys)
  let ymax ← limit ylim.2 (npMax ys)
  if xs.length ≠ ys.length then .error .valueError
  else if d.all fun c => c.2.length == xs.length then
    .ok (gather ((List.range xs.length).filter fun t =>
      decide (xmin ≤ xs.getD t 0 ∧ xs.getD t 0 ≤ xmax ∧ ymin ≤ ys.getD t 0 ∧ ys.getD t 0 ≤ ymax)) d)
  else .error .indexError

/-! ## Recentring -/

/-- `np.mean(np.diff(np.unique(values)))` (strata/average.py:202, :229): not a number for fewer than two values. -/
def spacingOf (c : List ℚ) : Option ℚ :=
  if npDiff (npUnique c) = [] then none else some ((npDiff (npUnique c)).sum / ((npDiff (npUnique c)).length : ℚ))

/-- The translated x positions of one map (strata/average.py:201-205); positions that are not numbers are `none`. -/
def translated (x : List ℚ) (centre : Option ℚ) : Except Err (Option (List ℚ)) := do
  let o ← npMin x
  match centre with
  | none => .error .typeError
  | some c => .ok ((spacingOf x).map fun h =>
      x.map fun v => ((pyRound ((v - o) / h) : ℚ) - (pyRound ((c - o) / h) : ℚ)) * h + o)

/-- The bins of one map within the limits, with translated positions (strata/average.py:216-224).  Simplification: the
columns keep their order, with x as the last one. -/
def subset (xmin xmax : ℚ) (xs : List ℚ) (d : Record) : Except Err Record :=
  let others := d.filter fun c => decide (c.1 ≠ "X")
  if others.all fun c => c.2.length == xs.length then
    .ok (gather ((List.range xs.length).filter fun t => decide (xmin ≤ xs.getD t 0 ∧ xs.getD t 0 ≤ xmax))
      (others ++ [("X", xs)]))
  else .error .indexError

/-- The information of the recentred maps, from the last one (strata/average.py:226-239). -/
def recentredInfo (xmin xmax : ℚ) (h : Option ℚ) (last : Record) : Except Err DInfo := do
  let ys ← key last "Y"
  let ymin ← npMin ys
  match h with
  | none => .error .valueError
  | some h =>
    let nx := (Flow.pyInt ((xmax - xmin) / h) + 1).toNat
    let num := ((col? last "X").getD []).length
    .ok ⟨(nx, num / nx), (some h, spacingOf ys), some (xmin, ymin), num⟩

/-- `data_maps[0]['X'].size` (strata/average.py:190). -/
def rowLength : List Record → Except Err ℕ
  | [] => .error .indexError
  | d :: _ => (key d "X").map List.length

/-- `recenter_maps` (strata/average.py:181-241).  No maps: `data_maps[0]` raises `IndexError`.  If the positions of some map are not numbers,
no bin of any map is selected and the minimum over the empty rows raises `ValueError`.  Simplification: the broadcasting of a map of
one bin into a longer row is left out. -/
def recenterMaps (maps : List Record) (centres : List (Option ℚ)) : Except Err (List Record × DInfo) := do
  if maps.length ≠ centres.length then .error .indexError
  else do
    let n ← rowLength maps
    let rows ← (maps.zip centres).mapM fun p => do
      let x ← key p.1 "X"
      let row ← translated x p.2
      if x.length = n then .ok row else .error .valueError
    match rows.mapM id with
    | none => .error .valueError
    | some rows => do
      let xmin ← npMax (← rows.mapM npMin)
      let xmax ← npMin (← rows.mapM npMax)
      let out ← (rows.zip maps).mapM fun p => subset xmin xmax p.1 p.2
      let h := ((maps.getLast?.bind fun d => col? d "X").map spacingOf).getD none
      let info ← recentredInfo xmin xmax h (out.getLastD [])
      .ok (out, info)

/-! ## One group -/

/-- The value of `recenter` (strata/average.py:128-146). -/
inductive Centre where
  | right | left | com | other
  deriving DecidableEq, Repr

/-- Keyword arguments of `average` (strata/average.py:79-99). -/
structure Opts where
  xlim : Option ℚ × Option ℚ := (none, none)
  ylim : Option ℚ × Option ℚ := (none, none)
  recenter : Option Centre := none
  combine : Option (ℕ × ℕ) := none
  supersample : Option ℕ := none
  quiet : Bool := false

/-- `cut_x_or_y` (strata/average.py:87-93). -/
def Opts.cuts (o : Opts) : Bool := o.xlim.1.isSome || o.xlim.2.isSome || o.ylim.1.isSome || o.ylim.2.isSome

/-- The position a map is recentred at (strata/average.py:126-146): the map becomes a `FlowData` object without
information. -/
def position (edges : Flow → Except Err (Option ℚ × Option ℚ)) (c : Centre) (d : Record) : Except Err (Option ℚ) := do
  let f ← Flow.mk [.dict d] []
  match c with
  | .right => do .ok (← edges f).2
  | .left => do .ok (← edges f).1
  | .com => do .ok ((← Sample.centerOfMass f)[0]?)
  | .other => .error .valueError

/-- What a reader returns: data, information and the module used (strata/average.py:113). -/
abbrev Map := Record × DInfo × ℕ

/-- One file of a group after the optional cut (strata/average.py:113-118); the information is not changed. -/
def cutMap (o : Opts) (m : Map) : Except Err Map :=
  if o.cuts then do .ok (← cutSystem m.1 o.xlim o.ylim, m.2) else .ok m

/-- Optional recentring of a group (strata/average.py:124-148): the data and the information, which is that of the last
file read otherwise. -/
def recenterGroup (edges : Flow → Except Err (Option ℚ × Option ℚ)) (o : Opts) (maps : List Record) (info : DInfo) :
    Except Err (List Record × DInfo) :=
  match o.recenter with
  | none => .ok (maps, info)
  | some c => do recenterMaps maps (← maps.mapM (position edges c))

/-- Optional combination of bins: the new information is dropped (strata/average.py:152-153).  Simplification: a spacing
that is not a number, which makes the new coordinates not numbers, is taken for 0. -/
def combineGroup (o : Opts) (avg : Record) (info : DInfo) : Except Err Record :=
  match o.combine with
  | none => .ok avg
  | some (nx, ny) =>
    match info.origin with
    | none => .error .keyError
    | some or => do
      .ok (← combineBins avg ⟨info.shape, (info.spacing.1.getD 0, info.spacing.2.getD 0), or, info.numBins⟩ nx ny).1

/-- Optional supersampling (strata/average.py:155-171): the new information has no origin and keeps the shape and spacing
of the map before. -/
def supersampleGroup (o : Opts) (avg : Record) (info : DInfo) : Except Err (Record × DInfo) :=
  match o.supersample with
  | none => .ok (avg, info)
  | some n => do
    let info : DInfo := { info with origin := none }
    let f ← Flow.mk (asArgs avg) [("shape", .tuple [some (info.shape.1 : ℚ), some (info.shape.2 : ℚ)]),
      ("spacing", .tuple [some (info.spacing.1.getD 0), some (info.spacing.2.getD 0)])]
    let g ← Resample.supersample f (some n) ("X", "Y") [("U", "M"), ("V", "M"), ("T", "N")]
    .ok (g.data, info)

/-- The body of the loop of `average` up to the writing (strata/average.py:110-171), for the maps of a group. -/
def averageGroup (edges : Flow → Except Err (Option ℚ × Option ℚ)) (o : Opts) (maps : List Map) : Except Err (Record × DInfo) := do
  let maps ← maps.mapM (cutMap o)
  match maps.getLast? with
  | none => .error .assertionError
  | some last =>
    if maps.all fun m => m.2.2 == last.2.2 then do
      let (ds, info) ← recenterGroup edges o (maps.map Prod.fst) last.2.1
      let avg ← averageData ds
      let avg ← combineGroup o avg info
      supersampleGroup o avg info
    else .error .assertionError

/-! ## The series -/

variable {γ : Type}

/-- `write(fn_out, avg_data, info)` for the default format (strata/average.py:173, strata/dataformats/write.py:52-53,
strata/dataformats/gmx_flow_version_1/write.py:28-48): what is in the file afterwards (`none` if it was not opened) and
the exception raised, if any.  A missing origin is noticed when the file has been opened.  Simplification: a spacing that is not a number is
written as 0. -/
def gmxWrite (F : F32) (d : Record) (i : DInfo) : Option Bytes × Except Err Unit :=
  match Gmx.writeData F d ⟨i.shape, (i.spacing.1.getD 0, i.spacing.2.getD 0), i.origin.getD (0, 0)⟩ with
  | .error e => (none, .error e)
  | .ok b => if i.origin = none then (some [], .error .keyError) else (some b, .ok ())

/-- Reading the files of a group (strata/average.py:113); a file that is not there is an `OSError`. -/
def readGroup (read : γ → Except Err Map) (fs : FS γ) (paths : List Path) : Except Err (List Map) :=
  paths.mapM fun p => (fs.get? p).elim (.error .osError) read

/-- The loop of `average` (strata/average.py:109-178) over the groups found before it: the file system at the end and the
outcome.  After the loop `progress` is unbound if the call is quiet. -/
def averageLoop (read : γ → Except Err Map) (write : Record → DInfo → Option γ × Except Err Unit)
    (edges : Flow → Except Err (Option ℚ × Option ℚ)) (o : Opts) : FS γ → List (List Path × Path) → FS γ × Except Err Unit
  | fs, [] => (fs, if o.quiet then .error .unboundLocalError else .ok ())
  | fs, (paths, out) :: rest =>
    match readGroup read fs paths >>= averageGroup edges o with
    | .error e => (fs, .error e)
    | .ok (d, i) =>
      match preparePath fs out with
      | .error e => (fs, .error e)
      | .ok fs' =>
        match write d i with
        | (c, .error e) => (c.elim fs' (fs'.put out), .error e)
        | (none, .ok ()) => averageLoop read write edges o fs' rest
        | (some c, .ok ()) => averageLoop read write edges o (fs'.put out c) rest

/-- `average` (strata/average.py:14-178); `dir` is the listing seen by the file search.  Simplification: groups of at least
one file. -/
def average (read : γ → Except Err Map) (write : Record → DInfo → Option γ × Except Err Unit)
    (edges : Flow → Except Err (Option ℚ × Option ℚ)) (o : Opts) (fs : FS γ) (dir : Dir) (base output ext : Text)
    (outext : Option Text) (group : ℕ) (rolling : Bool) (begin_ : ℤ) (end_ : Option ℤ) : FS γ × Except Err Unit :=
  averageLoop read write edges o fs
    ((findGroupsToSingles dir base output ext outext group rolling begin_ end_).map fun io => (io.1.map splitPath, splitPath io.2))

end Strata.Driver
