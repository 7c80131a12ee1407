import Verif.Model.Commands
import Verif.Model.RecenterEdges
import Verif.Model.SpreadingFiles
/-!
# The commands `average`, `convert` and `spreading collect` on files

From the options of a command line (Model/Commands.lean) through the keyword arguments of the library functions to their work on files
(Model/Driver.lean, Model/ReadFiles.lean, Model/SpreadingFiles.lean).  Texts of options are converted to values by `click` and Model/Cli.lean.  Simplification:
values of a type that `click` does not let through (a text for a number, a fraction for a whole number, a negative number of bins) are a `TypeError`.
-/
namespace Strata.CommandRuns
open Strata Strata.Files Strata.Commands Strata.Driver Strata.SpreadingFiles Strata.Bytes

/-- `kwargs.pop(name, default)`, the value (strata/average.py:80-82, strata/utils.py:227-231). -/
def get (k : Kw) (name : String) (default : Arg) : Arg := (k.lookup name).getD default

/-- A number (strata/average.py:82). -/
def number : Arg → Except Err ℚ
  | .num q => .ok q
  | _ => .error .typeError

/-- A whole number (strata/utils.py:228). -/
def whole : Arg → Except Err ℤ
  | .num q => if q.den = 1 then .ok q.num else .error .typeError
  | _ => .error .typeError

/-- A number of files or bins. -/
def count (a : Arg) : Except Err ℕ := do
  let z ← whole a
  if 0 ≤ z then .ok z.toNat else .error .typeError

/-- A number or `None` (strata/strata.py:205). -/
def optNumber : Arg → Except Err (Option ℚ)
  | .none => .ok none
  | a => (number a).map some

/-- A number of bins or `None` (strata/average.py:99). -/
def optCount : Arg → Except Err (Option ℕ)
  | .none => .ok none
  | a => (count a).map some

/-- The last file number, `np.inf` if there is none (strata/utils.py:229). -/
def lastOf : Arg → Except Err (Option ℤ)
  | .inf => .ok none
  | a => (whole a).map some

/-- A text. -/
def textOf : Arg → Except Err Text
  | .text t => .ok t.toList
  | _ => .error .typeError

/-- A text or `None` (strata/spreading/collect.py:90). -/
def optText : Arg → Except Err (Option Text)
  | .none => .ok none
  | a => (textOf a).map some

/-- A switch (strata/average.py:14). -/
def switch : Arg → Except Err Bool
  | .bool b => .ok b
  | _ => .error .typeError

/-- Limits: anything but a 2-tuple is a `ValueError` (strata/average.py:84-93). -/
def limits : Arg → Except Err (Option ℚ × Option ℚ)
  | .pair a b => .ok (a, b)
  | _ => .error .valueError

/-- `combine`: `int(None)` is a `TypeError` (strata/average.py:95-97). -/
def combineOf : Arg → Except Err (Option (ℕ × ℕ))
  | .pair none none => .ok none
  | .pair (some a) (some b) => do .ok (some (← count (.num a), ← count (.num b)))
  | _ => .error .typeError

/-- `recenter` (strata/average.py:81, :125-146). -/
def recenterOf (a : Arg) : Option Centre :=
  if truthy a then
    if a = .text "right" then some .right
    else if a = .text "left" then some .left
    else if a = .text "com" then some .com
    else some .other
  else none

/-- What `average` works with. -/
structure AverageArgs where
  base : Text
  output : Text
  group : ℕ
  rolling : Bool
  ext : Text
  begin_ : ℤ
  end_ : Option ℤ
  opts : Driver.Opts
  edges : EdgeArgs

/-- The arguments of `average` as it reads them before it looks for files (strata/average.py:14, :79-99); the file extension of the output is that of the input (strata/utils.py:233).
What is left of the keyword arguments is passed to the search for the contact line (strata/average.py:129-141). -/
def averageArgs (c : Call) : Except Err AverageArgs :=
  match c.args with
  | [base, output, group] => do
    let base ← textOf base
    let output ← textOf output
    let group ← count group
    let rolling ← switch (get c.kwargs "rolling" (.bool false))
    let begin_ ← whole (get c.kwargs "begin" (.num 1))
    let end_ ← lastOf (get c.kwargs "end" .inf)
    let ext ← textOf (get c.kwargs "ext" (.text ".dat"))
    let quiet ← switch (get c.kwargs "quiet" (.bool false))
    let radius ← number (get c.kwargs "cutoff_radius" (.num 1))
    let xlim ← limits (get c.kwargs "xlim" (.pair none none))
    let ylim ← limits (get c.kwargs "ylim" (.pair none none))
    let combine ← combineOf (get c.kwargs "combine" (.pair none none))
    let supersample ← optCount (get c.kwargs "supersample" .none)
    let floor ← optNumber (get c.kwargs "floor" .none)
    let cutoff ← number (get c.kwargs "cutoff" (.num 0))
    let bins ← whole (get c.kwargs "cutoff_bins" (.num 1))
    .ok ⟨base, output, group, rolling, ext, begin_, end_, ⟨xlim, ylim, recenterOf (get c.kwargs "recenter" (.bool false)), combine, supersample, quiet⟩, ⟨floor, cutoff, bins, radius⟩⟩
  | _ => .error .typeError

/-- `average` (strata/average.py:14-178) with these arguments. -/
def runAverage (F : F32) (fs : FS Bytes) (dir : Dir) (a : AverageArgs) : FS Bytes × Except Err Unit :=
  average (readDataFile F) (gmxWrite F) (commandEdges a.edges) a.opts fs dir a.base a.output a.ext none a.group a.rolling a.begin_ a.end_

/-- The command `strata average` (strata/strata.py:190-253): the files at the end and the outcome. -/
def averageCommand (F : F32) (fs : FS Bytes) (dir : Dir) (base output group : Arg) (given : Kw) : FS Bytes × Except Err Unit :=
  match averageCli base output group (parsed averageOptions given) >>= averageArgs with
  | .error e => (fs, .error e)
  | .ok a => runAverage F fs dir a

/-- The command `strata convert` (strata/strata.py:256-281, strata/convert.py:37-57). -/
def convertCommand (F : F32) (fs : FS Bytes) (dir : Dir) (base output : Arg) (given : Kw) : FS Bytes × Except Err Unit :=
  let args := do
    let c ← convertCli base output (parsed convertOptions given)
    let begin_ ← whole (get c.kwargs "begin" (.num 1))
    let end_ ← lastOf (get c.kwargs "end" .inf)
    let ext ← textOf (get c.kwargs "ext" (.text ".dat"))
    let ftype ← textOf (get c.kwargs "ftype" (.text "gmx"))
    .ok ((← textOf base, ← textOf output), ext, ftype, begin_, end_)
  match args with
  | .error e => (fs, .error e)
  | .ok ((base, output), ext, ftype, begin_, end_) => convertFiles F (String.ofList ftype) fs dir base output ext none begin_ end_

/-- What `collect` of the spreading analysis works with (strata/spreading/collect.py:88-98). -/
structure CollectArgs where
  base : Text
  ext : Text
  begin_ : ℤ
  end_ : Option ℤ
  save : Option Text
  opts : CollectOpts

/-- The arguments of `collect` (strata/spreading/collect.py:88-98, :115-116): what is left of the keyword arguments is passed to the search for the contact line, of which `floor` is its
floor and `cutoff` and `cutoff_bins` go on to the search for the interface. -/
def collectArgs (c : Call) : Except Err CollectArgs :=
  match c.args with
  | [base] => do
    let base ← textOf base
    let begin_ ← whole (get c.kwargs "begin" (.num 1))
    let end_ ← lastOf (get c.kwargs "end" .inf)
    let ext ← textOf (get c.kwargs "ext" (.text ".dat"))
    let save ← optText (get c.kwargs "save" .none)
    let dt ← number (get c.kwargs "dt" (.num 1))
    let t0 ← number (get c.kwargs "t0" (.num 0))
    let radius ← number (get c.kwargs "cutoff_radius" (.num 1))
    let floor ← optNumber (get c.kwargs "floor" .none)
    let cutoff ← optNumber (get c.kwargs "cutoff" .none)
    let bins ← whole (get c.kwargs "cutoff_bins" (.num 1))
    .ok ⟨base, ext, begin_, end_, save, ⟨dt, t0, radius, floor, { cutoff := cutoff, bins := bins }⟩⟩
  | _ => .error .typeError

/-- What a command leaves: files, the function attribute `write_spreading.impact`, the lines printed and how it ends. -/
structure Printed where
  fs : FS Bytes
  flag : Bool
  lines : List Text
  outcome : Except Err Unit

/-- `get_spreading_ndarray` (strata/spreading/collect.py:79-86): times and radii in single precision. -/
def ndarray (F : F32) (rows : List Spreading.Row) : List (ℚ × ℚ) := rows.map fun r => (F.rnd r.time, F.rnd r.radius)

/-- The command `strata spreading collect` (strata/strata.py:294-351).  `header` is the header of the output for the arguments (see Model/Headers.lean). -/
def collectCommand (F : F32) (header : Call → SpreadingText.Header) (flag : Bool) (fs : FS Bytes) (dir : Dir) (base floor : Arg) (given : Kw) : Printed :=
  match collectCall base floor (parsed collectOptions given) with
  | .error e => ⟨fs, flag, [], .error e⟩
  | .ok c =>
    match collectArgs c with
    | .error e => ⟨fs, flag, [], .error e⟩
    | .ok a =>
      let run := collectFiles (readFlow F) byteStore (header c) a.save a.opts flag fs dir a.base a.ext a.begin_ a.end_
      match run.outcome with
      | .error e => ⟨run.fs, run.flag, [], .error e⟩
      | .ok () => ⟨run.fs, run.flag, if truthy (get (parsed collectOptions given) "verbose" (.bool false)) then verboseLines (ndarray F run.rows) else [], .ok ()⟩

end Strata.CommandRuns
