import Verif.Model.CommandRuns
import Verif.Model.SavedRuns
/-!
# The commands `interface collect`, `interface sample`, `interface angle` and `sample` on files

As in Model/CommandRuns.lean, from the options of a command line to the work on files.  `text` decodes the contents of a text file; figures and printed messages are left out.
-/
namespace Strata.CommandSeries
open Strata Strata.Files Strata.Commands Strata.CommandRuns Strata.SpreadingFiles Strata.SavedRuns Strata.InterfaceFiles Strata.InterfaceText Strata.Bytes

/-- A file to save to: `if save_xvg:` is false of `None` and of an empty text (strata/interface/sample.py:42, strata/interface/angle.py:94, strata/sample_average.py:96). -/
def saveTo (a : Arg) : Except Err (Option Text) :=
  if truthy a then (textOf a).map some else .ok none

/-- `recenter` of the interface (strata/interface/collect.py:128-136). -/
def centreOf (a : Arg) : InterfaceFiles.Centre :=
  if a = .text "zero" then .zero else if a = .text "com" then .com else .other

/-- `collect_interfaces` (strata/interface/collect.py:16-75) with the arguments of a call. -/
def runInterfaces (F : F32) (head : Call → Text → Head) (dir : Dir) (c : Call) (fs : FS Bytes) : FS Bytes × Except Err Unit :=
  let args : Except Err ((Text × Text × Text × Text) × (ℤ × Option ℤ) × Interface.Opts) :=
    match c.args with
    | [base, output] => do
      let base ← textOf base
      let output ← textOf output
      let cutoff ← optNumber (get c.kwargs "cutoff" .none)
      let radius ← optNumber (get c.kwargs "cutoff_radius" .none)
      let bins ← whole (get c.kwargs "cutoff_bins" (.num 1))
      let outext ← textOf (get c.kwargs "outext" (.text ".xvg"))
      let begin_ ← whole (get c.kwargs "begin" (.num 1))
      let end_ ← lastOf (get c.kwargs "end" .inf)
      let ext ← textOf (get c.kwargs "ext" (.text ".dat"))
      let ylims ← limits (get c.kwargs "ylims" (.pair none none))
      .ok ((base, output, ext, outext), (begin_, end_), { cutoff := cutoff, radius := radius, bins := bins, longest := true, ylims := ylims })
    | _ => .error .typeError
  match args with
  | .error e => (fs, .error e)
  | .ok ((base, output, ext, outext), (begin_, end_), o) =>
    collectSeries (readFlow F) byteStore.encode (head c) (centreOf (get c.kwargs "recenter" .none)) o fs dir base output ext (some outext) begin_ end_

/-- The command `strata interface collect` (strata/strata.py:455-498). -/
def interfaceCollectCommand (F : F32) (head : Call → Text → Head) (fs : FS Bytes) (dir : Dir) (base output : Arg) (given : Kw) : FS Bytes × Except Err Unit :=
  interfaceCollectCli (runInterfaces F head dir) base output (parsed interfaceCollectOptions given) fs

/-- The variable (strata/interface/sample.py:64-69). -/
def variableOf (a : Arg) : Variable :=
  if a = .text "area" then .area else if a = .text "length" then .length else .other

/-- The command `strata interface sample` (strata/strata.py:550-597, strata/interface/sample.py:8-91), without the figure: the files, the samples and the outcome. -/
noncomputable def interfaceSampleCommand (text : Bytes → Text) (head : Call → List Text) (fs : FS Bytes) (dir : Dir) (base kind : Arg) (given : Kw) :
    FS Bytes × List (ℚ × ℝ) × Except Err Unit :=
  let args : Except Err ((Call × Option Text × ℚ) × Text × Text × ℤ × Option ℤ) := do
    let c ← interfaceSampleCli base kind (parsed interfaceSampleOptions given)
    let save ← saveTo (get c.kwargs "save_xvg" (.text ""))
    let dt ← number (get c.kwargs "delta_t" (.num 1))
    let begin_ ← whole (get c.kwargs "begin" (.num 1))
    let end_ ← lastOf (get c.kwargs "end" .inf)
    let ext ← textOf (get c.kwargs "ext" (.text ".xvg"))
    .ok ((c, save, dt), ← textOf base, ext, begin_, end_)
  match args with
  | .error e => (fs, [], .error e)
  | .ok ((c, save, dt), base, ext, begin_, end_) => run (interfaceItem text (variableOf kind) dt) sampleLine byteStore (head c) save fs dir base ext begin_ end_

/-- The command `strata interface angle` (strata/strata.py:601-656, strata/interface/angle.py:8-112), without the figure: the files and the outcome, none if no angle is asked for. -/
noncomputable def interfaceAngleCommand (text : Bytes → Text) (head : Call → List Text) (fs : FS Bytes) (dir : Dir) (base : Arg) (given : Kw) :
    FS Bytes × Except Err (Option (List ℚ × Angles)) :=
  match interfaceAngleCli base (parsed interfaceAngleOptions given) with
  | .error e => (fs, .error e)
  | .ok none => (fs, .ok none)
  | .ok (some c) =>
    let args : Except Err ((Bool × Option ℚ × ℚ × Option Text) × Text × Text × ℤ × Option ℤ) := do
      let fit ← switch (get c.kwargs "fit" (.bool false))
      let height ← optNumber (get c.kwargs "height" .none)
      let dt ← number (get c.kwargs "delta_t" (.num 1))
      let save ← saveTo (get c.kwargs "save_xvg" .none)
      let begin_ ← whole (get c.kwargs "begin" (.num 1))
      let end_ ← lastOf (get c.kwargs "end" .inf)
      let ext ← textOf (get c.kwargs "ext" (.text ".xvg"))
      .ok ((fit, height, dt, save), ← textOf base, ext, begin_, end_)
    match args with
    | .error e => (fs, .error e)
    | .ok ((fit, height, dt, save), base, ext, begin_, end_) =>
      let r := angleRun text byteStore.encode (head c) save fit height dt fs dir base ext begin_ end_
      (r.1, r.2.map some)

/-- The record and the information of a data file (strata/sample_average.py:114-115).  Simplification: a spacing that is not a number is a `ValueError`. -/
def readMap (F : F32) (c : Bytes) : Except Err (Flow.Record × Flow.InfoDict) :=
  (Driver.readDataFile F c).bind fun m =>
    match m.2.1.spacing with
    | (some dx, some dy) =>
      .ok (m.1, [("shape", .tuple [some (m.2.1.shape.1 : ℚ), some (m.2.1.shape.2 : ℚ)]), ("spacing", .tuple [some dx, some dy]), ("origin", Flow.pairVal m.2.1.origin),
        ("num_bins", .num (m.2.1.numBins : ℚ))])
    | _ => .error .valueError

/-- The command `strata sample` (strata/strata.py:980-1015, strata/sample_average.py:13-170), without the printed means: the files, the rows and the outcome.  `line` prints a row. -/
noncomputable def sampleCommand (F : F32) (line : ℚ × List SampleSeries.Value → Text) (head : Call → List Text) (fs : FS Bytes) (dir : Dir) (base : Arg) (labels : List String) (given : Kw) :
    FS Bytes × List (ℚ × List SampleSeries.Value) × Except Err Unit :=
  let args : Except Err ((Call × Option Text × ℚ × SampleSeries.Opts) × Text × Text × ℤ × Option ℤ) := do
    let c ← sampleCli base labels (parsed sampleOptions given)
    let output ← saveTo (get c.kwargs "output" .none)
    let sum ← switch (get c.kwargs "sum" (.bool false))
    let dt ← number (get c.kwargs "dt" (.num 1))
    let cutoffLabel ← optText (get c.kwargs "cutoff_label" .none)
    let cutoff ← optNumber (get c.kwargs "cutoff" .none)
    let floor ← number (get c.kwargs "slip_floor" (.num 0))
    let xlim ← limits (get c.kwargs "xlim" (.pair none none))
    let ylim ← limits (get c.kwargs "ylim" (.pair none none))
    let begin_ ← whole (get c.kwargs "begin" (.num 1))
    let end_ ← lastOf (get c.kwargs "end" .inf)
    let ext ← textOf (get c.kwargs "ext" (.text ".dat"))
    .ok ((c, output, dt, { sum := sum, cutoffLabel := cutoffLabel.map String.ofList, cutoff := cutoff, floor := floor, xlim := xlim, ylim := ylim }), ← textOf base, ext, begin_, end_)
  match args with
  | .error e => (fs, [], .error e)
  | .ok ((c, output, dt, o), base, ext, begin_, end_) => run (averageItem (readMap F) o dt labels) line byteStore (head c) output fs dir base ext begin_ end_

end Strata.CommandSeries
