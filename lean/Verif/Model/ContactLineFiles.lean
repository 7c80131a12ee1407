import Verif.Model.CommandSeries
import Verif.Model.ContactLinePipeline
/-!
# The commands `contact_line collect` and `contact_line sample` on files

The progress bar and printed messages are left out.  The contents of files are of any type `γ`; `read` reads one of them.
-/
namespace Strata.ContactLineFiles
open Strata Strata.Files Strata.ContactLine Strata.SpreadingFiles Strata.SpreadingText Strata.InterfaceText Strata.Commands Strata.CommandRuns Strata.CommandSeries Strata.Bytes

variable {γ : Type}

/-- What is asked of the search for the edges: its options, the extracted area and the height for the extraction (strata/contact_line_analysis.py:341-343, droplets/contact_line.py:9-11). -/
structure EdgeOpts where
  search : Interface.Opts
  area : ℚ × ℚ
  height : ℚ

/-- The cells of both edges of a file, with the information of its map. -/
abbrev Edges := (Flow.Record × Flow.Info) × (Flow.Record × Flow.Info)

/-- One file in `get_grouped_data` (strata/contact_line_analysis.py:338-346): read when it is its turn; errors of the adjustment of the cells are raised here. -/
def edgesOfFile (read : γ → Except Err (Flow.Record × Flow.InfoDict)) (o : EdgeOpts) (fs : FS γ) (n : Text) : Except Err Edges := do
  let c ← contentOf fs n
  let m ← read c
  let i ← Flow.setInfo m.2
  let e ← mapEdges m.1 o.search o.area o.height
  let _ ← addAdjusted e.1 "left" i
  let _ ← addAdjusted e.2 "right" i
  .ok ((e.1, i), (e.2, i))

/-- The loop over the files (strata/contact_line_analysis.py:336-357) with what the caller does to each complete group, given the number of groups before it. -/
def edgeLoop {α : Type} (file : FS γ → Text → Except Err α) (consume : FS γ → ℕ → List α → FS γ × Except Err Unit) (average : ℤ) (rolling : Bool) :
    FS γ → ℕ → List α → List Text → FS γ × Except Err Unit
  | fs, _, _, [] => (fs, .ok ())
  | fs, i, acc, n :: rest =>
    match file fs n with
    | .error e => (fs, .error e)
    | .ok a =>
      if ((acc ++ [a]).length : ℤ) = average then
        match consume fs i (acc ++ [a]) with
        | (fs', .error e) => (fs', .error e)
        | (fs', .ok ()) => edgeLoop file consume average rolling fs' (i + 1) (if rolling then (acc ++ [a]).drop 1 else []) rest
      else edgeLoop file consume average rolling fs i (acc ++ [a]) rest

/-- The spacing of the last map of a group (strata/contact_line_analysis.py:351). -/
def spacingOf (g : List Edges) : Except Err (ℚ × ℚ) :=
  match g.getLast? with
  | some e => match e.1.2.spacing with
    | some s => .ok s
    | none => .error .typeError
  | none => .error .indexError

/-- The combined edges of a group (strata/contact_line_analysis.py:65-71). -/
def groupMap (huge : ℚ) (recenter fuse : Bool) (g : List Edges) : Except Err Flow.Flow := do
  combinedGroup huge (← spacingOf g) recenter fuse (g.map Prod.fst) (g.map Prod.snd)

/-- One group in `extract_contact_line_bins` (strata/contact_line_analysis.py:65-72): the edges are combined; the writer, called without information, first prepares the path
(strata/utils.py:279-284) and then fails for want of an argument (strata/dataformats/gmx_flow_version_1/write.py:8-9). -/
def extractGroup (huge : ℚ) (recenter fuse : Bool) (output ext : Text) (first : ℤ) (fs : FS γ) (i : ℕ) (g : List Edges) : FS γ × Except Err Unit :=
  match groupMap huge recenter fuse g with
  | .error e => (fs, .error e)
  | .ok f =>
    match preparePath fs (splitPath (fileName output ext (first + i))) with
    | .error e => (fs, .error e)
    | .ok fs' => (fs', (writeWithoutInfo f).map fun _ => ())

/-- `extract_contact_line_bins` (strata/contact_line_analysis.py:14-72). -/
def extract (read : γ → Except Err (Flow.Record × Flow.InfoDict)) (huge : ℚ) (o : EdgeOpts) (average : ℤ) (rolling recenter fuse : Bool) (fs : FS γ) (dir : Dir) (base output ext : Text)
    (begin_ : ℤ) (end_ : Option ℤ) : FS γ × Except Err Unit :=
  edgeLoop (edgesOfFile read o) (extractGroup huge recenter fuse output ext begin_) average rolling fs 0 [] (yieldSingles dir base ext begin_ end_)

/-- The edges of a group as they are sampled, the velocity of the left one mirrored (strata/contact_line_analysis.py:176-179); the samples themselves are a parameter of the model below, so that only
the field needed for this is looked up. -/
def sampledEdges (huge : ℚ) (recenter : Bool) (g : List Edges) : Except Err (Flow.Flow × Flow.Flow) := do
  let e ← groupEdges huge (← spacingOf g) recenter (g.map Prod.fst) (g.map Prod.snd)
  let _ ← Average.field e.1.data "U"
  .ok e

/-- One group in `sample_contact_line_edges` (strata/contact_line_analysis.py:176-231): the samples of the labels, then a row appended to the output; `value` is the sampled value of a label and
`line` prints the time of a row without values, the only ones that can be written. -/
def sampleGroup (st : Store γ) (line : ℚ → Text) (huge : ℚ) (recenter : Bool) (labels : List Flow.Label) (value : Flow.Flow × Flow.Flow → Flow.Label → Except Err ℚ) (average : ℤ) (rolling : Bool) (dt : ℚ)
    (save : Option Path) (fs : FS γ) (i : ℕ) (g : List Edges) : FS γ × Except Err Unit :=
  match sampledEdges huge recenter g with
  | .error e => (fs, .error e)
  | .ok e =>
    match labels.mapM fun l => appendSample (value e l) with
    | .error x => (fs, .error x)
    | .ok _ => (save.elim fs fun p => appendTo st p fs (line (edgeTime average rolling dt i) ++ ['\n']), .ok ())

/-- `sample_contact_line_edges` (strata/contact_line_analysis.py:91-233): the header is written to the prepared output before anything is read. -/
def sample (read : γ → Except Err (Flow.Record × Flow.InfoDict)) (st : Store γ) (line : ℚ → Text) (head : List Text) (huge : ℚ) (o : EdgeOpts) (average : ℤ) (rolling recenter : Bool)
    (labels : List Flow.Label) (value : Flow.Flow × Flow.Flow → Flow.Label → Except Err ℚ) (dt : ℚ) (save : Option Text) (fs : FS γ) (dir : Dir) (base ext : Text) (begin_ : ℤ) (end_ : Option ℤ) :
    FS γ × Except Err Unit :=
  match save with
  | none => edgeLoop (edgesOfFile read o) (sampleGroup st line huge recenter labels value average rolling dt none) average rolling fs 0 [] (yieldSingles dir base ext begin_ end_)
  | some out =>
    match preparePath fs (splitPath out) with
    | .error e => (fs, .error e)
    | .ok fs' =>
      edgeLoop (edgesOfFile read o) (sampleGroup st line huge recenter labels value average rolling dt (some (splitPath out))) average rolling
        (fs'.put (splitPath out) (st.encode (joinLines head))) 0 [] (yieldSingles dir base ext begin_ end_)

/-- The options of the search for the edges among the arguments of a call: `floor` becomes the lower limit (strata/contact_line_analysis.py:59-60, :161-162); the others are passed on
(droplets/contact_line.py:9-11, droplets/interface.py:261-271, :398). -/
def edgeOptsOf (k : Kw) : Except Err EdgeOpts := do
  let floor ← optNumber (get k "floor" .none)
  let cutoff ← optNumber (get k "cutoff" .none)
  let radius ← optNumber (get k "cutoff_radius" .none)
  let bins ← whole (get k "cutoff_bins" (.num 1))
  let area ← limits (get k "extract_area" (.pair (some 0) (some 0)))
  let height ← number (get k "extract_height" (.num 0))
  match area with
  | (some w, some h) => .ok ⟨{ cutoff := cutoff, radius := radius, bins := bins, ylims := (floor, none) }, (w, h), height⟩
  | _ => .error .typeError

/-- What both functions take from a call apart from the search. -/
structure EdgeArgs where
  average : ℤ
  rolling : Bool
  recenter : Bool
  begin_ : ℤ
  end_ : Option ℤ
  ext : Text
  opts : EdgeOpts

/-- The common arguments (strata/contact_line_analysis.py:14-16, :51, :91-94, :139, strata/utils.py:228-235). -/
def edgeArgsOf (k : Kw) : Except Err EdgeArgs := do
  let average ← whole (get k "average" (.num 1))
  let rolling ← switch (get k "rolling" (.bool false))
  let recenter ← switch (get k "recenter" (.bool false))
  let begin_ ← whole (get k "begin" (.num 1))
  let end_ ← lastOf (get k "end" .inf)
  let ext ← textOf (get k "ext" (.text ".dat"))
  let opts ← edgeOptsOf k
  .ok ⟨average, rolling, recenter, begin_, end_, ext, opts⟩

/-- The command `strata contact_line collect` (strata/strata.py:664-722). -/
def extractCommand (F : F32) (huge : ℚ) (fs : FS Bytes) (dir : Dir) (base output : Arg) (given : Kw) : FS Bytes × Except Err Unit :=
  let args : Except Err (EdgeArgs × Bool × Text × Text) := do
    let c ← extractCli base output (parsed extractOptions given)
    let a ← edgeArgsOf c.kwargs
    let fuse ← switch (get c.kwargs "fuse" (.bool false))
    .ok (a, fuse, ← textOf base, ← textOf output)
  match args with
  | .error e => (fs, .error e)
  | .ok (a, fuse, base, output) => extract (readMap F) huge a.opts a.average a.rolling a.recenter fuse fs dir base output a.ext a.begin_ a.end_

/-- The command `strata contact_line sample` (strata/strata.py:725-790); `value c` is the sampled value for the options of the call. -/
def contactSampleCommand (F : F32) (line : ℚ → Text) (head : Call → List Text) (huge : ℚ) (value : Call → Flow.Flow × Flow.Flow → Flow.Label → Except Err ℚ) (fs : FS Bytes) (dir : Dir) (base : Arg)
    (labels : List String) (given : Kw) : FS Bytes × Except Err Unit :=
  let args : Except Err (Call × EdgeArgs × Option Text × ℚ × Text) := do
    let c ← contactSampleCli base labels (parsed contactSampleOptions given)
    let a ← edgeArgsOf c.kwargs
    let save ← saveTo (get c.kwargs "save" .none)
    let dt ← number (get c.kwargs "dt" (.num 1))
    .ok (c, a, save, dt, ← textOf base)
  match args with
  | .error e => (fs, .error e)
  | .ok (c, a, save, dt, base) =>
    sample (readMap F) byteStore line (head c) huge a.opts a.average a.rolling a.recenter labels (value c) dt save fs dir base a.ext a.begin_ a.end_

end Strata.ContactLineFiles
