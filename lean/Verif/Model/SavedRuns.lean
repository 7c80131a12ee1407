import Verif.Model.SpreadingFiles
import Verif.Model.InterfaceText
import Verif.Model.SampleSeries
/-!
# Model of the functions that sample a series of files into one output file

`sample_interfaces` (strata/interface/sample.py), `sample_average_files` (strata/sample_average.py) and `interface_contact_angle` (strata/interface/angle.py).  The
contents of files are of any type `γ`.
-/
namespace Strata.SavedRuns
open Strata Strata.Flow Strata.Files Strata.SpreadingText Strata.SpreadingFiles Strata.InterfaceFiles Strata.InterfaceText

variable {γ ρ : Type}

/-- What one file contributes: a row, nothing, or the end of the call with an exception or an early return. -/
inductive Item (ρ : Type) where
  | row (r : ρ)
  | skip
  | stop (outcome : Except Err Unit)

/-- The loop over the files (strata/interface/sample.py:60-83, strata/sample_average.py:114-153): a row is appended to the output as soon as it is known. -/
def runFiles (item : ℕ → Option γ → Item ρ) (line : ρ → Text) (st : Store γ) (save : Option Path) : FS γ → ℕ → List Text → FS γ × List ρ × Except Err Unit
  | fs, _, [] => (fs, [], .ok ())
  | fs, i, n :: rest =>
    match item i (fs.get? (splitPath n)) with
    | .stop o => (fs, [], o)
    | .skip => runFiles item line st save fs (i + 1) rest
    | .row r =>
      let fs' := save.elim fs fun p => appendTo st p fs (line r ++ ['\n'])
      let t := runFiles item line st save fs' (i + 1) rest
      (t.1, r :: t.2.1, t.2.2)

/-- The call: the files are searched for, the header is written to the prepared output, then the files are read (strata/interface/sample.py:38-83,
strata/sample_average.py:87-153).  `dir` is the listing seen by the search. -/
def run (item : ℕ → Option γ → Item ρ) (line : ρ → Text) (st : Store γ) (head : List Text) (save : Option Text) (fs : FS γ) (dir : Dir) (base ext : Text) (begin_ : ℤ) (end_ : Option ℤ) :
    FS γ × List ρ × Except Err Unit :=
  match save with
  | none => runFiles item line st none fs 0 (yieldSingles dir base ext begin_ end_)
  | some out =>
    match preparePath fs (splitPath out) with
    | .error e => (fs, [], .error e)
    | .ok fs' => runFiles item line st (some (splitPath out)) (fs'.put (splitPath out) (st.encode (joinLines head))) 0 (yieldSingles dir base ext begin_ end_)

/-- One file of `sample_interfaces` (strata/interface/sample.py:61-79): reading errors end the call, a `TypeError` of the sampling skips the file. -/
noncomputable def interfaceItem (text : γ → Text) (v : Variable) (dt : ℚ) (i : ℕ) (content : Option γ) : Item (ℚ × ℝ) :=
  match content with
  | none => .stop (.error .osError)
  | some c =>
    match readPoints (text c) with
    | .error e => .stop (.error e)
    | .ok pts =>
      match sampleOf v pts with
      | .ok x => .row ((i : ℚ) * dt, x)
      | .error .typeError => .skip
      | .error e => .stop (.error e)

/-- One file of `sample_average_files` (strata/sample_average.py:114-150): an exception while sampling ends the call quietly, others are raised. -/
noncomputable def averageItem (read : γ → Except Err (Record × InfoDict)) (o : SampleSeries.Opts) (dt : ℚ) (labels : List Label) (i : ℕ) (content : Option γ) :
    Item (ℚ × List SampleSeries.Value) :=
  match content with
  | none => .stop (.error .osError)
  | some c =>
    match (read c).bind (SampleSeries.frame o) with
    | .error e => .stop (.error e)
    | .ok f =>
      match SampleSeries.sampleLabels o f labels with
      | .error _ => .stop (.ok ())
      | .ok vs => .row ((i : ℚ) * dt, vs)

/-- One file of `interface_contact_angle`: its interface, if its angles can be calculated (strata/interface/angle.py:71-82). -/
noncomputable def angleItem (text : γ → Text) (fit : Bool) (height : Option ℚ) (fs : FS γ) (n : Text) : Except Err (List Point) := do
  let c ← contentOf fs n
  let pts ← readPoints (text c)
  let _ ← angleRow fit height pts
  .ok pts

/-- `interface_contact_angle` (strata/interface/angle.py:51-106), without the figure: the output is written after all files were read; `save` is none or a text that is not empty. -/
noncomputable def angleRun (text : γ → Text) (encode : Text → γ) (head : List Text) (save : Option Text) (fit : Bool) (height : Option ℚ) (dt : ℚ) (fs : FS γ) (dir : Dir) (base ext : Text)
    (begin_ : ℤ) (end_ : Option ℤ) : FS γ × Except Err (List ℚ × Angles) :=
  match (yieldSingles dir base ext begin_ end_).mapM (angleItem text fit height fs) with
  | .error e => (fs, .error e)
  | .ok files =>
    match contactAngles fit height dt files with
    | .error e => (fs, .error e)
    | .ok r =>
      match save with
      | none => (fs, .ok r)
      | some out =>
        match preparePath fs (splitPath out) with
        | .error e => (fs, .error e)
        | .ok fs' => (fs'.put (splitPath out) (encode (angleFile head r.1 r.2)), .ok r)

end Strata.SavedRuns
