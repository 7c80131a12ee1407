import Verif.Model.SavedRuns
import Verif.Model.Killed
/-!
# Runs that sample a series of files into one output file, step by step

The same calls as in `SavedRuns` and `SpreadingFiles`, as the elementary file-system steps they consist of; the process may end after any of them.  A text is stored as its bytes.
-/
namespace Strata.KilledSeries
open Strata Strata.Files Strata.Flow Strata.Bytes Strata.Spreading Strata.SpreadingText Strata.SpreadingFiles Strata.SavedRuns

variable {ρ : Type}

/-- The files after `k` of the steps and `m` bytes of the next one, if it writes something (the process is killed; strata/spreading/collect.py:387-396, strata/interface/sample.py:60-83,
strata/sample_average.py:114-153). -/
def cutShort (fs : FS Bytes) (steps : List Step) (k m : ℕ) : FS Bytes :=
  match steps[k]? with
  | some (.append p bs) => Step.run ((steps.take k).foldl Step.run fs) (.append p (bs.take m))
  | _ => (steps.take k).foldl Step.run fs

/-- The steps of the loop over the files (strata/interface/sample.py:60-83, strata/sample_average.py:114-153): files are read when their turn comes, each row is appended at once. -/
def rowSteps (item : ℕ → Option Bytes → Item ρ) (line : ρ → Text) (out : Path) : FS Bytes → ℕ → List Text → List Step
  | _, _, [] => []
  | fs, i, n :: rest =>
    match item i (fs.get? (splitPath n)) with
    | .stop _ => []
    | .skip => rowSteps item line out fs (i + 1) rest
    | .row r =>
      .append out (byteStore.encode (line r ++ ['\n'])) :: rowSteps item line out (Step.run fs (.append out (byteStore.encode (line r ++ ['\n'])))) (i + 1) rest

/-- The steps of the whole call with an output file (strata/interface/sample.py:38-83, strata/sample_average.py:87-153): an old file is moved away, the file is created, the header and the rows
are written. -/
def runSteps (item : ℕ → Option Bytes → Item ρ) (line : ρ → Text) (head : List Text) (out : Text) (fs : FS Bytes) (dir : Dir) (base ext : Text) (begin_ : ℤ) (end_ : Option ℤ) : List Step :=
  let first := WriteOp.steps fs ⟨splitPath out, [byteStore.encode (joinLines head)]⟩
  first ++ rowSteps item line (splitPath out) (first.foldl Step.run fs) 0 (yieldSingles dir base ext begin_ end_)

/-- The steps that append the lines of one iteration of `collect` (strata/spreading/collect.py:131-142, :387-396). -/
def lineSteps (out : Path) (s s' : State) : List Step :=
  (s'.lines.drop s.lines.length).map fun l => .append out (byteStore.encode (joinLines (lineTexts l)))

/-- The steps of the loop of `collect` of spreading data (strata/spreading/collect.py:111-145). -/
def curveSteps (read : Bytes → Except Err Flow) (out : Path) (o : CollectOpts) : FS Bytes → State → ℕ → List Text → List Step
  | _, _, _, [] => []
  | fs, s, i, name :: rest =>
    match fileFrame read o fs name with
    | .error _ => []
    | .ok f =>
      lineSteps out s (step o.dt true s i f) ++ curveSteps read out o ((lineSteps out s (step o.dt true s i f)).foldl Step.run fs) (step o.dt true s i f) (i + 1) rest

/-- The steps of `collect` of spreading data with an output file (strata/spreading/collect.py:64-74, :111-145, :331-370). -/
def collectSteps (read : Bytes → Except Err Flow) (h : Header) (out : Text) (o : CollectOpts) (flag : Bool) (fs : FS Bytes) (dir : Dir) (base ext : Text) (begin_ : ℤ) (end_ : Option ℤ) :
    List Step :=
  let first := WriteOp.steps fs ⟨splitPath out, [byteStore.encode (joinLines (headerLines h))]⟩
  first ++ curveSteps read (splitPath out) o (first.foldl Step.run fs) ⟨initPeriodicInfo, o.t0, [], flag, []⟩ 0 (yieldSingles dir base ext begin_ end_)

end Strata.KilledSeries
