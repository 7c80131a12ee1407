import Verif.Model.Concurrent
import Verif.Model.KilledSeries
/-!
# Commands that collect rows, running at the same time

The commands that sample a series of files into one output file (`spreading collect`, `interface sample`, `sample_average_files`) as processes, whose
steps are interleaved in any way.  Rows are appended by name: the output is opened again for each of them, so these processes hold no open file
between steps and the disk is a map from paths to contents.

Simplifications: the files of the series are listed once, at the start; reading a file, `os.makedirs` and a block `with open(...)` are one step each.
-/
namespace Strata.Collecting
open Strata Strata.Files Strata.Flow Strata.Bytes Strata.Spreading Strata.SpreadingText Strata.SpreadingFiles Strata.SavedRuns

/-- Files and directories (as seen by strata/utils.py:263-277). -/
structure Disk where
  files : Path → Option Bytes
  dirs : Text → Bool

/-- What a process does next, and where it is afterwards, depending on the answer (the calls of strata/utils.py:263-286, strata/interface/sample.py:61-79,
strata/spreading/collect.py:111-142). -/
inductive Op (σ : Type) where
  | done
  /-- reading a file -/
  | read (p : Path) (k : Option Bytes → σ)
  /-- `os.path.exists(p)` for a file -/
  | test (p : Path) (k : Bool → σ)
  /-- `os.rename(p, q)`, which fails if there is no file -/
  | move (p q : Path) (k : Bool → σ)
  /-- `open(p, 'w')` and writing -/
  | create (p : Path) (bs : Bytes) (k : σ)
  /-- `open(p, 'a')` and writing; a file that is not there is created -/
  | append (p : Path) (bs : Bytes) (k : σ)
  /-- `os.path.exists(x)` for a directory -/
  | isDir (x : Text) (k : Bool → σ)
  /-- `os.makedirs(x)`, which fails if it exists -/
  | makeDir (x : Text) (k : Bool → σ)

/-- The effect of an operation (POSIX; the calls of strata/utils.py:263-286, strata/spreading/collect.py:338, :395). -/
def Op.run {σ : Type} (d : Disk) (s : σ) : Op σ → Disk × σ
  | .done => (d, s)
  | .read p k => (d, k (d.files p))
  | .test p k => (d, k (d.files p).isSome)
  | .move p q k =>
    match d.files p with
    | none => (d, k false)
    | some b => ({ d with files := Function.update (Function.update d.files p none) q (some b) }, k true)
  | .create p bs k => ({ d with files := Function.update d.files p (some bs) }, k)
  | .append p bs k => ({ d with files := Function.update d.files p (some ((d.files p).getD [] ++ bs)) }, k)
  | .isDir x k => (d, k (d.dirs x))
  | .makeDir x k => if d.dirs x then (d, k false) else ({ d with dirs := fun y => d.dirs y || Concurrent.madeBy x y }, k true)

/-- What is done with a file of the series: the call ends, or some pieces of text are appended to the output (strata/interface/sample.py:61-79,
strata/spreading/collect.py:111-142). -/
inductive Row (τ : Type) where
  | stop (outcome : Except Err Unit)
  | go (s : τ) (pieces : List Bytes)

/-- A command that collects rows (strata/interface/sample.py:36-83, strata/sample_average.py:87-153, strata/spreading/collect.py:64-145). -/
structure Cmd (τ : Type) where
  out : Path
  head : Bytes
  inputs : List Path
  start : τ
  row : τ → ℕ → Option Bytes → Row τ

/-- Where a process is (strata/utils.py:258-286, strata/interface/sample.py:60-83, strata/spreading/collect.py:111-145). -/
inductive Pc (τ : Type) where
  | directory
  | makedirs
  /-- before the test of the output (0) or of backup `i` -/
  | probing (i : ℕ)
  | moving (i : ℕ)
  | creating
  /-- before file `i` of the series -/
  | loop (i : ℕ) (s : τ)
  /-- file `i` was read; before a piece of the row is written -/
  | appending (i : ℕ) (s : τ) (bs : Bytes) (rest : List Bytes)
  | ended (outcome : Except Err Unit)

/-- The pieces of a row are written one after the other, then comes the next file (strata/spreading/collect.py:131-142). -/
def Pc.next {τ : Type} (i : ℕ) (s : τ) : List Bytes → Pc τ
  | [] => .loop (i + 1) s
  | b :: rest => .appending i s b rest

/-- What a process does next (strata/utils.py:258-286, strata/interface/sample.py:60-83, strata/spreading/collect.py:111-145).  After the last file nothing is looked at: the answer of that
step is ignored. -/
def Cmd.op {τ : Type} (c : Cmd τ) : Pc τ → Op (Pc τ)
  | .directory => .isDir c.out.1 fun b => if b then .probing 0 else .makedirs
  | .makedirs => .makeDir c.out.1 fun b => if b then .probing 0 else .ended (.error .osError)
  | .probing i => .test (Concurrent.candidate c.out i) fun b => if b then .probing (i + 1) else if i = 0 then .creating else .moving i
  | .moving i => .move c.out (backupPath c.out i) fun b => if b then .creating else .ended (.error .osError)
  | .creating => .create c.out c.head (.loop 0 c.start)
  | .loop i s =>
    match c.inputs[i]? with
    | none => .read c.out fun _ => .ended (.ok ())
    | some p => .read p fun b => match c.row s i b with
      | .stop o => .ended o
      | .go s' pieces => Pc.next i s' pieces
  | .appending i s b rest => .append c.out b (Pc.next i s rest)
  | .ended _ => .done

/-- A step of a process (strata/utils.py:258-286, strata/interface/sample.py:60-83, strata/spreading/collect.py:111-145). -/
def step {τ : Type} (c : Cmd τ) (x : Disk × Pc τ) : Disk × Pc τ := (c.op x.2).run x.1 x.2

/-- The disk and all processes (strata/spreading/collect.py:64-145). -/
structure Sys (τ : ℕ → Type) where
  disk : Disk
  procs : ∀ k, Pc (τ k)

/-- Process `k` makes a step (strata/spreading/collect.py:64-145). -/
def Sys.move {τ : ℕ → Type} (cmds : ∀ k, Cmd (τ k)) (s : Sys τ) (k : ℕ) : Sys τ :=
  let r := step (cmds k) (s.disk, s.procs k)
  ⟨r.1, Function.update s.procs k r.2⟩

/-- The processes make steps in the order of the schedule (strata/spreading/collect.py:64-145). -/
def run {τ : ℕ → Type} (cmds : ∀ k, Cmd (τ k)) (d : Disk) (schedule : List ℕ) : Sys τ := schedule.foldl (Sys.move cmds) ⟨d, fun _ => .directory⟩

/-- A process that is alone, after `n` steps (strata/spreading/collect.py:64-145). -/
def alone {τ : Type} (c : Cmd τ) (d : Disk) (n : ℕ) : Disk × Pc τ := (step c)^[n] (d, .directory)

/-- `sample_interfaces` and `sample_average_files` with an output (strata/interface/sample.py:36-83, strata/sample_average.py:87-153), by the model of C123. -/
def sampleCmd {ρ : Type} (item : ℕ → Option Bytes → Item ρ) (line : ρ → Text) (head : List Text) (out : Text) (dir : Dir) (base ext : Text) (begin_ : ℤ) (end_ : Option ℤ) : Cmd Unit :=
  ⟨splitPath out, byteStore.encode (joinLines head), (yieldSingles dir base ext begin_ end_).map splitPath, (), fun _ i b =>
    match item i b with
    | .stop o => .stop o
    | .skip => .go () []
    | .row r => .go () [byteStore.encode (line r ++ ['\n'])]⟩

/-- `collect` of spreading data with an output (strata/spreading/collect.py:64-145), by the model of C121.  The names of the files are those of the series,
in the order of the inputs. -/
def collectCmd (read : Bytes → Except Err Flow) (h : Header) (out : Text) (o : CollectOpts) (flag : Bool) (dir : Dir) (base ext : Text) (begin_ : ℤ) (end_ : Option ℤ) : Cmd State :=
  ⟨splitPath out, byteStore.encode (joinLines (headerLines h)), (yieldSingles dir base ext begin_ end_).map splitPath, ⟨initPeriodicInfo, o.t0, [], flag, []⟩, fun s i b =>
    match b.elim (.error .osError) fun c => (read c).bind fun f => frameOf f ((yieldSingles dir base ext begin_ end_).getD i []) o.radius o.floor o.interface with
    | .error e => .stop (.error e)
    | .ok f => .go (Spreading.step o.dt true s i f)
        (((Spreading.step o.dt true s i f).lines.drop s.lines.length).map fun l => byteStore.encode (joinLines (lineTexts l)))⟩

end Strata.Collecting
