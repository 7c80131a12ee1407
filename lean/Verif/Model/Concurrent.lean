import Verif.Model.Killed
import Mathlib.Logic.Function.Basic
/-!
# Commands that run at the same time

`average` and `convert` (and every other loop that reads some files and writes one with `prepare_path`) as processes: each process
makes elementary steps (a test whether a path exists, a rename, opening a file, writing some bytes), and the steps of several processes are
interleaved in any way.  A file is known by its number (its inode): a process that has opened a file goes on writing to it when the file
is renamed, as on POSIX systems.

Simplifications: reading a file is one step and so is `os.makedirs`; the data are written in the pieces given by `chunks`, which says when
buffers are flushed; numbers of files that are created are pairs of process and counter, which no program can observe.
-/
namespace Strata.Concurrent
open Strata Strata.Files Strata.Killed Strata.Bytes

/-- A file, whatever its name is: one that was there at the start under a path, or the `n`-th one that a process created
(what `open` returns, strata/dataformats/simple/write.py:22-23). -/
inductive Ino where
  | orig (p : Path)
  | made (pid n : ℕ)
  deriving DecidableEq

/-- The disk: names of files, contents of files, directories (as seen by strata/utils.py:263-277). -/
structure Disk where
  names : Path → Option Ino
  data : Ino → Bytes
  dirs : Text → Bool

/-- What is read at a path (strata/dataformats/read.py:8-32). -/
def Disk.view (d : Disk) (q : Path) : Option Bytes := (d.names q).map d.data

/-- A command: what it writes in a round from the contents it reads, the pieces in which it is written, and its rounds
(strata/average.py:101-173, strata/convert.py:40-51). -/
structure Cmd where
  content : List (Option Bytes) → Except Err Bytes
  chunks : Bytes → List Bytes
  jobs : List Job

/-- `average` (strata/average.py:14-178) on the files listed in `dir`. -/
def averageCmd (read : Bytes → Except Err Driver.Map) (write : Flow.Record → Driver.DInfo → Option Bytes × Except Err Unit) (chunks : Bytes → List Bytes)
    (edges : Flow.Flow → Except Err (Option ℚ × Option ℚ)) (o : Driver.Opts) (dir : Dir) (base output ext : Text) (outext : Option Text) (group : ℕ) (rolling : Bool)
    (begin_ : ℤ) (end_ : Option ℤ) : Cmd :=
  ⟨averageContent read write edges o, chunks, averageJobs dir base output ext outext group rolling begin_ end_⟩

/-- `convert` (strata/convert.py:9-57) on the files listed in `dir`. -/
def convertCmd (F : F32) (ftype : String) (chunks : Bytes → List Bytes) (dir : Dir) (base output ext : Text) (outext : Option Text) (begin_ : ℤ) (end_ : Option ℤ) : Cmd :=
  ⟨convertContent F ftype outext.isSome, chunks, convertJobs dir base output ext outext begin_ end_⟩

/-- Where a process is within a round. -/
inductive Pc where
  /-- reading the files of the round (strata/average.py:110-120, strata/convert.py:49) -/
  | reading (todo : List Path) (got : List (Option Bytes)) (out : Path)
  /-- before the test of the directory (strata/utils.py:263) -/
  | directory (out : Path) (cs : List Bytes)
  /-- before `os.makedirs` (strata/utils.py:264) -/
  | makedirs (out : Path) (cs : List Bytes)
  /-- before the test of the path (`i = 0`) or of backup `i` (strata/utils.py:271) -/
  | probing (out : Path) (i : ℕ) (cs : List Bytes)
  /-- before `os.rename` (strata/utils.py:277) -/
  | moving (out b : Path) (cs : List Bytes)
  /-- before `open(path, 'wb')` (strata/utils.py:286) -/
  | opening (out : Path) (cs : List Bytes)
  /-- writing at an offset of an open file (strata/utils.py:286) -/
  | writing (ino : Ino) (off : ℕ) (cs : List Bytes)
  | finished
  | failed (e : Err)
  deriving DecidableEq

/-- A process: its place in the round, the rounds to come, the number of files it created (strata/average.py:109, strata/convert.py:48). -/
structure Proc where
  pc : Pc
  rest : List Job
  next : ℕ
  deriving DecidableEq

/-- The next round (strata/average.py:109, strata/convert.py:48). -/
def Proc.nextJob (n : ℕ) : List Job → Proc
  | [] => ⟨.finished, [], n⟩
  | j :: r => ⟨.reading j.1 [] j.2, r, n⟩

/-- `makedirs` makes the directory and those that contain it (strata/utils.py:264). -/
def madeBy (dir x : Text) : Bool := decide (x = dir) || (x ++ ['/']).isPrefixOf dir

/-- The path that is tested: the path itself or backup `i` (strata/utils.py:269-274). -/
def candidate (out : Path) (i : ℕ) : Path := if i = 0 then out else backupPath out i

/-- Writing bytes at an offset; a gap is filled with zeros (POSIX `write`; strata/dataformats/simple/write.py:22-23). -/
def writeAt (old : Bytes) (off : ℕ) (bs : Bytes) : Bytes :=
  (old ++ List.replicate (off - old.length) 0).take off ++ bs ++ old.drop (off + bs.length)

/-- One step of a process (strata/utils.py:258-286 within the loops strata/average.py:109-173, strata/convert.py:48-51). -/
def step (cmd : Cmd) (pid : ℕ) (d : Disk) (s : Proc) : Disk × Proc :=
  match s.pc with
  | .reading (q :: todo) got out => (d, { s with pc := .reading todo (got ++ [d.view q]) out })
  | .reading [] got out =>
    match cmd.content got with
    | .error e => (d, { s with pc := .failed e })
    | .ok b => (d, { s with pc := .directory out (cmd.chunks b) })
  | .directory out cs => (d, { s with pc := if d.dirs out.1 then .probing out 0 cs else .makedirs out cs })
  | .makedirs out cs =>
    if d.dirs out.1 then (d, { s with pc := .failed .osError })
    else ({ d with dirs := fun x => d.dirs x || madeBy out.1 x }, { s with pc := .probing out 0 cs })
  | .probing out i cs =>
    (d, { s with pc :=
      if (d.names (candidate out i)).isSome then .probing out (i + 1) cs
      else if i = 0 then .opening out cs else .moving out (candidate out i) cs })
  | .moving out b cs =>
    match d.names out with
    | none => (d, { s with pc := .failed .osError })
    | some ino => ({ d with names := Function.update (Function.update d.names out none) b (some ino) }, { s with pc := .opening out cs })
  | .opening out cs =>
    match d.names out with
    | some ino => ({ d with data := Function.update d.data ino [] }, { s with pc := .writing ino 0 cs })
    | none => ({ d with names := Function.update d.names out (some (.made pid s.next)), data := Function.update d.data (.made pid s.next) [] },
        { s with pc := .writing (.made pid s.next) 0 cs, next := s.next + 1 })
  | .writing ino off (c :: cs) => ({ d with data := Function.update d.data ino (writeAt (d.data ino) off c) }, { s with pc := .writing ino (off + c.length) cs })
  | .writing _ _ [] => (d, Proc.nextJob s.next s.rest)
  | .finished => (d, s)
  | .failed _ => (d, s)

/-- The disk and all processes; `cmds k` is the command of process `k` (the loops strata/average.py:109-173, strata/convert.py:48-51). -/
structure Sys where
  disk : Disk
  procs : ℕ → Proc

/-- Process `k` makes a step (strata/average.py:109-173, strata/convert.py:48-51). -/
def Sys.move (cmds : ℕ → Cmd) (s : Sys) (k : ℕ) : Sys :=
  let r := step (cmds k) k s.disk (s.procs k)
  ⟨r.1, Function.update s.procs k r.2⟩

/-- All processes start (strata/average.py:109, strata/convert.py:48). -/
def Sys.start (cmds : ℕ → Cmd) (d : Disk) : Sys := ⟨d, fun k => Proc.nextJob 0 (cmds k).jobs⟩

/-- The processes make steps in the order of the schedule; a process that is killed is not scheduled any more
(strata/average.py:109-173, strata/convert.py:48-51). -/
def run (cmds : ℕ → Cmd) (d : Disk) (schedule : List ℕ) : Sys := schedule.foldl (Sys.move cmds) (Sys.start cmds d)

/-- A process that is alone, after `n` steps (strata/average.py:109-173, strata/convert.py:48-51). -/
def alone (cmd : Cmd) (pid : ℕ) (d : Disk) (n : ℕ) : Disk × Proc := (fun x => step cmd pid x.1 x.2)^[n] (d, Proc.nextJob 0 cmd.jobs)

/-- The disk with the files `fs` and the directories `dirs`. -/
def Disk.ofFS (fs : FS Bytes) (dirs : Text → Bool) : Disk :=
  ⟨fun q => if fs.exists? q then some (.orig q) else none, fun i => match i with | .orig q => (fs.get? q).getD [] | .made _ _ => [], dirs⟩

end Strata.Concurrent
