import Verif.Model.Driver
import Verif.Model.ReadFiles
/-!
# Runs over a series of files that are killed

`average` and `convert` read some files and write one, again and again.  Here each write consists of the elementary steps of `WriteOp`, and the process
may end after any of them.
-/
namespace Strata.Killed
open Strata Strata.Files Strata.Driver Strata.Flow Strata.Bytes

/-- One round of such a loop: the files that are read and the file that is written (strata/average.py:109, strata/convert.py:48). -/
abbrev Job := List Path × Path

/-- What one round of `average` writes, from the contents of the files of the group (strata/average.py:110-173). -/
def averageContent (read : Bytes → Except Err Map) (write : Record → DInfo → Option Bytes × Except Err Unit)
    (edges : Flow → Except Err (Option ℚ × Option ℚ)) (o : Opts) (cs : List (Option Bytes)) : Except Err Bytes := do
  let maps ← cs.mapM fun c => c.elim (.error .osError) read
  let r ← averageGroup edges o maps
  match write r.1 r.2 with
  | (some c, .ok ()) => .ok c
  | (none, .ok ()) => .error .osError
  | (_, .error e) => .error e

/-- What one round of `convert` writes, from the content of the input file (strata/convert.py:49-51). -/
def convertContent (F : F32) (ftype : String) (outextGiven : Bool) (cs : List (Option Bytes)) : Except Err Bytes :=
  match cs with
  | [some c] => do
    let m ← readDataFile F c
    if ftype ∉ ["default", "gmx", "simple", "simple_plain"] then .error .keyError else convertWrite F ftype outextGiven m
  | _ => .error .osError

/-- The files after the loop (strata/average.py:109-173, strata/convert.py:48-51), each output being written in the pieces given by `chunks` through `prepare_path`
(strata/utils.py:258-286).  The loop ends with the first round that fails. -/
def runJobs (content : List (Option Bytes) → Except Err Bytes) (chunks : Bytes → List Bytes) : FS Bytes → List Job → FS Bytes
  | fs, [] => fs
  | fs, j :: rest =>
    match content (j.1.map fs.get?) with
    | .error _ => fs
    | .ok c => runJobs content chunks (WriteOp.run fs ⟨j.2, chunks c⟩) rest

/-- The files when the process ends during round `n` (counted from 0; strata/average.py:109-173, strata/convert.py:48-51), after `k` elementary steps of its
write and `m` bytes of the piece that is being written then. -/
def killed (content : List (Option Bytes) → Except Err Bytes) (chunks : Bytes → List Bytes) : FS Bytes → List Job → (n k m : ℕ) → FS Bytes
  | fs, [], _, _, _ => fs
  | fs, j :: rest, n, k, m =>
    match content (j.1.map fs.get?) with
    | .error _ => fs
    | .ok c =>
      match n with
      | 0 => WriteOp.crash fs ⟨j.2, chunks c⟩ k m
      | n + 1 => killed content chunks (WriteOp.run fs ⟨j.2, chunks c⟩) rest n k m

/-- The rounds of `average` (strata/average.py:101-109). -/
def averageJobs (dir : Dir) (base output ext : Text) (outext : Option Text) (group : ℕ) (rolling : Bool) (begin_ : ℤ) (end_ : Option ℤ) : List Job :=
  (findGroupsToSingles dir base output ext outext group rolling begin_ end_).map fun io => (io.1.map splitPath, splitPath io.2)

/-- The rounds of `convert` (strata/convert.py:40-48). -/
def convertJobs (dir : Dir) (base output ext : Text) (outext : Option Text) (begin_ : ℤ) (end_ : Option ℤ) : List Job :=
  (findSinglesToSingles dir base output ext outext begin_ end_).map fun io => ([splitPath io.1], splitPath io.2)

/-- A call of `average` (strata/average.py:14-178) that is killed. -/
def killedAverage (read : Bytes → Except Err Map) (write : Record → DInfo → Option Bytes × Except Err Unit) (chunks : Bytes → List Bytes)
    (edges : Flow → Except Err (Option ℚ × Option ℚ)) (o : Opts) (fs : FS Bytes) (dir : Dir) (base output ext : Text)
    (outext : Option Text) (group : ℕ) (rolling : Bool) (begin_ : ℤ) (end_ : Option ℤ) (n k m : ℕ) : FS Bytes :=
  killed (averageContent read write edges o) chunks fs (averageJobs dir base output ext outext group rolling begin_ end_) n k m

/-- A call of `convert` (strata/convert.py:9-57) that is killed. -/
def killedConvert (F : F32) (ftype : String) (chunks : Bytes → List Bytes) (fs : FS Bytes) (dir : Dir) (base output ext : Text) (outext : Option Text)
    (begin_ : ℤ) (end_ : Option ℤ) (n k m : ℕ) : FS Bytes :=
  killed (convertContent F ftype outext.isSome) chunks fs (convertJobs dir base output ext outext begin_ end_) n k m

end Strata.Killed
