import Verif.Model.SpreadingEdges
import Verif.Model.SpreadingText
import Verif.Model.ReadFiles
/-!
# Model of `collect` of `strata/spreading/collect.py` on files

The contents of files are of any type `γ`; `Store` says how a text is stored and appended to.
-/
namespace Strata.SpreadingFiles
open Strata Strata.Flow Strata.Files Strata.Spreading Strata.SpreadingText

variable {γ : Type}

/-- How a text is stored, and appended to a file (`open(path, 'w')`, `open(path, 'a')`, strata/spreading/collect.py:338, :387, :395). -/
structure Store (γ : Type) where
  encode : Text → γ
  append : γ → Text → γ

/-- A text is appended; a file that does not exist is created (strata/spreading/collect.py:387-390, :395-396). -/
def appendTo (st : Store γ) (p : Path) (fs : FS γ) (t : Text) : FS γ := fs.put p ((fs.get? p).elim (st.encode t) fun c => st.append c t)

/-- What a call leaves: files, rows returned, the function attribute `write_spreading.impact`, and how it ends. -/
structure Run (γ : Type) where
  fs : FS γ
  rows : List Row
  flag : Bool
  outcome : Except Err Unit

/-- The options of `collect` used in the loop (strata/spreading/collect.py:92-96). -/
structure CollectOpts where
  dt : ℚ := 1
  t0 : ℚ := 0
  radius : ℚ := 1
  floor : Option ℚ := none
  interface : Interface.Opts := {}

/-- The frame of a file (strata/spreading/collect.py:111-114); one that is not there cannot be read. -/
def fileFrame (read : γ → Except Err Flow) (o : CollectOpts) (fs : FS γ) (name : Text) : Except Err Frame :=
  (fs.get? (splitPath name)).elim (.error .osError) fun c => (read c).bind fun f => frameOf f name o.radius o.floor o.interface

/-- The files after one iteration: the new lines are appended one after another to the output (strata/spreading/collect.py:131-142). -/
def afterStep (st : Store γ) (save : Option Path) (fs : FS γ) (s s' : State) : FS γ :=
  match save with
  | none => fs
  | some p => (s'.lines.drop s.lines.length).foldl (fun fs l => appendTo st p fs (joinLines (lineTexts l))) fs

/-- The loop of `collect` over the files (strata/spreading/collect.py:111-145); the files are read one at a time. -/
def collectLoop (read : γ → Except Err Flow) (st : Store γ) (save : Option Path) (o : CollectOpts) : FS γ → State → ℕ → List Text → Run γ
  | fs, s, _, [] => ⟨fs, s.rows, s.flag, .ok ()⟩
  | fs, s, i, name :: rest =>
    match fileFrame read o fs name with
    | .error e => ⟨fs, s.rows, s.flag, .error e⟩
    | .ok f =>
      let s' := step o.dt save.isSome s i f
      collectLoop read st save o (afterStep st save fs s s') s' (i + 1) rest

/-- `write_header` with its path prepared (strata/spreading/collect.py:64-74, :331-370). -/
def writeHeader (st : Store γ) (h : Header) (fs : FS γ) : Option Path → Except Err (FS γ)
  | none => .ok fs
  | some p => (preparePath fs p).map fun fs' => fs'.put p (st.encode (joinLines (headerLines h)))

/-- `collect` (strata/spreading/collect.py:19-153): the header is written first, then the files are searched for and read; `dir` is the listing seen by the
search, `flag` the function attribute left by earlier calls. -/
def collectFiles (read : γ → Except Err Flow) (st : Store γ) (h : Header) (save : Option Text) (o : CollectOpts) (flag : Bool) (fs : FS γ) (dir : Dir)
    (base ext : Text) (begin_ : ℤ) (end_ : Option ℤ) : Run γ :=
  match writeHeader st h fs (save.map splitPath) with
  | .error e => ⟨fs, [], flag, .error e⟩
  | .ok fs' => collectLoop read st (save.map splitPath) o fs' ⟨initPeriodicInfo, o.t0, [], flag, []⟩ 0 (yieldSingles dir base ext begin_ end_)

/-! ## On the bytes of files -/

/-- `FlowData(data, info=info)` of what a reader returns (strata/spreading/collect.py:112).  Simplification: a spacing that is not a number is a `ValueError`. -/
def flowOf (m : Driver.Map) : Except Err Flow :=
  match m.2.1.spacing with
  | (some dx, some dy) =>
    mk [.dict m.1] [("shape", .tuple [some (m.2.1.shape.1 : ℚ), some (m.2.1.shape.2 : ℚ)]), ("spacing", .tuple [some dx, some dy]),
      ("origin", pairVal m.2.1.origin), ("num_bins", .num (m.2.1.numBins : ℚ))]
  | _ => .error .valueError

/-- A data file as a map (strata/spreading/collect.py:111-112). -/
def readFlow (F : Bytes.F32) (c : Bytes.Bytes) : Except Err Flow := (Driver.readDataFile F c).bind flowOf

/-- ASCII texts as bytes. -/
def byteStore : Store Bytes.Bytes := ⟨fun t => t.map fun c => UInt8.ofNat c.toNat, fun c t => c ++ t.map fun c => UInt8.ofNat c.toNat⟩

end Strata.SpreadingFiles
