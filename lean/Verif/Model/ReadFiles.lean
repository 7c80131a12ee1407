import Verif.Model.Driver
/-!
# Model of `strata/dataformats/read.py` and `strata/convert.py` on the bytes of files

The two readers and the three writers are those of `Verif.Model.GmxFlow` and `Verif.Model.Simple`.
-/
namespace Strata.Driver
open Strata Strata.Flow Strata.Average Strata.Files Strata.Bytes

/-- The information dict of the gmx reader (strata/dataformats/gmx_flow_version_1/read.py:89-109), which always has its four entries. -/
def infoOfGmx (i : Info) : Except Err DInfo :=
  match i.shape, i.spacing, i.origin, i.numBins with
  | some s, some h, some o, some n => .ok ⟨(s.1.toNat, s.2.toNat), (some h.1, some h.2), some o, n.toNat⟩
  | _, _, _, _ => .error .keyError

/-- `read_data_file` (strata/dataformats/read.py:57-97) of a file with this content: the data, the information and the module, 0 for the gmx
format and 1 for the simple formats.  Simplification: the maps of a single row or column of a file in a simple format, whose coordinates are not
numbers, are a `ValueError`. -/
def readDataFile (F : F32) (content : Bytes) : Except Err Map :=
  if Gmx.isGmx content then do
    let (r, i) ← Gmx.readData F content
    .ok (r, ← infoOfGmx i, 0)
  else do
    let (o, i) ← Simple.readData F content
    match o.x.mapM id, o.y.mapM id with
    | some x, some y => .ok ([("X", x), ("Y", y)] ++ o.rest, ⟨i.shape, i.spacing, some i.origin, i.numBins⟩, 1)
    | _, _ => .error .valueError

/-- A file by its path: one that is not there is an `OSError` of the simple reader (strata/dataformats/read.py:28-36, :91-92). -/
def readPath (F : F32) (fs : FS Bytes) (p : Path) : Except Err Map := (fs.get? p).elim (.error .osError) (readDataFile F)

/-- `read_from_files` (strata/dataformats/read.py:38-54): the maps the consumer obtains, and how it ends. -/
def readFromFiles (F : F32) (fs : FS Bytes) : List Path → List Map × Except Err Unit
  | [] => ([], .ok ())
  | p :: ps =>
    match readPath F fs p with
    | .error e => ([], .error e)
    | .ok m => let r := readFromFiles F fs ps; (m :: r.1, r.2)

/-- The information as the gmx writer uses it (strata/dataformats/gmx_flow_version_1/write.py:28, :43-45).  Simplification: a spacing that is not a number is
written as 0; both readers return an origin. -/
def ginfo (i : DInfo) : Gmx.GInfo := ⟨i.shape, (i.spacing.1.getD 0, i.spacing.2.getD 0), i.origin.getD (0, 0)⟩

/-- `write(fnout, data, info, ftype=…, **kwargs)` (strata/convert.py:51, strata/dataformats/write.py:15-55) with the remaining keyword arguments, which
are `outext` if it was given, as `pop_fileopts` leaves it there (strata/utils.py:234): the simple writers do not know it. -/
def convertWrite (F : F32) (ftype : String) (outextGiven : Bool) (m : Map) : Except Err Bytes :=
  if outextGiven ∧ ftype ∈ ["simple", "simple_plain"] then .error .typeError
  else Simple.write F m.1 (some (ginfo m.2.1)) (some ftype)

/-- The loop of `convert` (strata/convert.py:48-51) on the bytes of files: the files at the end and the outcome.  The path is prepared when a writer is
called, so after the type is checked and before the writer fails (strata/dataformats/write.py:46-55); no writer opens its file before it has all its data. -/
def convertBytes (F : F32) (ftype : String) (outextGiven : Bool) : FS Bytes → List (Path × Path) → FS Bytes × Except Err Unit
  | fs, [] => (fs, .ok ())
  | fs, (pin, pout) :: rest =>
    match readPath F fs pin with
    | .error e => (fs, .error e)
    | .ok m =>
      if ftype ∉ ["default", "gmx", "simple", "simple_plain"] then (fs, .error .keyError)
      else match preparePath fs pout with
        | .error e => (fs, .error e)
        | .ok fs' =>
          match convertWrite F ftype outextGiven m with
          | .error e => (fs', .error e)
          | .ok b => convertBytes F ftype outextGiven (fs'.put pout b) rest

/-- `convert` (strata/convert.py:9-57) on the bytes of files; `dir` is the listing seen by the file search. -/
def convertFiles (F : F32) (ftype : String) (fs : FS Bytes) (dir : Dir) (base output ext : Text) (outext : Option Text) (begin_ : ℤ) (end_ : Option ℤ) :
    FS Bytes × Except Err Unit :=
  convertBytes F ftype outext.isSome fs ((findSinglesToSingles dir base output ext outext begin_ end_).map fun io => (splitPath io.1, splitPath io.2))

end Strata.Driver
