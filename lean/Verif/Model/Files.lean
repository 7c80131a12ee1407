import Verif.Model.Basic
import Mathlib.Data.Nat.Digits.Defs
import Mathlib.Data.Rat.Floor
/-!
# Model of `strata/utils.py` (file names, discovery, backups) and `strata/convert.py`
-/
namespace Strata.Files

/-- The decimal digit characters of `n`, most significant first (`str(n)` for `n ≥ 0`;
models the `%d` conversion used in strata/utils.py:35 and :272). -/
def decimal (n : ℕ) : Text :=
  if n = 0 then ['0'] else ((Nat.digits 10 n).reverse.map Nat.digitChar)

/-- `'%0wd' % n` for a natural number: zero padded to width `w` (strata/utils.py:35). -/
def padded (w n : ℕ) : Text :=
  List.replicate (w - (decimal n).length) '0' ++ decimal n

/-- `'%05d' % n` for any Python int (strata/utils.py:35); the sign counts towards the width. -/
def fmt05 (n : ℤ) : Text :=
  if 0 ≤ n then padded 5 n.toNat else '-' :: padded 4 (-n).toNat

/-- `'%s%05d%s' % (base, num, ext)` (strata/utils.py:35). -/
def fileName (base ext : Text) (n : ℤ) : Text := base ++ fmt05 n ++ ext

/-- Comparison `num <= end`, where `none` is the default `end = np.inf`
(strata/utils.py:8, :34). -/
def leEnd (n : ℤ) : Option ℤ → Bool
  | none => true
  | some e => decide (n ≤ e)

/-- `gen_filenames` (strata/utils.py:8-40) as a generator: what the consumer
obtains when it asks for at most `fuel` names, starting at `num`. -/
def genFilenames (base ext : Text) (end_ : Option ℤ) (num : ℤ) : ℕ → List Text
  | 0 => []
  | fuel + 1 =>
    if leEnd num end_ then fileName base ext num :: genFilenames base ext end_ (num + 1) fuel
    else []

/-- The set of existing files, as seen by `os.access(filename, F_OK)` (strata/utils.py:77). -/
abbrev Dir := List Text

/-- `yield_singles` (strata/utils.py:73-86), with an explicit bound on the number
of iterations. -/
def yieldSinglesFuel (dir : Dir) (base ext : Text) (end_ : Option ℤ) (num : ℤ) : ℕ → List Text
  | 0 => []
  | fuel + 1 =>
    if leEnd num end_ then
      if fileName base ext num ∈ dir then
        fileName base ext num :: yieldSinglesFuel dir base ext end_ (num + 1) fuel
      else []
    else []

/-- `yield_singles` (strata/utils.py:73-86).  The iteration bound (one more than
the number of files in existence) is never reached: `yieldSingles_fuel_irrelevant`. -/
def yieldSingles (dir : Dir) (base ext : Text) (begin_ : ℤ) (end_ : Option ℤ) : List Text :=
  yieldSinglesFuel dir base ext end_ begin_ (dir.length + 1)

/-- Whether `yield_singles` issues its "No files … were found" warning
(strata/utils.py:74, :81-84): the first number is within bounds but its file is missing. -/
def singlesWarn (dir : Dir) (base ext : Text) (begin_ : ℤ) (end_ : Option ℤ) : Bool :=
  leEnd begin_ end_ && !decide (fileName base ext begin_ ∈ dir)

/-- `yield_groups` (strata/utils.py:88-103) with an explicit bound on the number
of iterations.  `group` is a natural number, `group_end = begin + group - 1`. -/
def yieldGroupsFuel (dir : Dir) (base ext : Text) (group : ℕ) (rolling : Bool)
    (end_ : Option ℤ) (begin_ : ℤ) : ℕ → List (List Text)
  | 0 => []
  | fuel + 1 =>
    if leEnd (begin_ + group - 1) end_ then
      let files := yieldSingles dir base ext begin_ (some (begin_ + group - 1))
      if files.length = group then
        files :: yieldGroupsFuel dir base ext group rolling end_
          (if rolling then begin_ + 1 else begin_ + group) fuel
      else []
    else []

/-- `yield_groups` (strata/utils.py:88-103) for `group ≥ 1` (with `group = 0` the
Python loop does not terminate, see `yieldGroups_zero_diverges`). -/
def yieldGroups (dir : Dir) (base ext : Text) (group : ℕ) (rolling : Bool)
    (begin_ : ℤ) (end_ : Option ℤ) : List (List Text) :=
  yieldGroupsFuel dir base ext group rolling end_ begin_ (dir.length + 1)

/-- `find_singles_to_singles` (strata/utils.py:123-155): zips the found files
with the names produced by a second generator over the same bounds.  `outext = none`
means the option is absent and the input extension is used. -/
def findSinglesToSingles (dir : Dir) (base output ext : Text) (outext : Option Text)
    (begin_ : ℤ) (end_ : Option ℤ) : List (Text × Text) :=
  let found := yieldSingles dir base ext begin_ end_
  found.zip (genFilenames output (outext.getD ext) end_ begin_ found.length)

/-- `np.ceil(begin/group)` (strata/utils.py:200). -/
def ceilDiv (begin_ : ℤ) (group : ℕ) : ℤ := ⌈(begin_ : ℚ) / (group : ℚ)⌉

/-- `find_groups_to_singles` (strata/utils.py:158-205).  The output generator has
no upper bound. -/
def findGroupsToSingles (dir : Dir) (base output ext : Text) (outext : Option Text)
    (group : ℕ) (rolling : Bool) (begin_ : ℤ) (end_ : Option ℤ) : List (List Text × Text) :=
  let found := yieldGroups dir base ext group rolling begin_ end_
  let start := if rolling then begin_ else ceilDiv begin_ group
  found.zip (genFilenames output (outext.getD ext) none start found.length)

/-! ## `prepare_path` -/

/-- A path after `os.path.split`: directory (with `""` already replaced by `"."`,
strata/utils.py:260-262) and file name. -/
abbrev Path := Text × Text

/-- `os.path.split` on POSIX with the empty directory replaced by `"."`
(strata/utils.py:260-262): the part after the last slash, and the part before it without
trailing slashes unless it consists of slashes only. -/
def splitPath (s : Text) : Path :=
  let tail := (s.reverse.takeWhile (· ≠ '/')).reverse
  let headRev := s.reverse.dropWhile (· ≠ '/')
  let head := if headRev.all (· = '/') then headRev.reverse
    else (headRev.dropWhile (· = '/')).reverse
  (if head = [] then ['.'] else head, tail)

/-- A file system: finitely many files with content `γ`.  Simplification: directories are
not represented (`os.makedirs`, strata/utils.py:263-264, changes no file). -/
abbrev FS (γ : Type) := List (Path × γ)

variable {γ : Type}

/-- Content of a path, if it exists. -/
def FS.get? (fs : FS γ) (p : Path) : Option γ := (fs.find? (fun e => e.1 = p)).map Prod.snd

/-- `os.path.exists` for a file (strata/utils.py:271). -/
def FS.exists? (fs : FS γ) (p : Path) : Bool := fs.any (fun e => e.1 = p)

/-- Remove a path. -/
def FS.remove (fs : FS γ) (p : Path) : FS γ := fs.filter (fun e => e.1 ≠ p)

/-- `open(p, 'w')` followed by writing: replaces the content (strata/dataformats/*/write.py). -/
def FS.put (fs : FS γ) (p : Path) (c : γ) : FS γ := (p, c) :: fs.remove p

/-- `os.rename(p, q)`, POSIX semantics: an existing `q` is overwritten (strata/utils.py:277). -/
def FS.rename (fs : FS γ) (p q : Path) : FS γ :=
  match fs.get? p with
  | none => fs
  | some c => (fs.remove p).put q c

/-- `'#%s.%d#' % (filename, i)` in the same directory (strata/utils.py:272-273). -/
def backupPath (p : Path) (i : ℕ) : Path := (p.1, '#' :: p.2 ++ '.' :: decimal i ++ ['#'])

/-- The loop of `backup_conflict` (strata/utils.py:269-274): `backup` is the candidate,
`i` the next number; `none` if the iteration bound is exhausted. -/
def findBackup (fs : FS γ) (p : Path) (backup : Path) (i : ℕ) : ℕ → Option Path
  | 0 => none
  | fuel + 1 =>
    if fs.exists? backup then findBackup fs p (backupPath p i) (i + 1) fuel else some backup

/-- The elementary file-system steps `prepare_path` performs before calling the wrapped
function (strata/utils.py:268-284): at most one rename. -/
def backupTarget (fs : FS γ) (p : Path) : Except Err (Option Path) :=
  match findBackup fs p p 1 (fs.length + 2) with
  | none => .error .infiniteLoop
  | some b => .ok (if b = p then none else some b)

/-- `prepare_path_wrapper` up to the call of the wrapped function (strata/utils.py:258-284). -/
def preparePath (fs : FS γ) (p : Path) : Except Err (FS γ) :=
  match backupTarget fs p with
  | .error e => .error e
  | .ok none => .ok fs
  | .ok (some b) => .ok (fs.rename p b)

/-! ### Elementary steps, for crash points -/

/-- Elementary file-system steps of a decorated writer.  Contents are byte lists. -/
inductive Step where
  | rename (p q : Path)
  | create (p : Path)
  | append (p : Path) (bytes : List UInt8)

/-- Effect of one elementary step. -/
def Step.run (fs : FS (List UInt8)) : Step → FS (List UInt8)
  | .rename p q => fs.rename p q
  | .create p => fs.put p []
  | .append p bs => match fs.get? p with
    | some c => fs.put p (c ++ bs)
    | none => fs

/-- One call of a writer decorated with `prepare_path`: target and the chunks passed to
successive `write`/`tofile` calls (strata/dataformats/gmx_flow_version_1/write.py:42-48,
strata/dataformats/simple/write.py:22-23). -/
structure WriteOp where
  path : Path
  chunks : List (List UInt8)

/-- The elementary steps of a decorated write, in program order (strata/utils.py:276-286). -/
def WriteOp.steps (fs : FS (List UInt8)) (op : WriteOp) : List Step :=
  (match backupTarget fs op.path with
   | .ok (some b) => [.rename op.path b]
   | _ => []) ++ [.create op.path] ++ op.chunks.map (.append op.path)

/-- Run a complete write. -/
def WriteOp.run (fs : FS (List UInt8)) (op : WriteOp) : FS (List UInt8) :=
  (op.steps fs).foldl Step.run fs

/-- Run a write that is interrupted after `k` elementary steps, the last append possibly
being cut short after `m` bytes. -/
def WriteOp.crash (fs : FS (List UInt8)) (op : WriteOp) (k m : ℕ) : FS (List UInt8) :=
  let done := ((op.steps fs).take k).foldl Step.run fs
  match (op.steps fs)[k]? with
  | some (.append p bs) => Step.run done (.append p (bs.take m))
  | _ => done

/-! ## `convert` -/

/-- The loop of `convert` (strata/convert.py:48-51) over the pairs found beforehand:
read the input, write the output through `prepare_path`.  `dec`/`enc` are the reader and
writer; a failing reader aborts the run. -/
def convertLoop {δ : Type} (dec : γ → Except Err δ) (enc : δ → γ) :
    FS γ → List (Path × Path) → Except Err (FS γ)
  | fs, [] => .ok fs
  | fs, (pin, pout) :: rest =>
    match fs.get? pin with
    | none => .error .valueError
    | some c =>
      match dec c with
      | .error e => .error e
      | .ok d =>
        match preparePath fs pout with
        | .error e => .error e
        | .ok fs' => convertLoop dec enc (fs'.put pout (enc d)) rest

/-- `convert` (strata/convert.py:9-57) on a file system: `dir` is the listing seen by the
file search, the pairs are computed before the loop (strata/convert.py:40). -/
def convert {δ : Type} (dec : γ → Except Err δ) (enc : δ → γ) (fs : FS γ) (dir : Dir)
    (base output ext : Text) (outext : Option Text) (begin_ : ℤ) (end_ : Option ℤ) :
    Except Err (FS γ) :=
  convertLoop dec enc fs ((findSinglesToSingles dir base output ext outext begin_ end_).map
    (fun io => (splitPath io.1, splitPath io.2)))

end Strata.Files
