import Verif.Model.Driver
/-!
# Model of the file search and `average` for any bounds and group sizes (`strata/utils.py`, `strata/average.py`)

The bounds may be values that are not numbers and the size of a group any integer.  A generator is what it yields and how it ends; `none` means that it has not
ended after the given number of steps.
-/
namespace Strata.Groups
open Strata Strata.Flow Strata.Files Strata.Driver

/-- A value given for `begin` or `end`: an integer, `np.inf` (`end` only) or something that cannot be compared with or added to a number (`None`, a string). -/
inductive Bound where
  | num (n : ℤ)
  | inf
  | other
  deriving DecidableEq, Repr

/-- `num <= end` (strata/utils.py:33, :91); comparing something that is not a number raises `TypeError`.  Simplification: `begin=np.inf` is taken for no number
(Python raises `OverflowError` when formatting it). -/
def le? : Bound → Bound → Except Err Bool
  | .num n, .num m => .ok (decide (n ≤ m))
  | .num _, .inf => .ok true
  | _, _ => .error .typeError

/-- `num + k` (strata/utils.py:35, :89, :96-100). -/
def add : Bound → ℤ → Bound
  | .num n, k => .num (n + k)
  | b, _ => b

/-- The file exists (`os.access`, strata/utils.py:77); only asked after `num <= end`. -/
def isFile (dir : Dir) (base ext : Text) : Bound → Option Text
  | .num n => if fileName base ext n ∈ dir then some (fileName base ext n) else none
  | _ => none

/-- `yield_singles` over `gen_filenames` (strata/utils.py:29-40, :73-86). -/
def singles (dir : Dir) (base ext : Text) (end_ : Bound) : Bound → ℕ → Option (List Text × Except Err Unit)
  | _, 0 => none
  | num, fuel + 1 =>
    match le? num end_ with
    | .error e => some ([], .error e)
    | .ok false => some ([], .ok ())
    | .ok true =>
      match isFile dir base ext num with
      | none => some ([], .ok ())
      | some f => (singles dir base ext end_ (add num 1) fuel).map fun r => (f :: r.1, r.2)

/-- `yield_groups` (strata/utils.py:88-103) for a group size that is an integer; `list(yield_singles(...))` is run with the same number of steps. -/
def groups (dir : Dir) (base ext : Text) (group : ℤ) (rolling : Bool) (end_ : Bound) : Bound → ℕ → Option (List (List Text) × Except Err Unit)
  | _, 0 => none
  | begin_, fuel + 1 =>
    match begin_ with
    | .num b =>
      match le? (.num (b + group - 1)) end_ with
      | .error e => some ([], .error e)
      | .ok false => some ([], .ok ())
      | .ok true =>
        match singles dir base ext (.num (b + group - 1)) (.num b) (fuel + 1 + dir.length) with
        | none => none
        | some (_, .error e) => some ([], .error e)
        | some (files, .ok ()) =>
          if (files.length : ℤ) = group then
            (groups dir base ext group rolling end_ (if rolling then .num (b + 1) else .num (b + group)) fuel).map fun r => (files :: r.1, r.2)
          else some ([], .ok ())
    | _ => some ([], .error .typeError)

/-- `find_datamap_files` with a group size (strata/utils.py:104-120): a `TypeError` is printed and the search ends. -/
def caught {α : Type} (r : List α × Except Err Unit) : List α × Except Err Unit :=
  match r.2 with
  | .error .typeError => (r.1, .ok ())
  | _ => r

/-- `find_datamap_files` without groups (strata/utils.py:43-120). -/
def findFiles (dir : Dir) (base ext : Text) (begin_ end_ : Bound) (fuel : ℕ) : Option (List Text × Except Err Unit) :=
  (singles dir base ext end_ begin_ fuel).map caught

/-- `find_datamap_files` with `group` (strata/utils.py:43-120). -/
def findGroups (dir : Dir) (base ext : Text) (group : ℤ) (rolling : Bool) (begin_ end_ : Bound) (fuel : ℕ) : Option (List (List Text) × Except Err Unit) :=
  (groups dir base ext group rolling end_ begin_ fuel).map caught

variable {γ : Type}

/-- `average` (strata/average.py:14-178) with any group size: the groups are collected first (:103).  `np.ceil(begin/group)` (strata/utils.py:200) raises `ZeroDivisionError` for
groups of 0 files. -/
def averageAny (read : γ → Except Err Map) (write : Record → DInfo → Option γ × Except Err Unit) (edges : Flow → Except Err (Option ℚ × Option ℚ)) (o : Opts) (fs : FS γ)
    (dir : Dir) (base output ext : Text) (outext : Option Text) (group : ℤ) (rolling : Bool) (begin_ : ℤ) (end_ : Option ℤ) (fuel : ℕ) : Option (FS γ × Except Err Unit) :=
  if group = 0 ∧ rolling = false then some (fs, .error .zeroDivisionError)
  else
    match findGroups dir base ext group rolling (.num begin_) (end_.elim .inf .num) fuel with
    | none => none
    | some (_, .error e) => some (fs, .error e)
    | some (found, .ok ()) =>
      let start := if rolling then begin_ else ⌈(begin_ : ℚ) / (group : ℚ)⌉
      some (averageLoop read write edges o fs
        ((found.zip (genFilenames output (outext.getD ext) none start found.length)).map fun io => (io.1.map splitPath, splitPath io.2)))

end Strata.Groups
