import Verif.Spec.CommandRuns
/-!
# Specification: what the contact-line commands are asked for, and moving a file out of the way
-/
namespace Strata.Spec
open Strata Strata.Files Strata.Commands

/-- What can be asked of both contact-line commands. -/
structure EdgeChoice where
  average : ℤ
  rolling : Bool
  recenter : Bool
  floor : Option ℚ
  area : ℚ × ℚ
  height : ℚ
  cutoff : Option ℚ
  radius : ℚ
  bins : ℤ
  first : ℤ
  last : Option ℤ
  ext : String

/-- The command line asks for this; `area` is the documented size of the extracted area. -/
structure EdgeChoice.Asked (c : EdgeChoice) (area : ℚ) (given : Kw) : Prop where
  average : valueOf given "average" (.num 1) = .num c.average
  rolling : valueOf given "rolling" (.bool false) = .bool c.rolling
  recenter : valueOf given "recenter" (.bool true) = .bool c.recenter
  floor : valueOf given "floor" .none = optNum c.floor
  area : valueOf given "extract_area" (.pair (some area) (some area)) = .pair (some c.area.1) (some c.area.2)
  height : valueOf given "extract_height" (.num 0) = .num c.height
  cutoff : valueOf given "cutoff" .none = optNum c.cutoff
  radius : valueOf given "cutoff_radius" (.num 1) = .num c.radius
  bins : valueOf given "cutoff_bins" (.num 1) = .num c.bins
  first : valueOf given "begin" (.num 1) = .num c.first
  last : valueOf given "end" .none = optInt c.last
  ext : valueOf given "ext" (.text ".dat") = .text c.ext

/-- From `fs` to `fs'` the file at `p`, if there is one, was moved to a backup name that was free, and nothing else happened. -/
def MovedAway {γ : Type} (fs fs' : FS γ) (p : Path) : Prop :=
  fs'.get? p = none ∧
    ((fs.get? p = none ∧ fs' = fs) ∨
      ∃ c k, fs.get? p = some c ∧ 1 ≤ k ∧ fs.get? (backupPath p k) = none ∧ fs'.get? (backupPath p k) = some c ∧ ∀ q, q ≠ p → q ≠ backupPath p k → fs'.get? q = fs.get? q)

end Strata.Spec
