import Verif.Spec.Commands
import Verif.Spec.Driver
import Verif.Model.CommandRuns
/-!
# Specification: what a command line asks for
-/
namespace Strata.Spec
open Strata Strata.Commands Strata.Driver

/-- An optional number as the value of an option. -/
def optNum : Option ℚ → Arg
  | none => .none
  | some q => .num q

/-- An optional whole number as the value of an option. -/
def optInt : Option ℤ → Arg
  | none => .none
  | some z => .num z

/-- What can be asked of `strata average`. -/
structure AverageChoice where
  combine : Option (ℕ × ℕ)
  supersample : Option ℕ
  recenter : Option Centre
  rolling : Bool
  floor : Option ℚ
  cutoff : ℚ
  bins : ℤ
  radius : ℚ
  xlim : Option ℚ × Option ℚ
  ylim : Option ℚ × Option ℚ
  first : ℤ
  last : Option ℤ
  ext : String

/-- The command line asks for this: every option has the value on the command line or, if it is not there, its documented default value. -/
structure AverageChoice.Asked (c : AverageChoice) (given : Kw) : Prop where
  combine : valueOf given "combine" (.pair none none) = .pair (c.combine.map fun p => (p.1 : ℚ)) (c.combine.map fun p => (p.2 : ℚ))
  supersample : valueOf given "supersample" .none = optInt (c.supersample.map fun n => (n : ℤ))
  recenter : (c.recenter = none ∧ valueOf given "recenter" (.text "none") = .text "none") ∨ (c.recenter = some .left ∧ valueOf given "recenter" (.text "none") = .text "left") ∨
    (c.recenter = some .right ∧ valueOf given "recenter" (.text "none") = .text "right") ∨ (c.recenter = some .com ∧ valueOf given "recenter" (.text "none") = .text "com")
  rolling : valueOf given "rolling" (.bool false) = .bool c.rolling
  floor : valueOf given "floor" .none = optNum c.floor
  cutoff : valueOf given "cutoff" (.num 0) = .num c.cutoff
  bins : valueOf given "cutoff_bins" (.num 1) = .num c.bins
  radius : valueOf given "cutoff_radius" (.num 1) = .num c.radius
  xlim : valueOf given "xlim" (.pair none none) = .pair c.xlim.1 c.xlim.2
  ylim : valueOf given "ylim" (.pair none none) = .pair c.ylim.1 c.ylim.2
  first : valueOf given "begin" (.num 1) = .num c.first
  last : valueOf given "end" .none = optInt c.last
  ext : valueOf given "ext" (.text ".dat") = .text c.ext

/-- What can be asked of `strata convert`. -/
structure ConvertChoice where
  ftype : String
  first : ℤ
  last : Option ℤ
  ext : String

/-- The command line asks for this. -/
structure ConvertChoice.Asked (c : ConvertChoice) (given : Kw) : Prop where
  ftype : valueOf given "ftype" (.text "gmx") = .text c.ftype
  first : valueOf given "begin" (.num 1) = .num c.first
  last : valueOf given "end" .none = optInt c.last
  ext : valueOf given "ext" (.text ".dat") = .text c.ext

/-- What can be asked of `strata spreading collect`. -/
structure CollectChoice where
  save : String
  nooutput : Bool
  dt : ℚ
  t0 : ℚ
  cutoff : Option ℚ
  bins : ℤ
  radius : ℚ
  first : ℤ
  last : Option ℤ
  ext : String
  verbose : Bool

/-- The command line asks for this. -/
structure CollectChoice.Asked (c : CollectChoice) (given : Kw) : Prop where
  save : valueOf given "save" (.text "spread.xvg") = .text c.save
  nooutput : valueOf given "nooutput" (.bool false) = .bool c.nooutput
  dt : valueOf given "dt" (.num 1) = .num c.dt
  t0 : valueOf given "t0" (.num 0) = .num c.t0
  cutoff : valueOf given "cutoff" .none = optNum c.cutoff
  bins : valueOf given "cutoff_bins" (.num 1) = .num c.bins
  radius : valueOf given "cutoff_radius" (.num 1) = .num c.radius
  first : valueOf given "begin" (.num 1) = .num c.first
  last : valueOf given "end" .none = optInt c.last
  ext : valueOf given "ext" (.text ".dat") = .text c.ext
  verbose : valueOf given "verbose" (.bool false) = .bool c.verbose

end Strata.Spec
