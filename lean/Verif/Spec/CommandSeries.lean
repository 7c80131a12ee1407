import Verif.Spec.CommandRuns
import Verif.Model.InterfaceText
/-!
# Specification: what the command lines of the interface commands and of `sample` ask for
-/
namespace Strata.Spec
open Strata Strata.Commands Strata.InterfaceFiles

/-- What can be asked of `strata interface collect`. -/
structure InterfaceChoice where
  recenter : Option Centre
  cutoff : Option ℚ
  radius : ℚ
  bins : ℤ
  ylims : Option ℚ × Option ℚ
  first : ℤ
  last : Option ℤ
  ext : String

/-- The command line asks for this: every option has the value on the command line or, if it is not there, its documented default value. -/
structure InterfaceChoice.Asked (c : InterfaceChoice) (given : Kw) : Prop where
  recenter : (c.recenter = none ∧ valueOf given "recenter" (.text "zero") = .text "off") ∨ (c.recenter = some .zero ∧ valueOf given "recenter" (.text "zero") = .text "zero") ∨
    (c.recenter = some .com ∧ valueOf given "recenter" (.text "zero") = .text "com")
  cutoff : valueOf given "cutoff" .none = optNum c.cutoff
  radius : valueOf given "cutoff_radius" (.num 1) = .num c.radius
  bins : valueOf given "cutoff_bins" (.num 1) = .num c.bins
  ylims : valueOf given "ylims" (.pair none none) = .pair c.ylims.1 c.ylims.2
  first : valueOf given "begin" (.num 1) = .num c.first
  last : valueOf given "end" .none = optInt c.last
  ext : valueOf given "ext" (.text ".dat") = .text c.ext

/-- What can be asked of `strata interface sample`; an empty name stands for no output. -/
structure AreaChoice where
  output : String
  dt : ℚ
  first : ℤ
  last : Option ℤ
  ext : String

/-- The command line asks for this. -/
structure AreaChoice.Asked (c : AreaChoice) (given : Kw) : Prop where
  output : valueOf given "save_xvg" (.text "") = .text c.output
  dt : valueOf given "delta_t" (.num 1) = .num c.dt
  first : valueOf given "begin" (.num 1) = .num c.first
  last : valueOf given "end" .none = optInt c.last
  ext : valueOf given "ext" (.text ".xvg") = .text c.ext

/-- What can be asked of `strata interface angle`. -/
structure AngleChoice where
  fit : Bool
  height : Option ℚ
  output : Option String
  dt : ℚ
  first : ℤ
  last : Option ℤ
  ext : String

/-- The command line asks for this. -/
structure AngleChoice.Asked (c : AngleChoice) (given : Kw) : Prop where
  fit : valueOf given "fit" (.bool false) = .bool c.fit
  height : valueOf given "height" .none = optNum c.height
  output : valueOf given "save_xvg" .none = c.output.elim .none .text
  dt : valueOf given "delta_t" (.num 1) = .num c.dt
  first : valueOf given "begin" (.num 1) = .num c.first
  last : valueOf given "end" .none = optInt c.last
  ext : valueOf given "ext" (.text ".xvg") = .text c.ext

/-- What can be asked of `strata sample`; an empty name stands for no output. -/
structure SampleChoice where
  output : String
  dt : ℚ
  sum : Bool
  cutoff : Option ℚ
  cutoffLabel : Option String
  floor : ℚ
  xlim : Option ℚ × Option ℚ
  ylim : Option ℚ × Option ℚ
  first : ℤ
  last : Option ℤ
  ext : String

/-- The command line asks for this. -/
structure SampleChoice.Asked (c : SampleChoice) (given : Kw) : Prop where
  output : valueOf given "output" (.text "sample.xvg") = .text c.output
  dt : valueOf given "dt" (.num 1) = .num c.dt
  sum : valueOf given "process" (.text "mean") = .text (if c.sum then "sum" else "mean")
  cutoff : valueOf given "cutoff" .none = optNum c.cutoff
  cutoffLabel : valueOf given "cutoff_label" .none = c.cutoffLabel.elim .none .text
  floor : valueOf given "slip_floor" (.num 0) = .num c.floor
  xlim : valueOf given "xlim" (.pair none none) = .pair c.xlim.1 c.xlim.2
  ylim : valueOf given "ylim" (.pair none none) = .pair c.ylim.1 c.ylim.2
  first : valueOf given "begin" (.num 1) = .num c.first
  last : valueOf given "end" .none = optInt c.last
  ext : valueOf given "ext" (.text ".dat") = .text c.ext

end Strata.Spec
