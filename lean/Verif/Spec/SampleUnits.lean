import Verif.Spec.FieldUnits
import Verif.Spec.SampleSeries
/-!
# Specification vocabulary for sampled series in other units
-/
namespace Strata.SampleSeries
open Strata Strata.Flow

/-- The same arguments in other units: the limits, the floor and the cutoff are values of fields; the unit of the viscosity is `ν` times smaller. -/
def inUnits (u : FieldUnits) (ν : ℚ) (o : Opts) : Opts :=
  { o with
    cutoff := o.cutoff.map fun x => (o.cutoffLabel.elim x fun l => u.value l x)
    viscosity := ν * o.viscosity
    floor := u.value "Y" o.floor
    xlim := u.lims "X" o.xlim
    ylim := u.lims "Y" o.ylim }

/-- How many new units of the sampled quantity an old one is: mass times flow squared for energies, viscosity times flow squared by length squared for dissipation, length for slip lengths, and
that of the field for fields. -/
def unitOf (u : FieldUnits) (ν : ℚ) (l : Label) : ℚ :=
  if l = "inertial_energy" then u.factor "M" * u.factor "U" ^ 2
  else if l = "visc_diss" then ν * u.factor "U" ^ 2 / u.factor "X" ^ 2
  else if l = "slip_length" then u.factor "Y"
  else u.factor l

/-- A sampled value in a unit `k` times smaller: its variance is `k²` times larger, an angle is the same. -/
def Value.times (k : ℚ) : Value → Value
  | .number v var => .number (v.map (k * ·)) (var.map fun s => s.map (k ^ 2 * ·))
  | .angle a => .angle a

/-- Both files have all fields and may be read, and the second one is the first one in other units. -/
def SameFile (u : FieldUnits) (file file' : Record × InfoDict) : Prop :=
  names file.1 = fields ∧ Wf file.1 ∧
    ∃ info info', setInfo file.2 = .ok info ∧ setInfo file'.2 = .ok info' ∧ (⟨file'.1, info'⟩ : Flow) = u.flow ⟨file.1, info⟩

end Strata.SampleSeries
