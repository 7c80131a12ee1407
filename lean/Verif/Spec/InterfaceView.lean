import Verif.Model.InterfaceView
import Verif.Spec.Driver
/-!
# Specification vocabulary for `view_interfaces`
-/
namespace Strata.InterfaceView
open Strata Strata.Files Strata.InterfaceFiles Strata.InterfaceText

/-- `p` is the average of the interfaces in the files with these names. -/
def IsAverageOf {γ : Type} (text : γ → Text) (fs : FS γ) (names : List Text) (p : List Point) : Prop :=
  ∃ files, List.Forall₂ (fun n pts => ∃ c, fs.get? (splitPath n) = some c ∧ readPoints (text c) = .ok pts) names files ∧ averageInterfaces files = .ok p

/-- The drawing library accepts everything. -/
def accepts : Option Text → List Point → Except Err Unit := fun _ _ => .ok ()

end Strata.InterfaceView
