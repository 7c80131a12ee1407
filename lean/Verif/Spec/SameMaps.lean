import Verif.Model.CommandSeries
import Verif.Model.SavedRuns
/-!
# Specification vocabulary for series of files that hold the same maps
-/
namespace Strata.Driver
open Strata Strata.Files Strata.Bytes

/-- The files with these names, in these file systems, are there and are read as the same maps, one by one (or refused alike). -/
def SameMaps (F : F32) (fs : FS Bytes) (names : List Text) (fs' : FS Bytes) (names' : List Text) : Prop :=
  List.Forall₂ (fun n n' => ∃ c c', fs.get? (splitPath n) = some c ∧ fs'.get? (splitPath n') = some c' ∧ readDataFile F c = readDataFile F c') names names'

end Strata.Driver

namespace Strata.InterfaceText
open Strata Strata.Files

/-- The files with these names, in these file systems, are there and are read as the same interfaces, one by one (or refused alike). -/
def SameInterfaces (text : γ → Text) (fs : FS γ) (names : List Text) (fs' : FS γ) (names' : List Text) : Prop :=
  List.Forall₂ (fun n n' => ∃ c c', fs.get? (splitPath n) = some c ∧ fs'.get? (splitPath n') = some c' ∧ readPoints (text c) = readPoints (text c')) names names'

end Strata.InterfaceText
