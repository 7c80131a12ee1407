import Verif.Model.Headers
/-!
# Specification: what the header of a file says

A header line `#   name: value` records `value` under `name`.  A reader looks for the first line with the name.
-/
namespace Strata.Spec
open Strata

/-- What follows a prefix of a line, if the line has the prefix. -/
def after? : Text → Text → Option Text
  | [], l => some l
  | _ :: _, [] => none
  | p :: ps, c :: cs => if p = c then after? ps cs else none

/-- The value recorded under `name`: that of the first line `#   name: value`. -/
def recorded (header : List Text) (name : String) : Option Text := header.findSome? (after? ("#   ".toList ++ name.toList ++ ": ".toList))

/-- The option given by keyword, or a default value. -/
def given (kwargs : List (String × Text)) (name default : String) : Text := (kwargs.lookup name).getD default.toList

/-- The files listed as input files: the lines between `# Input files:` and the next empty comment. -/
def inputFiles (header : List Text) : List Text :=
  (((header.dropWhile (· ≠ "# Input files:".toList)).drop 1).takeWhile (· ≠ "# ".toList))

end Strata.Spec
