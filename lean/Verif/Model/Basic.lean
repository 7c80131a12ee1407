/-!
# Shared vocabulary of the model

Exceptions of the Python code are values of `Err`.
-/
namespace Strata

/-- The Python exceptions the modelled functions can end with.  `infiniteLoop`
stands for a loop that never terminates. -/
inductive Err where
  | valueError | keyError | typeError | indexError | zeroDivisionError
  | unboundLocalError | nameError | stopIteration | assertionError
  | attributeError | systemExit | osError | infiniteLoop
  deriving DecidableEq, Repr

deriving instance DecidableEq for Except

/-- Text (Python `str`) as a list of characters. -/
abbrev Text := List Char

end Strata
