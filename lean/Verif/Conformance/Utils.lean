import Verif.Model.Files
import Verif.Model.Groups
import Verif.Model.Headers
import Verif.Conformance.Flow
/-!
# The project's own tests of `strata/utils.py` and of recentring, run on the model

Sources: /repo/strata/tests/test_utils.py, test_average.py.  A temporary directory is a list of names.  Left out:
`test_prepare_path_moreargs` (the decorator passes arguments on, which is not modelled) and the tests that average files of random
numbers (`test_average_datamaps`; the same calls are proved for all files in `Verif.Props.AverageFiles`).
-/
namespace Strata.Conformance.Utils
open Strata Strata.Files

/-- A string as text. -/
abbrev t (s : String) : Text := s.toList

/-- `'%s%05d%s' % (base, i, ext)` for the given numbers, as text of the test: numbers below 100. -/
def named (base ext : String) (is : List ℕ) : List Text :=
  is.map fun i : ℕ => t base ++ t "000" ++ [Nat.digitChar (i / 10), Nat.digitChar (i % 10)] ++ t ext

/-- `test_gen_filenames` (test_utils.py:19-27). -/
example : genFilenames (t "data_") (t ".dat") (some 5) 4 100 = named "data_" ".dat" [4, 5] ∧
    genFilenames (t "data_") (t ".tmp") (some 2) 1 100 = named "data_" ".tmp" [1, 2] ∧
    genFilenames (t "data_") (t ".tmp") (some 5) 3 100 = named "data_" ".tmp" [3, 4, 5] ∧
    genFilenames (t "data_") (t ".tmp") (some 3) 5 100 = [] := by
  refine ⟨?_, ?_, ?_, ?_⟩ <;> decide +kernel

/-- `test_gen_filenames_inf` (test_utils.py:29-32). -/
example : (genFilenames (t "data_") (t ".dat") none 1 6).getLast? = some (t "data_00006.dat") := by decide +kernel

/-- `test_find_datamaps`, `test_find_datamaps_otherext`, `test_find_datamaps_othernums` (test_utils.py:72-81). -/
example : yieldSingles (named "data_" ".dat" (List.range' 1 10)) (t "data_") (t ".dat") 1 none = named "data_" ".dat" (List.range' 1 10) ∧
    yieldSingles (named "data_" ".tmp" (List.range' 1 10)) (t "data_") (t ".tmp") 1 none = named "data_" ".tmp" (List.range' 1 10) ∧
    yieldSingles (named "data_" ".dat" [23, 24, 25]) (t "data_") (t ".dat") 23 (some 25) = named "data_" ".dat" [23, 24, 25] ∧
    yieldSingles (named "data_" ".dat" (List.range 10)) (t "data_") (t ".dat") 0 (some 9) = named "data_" ".dat" (List.range 10) ∧
    yieldSingles [] (t "data_") (t ".dat") 5 (some 1) = [] := by
  refine ⟨?_, ?_, ?_, ?_, ?_⟩ <;> decide +kernel

/-- The numbers `1 … k * g` in groups of `g`. -/
def grouped (k g : ℕ) : List (List Text) := (List.range k).map fun j : ℕ => named "data_" ".dat" (List.range' (j * g + 1) g)

/-- `test_find_datamaps_group` (test_utils.py:83-88): complete groups only. -/
example : yieldGroups (named "data_" ".dat" (List.range' 1 20)) (t "data_") (t ".dat") 5 false 1 (some 20) = grouped 4 5 ∧
    yieldGroups (named "data_" ".dat" (List.range' 1 5)) (t "data_") (t ".dat") 1 false 1 none = grouped 5 1 ∧
    yieldGroups (named "data_" ".dat" (List.range' 1 20)) (t "data_") (t ".dat") 5 false 1 none = grouped 4 5 ∧
    yieldGroups (named "data_" ".dat" (List.range' 1 23)) (t "data_") (t ".dat") 5 false 1 none = grouped 4 5 ∧
    yieldGroups [] (t "data_") (t ".dat") 5 false 5 (some 1) = [] := by
  refine ⟨?_, ?_, ?_, ?_, ?_⟩ <;> decide +kernel

/-- `test_find_datamaps_raises_warning_if_no_files_are_found` (test_utils.py:90-93). -/
example : singlesWarn [] (t "does_not_exist") (t ".dat") 1 none = true := by decide +kernel

/-- Ten files. -/
def ten : Dir := named "data_" ".dat" (List.range' 1 10)

/-- `test_groups_to_singles_filenames` (test_utils.py:95-135), `test_groups_to_singles_otherext` (:167-182). -/
example : findGroupsToSingles ten (t "data_") (t "out_") (t ".dat") none 5 false 1 none = (grouped 2 5).zip (named "out_" ".dat" [1, 2]) ∧
    findGroupsToSingles ten (t "data_") (t "out_") (t ".dat") none 5 false 3 (some 5) = [] ∧
    findGroupsToSingles ten (t "data_") (t "out_") (t ".dat") none 5 false 5 (some 3) = [] ∧
    (∀ b : ℕ, b < 7 → 4 ≤ b →
      (findGroupsToSingles ten (t "data_") (t "out_") (t ".dat") none 3 false b (some ((b : ℤ) + 3 - 1))).map (·.2) = named "out_" ".dat" [2]) ∧
    (findGroupsToSingles ten (t "data_") (t "out_") (t ".dat") (some (t ".xvg")) 5 false 1 none).map (·.2) = named "out_" ".xvg" [1, 2] := by
  refine ⟨?_, ?_, ?_, ?_, ?_⟩ <;> decide +kernel

/-- `test_groups_to_singles_rolling` (test_utils.py:137-165). -/
example : findGroupsToSingles (named "input_" ".dat" (List.range' 1 8)) (t "input_") (t "out_") (t ".dat") none 4 true 3 none =
    [(named "input_" ".dat" [3, 4, 5, 6], t "out_00003.dat"), (named "input_" ".dat" [4, 5, 6, 7], t "out_00004.dat"),
      (named "input_" ".dat" [5, 6, 7, 8], t "out_00005.dat")] := by decide +kernel

/-- `test_find_singles_to_singles`, `test_find_singles_to_singles_fopts` (test_utils.py:184-219). -/
example : findSinglesToSingles ten (t "data_") (t "out_") (t ".dat") none 1 none = ten.zip (named "out_" ".dat" (List.range' 1 10)) ∧
    findSinglesToSingles (named "data_" ".tmp" [4, 5, 6]) (t "data_") (t "out_") (t ".tmp") none 4 (some 6) =
      (named "data_" ".tmp" [4, 5, 6]).zip (named "out_" ".tmp" [4, 5, 6]) := by
  refine ⟨?_, ?_⟩ <;> decide +kernel

/-- `test_catch_fileattr` (test_utils.py:221-228). -/
example : Headers.popFileopts [("begin", t "2"), ("end", t "4"), ("ext", t "'.tmp'"), ("extra", t "[1, 2, 3]")] =
    ([("begin", t "2"), ("end", t "4"), ("ext", t "'.tmp'"), ("outext", t "'.tmp'")], [("extra", t "[1, 2, 3]")]) := by decide +kernel

/-- `test_prepare_path_decorator` (test_utils.py:230-264): nothing to do for a new file, then two backups. -/
example : preparePath ([] : FS ℕ) (splitPath (t "dirone/dirtwo/tmpfile")) = .ok [] ∧
    (preparePath (FS.put ([] : FS ℕ) (splitPath (t "tmpfile")) 1) (splitPath (t "tmpfile"))).bind
        (fun fs => preparePath (fs.put (splitPath (t "tmpfile")) 2) (splitPath (t "tmpfile"))) =
      Except.ok [(splitPath (t "#tmpfile.2#"), 2), (splitPath (t "#tmpfile.1#"), 1)] := by
  refine ⟨?_, ?_⟩ <;> decide +kernel

/-! ## `test_average.py` -/

open Strata.Flow Strata.Conformance.Flow

/-- `get_datamap(6)` (test_average.py:88-94). -/
def diagonal : Record := [("X", arange 6), ("Y", arange 6)]

/-- `test_recenter_maps` (test_average.py:97-123). -/
example : (Driver.recenterMaps [diagonal, diagonal] [some 1, some 2]).map (fun r => r.1.map fun d => (col? d "X", col? d "Y")) =
      .ok [(some [-1, 0, 1, 2, 3], some [0, 1, 2, 3, 4]), (some [-1, 0, 1, 2, 3], some [1, 2, 3, 4, 5])] ∧
    (Driver.recenterMaps [diagonal, diagonal] [some 1, some 2]).map (fun r => r.2.spacing) = .ok (some 1, some 1) := by
  refine ⟨?_, ?_⟩ <;> decide +kernel

/-- `test_recenter_non_broadcast`, `test_recenter_bad_xvals` (test_average.py:127-139). -/
example : (Driver.recenterMaps [diagonal, diagonal] [some 1]).map (·.1) = .error .indexError ∧
    (Driver.recenterMaps [diagonal] [none]).map (·.1) = .error .typeError := by
  refine ⟨?_, ?_⟩ <;> decide +kernel

end Strata.Conformance.Utils
