import Verif.Model.Flow
/-!
# The project's own tests of `droplets/flow.py` and `droplets/data_utils.py`, run on the model

Sources: /repo/droplets/tests/test_flowdata_setup.py, test_flowdata_setinfo.py, test_flowdata_methods.py, test_sort_bins.py,
test_get_indices.py.  Random columns are replaced by the row number.  Left out: tests of dtypes and of labels or limits
that are not of the expected Python type.
-/
namespace Strata.Conformance.Flow
open Strata Strata.Flow

/-- `np.arange(n)`. -/
def arange (n : ℕ) : List ℚ := (List.range n).map fun t : ℕ => (t : ℚ)

/-- The columns of `np.meshgrid(np.arange(nx), np.arange(ny))`. -/
def meshX (nx ny : ℕ) : List ℚ := (List.range (nx * ny)).map fun t : ℕ => ((t % nx : ℕ) : ℚ)
/-- The second one. -/
def meshY (nx ny : ℕ) : List ℚ := (List.range (nx * ny)).map fun t : ℕ => ((t / nx : ℕ) : ℚ)

/-- `test_set_input_args`, `test_set_as_list`, `test_set_empty` (test_flowdata_setup.py:27-55). -/
example : setData [.dict [("X", arange 8)], .dict [("Y", arange 8)], .dict [("U", arange 8)]] =
      .ok [("X", arange 8), ("Y", arange 8), ("U", arange 8)] ∧
    setData [.tuple "X" (arange 8), .tuple "Y" (arange 8), .tuple "U" (arange 8)] =
      .ok [("X", arange 8), ("Y", arange 8), ("U", arange 8)] ∧
    setData [.dict [("f0", arange 5)]] = .ok [("f0", arange 5)] ∧ setData [.dict [("X", [])]] = .ok [("X", [])] := by
  refine ⟨?_, ?_, ?_, ?_⟩ <;> decide +kernel

/-- `test_set_data_badformats`, `test_oddlists_error` (test_flowdata_setup.py:58-69). -/
example : setData [.other] = .error .typeError ∧
    setData [.dict [("X", arange 5), ("Y", arange 10)]] = .error .valueError := by
  refine ⟨?_, ?_⟩ <;> decide +kernel

/-- The information of the tests (test_flowdata_setinfo.py:6-15). -/
def goodInfo : InfoDict :=
  [("spacing", .tuple [some 1, some 1]), ("origin", .tuple [some 0, some 0]), ("shape", .tuple [some 9, some 9]), ("num_bins", .num 81)]

/-- `test_set_info` (test_flowdata_setinfo.py:18-26). -/
example : setInfo goodInfo = .ok ⟨some (9, 9), some (0, 0), some (1, 1), some 81⟩ := by decide +kernel

/-- `test_set_info_None_None`, `test_no_info` (test_flowdata_setinfo.py:29-42, 54-60). -/
example : setInfo [("spacing", .tuple [none, none]), ("origin", .tuple [none, none]), ("shape", .tuple [none, none]), ("num_bins", .none)] =
      .ok ⟨none, none, none, none⟩ ∧ setInfo [] = .ok ⟨none, none, none, none⟩ := by decide +kernel

/-- `test_bad_shapes` (test_flowdata_setinfo.py:63-86). -/
example : (∀ key ∈ ["shape", "origin", "spacing"], ∀ value ∈ [InfoVal.num 1, .tuple [some 1]],
      setInfo ((key, value) :: goodInfo) = .error .valueError) ∧
    setInfo (("num_bins", .tuple [some 1]) :: goodInfo) = .error .valueError := by decide +kernel

/-- `test_bad_info_labels` (test_flowdata_setinfo.py:106-111). -/
example : setInfo [("bad_label", .none)] = .error .keyError := by decide +kernel

/-- The flow map of the tests of limits (test_flowdata_methods.py:7-30). -/
def mesh : Flow := ⟨[("X", meshX 8 6), ("Y", meshY 8 6), ("C", arange 48)], ⟨some (8, 6), some (0, 0), some (1, 1), some 48⟩⟩

/-- `test_flowdata_set_lims` (test_flowdata_methods.py:7-41). -/
example : (lims mesh "X" (some 2) (some 5)).map (·.info) = .ok ⟨none, none, some (1, 1), some 24⟩ ∧
    (lims mesh "X" (some 2) (some 5)).map (fun f => col? f.data "C") =
      .ok (some ((arange 48).filter fun t : ℚ => decide (2 ≤ t - 8 * ⌊t / 8⌋ ∧ t - 8 * ⌊t / 8⌋ ≤ 5))) := by
  refine ⟨?_, ?_⟩ <;> decide +kernel

/-- `test_flowdata_set_lims_none`, `test_flowdata_set_lims_badlabel` (test_flowdata_methods.py:44-70). -/
example : (lims mesh "X" none none).map (·.data) = .ok mesh.data ∧ lims mesh "none" none none = .error .keyError := by
  refine ⟨?_, ?_⟩ <;> decide +kernel

/-- `test_flowdata_cut_system` (test_flowdata_methods.py:87-121). -/
example : (cut mesh (some 2, some 5) (some 1, some 3)).map (·.info) = .ok ⟨some (4, 3), some (2, 1), some (1, 1), some 12⟩ ∧
    (cut mesh (some 2, some 5) (some 1, some 3)).map (fun f => col? f.data "C") =
      .ok (some [10, 11, 12, 13, 18, 19, 20, 21, 26, 27, 28, 29]) := by
  refine ⟨?_, ?_⟩ <;> decide +kernel

/-- `test_flowdata_copy` (test_flowdata_methods.py:124-141); that the arrays are different objects is C10. -/
example : copy ⟨[("x", arange 8)], ⟨some (8, 1), some (0, 0), some (1, 1), some 8⟩⟩ =
    .ok ⟨[("x", arange 8)], ⟨some (8, 1), some (0, 0), some (1, 1), some 8⟩⟩ := by decide +kernel

/-- `test_flowdata_translate_*` (test_flowdata_methods.py:144-170). -/
example : (translate ⟨[("x", arange 10)], {}⟩ "x" (.scalar 1)).map (·.data) = .ok [("x", (arange 10).map (· + 1))] ∧
    translate ⟨[("x", arange 10)], {}⟩ "nolabel" (.scalar 1) = .error .keyError ∧
    translate ⟨[("x", arange 10)], {}⟩ "x" (.array [1, 2]) = .error .valueError := by
  refine ⟨?_, ?_, ?_⟩ <;> decide +kernel

/-- `test_flowdata_size` (test_flowdata_methods.py:172-191). -/
example : boxSize ⟨[("x", arange 10)], { shape := some (3, 5), spacing := some (1 / 10, 1 / 5) }⟩ = some (3 * (1 / 10), 5 * (1 / 5)) ∧
    boxSize ⟨[("x", arange 10)], { shape := some (3, 5) }⟩ = none ∧
    boxSize ⟨[("x", arange 10)], { spacing := some (1 / 10, 1 / 5) }⟩ = none ∧ boxSize ⟨[("x", arange 10)], {}⟩ = none := by decide +kernel

/-! ## test_sort_bins.py -/

/-- `test_bins_are_by_default_sorted_y_minor_x_major`, `test_other_fields_do_not_influence_sorting` (test_sort_bins.py:9-30). -/
example : (sort ⟨[("X", [0, 1, 2, 3]), ("Y", [1, 0, 0, 1]), ("V", [5, 6, 7, 8])], {}⟩).map (·.data) =
    .ok [("X", [1, 2, 0, 3]), ("Y", [0, 0, 1, 1]), ("V", [6, 7, 5, 8])] := by decide +kernel

/-- `test_other_coordinate_labels_can_be_used` (test_sort_bins.py:33-42). -/
example : (sort ⟨[("X0", [0, 1, 2, 3]), ("X1", [1, 0, 0, 1])], {}⟩ ("X0", "X1")).map (·.data) =
    .ok [("X0", [1, 2, 0, 3]), ("X1", [0, 0, 1, 1])] := by decide +kernel

/-! ## test_get_indices.py -/

/-- The data of `test_get_indices_lims` (test_get_indices.py:6-11); V to two decimals, as in the comment there. -/
def indicesData : Record :=
  [("X", arange 8), ("Y", (arange 8).map (2 * ·)), ("U", (arange 8).map fun x : ℚ => 1 / (x + 1)),
   ("V", [-2, -9 / 10, -4 / 10, -5 / 100, 19 / 100, 39 / 100, 56 / 100, 70 / 100])]

/-- `test_get_indices_lims` (test_get_indices.py:5-28); an infinite limit is none. -/
example : getLimIndices indicesData [("X", some 2, some 5)] = .ok [2, 3, 4, 5] ∧
    getLimIndices indicesData [("X", some 2, none), ("Y", some 7, none)] = .ok [4, 5, 6, 7] ∧
    getLimIndices indicesData [("X", none, none), ("U", none, some (4 / 10))] = .ok [2, 3, 4, 5, 6, 7] ∧
    getLimIndices indicesData [("X", some (-3), some 4), ("Y", none, none), ("U", none, some (8 / 10)), ("V", some (-1), some 0)] =
      .ok [1, 2, 3] := by
  refine ⟨?_, ?_, ?_, ?_⟩ <;> decide +kernel

/-- `test_get_indices_other_formats` (test_get_indices.py:30-47). -/
example : getLimIndices [("X", arange 8)] [("X", some 4, some 2)] = .ok [] ∧
    getLimIndices [("X", arange 8)] [("X", some 2, some 4)] = .ok [2, 3, 4] ∧
    getLimIndices [("X", arange 8)] [] = .ok [0, 1, 2, 3, 4, 5, 6, 7] := by
  refine ⟨?_, ?_, ?_⟩ <;> decide +kernel

end Strata.Conformance.Flow
