import Verif.Model.Resample
import Verif.Conformance.Flow
/-!
# The project's own tests of `droplets/average.py` and `droplets/resample.py`, run on the model

Sources: /repo/droplets/tests/test_average_flowdata.py, test_downsample.py, test_supersample.py.  Random columns are
replaced by fixed ones.
-/
namespace Strata.Conformance.Average
open Strata Strata.Flow Strata.Average Strata.Resample Strata.Conformance.Flow

/-! ## test_average_flowdata.py -/

/-- `test_create_combined_grid_yields_error_if_no_input_grid_is_given` (test_average_flowdata.py:29-31). -/
example : getCombinedGrid [] (1 / 10, 1 / 10) = .error .valueError := by decide +kernel

/-- `test_create_combined_grid_from_given_regular_grids` (test_average_flowdata.py:33-59). -/
example : getCombinedGrid [[("X", meshX 2 2), ("Y", meshY 2 2)], [("X", (meshX 2 2).map (· + 2)), ("Y", (meshY 2 2).map (· + 2))]] (1, 1) =
    .ok ⟨4, 4, [("X", meshX 4 4), ("Y", meshY 4 4)]⟩ := by decide +kernel

/-- `test_common_grid_is_created_from_min_and_max_values_and_spacing` (test_average_flowdata.py:61-88): -5, -4.75, …, 10 and
-10, -9.5, …, 5. -/
example : getCombinedGrid [[("X", [0, 10]), ("Y", [-10, 0])], [("X", [-5, 5]), ("Y", [-5, 5])]] (1 / 4, 1 / 2) =
    .ok ⟨61, 31, [("X", (meshX 61 31).map fun i : ℚ => -5 + 1 / 4 * i), ("Y", (meshY 61 31).map fun i : ℚ => -10 + 1 / 2 * i)]⟩ := by
  decide +kernel

/-- `test_combined_grid_is_returned_with_shape_which_is_y_major_x_minor` (test_average_flowdata.py:90-98). -/
example : (getCombinedGrid [[("X", [0, 1, 0, 1, 0, 1]), ("Y", [0, 0, 1, 1, 2, 2])]] (1, 1)).map (fun g => (g.ny, g.nx)) = .ok (3, 2) := by
  decide +kernel

/-- `test_combined_grid_is_created_with_same_dtype_as_input` (test_average_flowdata.py:100-111). -/
example : (getCombinedGrid [[("X", [0, 1, 0, 1]), ("Y", [0, 0, 1, 1]), ("C", [7, 7, 7, 7])]] (1, 1)).map (·.data) =
    .ok [("X", [0, 1, 0, 1]), ("Y", [0, 0, 1, 1]), ("C", [0, 0, 0, 0])] := by decide +kernel

/-- `test_transfer_data_from_center_bins_to_super_set_grid` (test_average_flowdata.py:113-132): 3 rows of 2 bins starting at x = 3, y = 2. -/
example : transferData ⟨6, 6, [("X", meshX 6 6), ("Y", meshY 6 6), ("C", List.replicate 36 0)]⟩
      [("X", [3, 4, 3, 4, 3, 4]), ("Y", [2, 2, 3, 3, 4, 4]), ("C", [1, 2, 3, 4, 5, 6])] (some (2, 3)) (1, 1) =
    .ok [("X", meshX 6 6), ("Y", meshY 6 6), ("C", [0, 0, 0, 0, 0, 0, 0, 0, 0, 0, 0, 0,
      0, 0, 0, 1, 2, 0, 0, 0, 0, 3, 4, 0, 0, 0, 0, 5, 6, 0, 0, 0, 0, 0, 0, 0])] := by decide +kernel

/-- Map `i` of `test_average_flow_maps`; the random fields are replaced. -/
def averaged (i : ℕ) : Flow :=
  ⟨[("X", meshX 5 5), ("Y", meshY 5 5), ("f0", (arange 25).map fun t : ℚ => 1 + t + i * t), ("f1", (arange 25).map fun t : ℚ => t - 3 * i)],
    { spacing := some (1, 1), shape := some (5, 5) }⟩

/-- `test_average_flow_maps` (test_average_flowdata.py:134-157). -/
example : ((averageFlowData 1 ((List.range 5).map averaged) [("f1", "f0")]).map (·.data)) =
    .ok [("X", meshX 5 5), ("Y", meshY 5 5),
      ("f0", (arange 25).map fun t : ℚ => ((List.range 5).map fun i : ℕ => 1 + t + i * t).sum / 5),
      ("f1", (arange 25).map fun t : ℚ => ((List.range 5).map fun i : ℕ => (t - 3 * i) * (1 + t + i * t)).sum /
        ((List.range 5).map fun i : ℕ => 1 + t + i * t).sum)] := by decide +kernel

/-- `test_average_flow_maps_yields_error_if_shape_of_given_flow_maps_not_set` (test_average_flowdata.py:159-169). -/
example : averageFlowData 1 [⟨[("X", meshX 5 5), ("Y", meshY 5 5)], { spacing := some (1, 1) }⟩] = .error .typeError := by decide +kernel

/-! ## test_downsample.py -/

/-- `test_resample_to_one_bin` (test_downsample.py:9-34). -/
example : ((downsample ⟨[("X", (meshX 4 2).map fun i : ℚ => 1 + 2 * i), ("Y", meshY 4 2), ("C", [1, 2, 4, 8, 16, 32, 64, 128])],
      { spacing := some (2, 1), shape := some (4, 2) }⟩ (4, 2)).map fun f => (f.data, f.info.shape, f.info.spacing)) =
    .ok ([("X", [4]), ("Y", [1 / 2]), ("C", [255])], some (1, 1), some (8, 2)) := by decide +kernel

/-- `test_resample_to_multiple_bins` (test_downsample.py:37-60). -/
example : ((downsample ⟨[("X", meshX 6 4), ("Y", meshY 6 4), ("C", arange 24)],
      { spacing := some (1, 1), shape := some (6, 4) }⟩ (2, 2)).map fun f => col? f.data "C") =
    .ok (some [0 + 1 + 6 + 7, 2 + 3 + 8 + 9, 4 + 5 + 10 + 11, 12 + 13 + 18 + 19, 14 + 15 + 20 + 21, 16 + 17 + 22 + 23]) := by decide +kernel

/-- `test_resample_without_sorted_coords` (test_downsample.py:64-83): both sorted. -/
example : (downsample ⟨[("X", [1, 0, 1, 0]), ("Y", [1, 1, 0, 0]), ("C", [1, 2, 3, 4])], { spacing := some (1, 1), shape := some (2, 2) }⟩ (1, 1) >>=
      fun f => sortRecord f.data ["Y", "X"]) =
    sortRecord [("X", [1, 0, 1, 0]), ("Y", [1, 1, 0, 0]), ("C", [1, 2, 3, 4])] ["Y", "X"] := by decide +kernel

/-- `test_resample_with_weights`, `test_resample_with_weights_that_are_zero` (test_downsample.py:86-123). -/
example : ((downsample ⟨[("X", [0, 1]), ("Y", [0, 0]), ("C", [3, 5]), ("W", [1, 7])], { spacing := some (1, 1), shape := some (2, 1) }⟩ (2, 1)
      (weights := [("C", "W")])).map fun f => (col? f.data "C", col? f.data "W")) = .ok (some [(3 * 1 + 5 * 7) / (1 + 7)], some [8]) ∧
    ((downsample ⟨[("X", [0, 1]), ("Y", [0, 0]), ("C", [3, 5]), ("W", [0, 0])], { spacing := some (1, 1), shape := some (2, 1) }⟩ (2, 1)
      (weights := [("C", "W")])).map fun f => col? f.data "C") = .ok (some [0]) := by
  refine ⟨?_, ?_⟩ <;> decide +kernel

/-- `test_resample_other_coord_labels` (test_downsample.py:126-139). -/
example : ((downsample ⟨[("f0", [0, 1]), ("f1", [0, 0]), ("C", [3, 5])], { spacing := some (1, 1), shape := some (2, 1) }⟩ (2, 1)
      (coords := ("f0", "f1"))).map (·.data)) = .ok [("f0", [1 / 2]), ("f1", [0]), ("C", [8])] := by decide +kernel

/-- `test_resample_cutting_some_cells` (test_downsample.py:142-155). -/
example : ((downsample ⟨[("X", [0, 1, 2]), ("Y", [0, 0, 0]), ("C", [3, 5, 9])], { spacing := some (1, 1), shape := some (3, 1) }⟩ (2, 1)).map (·.data)) =
    .ok [("X", [1 / 2]), ("Y", [0]), ("C", [8])] := by decide +kernel

/-- `test_resample_add_xy_lims` (test_downsample.py:158-173). -/
example : ((downsample ⟨[("X", meshX 4 2), ("Y", meshY 4 2)], { spacing := some (1, 1), shape := some (4, 2) }⟩ (2, 1)
      (xlim := (some 1, some 2)) (ylim := (some (1 / 2), some (5 / 2)))).map (·.data)) = .ok [("X", [3 / 2]), ("Y", [1])] := by decide +kernel

/-! ## test_supersample.py -/

/-- The x positions of 2 columns divided in two, for `n` rows. -/
def fineX (n : ℕ) : List ℚ := (List.range n).flatMap fun _ => [0, 1 / 2, 1, 3 / 2]
/-- The y positions of `n` rows, from 0 in steps of a half. -/
def fineY (n : ℕ) : List ℚ := (List.range n).flatMap fun i : ℕ => List.replicate 4 ((i : ℚ) / 2)

/-- `test_supersample_to_same_factor_changes_nothing` (test_supersample.py:9-18). -/
example : ∀ factor ∈ [none, some 1], (supersample ⟨[("X", [0, 1, 0, 1]), ("Y", [0, 0, 1, 1]), ("C", [0, 1, 2, 3])], {}⟩ factor).map (·.data) =
    .ok [("X", [0, 1, 0, 1]), ("Y", [0, 0, 1, 1]), ("C", [0, 1, 2, 3])] := by decide +kernel

/-- `test_supersample_changes_spacing_and_shape` (test_supersample.py:20-58). -/
example : (supersample ⟨[("X", [0, 1, 0, 1, 0, 1]), ("Y", [0, 0, 1, 1, 2, 2])], { spacing := some (1, 1), shape := some (2, 3) }⟩ (some 2)).map
      (fun f => (f.data, f.info.spacing, f.info.shape)) = .ok ([("X", fineX 6), ("Y", fineY 6)], some (1 / 2, 1 / 2), some (4, 6)) := by
  decide +kernel

/-- `test_supersample_averages_non_coordinate_data` (test_supersample.py:60-86). -/
example : (supersample ⟨[("X", [0, 1, 0, 1, 0, 1]), ("Y", [0, 0, 1, 1, 2, 2]), ("C", [0, 1, 2, 3, 4, 5])],
      { spacing := some (1, 1), shape := some (2, 3) }⟩ (some 2)).map (fun f => col? f.data "C") =
    .ok (some [0 / 4, 2 / 6, 4 / 6, 4 / 4,
      4 / 6, 9 / 9, 12 / 9, 10 / 6,
      8 / 6, 15 / 9, 18 / 9, 14 / 6,
      16 / 6, 27 / 9, 30 / 9, 22 / 6,
      20 / 6, 33 / 9, 36 / 9, 26 / 6,
      16 / 4, 26 / 6, 28 / 6, 20 / 4]) := by decide +kernel

/-- `test_supersample_uses_input_coordinate_labels` (test_supersample.py:88-122). -/
example : (supersample ⟨[("X0", [0, 1, 0, 1]), ("X1", [0, 0, 1, 1]), ("C", [0, 1, 2, 3])], { spacing := some (1, 1), shape := some (2, 2) }⟩ (some 2)
      (coords := ("X0", "X1"))).map (fun f => (col? f.data "X0", col? f.data "X1")) = .ok (some (fineX 4), some (fineY 4)) := by decide +kernel

/-- `test_supersample_with_data_from_weight_labels`, `test_supersample_with_weights_does_not_affect_coordinate_labels`
(test_supersample.py:124-188). -/
example : (supersample ⟨[("X", [0, 1, 0, 1]), ("Y", [0, 0, 1, 1]), ("C", [1, 1, 1, 1]), ("W", [2, 0, 0, 0])],
      { spacing := some (1, 1), shape := some (2, 2) }⟩ (some 2) (weights := [("C", "W")])).map
      (fun f => (col? f.data "C", col? f.data "X", col? f.data "Y")) =
    .ok (some [1, 1, 1, 0, 1, 1, 1, 0, 1, 1, 1, 0, 0, 0, 0, 0], some (fineX 4), some (fineY 4)) := by decide +kernel

end Strata.Conformance.Average
