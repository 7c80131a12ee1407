import Verif.Conformance.Flow
import Verif.Model.Sample
import Verif.Model.View
import Verif.Model.SampleSeries
/-!
# The project's own tests of sampling, gradients and slip lengths, run on the model

Sources: /repo/droplets/tests/test_sample_viscous_dissipation.py, test_sample_center_of_mass.py, test_sample_inertial_energy.py,
/repo/strata/tests/test_gradient.py, test_sample_slip_length.py.  Random columns are replaced by
fixed ones.  `test_slip_length_other_labels` is left out: the labels are fixed in the model.
-/
namespace Strata.Conformance.Sample
open Strata Strata.Flow Strata.Sample Strata.Conformance.Flow

/-- A column instead of a random one. -/
def us : List ℚ := [3, 1, 4, 1, 5, 9, 2, 6, 5]
/-- A second one. -/
def vs : List ℚ := [2, 7, 1, 8, 2, 8, 1, 8, 2]
/-- Weights. -/
def ws : List ℚ := [1, 2, 3, 1, 2, 1, 4, 5, 2]

/-- The 3x3 grid of the tests, `y = 0.5 * x` (test_sample_viscous_dissipation.py:10-24). -/
def grid (h : ℚ) (cx cy cu cv : Label) : Flow :=
  ⟨[(cx, meshX 3 3), (cy, (meshY 3 3).map (h * ·)), (cu, us), (cv, vs), ("W", ws)], ⟨some (3, 3), none, some (1, h), none⟩⟩

/-- `np.gradient(c, h, edge_order=2)[2]` of three values (test_sample_viscous_dissipation.py:31). -/
def last3 (h a b c : ℚ) : ℚ := (a - 4 * b + 3 * c) / (2 * h)

/-- The formula of the tests (test_sample_viscous_dissipation.py:35-36). -/
def expected (μ dudx dudy dvdx dvdy : ℚ) : ℚ := 2 * μ * (dudx ^ 2 + dvdy ^ 2 - (dudx + dvdy) ^ 2 / 3) + μ * (dvdx + dudy) ^ 2

/-- `test_calc_viscous_dissipation` (test_sample_viscous_dissipation.py:8-38): `result[2, 1]` is the seventh value. -/
example : (viscousDissipation (grid (1 / 2) "X" "Y" "U" "V") 2).map (fun r => r.2.getD 7 none) =
    .ok (some (expected 2 ((5 - 2) / 2) (last3 (1 / 2) 1 5 6) ((2 - 1) / 2) (last3 (1 / 2) 7 2 8))) := by decide +kernel

/-- `test_calc_viscous_dissipation_with_weights` (test_sample_viscous_dissipation.py:68-101). -/
example : (viscousDissipation (grid (1 / 2) "X" "Y" "U" "V") 2 (weight := some "W")).map (fun r => r.2.getD 7 none) =
    .ok (some (expected 2 ((5 * 2 - 2 * 4) / 2 / 5) (last3 (1 / 2) (1 * 2) (5 * 2) (6 * 5) / 5) ((2 * 2 - 1 * 4) / 2 / 5)
      (last3 (1 / 2) (7 * 2) (2 * 2) (8 * 5) / 5))) := by decide +kernel

/-- `test_calc_viscous_dissipation_other_labels`, for all cells (test_sample_viscous_dissipation.py:104-127): the values by
`np.gradient` in units of one bin. -/
def expectedAll : List (Option ℚ) :=
  let d (a b c : ℚ) (i : ℕ) : ℚ := if i = 0 then (-3 * a + 4 * b - c) / 2 else if i = 1 then (c - a) / 2 else (a - 4 * b + 3 * c) / 2
  (List.range 9).map fun t : ℕ =>
    let c (l : List ℚ) (j i : ℕ) : ℚ := l.getD (3 * j + i) 0
    let ddx (l : List ℚ) := d (c l (t / 3) 0) (c l (t / 3) 1) (c l (t / 3) 2) (t % 3)
    let ddy (l : List ℚ) := d (c l 0 (t % 3)) (c l 1 (t % 3)) (c l 2 (t % 3)) (t / 3)
    some (expected 2 (ddx us) (ddy us) (ddx vs) (ddy vs))

example : (viscousDissipation (grid 1 "c0" "c1" "f0" "f1") 2 ("c0", "c1") ("f0", "f1")).map (·.2) = .ok expectedAll := by decide +kernel

/-- The grid sorted by X first. -/
def unsorted : Flow := { grid 1 "X" "Y" "U" "V" with data := gather [0, 3, 6, 1, 4, 7, 2, 5, 8] (grid 1 "X" "Y" "U" "V").data }

/-- `test_calc_viscous_dissipation_unsorted_bins` (test_sample_viscous_dissipation.py:130-157) and
`test_calc_viscous_dissipation_orders_the_flow_data` (:41-65). -/
example : unsorted.data ≠ (grid 1 "X" "Y" "U" "V").data ∧ (viscousDissipation unsorted 2).map (·.2) = .ok expectedAll ∧
    (viscousDissipation unsorted 2).map (·.1.data) = .ok (grid 1 "X" "Y" "U" "V").data := by
  refine ⟨?_, ?_, ?_⟩ <;> decide +kernel

/-- `test_calc_viscous_dissipation_raises_if_shape_or_spacing_is_not_set` (test_sample_viscous_dissipation.py:160-180). -/
example : (viscousDissipation { grid 1 "X" "Y" "U" "V" with info := ⟨none, none, some (1, 1), none⟩ } 2).map (·.2) = .error .valueError ∧
    (viscousDissipation { grid 1 "X" "Y" "U" "V" with info := ⟨some (3, 3), none, none, none⟩ } 2).map (·.2) = .error .valueError := by
  refine ⟨?_, ?_⟩ <;> decide +kernel

/-- `test_calc_center_of_mass` (test_sample_center_of_mass.py:8-32). -/
example : centerOfMass ⟨[("X", meshX 3 3), ("Y", (meshY 3 3).map (1 / 2 * ·)), ("M", [0, 1, 0, 0, 0, 2, 1, 0, 0])], ⟨none, none, none, none⟩⟩ =
      .ok [5 / 4, 1 / 2] ∧
    centerOfMass ⟨[("c0", meshX 3 3), ("c1", (meshY 3 3).map (1 / 2 * ·)), ("f0", [0, 1, 0, 0, 0, 2, 1, 0, 0])], ⟨none, none, none, none⟩⟩ "f0" ["c0", "c1"] =
      .ok [5 / 4, 1 / 2] := by
  refine ⟨?_, ?_⟩ <;> decide +kernel

/-- `test_calc_center_of_mass_divide_by_zero` (test_sample_center_of_mass.py:35-44). -/
example : centerOfMass ⟨[("X", meshX 3 3), ("Y", (meshY 3 3).map (1 / 2 * ·)), ("M", List.replicate 9 0)], ⟨none, none, none, none⟩⟩ =
    .error .zeroDivisionError := by decide +kernel

/-- `test_calc_inertial_energy`, `test_calc_inertial_energy_other_labels` (test_sample_inertial_energy.py:7-36). -/
example : inertialEnergy ⟨[("X", meshX 3 3), ("Y", meshY 3 3), ("U", us), ("V", vs), ("M", ws)], ⟨none, none, none, none⟩⟩ =
      .ok ((List.range 9).map fun t : ℕ => 1 / 2 * ws.getD t 0 * (us.getD t 0 ^ 2 + vs.getD t 0 ^ 2)) ∧
    inertialEnergy ⟨[("c0", meshX 3 3), ("c1", meshY 3 3), ("f0", us), ("f1", vs), ("v0", ws)], ⟨none, none, none, none⟩⟩ "v0" ("f0", "f1") =
      .ok ((List.range 9).map fun t : ℕ => 1 / 2 * ws.getD t 0 * (us.getD t 0 ^ 2 + vs.getD t 0 ^ 2)) := by
  refine ⟨?_, ?_⟩ <;> decide +kernel

/-! ## `test_gradient.py` -/

/-- A map on a grid with the given mass and constant flow. -/
def flowOn (nx ny : ℕ) (dx dy : ℚ) (ms : List ℚ) (u v : ℚ) : Flow :=
  ⟨[("X", (meshX nx ny).map (dx * ·)), ("Y", (meshY nx ny).map (dy * ·)), ("M", ms), ("U", List.replicate (nx * ny) u), ("V", List.replicate (nx * ny) v)],
    ⟨some (nx, ny), none, some (dx, dy), none⟩⟩

/-- `test_gradient_which_is_one_everywhere` (test_gradient.py:9-23). -/
example : (View.evaporation (flowOn 2 2 1 1 [0, 1, 1, 2] 1 1)).map (·.2) = .ok [some 2, some 2, some 2, some 2] := by decide +kernel

/-- `test_calculate_gradient_with_non_unity_bin_spacing` (test_gradient.py:26-40). -/
example : (View.evaporation (flowOn 2 2 (1 / 2) (1 / 4) [0, 1, 1, 2] 1 1)).map (·.2) = .ok [some 6, some 6, some 6, some 6] := by decide +kernel

/-- `test_calculate_gradient_which_changes_along_x` (test_gradient.py:43-57). -/
example : (View.evaporation (flowOn 3 2 1 1 [0, 1, 2, 0, 1, 2] 1 2)).map (·.2) = .ok (List.replicate 6 (some 1)) := by decide +kernel

/-- `test_calculate_gradient_which_changes_along_y` (test_gradient.py:60-74). -/
example : (View.evaporation (flowOn 2 3 1 1 [0, 0, 1, 1, 2, 2] 1 2)).map (·.2) = .ok (List.replicate 6 (some 2)) := by decide +kernel

/-- The two tests of the top right corner (test_gradient.py:77-108). -/
example : (View.evaporation (flowOn 3 2 1 1 [0, 0, 0, 0, 0, 1] 1 0)).map (·.2) = .ok [some 0, some 0, some 0, some 0, some (1 / 2), some 1] ∧
    (View.evaporation (flowOn 3 2 1 1 [0, 0, 0, 0, 0, 1] 0 2)).map (·.2) = .ok [some 0, some 0, some 2, some 0, some 0, some 2] := by
  refine ⟨?_, ?_⟩ <;> decide +kernel

/-! ## `test_sample_slip_length.py` -/

/-- A map of `nx` columns of `ny` bins. -/
def columns (nx ny : ℕ) (ys us : List ℚ) : Flow := ⟨[("Y", ys), ("U", us)], ⟨some (nx, ny), none, none, none⟩⟩

/-- `test_slip_length_calculation` (test_sample_slip_length.py:6-18). -/
example : SampleSeries.slipLengths 0 (columns 1 10 (Flow.arange 10) ((Flow.arange 10).map (· * (1 / 2) + 1))) = .ok [2] := by decide +kernel

/-- `test_slip_length_is_column_average`, `test_slip_length_std_calculation` (test_sample_slip_length.py:20-60): the lengths, their
mean and their variance. -/
example : SampleSeries.slipLengths 0 (columns 2 2 [0, 1, 0, 1] [1, 2, 2, 3]) = .ok [1, 2] ∧
    SampleSeries.mean [some 1, some 2] = some (3 / 2) ∧
    SampleSeries.slipLengths 0 (columns 3 3 [0, 1, 2, 0, 1, 2, 0, 1, 2] [1, 2, 3, 2, 3, 4, 3, 4, 5]) = .ok [1, 2, 3] ∧
    SampleSeries.var [some 1, some 2, some 3] = some (2 / 3) := by
  refine ⟨?_, ?_, ?_, ?_⟩ <;> decide +kernel

/-- `test_slip_length_with_input_floor` (test_sample_slip_length.py:62-81). -/
example : ∀ k : ℕ, k < 3 → SampleSeries.slipLengths (k : ℚ) (columns 1 5 (Flow.arange 5) ((Flow.arange 5).map (· + 1))) = .ok [1 + (k : ℚ)] := by
  decide +kernel

end Strata.Conformance.Sample
