import Verif.Model.SpreadingText
import Verif.Model.SpreadingEdges
import Verif.Model.InterfaceFiles
import Verif.Model.InterfaceView
import Verif.Conformance.Flow
/-!
# The project's own tests of spreading curves and of interfaces, run on the model

Sources: /repo/strata/spreading/tests/test_collect.py, test_view.py with spread-01.xvg and spread-02.xvg,
/repo/strata/interface/tests/test_collect_interface.py, test_view_interface.py.  Left out: `test_write_xvg` (the text pandas prints is
a parameter of the model) and test_sample_interface.py (a circle of 3600 points compared to within rounding).
-/
namespace Strata.Conformance.Spreading
open Strata Strata.Flow Strata.Interface Strata.Spreading Strata.SpreadingText Strata.InterfaceFiles Strata.InterfaceView

/-! ## `test_collect.py` -/

/-- One layer of 12 bins at height `y`, the value `a` in bins `i … j` and `b` elsewhere. -/
def layer (y a b : ℚ) (i j : ℕ) : System := (List.range 12).map fun k : ℕ => ⟨(k : ℚ) / 11, y, if i ≤ k ∧ k ≤ j then a else b, []⟩

/-- `test_one_layer`, `test_one_layer_nointerface` (test_collect.py:14-44). -/
example : spreadingEdges (layer (1 / 2) 1 0 2 8) none (1 / 10) none {} = .ok (some (2 / 11, 8 / 11)) ∧
    spreadingEdges (layer (1 / 2) 0 0 2 8) none (1 / 11) none { cutoff := some 1 } = .ok none := by
  refine ⟨?_, ?_⟩ <;> decide +kernel

/-- `test_two_layers` (test_collect.py:46-61). -/
example : spreadingEdges (layer 1 0 0 2 8 ++ layer 2 1 0 2 8) none (1 / 10) none {} = .ok (some (2 / 11, 8 / 11)) := by decide +kernel

/-- `test_floor` (test_collect.py:63-81): the edges are those of the second layer. -/
example : spreadingEdges (layer 1 1 0 1 9 ++ layer 2 1 0 2 8) none (1 / 10) (some (11 / 10)) {} = .ok (some (2 / 11, 8 / 11)) := by decide +kernel

/-- `test_otheropts` (test_collect.py:83-108). -/
example : ((cells [("f0", (layer (1 / 2) 2 1 2 8).map (·.x)), ("f1", (layer (1 / 2) 2 1 2 8).map (·.y)), ("C", (layer (1 / 2) 2 1 2 8).map (·.v))] "C" ("f0", "f1")).bind
    fun s => spreadingEdges s none (2 / 10) none { cutoff := some 2, bins := 2 }) = .ok (some (2 / 11, 8 / 11)) := by decide +kernel

/-- `test_collect_edges_from_longest_filled_section_with_pbc` (test_collect.py:110-131). -/
example : spreadingEdges (([1, 1, 0, 1, 2, 1, 0, 1, 1] : List ℚ).zipIdx.map fun p => ⟨(p.2 : ℚ), 0, p.1, []⟩) (some (9, 1)) (11 / 10) none { longest := true } =
    .ok (some (7, 1)) := by decide +kernel

/-- `test_init_periodic_info_to_0_and_none`, `test_init_periodic_info_to_xvalues`, `test_periodic_info_check_updates_previous_positions`
(test_collect.py:133-159). -/
example : initPeriodicInfo = ⟨none, none, 0, 0⟩ ∧ initPeriodicInfo (some 1) (some 2) = ⟨some 1, some 2, 0, 0⟩ ∧
    (updateInfo initPeriodicInfo 10 1 2).leftPrev = some 1 ∧ (updateInfo initPeriodicInfo 10 1 2).rightPrev = some 2 := by decide +kernel

/-- The multipliers after one step. -/
def mult (i : PeriodicInfo) (box l r : ℚ) : ℤ × ℤ := ((updateInfo i box l r).multLeft, (updateInfo i box l r).multRight)

/-- `test_periodic_info_check_updates_multipliers_if_edges_are_switched` (test_collect.py:178-195). -/
example : mult ⟨some 1, some 2, 0, 0⟩ 10 5 6 = (0, 0) ∧ mult ⟨some 1, some 2, 0, 0⟩ 10 6 5 ≠ (0, 0) := by decide +kernel

/-- `test_periodic_info_updates_the_multiplier_of_the_edge_that_moves_most` (test_collect.py:197-219). -/
example : (mult ⟨some 1, some 2, 0, 0⟩ 10 3 1).1 ≠ 0 ∧ (mult ⟨some 1, some 2, 0, 0⟩ 10 3 1).2 = 0 ∧
    (mult ⟨some 1, some 2, 0, 0⟩ 10 2 (1 / 2)).1 = 0 ∧ (mult ⟨some 1, some 2, 0, 0⟩ 10 2 (1 / 2)).2 ≠ 0 := by decide +kernel

/-- `test_periodic_info_check_updates_the_multiplier_in_the_right_direction` (test_collect.py:221-250). -/
example : mult ⟨some 1, some 9, 0, 0⟩ 10 2 1 = (0, 1) ∧ mult ⟨some 1, some 9, 0, 0⟩ 10 9 8 = (-1, 0) := by decide +kernel

/-- `test_periodic_info_check_accounts_for_the_current_pbc_multipliers` (test_collect.py:252-289). -/
example : mult ⟨some 9, some 1, 1, 2⟩ 10 1 3 = (2, 2) ∧ mult ⟨some 9, some 1, 1, 2⟩ 10 8 9 = (1, 1) := by decide +kernel

/-- `test_periodic_info_adds_on_right_if_initially_we_are_crossed`, `test_add_periodic_multiplier_to_coords` (test_collect.py:291-310). -/
example : updateInfo initPeriodicInfo 10 5 3 = ⟨some 5, some 3, 0, 1⟩ ∧
    addMultipliers ⟨none, none, -2, 3⟩ 7 3 5 = (3 + -2 * 7, 5 + 3 * 7) := by decide +kernel

/-! ## `test_view.py` -/

/-- A string as text. -/
abbrev t (s : String) : Text := s.toList

/-- spread-01.xvg. -/
def file1 : Text := joinLines [t "# Spreading radius of a droplet impacting a substrate",
  t "#",
  t "# Creation date: Mon Feb 23 10:17:54 2015",
  t "# Using module version: 0.1",
  t "#",
  t "# Inputs:",
  t "#   File base path: '/home/petter/Data/2015/02/atomistic-lj-pme-eps1.77/maps/flow_'",
  t "#   Begin, end: 1, inf",
  t "#   Floor: 2.15",
  t "#   Delta-t: 10.0",
  t "#   Mass cut-off: 25.0",
  t "#   Radius cut-off: 1.0",
  t "#   Required # of bins: 1",
  t "#",
  t "# Droplet impact at t = 0.000",
  t "#                file = 'flow_00142.dat'",
  t "#",
  t "# Time (ps) Radius (nm)",
  t "0.000 1.000 2.000",
  t "10.000 2.000 3.000",
  t "20.000 3.000 4.000",
  t "30.000 4.000 5.000"]

/-- spread-02.xvg. -/
def file2 : Text := joinLines [t "# Spreading radius of a droplet impacting a substrate",
  t "#",
  t "# Creation date: Mon Feb 23 10:17:54 2015",
  t "# Using module version: 0.1",
  t "#",
  t "# Inputs:",
  t "#   File base path: '/home/petter/Data/2015/02/atomistic-lj-pme-eps1.77/maps/flow_'",
  t "#   Begin, end: 1, inf",
  t "#   Floor: 2.15",
  t "#   Delta-t: 10.0",
  t "#   Mass cut-off: 25.0",
  t "#   Radius cut-off: 1.0",
  t "#   Required # of bins: 1",
  t "#",
  t "# Droplet impact at t = 0.000",
  t "#                file = 'flow_00142.dat'",
  t "#",
  t "# Time (ps) Radius (nm)",
  t "100.000 3.000",
  t "110.000 4.000",
  t "120.000 5.000",
  t "130.000 6.000"]

/-- The two files. -/
def disk (f : Text) : Option Text := if f = t "spread-01.xvg" then some file1 else if f = t "spread-02.xvg" then some file2 else none

/-- Points as read. -/
def values (s : Series) : List (Cli.Value × Cli.Value) := s.map fun p => (.num p.1, .num p.2)

/-- The three series (test_view.py:12-19). -/
def d1 : Series := [(0, 1), (10, 2), (20, 3), (30, 4)]
/-- The second column of the first file. -/
def d2 : Series := [(0, 2), (10, 3), (20, 4), (30, 5)]
/-- The second file. -/
def d3 : Series := [(100, 3), (110, 4), (120, 5), (130, 6)]

/-- `test_read_files` (test_view.py:21-39). -/
example : readSpreading disk [t "spread-01.xvg", t "spread-02.xvg"] =
    ([⟨t "spread-01.xvg.1", values d1⟩, ⟨t "spread-01.xvg.2", values d2⟩, ⟨t "spread-02.xvg.1", values d3⟩], []) := by decide +kernel

/-- `test_combine_data` (test_view.py:41-49). -/
example : combineData [d1, d2, d3] none (.one 1) (.one 1) = .ok [d1, d2, d3] := by decide +kernel

/-- `test_sync_time_at_radius` (test_view.py:51-62). -/
example : syncTimeAtRadius [d1, d2, d3] 4 = .ok [d1.map fun p => (p.1 - 10, p.2), d2, d3.map fun p => (p.1 - 90, p.2)] := by decide +kernel

/-- `test_scale_timeaxis_onetau`, `test_scale_timeaxis_twotau`, `test_scale_radius_one`, `test_scale_radius_and_times`
(test_view.py:78-117). -/
example : scaleData [d3] (.one 2) (.one 1) = .ok [d3.map fun p => (p.1 / 2, p.2)] ∧
    scaleData [d1, d2] (.many [2, 3]) (.one 1) = .ok [d1.map fun p => (p.1 / 2, p.2), d2.map fun p => (p.1 / 3, p.2)] ∧
    scaleData [d3] (.one 1) (.one 3) = .ok [d3.map fun p => (p.1, p.2 / 3)] ∧
    scaleData [d1, d2] (.many [2, 3]) (.one 2) = .ok [d1.map fun p => (p.1 / 2, p.2 / 2), d2.map fun p => (p.1 / 3, p.2 / 2)] := by
  refine ⟨?_, ?_, ?_, ?_⟩ <;> decide +kernel

/-- `test_scale_timeaxis_error` (test_view.py:119-127). -/
example : scaleData [d1, d2] (.many [2, 3, 4]) (.one 1) = .error .typeError ∧ scaleData [d1, d2] (.one 1) (.many [2, 3, 4]) = .error .typeError := by
  refine ⟨?_, ?_⟩ <;> decide +kernel

/-- `test_combined_scaling` (test_view.py:129-137). -/
example : (combineData [d1, d2, d3] (some 2) (.one 2) (.one 2)).map (fun l => l.map fun s => s.lookup 10) = .ok [some 2, some 2, some 2] := by decide +kernel

/-! ## `test_collect_interface.py` -/

/-- The map of the tests (test_collect_interface.py:13-20): 11 x 11 bins, filled in columns 1 to 9. -/
def strip : Flow :=
  ⟨[("X", Flow.meshX 11 11), ("Y", Flow.meshY 11 11), ("C", (List.range 121).map fun k : ℕ => if 1 ≤ k % 11 ∧ k % 11 ≤ 9 then 1 else 0)],
    ⟨some (11, 11), none, some (1, 1), none⟩⟩

/-- `test_get_interface_coords`, `test_adjust_interface_to_com` (test_collect_interface.py:22-43); the centre of mass is at 5. -/
example : (interfaceCoordinates strip "C" none .other {}).map (·.1) =
      .ok ((List.range 11).map (fun k : ℕ => ⟨1, (k : ℚ)⟩) ++ (List.range 11).map fun k : ℕ => ⟨9, 10 - (k : ℚ)⟩) ∧
    (interfaceCoordinates strip "C" none .com {}).map (·.1) =
      .ok ((List.range 11).map (fun k : ℕ => ⟨1 - 5, (k : ℚ)⟩) ++ (List.range 11).map fun k : ℕ => ⟨9 - 5, 10 - (k : ℚ)⟩) := by
  refine ⟨?_, ?_⟩ <;> decide +kernel

/-- Heights `a, a + h, …`. -/
def heights (n : ℕ) (a h : ℚ) : List ℚ := (List.range n).map fun k : ℕ => a + (k : ℚ) * h

/-- `test_get_initial_yvalue_meta_data` (test_collect_interface.py:53-60). -/
example : yindexData (heights 10 1 (1 / 9)) = .ok ⟨1, 1 + (10 - 1) / 9, 1 / 9, 10⟩ := by decide +kernel

/-- `test_get_yvalue_indices_using_meta_data`, `test_get_yvalue_indices_for_out_of_bounds_data_is_edges`,
`test_get_yvalue_indices_rounds_to_closest_match` (test_collect_interface.py:62-85). -/
example : (yindexData (heights 10 1 1)).map (fun d => ([1, 2, 3, 10, 0, 11] : List ℚ).map fun y : ℚ => yindexOf y d) = .ok [0, 1, 2, 9, 0, 9] ∧
    (yindexData (heights 10 1 (1 / 9))).map (fun d => ([1 + 1 / 9 - 1 / 1000, 1 + 1 / 9, 1 + 1 / 9 + 1 / 1000] : List ℚ).map fun y : ℚ => yindexOf y d) = .ok [0, 1, 1] := by
  refine ⟨?_, ?_⟩ <;> decide +kernel

/-- `transfer_values` for heights `old` and `new` and the values `0.5 * ys_old`. -/
def transfer (old new : List ℚ) : Except Err (List (Option ℚ)) := do
  transferValues (some (old.map (1 / 2 * ·), ← yindexData old)) (← yindexData new)

/-- The tests of `transfer_values` (test_collect_interface.py:87-177): larger, shifted, smaller, equal and incompatible heights. -/
example : transfer (heights 5 2 1) (heights 9 0 1) = .ok [none, none, some 1, some (3 / 2), some 2, some (5 / 2), some 3, none, none] ∧
    transfer (heights 9 0 1) (heights 8 2 1) = .ok [some 1, some (3 / 2), some 2, some (5 / 2), some 3, some (7 / 2), some 4, none] ∧
    transfer (heights 9 0 1) (heights 5 2 1) = .ok [some 1, some (3 / 2), some 2, some (5 / 2), some 3] ∧
    (yindexData (heights 9 0 1)).bind (fun d => transferValues (α := ℚ) none d) = .ok (List.replicate 9 none) ∧
    transfer (heights 5 2 1) (heights 5 2 1) = .ok ((heights 5 2 1).map fun y : ℚ => some (1 / 2 * y)) ∧
    transfer (heights 5 0 1) (heights 5 0 2) = .error .valueError := by
  refine ⟨?_, ?_, ?_, ?_, ?_, ?_⟩ <;> decide +kernel

/-- `test_create_interface_from_ys_and_xs_values` (test_collect_interface.py:180-192). -/
example : interfaceArray (heights 10 0 1) (heights 10 0 (1 / 2)) (heights 10 0 (3 / 2)) =
    (List.range 10).map (fun k : ℕ => ⟨(k : ℚ) / 2, (k : ℚ)⟩) ++ (List.range 10).map fun k : ℕ => ⟨3 / 2 * (9 - (k : ℚ)), 9 - (k : ℚ)⟩ := by decide +kernel

/-- `test_fill_pbc_info_for_y_values_picks_closest`, `test_fill_pbc_info_for_y_values_picks_default_if_none_are_found`
(test_collect_interface.py:194-225). -/
example : let a := initPeriodicInfo (some 1) (some 2)
    let b := initPeriodicInfo (some 0) (some 3)
    fillInfo [none, none, some a, some b, some a, some b, none, none] = [some a, some a, some a, some b, some a, some b, some b, some b] ∧
    fillInfo [none, none, none, none] = List.replicate 4 (some initPeriodicInfo) := by decide +kernel

/-! ## `test_view_interface.py` -/

/-- The x positions of the interface of `strip`. -/
def ix : List ℚ := List.replicate 11 1 ++ List.replicate 11 9
/-- The heights. -/
def iy : List ℚ := heights 11 0 1 ++ (heights 11 0 1).reverse

/-- `test_get_series` (test_view_interface.py:21-37). -/
example : allEdges [ix, ix.map (· + 1)] [iy, iy.map (· + 2)] =
    ([(heights 11 0 1).zip (List.replicate 11 1), (heights 11 2 1).zip (List.replicate 11 2)],
      [(heights 11 0 1).reverse.zip (List.replicate 11 9), (heights 11 2 1).reverse.zip (List.replicate 11 10)]) := by decide +kernel

/-- `test_combine_interfaces` (test_view_interface.py:39-58). -/
example : ∀ k : ℕ, k < 13 → ((combineInterfaces [ix, ix.map (· + 1)] [iy, iy.map (· + 2)]).1 (k : ℚ) 0 = if k < 11 then some 1 else none) ∧
    ((combineInterfaces [ix, ix.map (· + 1)] [iy, iy.map (· + 2)]).1 (k : ℚ) 1 = if 2 ≤ k then some 2 else none) ∧
    ((combineInterfaces [ix, ix.map (· + 1)] [iy, iy.map (· + 2)]).2 (k : ℚ) 0 = if k < 11 then some 9 else none) ∧
    ((combineInterfaces [ix, ix.map (· + 1)] [iy, iy.map (· + 2)]).2 (k : ℚ) 1 = if 2 ≤ k then some 10 else none) := by decide +kernel

/-- `test_stitch_edges` (test_view_interface.py:60-69). -/
example : stitch ((heights 11 0 1).zip (List.replicate 11 1)) ((heights 11 0 1).reverse.zip (List.replicate 11 9)) =
    List.zipWith Point.mk ix iy := by decide +kernel

end Strata.Conformance.Spreading
