import Verif.Model.Interface
/-!
# The project's own tests of `droplets/interface.py`, run on the model

Every example states the assertions of one test of /repo/droplets/tests/test_interface.py about the model and is
evaluated by the kernel.  These are checks of the model against the project's expectations, not proofs of properties.
Left out: the tests with other coordinate labels (the model is given the chosen columns).
-/
namespace Strata.Conformance.Interface
open Strata Strata.Interface

/-- `np.exp(-r2/10)`, to six decimals (test_interface.py:16-17). -/
def droplet : ℕ → ℚ
  | 0 => 1000000 / 1000000
  | 1 => 904837 / 1000000
  | 2 => 818731 / 1000000
  | 4 => 670320 / 1000000
  | 5 => 606531 / 1000000
  | 8 => 449329 / 1000000
  | 9 => 406570 / 1000000
  | 10 => 367879 / 1000000
  | 13 => 272532 / 1000000
  | 16 => 201897 / 1000000
  | 17 => 182684 / 1000000
  | 18 => 165299 / 1000000
  | 20 => 135335 / 1000000
  | 25 => 82085 / 1000000
  | 26 => 74274 / 1000000
  | 29 => 55023 / 1000000
  | 32 => 40762 / 1000000
  | 34 => 33373 / 1000000
  | 41 => 16573 / 1000000
  | 50 => 6738 / 1000000
  | _ => 0

/-- The 11 x 11 system of the tests (test_interface.py:8-23). -/
def system : System :=
  (List.range 121).map fun t => ⟨((t % 11 : ℕ) : ℚ), ((t / 11 : ℕ) : ℚ),
    droplet (Int.natAbs (((t % 11 : ℕ) : ℤ) - 5) ^ 2 + Int.natAbs (((t / 11 : ℕ) : ℤ) - 5) ^ 2), []⟩

/-- One layer of cells with the given values. -/
def layer (vs : List ℚ) : System := vs.zipIdx.map fun p => ⟨((p.2 : ℕ) : ℚ), 0, p.1, []⟩

/-- Cells on the diagonal, of which 1, 2, 3 have the value 1 (test_interface.py:54-58). -/
def diagonal : System := [0, 1, 1, 1, 0].zipIdx.map fun p => ⟨((p.2 : ℕ) : ℚ), ((p.2 : ℕ) : ℚ), p.1, []⟩

/-- `test_find_indices_in_radius` (test_interface.py:25-38). -/
example : indicesInRadius 60 system (1 - 1 / 1000000) = [] ∧ indicesInRadius 60 system 1 = [49, 59, 61, 71] ∧
    indicesInRadius 60 system (3 / 2) = [48, 49, 50, 59, 61, 70, 71, 72] := by decide +kernel

/-- `test_cell_is_droplet` (test_interface.py:53-67). -/
example : (List.range 5).map (fun i => cellIsDroplet i diagonal (3 / 2) (1 / 2) 1) = [false, true, true, true, false] := by
  decide +kernel

/-- `test_cell_is_droplet_cutoff` (test_interface.py:69-90). -/
example : (List.range 5).map (fun i => cellIsDroplet i diagonal (3 / 2) 2 1) = [false, false, false, false, false] ∧
    (List.range 5).map (fun i => cellIsDroplet i diagonal (3 / 2) (1 / 2) 1) = [false, true, true, true, false] := by
  decide +kernel

/-- `test_cell_is_droplet_numbins` (test_interface.py:92-108). -/
example : (List.range 5).map (fun i => cellIsDroplet i diagonal (3 / 2) (1 / 2) 2) = [false, false, true, false, false] := by
  decide +kernel

/-- `test_find_interface_bottom` (test_interface.py:145-163). -/
example : getInterface (layer [0, 1, 1, 1, 0]) none { radius := some (3 / 2) } = .ok [(1, 3)] ∧
    getInterface (layer [0, 1, 1, 1, 0]) none { radius := some (3 / 2), bins := 2 } = .ok [(2, 2)] := by decide +kernel

/-- `test_find_interface` (test_interface.py:165-194). -/
example : (getInterface system none { radius := some (3 / 2) }).map List.length = .ok 5 ∧
    (getInterface system none { radius := some (3 / 2), cutoff := some (1 / 5) }).map List.length = .ok 9 ∧
    getInterface system none { radius := some (3 / 2), cutoff := some (11 / 10) } = .ok [] := by
  refine ⟨?_, ?_, ?_⟩ <;> decide +kernel

/-- `test_find_interface_ylims` (test_interface.py:196-207). -/
example : (getInterface system none { radius := some (11 / 10), ylims := (some (9 / 2), some (15 / 2)) }).map
    (fun l => l.map fun p => (row system p.1).y) = .ok [5, 6, 7] := by decide +kernel

/-- `test_find_interface_noboundaries` (test_interface.py:209-217): nothing but pairs of `None` may be yielded; nothing is. -/
example : getInterface (system.map fun c => { c with v := 0 }) none { radius := some (11 / 10) } = .ok [] := by decide +kernel

/-- `test_find_interface_noradius` (test_interface.py:219-227). -/
example : (getInterface system none {}).map List.length = .ok 5 := by decide +kernel

/-- `test_find_interface_from_inside_out` (test_interface.py:229-250). -/
example : getInterface (layer [1, 1, 0, 1, 2, 1, 1, 0, 1]) (some (9, 1)) { longest := true, cutoff := some (1 / 2), radius := some (11 / 10), bins := 1 } =
    .ok [(3, 6)] := by decide +kernel

/-- `test_find_interface_from_inside_out_requires_system_size_for_pbc` (test_interface.py:252-261). -/
example : getInterface (layer [1, 1, 0, 1, 2, 1, 1, 0, 1]) none { longest := true } = .error .valueError := by decide +kernel

/-- `test_find_interface_from_inside_out_ensures_that_pbc_is_adjusted_for` (test_interface.py:263-282). -/
example : getInterface (layer [1, 0, 1, 2, 1, 0, 1, 1, 1]) (some (9, 1)) { longest := true } = .ok [(6, 0)] := by decide +kernel

/-- `test_find_interface_from_inside_out_with_all_and_none_filled` (test_interface.py:284-315). -/
example : getInterface (layer [0, 0, 0, 0, 0, 0, 0, 0, 0]) (some (9, 1)) { longest := true } = .ok [] ∧
    getInterface (layer [1, 1, 1, 1, 1, 1, 1, 1, 1]) (some (9, 1)) { longest := true, cutoff := some (1 / 2) } = .ok [(0, 8)] := by
  decide +kernel

/-- `test_find_complete_interface_with_largest_connected_method` (test_interface.py:317-376). -/
example : getInterface (([0, 0, 0, 0, 0, 0, 0,
      0, 0, 0, 1, 0, 0, 0,
      0, 0, 1, 1, 1, 0, 0,
      0, 1, 1, 1, 1, 1, 0,
      0, 0, 1, 1, 1, 0, 0,
      0, 0, 0, 1, 0, 0, 0,
      0, 0, 0, 0, 0, 0, 0] : List ℚ).zipIdx.map fun p => ⟨((p.2 % 7 : ℕ) : ℚ), ((p.2 / 7 : ℕ) : ℚ), p.1, []⟩) (some (7, 7))
      { longest := true, cutoff := some (1 / 2) } =
    .ok [(3 + 7, 3 + 7), (2 + 2 * 7, 4 + 2 * 7), (1 + 3 * 7, 5 + 3 * 7), (2 + 4 * 7, 4 + 4 * 7), (3 + 5 * 7, 3 + 5 * 7)] := by
  decide +kernel

end Strata.Conformance.Interface
