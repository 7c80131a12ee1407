import Verif.Model.ContactLine
/-!
# The project's own tests of `droplets/contact_line.py`, run on the model

Source: /repo/droplets/tests/test_contact_line.py.  The cells are row numbers.
-/
namespace Strata.Conformance.ContactLine
open Strata Strata.Flow Strata.Interface Strata.ContactLine

/-- `get_data(10, 2, 3)` (test_contact_line.py:8-22): three layers, of 4, 6 and 8 cells around the middle of 10 columns. -/
def triangle : System := (List.range 100).map fun t : ℕ =>
  ⟨((t % 10 : ℕ) : ℚ), ((t / 10 : ℕ) : ℚ),
    if t / 10 < 3 ∧ 3 ≤ t % 10 + t / 10 ∧ t % 10 < 7 + t / 10 then 1 else 0, []⟩

/-- The interface starts at the cells 3 and 6, 12 and 17, 21 and 28. -/
example : getInterface triangle none { radius := some 1, bins := 0 } = .ok [(3, 6), (12, 17), (21, 28)] := by decide +kernel

/-- `test_extract_cells` (test_contact_line.py:26-40): for area (1.5, i) the cells from number (2 + i) i on are those of the
i-th layer from its edge, 2 + i of them. -/
example : ∀ i : ℕ, i < 3 → ∃ p, [(3, 6), (12, 17), (21, 28)][i]? = some p ∧
    (contactLineCells triangle none { bins := 0 } (area := (3 / 2, (i : ℚ)))).map (fun e => (e.1.drop ((2 + i) * i), e.2.drop ((2 + i) * i))) =
      .ok ((List.range (2 + i)).map (p.1 + ·), (List.range (2 + i)).map (p.2 - i - 1 + ·)) := by
  intro i hi
  rcases i with _ | _ | _ | i
  · exact ⟨(3, 6), rfl, by decide +kernel⟩
  · exact ⟨(12, 17), rfl, by decide +kernel⟩
  · exact ⟨(21, 28), rfl, by decide +kernel⟩
  · omega

/-- `test_extract_cells_at_height` (test_contact_line.py:42-56). -/
example : (contactLineCells triangle none { radius := some (11 / 10) } (area := (3 / 2, 1)) (eh := 1)).map (fun e => (e.1.take 2, e.2.take 2)) =
    .ok ([3 - 1, 3], [6, 7]) := by decide +kernel

/-- `test_extract_cells_at_bad_height` (test_contact_line.py:58-71). -/
example : contactLineCells triangle none {} (area := (3 / 2, 0)) (eh := 1) = .ok ([3, 4], [5, 6]) := by decide +kernel

/-- `test_extract_cells_failure` (test_contact_line.py:73-79). -/
example : contactLineCells triangle none { cutoff := some 2 } = .ok ([], []) := by decide +kernel

/-- `test_extract_cells_nocutoff` (test_contact_line.py:81-88). -/
example : contactLineCells triangle none { cutoff := some 0 } (area := (2, 0)) = .ok ([0, 1, 2], [7, 8, 9]) := by decide +kernel

/-- The cells as records, for `adjust_cell_coordinates`. -/
def cells (idx : List ℕ) : Record := [("X", idx.map fun t : ℕ => ((t % 10 : ℕ) : ℚ)), ("Y", idx.map fun t : ℕ => ((t / 10 : ℕ) : ℚ))]

/-- `test_adjust_cells` (test_contact_line.py:90-98). -/
example : contactLineCells triangle none {} (area := (2, 0)) = .ok ([3, 4, 5], [4, 5, 6]) ∧
    (adjustCells (cells [3, 4, 5]) "left").map (fun p => (p.1.2, (col? p.2 "X").map fun c => c.map (· + p.1.1))) = .ok (0, some [3, 4, 5]) ∧
    (adjustCells (cells [4, 5, 6]) "right").map (fun p => (p.1.2, (col? p.2 "X").map fun c => c.map (· + p.1.1))) = .ok (0, some [4, 5, 6]) := by
  refine ⟨?_, ?_, ?_⟩ <;> decide +kernel

/-- `test_adjust_cells_badkey`, `test_adjust_cells_nodata` (test_contact_line.py:100-112). -/
example : adjustCells (cells [3, 4, 5]) "" = .error .keyError ∧ adjustCells (cells []) "left" = .ok ((0, 0), cells []) := by
  refine ⟨?_, ?_⟩ <;> decide +kernel

/-- `test_adjust_cells_height` (test_contact_line.py:114-122): the lowest layer is emptied. -/
example : ∃ l r, contactLineCells (triangle.map fun c => if c.y = 0 then { c with v := 0 } else c) none {} (area := (2, 2)) = .ok (l, r) ∧
    (adjustCells (cells l) "left").map (fun p => (p.1.2, (col? p.2 "Y").map fun c => c.map (· + p.1.2))) = .ok (1, col? (cells l) "Y") := by
  refine ⟨[11, 12, 13, 14, 21, 22, 23, 24], [15, 16, 17, 18, 25, 26, 27, 28], ?_, ?_⟩ <;> decide +kernel

end Strata.Conformance.ContactLine
