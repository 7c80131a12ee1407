import Verif.Proofs.SimpleText
import Verif.Proofs.Ieee
/-!
# The simple file formats and the choice of format: C50, C51, C52, C53
-/
namespace Strata.Simple
open Strata Strata.Flow Strata.Average Strata.Bytes Strata.PyText Strata.Files Strata.Resample Strata.Gmx

/-! ## Demonstration data -/

/-- A map of 2 × 3 bins, column after column. -/
def demo : Record := [("X", [1 / 4, 1 / 4, 1 / 4, 3 / 4, 3 / 4, 3 / 4]), ("Y", [0, 1 / 2, 1, 0, 1 / 2, 1]), ("N", [2, 1, 3, 1, 0, 4]),
  ("T", [300, 301, 302, 303, 0, 305]), ("M", [4, 2, 6, 2, 0, 8]), ("U", [1, -1, 1 / 2, 0, 0, 1 / 10]), ("V", [5, 6, 7, 8, 0, 9])]

/-- The same bins in another order, as an array. -/
def shuffled : Record := [("V", [8, 5, 9, 7, 6, 0]), ("X", [3 / 4, 1 / 4, 3 / 4, 1 / 4, 1 / 4, 3 / 4]), ("Y", [0, 0, 1, 1, 1 / 2, 1 / 2]), ("N", [1, 2, 4, 3, 1, 0]),
  ("T", [303, 300, 305, 302, 301, 0]), ("M", [2, 4, 8, 6, 2, 0]), ("U", [0, 1, 1 / 10, 1 / 2, -1, 0])]

/-- A map of 2 × 2 bins, row after row. -/
def rowMajor : Record := [("X", [0, 1, 0, 1]), ("Y", [0, 0, 1, 1]), ("N", [1, 2, 3, 4]), ("T", [300, 300, 300, 300]), ("M", [1, 2, 3, 4]),
  ("U", [0, 0, 0, 0]), ("V", [0, 0, 0, 0])]

/-- A map of 2 × 2 bins with values whose bytes are all ASCII characters. -/
def textual : Record := [("X", [0, 0, 2, 2]), ("Y", [0, 2, 0, 2]), ("N", [2, 2, 2, 2]), ("T", [0, 0, 0, 0]), ("M", [2, 2, 2, 2]),
  ("U", [1 / 2, 1 / 2, 0, 0]), ("V", [0, 0, 0, 0])]

/-! ## C50 -/

theorem roundTrip_aux (F : F32) (r : Record) (sp : ℚ × ℚ) (x0 y0 : ℚ) (nx ny : ℕ) (h : XMajor r sp x0 y0 nx ny) (hnx : 2 ≤ nx) (hny : 2 ≤ ny)
    (g : ℚ → ℚ) (ε : ℚ) (hx : ∀ i, i < nx → |round5 (g (x0 + sp.1 * (i : ℚ))) - (x0 + sp.1 * (i : ℚ))| ≤ ε)
    (hy : ∀ j, j < ny → |round5 (g (y0 + sp.2 * (j : ℚ))) - (y0 + sp.2 * (j : ℚ))| ≤ ε) (hdx : 2 * ε ≤ sp.1) (hdy : 2 * ε + 1 / 10000 ≤ sp.2) :
    ∃ out info, finish (fields.zipIdx.map fun p => (p.1, ((List.range (nx * ny)).map fun t => fields.map fun l => val r l t).map fun row => g (row.getD p.2 0))) = .ok (out, info) ∧
      info.shape = (nx, ny) ∧ info.numBins = nx * ny ∧ out.x.length = nx * ny ∧ out.y.length = nx * ny ∧
      names out.rest = ["N", "T", "M", "U", "V"] ∧ (∀ c ∈ out.rest, c.2.length = nx * ny) ∧
      ∀ t, t < nx * ny → (∃ x, out.x.getD t none = some x ∧ |x - val r "X" t| ≤ ε) ∧ (∃ y, out.y.getD t none = some y ∧ |y - val r "Y" t| ≤ ε) ∧
        ∀ l ∈ ["N", "T", "M", "U", "V"], val out.rest l t = g (val r l t) := by
  have hcol : ∀ k (l : Label), (l, k) ∈ fields.zipIdx → col? (fields.zipIdx.map fun p => (p.1, ((List.range (nx * ny)).map fun t => fields.map fun l => val r l t).map fun row => g (row.getD p.2 0))) l =
      some ((List.range (nx * ny)).map fun t => g (val r l t)) := by
    intro k l hk
    simp only [fields, List.zipIdx_cons, List.zipIdx_nil, List.mem_cons, List.not_mem_nil, or_false, Prod.mk.injEq] at hk
    rcases hk with ⟨rfl, rfl⟩ | ⟨rfl, rfl⟩ | ⟨rfl, rfl⟩ | ⟨rfl, rfl⟩ | ⟨rfl, rfl⟩ | ⟨rfl, rfl⟩ | ⟨rfl, rfl⟩ <;>
      (simp only [List.map_map]; rfl)
  generalize hR : (fields.zipIdx.map fun p => (p.1, ((List.range (nx * ny)).map fun t => fields.map fun l => val r l t).map fun row => g (row.getD p.2 0))) = R at hcol
  have hpos : 0 < ny := by omega
  obtain ⟨sx, sy, hf, -, -, nearx, neary⟩ := finish_grid R nx ny (fun i => g (x0 + sp.1 * (i : ℚ))) (fun j => g (y0 + sp.2 * (j : ℚ))) x0 y0 sp.1 sp.2 ε hnx hny
    (by
      rw [hcol 0 "X" (by decide)]
      congr 1
      apply List.map_congr_left
      intro t ht
      rw [h.x t (List.mem_range.mp ht)])
    (by
      rw [hcol 1 "Y" (by decide)]
      congr 1
      apply List.map_congr_left
      intro t ht
      rw [h.y t (List.mem_range.mp ht)]) hx hy hdx hdy
  have hrest : (R.filter fun c => decide (c.1 ∉ ["X", "Y"])) = ["N", "T", "M", "U", "V"].map fun l => (l, (List.range (nx * ny)).map fun t => g (val r l t)) := by
    rw [← hR]
    simp only [List.map_map]
    rfl
  refine ⟨_, _, hf, rfl, rfl, by simp, by simp, ?_, ?_, ?_⟩
  · show names (R.filter fun c => decide (c.1 ∉ ["X", "Y"])) = _
    rw [hrest]; rfl
  · intro c hc
    have : c ∈ (R.filter fun c => decide (c.1 ∉ ["X", "Y"])) := hc
    rw [hrest] at this
    obtain ⟨l, _, rfl⟩ := List.mem_map.mp this
    simp
  · intro t ht
    have h1 : t / ny < nx := by rw [Nat.div_lt_iff_lt_mul hpos]; exact ht
    refine ⟨⟨round5 (g (x0 + sp.1 * ((0 : ℕ) : ℚ))) + sx * ((t / ny : ℕ) : ℚ), ?_, ?_⟩, ⟨round5 (g (y0 + sp.2 * ((0 : ℕ) : ℚ))) + sy * ((t % ny : ℕ) : ℚ), ?_, ?_⟩, ?_⟩
    · simp [List.getD_eq_getElem?_getD, ht]
    · rw [h.x t ht]; exact nearx _ h1
    · simp [List.getD_eq_getElem?_getD, ht]
    · rw [h.y t ht]; exact neary _ (Nat.mod_lt _ hpos)
    · intro l hl
      show val (R.filter fun c => decide (c.1 ∉ ["X", "Y"])) l t = _
      rw [hrest, val_of_col (col?_map_names _ (by decide) _ l hl), getD_map_range _ _ _ ht]

/-- **C50 (partial).** A map of at least 2 × 2 bins, given as a dict column after column, that is written in the binary
format and read back: shape and number of bins are right, the coordinates are right up to the error `ε` of storing a
coordinate in single precision and rounding it to five decimals, and every field of every bin is its single precision
value; nothing is interleaved wrongly.

Missing: files whose bytes happen to be text (`hbin`), dicts in another order, and one column or one row; for those
the claim is false, see `C50_binary_files_read_as_text`, `C50_row_major_dict_is_misread` and
`C52_single_row_has_no_spacing`. -/
theorem C50_round_trip_partial (F : F32) (r : Record) (sp : ℚ × ℚ) (x0 y0 : ℚ) (nx ny : ℕ) (h : XMajor r sp x0 y0 nx ny) (hnx : 2 ≤ nx) (hny : 2 ≤ ny)
    (ε : ℚ) (hx : ∀ i, i < nx → |round5 (F.rnd (x0 + sp.1 * (i : ℚ))) - (x0 + sp.1 * (i : ℚ))| ≤ ε)
    (hy : ∀ j, j < ny → |round5 (F.rnd (y0 + sp.2 * (j : ℚ))) - (y0 + sp.2 * (j : ℚ))| ≤ ε) (hdx : 2 * ε ≤ sp.1) (hdy : 2 * ε + 1 / 10000 ≤ sp.2)
    (hbin : ∀ bytes, writeBinary F (.dict r) = .ok bytes → isBinary bytes = true) :
    ∃ bytes out info, writeBinary F (.dict r) = .ok bytes ∧ readData F bytes = .ok (out, info) ∧
      info.shape = (nx, ny) ∧ info.numBins = nx * ny ∧ out.x.length = nx * ny ∧ out.y.length = nx * ny ∧
      names out.rest = ["N", "T", "M", "U", "V"] ∧ (∀ c ∈ out.rest, c.2.length = nx * ny) ∧
      ∀ t, t < nx * ny → (∃ x, out.x.getD t none = some x ∧ |x - val r "X" t| ≤ ε) ∧ (∃ y, out.y.getD t none = some y ∧ |y - val r "Y" t| ≤ ε) ∧
        ∀ l ∈ ["N", "T", "M", "U", "V"], val out.rest l t = F.rnd (val r l t) := by
  have hw : writeBinary F (.dict r) = .ok ((((List.range (nx * ny)).map fun t => fields.map fun l => val r l t)).flatMap fun row => row.flatMap F.enc) := by
    unfold writeBinary
    rw [saveData_dict r _ h.cols, ok_bind, rowsOf_cols]
  obtain ⟨out, info, hf, rest⟩ := roundTrip_aux F r sp x0 y0 nx ny h hnx hny F.rnd ε hx hy hdx hdy
  refine ⟨_, out, info, hw, ?_, rest⟩
  unfold readData
  rw [if_pos (hbin _ hw), readBinary_rows]
  · exact hf
  · intro row hr
    obtain ⟨t, _, rfl⟩ := List.mem_map.mp hr
    simp [fields]

/-- **C50 (partial), arrays in any order.** The same for an array whose rows are the bins of a grid in any order: the
map read back is sorted by X, then Y, and has the fields of the right bins. -/
theorem C50_array_round_trip_partial (F : F32) (r : Record) (sp : ℚ × ℚ) (x0 y0 : ℚ) (nx ny : ℕ) (h : FullGrid r sp x0 y0 nx ny)
    (hf : ∀ l ∈ ["X", "Y", "N", "T", "M", "U", "V"], l ∈ names r) (hsx : 0 < sp.1) (hnx : 2 ≤ nx) (hny : 2 ≤ ny)
    (ε : ℚ) (hx : ∀ i, i < nx → |round5 (F.rnd (x0 + sp.1 * (i : ℚ))) - (x0 + sp.1 * (i : ℚ))| ≤ ε)
    (hy : ∀ j, j < ny → |round5 (F.rnd (y0 + sp.2 * (j : ℚ))) - (y0 + sp.2 * (j : ℚ))| ≤ ε) (hdx : 2 * ε ≤ sp.1) (hdy : 2 * ε + 1 / 10000 ≤ sp.2)
    (hbin : ∀ bytes, writeBinary F (.array r) = .ok bytes → isBinary bytes = true) :
    ∃ bytes out info, writeBinary F (.array r) = .ok bytes ∧ readData F bytes = .ok (out, info) ∧
      info.shape = (nx, ny) ∧ info.numBins = nx * ny ∧ out.x.length = nx * ny ∧ out.y.length = nx * ny ∧
      names out.rest = ["N", "T", "M", "U", "V"] ∧ (∀ c ∈ out.rest, c.2.length = nx * ny) ∧
      ∀ i j, i < nx → j < ny → (∃ x, out.x.getD (i * ny + j) none = some x ∧ |x - (x0 + sp.1 * (i : ℚ))| ≤ ε) ∧
        (∃ y, out.y.getD (i * ny + j) none = some y ∧ |y - (y0 + sp.2 * (j : ℚ))| ≤ ε) ∧
        ∀ l ∈ ["N", "T", "M", "U", "V"], val out.rest l (i * ny + j) = F.rnd (atNode r l sp x0 y0 ("X", "Y") i j) := by
  have hε : 0 ≤ ε := le_trans (abs_nonneg _) (hx 0 (by omega))
  obtain ⟨s, hs, hval, hsave⟩ := saveData_array r sp x0 y0 nx ny h hsx (by linarith) hf
  have hwe : writeBinary F (.array r) = writeBinary F (.dict s) := by unfold writeBinary; rw [hsave]
  rw [hwe] at hbin ⊢
  obtain ⟨bytes, out, info, a1, a2, a3, a4, a5, a6, a7, a8, a9⟩ := C50_round_trip_partial F s sp x0 y0 nx ny hs hnx hny ε hx hy hdx hdy hbin
  refine ⟨bytes, out, info, a1, a2, a3, a4, a5, a6, a7, a8, ?_⟩
  intro i j hi hj
  have ht : i * ny + j < nx * ny := by have := grid_lt (nx := ny) (ny := nx) hj hi; rwa [Nat.mul_comm ny nx] at this
  obtain ⟨b1, b2, b3⟩ := a9 _ ht
  rw [hs.x _ ht, grid_div hj] at b1
  rw [hs.y _ ht, grid_mod hj] at b2
  refine ⟨b1, b2, ?_⟩
  intro l hl
  rw [b3 l hl, hval l i j hi hj]

/-- The rounding of coordinates by the reader is off by at most half of the last of five decimals, and restores a number
with five decimals from any value closer to it than that. -/
theorem C50_five_decimals (x : ℚ) : |round5 x - x| ≤ 1 / 2 * (1 / 10 ^ 5) ∧
    ∀ k : ℤ, |x - k / 10 ^ 5| < 1 / 2 * (1 / 10 ^ 5) → round5 x = k / 10 ^ 5 := by
  unfold round5
  refine ⟨?_, ?_⟩
  · have h := pyRound_near' (x * 10 ^ 5)
    rw [abs_le] at h ⊢
    have e : (Average.pyRound (x * 10 ^ 5) : ℚ) / 10 ^ 5 - x = ((Average.pyRound (x * 10 ^ 5) : ℚ) - x * 10 ^ 5) / 10 ^ 5 := by field_simp
    rw [e, le_div_iff₀ (by norm_num), div_le_iff₀ (by norm_num)]
    constructor
    · linarith [h.1]
    · linarith [h.2]
  · intro k hk
    have h := pyRound_near' (x * 10 ^ 5)
    rw [abs_le] at h
    rw [abs_lt] at hk
    have h1 : |(Average.pyRound (x * 10 ^ 5) : ℚ) - k| < 1 := by
      rw [abs_lt]
      have hk1 : (k : ℚ) - 1 / 2 < x * 10 ^ 5 := by
        have := mul_lt_mul_of_pos_right hk.1 (by norm_num : (0 : ℚ) < 10 ^ 5)
        field_simp at this
        linarith
      have hk2 : x * 10 ^ 5 < (k : ℚ) + 1 / 2 := by
        have := mul_lt_mul_of_pos_right hk.2 (by norm_num : (0 : ℚ) < 10 ^ 5)
        field_simp at this
        linarith
      constructor
      · have := h.1; generalize Average.pyRound (x * 10 ^ 5) = P at *; generalize x * 10 ^ 5 = z at *; linarith
      · have := h.2; generalize Average.pyRound (x * 10 ^ 5) = P at *; generalize x * 10 ^ 5 = z at *; linarith
    have h2 : Average.pyRound (x * 10 ^ 5) = k := by
      have : |Average.pyRound (x * 10 ^ 5) - k| < 1 := by exact_mod_cast h1
      rw [Int.abs_lt_one_iff] at this
      omega
    rw [h2]

/-- **C50 (partial), exact coordinates.** With IEEE single precision, coordinates with five decimals and of size at most
80 are read back exactly. -/
theorem C50_coordinates_are_exact_partial (r : Record) (sp : ℚ × ℚ) (x0 y0 : ℚ) (nx ny : ℕ) (h : XMajor r sp x0 y0 nx ny) (hnx : 2 ≤ nx) (hny : 2 ≤ ny)
    (hx : ∀ i, i < nx → |x0 + sp.1 * (i : ℚ)| ≤ 80 ∧ ∃ k : ℤ, x0 + sp.1 * (i : ℚ) = k / 10 ^ 5)
    (hy : ∀ j, j < ny → |y0 + sp.2 * (j : ℚ)| ≤ 80 ∧ ∃ k : ℤ, y0 + sp.2 * (j : ℚ) = k / 10 ^ 5) (hdx : 0 ≤ sp.1) (hdy : 1 / 10000 ≤ sp.2)
    (hbin : ∀ bytes, writeBinary ieee32 (.dict r) = .ok bytes → isBinary bytes = true) :
    ∃ bytes out info, writeBinary ieee32 (.dict r) = .ok bytes ∧ readData ieee32 bytes = .ok (out, info) ∧ info.shape = (nx, ny) ∧
      ∀ t, t < nx * ny → out.x.getD t none = some (val r "X" t) ∧ out.y.getD t none = some (val r "Y" t) ∧
        ∀ l ∈ ["N", "T", "M", "U", "V"], val out.rest l t = ieee32.rnd (val r l t) := by
  have key : ∀ z : ℚ, |z| ≤ 80 → (∃ k : ℤ, z = k / 10 ^ 5) → |round5 (ieee32.rnd z) - z| ≤ 0 := by
    rintro z hz ⟨k, hk⟩
    have hacc := ieee32_accurate (x := z) (le_trans hz (by unfold maxSingle; norm_num))
    have : round5 (ieee32.rnd z) = k / 10 ^ 5 := by
      apply (C50_five_decimals _).2
      rw [← hk]
      refine lt_of_le_of_lt hacc (max_lt ?_ (by norm_num))
      rw [div_lt_iff₀ (by norm_num)]
      refine lt_of_le_of_lt hz (by norm_num)
    rw [this, ← hk]; simp
  obtain ⟨bytes, out, info, a1, a2, a3, -, -, -, -, -, a9⟩ := C50_round_trip_partial ieee32 r sp x0 y0 nx ny h hnx hny 0
    (fun i hi => key _ (hx i hi).1 (hx i hi).2) (fun j hj => key _ (hy j hj).1 (hy j hj).2) (by simpa using hdx) (by simpa using hdy) hbin
  refine ⟨bytes, out, info, a1, a2, a3, ?_⟩
  intro t ht
  obtain ⟨⟨x, hxe, hx0⟩, ⟨y, hye, hy0⟩, h3⟩ := a9 t ht
  have e1 : x = val r "X" t := by have := abs_nonpos_iff.mp hx0; linarith
  have e2 : y = val r "Y" t := by have := abs_nonpos_iff.mp hy0; linarith
  exact ⟨by rw [hxe, e1], by rw [hye, e2], h3⟩

/-- Five decimals that are no single precision numbers are restored. -/
example : ieee32.rnd (12345 / 10 ^ 5) ≠ 12345 / 10 ^ 5 ∧ round5 (ieee32.rnd (12345 / 10 ^ 5)) = 12345 / 10 ^ 5 := by decide +kernel

theorem demo_xMajor : XMajor demo (1 / 2, 1 / 2) (1 / 4) 0 2 3 where
  cols l hl := by
    simp only [List.mem_cons, List.not_mem_nil, or_false] at hl
    rcases hl with rfl | rfl | rfl | rfl | rfl | rfl | rfl <;> exact ⟨_, rfl, rfl⟩
  x := by decide +kernel
  y := by decide +kernel

theorem isBinary_of_eq {w : Except Err Bytes} (h : w.toOption.map isBinary = some true) : ∀ bytes, w = .ok bytes → isBinary bytes = true := by
  intro bytes hb
  rw [hb] at h
  simpa [Except.toOption] using h

/-- A map that meets all hypotheses, with exact coordinates. -/
example : XMajor demo (1 / 2, 1 / 2) (1 / 4) 0 2 3 ∧
    (∀ i : ℕ, i < 2 → |round5 (ieee32.rnd (1 / 4 + 1 / 2 * (i : ℚ))) - (1 / 4 + 1 / 2 * (i : ℚ))| ≤ 0) ∧
    (∀ j : ℕ, j < 3 → |round5 (ieee32.rnd (0 + 1 / 2 * (j : ℚ))) - (0 + 1 / 2 * (j : ℚ))| ≤ 0) ∧
    (∀ bytes, writeBinary ieee32 (.dict demo) = .ok bytes → isBinary bytes = true) :=
  ⟨demo_xMajor, by decide +kernel, by decide +kernel, isBinary_of_eq (by decide +kernel)⟩

/-- An array in another order that meets all hypotheses. -/
example : FullGrid shuffled (1 / 2, 1 / 2) (1 / 4) 0 2 3 ∧ (∀ l ∈ ["X", "Y", "N", "T", "M", "U", "V"], l ∈ names shuffled) ∧
    (∀ bytes, writeBinary ieee32 (.array shuffled) = .ok bytes → isBinary bytes = true) := by
  refine ⟨⟨⟨by decide, by decide⟩, by decide, by decide, by decide, by decide, ?_, ?_⟩, by decide, isBinary_of_eq (by decide +kernel)⟩
  · have : ∀ i : ℕ, i < 2 → ∀ j : ℕ, j < 3 → ∃ t < 6, ∀ s < 6, (val shuffled "X" s = 1 / 4 + 1 / 2 * (i : ℚ) ∧ val shuffled "Y" s = 0 + 1 / 2 * (j : ℚ)) ↔ s = t := by decide +kernel
    intro i j hi hj
    obtain ⟨t, ht, h⟩ := this i hi j hj
    exact ⟨t, ⟨ht, (h t ht).mpr rfl⟩, fun s hs => (h s hs.1).mp hs.2⟩
  · have : ∀ t < 6, ∃ i < 2, ∃ j < 3, val shuffled "X" t = 1 / 4 + 1 / 2 * ((i : ℕ) : ℚ) ∧ val shuffled "Y" t = 0 + 1 / 2 * ((j : ℕ) : ℚ) := by decide +kernel
    intro t ht
    obtain ⟨i, hi, j, hj, h⟩ := this t ht
    exact ⟨i, j, hi, hj, h⟩

/-- **C50 is false for dicts in another order**: this regular map, given row after row, is read back with the masses in
the wrong places: the bin at (1, 0) had mass 2 and now has mass 3. -/
theorem C50_row_major_dict_is_misread : ∃ bytes out info, writeBinary ieee32 (.dict rowMajor) = .ok bytes ∧ readData ieee32 bytes = .ok (out, info) ∧
    (val rowMajor "X" 1, val rowMajor "Y" 1, val rowMajor "M" 1) = (1, 0, 2) ∧
    (out.x.getD 2 none, out.y.getD 2 none, val out.rest "M" 2) = (some 1, some 0, 3) := by
  have : ((writeBinary ieee32 (.dict rowMajor)).toOption.bind fun b => (readData ieee32 b).toOption.map fun p =>
      (p.1.x.getD 2 none, p.1.y.getD 2 none, val p.1.rest "M" 2)) = some (some 1, some 0, 3) := by decide +kernel
  cases hw : writeBinary ieee32 (.dict rowMajor) with
  | error e => rw [hw] at this; simp [Except.toOption] at this
  | ok b =>
    rw [hw] at this
    cases hr : readData ieee32 b with
    | error e => simp [Except.toOption, hr] at this
    | ok p =>
      refine ⟨b, p.1, p.2, rfl, hr, by decide +kernel, ?_⟩
      simpa [Except.toOption, hr] using this

/-- **C50 is false for some values**: all bytes of this map are ASCII characters, so the file is taken for a text file
and cannot be read. -/
theorem C50_binary_files_read_as_text : ∃ bytes e, writeBinary ieee32 (.dict textual) = .ok bytes ∧ isBinary bytes = false ∧ readData ieee32 bytes = .error e := by
  have : ((writeBinary ieee32 (.dict textual)).toOption.map fun b => (isBinary b, (readData ieee32 b).toOption)) = some (false, none) := by decide +kernel
  cases hw : writeBinary ieee32 (.dict textual) with
  | error e => rw [hw] at this; simp [Except.toOption] at this
  | ok b =>
    rw [hw] at this
    simp only [Except.toOption, Option.map_some, Option.some.injEq, Prod.mk.injEq] at this
    cases hr : readData ieee32 b with
    | error e => exact ⟨b, e, rfl, this.1, hr⟩
    | ok p => rw [hr] at this; simp at this

/-! ## C51 -/

/-- **C51 (partial), one direction for all files.** A file that decodes as UTF-8 is read as text. -/
theorem C51_utf8_is_text (content : Bytes) (h : ValidUtf8 content) : isBinary content = false := isBinary_valid content h

/-- **C51 (partial), files shorter than 512 bytes.** They are read as text iff they decode as UTF-8. -/
theorem C51_short_files_partial (content : Bytes) (hl : content.length < 512) : isBinary content = false ↔ ValidUtf8 content := by
  refine ⟨?_, isBinary_valid content⟩
  intro h
  rw [isBinary_eq, List.take_of_length_le (by omega)] at h
  rcases h with h | ⟨h, hn⟩
  · exact (ok_iff content).mp h
  · have := (utf8_spec content.length content le_rfl).2.2.2
    omega

/-- **C51, what holds for large files.** They are read as text iff their first 8192 bytes are the beginning of some
text. -/
theorem C51_large_files (content : Bytes) (hl : 8192 ≤ content.length) :
    isBinary content = false ↔ ∃ more, ValidUtf8 (content.take 8192 ++ more) := by
  rw [isBinary_eq, ← not_bad_iff]
  constructor
  · rintro (h | ⟨h, _⟩) <;> rw [h] <;> simp
  · intro h
    have hs := (utf8_spec _ (content.take 8192) le_rfl).2.2.1 h
    rw [List.length_take] at hs
    cases h' : (utf8 (content.take 8192)).2 with
    | ok => exact Or.inl rfl
    | more => exact Or.inr ⟨rfl, by omega⟩
    | bad => exact absurd h' h

/-- **C51 is false for large files**: a file can be read as text although it does not decode, if the first 8192 bytes do.
Here they are zero, as for 292 bins of a map which is zero. -/
theorem C51_undecodable_file_read_as_text : ∃ content, ¬ ValidUtf8 content ∧ isBinary content = false := by
  have key : ∀ (n : ℕ) (b : Bytes), utf8 (List.replicate n 0 ++ b) = ((utf8 b).1 + n, (utf8 b).2) := by
    intro n b
    induction n with
    | zero => rfl
    | succ n ih =>
      rw [List.replicate_succ, List.cons_append, utf8_1 _ _ (by decide), ih]
      simp only [Nat.add_assoc]
  refine ⟨List.replicate 8192 0 ++ [255], ?_, ?_⟩
  · rw [← ok_iff, key]
    decide
  · rw [isBinary_eq, List.take_append_of_le_length (by rw [List.length_replicate]), List.take_of_length_le (by rw [List.length_replicate]), ← List.append_nil (List.replicate 8192 0), key]
    left; rfl

/-- A file with text, and one with the bytes of the number 300. -/
example : ValidUtf8 (ascii "X Y\n".toList) ∧ ¬ ValidUtf8 (ieee32.enc 300) := by
  constructor
  · exact ascii_valid _ (by decide)
  · rw [← ok_iff]
    decide +kernel

/-- **C51 (partial), columns.** Of a text file with a line of names and at least two lines of values, each field is its
column, whenever reading succeeds.

Missing: one line of values; for that the claim is false, see `C51_single_row_unreadable`. -/
theorem C51_columns_partial (F : F32) (ns : List Text) (rows : List (List Text)) (vals : List (List ℚ)) (hnd : ns.Nodup) (hn : ∀ w ∈ ns, Word w)
    (hr : ∀ row ∈ rows, row.length = ns.length ∧ ∀ w ∈ row, Word w) (hlen : 2 ≤ rows.length)
    (hv : rows.mapM (fun row => row.mapM pyFloat) = .ok vals) (out : Out) (info : SInfo)
    (hread : readData F (ascii (tableText ns rows)) = .ok (out, info)) :
    ∀ k (hk : k < ns.length), String.ofList ns[k] ≠ "X" → String.ofList ns[k] ≠ "Y" →
      col? out.rest (String.ofList ns[k]) = some (vals.map fun row => row.getD k 0) := by
  intro k hk hX hY
  have hne : ns ≠ [] := by rintro rfl; simp at hk
  have hlv : vals.length = rows.length := (mapM_length hv).symm
  unfold readData at hread
  rw [isBinary_valid _ (ascii_valid _ (tableText_ascii ns rows hn fun row h => (hr row h).2)), if_neg (by simp), readPlain_table ns rows vals hne hn hr hv, ok_bind] at hread
  simp only at hread
  rw [if_neg (by omega)] at hread
  have hrest := finish_rest hread
  rw [hrest]
  have hnd' : (ns.map String.ofList).Nodup := hnd.map (fun a b h => String.ofList_injective h)
  have hcol : ((ns.map String.ofList).zipIdx.map fun p => (p.1, vals.map fun row => row.getD p.2 0)).filter (fun c => decide (c.1 ∉ ["X", "Y"])) =
      ((ns.map String.ofList).zipIdx.filter (fun p => decide (p.1 ∉ ["X", "Y"]))).map fun p => (p.1, vals.map fun row => row.getD p.2 0) := by
    rw [List.filter_map]; rfl
  rw [hcol]
  unfold col?
  apply lookup_of_mem
  · rw [List.map_map]
    have : ((Prod.fst : Label × List ℚ → Label) ∘ fun p : Label × ℕ => (p.1, vals.map fun row => row.getD p.2 0)) = Prod.fst := rfl
    rw [this]
    refine List.Nodup.sublist (List.Sublist.map _ List.filter_sublist) ?_
    rw [List.zipIdx_map_fst]
    exact hnd'
  · rw [List.mem_map]
    refine ⟨(String.ofList ns[k], k), ?_, rfl⟩
    rw [List.mem_filter]
    refine ⟨?_, by simpa using ⟨hX, hY⟩⟩
    rw [List.mem_zipIdx_iff_getElem?]
    simp [hk]

/-- A table that meets the hypotheses and is read. -/
example : ∃ vals out info, [["0", "0", "7"].map String.toList, ["0", "1", "8.5"].map String.toList, ["1", "0", "-1"].map String.toList,
      ["1", "1", "2"].map String.toList].mapM (fun row => row.mapM pyFloat) = .ok vals ∧
    readData ieee32 (ascii (tableText (["X", "Y", "M"].map String.toList) [["0", "0", "7"].map String.toList, ["0", "1", "8.5"].map String.toList,
      ["1", "0", "-1"].map String.toList, ["1", "1", "2"].map String.toList])) = .ok (out, info) ∧ col? out.rest "M" = some [7, 17 / 2, -1, 2] :=
  ⟨[[0, 0, 7], [0, 1, 17 / 2], [1, 0, -1], [1, 1, 2]], ⟨[some 0, some 0, some 1, some 1], [some 0, some 1, some 0, some 1], [("M", [7, 17 / 2, -1, 2])]⟩,
    ⟨(2, 2), (some 1, some 1), (0, 0), 4⟩, by decide +kernel, by decide +kernel, by decide +kernel⟩

/-- **C51 is false for files with one line of values**: reading raises `TypeError`. -/
theorem C51_single_row_unreadable (F : F32) (ns row : List Text) (vals : List ℚ) (hn : ∀ w ∈ ns, Word w) (hX : "X".toList ∈ ns) (hY : "Y".toList ∈ ns)
    (hr : row.length = ns.length ∧ ∀ w ∈ row, Word w) (hv : row.mapM pyFloat = .ok vals) :
    readData F (ascii (tableText ns [row])) = .error .typeError := by
  have hne : ns ≠ [] := by rintro rfl; simp at hX
  have hr' : ∀ r ∈ [row], r.length = ns.length ∧ ∀ w ∈ r, Word w := by intro r h; rw [List.mem_singleton] at h; rw [h]; exact hr
  unfold readData
  rw [isBinary_valid _ (ascii_valid _ (tableText_ascii ns [row] hn fun row h => (hr' row h).2)), if_neg (by simp),
    readPlain_table ns [row] [vals] hne hn hr' (by rw [List.mapM_cons, hv]; rfl), ok_bind]
  simp only [List.length_singleton, if_true]
  rw [if_pos]
  exact ⟨List.mem_map.mpr ⟨_, hX, rfl⟩, List.mem_map.mpr ⟨_, hY, rfl⟩⟩

/-- A file with one line of values that meets the hypotheses. -/
example : (∀ w ∈ ["X", "Y", "M"].map String.toList, Word w) ∧ "X".toList ∈ ["X", "Y", "M"].map String.toList ∧
    (∀ w ∈ ["0", "1", "8.5"].map String.toList, Word w) ∧ (["0", "1", "8.5"].map String.toList).mapM pyFloat = .ok [0, 1, 17 / 2] := by
  unfold Word
  decide +kernel

/-- **C51/C50 (partial), text round trip.** A map of at least 2 × 2 bins, given as a dict column after column, that is
written in the text format and read back: as for the binary format, with every value rounded to six decimals. -/
theorem C51_text_round_trip_partial (F : F32) (r : Record) (sp : ℚ × ℚ) (x0 y0 : ℚ) (nx ny : ℕ) (h : XMajor r sp x0 y0 nx ny) (hnx : 2 ≤ nx) (hny : 2 ≤ ny)
    (ε : ℚ) (hx : ∀ i, i < nx → |round5 (round6 (F.rnd (x0 + sp.1 * (i : ℚ)))) - (x0 + sp.1 * (i : ℚ))| ≤ ε)
    (hy : ∀ j, j < ny → |round5 (round6 (F.rnd (y0 + sp.2 * (j : ℚ)))) - (y0 + sp.2 * (j : ℚ))| ≤ ε) (hdx : 2 * ε ≤ sp.1) (hdy : 2 * ε + 1 / 10000 ≤ sp.2) :
    ∃ bytes out info, writePlain F (.dict r) = .ok bytes ∧ readData F bytes = .ok (out, info) ∧
      info.shape = (nx, ny) ∧ info.numBins = nx * ny ∧ out.x.length = nx * ny ∧ out.y.length = nx * ny ∧
      names out.rest = ["N", "T", "M", "U", "V"] ∧ (∀ c ∈ out.rest, c.2.length = nx * ny) ∧
      ∀ t, t < nx * ny → (∃ x, out.x.getD t none = some x ∧ |x - val r "X" t| ≤ ε) ∧ (∃ y, out.y.getD t none = some y ∧ |y - val r "Y" t| ≤ ε) ∧
        ∀ l ∈ ["N", "T", "M", "U", "V"], val out.rest l t = round6 (F.rnd (val r l t)) := by
  have hw : writePlain F (.dict r) = .ok (ascii (tableText (fields.map String.toList)
      (((List.range (nx * ny)).map fun t => fields.map fun l => val r l t).map fun row => row.map fun v => fixed6 (F.rnd v)))) := by
    unfold writePlain
    rw [saveData_dict r _ h.cols, ok_bind, rowsOf_cols, tableText_eq]
    unfold plainLines
    simp only [List.map_map, Function.comp_def]
  have hnw : ∀ w ∈ fields.map String.toList, Word w := by unfold Word; decide +kernel
  have hfw : ∀ v, Word (fixed6 v) := by
    intro v
    refine ⟨fixed6_ne_nil v, ?_⟩
    intro c hc
    have := fixed6_chars v c hc
    refine ⟨by omega, by omega, ?_⟩
    rintro rfl
    exact absurd this (by decide)
  obtain ⟨out, info, hf, rest⟩ := roundTrip_aux F r sp x0 y0 nx ny h hnx hny (fun v => round6 (F.rnd v)) ε hx hy hdx hdy
  refine ⟨_, out, info, hw, ?_, rest⟩
  generalize hrows : ((List.range (nx * ny)).map fun t => fields.map fun l => val r l t) = rows at hf hw
  have hlen : ∀ row ∈ rows, row.length = 7 := by
    intro row hr
    rw [← hrows] at hr
    obtain ⟨t, _, rfl⟩ := List.mem_map.mp hr
    simp [fields]
  have hr : ∀ row ∈ rows.map (fun row => row.map fun v => fixed6 (F.rnd v)), row.length = (fields.map String.toList).length ∧ ∀ w ∈ row, Word w := by
    intro row hr
    obtain ⟨row, hr', rfl⟩ := List.mem_map.mp hr
    refine ⟨by rw [List.length_map, hlen row hr']; rfl, ?_⟩
    intro w hw
    obtain ⟨v, _, rfl⟩ := List.mem_map.mp hw
    exact hfw _
  have hv : (rows.map fun row => row.map fun v => fixed6 (F.rnd v)).mapM (fun row => row.mapM pyFloat) = .ok (rows.map fun row => row.map fun v => round6 (F.rnd v)) := by
    rw [mapM_map']
    apply mapM_ok'
    intro row _
    rw [mapM_map']
    exact mapM_ok' _ _ _ fun v _ => pyFloat_fixed6 _
  unfold readData
  rw [isBinary_valid _ (ascii_valid _ (tableText_ascii _ _ hnw fun row h => (hr row h).2)), if_neg (by simp),
    readPlain_table _ _ _ (by simp [fields]) hnw hr hv, ok_bind]
  simp only
  have hn2 : rows.length = nx * ny := by rw [← hrows]; simp
  have h4 : 2 * 2 ≤ nx * ny := Nat.mul_le_mul hnx hny
  rw [if_neg (by rw [List.length_map, hn2]; omega)]
  rw [← hf]
  congr 1
  have hns : (fields.map String.toList).map String.ofList = fields := by decide +kernel
  rw [hns]
  apply List.map_congr_left
  intro p hp
  have hp2 : p.2 < 7 := by
    have := List.snd_lt_of_mem_zipIdx hp
    simpa [fields] using this
  rw [List.map_map]
  congr 1
  apply List.map_congr_left
  intro row hr
  simp [List.getD_eq_getElem?_getD, hlen row hr, hp2]

/-- The hypotheses hold for the demonstration map. -/
example : XMajor demo (1 / 2, 1 / 2) (1 / 4) 0 2 3 ∧
    (∀ i : ℕ, i < 2 → |round5 (round6 (ieee32.rnd (1 / 4 + 1 / 2 * (i : ℚ)))) - (1 / 4 + 1 / 2 * (i : ℚ))| ≤ 0) ∧
    (∀ j : ℕ, j < 3 → |round5 (round6 (ieee32.rnd (0 + 1 / 2 * (j : ℚ)))) - (0 + 1 / 2 * (j : ℚ))| ≤ 0) :=
  ⟨demo_xMajor, by decide +kernel, by decide +kernel⟩

/-! ## C52 -/

/-- **C52 (partial).** For the bins of a full grid in any order the information is that of the grid.

Missing: grids of one column or one row, whose spacing cannot be known: it becomes NaN (`none`), see
`C52_single_row_has_no_spacing`, and grids with rows closer than 1/10000, see `C52_close_rows_are_merged`. -/
theorem C52_information_partial (r : Record) (sp : ℚ × ℚ) (x0 y0 : ℚ) (nx ny : ℕ) (X Y : List ℚ) (h : FullGrid r sp x0 y0 nx ny)
    (hX : col? r "X" = some X) (hY : col? r "Y" = some Y) (hx : 0 < sp.1) (hy : 1 / 10000 ≤ sp.2) (hnx : 2 ≤ nx) (hny : 2 ≤ ny) :
    calcInformation X Y = .ok ⟨(nx, ny), (some sp.1, some sp.2), (x0, y0), nx * ny⟩ := by
  have hy' : 0 < sp.2 := by linarith
  have hp := h.perm hx hy'
  have cols : ∀ l c, col? r l = some c → c = (List.range (Flow.size r)).map (val r l) := by
    intro l c hc
    have hl := col?_length h.wf hc
    conv_lhs => rw [eq_map_getD c, hl]
    apply List.map_congr_left
    intro t _
    rw [val_of_col hc]
  have hXp := hp.map Prod.snd
  have hYp := hp.map Prod.fst
  unfold nodes at hXp hYp
  rw [List.map_map, List.map_map] at hXp hYp
  have mono : ∀ (d z : ℚ) (n : ℕ), 0 < d → ∀ i j : ℕ, i ≤ j → j < n → z + d * (i : ℚ) ≤ z + d * (j : ℚ) := by
    intro d z n hd i j hij _
    have : (i : ℚ) ≤ (j : ℚ) := by exact_mod_cast hij
    nlinarith
  have spacing : ∀ (d z : ℚ) (n : ℕ), 2 ≤ n → (z + d * ((n - 1 : ℕ) : ℚ) - (z + d * ((0 : ℕ) : ℚ))) / ((n : ℚ) - 1) = d := by
    intro d z n hn
    have : (2 : ℚ) ≤ (n : ℚ) := by exact_mod_cast hn
    have h0 : ((n : ℚ) - 1) ≠ 0 := by intro h; linarith
    push_cast [Nat.cast_sub (show 1 ≤ n by omega)]
    field_simp
    ring
  rw [calcInformation_eq X Y nx ny (fun i => x0 + sp.1 * (i : ℚ)) (fun j => y0 + sp.2 * (j : ℚ)) h.nxpos h.nypos
    (by rw [cols "X" X hX]; exact hXp) (by rw [cols "Y" Y hY]; exact hYp) (mono _ _ _ hx) (mono _ _ _ hy')
    (by
      intro j hj _
      have : (1 : ℚ) ≤ (j : ℚ) := by exact_mod_cast hj
      push_cast
      nlinarith)]
  rw [if_neg (by omega), if_neg (by omega), spacing _ _ _ hnx, spacing _ _ _ hny]
  simp

/-- The demonstration array meets the hypotheses with `nx = 2`, `ny = 3` and gives the information of its grid. -/
example : col? shuffled "X" = some [3 / 4, 1 / 4, 3 / 4, 1 / 4, 1 / 4, 3 / 4] ∧
    calcInformation [3 / 4, 1 / 4, 3 / 4, 1 / 4, 1 / 4, 3 / 4] [0, 0, 1, 1, 1 / 2, 1 / 2] = .ok ⟨(2, 3), (some (1 / 2), some (1 / 2)), (1 / 4, 0), 6⟩ := by
  decide +kernel

/-- **C52 is false for one row or one column**: the spacing is not a number. -/
theorem C52_single_row_has_no_spacing : calcInformation [0, 1, 2] [5, 5, 5] = .ok ⟨(3, 1), (some 1, none), (0, 5), 3⟩ ∧
    calcInformation [5, 5, 5] [0, 1, 2] = .ok ⟨(1, 3), (none, some 1), (5, 0), 3⟩ := by
  decide +kernel

/-- **C52 is false for very close rows**: a grid of 2 × 2 bins with rows 1/20000 apart is taken for one of 4 × 1 bins. -/
theorem C52_close_rows_are_merged : ∃ i, calcInformation [0, 1, 0, 1] [0, 0, 1 / 20000, 1 / 20000] = .ok i ∧ i.shape = (4, 1) :=
  ⟨⟨(4, 1), (some (1 / 3), none), (0, 0), 4⟩, by decide +kernel, rfl⟩

/-! ## C53 -/

/-- **C53, gmx files.** Whatever is written as gmx_flow_1 is recognised as such. -/
theorem C53_gmx_is_recognised (F : F32) (data : Record) (i : GInfo) (ftype : Option String) (hf : ftype ∈ [none, some "default", some "gmx"])
    (bytes : Bytes) (h : write F data (some i) ftype = .ok bytes) : isGmx bytes = true := by
  have h' : writeData F data i = .ok bytes := by
    simp only [List.mem_cons, List.not_mem_nil, or_false] at hf
    rcases hf with rfl | rfl | rfl <;> exact h
  obtain ⟨num, rest, rfl⟩ := writeData_header F data i bytes h'
  exact isGmx_header i num rest

/-- The demonstration map can be written in the gmx format. -/
example : (write ieee32 demo (some ⟨(2, 3), (1 / 2, 1 / 2), (0, 0)⟩) none).toOption.isSome = true := by decide +kernel

/-- **C53, text files.** What is written as simple text is never taken for gmx_flow_1. -/
theorem C53_text_is_simple (F : F32) (data : Record) (info : Option GInfo) (bytes : Bytes) (h : write F data info (some "simple_plain") = .ok bytes) :
    isGmx bytes = false := by
  have h' : writePlain F (.dict data) = .ok bytes := h
  unfold writePlain at h'
  cases hs : saveData (.dict data) with
  | error e => rw [hs] at h'; cases h'
  | ok cols =>
    rw [hs, ok_bind] at h'
    cases h'
    unfold plainLines
    rw [List.flatMap_cons]
    generalize ((rowsOf cols).map fun row => joinSp (row.map fun v => fixed6 (F.rnd v))).flatMap (fun l => l ++ ['\n']) = rest
    have : joinSp (fields.map String.toList) ++ ['\n'] = 'X' :: " Y N T M U V\n".toList := by decide +kernel
    rw [this]
    exact isGmx_first 'X' _ (by decide +kernel) _

/-- **C53, binary files (partial).** What is written in the simple binary format is not taken for gmx_flow_1, unless the
four bytes of the first coordinate spell "FORM".

Missing: those files; for some of them the claim is false, see `C53_simple_file_taken_for_gmx`. -/
theorem C53_binary_is_simple_partial (F : F32) (data : Record) (info : Option GInfo) (bytes : Bytes)
    (h : write F data info (some "simple") = .ok bytes) (hx : F.enc (val data "X" 0) ≠ ascii "FORM".toList) : isGmx bytes = false := by
  have h' : writeBinary F (.dict data) = .ok bytes := h
  unfold writeBinary at h'
  cases hs : saveData (.dict data) with
  | error e => rw [hs] at h'; cases h'
  | ok cols =>
    rw [hs, ok_bind] at h'
    obtain ⟨c, cs, hc, hcol⟩ := saveData_first data cols hs
    cases h'
    unfold rowsOf
    rw [hc, List.headD_cons]
    cases hcl : c with
    | nil => rfl
    | cons v vs =>
      rw [List.length_cons, List.range_succ_eq_map, List.map_cons, List.flatMap_cons, List.map_cons, List.flatMap_cons, List.append_assoc]
      have hv : (v :: vs).getD 0 0 = val data "X" 0 := by rw [val_of_col hcol, hcl]
      rw [hv]
      exact isGmx_four _ _ (F.len _) hx

/-- A map that meets the hypotheses. -/
example : (write ieee32 demo none (some "simple")).toOption.isSome = true ∧ ieee32.enc (val demo "X" 0) ≠ ascii "FORM".toList := by decide +kernel

/-- The numbers whose bytes spell the beginning of a gmx_flow_1 file. -/
def disguised : Record :=
  [("X", [ieee32.dec (ascii "FORM".toList)]), ("Y", [ieee32.dec (ascii "AT G".toList)]), ("N", [ieee32.dec (ascii "MX_F".toList)]),
    ("T", [ieee32.dec (ascii "LOW_".toList)]), ("M", [ieee32.dec (ascii "1111".toList)]), ("U", [0]), ("V", [0])]

/-- **C53 is false for some maps**: this one is written in the simple format and then taken for a gmx_flow_1 file. -/
theorem C53_simple_file_taken_for_gmx : ∃ bytes, write ieee32 disguised none (some "simple") = .ok bytes ∧ isGmx bytes = true := by
  have : ((write ieee32 disguised none (some "simple")).toOption.map isGmx) = some true := by decide +kernel
  cases hw : write ieee32 disguised none (some "simple") with
  | error e => rw [hw] at this; simp [Except.toOption] at this
  | ok b => rw [hw] at this; exact ⟨b, rfl, by simpa [Except.toOption] using this⟩

/-- **C53, unknown formats** raise `KeyError`, and the gmx format needs the information. -/
theorem C53_unknown_format (F : F32) (data : Record) (info : Option GInfo) (name : String) (h : name ∉ ["default", "gmx", "simple", "simple_plain"]) :
    write F data info (some name) = .error .keyError ∧ write F data none none = .error .typeError := by
  refine ⟨?_, rfl⟩
  simp only [List.mem_cons, List.not_mem_nil, or_false, not_or] at h
  unfold write
  split <;> simp_all

/-- A name that is unknown. -/
example : "vtk" ∉ ["default", "gmx", "simple", "simple_plain"] := by decide

end Strata.Simple
