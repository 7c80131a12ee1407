import Verif.Model.Numeric
import Mathlib.Tactic.Linarith
/-! # Lemmas about the Numpy primitives -/
namespace Strata

theorem foldl_min_spec (l : List ℚ) (a : ℚ) :
    l.foldl min a ∈ a :: l ∧ ∀ x ∈ a :: l, l.foldl min a ≤ x := by
  induction l generalizing a with
  | nil => simp
  | cons b l ih =>
    simp only [List.foldl_cons]
    obtain ⟨h1, h2⟩ := ih (min a b)
    refine ⟨?_, ?_⟩
    · rcases List.mem_cons.mp h1 with h | h
      · rw [h]; rcases min_choice a b with e | e <;> simp [e]
      · simp [h]
    · intro x hx
      have hm := h2 (min a b) (by simp)
      rcases List.mem_cons.mp hx with h | h
      · rw [h]; exact hm.trans (min_le_left _ _)
      · rcases List.mem_cons.mp h with h | h
        · rw [h]; exact hm.trans (min_le_right _ _)
        · exact h2 x (by simp [h])

theorem foldl_max_spec (l : List ℚ) (a : ℚ) :
    l.foldl max a ∈ a :: l ∧ ∀ x ∈ a :: l, x ≤ l.foldl max a := by
  induction l generalizing a with
  | nil => simp
  | cons b l ih =>
    simp only [List.foldl_cons]
    obtain ⟨h1, h2⟩ := ih (max a b)
    refine ⟨?_, ?_⟩
    · rcases List.mem_cons.mp h1 with h | h
      · rw [h]; rcases max_choice a b with e | e <;> simp [e]
      · simp [h]
    · intro x hx
      have hm := h2 (max a b) (by simp)
      rcases List.mem_cons.mp hx with h | h
      · rw [h]; exact (le_max_left _ _).trans hm
      · rcases List.mem_cons.mp h with h | h
        · rw [h]; exact (le_max_right _ _).trans hm
        · exact h2 x (by simp [h])

theorem npMin_ok_iff (l : List ℚ) (m : ℚ) : npMin l = .ok m ↔ m ∈ l ∧ ∀ x ∈ l, m ≤ x := by
  cases l with
  | nil => simp [npMin]
  | cons a l =>
    obtain ⟨h1, h2⟩ := foldl_min_spec l a
    simp only [npMin, Except.ok.injEq]
    constructor
    · rintro rfl; exact ⟨h1, h2⟩
    · rintro ⟨g1, g2⟩; exact le_antisymm (h2 m g1) (g2 _ h1)

theorem npMax_ok_iff (l : List ℚ) (m : ℚ) : npMax l = .ok m ↔ m ∈ l ∧ ∀ x ∈ l, x ≤ m := by
  cases l with
  | nil => simp [npMax]
  | cons a l =>
    obtain ⟨h1, h2⟩ := foldl_max_spec l a
    simp only [npMax, Except.ok.injEq]
    constructor
    · rintro rfl; exact ⟨h1, h2⟩
    · rintro ⟨g1, g2⟩; exact le_antisymm (g2 _ h1) (h2 m g1)

theorem npMin_exists {l : List ℚ} (h : l ≠ []) : ∃ m, npMin l = .ok m := by
  cases l with
  | nil => exact absurd rfl h
  | cons a l => exact ⟨_, rfl⟩

theorem npMax_exists {l : List ℚ} (h : l ≠ []) : ∃ m, npMax l = .ok m := by
  cases l with
  | nil => exact absurd rfl h
  | cons a l => exact ⟨_, rfl⟩

theorem mem_npUnique (l : List ℚ) (x : ℚ) : x ∈ npUnique l ↔ x ∈ l := by
  simp [npUnique]

theorem pairwise_npUnique (l : List ℚ) : (npUnique l).Pairwise (· < ·) := by
  have h1 : (npUnique l).Pairwise (· ≤ ·) := List.pairwise_insertionSort _ _
  have h2 : (npUnique l).Nodup := (List.perm_insertionSort _ _).nodup_iff.mpr l.nodup_dedup
  exact (h1.and h2).imp fun ⟨a, b⟩ => lt_of_le_of_ne a b

end Strata
