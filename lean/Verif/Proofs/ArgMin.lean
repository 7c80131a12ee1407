import Mathlib.Data.List.Induction
import Mathlib.Order.Lattice
/-! # The first smallest element of a list -/
namespace Strata

theorem argmin_spec {α β : Type} [LinearOrder β] (m : α → β) (a : α) (l : List α) :
    ∃ A r B, l.foldl (fun best z => if m z < m best then z else best) a = r ∧ a :: l = A ++ r :: B ∧ (∀ x ∈ A, m r < m x) ∧ ∀ x ∈ B, m r ≤ m x := by
  induction l using List.reverseRecOn with
  | nil => exact ⟨[], a, [], rfl, rfl, by simp, by simp⟩
  | append_singleton l z ih =>
    obtain ⟨A, r, B, h1, h2, h3, h4⟩ := ih
    rw [List.foldl_append, h1]
    simp only [List.foldl_cons, List.foldl_nil]
    by_cases h : m z < m r
    · refine ⟨a :: l, z, [], if_pos h, rfl, ?_, by simp⟩
      intro x hx
      rw [h2] at hx
      simp only [List.mem_append, List.mem_cons] at hx
      rcases hx with hx | rfl | hx
      · exact h.trans (h3 x hx)
      · exact h
      · exact lt_of_lt_of_le h (h4 x hx)
    · refine ⟨A, r, B ++ [z], if_neg h, ?_, h3, ?_⟩
      · rw [← List.cons_append, h2, List.append_assoc, List.cons_append]
      · intro x hx
        simp only [List.mem_append, List.mem_singleton] at hx
        rcases hx with hx | rfl
        · exact h4 x hx
        · exact not_lt.mp h

end Strata
