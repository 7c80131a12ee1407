import Mathlib.Algebra.BigOperators.Intervals
import Mathlib.Algebra.BigOperators.Ring.Finset
import Mathlib.Algebra.BigOperators.Field
import Mathlib.Tactic.Linarith
import Mathlib.Tactic.Ring
/-! # Sums and indices on flattened grids -/
namespace Strata
open Finset

theorem list_sum_range {M : Type*} [AddCommMonoid M] (n : ℕ) (f : ℕ → M) :
    ((List.range n).map f).sum = ∑ i ∈ range n, f i := by
  induction n with
  | zero => simp
  | succ n ih => rw [List.range_succ, List.map_append, List.sum_append, ih, Finset.sum_range_succ]; simp

theorem list_sum_getD (l : List ℚ) (n : ℕ) (h : l.length = n) : l.sum = ∑ t ∈ range n, l.getD t 0 := by
  rw [← list_sum_range, ← h]
  congr 1
  apply List.ext_getElem
  · simp
  · intro i h1 h2
    simp [List.getD_eq_getElem?_getD, h1]

theorem grid_lt {nx ny i j : ℕ} (hi : i < nx) (hj : j < ny) : j * nx + i < nx * ny := by
  calc j * nx + i < j * nx + nx := by omega
    _ = (j + 1) * nx := by ring
    _ ≤ ny * nx := Nat.mul_le_mul_right _ hj
    _ = nx * ny := Nat.mul_comm _ _

theorem grid_mod {nx i j : ℕ} (hi : i < nx) : (j * nx + i) % nx = i := by
  rw [Nat.mul_comm, Nat.mul_add_mod, Nat.mod_eq_of_lt hi]

theorem grid_div {nx i j : ℕ} (hi : i < nx) : (j * nx + i) / nx = j := by
  rw [Nat.mul_comm, Nat.mul_add_div (by omega), Nat.div_eq_of_lt hi, Nat.add_zero]

theorem grid_decomp {nx ny t : ℕ} (h : t < nx * ny) : t % nx < nx ∧ t / nx < ny ∧ t = t / nx * nx + t % nx := by
  have hp : 0 < nx := Nat.pos_of_ne_zero (by rintro rfl; simp at h)
  refine ⟨Nat.mod_lt _ hp, Nat.div_lt_of_lt_mul h, ?_⟩
  rw [Nat.mul_comm]; exact (Nat.div_add_mod t nx).symm

/-- A sum over a flattened grid is a double sum. -/
theorem sum_range_grid {M : Type*} [AddCommMonoid M] (nx ny : ℕ) (F : ℕ → ℕ → M) :
    ∑ t ∈ range (nx * ny), F (t % nx) (t / nx) = ∑ j ∈ range ny, ∑ i ∈ range nx, F i j := by
  induction ny with
  | zero => simp
  | succ n ih =>
    rw [Nat.mul_succ, Finset.sum_range_add, ih, Finset.sum_range_succ]
    congr 1
    apply Finset.sum_congr rfl
    intro i hi
    rw [mem_range] at hi
    rw [show nx * n + i = n * nx + i by ring, grid_mod hi, grid_div hi]

/-- A window of a sum. -/
theorem sum_window {M : Type*} [AddCommMonoid M] (N i0 n : ℕ) (h : i0 + n ≤ N) (g : ℕ → M) :
    (∑ i ∈ range N, if i0 ≤ i ∧ i < i0 + n then g (i - i0) else 0) = ∑ i ∈ range n, g i := by
  obtain ⟨m, rfl⟩ := Nat.exists_eq_add_of_le h
  rw [Finset.sum_range_add, Finset.sum_range_add]
  have h1 : (∑ x ∈ range i0, if i0 ≤ x ∧ x < i0 + n then g (x - i0) else 0) = 0 := by
    apply Finset.sum_eq_zero
    intro x hx
    rw [mem_range] at hx
    rw [if_neg (by omega)]
  have h3 : (∑ x ∈ range m, if i0 ≤ i0 + n + x ∧ i0 + n + x < i0 + n then g (i0 + n + x - i0) else 0) = 0 := by
    apply Finset.sum_eq_zero
    intro x hx
    rw [if_neg (by omega)]
  rw [h1, h3, zero_add, add_zero]
  apply Finset.sum_congr rfl
  intro i hi
  rw [mem_range] at hi
  rw [if_pos (by omega)]
  congr 1
  omega

end Strata
