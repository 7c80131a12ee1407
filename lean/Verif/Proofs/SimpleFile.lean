import Verif.Proofs.Simple
/-! # Lemmas about simple files: from columns to what the reader returns -/
namespace Strata.Simple
open Strata Strata.Flow Strata.Average Strata.Bytes Strata.PyText Strata.Files Strata.Resample Strata.Gmx

/-- Rows and columns of a grid can be exchanged. -/
theorem perm_transpose (nx ny : ℕ) (hnx : 0 < nx) (hny : 0 < ny) (f : ℕ → ℕ → ℚ) :
    ((List.range (nx * ny)).map fun t => f (t / ny) (t % ny)).Perm ((List.range (nx * ny)).map fun t => f (t % nx) (t / nx)) := by
  have hσ : ((List.range (nx * ny)).map fun t => (t % nx) * ny + t / nx).Perm (List.range (nx * ny)) := by
    rw [List.perm_ext_iff_of_nodup _ List.nodup_range]
    · intro a
      rw [List.mem_map, List.mem_range]
      constructor
      · rintro ⟨t, ht, rfl⟩
        rw [List.mem_range] at ht
        have h1 : t % nx < nx := Nat.mod_lt _ hnx
        have h2 : t / nx < ny := by rw [Nat.div_lt_iff_lt_mul hnx, Nat.mul_comm]; exact ht
        have := grid_lt (nx := ny) (ny := nx) h2 h1
        rwa [Nat.mul_comm ny nx] at this
      · intro ha
        have h1 : a % ny < ny := Nat.mod_lt _ hny
        have h2 : a / ny < nx := by rw [Nat.div_lt_iff_lt_mul hny]; exact ha
        refine ⟨(a % ny) * nx + a / ny, List.mem_range.mpr (grid_lt h2 h1), ?_⟩
        rw [grid_mod h2, grid_div h2, Nat.mul_comm]
        exact Nat.div_add_mod a ny
    · refine List.Nodup.map_on ?_ List.nodup_range
      intro a ha b hb h
      rw [List.mem_range] at ha hb
      have hA : a / nx < ny := by rw [Nat.div_lt_iff_lt_mul hnx, Nat.mul_comm]; exact ha
      have hB : b / nx < ny := by rw [Nat.div_lt_iff_lt_mul hnx, Nat.mul_comm]; exact hb
      have e1 := congrArg (· % ny) h
      have e2 := congrArg (· / ny) h
      simp only [grid_mod hA, grid_mod hB, grid_div hA, grid_div hB] at e1 e2
      rw [← Nat.div_add_mod a nx, ← Nat.div_add_mod b nx, e1, e2]
  have := (hσ.map fun t => f (t / ny) (t % ny)).symm
  refine this.trans ?_
  rw [List.map_map]
  apply List.Perm.of_eq
  apply List.map_congr_left
  intro t ht
  have h2 : t / nx < ny := by rw [Nat.div_lt_iff_lt_mul hnx, Nat.mul_comm]; exact List.mem_range.mp ht
  simp only [Function.comp, grid_mod h2, grid_div h2]

theorem abs_interp (a b ε t : ℚ) (ha : |a| ≤ ε) (hb : |b| ≤ ε) (h0 : 0 ≤ t) (h1 : t ≤ 1) : |(1 - t) * a + t * b| ≤ ε := by
  rw [abs_le] at *
  constructor <;> nlinarith

/-- A coordinate rebuilt from first and last coordinate of an axis is as accurate as these are. -/
theorem axis_near (n i : ℕ) (hn : 2 ≤ n) (hi : i < n) (x0 d ε : ℚ) (e : ℕ → ℚ) (h : ∀ i, i < n → |e i - (x0 + d * (i : ℚ))| ≤ ε) :
    |e 0 + (e (n - 1) - e 0) / ((n : ℚ) - 1) * (i : ℚ) - (x0 + d * (i : ℚ))| ≤ ε := by
  have hn' : (0 : ℚ) < (n : ℚ) - 1 := by
    have : (2 : ℚ) ≤ (n : ℚ) := by exact_mod_cast hn
    linarith
  have h0 := h 0 (by omega)
  have h1 := h (n - 1) (by omega)
  have hc : ((n - 1 : ℕ) : ℚ) = (n : ℚ) - 1 := by push_cast [Nat.cast_sub (show 1 ≤ n by omega)]; rfl
  rw [hc] at h1
  have hi' : (i : ℚ) ≤ (n : ℚ) - 1 := by rw [← hc]; exact_mod_cast (by omega : i ≤ n - 1)
  have key := abs_interp _ _ ε ((i : ℚ) / ((n : ℚ) - 1)) h0 h1 (by positivity) (by rw [div_le_one hn']; exact hi')
  refine le_of_eq_of_le (congrArg _ ?_) key
  field_simp
  push_cast
  ring

theorem map_filter_names (ls : List Label) (F : Label → List ℚ) (q : Label → Bool) :
    (ls.map fun l => (l, F l)).filter (fun c => q c.1) = (ls.filter q).map fun l => (l, F l) := by
  rw [List.filter_map]; rfl

/-- The last part of the reader on a grid in x-major order whose stored coordinates are off by at most `ε`. -/
theorem finish_grid (r : Record) (nx ny : ℕ) (cx cy : ℕ → ℚ) (x0 y0 dx dy ε : ℚ) (hnx : 2 ≤ nx) (hny : 2 ≤ ny)
    (hX : col? r "X" = some ((List.range (nx * ny)).map fun t => cx (t / ny)))
    (hY : col? r "Y" = some ((List.range (nx * ny)).map fun t => cy (t % ny)))
    (hx : ∀ i, i < nx → |round5 (cx i) - (x0 + dx * (i : ℚ))| ≤ ε) (hy : ∀ j, j < ny → |round5 (cy j) - (y0 + dy * (j : ℚ))| ≤ ε)
    (hdx : 2 * ε ≤ dx) (hdy : 2 * ε + 1 / 10000 ≤ dy) :
    ∃ sx sy, finish r = .ok (⟨(List.range (nx * ny)).map fun t => some (round5 (cx 0) + sx * ((t / ny : ℕ) : ℚ)),
      (List.range (nx * ny)).map fun t => some (round5 (cy 0) + sy * ((t % ny : ℕ) : ℚ)), r.filter fun c => decide (c.1 ∉ ["X", "Y"])⟩,
      ⟨(nx, ny), (some sx, some sy), (round5 (cx 0), round5 (cy 0)), nx * ny⟩) ∧
      sx = (round5 (cx (nx - 1)) - round5 (cx 0)) / ((nx : ℚ) - 1) ∧ sy = (round5 (cy (ny - 1)) - round5 (cy 0)) / ((ny : ℚ) - 1) ∧
      (∀ i, i < nx → |round5 (cx 0) + sx * (i : ℚ) - (x0 + dx * (i : ℚ))| ≤ ε) ∧
      (∀ j, j < ny → |round5 (cy 0) + sy * (j : ℚ) - (y0 + dy * (j : ℚ))| ≤ ε) := by
  have hε : 0 ≤ ε := le_trans (abs_nonneg _) (hx 0 (by omega))
  have mono : ∀ (n : ℕ) (e : ℕ → ℚ) (z d : ℚ), 2 * ε ≤ d → (∀ i, i < n → |e i - (z + d * (i : ℚ))| ≤ ε) →
      ∀ i j, i ≤ j → j < n → e i ≤ e j := by
    intro n e z d hd h i j hij hj
    rcases eq_or_lt_of_le hij with rfl | hlt
    · exact le_rfl
    · have h1 := abs_le.mp (h i (by omega))
      have h2 := abs_le.mp (h j hj)
      have h3 : (1 : ℚ) ≤ (j : ℚ) - (i : ℚ) := by
        have : (i : ℚ) + 1 ≤ (j : ℚ) := by exact_mod_cast hlt
        linarith
      nlinarith
  have hinfo := calcInformation_eq (((List.range (nx * ny)).map fun t => cx (t / ny)).map round5) (((List.range (nx * ny)).map fun t => cy (t % ny)).map round5)
    nx ny (fun i => round5 (cx i)) (fun j => round5 (cy j)) (by omega) (by omega)
    (by rw [List.map_map]; exact perm_transpose nx ny (by omega) (by omega) fun i _ => round5 (cx i))
    (by rw [List.map_map]; exact perm_transpose nx ny (by omega) (by omega) fun _ j => round5 (cy j))
    (mono nx _ x0 dx hdx hx) (mono ny _ y0 dy (by linarith) hy)
    (by
      intro j hj0 hj
      have h1 := abs_le.mp (hy 0 (by omega))
      have h2 := abs_le.mp (hy j hj)
      have h3 : (1 : ℚ) ≤ (j : ℚ) := by exact_mod_cast hj0
      push_cast at h1
      nlinarith)
  rw [if_neg (by omega), if_neg (by omega)] at hinfo
  refine ⟨_, _, ?_, rfl, rfl, ?_, ?_⟩
  · unfold finish
    rw [hX, hY]
    simp only [Option.elim_some, ok_bind]
    rw [hinfo]
    simp only [ok_bind, Option.map_some]
  · intro i hi
    exact axis_near nx i hnx hi x0 dx ε (fun i => round5 (cx i)) hx
  · intro j hj
    exact axis_near ny j hny hj y0 dy ε (fun j => round5 (cy j)) hy

end Strata.Simple
