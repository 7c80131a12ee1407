import Verif.Proofs.Supersample
/-! # Lemmas used by the resampling properties -/
namespace Strata.Resample
open Strata Strata.Flow Strata.Average Finset

variable {r : Record} {sp : ℚ × ℚ} {x0 y0 : ℚ} {nx ny : ℕ} {co : Label × Label}

/-- Sums over the rows of a full grid are sums over its nodes. -/
theorem FullGrid.sum_rows (h : FullGrid r sp x0 y0 nx ny co) (hx : 0 < sp.1) (hy : 0 < sp.2) (P : ℚ → ℚ → Prop)
    [∀ x y, Decidable (P x y)] (K : (Label → ℚ) → ℚ) :
    (∑ t ∈ (range (Flow.size r)).filter (fun t => P (val r co.1 t) (val r co.2 t)), K fun l => val r l t) =
      ∑ p ∈ (range nx ×ˢ range ny).filter (fun p => P (x0 + sp.1 * (p.1 : ℚ)) (y0 + sp.2 * (p.2 : ℚ))),
        K fun l => atNode r l sp x0 y0 co p.1 p.2 := by
  symm
  refine Finset.sum_bij (fun p hp => (h.node p.1 p.2 (by simp at hp; exact hp.1.1) (by simp at hp; exact hp.1.2)).choose) ?_ ?_ ?_ ?_
  · intro p hp
    obtain ⟨⟨h1, h2, h3⟩, -⟩ := (h.node p.1 p.2 (by simp at hp; exact hp.1.1) (by simp at hp; exact hp.1.2)).choose_spec
    simp only [Finset.mem_filter, Finset.mem_range, Finset.mem_product] at hp ⊢
    rw [h2, h3]
    exact ⟨h1, hp.2⟩
  · intro p hp q hq e
    obtain ⟨⟨-, h2, h3⟩, -⟩ := (h.node p.1 p.2 (by simp at hp; exact hp.1.1) (by simp at hp; exact hp.1.2)).choose_spec
    obtain ⟨⟨-, g2, g3⟩, -⟩ := (h.node q.1 q.2 (by simp at hq; exact hq.1.1) (by simp at hq; exact hq.1.2)).choose_spec
    rw [e, g2] at h2
    rw [e, g3] at h3
    exact Prod.ext (node_inj hx h2).symm (node_inj2 hy h3).symm
  · intro t ht
    simp only [Finset.mem_filter, Finset.mem_range] at ht
    obtain ⟨i, j, hi, hj, e1, e2⟩ := h.row t ht.1
    refine ⟨(i, j), ?_, ?_⟩
    · simp only [Finset.mem_filter, Finset.mem_range, Finset.mem_product]
      exact ⟨⟨hi, hj⟩, by rw [← e1, ← e2]; exact ht.2⟩
    · exact ((h.node i j hi hj).choose_spec.2 t ⟨ht.1, e1, e2⟩).symm
  · intro p hp
    obtain ⟨⟨h1, h2, h3⟩, -⟩ := (h.node p.1 p.2 (by simp at hp; exact hp.1.1) (by simp at hp; exact hp.1.2)).choose_spec
    congr 1
    funext l
    have := h.valueAt_row l h1
    rw [h2, h3] at this
    exact this

theorem Lattice.fullGrid (h : Lattice r sp x0 y0 nx ny co) (hx : 0 < sp.1) (hy : 0 < sp.2) : FullGrid r sp x0 y0 nx ny co := by
  refine ⟨h.wf, h.hasX, h.hasY, h.nxpos, h.nypos, ?_, ?_⟩
  · intro i j hi hj
    refine ⟨j * nx + i, ⟨by rw [h.size]; exact grid_lt hi hj, h.row hi hj⟩, ?_⟩
    rintro t ⟨ht, e1, e2⟩
    rw [h.size] at ht
    have := h.row hi hj
    exact h.unique hx hy ht (grid_lt hi hj) (by rw [e1, this.1]) (by rw [e2, this.2])
  · intro t ht
    rw [h.size] at ht
    obtain ⟨a, b, -⟩ := grid_decomp ht
    exact ⟨_, _, a, b, h.x t ht, h.y t ht⟩

/-- Splitting a sum into blocks. -/
theorem sum_blocks' (n m : ℕ) (F : ℕ → ℚ) : ∑ i ∈ range (m * n), F i = ∑ J ∈ range m, ∑ a ∈ range n, F (n * J + a) := by
  induction m with
  | zero => simp
  | succ m ih => rw [Nat.succ_mul, Finset.sum_range_add, ih, Finset.sum_range_succ, Nat.mul_comm n m]

theorem sum_blockSum (n : ℕ × ℕ) (mx my : ℕ) (F : ℕ → ℕ → ℚ) :
    ∑ I ∈ range my, ∑ J ∈ range mx, blockSum n F J I = ∑ j ∈ range (my * n.2), ∑ i ∈ range (mx * n.1), F i j := by
  rw [sum_blocks']
  apply Finset.sum_congr rfl
  intro I _
  unfold blockSum
  rw [Finset.sum_comm]
  apply Finset.sum_congr rfl
  intro b _
  rw [sum_blocks']

theorem Window.sum {xlim ylim : Option ℚ × Option ℚ} {a b mx my : ℕ} (h : Window sp x0 y0 nx ny xlim ylim a b mx my)
    (F : ℕ → ℕ → ℚ) :
    (∑ p ∈ (range nx ×ˢ range ny).filter (fun p => Within xlim.1 xlim.2 (x0 + sp.1 * (p.1 : ℚ)) ∧
        Within ylim.1 ylim.2 (y0 + sp.2 * (p.2 : ℚ))), F p.1 p.2) = ∑ j ∈ range my, ∑ i ∈ range mx, F (a + i) (b + j) := by
  rw [Finset.sum_filter, Finset.sum_product_right,
    ← sum_window ny b my h.yle fun j => ∑ i ∈ range mx, F (a + i) (b + j)]
  apply Finset.sum_congr rfl
  intro j hj
  rw [Finset.mem_range] at hj
  split
  · rename_i hb
    rw [← sum_window nx a mx h.xle fun i => F (a + i) (b + (j - b))]
    apply Finset.sum_congr rfl
    intro i hi
    rw [Finset.mem_range] at hi
    simp only [h.x i hi, h.y j hj, hb, and_true]
    split
    · rename_i ha
      congr 1 <;> omega
    · rfl
  · rename_i hb
    apply Finset.sum_eq_zero
    intro i _
    simp only [h.y j hj, hb, and_false, if_false]

theorem blockSum_congr (n : ℕ × ℕ) (F G : ℕ → ℕ → ℚ) (mx my J I : ℕ) (hJ : J < mx / n.1) (hI : I < my / n.2)
    (h : ∀ i j, i < mx → j < my → F i j = G i j) : blockSum n F J I = blockSum n G J I := by
  unfold blockSum
  apply Finset.sum_congr rfl
  intro b hb
  apply Finset.sum_congr rfl
  intro a ha
  rw [Finset.mem_range] at ha hb
  apply h
  · have h1 : n.1 * J + n.1 ≤ n.1 * (mx / n.1) := by rw [← Nat.mul_succ]; exact Nat.mul_le_mul_left _ hJ
    have h2 := Nat.mul_div_le mx n.1
    omega
  · have h1 : n.2 * I + n.2 ≤ n.2 * (my / n.2) := by rw [← Nat.mul_succ]; exact Nat.mul_le_mul_left _ hI
    have h2 := Nat.mul_div_le my n.2
    omega

theorem downsample_spec (f : Flow) (n : ℕ × ℕ) (ws : List (Label × Label)) (xlim ylim : Option ℚ × Option ℚ)
    (hx : 0 < sp.1) (hy : 0 < sp.2) (hn1 : 0 < n.1) (hn2 : 0 < n.2) (hxy : co.1 ≠ co.2)
    (h : FullMap f sp x0 y0 nx ny co) (hne : ∃ t, t < Flow.size f.data ∧ Within xlim.1 xlim.2 (val f.data co.1 t) ∧
      Within ylim.1 ylim.2 (val f.data co.2 t)) (hws : GoodWeights f.data co ws) :
    ∃ a b mx my, Window sp x0 y0 nx ny xlim ylim a b mx my ∧
    ∃ out, downsample f n co ws xlim ylim = .ok out ∧ Wf out.data ∧ names out.data = names f.data ∧
      Flow.size out.data = mx / n.1 * (my / n.2) ∧
      out.info = downInfo sp (x0 + sp.1 * (a : ℚ)) (y0 + sp.2 * (b : ℚ)) mx my n ∧
      ∀ J I, J < mx / n.1 → I < my / n.2 →
        val out.data co.1 (I * (mx / n.1) + J) = x0 + sp.1 * (a : ℚ) + 1 / 2 * (sp.1 * n.1 - sp.1) + sp.1 * n.1 * (J : ℚ) ∧
        val out.data co.2 (I * (mx / n.1) + J) = y0 + sp.2 * (b : ℚ) + 1 / 2 * (sp.2 * n.2 - sp.2) + sp.2 * n.2 * (I : ℚ) ∧
        (∀ l, Plain f.data co ws l → val out.data l (I * (mx / n.1) + J) =
            blockSum n (fun i j => atNode f.data l sp x0 y0 co (a + i) (b + j)) J I) ∧
        (∀ p ∈ ws, val out.data p.1 (I * (mx / n.1) + J) =
          if blockSum n (fun i j => atNode f.data p.2 sp x0 y0 co (a + i) (b + j)) J I = 0 then 0
          else blockSum n (fun i j => atNode f.data p.1 sp x0 y0 co (a + i) (b + j) *
              atNode f.data p.2 sp x0 y0 co (a + i) (b + j)) J I /
            blockSum n (fun i j => atNode f.data p.2 sp x0 y0 co (a + i) (b + j)) J I) := by
  have hne' : selIdx f.data xlim ylim co ≠ [] := by
    obtain ⟨t, h1, h2, h3⟩ := hne
    apply List.ne_nil_of_mem (a := t)
    simp only [selIdx, List.mem_filter, List.mem_range, Bool.and_eq_true, within_iff]
    exact ⟨h1, h2, h3⟩
  obtain ⟨a, b, mx, my, h1, h2, h3, h4, h5, h6⟩ := selection_fullGrid h.1 hx hy xlim ylim hne'
  refine ⟨a, b, mx, my, ⟨h5.nxpos, h5.nypos, h1, h2, fun i hi => by rw [← within_iff]; exact h3 i hi,
    fun j hj => by rw [← within_iff]; exact h4 j hj⟩, ?_⟩
  obtain ⟨out, g1, g2, g3, g4, g5, g6⟩ := downsample_sel f n ws xlim ylim hx hy hn1 hn2 h.1.wf h.1.hasX h.1.hasY h.2.2 hxy h5
    hws.1 (fun p hp => ⟨(hws.2 p hp).1, (hws.2 p hp).2.1, (hws.2 p hp).2.2.1, (hws.2 p hp).2.2.2.1⟩)
  refine ⟨out, g1, g2, g3, g4, g5, ?_⟩
  intro J I hJ hI
  obtain ⟨e1, e2, e3, e4⟩ := g6 J I hJ hI
  refine ⟨e1, e2, ?_, ?_⟩
  · intro l hl
    rw [e3 l hl.1 hl.2.1 hl.2.2.1 hl.2.2.2]
    exact blockSum_congr n _ _ mx my J I hJ hI fun i j hi hj => h6 l i j hi hj
  · intro p hp
    have q1 := blockSum_congr n _ _ mx my J I hJ hI fun i j hi hj => h6 p.2 i j hi hj
    have q2 := blockSum_congr n (fun i j => atNode (gather (selIdx f.data xlim ylim co) f.data) p.1 sp (x0 + sp.1 * (a : ℚ)) (y0 + sp.2 * (b : ℚ)) co i j *
        atNode (gather (selIdx f.data xlim ylim co) f.data) p.2 sp (x0 + sp.1 * (a : ℚ)) (y0 + sp.2 * (b : ℚ)) co i j)
      (fun i j => atNode f.data p.1 sp x0 y0 co (a + i) (b + j) * atNode f.data p.2 sp x0 y0 co (a + i) (b + j)) mx my J I hJ hI
      fun i j hi hj => by rw [h6 p.1 i j hi hj, h6 p.2 i j hi hj]
    rw [e4 p hp, q2]
    simp only [← q1]

/-- A weighted mean with non-negative weights lies within the bounds of the values. -/
theorem wmean_bounds {ι : Type*} (s : Finset ι) (v w : ι → ℚ) (lo hi : ℚ) (hw : ∀ i ∈ s, 0 ≤ w i) (hpos : ∑ i ∈ s, w i ≠ 0)
    (h : ∀ i ∈ s, lo ≤ v i ∧ v i ≤ hi) : lo ≤ (∑ i ∈ s, v i * w i) / ∑ i ∈ s, w i ∧ (∑ i ∈ s, v i * w i) / ∑ i ∈ s, w i ≤ hi := by
  have hp : 0 < ∑ i ∈ s, w i := lt_of_le_of_ne (Finset.sum_nonneg hw) hpos.symm
  rw [le_div_iff₀ hp, div_le_iff₀ hp, Finset.mul_sum, Finset.mul_sum]
  exact ⟨Finset.sum_le_sum fun i hi => mul_le_mul_of_nonneg_right (h i hi).1 (hw i hi),
    Finset.sum_le_sum fun i hi => mul_le_mul_of_nonneg_right (h i hi).2 (hw i hi)⟩

theorem blockSum_prod (n : ℕ × ℕ) (F : ℕ → ℕ → ℚ) (J I : ℕ) :
    blockSum n F J I = ∑ p ∈ range n.1 ×ˢ range n.2, F (n.1 * J + p.1) (n.2 * I + p.2) := by
  unfold blockSum
  rw [Finset.sum_product_right]

theorem FullGrid.atNode_row (h : FullGrid r sp x0 y0 nx ny co) {i j : ℕ} (hi : i < nx) (hj : j < ny) :
    ∃ t, t < Flow.size r ∧ val r co.1 t = x0 + sp.1 * (i : ℚ) ∧ val r co.2 t = y0 + sp.2 * (j : ℚ) ∧
      ∀ l, atNode r l sp x0 y0 co i j = val r l t := by
  obtain ⟨t, ⟨h1, h2, h3⟩, -⟩ := h.node i j hi hj
  refine ⟨t, h1, h2, h3, fun l => ?_⟩
  unfold atNode
  rw [← h2, ← h3]
  exact h.valueAt_row l h1

theorem block_lt {m n J α : ℕ} (hJ : J < m / n) (hα : α < n) : n * J + α < m ∧ n * J + α < n * (m / n) := by
  have h1 : n * J + n ≤ n * (m / n) := by rw [← Nat.mul_succ]; exact Nat.mul_le_mul_left _ hJ
  have h2 := Nat.mul_div_le m n
  omega

theorem centre_mean (x0 d : ℚ) (a n J : ℕ) (hn : 0 < n) :
    x0 + d * (a : ℚ) + 1 / 2 * (d * n - d) + d * n * (J : ℚ) = (∑ α ∈ range n, (x0 + d * ((a + (n * J + α) : ℕ) : ℚ))) / n := by
  have hs : ∑ α ∈ range n, (x0 + d * ((a + (n * J + α) : ℕ) : ℚ)) = n * (x0 + d * ((a + n * J : ℕ) : ℚ)) + d * (∑ α ∈ range n, (α : ℚ)) := by
    rw [Finset.mul_sum]
    rw [show ((n : ℚ) * (x0 + d * ((a + n * J : ℕ) : ℚ))) = ∑ _α ∈ range n, (x0 + d * ((a + n * J : ℕ) : ℚ)) by simp, ← Finset.sum_add_distrib]
    apply Finset.sum_congr rfl
    intro α _
    push_cast
    ring
  have hg : ∀ m : ℕ, ∑ α ∈ range m, (α : ℚ) = m * (m - 1) / 2 := by
    intro m
    induction m with
    | zero => simp
    | succ m ih => rw [Finset.sum_range_succ, ih]; push_cast; ring
  have hn0 : (n : ℚ) ≠ 0 := by positivity
  rw [hs, hg]
  push_cast
  field_simp
  ring

theorem round_trip (f : Flow) (n : ℕ) (hx : 0 < sp.1) (hy : 0 < sp.2) (hn : 2 ≤ n)
    (hxy : co.1 ≠ co.2) (h : FullMap f sp x0 y0 nx ny co) :
    ∃ mid out, supersample f (some n) co = .ok mid ∧ downsample mid (n, n) co = .ok out ∧
      out.info = ⟨some ((nx : ℤ), (ny : ℤ)), some (x0 + (sp.1 - sp.1 / n) / 2, y0 + (sp.2 - sp.2 / n) / 2), some sp,
        some ((nx * ny : ℕ) : ℤ)⟩ ∧ Flow.size out.data = nx * ny := by
  obtain ⟨mid, h1, h2, h3, h4, -⟩ := supersample_spec f n [] hx hy hn hxy h (by simp) (by simp)
  have hnp : (0 : ℚ) < n := by exact_mod_cast (by omega : 0 < n)
  have hn0 : 0 < n := by omega
  have hx' : 0 < (sp.1 / n, sp.2 / n).1 := div_pos hx hnp
  have hy' : 0 < (sp.1 / n, sp.2 / n).2 := div_pos hy hnp
  have hfm : FullMap mid (sp.1 / n, sp.2 / n) x0 y0 (nx * n) (ny * n) co := ⟨Lattice.fullGrid h2 hx' hy', by rw [h4], by rw [h4]⟩
  have hall : ∀ v, Within none none v := by intro v; simp [Within]
  obtain ⟨t, ht, -⟩ := hfm.1.atNode_row hfm.1.nxpos hfm.1.nypos
  obtain ⟨a, b, mx, my, hw, out, g1, -, -, g4, g5, -⟩ := downsample_spec mid (n, n) [] (none, none) (none, none) hx' hy' hn0 hn0 hxy hfm
    ⟨t, ht, hall _, hall _⟩ ⟨by simp, by simp⟩
  have a1 := ((hw.x 0 hfm.1.nxpos).mp (hall _)).1
  have a2 := ((hw.x (nx * n - 1) (by have := hfm.1.nxpos; omega)).mp (hall _)).2
  have a3 := ((hw.y 0 hfm.1.nypos).mp (hall _)).1
  have a4 := ((hw.y (ny * n - 1) (by have := hfm.1.nypos; omega)).mp (hall _)).2
  have a5 := hw.xle
  have a6 := hw.yle
  obtain rfl : a = 0 := by omega
  obtain rfl : b = 0 := by omega
  obtain rfl : mx = nx * n := by omega
  obtain rfl : my = ny * n := by omega
  refine ⟨mid, out, h1, g1, ?_, ?_⟩
  · rw [g5]
    unfold downInfo
    simp only [Nat.mul_div_cancel _ hn0, div_mul_cancel₀ _ hnp.ne', Nat.cast_zero, mul_zero, add_zero]
    congr 3 <;> ring
  · rw [g4]
    simp only [Nat.mul_div_cancel _ hn0]

end Strata.Resample
