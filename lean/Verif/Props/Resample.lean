import Verif.Proofs.ResampleProps
/-!
# Resampling (C24-C29)

A `FullMap f sp x0 y0 nx ny co` is a flow map whose bins are exactly the nodes `(x0 + dx i, y0 + dy j)` of a regular
grid, in any row order, with shape and spacing set; `atNode` is the value of a field at a node and `Window` says which
nodes lie within limits (Spec/Resample.lean).
-/
namespace Strata.Resample
open Strata Strata.Flow Strata.Average Finset

variable {sp : ℚ × ℚ} {x0 y0 : ℚ} {nx ny : ℕ} {co : Label × Label}

/-! ## C24 -/

/-- **C24.** Each block of `n.1 × n.2` bins within the limits is replaced by one bin that holds the block sum of every
unweighted field; the total over the covered bins is preserved, and that over all bins within the limits if the block
size divides the numbers of selected columns and rows. -/
theorem C24_block_sums (f : Flow) (n : ℕ × ℕ) (ws : List (Label × Label)) (xlim ylim : Option ℚ × Option ℚ)
    (hx : 0 < sp.1) (hy : 0 < sp.2) (hn1 : 0 < n.1) (hn2 : 0 < n.2) (hxy : co.1 ≠ co.2)
    (h : FullMap f sp x0 y0 nx ny co) (hne : ∃ t, t < Flow.size f.data ∧ Within xlim.1 xlim.2 (val f.data co.1 t) ∧
      Within ylim.1 ylim.2 (val f.data co.2 t)) (hws : GoodWeights f.data co ws) :
    ∃ a b mx my out, Window sp x0 y0 nx ny xlim ylim a b mx my ∧ downsample f n co ws xlim ylim = .ok out ∧
      names out.data = names f.data ∧ Flow.size out.data = mx / n.1 * (my / n.2) ∧
      ∀ l, Plain f.data co ws l →
        (∀ J I, J < mx / n.1 → I < my / n.2 → val out.data l (I * (mx / n.1) + J) =
          ∑ β ∈ range n.2, ∑ α ∈ range n.1, atNode f.data l sp x0 y0 co (a + (n.1 * J + α)) (b + (n.2 * I + β))) ∧
        total out.data l = ∑ j ∈ range (my / n.2 * n.2), ∑ i ∈ range (mx / n.1 * n.1), atNode f.data l sp x0 y0 co (a + i) (b + j) ∧
        (n.1 ∣ mx → n.2 ∣ my → total out.data l =
          ∑ t ∈ (range (Flow.size f.data)).filter (fun t => Within xlim.1 xlim.2 (val f.data co.1 t) ∧
            Within ylim.1 ylim.2 (val f.data co.2 t)), val f.data l t) := by
  obtain ⟨a, b, mx, my, hw, out, h1, h2, h3, h4, h5, h6⟩ := downsample_spec f n ws xlim ylim hx hy hn1 hn2 hxy h hne hws
  refine ⟨a, b, mx, my, out, hw, h1, h3, h4, ?_⟩
  intro l hl
  have htot : total out.data l = ∑ j ∈ range (my / n.2 * n.2), ∑ i ∈ range (mx / n.1 * n.1), atNode f.data l sp x0 y0 co (a + i) (b + j) := by
    unfold total
    rw [total_eq h2 (by rw [h3]; exact hl.1), h4, ← sum_blockSum n _ _ fun i j => atNode f.data l sp x0 y0 co (a + i) (b + j),
      ← sum_range_grid]
    apply Finset.sum_congr rfl
    intro t ht
    rw [Finset.mem_range] at ht
    obtain ⟨b1, b2, b3⟩ := grid_decomp ht
    rw [← (h6 _ _ b1 b2).2.2.1 l hl, ← b3]
  refine ⟨fun J I hJ hI => (h6 J I hJ hI).2.2.1 l hl, htot, ?_⟩
  intro d1 d2
  rw [htot, Nat.div_mul_cancel d1, Nat.div_mul_cancel d2, ← hw.sum fun i j => atNode f.data l sp x0 y0 co i j]
  exact (h.1.sum_rows hx hy (fun x y => Within xlim.1 xlim.2 x ∧ Within ylim.1 ylim.2 y) (fun v => v l)).symm

/-- **C24.** Without limits and with a block size that divides the shape the total of each unweighted field is
preserved. -/
theorem C24_total_preserved (f : Flow) (n : ℕ × ℕ) (ws : List (Label × Label)) (hx : 0 < sp.1) (hy : 0 < sp.2)
    (hn1 : 0 < n.1) (hn2 : 0 < n.2) (hxy : co.1 ≠ co.2) (h : FullMap f sp x0 y0 nx ny co) (hws : GoodWeights f.data co ws)
    (d1 : n.1 ∣ nx) (d2 : n.2 ∣ ny) :
    ∃ out, downsample f n co ws = .ok out ∧ ∀ l, Plain f.data co ws l → total out.data l = total f.data l := by
  have hall : ∀ v, Within none none v := by intro v; simp [Within]
  obtain ⟨t, ht, -⟩ := h.1.atNode_row h.1.nxpos h.1.nypos
  obtain ⟨a, b, mx, my, out, hw, h1, h2, h3, h4⟩ := C24_block_sums f n ws (none, none) (none, none) hx hy hn1 hn2 hxy h
    ⟨t, ht, hall _, hall _⟩ hws
  refine ⟨out, h1, ?_⟩
  intro l hl
  have e1 : mx = nx := by
    have a1 := ((hw.x 0 h.1.nxpos).mp (hall _)).1
    have a2 := ((hw.x (nx - 1) (by have := h.1.nxpos; omega)).mp (hall _)).2
    have := hw.xle
    omega
  have e2 : my = ny := by
    have a1 := ((hw.y 0 h.1.nypos).mp (hall _)).1
    have a2 := ((hw.y (ny - 1) (by have := h.1.nypos; omega)).mp (hall _)).2
    have := hw.yle
    omega
  rw [((h4 l hl).2.2 (by rw [e1]; exact d1) (by rw [e2]; exact d2)), total, total_eq h.1.wf hl.1]
  apply Finset.sum_congr _ fun _ _ => rfl
  rw [Finset.filter_true_of_mem]
  exact fun t _ => ⟨hall _, hall _⟩

/-- A map of 3×2 bins of size 1×2 in mixed order. -/
def exF : Flow := ⟨[("X", [3, 1, 2, 1, 2, 3]), ("Y", [3, 3, 3, 5, 5, 5]), ("M", [3, 1, 2, 4, 0, 0]), ("U", [1, 2, 3, 4, 5, 6])],
  { shape := some (3, 2), spacing := some (1, 2) }⟩

theorem exF_fullMap : FullMap exF (1, 2) 1 3 3 2 := by
  refine ⟨⟨⟨by decide, by decide +kernel⟩, by decide, by decide, by decide, by decide, ?_, ?_⟩, rfl, rfl⟩
  · intro i j hi hj
    have hu : ∀ t, t < Flow.size exF.data ↔ t = 0 ∨ t = 1 ∨ t = 2 ∨ t = 3 ∨ t = 4 ∨ t = 5 := by
      intro t
      have : Flow.size exF.data = 6 := rfl
      omega
    have key : ∀ k, (k < Flow.size exF.data ∧ val exF.data "X" k = 1 + (i : ℚ) ∧ val exF.data "Y" k = 3 + 2 * (j : ℚ)) →
        (∀ t, t < Flow.size exF.data → t ≠ k → ¬ (val exF.data "X" t = val exF.data "X" k ∧ val exF.data "Y" t = val exF.data "Y" k)) →
        ∃! t, t < Flow.size exF.data ∧ val exF.data "X" t = 1 + (1 : ℚ) * (i : ℚ) ∧ val exF.data "Y" t = 3 + (2 : ℚ) * (j : ℚ) := by
      intro k hk hd
      simp only [one_mul]
      refine ⟨k, hk, ?_⟩
      rintro t ⟨h1, h2, h3⟩
      by_contra hne
      exact hd t h1 hne ⟨by rw [h2, hk.2.1], by rw [h3, hk.2.2]⟩
    have hi' : i = 0 ∨ i = 1 ∨ i = 2 := by omega
    have hj' : j = 0 ∨ j = 1 := by omega
    rcases hi' with rfl | rfl | rfl <;> rcases hj' with rfl | rfl
    · exact key 1 (by decide +kernel) (by intro t ht; rcases (hu t).mp ht with rfl | rfl | rfl | rfl | rfl | rfl <;> decide +kernel)
    · exact key 3 (by decide +kernel) (by intro t ht; rcases (hu t).mp ht with rfl | rfl | rfl | rfl | rfl | rfl <;> decide +kernel)
    · exact key 2 (by decide +kernel) (by intro t ht; rcases (hu t).mp ht with rfl | rfl | rfl | rfl | rfl | rfl <;> decide +kernel)
    · exact key 4 (by decide +kernel) (by intro t ht; rcases (hu t).mp ht with rfl | rfl | rfl | rfl | rfl | rfl <;> decide +kernel)
    · exact key 0 (by decide +kernel) (by intro t ht; rcases (hu t).mp ht with rfl | rfl | rfl | rfl | rfl | rfl <;> decide +kernel)
    · exact key 5 (by decide +kernel) (by intro t ht; rcases (hu t).mp ht with rfl | rfl | rfl | rfl | rfl | rfl <;> decide +kernel)
  · intro t ht
    have : t = 0 ∨ t = 1 ∨ t = 2 ∨ t = 3 ∨ t = 4 ∨ t = 5 := by
      have : Flow.size exF.data = 6 := rfl
      omega
    rcases this with rfl | rfl | rfl | rfl | rfl | rfl
    · exact ⟨2, 0, by decide +kernel⟩
    · exact ⟨0, 0, by decide +kernel⟩
    · exact ⟨1, 0, by decide +kernel⟩
    · exact ⟨0, 1, by decide +kernel⟩
    · exact ⟨1, 1, by decide +kernel⟩
    · exact ⟨2, 1, by decide +kernel⟩

theorem exF_weights : GoodWeights exF.data ("X", "Y") [("U", "M")] := by
  refine ⟨by decide, ?_⟩
  intro p hp
  simp only [List.mem_singleton] at hp
  subst hp
  decide

example : (downsample exF (1, 2)).map (fun f => (f.data, f.info.shape)) =
    .ok ([("X", [1, 2, 3]), ("Y", [4, 4, 4]), ("M", [5, 2, 3]), ("U", [6, 8, 7])], some (3, 1)) := by decide +kernel

example : (downsample exF (2, 2) ("X", "Y") [("U", "M")] (some 2, none) (none, none)).map (fun f => (f.data, f.info.shape)) =
    .ok ([("X", [5 / 2]), ("Y", [4]), ("M", [5]), ("U", [9 / 5])], some (1, 1)) := by decide +kernel

example : ∃ out, downsample exF (3, 2) = .ok out ∧ total out.data "M" = 10 := by
  obtain ⟨out, h1, h2⟩ := C24_total_preserved exF (3, 2) [] (by decide +kernel) (by decide +kernel) (by decide) (by decide) (by decide)
    exF_fullMap ⟨by simp, by simp⟩ (by decide) (by decide)
  exact ⟨out, h1, by rw [h2 "M" ⟨by decide, by decide, by decide, by simp⟩]; decide +kernel⟩

/-! ## C25 -/

/-- **C25.** A weighted field of a new bin is the weighted mean over its block, 0 if the weights of the block add to
zero. -/
theorem C25_weighted_mean (f : Flow) (n : ℕ × ℕ) (ws : List (Label × Label)) (xlim ylim : Option ℚ × Option ℚ)
    (hx : 0 < sp.1) (hy : 0 < sp.2) (hn1 : 0 < n.1) (hn2 : 0 < n.2) (hxy : co.1 ≠ co.2)
    (h : FullMap f sp x0 y0 nx ny co) (hne : ∃ t, t < Flow.size f.data ∧ Within xlim.1 xlim.2 (val f.data co.1 t) ∧
      Within ylim.1 ylim.2 (val f.data co.2 t)) (hws : GoodWeights f.data co ws) :
    ∃ a b mx my out, Window sp x0 y0 nx ny xlim ylim a b mx my ∧ downsample f n co ws xlim ylim = .ok out ∧
      ∀ p ∈ ws, ∀ J I, J < mx / n.1 → I < my / n.2 →
        ((∑ β ∈ range n.2, ∑ α ∈ range n.1, atNode f.data p.2 sp x0 y0 co (a + (n.1 * J + α)) (b + (n.2 * I + β))) = 0 →
          val out.data p.1 (I * (mx / n.1) + J) = 0) ∧
        val out.data p.1 (I * (mx / n.1) + J) *
            (∑ β ∈ range n.2, ∑ α ∈ range n.1, atNode f.data p.2 sp x0 y0 co (a + (n.1 * J + α)) (b + (n.2 * I + β))) =
          if (∑ β ∈ range n.2, ∑ α ∈ range n.1, atNode f.data p.2 sp x0 y0 co (a + (n.1 * J + α)) (b + (n.2 * I + β))) = 0 then 0
          else ∑ β ∈ range n.2, ∑ α ∈ range n.1, atNode f.data p.1 sp x0 y0 co (a + (n.1 * J + α)) (b + (n.2 * I + β)) *
            atNode f.data p.2 sp x0 y0 co (a + (n.1 * J + α)) (b + (n.2 * I + β)) := by
  obtain ⟨a, b, mx, my, hw, out, h1, h2, h3, h4, h5, h6⟩ := downsample_spec f n ws xlim ylim hx hy hn1 hn2 hxy h hne hws
  refine ⟨a, b, mx, my, out, hw, h1, ?_⟩
  intro p hp J I hJ hI
  have hv := (h6 J I hJ hI).2.2.2 p hp
  unfold blockSum at hv
  refine ⟨fun e => by rw [hv, if_pos e], ?_⟩
  rw [hv]
  split
  · simp
  · rename_i hz
    exact div_mul_cancel₀ _ hz

/-- **C25.** With non-negative weights that are not weighted themselves, the sum of value times weight over the new
bins is that over the bins they cover. -/
theorem C25_conserved (f : Flow) (n : ℕ × ℕ) (ws : List (Label × Label)) (xlim ylim : Option ℚ × Option ℚ)
    (hx : 0 < sp.1) (hy : 0 < sp.2) (hn1 : 0 < n.1) (hn2 : 0 < n.2) (hxy : co.1 ≠ co.2)
    (h : FullMap f sp x0 y0 nx ny co) (hne : ∃ t, t < Flow.size f.data ∧ Within xlim.1 xlim.2 (val f.data co.1 t) ∧
      Within ylim.1 ylim.2 (val f.data co.2 t)) (hws : GoodWeights f.data co ws) :
    ∃ a b mx my out, Window sp x0 y0 nx ny xlim ylim a b mx my ∧ downsample f n co ws xlim ylim = .ok out ∧
      ∀ p ∈ ws, (∀ q ∈ ws, q.1 ≠ p.2) → (∀ t, t < Flow.size f.data → 0 ≤ val f.data p.2 t) →
        ((∑ t ∈ range (Flow.size out.data), val out.data p.1 t * val out.data p.2 t) =
          ∑ j ∈ range (my / n.2 * n.2), ∑ i ∈ range (mx / n.1 * n.1),
            atNode f.data p.1 sp x0 y0 co (a + i) (b + j) * atNode f.data p.2 sp x0 y0 co (a + i) (b + j)) ∧
        (n.1 ∣ mx → n.2 ∣ my → (∑ t ∈ range (Flow.size out.data), val out.data p.1 t * val out.data p.2 t) =
          ∑ t ∈ (range (Flow.size f.data)).filter (fun t => Within xlim.1 xlim.2 (val f.data co.1 t) ∧
            Within ylim.1 ylim.2 (val f.data co.2 t)), val f.data p.1 t * val f.data p.2 t) := by
  obtain ⟨a, b, mx, my, hw, out, h1, h2, h3, h4, h5, h6⟩ := downsample_spec f n ws xlim ylim hx hy hn1 hn2 hxy h hne hws
  refine ⟨a, b, mx, my, out, hw, h1, ?_⟩
  intro p hp hq hpos
  have hm : (∑ t ∈ range (Flow.size out.data), val out.data p.1 t * val out.data p.2 t) =
      ∑ j ∈ range (my / n.2 * n.2), ∑ i ∈ range (mx / n.1 * n.1),
        atNode f.data p.1 sp x0 y0 co (a + i) (b + j) * atNode f.data p.2 sp x0 y0 co (a + i) (b + j) := by
    rw [h4, ← sum_blockSum n _ _ fun i j => atNode f.data p.1 sp x0 y0 co (a + i) (b + j) * atNode f.data p.2 sp x0 y0 co (a + i) (b + j),
      ← sum_range_grid]
    apply Finset.sum_congr rfl
    intro t ht
    rw [Finset.mem_range] at ht
    obtain ⟨b1, b2, b3⟩ := grid_decomp ht
    obtain ⟨-, -, e1, e2⟩ := h6 _ _ b1 b2
    have g1 := e1 p.2 ⟨(hws.2 p hp).2.1, (hws.2 p hp).2.2.2.2.1, (hws.2 p hp).2.2.2.2.2, hq⟩
    have g2 := e2 p hp
    rw [← b3] at g1 g2
    rw [g1, g2]
    split
    · rename_i hz
      rw [zero_mul, blockSum_prod]
      rw [blockSum_prod, Finset.sum_eq_zero_iff_of_nonneg] at hz
      · symm
        apply Finset.sum_eq_zero
        intro q hq'
        rw [hz q hq', mul_zero]
      · intro q hq'
        rw [Finset.mem_product, Finset.mem_range, Finset.mem_range] at hq'
        obtain ⟨c1, c2⟩ := block_lt b1 hq'.1
        obtain ⟨c3, c4⟩ := block_lt b2 hq'.2
        obtain ⟨s, hs, -, -, hs2⟩ := h.1.atNode_row (i := a + (n.1 * (t % (mx / n.1)) + q.1)) (j := b + (n.2 * (t / (mx / n.1)) + q.2))
          (by have := hw.xle; omega) (by have := hw.yle; omega)
        rw [hs2]
        exact hpos s hs
    · rename_i hz
      exact div_mul_cancel₀ _ hz
  refine ⟨hm, ?_⟩
  intro d1 d2
  rw [hm, Nat.div_mul_cancel d1, Nat.div_mul_cancel d2,
    ← hw.sum fun i j => atNode f.data p.1 sp x0 y0 co i j * atNode f.data p.2 sp x0 y0 co i j]
  exact (h.1.sum_rows hx hy (fun x y => Within xlim.1 xlim.2 x ∧ Within ylim.1 ylim.2 y) (fun v => v p.1 * v p.2)).symm

/-- **C25.** With non-negative weights a weighted value lies between the extreme values of the field, or is 0 where
the block has no weight. -/
theorem C25_bounds (f : Flow) (n : ℕ × ℕ) (ws : List (Label × Label)) (xlim ylim : Option ℚ × Option ℚ)
    (hx : 0 < sp.1) (hy : 0 < sp.2) (hn1 : 0 < n.1) (hn2 : 0 < n.2) (hxy : co.1 ≠ co.2)
    (h : FullMap f sp x0 y0 nx ny co) (hne : ∃ t, t < Flow.size f.data ∧ Within xlim.1 xlim.2 (val f.data co.1 t) ∧
      Within ylim.1 ylim.2 (val f.data co.2 t)) (hws : GoodWeights f.data co ws) :
    ∃ a b mx my out, Window sp x0 y0 nx ny xlim ylim a b mx my ∧ downsample f n co ws xlim ylim = .ok out ∧
      Flow.size out.data = mx / n.1 * (my / n.2) ∧
      ∀ p ∈ ws, (∀ t, t < Flow.size f.data → 0 ≤ val f.data p.2 t) → ∀ J I, J < mx / n.1 → I < my / n.2 →
        ((∀ α β, α < n.1 → β < n.2 → atNode f.data p.2 sp x0 y0 co (a + (n.1 * J + α)) (b + (n.2 * I + β)) = 0) ∧
          val out.data p.1 (I * (mx / n.1) + J) = 0) ∨
        ∀ lo hi, (∀ α β, α < n.1 → β < n.2 → lo ≤ atNode f.data p.1 sp x0 y0 co (a + (n.1 * J + α)) (b + (n.2 * I + β)) ∧
            atNode f.data p.1 sp x0 y0 co (a + (n.1 * J + α)) (b + (n.2 * I + β)) ≤ hi) →
          lo ≤ val out.data p.1 (I * (mx / n.1) + J) ∧ val out.data p.1 (I * (mx / n.1) + J) ≤ hi := by
  obtain ⟨a, b, mx, my, hw, out, h1, h2, h3, h4, h5, h6⟩ := downsample_spec f n ws xlim ylim hx hy hn1 hn2 hxy h hne hws
  refine ⟨a, b, mx, my, out, hw, h1, h4, ?_⟩
  intro p hp hpos J I hJ hI
  have hv := (h6 J I hJ hI).2.2.2 p hp
  rw [blockSum_prod, blockSum_prod] at hv
  have hnn : ∀ q ∈ range n.1 ×ˢ range n.2, 0 ≤ atNode f.data p.2 sp x0 y0 co (a + (n.1 * J + q.1)) (b + (n.2 * I + q.2)) := by
    intro q hq'
    rw [Finset.mem_product, Finset.mem_range, Finset.mem_range] at hq'
    obtain ⟨c1, c2⟩ := block_lt hJ hq'.1
    obtain ⟨c3, c4⟩ := block_lt hI hq'.2
    obtain ⟨s, hs, -, -, hs2⟩ := h.1.atNode_row (i := a + (n.1 * J + q.1)) (j := b + (n.2 * I + q.2))
      (by have := hw.xle; omega) (by have := hw.yle; omega)
    rw [hs2]
    exact hpos s hs
  by_cases hz : (∑ q ∈ range n.1 ×ˢ range n.2, atNode f.data p.2 sp x0 y0 co (a + (n.1 * J + q.1)) (b + (n.2 * I + q.2))) = 0
  · left
    refine ⟨?_, by rw [hv, if_pos hz]⟩
    rw [Finset.sum_eq_zero_iff_of_nonneg hnn] at hz
    intro α β hα hβ
    exact hz (α, β) (by simp [hα, hβ])
  · right
    intro lo hi hb
    rw [hv, if_neg hz]
    exact wmean_bounds _ (fun q : ℕ × ℕ => atNode f.data p.1 sp x0 y0 co (a + (n.1 * J + q.1)) (b + (n.2 * I + q.2))) _ lo hi hnn hz
      fun q hq => by rw [Finset.mem_product, Finset.mem_range, Finset.mem_range] at hq; exact hb q.1 q.2 hq.1 hq.2

example : ∃ a b mx my out, Window (1, 2) 1 3 3 2 (some 2, none) (none, none) a b mx my ∧
    downsample exF (2, 2) ("X", "Y") [("U", "M")] (some 2, none) (none, none) = .ok out := by
  obtain ⟨a, b, mx, my, out, h1, h2, -⟩ := C25_conserved exF (2, 2) [("U", "M")] (some 2, none) (none, none) (by decide +kernel)
    (by decide +kernel) (by decide) (by decide) (by decide) exF_fullMap ⟨0, by decide, by decide +kernel, by simp [Within]⟩ exF_weights
  exact ⟨a, b, mx, my, out, h1, h2⟩

example : ∀ t, t < Flow.size exF.data → 0 ≤ val exF.data "M" t := by decide +kernel

/-! ## C26 -/

/-- **C26.** The new map has spacing `n` times the old one, the floored quotient of the selected shape by `n` as shape,
their product as number of bins and of rows, y-major, and each centre is the mean of the centres it combines. -/
theorem C26_geometry (f : Flow) (n : ℕ × ℕ) (ws : List (Label × Label)) (xlim ylim : Option ℚ × Option ℚ)
    (hx : 0 < sp.1) (hy : 0 < sp.2) (hn1 : 0 < n.1) (hn2 : 0 < n.2) (hxy : co.1 ≠ co.2)
    (h : FullMap f sp x0 y0 nx ny co) (hne : ∃ t, t < Flow.size f.data ∧ Within xlim.1 xlim.2 (val f.data co.1 t) ∧
      Within ylim.1 ylim.2 (val f.data co.2 t)) (hws : GoodWeights f.data co ws) :
    ∃ a b mx my out, Window sp x0 y0 nx ny xlim ylim a b mx my ∧ downsample f n co ws xlim ylim = .ok out ∧
      out.info.spacing = some (sp.1 * n.1, sp.2 * n.2) ∧
      out.info.shape = some (((mx / n.1 : ℕ) : ℤ), ((my / n.2 : ℕ) : ℤ)) ∧
      out.info.numBins = some ((mx / n.1 * (my / n.2) : ℕ) : ℤ) ∧ Flow.size out.data = mx / n.1 * (my / n.2) ∧
      (∀ J I, J < mx / n.1 → I < my / n.2 →
        val out.data co.1 (I * (mx / n.1) + J) = (∑ α ∈ range n.1, (x0 + sp.1 * ((a + (n.1 * J + α) : ℕ) : ℚ))) / n.1 ∧
        val out.data co.2 (I * (mx / n.1) + J) = (∑ β ∈ range n.2, (y0 + sp.2 * ((b + (n.2 * I + β) : ℕ) : ℚ))) / n.2) ∧
      ((0 < mx / n.1 ∧ 0 < my / n.2) → ∃ ox oy, out.info.origin = some (ox, oy) ∧
        Lattice out.data (sp.1 * n.1, sp.2 * n.2) ox oy (mx / n.1) (my / n.2) co) := by
  obtain ⟨a, b, mx, my, hw, out, h1, h2, h3, h4, h5, h6⟩ := downsample_spec f n ws xlim ylim hx hy hn1 hn2 hxy h hne hws
  refine ⟨a, b, mx, my, out, hw, h1, by rw [h5]; rfl, by rw [h5]; rfl, by rw [h5]; rfl, h4, ?_, ?_⟩
  · intro J I hJ hI
    obtain ⟨e1, e2, -⟩ := h6 J I hJ hI
    rw [e1, e2]
    exact ⟨centre_mean _ _ _ _ _ hn1, centre_mean _ _ _ _ _ hn2⟩
  · rintro ⟨p1, p2⟩
    refine ⟨_, _, by rw [h5]; rfl, h2, p1, p2, h4, by rw [h3]; exact h.1.hasX, by rw [h3]; exact h.1.hasY, ?_, ?_⟩
    · intro t ht
      obtain ⟨b1, b2, b3⟩ := grid_decomp ht
      have := (h6 _ _ b1 b2).1
      rw [← b3] at this
      exact this
    · intro t ht
      obtain ⟨b1, b2, b3⟩ := grid_decomp ht
      have := (h6 _ _ b1 b2).2.1
      rw [← b3] at this
      exact this

example : (downsample exF (2, 1)).map (fun f => (f.info.spacing, f.info.shape, f.info.numBins, f.info.origin)) =
    .ok (some (2, 2), some (1, 2), some 2, some (3 / 2, 3)) := by decide +kernel

example : ∃ a b mx my out, Window (1, 2) 1 3 3 2 (none, none) (none, none) a b mx my ∧ downsample exF (2, 1) = .ok out ∧
    out.info.spacing = some (2, 2) := by
  obtain ⟨a, b, mx, my, out, h1, h2, h3, -⟩ := C26_geometry exF (2, 1) [] (none, none) (none, none) (by decide +kernel)
    (by decide +kernel) (by decide) (by decide) (by decide) exF_fullMap ⟨0, by decide, by simp [Within], by simp [Within]⟩ ⟨by simp, by simp⟩
  exact ⟨a, b, mx, my, out, h1, h2, by rw [h3]; norm_num⟩

/-! ## C27 -/

/-- **C27.** With no factor or factor 1 an equal map is returned. -/
theorem C27_identity (f : Flow) (hw : Wf f.data) (hne : f.data ≠ []) (co : Label × Label) (ws : List (Label × Label)) :
    supersample f none co ws = .ok f ∧ supersample f (some 1) co ws = .ok f := by
  have := copy_eq f hw hne
  exact ⟨this, this⟩

/-- **C27.** With a factor of at least 2 the shape is multiplied and the spacing divided by it, so that the physical
size stays, and the data covers the finer grid y-major from the smallest coordinates on. -/
theorem C27_geometry (f : Flow) (n : ℕ) (ws : List (Label × Label)) (hx : 0 < sp.1) (hy : 0 < sp.2) (hn : 2 ≤ n)
    (hxy : co.1 ≠ co.2) (h : FullMap f sp x0 y0 nx ny co) (hws : GoodWeights f.data co ws)
    (hww : ∀ p ∈ ws, ∀ q ∈ ws, q.1 ≠ p.2) :
    ∃ out, supersample f (some n) co ws = .ok out ∧ names out.data = names f.data ∧
      Lattice out.data (sp.1 / n, sp.2 / n) x0 y0 (nx * n) (ny * n) co ∧
      out.info.shape = some (((nx * n : ℕ) : ℤ), ((ny * n : ℕ) : ℤ)) ∧ out.info.spacing = some (sp.1 / n, sp.2 / n) ∧
      out.info.origin = some (x0, y0) ∧ out.info.numBins = some ((nx * n * (ny * n) : ℕ) : ℤ) ∧
      boxSize out = boxSize f := by
  obtain ⟨out, h1, h2, h3, h4, -⟩ := supersample_spec f n ws hx hy hn hxy h hws.1
    (fun p hp => ⟨(hws.2 p hp).1, (hws.2 p hp).2.1, (hws.2 p hp).2.2.1, (hws.2 p hp).2.2.2.1, (hws.2 p hp).2.2.2.2.1,
      (hws.2 p hp).2.2.2.2.2, hww p hp⟩)
  refine ⟨out, h1, h3, h2, by rw [h4], by rw [h4], by rw [h4], by rw [h4], ?_⟩
  have hn0 : (n : ℚ) ≠ 0 := by positivity
  simp only [boxSize, h4, h.2.1, h.2.2]
  push_cast
  congr 2 <;> field_simp

example : (supersample exF (some 2)).map (fun f => (f.info.spacing, f.info.shape, f.info.origin)) =
    .ok (some (1 / 2, 1), some (6, 4), some (1, 3)) := by decide +kernel

example : ∃ out, supersample exF (some 2) ("X", "Y") [("U", "M")] = .ok out ∧ boxSize out = boxSize exF := by
  obtain ⟨out, h1, -, -, -, -, -, -, h2⟩ := C27_geometry exF 2 [("U", "M")] (by decide +kernel) (by decide +kernel) (by decide) (by decide)
    exF_fullMap exF_weights (by decide)
  exact ⟨out, h1, h2⟩

/-! ## C28 -/

/-- **C28.** Every plain value is the mean, over the fine bins less than `n` steps away along both axes, of the coarse
values that contain them; a weighted value is the weighted mean (0 without weight). -/
theorem C28_local_mean (f : Flow) (n : ℕ) (ws : List (Label × Label)) (hx : 0 < sp.1) (hy : 0 < sp.2) (hn : 2 ≤ n)
    (hxy : co.1 ≠ co.2) (h : FullMap f sp x0 y0 nx ny co) (hws : GoodWeights f.data co ws)
    (hww : ∀ p ∈ ws, ∀ q ∈ ws, q.1 ≠ p.2) :
    ∃ out, supersample f (some n) co ws = .ok out ∧ ∀ I J, I < nx * n → J < ny * n →
      (∀ l, Plain f.data co ws l → val out.data l (J * (nx * n) + I) =
        (∑ p ∈ reach (nx * n) (ny * n) (n - 1) I J, atNode f.data l sp x0 y0 co (p.1 / n) (p.2 / n)) /
          (reach (nx * n) (ny * n) (n - 1) I J).card) ∧
      (∀ lw ∈ ws, val out.data lw.1 (J * (nx * n) + I) =
        if (∑ p ∈ reach (nx * n) (ny * n) (n - 1) I J, atNode f.data lw.2 sp x0 y0 co (p.1 / n) (p.2 / n)) ≠ 0 then
          (∑ p ∈ reach (nx * n) (ny * n) (n - 1) I J, atNode f.data lw.1 sp x0 y0 co (p.1 / n) (p.2 / n) *
              atNode f.data lw.2 sp x0 y0 co (p.1 / n) (p.2 / n)) /
            (∑ p ∈ reach (nx * n) (ny * n) (n - 1) I J, atNode f.data lw.2 sp x0 y0 co (p.1 / n) (p.2 / n))
        else 0) := by
  obtain ⟨out, h1, -, -, -, h5⟩ := supersample_spec f n ws hx hy hn hxy h hws.1
    (fun p hp => ⟨(hws.2 p hp).1, (hws.2 p hp).2.1, (hws.2 p hp).2.2.1, (hws.2 p hp).2.2.2.1, (hws.2 p hp).2.2.2.2.1,
      (hws.2 p hp).2.2.2.2.2, hww p hp⟩)
  exact ⟨out, h1, fun I J hI hJ => ⟨fun l hl => (h5 I J hI hJ).1 l hl.1 hl.2.1 hl.2.2.1 hl.2.2.2, (h5 I J hI hJ).2⟩⟩

/-- **C28.** Every plain value lies between the extreme values of the field, so that constant fields stay constant;
weighted values with non-negative weights lie between the extreme values of the field or are 0. -/
theorem C28_bounded (f : Flow) (n : ℕ) (ws : List (Label × Label)) (hx : 0 < sp.1) (hy : 0 < sp.2) (hn : 2 ≤ n)
    (hxy : co.1 ≠ co.2) (h : FullMap f sp x0 y0 nx ny co) (hws : GoodWeights f.data co ws)
    (hww : ∀ p ∈ ws, ∀ q ∈ ws, q.1 ≠ p.2) :
    ∃ out, supersample f (some n) co ws = .ok out ∧ ∀ l lo hi, (∀ t, t < Flow.size f.data → lo ≤ val f.data l t ∧ val f.data l t ≤ hi) →
      (Plain f.data co ws l → ∀ t, t < Flow.size out.data → lo ≤ val out.data l t ∧ val out.data l t ≤ hi) ∧
      (∀ w, (l, w) ∈ ws → (∀ t, t < Flow.size f.data → 0 ≤ val f.data w t) →
        ∀ t, t < Flow.size out.data → (lo ≤ val out.data l t ∧ val out.data l t ≤ hi) ∨ (val out.data l t = 0 ∧
          ∀ p ∈ reach (nx * n) (ny * n) (n - 1) (t % (nx * n)) (t / (nx * n)), atNode f.data w sp x0 y0 co (p.1 / n) (p.2 / n) = 0)) := by
  obtain ⟨out, h1, h2, -, -, h5⟩ := supersample_spec f n ws hx hy hn hxy h hws.1
    (fun p hp => ⟨(hws.2 p hp).1, (hws.2 p hp).2.1, (hws.2 p hp).2.2.1, (hws.2 p hp).2.2.2.1, (hws.2 p hp).2.2.2.2.1,
      (hws.2 p hp).2.2.2.2.2, hww p hp⟩)
  refine ⟨out, h1, ?_⟩
  intro l lo hi hb
  have hcoarse : ∀ I J, ∀ p ∈ reach (nx * n) (ny * n) (n - 1) I J, ∃ s, s < Flow.size f.data ∧
      ∀ l, atNode f.data l sp x0 y0 co (p.1 / n) (p.2 / n) = val f.data l s := by
    intro I J p hp
    simp only [reach, Finset.mem_filter, Finset.mem_product, Finset.mem_range] at hp
    have hnp : 0 < n := by omega
    obtain ⟨s, hs, -, -, hs2⟩ := h.1.atNode_row (i := p.1 / n) (j := p.2 / n)
      (by rw [Nat.div_lt_iff_lt_mul hnp]; exact hp.1.1) (by rw [Nat.div_lt_iff_lt_mul hnp]; exact hp.1.2)
    exact ⟨s, hs, hs2⟩
  have hval : ∀ I J, ∀ p ∈ reach (nx * n) (ny * n) (n - 1) I J,
      lo ≤ atNode f.data l sp x0 y0 co (p.1 / n) (p.2 / n) ∧ atNode f.data l sp x0 y0 co (p.1 / n) (p.2 / n) ≤ hi := by
    intro I J p hp
    obtain ⟨s, hs, hs2⟩ := hcoarse I J p hp
    rw [hs2]
    exact hb s hs
  refine ⟨?_, ?_⟩
  · intro hl t ht
    rw [h2.size] at ht
    obtain ⟨b1, b2, b3⟩ := grid_decomp ht
    have := (h5 _ _ b1 b2).1 l hl.1 hl.2.1 hl.2.2.1 hl.2.2.2
    rw [← b3] at this
    rw [this]
    have hm := mem_reach (nx * n) (ny * n) (n - 1) _ _ b1 b2
    have hc : (∑ _p ∈ reach (nx * n) (ny * n) (n - 1) (t % (nx * n)) (t / (nx * n)), (1 : ℚ)) =
        (reach (nx * n) (ny * n) (n - 1) (t % (nx * n)) (t / (nx * n))).card := by simp
    have := wmean_bounds (reach (nx * n) (ny * n) (n - 1) (t % (nx * n)) (t / (nx * n)))
      (fun p => atNode f.data l sp x0 y0 co (p.1 / n) (p.2 / n)) (fun _ => 1) lo hi (fun _ _ => zero_le_one)
      (by rw [hc]; exact_mod_cast (Finset.card_pos.mpr ⟨_, hm⟩).ne') (hval _ _)
    simpa only [mul_one, hc] using this
  · intro w hw hpos t ht
    rw [h2.size] at ht
    obtain ⟨b1, b2, b3⟩ := grid_decomp ht
    have := (h5 _ _ b1 b2).2 (l, w) hw
    rw [← b3] at this
    simp only at this
    have hnn : ∀ p ∈ reach (nx * n) (ny * n) (n - 1) (t % (nx * n)) (t / (nx * n)),
        0 ≤ atNode f.data w sp x0 y0 co (p.1 / n) (p.2 / n) := by
      intro p hp
      obtain ⟨s, hs, hs2⟩ := hcoarse _ _ p hp
      rw [hs2]
      exact hpos s hs
    split at this
    · rename_i hz
      left
      rw [this]
      exact wmean_bounds _ (fun p : ℕ × ℕ => atNode f.data l sp x0 y0 co (p.1 / n) (p.2 / n)) _ lo hi hnn hz (hval _ _)
    · rename_i hz
      right
      push Not at hz
      exact ⟨this, (Finset.sum_eq_zero_iff_of_nonneg hnn).mp hz⟩

example : (supersample exF (some 2) ("X", "Y") [("U", "M")]).map (fun f => ((col? f.data "M").getD [], (col? f.data "U").getD [])) =
    .ok ([1, 4 / 3, 5 / 3, 7 / 3, 8 / 3, 3, 2, 16 / 9, 14 / 9, 14 / 9, 16 / 9, 2, 3, 20 / 9, 13 / 9, 7 / 9, 8 / 9, 1, 4, 8 / 3, 4 / 3, 0, 0, 0],
      [2, 5 / 2, 14 / 5, 15 / 7, 3 / 2, 1, 10 / 3, 13 / 4, 22 / 7, 15 / 7, 3 / 2, 1, 34 / 9, 37 / 10, 46 / 13, 15 / 7, 3 / 2, 1,
        4, 4, 4, 0, 0, 0]) := by decide +kernel

example : ∃ out, supersample exF (some 2) ("X", "Y") [("U", "M")] = .ok out ∧ ∀ t, t < Flow.size out.data → val out.data "M" t ≤ 4 := by
  obtain ⟨out, h1, h2⟩ := C28_bounded exF 2 [("U", "M")] (by decide +kernel) (by decide +kernel) (by decide) (by decide)
    exF_fullMap exF_weights (by decide)
  exact ⟨out, h1, fun t ht => ((h2 "M" 0 4 (by decide +kernel)).1 ⟨by decide, by decide, by decide, by decide⟩ t ht).2⟩

/-! ## C29 -/

/-- **C29.** Downsampling a supersampled map by the same factor restores shape, spacing and number of bins.  What is
missing is the origin: see `C29_origin_moves`. -/
theorem C29_shape_spacing_partial (f : Flow) (n : ℕ) (hx : 0 < sp.1) (hy : 0 < sp.2) (hn : 2 ≤ n)
    (hxy : co.1 ≠ co.2) (h : FullMap f sp x0 y0 nx ny co) :
    ∃ mid out, supersample f (some n) co = .ok mid ∧ downsample mid (n, n) co = .ok out ∧
      out.info.shape = f.info.shape ∧ out.info.spacing = f.info.spacing ∧ out.info.numBins = some ((nx * ny : ℕ) : ℤ) ∧
      Flow.size out.data = Flow.size f.data := by
  obtain ⟨mid, out, h1, h2, h3, h4⟩ := round_trip f n hx hy hn hxy h
  refine ⟨mid, out, h1, h2, by rw [h3, h.2.1], by rw [h3, h.2.2], by rw [h3], ?_⟩
  rw [h4, h.1.size_eq hx hy]

/-- **C29** is false: after supersampling and downsampling by the same factor every bin, and the origin, is moved up by
half the difference of the spacings, `(dx - dx / n) / 2`, because the finer grid starts at the centre of the first coarse
bin instead of the centre of its first part. -/
theorem C29_origin_moves (f : Flow) (n : ℕ) (hx : 0 < sp.1) (hy : 0 < sp.2) (hn : 2 ≤ n)
    (hxy : co.1 ≠ co.2) (h : FullMap f sp x0 y0 nx ny co) :
    ∃ mid out, supersample f (some n) co = .ok mid ∧ downsample mid (n, n) co = .ok out ∧
      out.info.origin = some (x0 + (sp.1 - sp.1 / n) / 2, y0 + (sp.2 - sp.2 / n) / 2) ∧
      out.info.origin ≠ some (x0, y0) := by
  obtain ⟨mid, out, h1, h2, h3, h4⟩ := round_trip f n hx hy hn hxy h
  refine ⟨mid, out, h1, h2, by rw [h3], ?_⟩
  rw [h3]
  simp only [ne_eq, Option.some.injEq, Prod.mk.injEq, not_and]
  intro e
  exfalso
  have hn' : (2 : ℚ) ≤ n := by exact_mod_cast hn
  have : sp.1 / n < sp.1 := by rw [div_lt_iff₀ (by linarith)]; nlinarith
  linarith

example : (do downsample (← supersample exF (some 2)) (2, 2)).map (fun f : Flow => (f.info.spacing, f.info.shape, f.info.origin)) =
    .ok (some (1, 2), some (3, 2), some (5 / 4, 7 / 2)) := by decide +kernel

example : ∃ mid out, supersample exF (some 2) = .ok mid ∧ downsample mid (2, 2) = .ok out ∧ out.info.origin ≠ some (1, 3) := by
  obtain ⟨mid, out, h1, h2, -, h3⟩ := C29_origin_moves exF 2 (by decide +kernel) (by decide +kernel) (by decide) (by decide) exF_fullMap
  exact ⟨mid, out, h1, h2, h3⟩

end Strata.Resample
