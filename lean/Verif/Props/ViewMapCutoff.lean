import Verif.Props.ViewMap
import Mathlib.Algebra.Order.Floor.Semifield
/-!
# Height maps with a cutoff (C95): in which cell every bin is drawn
-/
namespace Strata.View
open Strata Strata.Flow Strata.Average Strata.Resample Strata.Sample

/-- The cell in which bin `i` of an axis of `n` bins is drawn, if the bins that are left reach from `i0` to `i1`: the cells divide the
range of the bins that are left into `n` equal parts. -/
def drawnAt (n i0 i1 i : ℕ) : ℕ := if i0 = i1 then n / 2 else min ((i - i0) * n / (i1 - i0)) (n - 1)

/-- The outermost bins that are left along an axis. -/
def Reaches (kept : ℕ → Prop) (i0 i1 : ℕ) : Prop := kept i0 ∧ kept i1 ∧ ∀ i, kept i → i0 ≤ i ∧ i ≤ i1

theorem cellOf_floor {n : ℕ} (hn : 0 < n) {lo hi x : ℚ} (h : lo < hi) (h0 : lo ≤ x) (h1 : x ≤ hi) :
    cellOf n (lo, hi) x = min ⌊(x - lo) * (n : ℚ) / (hi - lo)⌋₊ (n - 1) := by
  have hw : 0 < hi - lo := by linarith
  have hN : (0 : ℚ) < n := by exact_mod_cast hn
  have hq : 0 ≤ (x - lo) * (n : ℚ) / (hi - lo) := div_nonneg (mul_nonneg (by linarith) hN.le) hw.le
  have hle : ∀ k : ℕ, cellEdge n (lo, hi) k ≤ x ↔ (k : ℚ) ≤ (x - lo) * (n : ℚ) / (hi - lo) := by
    intro k
    unfold cellEdge
    simp only
    rw [le_div_iff₀ hw]
    have e : (k : ℚ) * ((hi - lo) / (n : ℚ)) = (k : ℚ) * (hi - lo) / (n : ℚ) := by ring
    rw [e, ← le_sub_iff_add_le', div_le_iff₀ hN]
  have hmn : ⌊(x - lo) * (n : ℚ) / (hi - lo)⌋₊ ≤ n := by
    rw [← Nat.cast_le (α := ℚ)]
    refine le_trans (Nat.floor_le hq) ?_
    rw [div_le_iff₀ hw]
    nlinarith
  unfold cellOf
  rw [count_range n ⌊(x - lo) * (n : ℚ) / (hi - lo)⌋₊ _ _ hmn]
  · have hend : x = cellEdge n (lo, hi) n ↔ ⌊(x - lo) * (n : ℚ) / (hi - lo)⌋₊ = n := by
      have ee : cellEdge n (lo, hi) n = hi := by
        unfold cellEdge
        simp only
        field_simp
        ring
      constructor
      · intro hx
        refine le_antisymm hmn ?_
        rw [Nat.le_floor_iff hq, ← hle n]
        exact hx.ge
      · intro hf
        have : cellEdge n (lo, hi) n ≤ x := by rw [hle n, ← Nat.le_floor_iff hq, hf]
        rw [ee] at this ⊢
        exact le_antisymm h1 this
    by_cases hx : x = cellEdge n (lo, hi) n
    · rw [if_pos hx]
      have := hend.mp hx
      omega
    · rw [if_neg hx]
      have : ⌊(x - lo) * (n : ℚ) / (hi - lo)⌋₊ ≠ n := fun e => hx (hend.mpr e)
      omega
  · intro k hk
    rw [decide_eq_true_iff, hle k, Nat.le_floor_iff hq]

/-- The cell of a bin along one axis. -/
theorem cellOf_range {n i0 i1 i : ℕ} (hn : 0 < n) (x0 d : ℚ) (hd : 0 < d) (xs : List ℚ) (kept : ℕ → Prop) (hr : Reaches kept i0 i1)
    (hxs : ∀ x, x ∈ xs ↔ ∃ i, kept i ∧ x = x0 + d * (i : ℚ)) (hi : kept i) :
    cellOf n (cellRange xs) (x0 + d * (i : ℚ)) = drawnAt n i0 i1 i := by
  obtain ⟨hk0, hk1, hall⟩ := hr
  have mono : ∀ a b : ℕ, a ≤ b → x0 + d * (a : ℚ) ≤ x0 + d * (b : ℚ) := by
    intro a b hab
    have : (a : ℚ) ≤ (b : ℚ) := by exact_mod_cast hab
    nlinarith
  have hmin : npMin xs = .ok (x0 + d * (i0 : ℚ)) := by
    rw [npMin_ok_iff]
    refine ⟨(hxs _).mpr ⟨i0, hk0, rfl⟩, fun x hx => ?_⟩
    obtain ⟨k, hk, rfl⟩ := (hxs x).mp hx
    exact mono _ _ (hall k hk).1
  have hmax : npMax xs = .ok (x0 + d * (i1 : ℚ)) := by
    rw [npMax_ok_iff]
    refine ⟨(hxs _).mpr ⟨i1, hk1, rfl⟩, fun x hx => ?_⟩
    obtain ⟨k, hk, rfl⟩ := (hxs x).mp hx
    exact mono _ _ (hall k hk).2
  obtain ⟨h1, h2⟩ := hall i hi
  unfold cellRange drawnAt
  rw [hmin, hmax]
  simp only
  by_cases he : i0 = i1
  · subst he
    have : i = i0 := by omega
    subst this
    rw [if_pos rfl, if_pos rfl, cellOf_floor hn (by linarith) (by linarith) (by linarith)]
    have e : (x0 + d * (i : ℚ) - (x0 + d * (i : ℚ) - 1 / 2)) * (n : ℚ) / (x0 + d * (i : ℚ) + 1 / 2 - (x0 + d * (i : ℚ) - 1 / 2)) = (n : ℚ) / (2 : ℕ) := by
      push_cast
      ring
    rw [e, Nat.floor_div_eq_div]
    omega
  · have hlt : i0 < i1 := by omega
    have hltq : (i0 : ℚ) < (i1 : ℚ) := by exact_mod_cast hlt
    have hne : ¬ x0 + d * (i0 : ℚ) = x0 + d * (i1 : ℚ) := by
      intro h
      nlinarith
    rw [if_neg hne, if_neg he, cellOf_floor hn (by nlinarith) (mono _ _ h1) (mono _ _ h2)]
    have e : (x0 + d * (i : ℚ) - (x0 + d * (i0 : ℚ))) * (n : ℚ) / (x0 + d * (i1 : ℚ) - (x0 + d * (i0 : ℚ))) = (((i - i0) * n : ℕ) : ℚ) / ((i1 - i0 : ℕ) : ℚ) := by
      rw [Nat.cast_mul, Nat.cast_sub h1, Nat.cast_sub hlt.le]
      have a1 : x0 + d * (i : ℚ) - (x0 + d * (i0 : ℚ)) = d * ((i : ℚ) - i0) := by ring
      have a2 : x0 + d * (i1 : ℚ) - (x0 + d * (i0 : ℚ)) = d * ((i1 : ℚ) - i0) := by ring
      rw [a1, a2, mul_assoc, mul_div_mul_left _ _ hd.ne']
    rw [e, Nat.floor_div_eq_div]

/-- No two bins share a cell. -/
theorem drawnAt_injective {n i0 i1 a b : ℕ} (h1 : i1 < n) (ha : i0 ≤ a ∧ a ≤ i1) (hb : i0 ≤ b ∧ b ≤ i1) (h : drawnAt n i0 i1 a = drawnAt n i0 i1 b) : a = b := by
  unfold drawnAt at h
  by_cases he : i0 = i1
  · omega
  · rw [if_neg he, if_neg he] at h
    have key : ∀ u v : ℕ, u < v → v ≤ i1 - i0 → min (u * n / (i1 - i0)) (n - 1) < min (v * n / (i1 - i0)) (n - 1) := by
      intro u v huv hv
      have hD : 0 < i1 - i0 := by omega
      have hDn : i1 - i0 < n := by omega
      generalize i1 - i0 = D at *
      have s1 : u * n / D + 1 ≤ v * n / D := by
        rw [Nat.le_div_iff_mul_le hD]
        have := Nat.div_mul_le_self (u * n) D
        have h2 : (u + 1) * n ≤ v * n := Nat.mul_le_mul_right _ huv
        nlinarith
      have s2 : v * n / D ≤ n := by
        have : v * n / D ≤ D * n / D := Nat.div_le_div_right (Nat.mul_le_mul_right _ hv)
        rwa [Nat.mul_div_cancel_left n hD] at this
      have s3 : u * n / D < n - 1 := by
        rw [Nat.div_lt_iff_lt_mul hD]
        have h2 : (u + 1) * n ≤ D * n := Nat.mul_le_mul_right _ (by omega)
        obtain ⟨m, rfl⟩ : ∃ m, n = m + 1 := ⟨n - 1, by omega⟩
        rw [Nat.add_sub_cancel]
        nlinarith
      omega
    rcases lt_trichotomy (a - i0) (b - i0) with hlt | heq | hgt
    · exact absurd h (ne_of_lt (key _ _ hlt (by omega)))
    · omega
    · exact absurd h (ne_of_gt (key _ _ hgt (by omega)))

/-- All bins that are left are drawn in their own cells along an axis exactly if the outermost bins of the axis are left, or a single bin in the
middle of the axis. -/
theorem drawnAt_own_iff {n i0 i1 : ℕ} (kept : ℕ → Prop) (hr : Reaches kept i0 i1) (hn : ∀ i, kept i → i < n) :
    (∀ i, kept i → drawnAt n i0 i1 i = i) ↔ (i0 = 0 ∧ i1 = n - 1) ∨ (i0 = i1 ∧ i0 = n / 2) := by
  obtain ⟨hk0, hk1, hall⟩ := hr
  have h1n := hn i1 hk1
  constructor
  · intro h
    have a0 := h i0 hk0
    have a1 := h i1 hk1
    unfold drawnAt at a0 a1
    by_cases he : i0 = i1
    · rw [if_pos he] at a0
      exact .inr ⟨he, a0.symm⟩
    · rw [if_neg he, Nat.sub_self, Nat.zero_mul, Nat.zero_div, Nat.zero_min] at a0
      have := (hall i1 hk1).1
      rw [if_neg he, Nat.mul_div_cancel_left _ (by omega), min_eq_right (by omega)] at a1
      exact .inl ⟨a0.symm, a1.symm⟩
  · rintro (⟨h0, h1⟩ | ⟨h0, h1⟩) i hi
    · obtain ⟨b1, b2⟩ := hall i hi
      subst h0 h1
      unfold drawnAt
      by_cases he : 0 = n - 1
      · rw [if_pos he]; omega
      · rw [if_neg he, Nat.sub_zero, Nat.sub_zero]
        obtain ⟨m, rfl⟩ : ∃ m, n = m + 1 := ⟨n - 1, by omega⟩
        rw [Nat.add_sub_cancel] at *
        have e : i * (m + 1) / m = i + i / m := by
          rw [Nat.mul_add, Nat.mul_one, Nat.mul_comm i m, Nat.mul_add_div (by omega)]
        rw [e]
        rcases Nat.lt_or_ge i m with hlt | hge
        · rw [Nat.div_eq_of_lt hlt]; omega
        · have him : i = m := by omega
          subst him
          rw [min_eq_right (Nat.le_add_right _ _)]
    · obtain ⟨b1, b2⟩ := hall i hi
      unfold drawnAt
      rw [if_pos h0]
      omega

/-- **C95, with any cutoff, as coded.** Of the bins that are left, which reach from column `i0` to `i1` and from row `j0` to `j1`, bin `(a, b)` is shown in the cell
`(drawnAt nx i0 i1 a, drawnAt ny j0 j1 b)`, no two of them in the same; the other cells are those of empty bins. -/
theorem C95_cutoff_as_coded (o : MapOpts) (cl : Label) (c : ℚ) (hcl : o.cutoffLabel = some cl) (hc : o.cutoff = some c) (f : Flow) (sp : ℚ × ℚ) (x0 y0 : ℚ) (nx ny : ℕ)
    (h : FullMap f sp x0 y0 nx ny o.coords) (hx : 0 < sp.1) (hy : 0 < sp.2) (label : Label) (hl : label ∈ names f.data) (hs : label ∉ special) (hcn : cl ∈ names f.data)
    (i0 i1 j0 j1 : ℕ)
    (hri : Reaches (fun i => i < nx ∧ ∃ j, j < ny ∧ c ≤ atNode f.data cl sp x0 y0 o.coords i j) i0 i1)
    (hrj : Reaches (fun j => j < ny ∧ ∃ i, i < nx ∧ c ≤ atNode f.data cl sp x0 y0 o.coords i j) j0 j1) :
    ∃ cells, viewMaps [f] label "height" o = ([.height cells], .ok ()) ∧ cells.length = nx ∧ (∀ c ∈ cells, c.length = ny) ∧
      (∀ a b, a < nx → b < ny → c ≤ atNode f.data cl sp x0 y0 o.coords a b → drawnAt nx i0 i1 a < nx ∧ drawnAt ny j0 j1 b < ny ∧
        entry none cells (drawnAt nx i0 i1 a) (drawnAt ny j0 j1 b) = shownValue o.clim ((atNode f.data label sp x0 y0 o.coords a b : ℚ) : ℝ)) ∧
      ∀ i j, i < nx → j < ny → (¬ ∃ a b, a < nx ∧ b < ny ∧ c ≤ atNode f.data cl sp x0 y0 o.coords a b ∧ drawnAt nx i0 i1 a = i ∧ drawnAt ny j0 j1 b = j) →
        entry none cells i j = shownValue o.clim 0 := by
  obtain ⟨hg, hsh, -⟩ := h
  have hnx := hg.nxpos
  have hny := hg.nypos
  set idx := (List.range (Flow.size f.data)).filter fun t => decide (c ≤ val f.data cl t) with hidx
  have hmem : ∀ t, t ∈ idx ↔ t < Flow.size f.data ∧ c ≤ val f.data cl t := by intro t; simp [hidx]
  have hnd : idx.Nodup := List.Nodup.filter _ List.nodup_range
  have node : ∀ i j, i < nx → j < ny → c ≤ atNode f.data cl sp x0 y0 o.coords i j → ∃ t ∈ idx, val f.data o.coords.1 t = x0 + sp.1 * (i : ℚ) ∧ val f.data o.coords.2 t = y0 + sp.2 * (j : ℚ) ∧
      ∀ l, atNode f.data l sp x0 y0 o.coords i j = val f.data l t := by
    intro i j hi hj hle
    obtain ⟨t, ht, ex, ey, hv⟩ := hg.atNode_row hi hj
    exact ⟨t, (hmem t).mpr ⟨ht, by rw [← hv cl]; exact hle⟩, ex, ey, hv⟩
  have nodeOf : ∀ t ∈ idx, ∃ i j, i < nx ∧ j < ny ∧ val f.data o.coords.1 t = x0 + sp.1 * (i : ℚ) ∧ val f.data o.coords.2 t = y0 + sp.2 * (j : ℚ) ∧
      c ≤ atNode f.data cl sp x0 y0 o.coords i j := by
    intro t ht
    obtain ⟨h1, h2⟩ := (hmem t).mp ht
    obtain ⟨i, j, hi, hj, ex, ey⟩ := hg.row t h1
    obtain ⟨u, hu, ux, uy, hv⟩ := hg.atNode_row hi hj
    obtain ⟨v, -, huq⟩ := hg.node i j hi hj
    have : u = t := by rw [huq u ⟨hu, ux, uy⟩, huq t ⟨h1, ex, ey⟩]
    subst this
    exact ⟨i, j, hi, hj, ex, ey, by rw [hv cl]; exact h2⟩
  have cx : ∀ i, i < nx → (∃ j, j < ny ∧ c ≤ atNode f.data cl sp x0 y0 o.coords i j) → cellOf nx (cellRange (idx.map (val f.data o.coords.1))) (x0 + sp.1 * (i : ℚ)) = drawnAt nx i0 i1 i := by
    intro i hi hj
    refine cellOf_range hnx x0 sp.1 hx _ _ hri ?_ ⟨hi, hj⟩
    intro x
    rw [List.mem_map]
    constructor
    · rintro ⟨t, ht, rfl⟩
      obtain ⟨i, j, hi, hj, ex, -, hle⟩ := nodeOf t ht
      exact ⟨i, ⟨hi, j, hj, hle⟩, ex⟩
    · rintro ⟨i, ⟨hi, j, hj, hle⟩, rfl⟩
      obtain ⟨t, ht, ex, -⟩ := node i j hi hj hle
      exact ⟨t, ht, ex⟩
  have cy : ∀ j, j < ny → (∃ i, i < nx ∧ c ≤ atNode f.data cl sp x0 y0 o.coords i j) → cellOf ny (cellRange (idx.map (val f.data o.coords.2))) (y0 + sp.2 * (j : ℚ)) = drawnAt ny j0 j1 j := by
    intro j hj hi
    refine cellOf_range hny y0 sp.2 hy _ _ hrj ?_ ⟨hj, hi⟩
    intro y
    rw [List.mem_map]
    constructor
    · rintro ⟨t, ht, rfl⟩
      obtain ⟨i, j, hi, hj, -, ey, hle⟩ := nodeOf t ht
      exact ⟨j, ⟨hj, i, hi, hle⟩, ey⟩
    · rintro ⟨j, ⟨hj, i, hi, hle⟩, rfl⟩
      obtain ⟨t, ht, -, ey, -⟩ := node i j hi hj hle
      exact ⟨t, ht, ey⟩
  have lt_nx : ∀ a, drawnAt nx i0 i1 a < nx := by
    intro a; unfold drawnAt; split_ifs <;> omega
  have lt_ny : ∀ b, drawnAt ny j0 j1 b < ny := by
    intro b; unfold drawnAt; split_ifs <;> omega
  have hget : ∀ (F : ℕ → ℚ) k (hk : k < idx.length), (idx.map F).getD k 0 = F idx[k] := by
    intro F k hk
    simp [List.getD_eq_getElem?_getD, hk]
  have hval : (Shown.rows ⟨f.data, []⟩ idx).values label = .ok (idx.map fun t => some ((val f.data label t : ℚ) : ℝ)) := by
    unfold Shown.values Shown.rows
    obtain ⟨cc, h1, -⟩ := Sample.field_ok hl
    simp only
    rw [col?_gather, h1]
    simp [val_of_col h1, pick]
  have hdraw : drawHeight o f.info (Shown.rows ⟨f.data, []⟩ idx) label = .ok (.height ((List.range nx).map fun i : ℕ => (List.range ny).map fun j : ℕ =>
      blank o.clim (cellSum nx ny (idx.map (val f.data o.coords.1)) (idx.map (val f.data o.coords.2)) (idx.map fun t => some ((val f.data label t : ℚ) : ℝ)) i j))) := by
    unfold drawHeight
    rw [show field (Shown.rows ⟨f.data, []⟩ idx).base o.coords.1 = .ok (idx.map (val f.data o.coords.1)) from field_gather hg.hasX idx, Gmx.ok_bind,
      show field (Shown.rows ⟨f.data, []⟩ idx).base o.coords.2 = .ok (idx.map (val f.data o.coords.2)) from field_gather hg.hasY idx, Gmx.ok_bind, hval, Gmx.ok_bind, hsh]
    simp only
    rw [if_neg (by omega)]
    rfl
  refine ⟨(List.range nx).map fun i : ℕ => (List.range ny).map fun j : ℕ =>
      blank o.clim (cellSum nx ny (idx.map (val f.data o.coords.1)) (idx.map (val f.data o.coords.2)) (idx.map fun t => some ((val f.data label t : ℚ) : ℝ)) i j), ?_, by simp, ?_, ?_, ?_⟩
  · unfold viewMaps kindOf
    rw [if_pos rfl]
    simp only [viewLoop, viewOne]
    rw [addFields_plain hs, Gmx.ok_bind]
    simp only
    rw [hcl, hc, applyCutoff_field hg.wf hcn, Gmx.ok_bind, hdraw]
    rfl
  · intro c hc
    obtain ⟨i, -, rfl⟩ := List.mem_map.mp hc
    simp
  · intro a b ha hb hle
    refine ⟨lt_nx a, lt_ny b, ?_⟩
    rw [entry_map_range none nx ny _ (lt_nx a) (lt_ny b)]
    obtain ⟨t, ht, ex, ey, hv⟩ := node a b ha hb hle
    obtain ⟨k, hk, rfl⟩ := List.mem_iff_getElem.mp ht
    rw [hv label, ← blank_some]
    congr 1
    unfold cellSum
    rw [filter_range_unique _ k _ (by simpa using hk)]
    · simp [List.getD_eq_getElem?_getD, hk]
    · intro m hm
      rw [List.length_map] at hm
      rw [Bool.and_eq_true, decide_eq_true_iff, decide_eq_true_iff, hget _ m hm, hget _ m hm]
      obtain ⟨i, j, hi, hj, mx, my, hle'⟩ := nodeOf _ (List.getElem_mem hm)
      rw [mx, my, cx i hi ⟨j, hj, hle'⟩, cy j hj ⟨i, hi, hle'⟩]
      constructor
      · rintro ⟨h1, h2⟩
        have e1 := drawnAt_injective (hri.2.1.1) (hri.2.2 i ⟨hi, j, hj, hle'⟩) (hri.2.2 a ⟨ha, b, hb, hle⟩) h1
        have e2 := drawnAt_injective (hrj.2.1.1) (hrj.2.2 j ⟨hj, i, hi, hle'⟩) (hrj.2.2 b ⟨hb, a, ha, hle⟩) h2
        subst e1 e2
        obtain ⟨v, -, huq⟩ := hg.node i j hi hj
        have hm1 := ((hmem _).mp (List.getElem_mem hm)).1
        have hk1 := ((hmem _).mp (List.getElem_mem hk)).1
        have : idx[m] = idx[k] := by rw [huq _ ⟨hm1, mx, my⟩, huq _ ⟨hk1, ex, ey⟩]
        exact (List.Nodup.getElem_inj_iff hnd).mp this
      · rintro rfl
        have q1 : x0 + sp.1 * (i : ℚ) = x0 + sp.1 * (a : ℚ) := by rw [← mx, ex]
        have q2 : y0 + sp.2 * (j : ℚ) = y0 + sp.2 * (b : ℚ) := by rw [← my, ey]
        have r1 : i = a := by exact_mod_cast mul_left_cancel₀ hx.ne' (by linarith : sp.1 * (i : ℚ) = sp.1 * (a : ℚ))
        have r2 : j = b := by exact_mod_cast mul_left_cancel₀ hy.ne' (by linarith : sp.2 * (j : ℚ) = sp.2 * (b : ℚ))
        exact ⟨by rw [r1], by rw [r2]⟩
  · intro i j hi hj hno
    rw [entry_map_range none nx ny _ hi hj, ← blank_some]
    congr 1
    unfold cellSum
    rw [List.filter_eq_nil_iff.mpr]
    · simp
    · intro m hm
      rw [List.mem_range, List.length_map] at hm
      rw [Bool.and_eq_true, decide_eq_true_iff, decide_eq_true_iff, hget _ m hm, hget _ m hm]
      obtain ⟨a, b, ha, hb, mx, my, hle'⟩ := nodeOf _ (List.getElem_mem hm)
      rw [mx, my, cx a ha ⟨b, hb, hle'⟩, cy b hb ⟨a, ha, hle'⟩]
      rintro ⟨h1, h2⟩
      exact hno ⟨a, b, ha, hb, hle', h1, h2⟩

/-- **C95, with a cutoff, exact condition.** Every bin that is left is drawn in its own cell exactly if bins of both outer columns are left, or only bins of the
middle column, and likewise for rows. -/
theorem C95_cutoff_own_cells_iff (f : Flow) (sp : ℚ × ℚ) (x0 y0 : ℚ) (nx ny : ℕ) (co : Label × Label) (cl : Label) (c : ℚ) (i0 i1 j0 j1 : ℕ)
    (hri : Reaches (fun i => i < nx ∧ ∃ j, j < ny ∧ c ≤ atNode f.data cl sp x0 y0 co i j) i0 i1)
    (hrj : Reaches (fun j => j < ny ∧ ∃ i, i < nx ∧ c ≤ atNode f.data cl sp x0 y0 co i j) j0 j1) :
    (∀ a b, a < nx → b < ny → c ≤ atNode f.data cl sp x0 y0 co a b → drawnAt nx i0 i1 a = a ∧ drawnAt ny j0 j1 b = b) ↔
      ((i0 = 0 ∧ i1 = nx - 1) ∨ (i0 = i1 ∧ i0 = nx / 2)) ∧ ((j0 = 0 ∧ j1 = ny - 1) ∨ (j0 = j1 ∧ j0 = ny / 2)) := by
  rw [← drawnAt_own_iff _ hri (fun i hi => hi.1), ← drawnAt_own_iff _ hrj (fun j hj => hj.1)]
  constructor
  · intro h
    exact ⟨fun i ⟨hi, j, hj, hle⟩ => (h i j hi hj hle).1, fun j ⟨hj, i, hi, hle⟩ => (h i j hi hj hle).2⟩
  · rintro ⟨h1, h2⟩ a b ha hb hle
    exact ⟨h1 a ⟨ha, b, hb, hle⟩, h2 b ⟨hb, a, ha, hle⟩⟩

/-- **C95 with a cutoff above all values**: every cell is that of an empty bin. -/
theorem C95_cutoff_nothing_left (o : MapOpts) (cl : Label) (c : ℚ) (hcl : o.cutoffLabel = some cl) (hc : o.cutoff = some c) (f : Flow) (sp : ℚ × ℚ) (x0 y0 : ℚ) (nx ny : ℕ)
    (h : FullMap f sp x0 y0 nx ny o.coords) (label : Label) (hl : label ∈ names f.data) (hs : label ∉ special) (hcn : cl ∈ names f.data)
    (hno : ∀ i j, i < nx → j < ny → atNode f.data cl sp x0 y0 o.coords i j < c) :
    ∃ cells, viewMaps [f] label "height" o = ([.height cells], .ok ()) ∧ cells.length = nx ∧ (∀ c ∈ cells, c.length = ny) ∧
      ∀ i j, i < nx → j < ny → entry none cells i j = shownValue o.clim 0 := by
  obtain ⟨hg, hsh, -⟩ := h
  have hnx := hg.nxpos
  have hny := hg.nypos
  have hidx : ((List.range (Flow.size f.data)).filter fun t => decide (c ≤ val f.data cl t)) = [] := by
    rw [List.filter_eq_nil_iff]
    intro t ht
    rw [decide_eq_true_iff, not_le]
    obtain ⟨i, j, hi, hj, ex, ey⟩ := hg.row t (List.mem_range.mp ht)
    obtain ⟨u, hu, ux, uy, hv⟩ := hg.atNode_row hi hj
    obtain ⟨v, -, huq⟩ := hg.node i j hi hj
    have : u = t := by rw [huq u ⟨hu, ux, uy⟩, huq t ⟨List.mem_range.mp ht, ex, ey⟩]
    subst this
    rw [← hv cl]
    exact hno i j hi hj
  refine ⟨(List.range nx).map fun i : ℕ => (List.range ny).map fun j : ℕ => blank o.clim (cellSum nx ny [] [] ([] : List (Option ℝ)) i j), ?_, by simp, ?_, ?_⟩
  · unfold viewMaps kindOf
    rw [if_pos rfl]
    simp only [viewLoop, viewOne]
    rw [addFields_plain hs, Gmx.ok_bind]
    simp only
    rw [hcl, hc, applyCutoff_field hg.wf hcn, Gmx.ok_bind, hidx]
    have hval : (Shown.rows ⟨f.data, []⟩ []).values label = .ok [] := by
      unfold Shown.values Shown.rows
      obtain ⟨cc, h1, -⟩ := Sample.field_ok hl
      simp only
      rw [col?_gather, h1]
      simp [pick]
    unfold drawHeight
    rw [show field (Shown.rows ⟨f.data, []⟩ []).base o.coords.1 = .ok [] from field_gather hg.hasX [], Gmx.ok_bind,
      show field (Shown.rows ⟨f.data, []⟩ []).base o.coords.2 = .ok [] from field_gather hg.hasY [], Gmx.ok_bind, hval, Gmx.ok_bind, hsh]
    simp only
    rw [if_neg (by omega)]
    rfl
  · intro c hc
    obtain ⟨i, -, rfl⟩ := List.mem_map.mp hc
    simp
  · intro i j hi hj
    rw [entry_map_range none nx ny _ hi hj, ← blank_some]
    congr 1

/-- In the row of bins with the masses 0, 5, 6 the cutoff 1 leaves the columns 1 and 2; column 1 is drawn in cell 0, as `C95_cutoff_counterexample` shows. -/
example : Reaches (fun i => i < 3 ∧ ∃ j, j < 1 ∧ (1 : ℚ) ≤ atNode exRow.data "M" (1, 1) 0 0 ("X", "Y") i j) 1 2 ∧
    drawnAt 3 1 2 1 = 0 ∧ drawnAt 3 1 2 2 = 2 ∧ drawnAt 10 2 6 4 = 5 := by
  refine ⟨⟨⟨by decide, 0, by decide, by decide +kernel⟩, ⟨by decide, 0, by decide, by decide +kernel⟩, ?_⟩, by decide, by decide, by decide⟩
  rintro i ⟨hi, j, hj, hle⟩
  have hj0 : j = 0 := by omega
  subst hj0
  refine ⟨?_, by omega⟩
  by_contra hc
  have : i = 0 := by omega
  subst this
  exact absurd hle (by decide +kernel)

end Strata.View
