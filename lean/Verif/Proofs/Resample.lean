import Verif.Spec.Resample
import Verif.Proofs.AverageProps
/-! # Lemmas about full grids and resampling -/
namespace Strata.Resample
open Strata Strata.Flow Strata.Average Finset

/-! ## Positions -/

/-- Position of row `t`, y first. -/
def posAt (r : Record) (co : Label × Label) (t : ℕ) : ℚ × ℚ := (val r co.2 t, val r co.1 t)

/-- The nodes of a grid, y-major. -/
def nodes (sp : ℚ × ℚ) (x0 y0 : ℚ) (nx ny : ℕ) : List (ℚ × ℚ) :=
  (List.range (nx * ny)).map fun t => (y0 + sp.2 * ((t / nx : ℕ) : ℚ), x0 + sp.1 * ((t % nx : ℕ) : ℚ))

theorem node_inj {sp : ℚ × ℚ} (hx : 0 < sp.1) {x0 : ℚ} {i i' : ℕ} (h : x0 + sp.1 * (i : ℚ) = x0 + sp.1 * (i' : ℚ)) : i = i' := by
  have : sp.1 * (i : ℚ) = sp.1 * (i' : ℚ) := by linarith
  exact_mod_cast mul_left_cancel₀ hx.ne' this

theorem node_inj2 {sp : ℚ × ℚ} (hx : 0 < sp.2) {x0 : ℚ} {i i' : ℕ} (h : x0 + sp.2 * (i : ℚ) = x0 + sp.2 * (i' : ℚ)) : i = i' := by
  have : sp.2 * (i : ℚ) = sp.2 * (i' : ℚ) := by linarith
  exact_mod_cast mul_left_cancel₀ hx.ne' this

/-- Order of positions: y first. -/
def posLE (a b : ℚ × ℚ) : Prop := a.1 < b.1 ∨ (a.1 = b.1 ∧ a.2 ≤ b.2)

theorem nodes_sorted (sp : ℚ × ℚ) (hx : 0 < sp.1) (hy : 0 < sp.2) (x0 y0 : ℚ) (nx ny : ℕ) :
    (nodes sp x0 y0 nx ny).Pairwise posLE := by
  unfold nodes
  rw [List.pairwise_map]
  refine List.Pairwise.imp_of_mem ?_ List.pairwise_lt_range
  intro a b ha hb hab
  rw [List.mem_range] at ha hb
  have hle : a / nx ≤ b / nx := Nat.div_le_div_right hab.le
  unfold posLE
  simp only
  rcases hle.lt_or_eq with h | h
  · left
    have : ((a / nx : ℕ) : ℚ) < ((b / nx : ℕ) : ℚ) := by exact_mod_cast h
    nlinarith
  · right
    refine ⟨by rw [h], ?_⟩
    have h1 := (grid_decomp ha).2.2
    have h2 := (grid_decomp hb).2.2
    rw [h] at h1
    have : a % nx ≤ b % nx := by omega
    have : ((a % nx : ℕ) : ℚ) ≤ ((b % nx : ℕ) : ℚ) := by exact_mod_cast this
    nlinarith

theorem nodes_nodup (sp : ℚ × ℚ) (hx : 0 < sp.1) (hy : 0 < sp.2) (x0 y0 : ℚ) (nx ny : ℕ) :
    (nodes sp x0 y0 nx ny).Nodup := by
  unfold nodes
  refine List.Nodup.map_on ?_ List.nodup_range
  intro a ha b hb h
  rw [List.mem_range] at ha hb
  simp only [Prod.mk.injEq] at h
  have h1 := node_inj2 hy h.1
  have h2 := node_inj hx h.2
  rw [(grid_decomp ha).2.2, (grid_decomp hb).2.2, h1, h2]

theorem mem_nodes (sp : ℚ × ℚ) (x0 y0 : ℚ) (nx ny : ℕ) (p : ℚ × ℚ) :
    p ∈ nodes sp x0 y0 nx ny ↔ ∃ i j, i < nx ∧ j < ny ∧ p = (y0 + sp.2 * (j : ℚ), x0 + sp.1 * (i : ℚ)) := by
  unfold nodes
  rw [List.mem_map]
  constructor
  · rintro ⟨t, ht, rfl⟩
    rw [List.mem_range] at ht
    obtain ⟨a, b, -⟩ := grid_decomp ht
    exact ⟨_, _, a, b, rfl⟩
  · rintro ⟨i, j, hi, hj, rfl⟩
    exact ⟨j * nx + i, by rw [List.mem_range]; exact grid_lt hi hj, by rw [grid_mod hi, grid_div hi]⟩

variable {r : Record} {sp : ℚ × ℚ} {x0 y0 : ℚ} {nx ny : ℕ} {co : Label × Label}

theorem FullGrid.inj (h : FullGrid r sp x0 y0 nx ny co) {s t : ℕ} (hs : s < Flow.size r) (ht : t < Flow.size r)
    (e : posAt r co s = posAt r co t) : s = t := by
  obtain ⟨i, j, hi, hj, e1, e2⟩ := h.row t ht
  unfold posAt at e
  simp only [Prod.mk.injEq] at e
  obtain ⟨u, -, hu⟩ := h.node i j hi hj
  rw [hu t ⟨ht, e1, e2⟩, hu s ⟨hs, by rw [e.2]; exact e1, by rw [e.1]; exact e2⟩]

theorem FullGrid.perm (h : FullGrid r sp x0 y0 nx ny co) (hx : 0 < sp.1) (hy : 0 < sp.2) :
    ((List.range (Flow.size r)).map (posAt r co)).Perm (nodes sp x0 y0 nx ny) := by
  rw [List.perm_ext_iff_of_nodup _ (nodes_nodup sp hx hy x0 y0 nx ny)]
  · intro p
    rw [mem_nodes, List.mem_map]
    constructor
    · rintro ⟨t, ht, rfl⟩
      rw [List.mem_range] at ht
      obtain ⟨i, j, hi, hj, e1, e2⟩ := h.row t ht
      exact ⟨i, j, hi, hj, by unfold posAt; rw [e1, e2]⟩
    · rintro ⟨i, j, hi, hj, rfl⟩
      obtain ⟨t, ⟨ht, e1, e2⟩, -⟩ := h.node i j hi hj
      exact ⟨t, by rw [List.mem_range]; exact ht, by unfold posAt; rw [e1, e2]⟩
  · refine List.Nodup.map_on ?_ List.nodup_range
    intro a ha b hb hab
    rw [List.mem_range] at ha hb
    exact h.inj ha hb hab

theorem FullGrid.size_eq (h : FullGrid r sp x0 y0 nx ny co) (hx : 0 < sp.1) (hy : 0 < sp.2) : Flow.size r = nx * ny := by
  have := (h.perm hx hy).length_eq
  simpa [nodes] using this

theorem FullGrid.valueAt_row (h : FullGrid r sp x0 y0 nx ny co) (l : Label) {t : ℕ} (ht : t < Flow.size r) :
    valueAt r l (val r co.1 t) (val r co.2 t) co = val r l t := by
  unfold valueAt
  cases hf : (List.range (Flow.size r)).find?
      fun s => decide (val r co.1 s = val r co.1 t ∧ val r co.2 s = val r co.2 t) with
  | none =>
    rw [List.find?_eq_none] at hf
    have := hf t (by rw [List.mem_range]; exact ht)
    simp at this
  | some s =>
    have h1 := List.find?_some hf
    have h2 := List.mem_of_find?_eq_some hf
    simp only [decide_eq_true_eq] at h1
    rw [List.mem_range] at h2
    simp only [Option.elim]
    rw [h.inj h2 ht (by unfold posAt; rw [h1.1, h1.2])]

/-! ## Sorting a full grid gives the lattice -/

theorem val_gather {r : Record} (hw : Wf r) (idx : List ℕ) (l : Label) (k : ℕ) (hk : k < idx.length) :
    val (gather idx r) l k = val r l idx[k] := by
  unfold Average.val
  rw [col?_gather]
  cases col? r l with
  | none => simp
  | some c => simp only [Option.map_some, Option.getD_some]; exact getD_pick idx c k hk

theorem lexLE_two {a b a' b' : ℚ} {ks ks' : List ℚ} (h : lexLE (a :: b :: ks) (a' :: b' :: ks') = true) :
    posLE (a, b) (a', b') := by
  unfold lexLE at h
  unfold posLE
  simp only
  split at h
  · left; assumption
  · split at h
    · simp at h
    · rename_i h1 h2
      unfold lexLE at h
      right
      refine ⟨le_antisymm (not_lt.mp h2) (not_lt.mp h1), ?_⟩
      split at h
      · rename_i h3; exact h3.le
      · split at h
        · simp at h
        · rename_i h3 h4; exact not_lt.mp h4

theorem sort_fullGrid (h : FullGrid r sp x0 y0 nx ny co) (hx : 0 < sp.1) (hy : 0 < sp.2) :
    ∃ s, sortRecord r [co.2, co.1] = .ok s ∧ Lattice s sp x0 y0 nx ny co ∧ names s = names r ∧
      (∀ l, ∀ i j, i < nx → j < ny → val s l (j * nx + i) = atNode r l sp x0 y0 co i j) := by
  have hperm := argsort_perm r [co.2, co.1]
  have hlen : (argsort r [co.2, co.1]).length = Flow.size r := by rw [hperm.length_eq]; simp
  have hsz := h.size_eq hx hy
  have hne : r ≠ [] := by rintro rfl; have := h.hasX; simp [names] at this
  have hlt : ∀ k (hk : k < (argsort r [co.2, co.1]).length), (argsort r [co.2, co.1])[k] < Flow.size r := by
    intro k hk
    have := hperm.mem_iff.mp (List.getElem_mem hk)
    rwa [List.mem_range] at this
  -- positions of the sorted rows are the nodes
  have hpos : (argsort r [co.2, co.1]).map (posAt r co) = nodes sp x0 y0 nx ny := by
    refine List.Perm.eq_of_pairwise (le := posLE) ?_ ?_ (nodes_sorted sp hx hy x0 y0 nx ny)
      ((hperm.map _).trans (h.perm hx hy))
    · intro a b _ _ hab hba
      unfold posLE at hab hba
      apply Prod.ext
      · rcases hab with h1 | h1
        · rcases hba with h2 | h2
          · exact absurd h1 (not_lt.mpr h2.le)
          · rw [h2.1]
        · exact h1.1
      · rcases hab with h1 | h1
        · rcases hba with h2 | h2
          · exact absurd h1 (not_lt.mpr h2.le)
          · rw [h2.1] at h1; exact absurd h1 (lt_irrefl _)
        · rcases hba with h2 | h2
          · rw [h1.1] at h2; exact absurd h2 (lt_irrefl _)
          · exact le_antisymm h1.2 h2.2
    · rw [List.pairwise_map]
      refine (argsort_sorted r [co.2, co.1]).imp ?_
      intro i j hij
      unfold keyAt sortKeys at hij
      simp only [List.cons_append, List.nil_append, List.map_cons] at hij
      exact lexLE_two hij
  have hk : ∀ k (hk : k < nx * ny), posAt r co ((argsort r [co.2, co.1])[k]'(by rw [hlen, hsz]; exact hk)) =
      (y0 + sp.2 * ((k / nx : ℕ) : ℚ), x0 + sp.1 * ((k % nx : ℕ) : ℚ)) := by
    intro k hk
    have := congrArg (fun l => l[k]?) hpos
    simp only [List.getElem?_map] at this
    rw [List.getElem?_eq_getElem (by rw [hlen, hsz]; exact hk)] at this
    simp only [Option.map_some, nodes, List.getElem?_map, List.getElem?_range hk] at this
    exact Option.some.inj this
  have hv : ∀ l k (hk : k < nx * ny), val (gather (argsort r [co.2, co.1]) r) l k =
      val r l ((argsort r [co.2, co.1])[k]'(by rw [hlen, hsz]; exact hk)) := by
    intro l k hk
    exact val_gather h.wf _ l k (by rw [hlen, hsz]; exact hk)
  refine ⟨gather (argsort r [co.2, co.1]) r, ?_, ?_, by simp, ?_⟩
  · unfold sortRecord
    rw [if_pos]
    simp [h.hasX, h.hasY]
  · refine ⟨wf_gather _ h.wf, h.nxpos, h.nypos, by rw [size_gather _ _ hne, hlen, hsz], by simpa using h.hasX,
      by simpa using h.hasY, ?_, ?_⟩
    · intro t ht
      rw [hv _ t ht]
      exact (Prod.ext_iff.mp (hk t ht)).2
    · intro t ht
      rw [hv _ t ht]
      exact (Prod.ext_iff.mp (hk t ht)).1
  · intro l i j hi hj
    have ht := grid_lt hi hj
    have hp := Prod.ext_iff.mp (hk _ ht)
    rw [grid_mod hi, grid_div hi] at hp
    unfold atNode
    rw [hv l _ ht, ← h.valueAt_row l (hlt _ (by rw [hlen, hsz]; exact ht))]
    unfold posAt at hp
    simp only at hp
    rw [hp.1, hp.2]

/-! ## Selecting part of a grid -/

theorem gather_range {r : Record} (hw : Wf r) : gather (List.range (Flow.size r)) r = r := by
  apply record_ext_val (wf_gather _ hw) hw (by simp)
  · by_cases hne : r = []
    · rw [hne]; rfl
    · rw [size_gather _ _ hne]; simp
  · intro l _ t ht
    by_cases hne : r = []
    · rw [hne]; rfl
    · rw [size_gather _ _ hne, List.length_range] at ht
      rw [val_gather hw _ l t (by simpa using ht)]
      simp

/-- The rows within the limits. -/
def selIdx (r : Record) (xlim ylim : Option ℚ × Option ℚ) (co : Label × Label) : List ℕ :=
  (List.range (Flow.size r)).filter fun t =>
    inLims xlim.1 xlim.2 (val r co.1 t) && inLims ylim.1 ylim.2 (val r co.2 t)

theorem interval (lo hi : Option ℚ) (x0 d : ℚ) (hd : 0 < d) (n : ℕ) (hne : ∃ i, i < n ∧ inLims lo hi (x0 + d * (i : ℚ)) = true) :
    ∃ a m, 0 < m ∧ a + m ≤ n ∧ ∀ i, i < n → (inLims lo hi (x0 + d * (i : ℚ)) = true ↔ a ≤ i ∧ i < a + m) := by
  classical
  let S := (Finset.range n).filter fun i : ℕ => inLims lo hi (x0 + d * (i : ℚ)) = true
  have hS : S.Nonempty := by
    obtain ⟨i, h1, h2⟩ := hne
    exact ⟨i, by simp [S, h1, h2]⟩
  have hmin := S.min'_mem hS
  have hmax := S.max'_mem hS
  have hle : S.min' hS ≤ S.max' hS := S.min'_le _ hmax
  simp only [S, Finset.mem_filter, Finset.mem_range] at hmin hmax
  refine ⟨S.min' hS, S.max' hS - S.min' hS + 1, by omega, ?_, ?_⟩
  · have : S.max' hS < n := hmax.1
    omega
  · intro i hi
    constructor
    · intro h
      have hmem : i ∈ S := by simp [S, hi, h]
      have := S.min'_le i hmem
      have := S.le_max' i hmem
      omega
    · rintro ⟨h1, h2⟩
      have h3 : i ≤ S.max' hS := by omega
      have a1 := (within_iff _ _ _).mp hmin.2
      have a2 := (within_iff _ _ _).mp hmax.2
      rw [within_iff]
      have c1 : ((S.min' hS : ℕ) : ℚ) ≤ (i : ℚ) := by exact_mod_cast h1
      have c2 : (i : ℚ) ≤ ((S.max' hS : ℕ) : ℚ) := by exact_mod_cast h3
      unfold Within at *
      refine ⟨fun b hb => ?_, fun b hb => ?_⟩
      · have := a1.1 b hb
        nlinarith
      · have := a2.2 b hb
        nlinarith

theorem selection_fullGrid (h : FullGrid r sp x0 y0 nx ny co) (hx : 0 < sp.1) (hy : 0 < sp.2)
    (xlim ylim : Option ℚ × Option ℚ) (hne : selIdx r xlim ylim co ≠ []) :
    ∃ a b mx my, a + mx ≤ nx ∧ b + my ≤ ny ∧
      (∀ i, i < nx → (inLims xlim.1 xlim.2 (x0 + sp.1 * (i : ℚ)) = true ↔ a ≤ i ∧ i < a + mx)) ∧
      (∀ j, j < ny → (inLims ylim.1 ylim.2 (y0 + sp.2 * (j : ℚ)) = true ↔ b ≤ j ∧ j < b + my)) ∧
      FullGrid (gather (selIdx r xlim ylim co) r) sp (x0 + sp.1 * (a : ℚ)) (y0 + sp.2 * (b : ℚ)) mx my co ∧
      ∀ l, ∀ i j, i < mx → j < my → atNode (gather (selIdx r xlim ylim co) r) l sp (x0 + sp.1 * (a : ℚ)) (y0 + sp.2 * (b : ℚ)) co i j =
        atNode r l sp x0 y0 co (a + i) (b + j) := by
  have hmem : ∀ t, t ∈ selIdx r xlim ylim co ↔ t < Flow.size r ∧ inLims xlim.1 xlim.2 (val r co.1 t) = true ∧
      inLims ylim.1 ylim.2 (val r co.2 t) = true := by
    intro t; simp [selIdx]
  obtain ⟨t0, ht0⟩ := List.exists_mem_of_ne_nil _ hne
  rw [hmem] at ht0
  obtain ⟨i0, j0, hi0, hj0, e1, e2⟩ := h.row t0 ht0.1
  rw [e1, e2] at ht0
  obtain ⟨a, mx, hmx, hax, hwx⟩ := interval xlim.1 xlim.2 x0 sp.1 hx nx ⟨i0, hi0, ht0.2.1⟩
  obtain ⟨b, my, hmy, hby, hwy⟩ := interval ylim.1 ylim.2 y0 sp.2 hy ny ⟨j0, hj0, ht0.2.2⟩
  have hrne : r ≠ [] := by rintro rfl; have := h.hasX; simp [names] at this
  have hsz := size_gather (selIdx r xlim ylim co) r hrne
  have hnd : (selIdx r xlim ylim co).Nodup := List.nodup_range.filter _
  have hlt : ∀ k (hk : k < (selIdx r xlim ylim co).length), (selIdx r xlim ylim co)[k] < Flow.size r :=
    fun k hk => ((hmem _).mp (List.getElem_mem hk)).1
  have hfg : FullGrid (gather (selIdx r xlim ylim co) r) sp (x0 + sp.1 * (a : ℚ)) (y0 + sp.2 * (b : ℚ)) mx my co := by
    refine ⟨wf_gather _ h.wf, by simpa using h.hasX, by simpa using h.hasY, hmx, hmy, ?_, ?_⟩
    · intro i j hi hj
      obtain ⟨t, ⟨ht, f1, f2⟩, hu⟩ := h.node (a + i) (b + j) (by omega) (by omega)
      have hts : t ∈ selIdx r xlim ylim co := by
        rw [hmem, f1, f2]
        exact ⟨ht, (hwx _ (by omega)).mpr (by omega), (hwy _ (by omega)).mpr (by omega)⟩
      obtain ⟨k, hk, hkt⟩ := List.getElem_of_mem hts
      refine ⟨k, ⟨by rw [hsz]; exact hk, ?_, ?_⟩, ?_⟩
      · rw [val_gather h.wf _ _ _ hk, hkt, f1]; push_cast; ring
      · rw [val_gather h.wf _ _ _ hk, hkt, f2]; push_cast; ring
      · rintro k' ⟨hk', g1, g2⟩
        rw [hsz] at hk'
        rw [val_gather h.wf _ _ _ hk'] at g1 g2
        have : (selIdx r xlim ylim co)[k'] = t := hu _ ⟨hlt k' hk', by rw [g1]; push_cast; ring, by rw [g2]; push_cast; ring⟩
        rw [← hkt] at this
        exact (hnd.getElem_inj_iff).mp this
    · intro k hk
      rw [hsz] at hk
      rw [val_gather h.wf _ _ _ hk, val_gather h.wf _ _ _ hk]
      have hm := (hmem _).mp (List.getElem_mem hk)
      obtain ⟨i, j, hi, hj, f1, f2⟩ := h.row _ hm.1
      rw [f1, f2] at hm ⊢
      have c1 := (hwx i hi).mp hm.2.1
      have c2 := (hwy j hj).mp hm.2.2
      refine ⟨i - a, j - b, by omega, by omega, ?_, ?_⟩
      · rw [Nat.cast_sub c1.1]; ring
      · rw [Nat.cast_sub c2.1]; ring
  refine ⟨a, b, mx, my, hax, hby, hwx, hwy, hfg, ?_⟩
  intro l i j hi hj
  obtain ⟨k, ⟨hk, g1, g2⟩, -⟩ := hfg.node i j hi hj
  have hk' := hk
  rw [hsz] at hk'
  unfold atNode
  rw [← g1, ← g2, hfg.valueAt_row l hk, val_gather h.wf _ _ _ hk', ← h.valueAt_row l (hlt k hk')]
  rw [val_gather h.wf _ _ _ hk'] at g1 g2
  rw [g1, g2]
  congr 1 <;> (push_cast; ring)

end Strata.Resample
