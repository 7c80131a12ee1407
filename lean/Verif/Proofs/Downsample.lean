import Verif.Proofs.Resample
/-! # Lemmas about downsampling -/
namespace Strata.Resample
open Strata Strata.Flow Strata.Average Finset

variable {r : Record} {sp : ℚ × ℚ} {x0 y0 : ℚ} {nx ny : ℕ} {co : Label × Label}

theorem dedup_length_of_iff (c : List ℚ) (n : ℕ) (f : ℕ → ℚ) (hf : ∀ i < n, ∀ j < n, f i = f j → i = j)
    (h : ∀ x, x ∈ c ↔ ∃ i, i < n ∧ f i = x) : c.dedup.length = n := by
  have hn : ((List.range n).map f).Nodup := by
    refine List.Nodup.map_on ?_ List.nodup_range
    intro a ha b hb hab
    rw [List.mem_range] at ha hb
    exact hf a ha b hb hab
  have : c.dedup.Perm ((List.range n).map f) := by
    rw [List.perm_ext_iff_of_nodup c.nodup_dedup hn]
    intro x
    rw [List.mem_dedup, h, List.mem_map]
    simp
  rw [this.length_eq]; simp

theorem FullGrid.col_x (h : FullGrid r sp x0 y0 nx ny co) {c : List ℚ} (hc : col? r co.1 = some c) (x : ℚ) :
    x ∈ c ↔ ∃ i : ℕ, i < nx ∧ x0 + sp.1 * (i : ℚ) = x := by
  rw [mem_col_iff h.wf hc]
  constructor
  · rintro ⟨t, ht, rfl⟩
    obtain ⟨i, j, hi, hj, e1, e2⟩ := h.row t ht
    exact ⟨i, hi, e1.symm⟩
  · rintro ⟨i, hi, rfl⟩
    obtain ⟨t, ⟨ht, e1, e2⟩, -⟩ := h.node i 0 hi h.nypos
    exact ⟨t, ht, e1⟩

theorem FullGrid.col_y (h : FullGrid r sp x0 y0 nx ny co) {c : List ℚ} (hc : col? r co.2 = some c) (y : ℚ) :
    y ∈ c ↔ ∃ j : ℕ, j < ny ∧ y0 + sp.2 * (j : ℚ) = y := by
  rw [mem_col_iff h.wf hc]
  constructor
  · rintro ⟨t, ht, rfl⟩
    obtain ⟨i, j, hi, hj, e1, e2⟩ := h.row t ht
    exact ⟨j, hj, e2.symm⟩
  · rintro ⟨j, hj, rfl⟩
    obtain ⟨t, ⟨ht, e1, e2⟩, -⟩ := h.node 0 j h.nxpos hj
    exact ⟨t, ht, e2⟩

theorem npMin_of_iff (c : List ℚ) (n : ℕ) (hn : 0 < n) (x0 d : ℚ) (hd : 0 < d)
    (h : ∀ x, x ∈ c ↔ ∃ i : ℕ, i < n ∧ x0 + d * (i : ℚ) = x) : npMin c = .ok x0 := by
  rw [npMin_ok_iff]
  refine ⟨(h x0).mpr ⟨0, hn, by simp⟩, ?_⟩
  intro x hx
  obtain ⟨i, -, rfl⟩ := (h x).mp hx
  have : 0 ≤ d * (i : ℚ) := by positivity
  linarith

theorem pyInt_nat (n : ℕ) : pyInt (n : ℚ) = n := by exact_mod_cast pyInt_intCast n

theorem setInfo_full (sx sy : ℕ) (o : ℚ × ℚ) (s : Option (ℚ × ℚ)) :
    setInfo [("shape", pairVal (some ((sx : ℚ), (sy : ℚ)))), ("origin", pairVal (some o)), ("spacing", pairVal s),
      ("num_bins", .num (sx * sy : ℕ))] = .ok ⟨some ((sx : ℤ), (sy : ℤ)), some o, s, some ((sx * sy : ℕ) : ℤ)⟩ := by
  have h3 := pyInt_nat (sx * sy)
  unfold setInfo pairVal
  rcases s with _ | ⟨a, b⟩ <;>
    simp [List.lookup_cons, setPair, setNum, pyInt_nat, bind, Except.bind] <;>
    exact_mod_cast h3

theorem setInfo_dict (i : GridInfo) :
    setInfo i.dict = .ok ⟨some ((i.shape.1 : ℤ), (i.shape.2 : ℤ)), some i.origin, some i.spacing,
      some ((i.shape.1 * i.shape.2 : ℕ) : ℤ)⟩ := by
  have h3 := pyInt_nat (i.shape.1 * i.shape.2)
  unfold GridInfo.dict setInfo pairVal
  simp [List.lookup_cons, setPair, setNum, pyInt_nat, bind, Except.bind]
  exact_mod_cast h3

theorem cut_ok (f : Flow) (hw : Wf f.data) (hX : co.1 ∈ names f.data) (hY : co.2 ∈ names f.data)
    (xlim ylim : Option ℚ × Option ℚ) (hx : 0 < sp.1) (hy : 0 < sp.2)
    (h : FullGrid (gather (selIdx f.data xlim ylim co) f.data) sp x0 y0 nx ny co) :
    cutSystemLimits f xlim ylim co = .ok ⟨gather (selIdx f.data xlim ylim co) f.data,
      ⟨some ((nx : ℤ), (ny : ℤ)), some (x0, y0), f.info.spacing, some ((nx * ny : ℕ) : ℤ)⟩⟩ := by
  obtain ⟨cx, hfx, hcx⟩ := field_ok hX
  obtain ⟨cy, hfy, hcy⟩ := field_ok hY
  obtain ⟨dx, hgx, hdx⟩ := field_ok h.hasX
  obtain ⟨dy, hgy, hdy⟩ := field_ok h.hasY
  have hsel : ((List.range (Flow.size f.data)).filter fun t =>
      inLims xlim.1 xlim.2 (cx.getD t 0) && inLims ylim.1 ylim.2 (cy.getD t 0)) = selIdx f.data xlim ylim co := by
    unfold selIdx
    apply List.filter_congr
    intro t _
    rw [val_of_col hcx, val_of_col hcy]
  have hlx := dedup_length_of_iff dx nx (fun i => x0 + sp.1 * (i : ℚ)) (fun i _ j _ e => node_inj hx e) (h.col_x hdx)
  have hly := dedup_length_of_iff dy ny (fun i => y0 + sp.2 * (i : ℚ)) (fun i _ j _ e => node_inj2 hy e) (h.col_y hdy)
  unfold cutSystemLimits
  simp only [hfx, hfy, bind, Except.bind, hsel, hgx, hgy, npMin_of_iff dx nx h.nxpos x0 sp.1 hx (h.col_x hdx),
    npMin_of_iff dy ny h.nypos y0 sp.2 hy (h.col_y hdy), hlx, hly]
  unfold Flow.mk
  rw [setData_of_wf _ _ (collate_asArgs _) (ne_nil_of_col hdx) h.wf]
  simp only [bind, Except.bind]
  rw [setInfo_full]

/-! ## Blocks -/

theorem zipWith_blocks (g : ℚ → ℚ → ℚ) (nx : ℕ) (F G : ℕ → ℕ → ℚ) : ∀ bs : List ℕ,
    List.zipWith g (bs.flatMap fun b => (List.range nx).map (F b)) (bs.flatMap fun b => (List.range nx).map (G b)) =
      bs.flatMap fun b => (List.range nx).map fun a => g (F b a) (G b a) := by
  intro bs
  induction bs with
  | nil => rfl
  | cons b bs ih =>
    simp only [List.flatMap_cons]
    rw [List.zipWith_append (by simp), ih, List.zipWith_map, List.zipWith_self]

theorem sum_blocks (ny nx : ℕ) (F : ℕ → ℕ → ℚ) :
    ((List.range ny).flatMap fun b => (List.range nx).map (F b)).sum = ∑ b ∈ range ny, ∑ a ∈ range nx, F b a := by
  rw [← list_sum_range ny fun b => ∑ a ∈ range nx, F b a]
  generalize List.range ny = bs
  induction bs with
  | nil => rfl
  | cons b bs ih => rw [List.flatMap_cons, List.sum_append, ih, list_sum_range]; simp

theorem lookup_reverse_none {ws : List (Label × Label)} {l : Label} (h : ∀ p ∈ ws, p.1 ≠ l) : ws.reverse.lookup l = none := by
  rw [List.lookup_eq_none_iff]
  intro p hp
  have := h p (by simpa using hp)
  simpa using fun e => this e.symm

theorem lookup_reverse_some {ws : List (Label × Label)} {l w : Label} (hnd : (ws.map Prod.fst).Nodup) (h : (l, w) ∈ ws) :
    ws.reverse.lookup l = some w := by
  apply lookup_of_mem
  · rw [List.map_reverse]; exact List.nodup_reverse.mpr hnd
  · simpa using h

theorem combine_spec (f : Flow) (n : ℕ × ℕ) (ws : List (Label × Label)) (hx : 0 < sp.1) (hy : 0 < sp.2)
    (h : FullGrid f.data sp x0 y0 nx ny co) (hsh : f.info.shape = some ((nx : ℤ), (ny : ℤ)))
    (g : GridInfo) (hg : g.shape = (nx / n.1, ny / n.2)) (hxy : co.1 ≠ co.2)
    (hnd : (ws.map Prod.fst).Nodup)
    (hws : ∀ p ∈ ws, p.1 ∈ names f.data ∧ p.2 ∈ names f.data ∧ p.1 ≠ co.1 ∧ p.1 ≠ co.2) :
    ∃ out, combineBins g f n co ws = .ok out ∧ Wf out ∧ names out = names f.data ∧ Flow.size out = nx / n.1 * (ny / n.2) ∧
      ∀ J I, J < nx / n.1 → I < ny / n.2 →
        val out co.1 (I * (nx / n.1) + J) = g.origin.1 + g.spacing.1 * (J : ℚ) ∧
        val out co.2 (I * (nx / n.1) + J) = g.origin.2 + g.spacing.2 * (I : ℚ) ∧
        (∀ l ∈ names f.data, l ≠ co.1 → l ≠ co.2 → (∀ p ∈ ws, p.1 ≠ l) →
          val out l (I * (nx / n.1) + J) = blockSum n (atNode f.data l sp x0 y0 co) J I) ∧
        (∀ p ∈ ws, val out p.1 (I * (nx / n.1) + J) =
          if blockSum n (atNode f.data p.2 sp x0 y0 co) J I = 0 then 0
          else blockSum n (fun i j => atNode f.data p.1 sp x0 y0 co i j * atNode f.data p.2 sp x0 y0 co i j) J I /
            blockSum n (atNode f.data p.2 sp x0 y0 co) J I) := by
  obtain ⟨s, hs, hl, hn, hv⟩ := sort_fullGrid h hx hy
  -- blocks of the sorted record
  have hblk : ∀ l ∈ names f.data, ∀ J I, J < nx / n.1 → I < ny / n.2 →
      block nx n.1 n.2 J I ((col? s l).getD []) =
        (List.range n.2).flatMap fun b => (List.range n.1).map fun a => atNode f.data l sp x0 y0 co (n.1 * J + a) (n.2 * I + b) := by
    intro l hll J I hJ hI
    unfold block
    apply List.flatMap_congr
    intro b hb
    apply List.map_congr_left
    intro a ha
    rw [List.mem_range] at ha hb
    have h1 : n.1 * J + a < nx := by
      have : n.1 * (J + 1) ≤ nx := (Nat.mul_le_mul_left _ hJ).trans (Nat.mul_div_le nx n.1)
      rw [Nat.mul_succ] at this; omega
    have h2 : n.2 * I + b < ny := by
      have : n.2 * (I + 1) ≤ ny := (Nat.mul_le_mul_left _ hI).trans (Nat.mul_div_le ny n.2)
      rw [Nat.mul_succ] at this; omega
    exact hv l _ _ h1 h2
  let cell := fun (F : ℕ → ℕ → ℚ) => (List.range (g.shape.1 * g.shape.2)).map fun t => F (t % g.shape.1) (t / g.shape.1)
  let blk := fun l J I => block nx n.1 n.2 J I ((col? s l).getD [])
  let F : Label → List ℚ := fun l =>
    match ws.reverse.lookup l with
    | some w => cell fun J I => wavg (blk l J I) (blk w J I)
    | none => if l = co.2 then g.ys else if l = co.1 then g.xs else cell fun J I => (blk l J I).sum
  have hFl : ∀ l ∈ names s, (F l).length = g.shape.1 * g.shape.2 := by
    intro l _
    simp only [F]
    split
    · simp [cell]
    · split
      · simp [GridInfo.ys]
      · split
        · simp [GridInfo.xs]
        · simp [cell]
  have hsn : names s ≠ [] := by intro e; have := hl.hasX; rw [e] at this; simp at this
  have hval : ∀ l ∈ names s, ∀ t, val ((names s).map fun l => (l, F l)) l t = (F l).getD t 0 := by
    intro l hls t
    rw [val_of_col (col?_map_names (names s) hl.wf.1 F l hls)]
  have hcell : ∀ G : ℕ → ℕ → ℚ, ∀ J I, J < nx / n.1 → I < ny / n.2 → (cell G).getD (I * (nx / n.1) + J) 0 = G J I := by
    intro G J I hJ hI
    simp only [cell, hg]
    rw [getD_map_range _ _ _ (grid_lt hJ hI), grid_mod hJ, grid_div hJ]
  refine ⟨(names s).map fun l => (l, F l), ?_, wf_map_names _ hl.wf.1 F _ hFl, by rw [names_map_names, hn], ?_, ?_⟩
  · unfold combineBins
    rw [hs]
    simp only [bind, Except.bind, hsh]
    rw [if_neg, if_neg]
    · rfl
    · rintro ⟨-, hc⟩
      apply hc
      rw [List.all_eq_true]
      intro p hp
      rw [decide_eq_true_eq, hn]
      exact ⟨(hws p hp).1, (hws p hp).2.1⟩
    · rw [hl.size]; push_cast; exact fun e => e rfl
  · rw [size_map_names _ hsn F _ hFl, hg]
  · intro J I hJ hI
    have ht := grid_lt hJ hI
    refine ⟨?_, ?_, ?_, ?_⟩
    · rw [hval _ hl.hasX]
      have : F co.1 = g.xs := by
        simp only [F, lookup_reverse_none (fun p hp => (hws p hp).2.2.1), hxy, if_false, if_true]
      rw [this]
      unfold GridInfo.xs
      rw [hg]
      simp only
      rw [getD_map_range _ _ _ ht, grid_mod hJ]
    · rw [hval _ hl.hasY]
      have : F co.2 = g.ys := by
        simp only [F, lookup_reverse_none (fun p hp => (hws p hp).2.2.2), if_true]
      rw [this]
      unfold GridInfo.ys
      rw [hg]
      simp only
      rw [getD_map_range _ _ _ ht, grid_div hJ]
    · intro l hll h1 h2 hp
      rw [hval l (by rw [hn]; exact hll)]
      have : F l = cell fun J I => (blk l J I).sum := by
        simp only [F, lookup_reverse_none hp, h1, h2, if_false]
      rw [this, hcell (fun J I => (blk l J I).sum) J I hJ hI]
      simp only [blk]
      rw [hblk l hll J I hJ hI, sum_blocks]
      rfl
    · intro p hp
      rw [hval p.1 (by rw [hn]; exact (hws p hp).1)]
      have : F p.1 = cell fun J I => wavg (blk p.1 J I) (blk p.2 J I) := by
        simp only [F, lookup_reverse_some hnd (show (p.1, p.2) ∈ ws from hp)]
      rw [this, hcell (fun J I => wavg (blk p.1 J I) (blk p.2 J I)) J I hJ hI]
      simp only [blk, wavg]
      rw [hblk p.1 (hws p hp).1 J I hJ hI, hblk p.2 (hws p hp).2.1 J I hJ hI, zipWith_blocks, sum_blocks, sum_blocks]
      rfl

/-- Downsampling when the selected bins are a full grid. -/
theorem downsample_sel (f : Flow) (n : ℕ × ℕ) (ws : List (Label × Label)) (xlim ylim : Option ℚ × Option ℚ)
    (hx : 0 < sp.1) (hy : 0 < sp.2) (hn1 : 0 < n.1) (hn2 : 0 < n.2) (hw : Wf f.data) (hX : co.1 ∈ names f.data)
    (hY : co.2 ∈ names f.data) (hs : f.info.spacing = some sp) (hxy : co.1 ≠ co.2)
    (h : FullGrid (gather (selIdx f.data xlim ylim co) f.data) sp x0 y0 nx ny co)
    (hnd : (ws.map Prod.fst).Nodup)
    (hws : ∀ p ∈ ws, p.1 ∈ names f.data ∧ p.2 ∈ names f.data ∧ p.1 ≠ co.1 ∧ p.1 ≠ co.2) :
    ∃ out, downsample f n co ws xlim ylim = .ok out ∧ Wf out.data ∧ names out.data = names f.data ∧
      Flow.size out.data = nx / n.1 * (ny / n.2) ∧ out.info = downInfo sp x0 y0 nx ny n ∧
      ∀ J I, J < nx / n.1 → I < ny / n.2 →
        val out.data co.1 (I * (nx / n.1) + J) = x0 + 1 / 2 * (sp.1 * n.1 - sp.1) + sp.1 * n.1 * (J : ℚ) ∧
        val out.data co.2 (I * (nx / n.1) + J) = y0 + 1 / 2 * (sp.2 * n.2 - sp.2) + sp.2 * n.2 * (I : ℚ) ∧
        (∀ l ∈ names f.data, l ≠ co.1 → l ≠ co.2 → (∀ p ∈ ws, p.1 ≠ l) →
          val out.data l (I * (nx / n.1) + J) =
            blockSum n (atNode (gather (selIdx f.data xlim ylim co) f.data) l sp x0 y0 co) J I) ∧
        (∀ p ∈ ws, val out.data p.1 (I * (nx / n.1) + J) =
          if blockSum n (atNode (gather (selIdx f.data xlim ylim co) f.data) p.2 sp x0 y0 co) J I = 0 then 0
          else blockSum n (fun i j => atNode (gather (selIdx f.data xlim ylim co) f.data) p.1 sp x0 y0 co i j *
              atNode (gather (selIdx f.data xlim ylim co) f.data) p.2 sp x0 y0 co i j) J I /
            blockSum n (atNode (gather (selIdx f.data xlim ylim co) f.data) p.2 sp x0 y0 co) J I) := by
  have hcut := cut_ok f hw hX hY xlim ylim hx hy h
  rw [hs] at hcut
  let f' : Flow := ⟨gather (selIdx f.data xlim ylim co) f.data,
      ⟨some ((nx : ℤ), (ny : ℤ)), some (x0, y0), some sp, some ((nx * ny : ℕ) : ℤ)⟩⟩
  let g : GridInfo := ⟨(sp.1 * n.1, sp.2 * n.2), (nx / n.1, ny / n.2),
    (x0 + 1 / 2 * (sp.1 * n.1 - sp.1), y0 + 1 / 2 * (sp.2 * n.2 - sp.2))⟩
  have hinfo : downscaledInfo f' n = .ok g := by
    simp only [downscaledInfo, f', g]
    rw [if_neg (by omega)]
    congr 1
  obtain ⟨out, h1, h2, h3, h4, h5⟩ := combine_spec f' n ws hx hy h rfl g rfl hxy hnd (by simpa [f'] using hws)
  have hnames : names f'.data = names f.data := by simp [f']
  refine ⟨⟨out, downInfo sp x0 y0 nx ny n⟩, ?_, h2, by rw [h3, hnames], h4, rfl, ?_⟩
  · unfold downsample
    simp only [hcut, bind, Except.bind]
    rw [show (⟨gather (selIdx f.data xlim ylim co) f.data,
      ⟨some ((nx : ℤ), (ny : ℤ)), some (x0, y0), some sp, some ((nx * ny : ℕ) : ℤ)⟩⟩ : Flow) = f' from rfl]
    simp only [hinfo, h1]
    unfold Flow.mk
    rw [setData_of_wf _ _ (collate_asArgs _) _ h2]
    · simp only [bind, Except.bind, setInfo_dict]
      rfl
    · intro e
      rw [e] at h3
      rw [hnames] at h3
      rw [← h3] at hX
      simp [names] at hX
  · intro J I hJ hI
    obtain ⟨a, b, c, d⟩ := h5 J I hJ hI
    exact ⟨a, b, fun l hl => c l (by rw [hnames]; exact hl), d⟩

end Strata.Resample
