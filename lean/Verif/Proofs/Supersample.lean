import Verif.Proofs.Downsample
/-! # Lemmas about supersampling -/
namespace Strata.Resample
open Strata Strata.Flow Strata.Average Finset

variable {r : Record} {sp : ℚ × ℚ} {x0 y0 : ℚ} {nx ny : ℕ} {co : Label × Label}

theorem filterMap_sum (p : ℕ → Prop) [DecidablePred p] (F : ℕ → ℚ) (l : List ℕ) :
    (l.filterMap fun b => if p b then some (F b) else none).sum = (l.map fun b => if p b then F b else 0).sum := by
  induction l with
  | nil => rfl
  | cons a l ih =>
    rw [List.filterMap_cons, List.map_cons, List.sum_cons, ← ih]
    by_cases h : p a <;> simp [h]

theorem filterMap_length (p : ℕ → Prop) [DecidablePred p] (F : ℕ → ℚ) (l : List ℕ) :
    ((l.filterMap fun b => if p b then some (F b) else none).length : ℚ) = (l.map fun b => if p b then (1 : ℚ) else 0).sum := by
  induction l with
  | nil => rfl
  | cons a l ih =>
    rw [List.filterMap_cons, List.map_cons, List.sum_cons, ← ih]
    by_cases h : p a <;> simp [h, add_comm]

theorem flatMap_sum (G : ℕ → List ℚ) (l : List ℕ) : (l.flatMap G).sum = (l.map fun a => (G a).sum).sum := by
  induction l with
  | nil => rfl
  | cons a l ih => rw [List.flatMap_cons, List.sum_append, ih]; rfl

theorem flatMap_length' (G : ℕ → List ℚ) (l : List ℕ) : ((l.flatMap G).length : ℚ) = (l.map fun a => ((G a).length : ℚ)).sum := by
  induction l with
  | nil => rfl
  | cons a l ih => rw [List.flatMap_cons, List.length_append, Nat.cast_add, ih]; rfl

theorem sum_reach (NX NY m I J : ℕ) (F : ℕ → ℕ → ℚ) :
    (∑ b ∈ range NY, ∑ a ∈ range NX, if J - m ≤ b ∧ b < J + m + 1 ∧ I - m ≤ a ∧ a < I + m + 1 then F a b else 0) =
      ∑ p ∈ reach NX NY m I J, F p.1 p.2 := by
  unfold reach
  rw [Finset.sum_filter, Finset.sum_product_right]
  apply Finset.sum_congr rfl
  intro b _
  apply Finset.sum_congr rfl
  intro a _
  have : (J - m ≤ b ∧ b < J + m + 1 ∧ I - m ≤ a ∧ a < I + m + 1) ↔ ((I ≤ a + m ∧ a ≤ I + m) ∧ J ≤ b + m ∧ b ≤ J + m) := by omega
  simp only [this]

theorem sum_window_bins (NX NY m I J : ℕ) (c : List ℚ) :
    (windowBins NX NY m J I c).sum = ∑ p ∈ reach NX NY m I J, c.getD (p.2 * NX + p.1) 0 := by
  unfold windowBins
  rw [flatMap_sum, list_sum_range, ← sum_reach NX NY m I J fun a b => c.getD (b * NX + a) 0]
  apply Finset.sum_congr rfl
  intro b _
  rw [filterMap_sum, list_sum_range]

theorem length_window_bins (NX NY m I J : ℕ) (c : List ℚ) :
    ((windowBins NX NY m J I c).length : ℚ) = (reach NX NY m I J).card := by
  unfold windowBins
  have hc : ((reach NX NY m I J).card : ℚ) = ∑ p ∈ reach NX NY m I J, (fun _ _ => (1 : ℚ)) p.1 p.2 := by simp
  rw [flatMap_length', list_sum_range, hc, ← sum_reach NX NY m I J fun _ _ => 1]
  apply Finset.sum_congr rfl
  intro b _
  rw [filterMap_length, list_sum_range]

theorem mem_reach (NX NY m I J : ℕ) (hI : I < NX) (hJ : J < NY) : (I, J) ∈ reach NX NY m I J := by
  simp [reach, hI, hJ]

/-- Premultiplication by the weights. -/
theorem premultiply_ok (n : ℕ) (ls : List Label) : ∀ (ws : List (Label × Label)) (r : Record), Wf r → names r = ls →
    Flow.size r = n → (ws.map Prod.fst).Nodup → (∀ p ∈ ws, p.1 ∈ ls ∧ p.2 ∈ ls ∧ ∀ q ∈ ws, q.1 ≠ p.2) →
    ∃ s, premultiply r ws = .ok s ∧ Wf s ∧ names s = ls ∧
      (∀ l, (∀ p ∈ ws, p.1 ≠ l) → ∀ t, val s l t = val r l t) ∧
      ∀ p ∈ ws, ∀ t, t < n → val s p.1 t = val r p.1 t * val r p.2 t := by
  intro ws
  induction ws with
  | nil => intro r hw hn _ _ _; exact ⟨r, rfl, hw, hn, fun _ _ _ => rfl, by simp⟩
  | cons p ws ih =>
    intro r hw hn hs hnd hp
    obtain ⟨hp1, hp2, hp3⟩ := hp p (by simp)
    obtain ⟨v, hfv, hcv⟩ := field_ok (r := r) (l := p.1) (by rw [hn]; exact hp1)
    obtain ⟨w, hfw, hcw⟩ := field_ok (r := r) (l := p.2) (by rw [hn]; exact hp2)
    have lv := col?_length hw hcv
    have lw := col?_length hw hcw
    let c := List.zipWith (· * ·) v w
    have hcl : c.length = n := by simp [c, lv, lw, hs]
    have hw' := wf_setCol hw p.1 c (by rw [hcl, hs])
    have hsz : Flow.size (setCol r p.1 c) = n := by
      cases ha : r with
      | nil => rw [ha] at hn; simp only [names, List.map_nil] at hn; rw [← hn] at hp1; simp at hp1
      | cons a as =>
        rw [ha] at hs
        simp only [setCol, List.map_cons, Flow.size]
        split
        · exact hcl
        · exact hs
    have hcol : ∀ l t, val (setCol r p.1 c) l t = if l = p.1 then c.getD t 0 else val r l t := by
      intro l t
      unfold Average.val
      rw [col?_setCol _ _ _ _ (by rw [hn]; exact hp1)]
      split <;> rfl
    obtain ⟨s, h1, h2, h3, h4, h5⟩ := ih (setCol r p.1 c) hw' (by rw [names_setCol]; exact hn) hsz
      (by simp only [List.map_cons, List.nodup_cons] at hnd; exact hnd.2)
      (by intro q hq; obtain ⟨a, b, e⟩ := hp q (by simp [hq]); exact ⟨a, b, fun q' hq' => e q' (by simp [hq'])⟩)
    simp only [List.map_cons, List.nodup_cons] at hnd
    refine ⟨s, ?_, h2, h3, ?_, ?_⟩
    · unfold premultiply at h1 ⊢
      rw [List.foldlM_cons, hfv, hfw]
      exact h1
    · intro l hl t
      rw [h4 l (fun q hq => hl q (by simp [hq])), hcol, if_neg]
      exact fun e => hl p (by simp) e.symm
    · intro q hq t ht
      rcases List.mem_cons.mp hq with rfl | hq
      · rw [h4 q.1 (fun q' hq' e => hnd.1 (List.mem_map.mpr ⟨q', hq', e⟩)), hcol, if_pos rfl]
        simp only [c]
        rw [getD_zipWith _ _ _ _ (by rw [lv, hs]; exact ht) (by rw [lw, hs]; exact ht), val_of_col hcv, val_of_col hcw]
      · rw [h5 q hq t ht, hcol, hcol, if_neg, if_neg]
        · exact fun e => (hp q (by simp [hq])).2.2 p (by simp) e.symm
        · exact fun e => hnd.1 (List.mem_map.mpr ⟨q, hq, e⟩)

theorem supersample_spec (f : Flow) (n : ℕ) (ws : List (Label × Label)) (hx : 0 < sp.1) (hy : 0 < sp.2) (hn : 2 ≤ n)
    (hxy : co.1 ≠ co.2) (h : FullMap f sp x0 y0 nx ny co) (hnd : (ws.map Prod.fst).Nodup)
    (hws : ∀ p ∈ ws, p.1 ∈ names f.data ∧ p.2 ∈ names f.data ∧ p.1 ≠ co.1 ∧ p.1 ≠ co.2 ∧ p.2 ≠ co.1 ∧ p.2 ≠ co.2 ∧
      ∀ q ∈ ws, q.1 ≠ p.2) :
    ∃ out, supersample f (some n) co ws = .ok out ∧
      Lattice out.data (sp.1 / n, sp.2 / n) x0 y0 (nx * n) (ny * n) co ∧ names out.data = names f.data ∧
      out.info = ⟨some (((nx * n : ℕ) : ℤ), ((ny * n : ℕ) : ℤ)), some (x0, y0), some (sp.1 / n, sp.2 / n),
        some ((nx * n * (ny * n) : ℕ) : ℤ)⟩ ∧
      ∀ I J, I < nx * n → J < ny * n →
        (∀ l ∈ names f.data, l ≠ co.1 → l ≠ co.2 → (∀ p ∈ ws, p.1 ≠ l) →
          val out.data l (J * (nx * n) + I) =
            (∑ p ∈ reach (nx * n) (ny * n) (n - 1) I J, atNode f.data l sp x0 y0 co (p.1 / n) (p.2 / n)) /
              (reach (nx * n) (ny * n) (n - 1) I J).card) ∧
        (∀ lw ∈ ws, val out.data lw.1 (J * (nx * n) + I) =
          if (∑ p ∈ reach (nx * n) (ny * n) (n - 1) I J, atNode f.data lw.2 sp x0 y0 co (p.1 / n) (p.2 / n)) ≠ 0 then
            (∑ p ∈ reach (nx * n) (ny * n) (n - 1) I J, atNode f.data lw.1 sp x0 y0 co (p.1 / n) (p.2 / n) *
                atNode f.data lw.2 sp x0 y0 co (p.1 / n) (p.2 / n)) /
              (∑ p ∈ reach (nx * n) (ny * n) (n - 1) I J, atNode f.data lw.2 sp x0 y0 co (p.1 / n) (p.2 / n))
          else 0) := by
  obtain ⟨hfg, hsh, hsp⟩ := h
  obtain ⟨s, hs, hl, hsn, hv⟩ := sort_fullGrid hfg hx hy
  have hfne : f.data ≠ [] := by intro e; have := hfg.hasX; rw [e] at this; simp [names] at this
  have hsne : s ≠ [] := by intro e; have := hl.hasX; rw [e] at this; simp [names] at this
  have hcopy := copy_eq f hfg.wf hfne
  let g : GridInfo := ⟨(sp.1 / n, sp.2 / n), (nx * n, ny * n), (x0, y0)⟩
  have hinfo : superscaledInfo ⟨s, f.info⟩ n co = .ok g := by
    have m1 := hl.min_x hx
    have m2 := hl.min_y hy
    obtain ⟨c1, f1, -⟩ := field_ok hl.hasX
    obtain ⟨c2, f2, -⟩ := field_ok hl.hasY
    rw [f1] at m1
    rw [f2] at m2
    simp only [bind, Except.bind] at m1 m2
    simp only [superscaledInfo, hsh, hsp, bind, Except.bind, f1, f2, m1, m2]
    rw [if_neg (by omega)]
    congr 1
  let fine : Record := s.map fun lc => (lc.1,
        if lc.1 = co.2 then g.ys else if lc.1 = co.1 then g.xs else finerCol nx ny n lc.2)
  have hfn : names fine = names s := by simp [fine, names, Function.comp_def]
  have hfl : ∀ c ∈ fine, c.2.length = nx * n * (ny * n) := by
    intro c hc
    obtain ⟨lc, -, rfl⟩ := List.mem_map.mp hc
    simp only
    split
    · simp [GridInfo.ys, g]
    · split
      · simp [GridInfo.xs, g]
      · simp [finerCol]
  have hfs : Flow.size fine = nx * n * (ny * n) := by
    cases hc : s with
    | nil => exact absurd hc hsne
    | cons a as =>
      have := hfl
      simp only [fine, hc, List.map_cons, Flow.size] at this ⊢
      exact this _ List.mem_cons_self
  have hfw : Wf fine := ⟨by rw [hfn]; exact hl.wf.1, fun c hc => by rw [hfl c hc, hfs]⟩
  have hfc : ∀ l c, col? s l = some c → col? fine l =
      some (if l = co.2 then g.ys else if l = co.1 then g.xs else finerCol nx ny n c) := by
    intro l c hc
    apply lookup_of_mem hfw.1
    exact List.mem_map.mpr ⟨_, lookup_mem hc, rfl⟩
  have hnpos : 0 < n := by omega
  have hfv : ∀ l ∈ names s, l ≠ co.1 → l ≠ co.2 → ∀ I J, I < nx * n → J < ny * n →
      val fine l (J * (nx * n) + I) = atNode f.data l sp x0 y0 co (I / n) (J / n) := by
    intro l hll h1 h2 I J hI hJ
    obtain ⟨c, -, hc⟩ := field_ok hll
    rw [val_of_col (hfc l c hc)]
    simp only [h1, h2, if_false]
    unfold finerCol
    rw [getD_map_range _ _ _ (grid_lt hI hJ), grid_mod hI, grid_div hI, ← val_of_col hc]
    exact hv l _ _ (by rw [Nat.div_lt_iff_lt_mul hnpos]; exact hI) (by rw [Nat.div_lt_iff_lt_mul hnpos]; exact hJ)
  obtain ⟨d, hd1, hd2, hd3, hd4, hd5⟩ := premultiply_ok (nx * n * (ny * n)) (names s) ws fine hfw hfn hfs hnd
    (by intro p hp; obtain ⟨a, b, -, -, -, -, e⟩ := hws p hp; exact ⟨by rw [hsn]; exact a, by rw [hsn]; exact b, e⟩)
  let win := fun l t => windowBins (nx * n) (ny * n) (n - 1) (t / (nx * n)) (t % (nx * n)) ((col? d l).getD [])
  let F : Label → List ℚ := fun l =>
    match ws.reverse.lookup l with
    | some w => (List.range (nx * n * (ny * n))).map fun t =>
      if (win w t).sum ≠ 0 then (win l t).sum / (win w t).sum else 0
    | none =>
      if l = co.1 ∨ l = co.2 then (col? fine l).getD []
      else (List.range (nx * n * (ny * n))).map fun t => (win l t).sum / (win l t).length
  have hwin : ∀ l I J, I < nx * n → J < ny * n →
      (win l (J * (nx * n) + I)).sum = ∑ p ∈ reach (nx * n) (ny * n) (n - 1) I J, val d l (p.2 * (nx * n) + p.1) ∧
      ((win l (J * (nx * n) + I)).length : ℚ) = (reach (nx * n) (ny * n) (n - 1) I J).card := by
    intro l I J hI hJ
    simp only [win]
    rw [grid_mod hI, grid_div hI]
    exact ⟨sum_window_bins _ _ _ _ _ _, length_window_bins _ _ _ _ _ _⟩
  have hrm : ∀ I J, ∀ p ∈ reach (nx * n) (ny * n) (n - 1) I J, p.1 < nx * n ∧ p.2 < ny * n := by
    intro I J p hp
    simp only [reach, Finset.mem_filter, Finset.mem_product, Finset.mem_range] at hp
    exact hp.1
  have hFl : ∀ l ∈ names fine, (F l).length = nx * n * (ny * n) := by
    intro l hl'
    simp only [F]
    split
    · simp
    · split
      · rw [hfn] at hl'
        obtain ⟨c, -, hc⟩ := field_ok hl'
        rw [hfc l c hc]
        exact hfl _ (lookup_mem (hfc l c hc))
      · simp
  let data : Record := (names fine).map fun l => (l, F l)
  have hdn : names data = names f.data := by simp only [data]; rw [names_map_names, hfn, hsn]
  have hdw : Wf data := wf_map_names _ hfw.1 F _ hFl
  have hdne : data ≠ [] := by
    intro e
    rw [e] at hdn
    have := hfg.hasX
    rw [← hdn] at this
    simp [names] at this
  have hdval : ∀ l ∈ names f.data, ∀ t, val data l t = (F l).getD t 0 := by
    intro l hll t
    rw [val_of_col (col?_map_names (names fine) hfw.1 F l (by rw [hfn, hsn]; exact hll))]
  have hmk : Flow.mk (asArgs data) g.dict = .ok ⟨data, ⟨some (((nx * n : ℕ) : ℤ), ((ny * n : ℕ) : ℤ)), some (x0, y0),
      some (sp.1 / n, sp.2 / n), some ((nx * n * (ny * n) : ℕ) : ℤ)⟩⟩ := by
    unfold Flow.mk
    rw [setData_of_wf _ _ (collate_asArgs _) hdne hdw, setInfo_dict]
    rfl
  refine ⟨⟨data, ⟨some (((nx * n : ℕ) : ℤ), ((ny * n : ℕ) : ℤ)), some (x0, y0),
      some (sp.1 / n, sp.2 / n), some ((nx * n * (ny * n) : ℕ) : ℤ)⟩⟩, ?_, ?_, hdn, rfl, ?_⟩
  · have hsup : supersampleOnGrid (nx * n) (ny * n) n fine co ws = .ok data := by
      unfold supersampleOnGrid
      rw [hd1]
      rfl
    have hsort : Flow.sort f co = .ok ⟨s, f.info⟩ := by
      unfold Flow.sort
      rw [hs]
      rfl
    have hsz2 : ¬ (Flow.size s ≠ ny * n / n * (nx * n / n)) := by
      rw [hl.size, Nat.mul_div_cancel _ hnpos, Nat.mul_div_cancel _ hnpos, Nat.mul_comm]
      exact fun e => e rfl
    unfold supersample
    split
    · contradiction
    · rename_i heq; simp only [Option.some.injEq] at heq; omega
    · rename_i m _ heq
      obtain rfl := Option.some.inj heq
      simp only [hcopy, bind, Except.bind, hsort, hinfo]
      simp only [g]
      rw [if_neg hsz2, Nat.mul_div_cancel _ hnpos, Nat.mul_div_cancel _ hnpos]
      rw [show (s.map fun lc => (lc.1, if lc.1 = co.2 then GridInfo.ys ⟨(sp.1 / n, sp.2 / n), (nx * n, ny * n), (x0, y0)⟩
        else if lc.1 = co.1 then GridInfo.xs ⟨(sp.1 / n, sp.2 / n), (nx * n, ny * n), (x0, y0)⟩ else finerCol nx ny n lc.2)) = fine from rfl]
      rw [hsup]
      exact hmk
  · refine ⟨hdw, Nat.mul_pos hl.nxpos hnpos, Nat.mul_pos hl.nypos hnpos, ?_, by rw [hdn]; exact hfg.hasX,
      by rw [hdn]; exact hfg.hasY, ?_, ?_⟩
    · exact size_map_names _ (by intro e; have := hl.hasX; rw [← hfn, e] at this; simp at this) F _ hFl
    · intro t ht
      obtain ⟨c, -, hc⟩ := field_ok hl.hasX
      have hF : F co.1 = g.xs := by
        simp only [F, lookup_reverse_none (fun p hp => (hws p hp).2.2.1), true_or, if_true, hfc co.1 c hc, Option.getD_some,
          hxy, if_false]
      simp only
      rw [hdval _ hfg.hasX, hF]
      exact getD_map_range _ _ t ht
    · intro t ht
      obtain ⟨c, -, hc⟩ := field_ok hl.hasY
      have hF : F co.2 = g.ys := by
        simp only [F, lookup_reverse_none (fun p hp => (hws p hp).2.2.2.1), or_true, if_true, hfc co.2 c hc, Option.getD_some]
      simp only
      rw [hdval _ hfg.hasY, hF]
      exact getD_map_range _ _ t ht
  · intro I J hI hJ
    refine ⟨?_, ?_⟩
    · intro l hll h1 h2 hp
      have hF : F l = (List.range (nx * n * (ny * n))).map fun t => (win l t).sum / (win l t).length := by
        simp only [F, lookup_reverse_none hp, h1, h2, or_self, if_false]
      simp only
      rw [hdval l hll, hF, getD_map_range _ _ _ (grid_lt hI hJ), (hwin l I J hI hJ).1, (hwin l I J hI hJ).2]
      congr 1
      apply Finset.sum_congr rfl
      intro p hpm
      obtain ⟨b1, b2⟩ := hrm I J p hpm
      rw [hd4 l hp, hfv l (by rw [hsn]; exact hll) h1 h2 p.1 p.2 b1 b2]
    · intro lw hlw
      obtain ⟨q1, q2, q3, q4, q5, q6, q7⟩ := hws lw hlw
      have hF : F lw.1 = (List.range (nx * n * (ny * n))).map fun t =>
          if (win lw.2 t).sum ≠ 0 then (win lw.1 t).sum / (win lw.2 t).sum else 0 := by
        simp only [F, lookup_reverse_some hnd (show (lw.1, lw.2) ∈ ws from hlw)]
      have e2 : ∑ p ∈ reach (nx * n) (ny * n) (n - 1) I J, val d lw.2 (p.2 * (nx * n) + p.1) =
          ∑ p ∈ reach (nx * n) (ny * n) (n - 1) I J, atNode f.data lw.2 sp x0 y0 co (p.1 / n) (p.2 / n) := by
        apply Finset.sum_congr rfl
        intro p hpm
        obtain ⟨b1, b2⟩ := hrm I J p hpm
        rw [hd4 lw.2 q7, hfv lw.2 (by rw [hsn]; exact q2) q5 q6 p.1 p.2 b1 b2]
      have e1 : ∑ p ∈ reach (nx * n) (ny * n) (n - 1) I J, val d lw.1 (p.2 * (nx * n) + p.1) =
          ∑ p ∈ reach (nx * n) (ny * n) (n - 1) I J, atNode f.data lw.1 sp x0 y0 co (p.1 / n) (p.2 / n) *
            atNode f.data lw.2 sp x0 y0 co (p.1 / n) (p.2 / n) := by
        apply Finset.sum_congr rfl
        intro p hpm
        obtain ⟨b1, b2⟩ := hrm I J p hpm
        rw [hd5 lw hlw _ (grid_lt b1 b2), hfv lw.2 (by rw [hsn]; exact q2) q5 q6 p.1 p.2 b1 b2,
          hfv lw.1 (by rw [hsn]; exact q1) q3 q4 p.1 p.2 b1 b2]
      simp only
      rw [hdval lw.1 q1, hF, getD_map_range _ _ _ (grid_lt hI hJ), (hwin lw.2 I J hI hJ).1, (hwin lw.1 I J hI hJ).1, e1, e2]

end Strata.Resample
