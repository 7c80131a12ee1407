import Verif.Proofs.AverageFlow
/-! # Further lemmas behind the averaging properties -/
namespace Strata.Average
open Strata Strata.Flow Finset

theorem record_ext_val {r s : Record} (hr : Wf r) (hs : Wf s) (hn : names r = names s) (hz : Flow.size r = Flow.size s)
    (h : ∀ l ∈ names r, ∀ t, t < Flow.size r → val r l t = val s l t) : r = s := by
  apply record_ext hr hs hn
  unfold bins
  rw [hz]
  apply List.map_congr_left
  intro t ht
  rw [List.mem_range, ← hz] at ht
  unfold binAt
  have hlen : r.length = s.length := by simpa [names] using congrArg List.length hn
  apply List.ext_getElem
  · simpa using hlen
  · intro i h1 h2
    simp only [List.length_map] at h1 h2
    simp only [List.getElem_map]
    have hl : r[i].1 = s[i].1 := by
      have := congrArg (fun l => l[i]?) hn
      simpa [names, h1, h2] using this
    have a1 : col? r r[i].1 = some r[i].2 := lookup_of_mem hr.1 (List.getElem_mem h1)
    have a2 : col? s s[i].1 = some s[i].2 := lookup_of_mem hs.1 (List.getElem_mem h2)
    have := h r[i].1 (List.mem_map_of_mem (List.getElem_mem h1)) t ht
    rw [val_of_col a1, hl, val_of_col a2] at this
    rw [hl, this]

theorem total_eq {r : Record} (hw : Wf r) {l : Label} (hl : l ∈ names r) :
    ((col? r l).getD []).sum = ∑ t ∈ range (Flow.size r), val r l t := by
  obtain ⟨c, -, hc⟩ := field_ok hl
  rw [hc, Option.getD_some, list_sum_getD c _ (col?_length hw hc)]
  apply Finset.sum_congr rfl
  intro t _
  rw [val_of_col hc]

theorem mean_bounds {α : Type} (ds : List α) (hne : ds ≠ []) (f : α → ℚ) (lo hi : ℚ) (h : ∀ d ∈ ds, lo ≤ f d ∧ f d ≤ hi) :
    lo ≤ (ds.map f).sum / ds.length ∧ (ds.map f).sum / ds.length ≤ hi := by
  have h1 : (ds.length : ℚ) * lo ≤ (ds.map f).sum ∧ (ds.map f).sum ≤ ds.length * hi := by
    clear hne
    induction ds with
    | nil => simp
    | cons a as ih =>
      obtain ⟨i1, i2⟩ := ih fun d hd => h d (by simp [hd])
      obtain ⟨a1, a2⟩ := h a (by simp)
      simp only [List.length_cons, List.map_cons, List.sum_cons]
      push_cast
      constructor <;> linarith
  have hp : (0 : ℚ) < ds.length := by exact_mod_cast List.length_pos_of_ne_nil hne
  rw [le_div_iff₀ hp, div_le_iff₀ hp]
  constructor <;> linarith [h1.1, h1.2]

theorem sum_replicate_div (n : ℕ) (v : ℚ) : (List.replicate (n + 1) v).sum / ((n + 1 : ℕ) : ℚ) = v := by
  rw [List.sum_replicate, nsmul_eq_mul]
  field_simp

/-- The weights fail as a whole if a label is missing. -/
theorem fold_weights_missing (huge : ℚ) (n : ℕ) (ds : List Record) (ls : List Label) (hne : ds ≠ []) (hu : Uniform ds ls n) :
    ∀ (ws : List (Label × Label)) (avg : Record), Wf avg → names avg = ls → Flow.size avg = n →
      (∃ p ∈ ws, p.1 ∉ ls ∨ p.2 ∉ ls) →
      ws.foldlM (fun avg lw => do
          Except.ok (ε := Err) (setCol avg lw.1 (← weightedMean huge lw.1 lw.2 avg n ds))) avg = .error .keyError := by
  intro ws
  induction ws with
  | nil => intro avg _ _ _ h; simp at h
  | cons p ws ih =>
    intro avg hw hn hs hp
    by_cases hgood : p.1 ∈ ls ∧ p.2 ∈ ls
    · obtain ⟨c, hc, hcl, -⟩ := weightedMean_ok huge p.1 p.2 avg n ds
        ⟨hw, by rw [hn]; exact hgood.1, by rw [hn]; exact hgood.2, hs⟩
        (by intro d hd; obtain ⟨a, b, e⟩ := hu d hd; exact ⟨a, by rw [b]; exact hgood.1, by rw [b]; exact hgood.2, e⟩)
      have hsz : Flow.size (setCol avg p.1 c) = n := by
        cases ha : avg with
        | nil =>
          rw [ha] at hn; simp only [names, List.map_nil] at hn
          have := hgood.1; rw [← hn] at this; simp at this
        | cons a as =>
          rw [ha] at hs
          simp only [setCol, List.map_cons, Flow.size]
          split
          · exact hcl
          · exact hs
      rw [List.foldlM_cons, hc]
      refine ih _ (wf_setCol hw p.1 c (by rw [hcl, hs])) (by rw [names_setCol]; exact hn) hsz ?_
      obtain ⟨q, hq, hb⟩ := hp
      rcases List.mem_cons.mp hq with rfl | hq
      · exfalso; rcases hb with h | h
        · exact h hgood.1
        · exact h hgood.2
      · exact ⟨q, hq, hb⟩
    · have : weightedMean huge p.1 p.2 avg n ds = .error .keyError := by
        have hcols : (do
            let _ ← field avg p.1
            ds.mapM fun d => do assign n (List.zipWith (· * ·) (← field d p.1) (← field d p.2))) = .error .valueError := by
          by_cases h1 : p.1 ∈ ls
          · have h2 : p.2 ∉ ls := fun h => hgood ⟨h1, h⟩
            obtain ⟨c0, hf0, -⟩ := field_ok (r := avg) (l := p.1) (by rw [hn]; exact h1)
            rw [hf0]
            show List.mapM _ ds = _
            obtain ⟨d0, hd0⟩ := List.exists_mem_of_ne_nil ds hne
            have hall : ∀ d ∈ ds, (do assign n (List.zipWith (· * ·) (← field d p.1) (← field d p.2))) =
                Except.error Err.valueError := by
              intro d hd
              obtain ⟨_, b, _⟩ := hu d hd
              obtain ⟨c, hf, -⟩ := field_ok (r := d) (l := p.1) (by rw [b]; exact h1)
              have hw2 : field d p.2 = .error .valueError := by
                unfold field; rw [(col?_none_iff d p.2).mpr (by rw [b]; exact h2)]
              rw [hf, hw2]; rfl
            exact mapM_error _ _ ds d0 hd0 (hall d0 hd0) (by
              intro d hd e he
              have := hall d hd
              rw [this] at he
              exact (Except.error.inj he).symm)
          · have : field avg p.1 = .error .valueError := by
              unfold field; rw [(col?_none_iff avg p.1).mpr (by rw [hn]; exact h1)]
            rw [this]; rfl
        unfold weightedMean
        rw [hcols]
      rw [List.foldlM_cons, this]
      rfl

theorem averageData_missing (huge : ℚ) (ds : List Record) (ws : List (Label × Label)) (co : Label × Label)
    (ls : List Label) (n : ℕ) (hne : ds ≠ []) (hu : Uniform ds ls n) (hp : ∃ p ∈ ws, p.1 ∉ ls ∨ p.2 ∉ ls) :
    averageData huge ds ws co = .error .keyError := by
  cases ds with
  | nil => exact absurd rfl hne
  | cons first rest =>
    obtain ⟨hfw, hfn, hfs⟩ := hu first (by simp)
    have hch : ∀ l ∈ ls, ∃ c, arithmeticMean l n (first :: rest) = .ok c ∧ c.length = n := by
      intro l hl
      obtain ⟨c, h1, h2, -⟩ := arithmeticMean_ok l n (first :: rest) (by
        intro d hd
        obtain ⟨a, b, c⟩ := hu d hd
        exact ⟨a, by rw [b]; exact hl, c⟩)
      exact ⟨c, h1, h2⟩
    choose! A hA1 hA2 using hch
    let G : Label × List ℚ → Label × List ℚ := fun lc =>
      if lc.1 = co.1 ∨ lc.1 = co.2 ∨ lc.1 ∈ ws.map Prod.fst then lc else (lc.1, A lc.1)
    have hm : first.mapM (fun lc => if lc.1 = co.1 ∨ lc.1 = co.2 ∨ lc.1 ∈ ws.map Prod.fst then Except.ok (ε := Err) lc
      else do .ok (lc.1, ← arithmeticMean lc.1 (Flow.size first) (first :: rest))) = .ok (first.map G) := by
      apply mapM_ok'
      intro lc hlc
      simp only [G]
      split
      · rfl
      · rw [hfs, hA1 lc.1 (by rw [← hfn]; exact List.mem_map_of_mem hlc)]; rfl
    have hGn : names (first.map G) = ls := by
      rw [← hfn]
      unfold names
      rw [List.map_map]
      apply List.map_congr_left
      intro lc _
      simp only [Function.comp, G]
      split <;> rfl
    have hGl : ∀ c ∈ first.map G, c.2.length = n := by
      intro c hc
      obtain ⟨lc, hlc, rfl⟩ := List.mem_map.mp hc
      simp only [G]
      split
      · rw [hfw.2 lc hlc, hfs]
      · exact hA2 lc.1 (by rw [← hfn]; exact List.mem_map_of_mem hlc)
    have hGs : Flow.size (first.map G) = n := by
      cases hf : first with
      | nil => rw [hf] at hfs; exact hfs
      | cons a as => rw [hf] at hGl; exact hGl _ (by simp)
    have hGw : Wf (first.map G) := ⟨by rw [hGn, ← hfn]; exact hfw.1, fun c hc => by rw [hGl c hc, hGs]⟩
    unfold averageData
    simp only [bind, Except.bind] at hm ⊢
    rw [hm]
    simp only [hfs]
    exact fold_weights_missing huge n (first :: rest) ls hne hu ws _ hGw hGn hGs hp

/-- A record on the grid of another one, in terms of offsets. -/
theorem subset_offsets {g data : Record} {sp : ℚ × ℚ} {co : Label × Label} {xg yg xd yd : ℚ} {NX NY nx ny : ℕ}
    (hx : 0 < sp.1) (hy : 0 < sp.2)
    (hg : Lattice g sp xg yg NX NY co) (hd : Lattice data sp xd yd nx ny co)
    (hsub : ∀ s, s < nx * ny → ∃ t, t < NX * NY ∧ val g co.1 t = val data co.1 s ∧ val g co.2 t = val data co.2 s) :
    ∃ i0 j0 : ℕ, xd = xg + sp.1 * (i0 : ℚ) ∧ yd = yg + sp.2 * (j0 : ℚ) ∧ i0 + nx ≤ NX ∧ j0 + ny ≤ NY := by
  have p1 := hd.nxpos
  have p2 := hd.nypos
  obtain ⟨t0, ht0, e1, e2⟩ := hsub (0 * nx + 0) (grid_lt p1 p2)
  obtain ⟨t1, ht1, f1, f2⟩ := hsub ((ny - 1) * nx + (nx - 1)) (grid_lt (by omega) (by omega))
  have r0 := hd.row p1 p2
  have r1 := hd.row (i := nx - 1) (j := ny - 1) (by omega) (by omega)
  rw [hg.x t0 ht0, r0.1] at e1
  rw [hg.y t0 ht0, r0.2] at e2
  rw [hg.x t1 ht1, r1.1] at f1
  rw [hg.y t1 ht1, r1.2] at f2
  simp only [Nat.cast_zero, mul_zero, add_zero] at e1 e2
  have g1 := grid_decomp ht1
  refine ⟨t0 % NX, t0 / NX, e1.symm, e2.symm, ?_, ?_⟩
  · have : sp.1 * ((t0 % NX + (nx - 1) : ℕ) : ℚ) = sp.1 * ((t1 % NX : ℕ) : ℚ) := by rw [Nat.cast_add]; linarith
    have : t0 % NX + (nx - 1) = t1 % NX := by exact_mod_cast mul_left_cancel₀ hx.ne' this
    have := g1.1
    omega
  · have : sp.2 * ((t0 / NX + (ny - 1) : ℕ) : ℚ) = sp.2 * ((t1 / NX : ℕ) : ℚ) := by rw [Nat.cast_add]; linarith
    have : t0 / NX + (ny - 1) = t1 / NX := by exact_mod_cast mul_left_cancel₀ hy.ne' this
    have := g1.2.1
    omega

end Strata.Average
