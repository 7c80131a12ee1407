import Verif.Model.FloatMaps
import Verif.Proofs.AverageMean
/-!
# Lemmas on rounded averages of flow maps
-/
namespace Strata.FloatMaps
open Strata Strata.Flow Strata.Average

theorem colSum_getD (sum : List ℚ → ℚ) (n : ℕ) (cols : List (List ℚ)) (t : ℕ) (h : t < n) :
    (colSum sum n cols).getD t 0 = sum (cols.map fun c => c.getD t 0) := by
  unfold colSum; exact getD_map_range _ _ t h

theorem arithmeticMean_ok (fl : ℚ → ℚ) (sum : List ℚ → ℚ) (l : Label) (n : ℕ) (ds : List Record) (h : ∀ d ∈ ds, Wf d ∧ l ∈ names d ∧ Flow.size d = n) :
    ∃ c, arithmeticMean fl sum l n ds = .ok c ∧ c.length = n ∧
      ∀ t, t < n → c.getD t 0 = fl (sum (ds.map fun d => val d l t) / ds.length) := by
  have hm : ds.mapM (fun d => do Flow.assign n (← field d l)) = .ok (ds.map fun d => (col? d l).getD []) := by
    apply mapM_ok'
    intro d hd
    obtain ⟨h1, h2, h3⟩ := h d hd
    obtain ⟨c, hf, hc⟩ := field_ok h2
    rw [hf, hc]
    simp only [bind, Except.bind, Option.getD_some]
    exact assign_self _ _ (by rw [col?_length h1 hc, h3])
  refine ⟨(colSum sum n (ds.map fun d => (col? d l).getD [])).map fun s => fl (s / (ds.length : ℚ)), ?_, ?_, ?_⟩
  · unfold arithmeticMean
    rw [hm]
    rfl
  · simp [colSum]
  · intro t ht
    unfold colSum
    rw [List.map_map, getD_map_range _ _ t ht, Function.comp, List.map_map]
    rfl

theorem weightedMean_ok (fl : ℚ → ℚ) (sum : List ℚ → ℚ) (huge : ℚ) (l w : Label) (avg : Record) (n : ℕ) (ds : List Record)
    (ha : Wf avg ∧ l ∈ names avg ∧ w ∈ names avg ∧ Flow.size avg = n)
    (h : ∀ d ∈ ds, Wf d ∧ l ∈ names d ∧ w ∈ names d ∧ Flow.size d = n) :
    ∃ c, weightedMean fl sum huge l w avg n ds = .ok c ∧ c.length = n ∧
      ∀ t, t < n → c.getD t 0 = divNan fl huge (sum (ds.map fun d => fl (val d l t * val d w t))) (fl ((ds.length : ℚ) * val avg w t)) := by
  have hm : (do
      let _ ← field avg l
      ds.mapM fun d => do Flow.assign n (List.zipWith (fun x y => fl (x * y)) (← field d l) (← field d w))) =
      .ok (ds.map fun d => List.zipWith (fun x y => fl (x * y)) ((col? d l).getD []) ((col? d w).getD [])) := by
    obtain ⟨c0, hf0, -⟩ := field_ok ha.2.1
    rw [hf0]
    simp only [bind, Except.bind]
    apply mapM_ok'
    intro d hd
    obtain ⟨h1, h2, h3, h4⟩ := h d hd
    obtain ⟨c, hf, hc⟩ := field_ok h2
    obtain ⟨e, he, hce⟩ := field_ok h3
    rw [hf, hc, he, hce]
    simp only [Option.getD_some]
    exact assign_self _ _ (by simp [col?_length h1 hc, col?_length h1 hce, h4])
  obtain ⟨cw, hfw, hcw⟩ := field_ok ha.2.2.1
  have hlw := col?_length ha.1 hcw
  refine ⟨List.zipWith (fun s a => divNan fl huge s (fl ((ds.length : ℚ) * a)))
    (colSum sum n (ds.map fun d => List.zipWith (fun x y => fl (x * y)) ((col? d l).getD []) ((col? d w).getD []))) cw, ?_, ?_, ?_⟩
  · unfold weightedMean
    rw [hm]
    simp only [bind, Except.bind, hfw]
  · simp [colSum, hlw, ha.2.2.2]
  · intro t ht
    rw [getD_zipWith _ _ _ _ (by simp [colSum, ht]) (by rw [hlw, ha.2.2.2]; exact ht), colSum_getD _ _ _ t ht,
      List.map_map, val_of_col hcw]
    congr 1
    congr 1
    apply List.map_congr_left
    intro d hd
    obtain ⟨h1, h2, h3, h4⟩ := h d hd
    obtain ⟨c, hf, hc⟩ := field_ok h2
    obtain ⟨e, he, hce⟩ := field_ok h3
    simp only [Function.comp, hc, hce, Option.getD_some, val_of_col hc, val_of_col hce]
    rw [getD_zipWith _ _ _ _ (by rw [col?_length h1 hc, h4]; exact ht) (by rw [col?_length h1 hce, h4]; exact ht)]

theorem fold_weights (fl : ℚ → ℚ) (sum : List ℚ → ℚ) (huge : ℚ) (n : ℕ) (ds : List Record) (ls : List Label) (hu : Uniform ds ls n) :
    ∀ (ws : List (Label × Label)) (avg : Record), Wf avg → names avg = ls → Flow.size avg = n →
      (ws.map Prod.fst).Nodup → (∀ p ∈ ws, p.1 ∈ ls ∧ p.2 ∈ ls ∧ ∀ q ∈ ws, q.1 ≠ p.2) →
      ∃ r, ws.foldlM (fun avg lw => do
          Except.ok (ε := Err) (setCol avg lw.1 (← weightedMean fl sum huge lw.1 lw.2 avg n ds))) avg = .ok r ∧
        Wf r ∧ names r = ls ∧ Flow.size r = n ∧
        (∀ l, (∀ p ∈ ws, p.1 ≠ l) → ∀ t, val r l t = val avg l t) ∧
        ∀ p ∈ ws, ∀ t, t < n → val r p.1 t =
          divNan fl huge (sum (ds.map fun d => fl (val d p.1 t * val d p.2 t))) (fl ((ds.length : ℚ) * val avg p.2 t)) := by
  intro ws
  induction ws with
  | nil => intro avg hw hn hs _ _; exact ⟨avg, rfl, hw, hn, hs, fun _ _ _ => rfl, by simp⟩
  | cons p ws ih =>
    intro avg hw hn hs hnd hp
    obtain ⟨hp1, hp2, hp3⟩ := hp p (by simp)
    obtain ⟨c, hc, hcl, hcv⟩ := weightedMean_ok fl sum huge p.1 p.2 avg n ds ⟨hw, by rw [hn]; exact hp1, by rw [hn]; exact hp2, hs⟩
      (by intro d hd; obtain ⟨a, b, e⟩ := hu d hd; exact ⟨a, by rw [b]; exact hp1, by rw [b]; exact hp2, e⟩)
    have hw' := wf_setCol hw p.1 c (by rw [hcl, hs])
    have hsz : Flow.size (setCol avg p.1 c) = n := by
      cases ha : avg with
      | nil => rw [ha] at hn; simp only [names, List.map_nil] at hn; rw [← hn] at hp1; simp at hp1
      | cons a as =>
        rw [ha] at hs
        simp only [setCol, List.map_cons, Flow.size]
        split
        · exact hcl
        · exact hs
    have hcol : ∀ l t, val (setCol avg p.1 c) l t = if l = p.1 then c.getD t 0 else val avg l t := by
      intro l t
      unfold val
      rw [col?_setCol _ _ _ _ (by rw [hn]; exact hp1)]
      split <;> rfl
    obtain ⟨r, h1, h2, h3, h4, h5, h6⟩ := ih (setCol avg p.1 c) hw' (by rw [names_setCol]; exact hn) hsz
      (by simp only [List.map_cons, List.nodup_cons] at hnd; exact hnd.2)
      (by intro q hq; obtain ⟨a, b, e⟩ := hp q (by simp [hq]); exact ⟨a, b, fun q' hq' => e q' (by simp [hq'])⟩)
    refine ⟨r, ?_, h2, h3, h4, ?_, ?_⟩
    · rw [List.foldlM_cons, hc]
      exact h1
    · intro l hl t
      rw [h5 l (fun q hq => hl q (by simp [hq])), hcol, if_neg]
      exact fun e => hl p (by simp) e.symm
    · intro q hq t ht
      simp only [List.map_cons, List.nodup_cons] at hnd
      rcases List.mem_cons.mp hq with rfl | hq
      · rw [h5 q.1 (fun q' hq' e => hnd.1 (List.mem_map.mpr ⟨q', hq', e⟩)), hcol, if_pos rfl, hcv t ht]
      · rw [h6 q hq t ht, hcol, if_neg]
        exact fun e => (hp q (by simp [hq])).2.2 p (by simp) e.symm

theorem averageData_spec (fl : ℚ → ℚ) (sum : List ℚ → ℚ) (huge : ℚ) (ds : List Record) (ws : List (Label × Label)) (co : Label × Label)
    (ls : List Label) (n : ℕ) (hne : ds ≠ []) (hu : Uniform ds ls n) (hnd : (ws.map Prod.fst).Nodup)
    (hws : ∀ p ∈ ws, p.1 ∈ ls ∧ p.2 ∈ ls ∧ p.2 ≠ co.1 ∧ p.2 ≠ co.2 ∧ ∀ q ∈ ws, q.1 ≠ p.2) :
    ∃ r, averageData fl sum huge ds ws co = .ok r ∧ Wf r ∧ names r = ls ∧ Flow.size r = n ∧
      (∀ d, ds.head? = some d → ∀ l, (l = co.1 ∨ l = co.2) → (∀ p ∈ ws, p.1 ≠ l) → ∀ t, val r l t = val d l t) ∧
      (∀ l ∈ ls, l ≠ co.1 → l ≠ co.2 → (∀ p ∈ ws, p.1 ≠ l) → ∀ t, t < n →
        val r l t = fl (sum (ds.map fun d => val d l t) / ds.length)) ∧
      ∀ p ∈ ws, ∀ t, t < n → val r p.1 t =
          divNan fl huge (sum (ds.map fun d => fl (val d p.1 t * val d p.2 t)))
            (fl ((ds.length : ℚ) * fl (sum (ds.map fun d => val d p.2 t) / ds.length))) := by
  cases ds with
  | nil => exact absurd rfl hne
  | cons first rest =>
    obtain ⟨hfw, hfn, hfs⟩ := hu first (by simp)
    -- the arithmetic columns
    let S : Label → Prop := fun l => l = co.1 ∨ l = co.2 ∨ l ∈ ws.map Prod.fst
    have hch : ∀ l ∈ ls, ∃ c, arithmeticMean fl sum l n (first :: rest) = .ok c ∧ c.length = n ∧
      ∀ t, t < n → c.getD t 0 = fl (sum ((first :: rest).map fun d => val d l t) / (first :: rest).length) := by
      intro l hl
      apply arithmeticMean_ok
      intro d hd
      obtain ⟨a, b, c⟩ := hu d hd
      exact ⟨a, by rw [b]; exact hl, c⟩
    choose! A hA1 hA2 hA3 using hch
    let G : Label × List ℚ → Label × List ℚ := fun lc =>
      if lc.1 = co.1 ∨ lc.1 = co.2 ∨ lc.1 ∈ ws.map Prod.fst then lc else (lc.1, A lc.1)
    have hm : first.mapM (fun lc => if lc.1 = co.1 ∨ lc.1 = co.2 ∨ lc.1 ∈ ws.map Prod.fst then Except.ok (ε := Err) lc
      else do .ok (lc.1, ← arithmeticMean fl sum lc.1 (Flow.size first) (first :: rest))) = .ok (first.map G) := by
      apply mapM_ok'
      intro lc hlc
      simp only [G]
      split
      · rfl
      · rw [hfs, hA1 lc.1 (by rw [← hfn]; exact List.mem_map_of_mem hlc)]; rfl
    have hGn : names (first.map G) = ls := by
      rw [← hfn]
      unfold names
      rw [List.map_map]
      apply List.map_congr_left
      intro lc _
      simp only [Function.comp, G]
      split <;> rfl
    have hGl : ∀ c ∈ first.map G, c.2.length = n := by
      intro c hc
      obtain ⟨lc, hlc, rfl⟩ := List.mem_map.mp hc
      simp only [G]
      split
      · rw [hfw.2 lc hlc, hfs]
      · exact hA2 lc.1 (by rw [← hfn]; exact List.mem_map_of_mem hlc)
    have hGs : first ≠ [] → Flow.size (first.map G) = n := by
      intro h
      cases hf : first with
      | nil => exact absurd hf h
      | cons a as => rw [hf] at hGl; exact hGl _ (by simp)
    have hGs : Flow.size (first.map G) = n := by
      by_cases h : first = []
      · rw [h] at hfs ⊢; exact hfs
      · exact hGs h
    have hGw : Wf (first.map G) := ⟨by rw [hGn, ← hfn]; exact hfw.1, fun c hc => by rw [hGl c hc, hGs]⟩
    have hGv : ∀ l ∈ ls, ∀ t, val (first.map G) l t = if S l then val first l t else (A l).getD t 0 := by
      intro l hl t
      obtain ⟨c, -, hc⟩ := field_ok (r := first) (l := l) (by rw [hfn]; exact hl)
      have hmem := lookup_mem hc
      have hm2 : (l, if S l then c else A l) ∈ first.map G := by
        refine List.mem_map.mpr ⟨_, hmem, ?_⟩
        simp only [G, S]
        split <;> rfl
      have := lookup_of_mem hGw.1 hm2
      rw [val_of_col this, val_of_col hc]
      split <;> rfl
    obtain ⟨r, h1, h2, h3, h4, h5, h6⟩ := fold_weights fl sum huge n (first :: rest) ls hu ws (first.map G) hGw hGn hGs hnd
      (by intro p hp; obtain ⟨a, b, -, -, c⟩ := hws p hp; exact ⟨a, b, c⟩)
    refine ⟨r, ?_, h2, h3, h4, ?_, ?_, ?_⟩
    · unfold averageData
      simp only [bind, Except.bind] at hm ⊢
      rw [hm]
      simp only [hfs]
      exact h1
    · intro d hd l hl hp t
      simp only [List.head?_cons, Option.some.injEq] at hd
      subst hd
      rw [h5 l hp]
      by_cases hll : l ∈ ls
      · rw [hGv l hll, if_pos (by rcases hl with h | h <;> simp [S, h])]
      · rw [val_eq_zero_of_not_mem (by rw [hGn]; exact hll), val_eq_zero_of_not_mem (by rw [hfn]; exact hll)]
    · intro l hl n1 n2 hp t ht
      rw [h5 l hp, hGv l hl, if_neg, hA3 l hl t ht]
      rintro (h | h | h)
      · exact n1 h
      · exact n2 h
      · obtain ⟨p, hp', e⟩ := List.mem_map.mp h; exact hp p hp' e
    · intro p hp t ht
      obtain ⟨a, b, c1, c2, c3⟩ := hws p hp
      rw [h6 p hp t ht, hGv p.2 b, if_neg, hA3 p.2 b t ht]
      rintro (h | h | h)
      · exact c1 h
      · exact c2 h
      · obtain ⟨q, hq, e⟩ := List.mem_map.mp h; exact c3 q hq e

end Strata.FloatMaps
