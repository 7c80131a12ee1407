import Verif.Proofs.Spreading
import Verif.Spec.SpreadingObs
/-! # Lemmas about the collecting loop and the synchronisation -/
namespace Strata.Spreading
open Strata.Spec

theorem Observes.cons {B : ℚ} {f : Frame} {fs : List Frame} {hist : List (Option (ℚ × ℚ))}
    (h : Observes B (f :: fs) hist) :
    ∃ o hist', hist = o :: hist' ∧ f.edges = o.map (fun p => (wrap B p.1, wrap B p.2)) ∧ f.box = B ∧
      Observes B fs hist' := by
  obtain ⟨h1, h2⟩ := h
  cases hist with
  | nil => simp at h1
  | cons o hist' =>
    simp only [List.map_cons, List.cons.injEq] at h1
    exact ⟨o, hist', rfl, h1.1, h2 _ (by simp), h1.2, fun f hf => h2 f (by simp [hf])⟩

theorem Observes.nil {B : ℚ} {hist : List (Option (ℚ × ℚ))} (h : Observes B [] hist) : hist = [] := by
  have := h.1; simpa using this.symm

/-- The state after the tracker has seen the true edges `p`, with image offset `k`. -/
def Tracks (B : ℚ) (k : ℤ) (p : ℚ × ℚ) (info : PeriodicInfo) : Prop :=
  info = ⟨some (wrap B p.1), some (wrap B p.2), image B p.1 - k, image B p.2 - k⟩

theorem row_exact {B : ℚ} (hB : 0 < B) {k : ℤ} {p : ℚ × ℚ} (hp : Fits B p) :
    addMultipliers ⟨some (wrap B p.1), some (wrap B p.2), image B p.1 - k, image B p.2 - k⟩ B
      (wrap B p.1) (wrap B p.2) = (p.1 - k * B, p.2 - k * B) := by
  obtain ⟨h1, _⟩ := wrap_bounds hB p.1
  obtain ⟨h2, _⟩ := wrap_bounds hB p.2
  unfold addMultipliers
  push_cast
  ext <;> simp only <;> linarith

theorem half_abs {a b : ℚ} (h : a ≤ b) : |(1 / 2) * (b - a)| = (b - a) / 2 := by
  rw [abs_of_nonneg (by linarith)]; ring

/-- The observable part of a row: left, right, radius. -/
def Row.geom (r : Row) : ℚ × ℚ × ℚ := (r.left, r.right, r.radius)

theorem loop_exact {B : ℚ} (hB : 0 < B) (dt : ℚ) (save : Bool) (k : ℤ) :
    ∀ (frames : List Frame) (hist : List (Option (ℚ × ℚ))) (s : State) (i : ℕ) (p : ℚ × ℚ),
      Observes B frames hist → Tracks B k p s.info → Fits B p →
      (∀ q ∈ hist.reduceOption, Fits B q) →
      (p :: hist.reduceOption).IsChain (Slow B) →
      (p :: hist.reduceOption).IsChain (AtMostOneCrosses B) →
      (loop dt save s i frames).rows.map Row.geom = s.rows.map Row.geom ++
        hist.reduceOption.map (fun q => (q.1 - k * B, q.2 - k * B, (q.2 - q.1) / 2)) := by
  intro frames
  induction frames with
  | nil =>
    intro hist s i p ho ht hp hf hs hc
    have := ho.nil; subst this
    simp [loop]
  | cons f fs ih =>
    intro hist s i p ho ht hp hf hs hc
    obtain ⟨o, hist', rfl, he, hb, ho'⟩ := ho.cons
    unfold loop
    rcases o with _ | q
    · simp only [List.reduceOption_cons_of_none] at hf hs hc ⊢
      have : step dt save s i f = s := by unfold step; rw [he]; rfl
      rw [this]
      exact ih hist' s (i + 1) p ho' ht hp hf hs hc
    · simp only [List.reduceOption_cons_of_some] at hf hs hc ⊢
      have hq : Fits B q := hf q (by simp)
      have hs' := List.isChain_cons_cons.mp hs
      have hc' := List.isChain_cons_cons.mp hc
      have hu := updateInfo_exact hB hp hq hs'.1 hc'.1 k
      unfold Tracks at ht
      have hstep : (step dt save s i f).info =
            ⟨some (wrap B q.1), some (wrap B q.2), image B q.1 - k, image B q.2 - k⟩ ∧
          (step dt save s i f).rows.map Row.geom = s.rows.map Row.geom ++
            [(q.1 - k * B, q.2 - k * B, (q.2 - q.1) / 2)] := by
        unfold step
        rw [he, hb]
        simp only [Option.map_some, ht, hu, row_exact hB hq]
        refine ⟨trivial, ?_⟩ <;> simp only [List.map_append, List.map_cons, List.map_nil, Row.geom] <;>
          rw [half_abs (by have := hq.1; linarith)] <;> ring_nf
      rw [ih hist' (step dt save s i f) (i + 1) q ho' hstep.1 hq (fun x hx => hf x (by simp [hx])) hs'.2 hc'.2,
        hstep.2]
      simp

theorem loop_diff {B : ℚ} (hB : 0 < B) (dt : ℚ) (save : Bool) :
    ∀ (frames : List Frame) (hist : List (Option (ℚ × ℚ))) (s : State) (i : ℕ) (p : ℚ × ℚ) (ml mr : ℤ),
      Observes B frames hist → s.info = ⟨some (wrap B p.1), some (wrap B p.2), ml, mr⟩ →
      mr - ml = image B p.2 - image B p.1 → Fits B p →
      (∀ q ∈ hist.reduceOption, Fits B q) →
      (p :: hist.reduceOption).IsChain (Slow B) →
      ∃ ks : List ℤ, ks.length = hist.reduceOption.length ∧
      (loop dt save s i frames).rows.map Row.geom = s.rows.map Row.geom ++
        List.zipWith (fun (k : ℤ) q => (q.1 + k * B, q.2 + k * B, (q.2 - q.1) / 2)) ks hist.reduceOption := by
  intro frames
  induction frames with
  | nil =>
    intro hist s i p ml mr ho ht hd hp hf hs
    have := ho.nil; subst this
    exact ⟨[], rfl, by simp [loop]⟩
  | cons f fs ih =>
    intro hist s i p ml mr ho ht hd hp hf hs
    obtain ⟨o, hist', rfl, he, hb, ho'⟩ := ho.cons
    unfold loop
    rcases o with _ | q
    · simp only [List.reduceOption_cons_of_none] at hf hs ⊢
      have : step dt save s i f = s := by unfold step; rw [he]; rfl
      rw [this]
      exact ih hist' s (i + 1) p ml mr ho' ht hd hp hf hs
    · simp only [List.reduceOption_cons_of_some] at hf hs ⊢
      have hq : Fits B q := hf q (by simp)
      have hs' := List.isChain_cons_cons.mp hs
      obtain ⟨ml', mr', hu, hd', _⟩ := updateInfo_diff hB hp hq hs'.1 ml mr hd
      have hstep : (step dt save s i f).info = ⟨some (wrap B q.1), some (wrap B q.2), ml', mr'⟩ ∧
          (step dt save s i f).rows.map Row.geom = s.rows.map Row.geom ++
            [(q.1 + (ml' - image B q.1 : ℤ) * B, q.2 + (ml' - image B q.1 : ℤ) * B, (q.2 - q.1) / 2)] := by
        have hm : mr' = image B q.2 - (image B q.1 - ml') := by omega
        have hl : ml' = image B q.1 - (image B q.1 - ml') := by omega
        have hr := row_exact (k := image B q.1 - ml') hB hq
        rw [← hm, ← hl] at hr
        unfold step
        rw [he, hb]
        simp only [Option.map_some, ht, hu, hr]
        refine ⟨trivial, ?_⟩ <;> simp only [List.map_append, List.map_cons, List.map_nil, Row.geom] <;>
          rw [half_abs (by have := hq.1; linarith)] <;> push_cast <;> ring_nf
      obtain ⟨ks, hlen, heq⟩ := ih hist' (step dt save s i f) (i + 1) q ml' mr' ho' hstep.1 hd' hq
        (fun x hx => hf x (by simp [hx])) hs'.2
      exact ⟨(ml' - image B q.1) :: ks, by simp [hlen], by rw [heq, hstep.2]; simp⟩

theorem loop_rows (dt : ℚ) (save : Bool) : ∀ (frames : List Frame) (s : State) (i : ℕ),
    ∃ new : List Row, (loop dt save s i frames).rows = s.rows ++ new ∧
      new.length = (detected frames).length ∧
      (loop dt save s i frames).time = s.time + new.length * dt ∧
      (∀ (n : ℕ) (h : n < new.length), new[n].time = s.time + n * dt) ∧
      List.Forall₂ (fun (r : Row) (f : Frame) => ∃ l x, f.edges = some (l, x) ∧
        ∃ a b : ℤ, r.left = l + a * f.box ∧ r.right = x + b * f.box ∧ r.radius = |(r.right - r.left) / 2|)
        new (detected frames) := by
  intro frames
  induction frames with
  | nil => intro s i; exact ⟨[], by simp [loop, detected]⟩
  | cons f fs ih =>
    intro s i
    unfold loop
    obtain ⟨new, h1, h2, h3, h4, h5⟩ := ih (step dt save s i f) (i + 1)
    rcases he : f.edges with _ | ⟨l, r⟩
    · have hst : step dt save s i f = s := by unfold step; rw [he]
      rw [hst] at h1 h3 h4 ⊢
      have hd : detected (f :: fs) = detected fs := by unfold detected; rw [List.filter_cons_of_neg (by simp [he])]
      rw [hd]
      exact ⟨new, h1, h2, h3, h4, h5⟩
    · have hd : detected (f :: fs) = f :: detected fs := by unfold detected; rw [List.filter_cons_of_pos (by simp [he])]
      obtain ⟨row, hr1, hr2, hr3, hr4⟩ : ∃ row : Row, (step dt save s i f).rows = s.rows ++ [row] ∧
          (step dt save s i f).time = s.time + dt ∧ row.time = s.time ∧
          ∃ a b : ℤ, row.left = l + a * f.box ∧ row.right = r + b * f.box ∧
            row.radius = |(row.right - row.left) / 2| := by
        unfold step
        rw [he]
        simp only [addMultipliers]
        refine ⟨_, rfl, by simp, rfl, _, _, rfl, rfl, ?_⟩
        simp only
        congr 1; ring
      refine ⟨row :: new, by rw [h1, hr1]; simp, by simp [hd, h2], ?_, ?_, ?_⟩
      · rw [h3, hr2]; push_cast [List.length_cons]; ring
      · intro n hn
        rcases n with _ | n
        · simp [hr3]
        · simp only [List.getElem_cons_succ]
          rw [h4 n (by simpa using hn), hr2]; push_cast; ring
      · rw [hd]
        exact List.Forall₂.cons ⟨l, r, he, hr4⟩ h5

theorem loop_drop (dt : ℚ) (save : Bool) : ∀ (frames : List Frame) (s s' : State) (i j : ℕ),
    s.info = s'.info → s.time = s'.time → s.rows = s'.rows →
    (loop dt save s i frames).rows = (loop dt save s' j (detected frames)).rows := by
  intro frames
  induction frames with
  | nil => intro s s' i j h1 h2 h3; simpa [loop, detected] using h3
  | cons f fs ih =>
    intro s s' i j h1 h2 h3
    rcases he : f.edges with _ | ⟨l, r⟩
    · have hd : detected (f :: fs) = detected fs := by unfold detected; rw [List.filter_cons_of_neg (by simp [he])]
      rw [hd, loop]
      have hst : step dt save s i f = s := by unfold step; rw [he]
      rw [hst]
      exact ih s s' (i + 1) j h1 h2 h3
    · have hd : detected (f :: fs) = f :: detected fs := by unfold detected; rw [List.filter_cons_of_pos (by simp [he])]
      rw [hd]
      unfold loop
      apply ih <;> unfold step <;> rw [he] <;> simp only [h1, h2, h3]

theorem loop_lines (dt : ℚ) : ∀ (frames : List Frame) (s : State) (i : ℕ),
    ∃ new, (loop dt true s i frames).rows = s.rows ++ new ∧
    (loop dt true s i frames).lines = s.lines ++
      (if s.flag then [] else
        ((frames.zipIdx i).find? (fun f => f.1.edges.isSome)).toList.map
          (fun f => Line.impact (f.2 * dt) f.1.path)) ++ new.map Line.row ∧
    (loop dt true s i frames).flag = (s.flag || frames.any (fun f => f.edges.isSome)) := by
  intro frames
  induction frames with
  | nil => intro s i; exact ⟨[], by simp [loop]⟩
  | cons f fs ih =>
    intro s i
    unfold loop
    obtain ⟨new, h1, h2, h3⟩ := ih (step dt true s i f) (i + 1)
    rcases he : f.edges with _ | ⟨l, r⟩
    · have hst : step dt true s i f = s := by unfold step; rw [he]
      rw [hst] at h1 h2 h3 ⊢
      refine ⟨new, h1, ?_, by simp [h3, he]⟩
      rw [h2, List.zipIdx_cons, List.find?_cons_of_neg (by simp [he])]
    · obtain ⟨row, hr1, hr2, hr3⟩ : ∃ row : Row, (step dt true s i f).rows = s.rows ++ [row] ∧
          (step dt true s i f).flag = true ∧ (step dt true s i f).lines =
            s.lines ++ (if s.flag then [] else [Line.impact (i * dt) f.path]) ++ [Line.row row] := by
        unfold step
        rw [he]
        exact ⟨_, rfl, rfl, rfl⟩
      refine ⟨row :: new, by rw [h1, hr1]; simp, ?_, by simp [h3, hr2, he]⟩
      rw [h2, hr2, hr3]
      rw [List.zipIdx_cons, List.find?_cons_of_pos (by simp [he])]
      by_cases hf : s.flag <;> simp [hf]

theorem argminLabel_spec (radius : ℚ) : ∀ (s : Series),
    (s = [] ∧ argminLabel (fun v => |v - radius|) s = none) ∨
    ∃ p, argminLabel (fun v => |v - radius|) s = some p ∧ IsFirstClosest radius s p := by
  intro s
  induction s with
  | nil => left; exact ⟨rfl, rfl⟩
  | cons a s ih =>
    right
    rcases ih with ⟨rfl, h⟩ | ⟨p, hp, pre, post, rfl, h1, h2⟩
    · exact ⟨a, by simp [argminLabel], [], [], by simp⟩
    · by_cases hlt : |p.2 - radius| < |a.2 - radius|
      · refine ⟨p, by simp only [argminLabel, hp, hlt, if_true], a :: pre, post, by simp, ?_, h2⟩
        intro x hx
        rcases List.mem_cons.mp hx with rfl | hx
        · exact hlt
        · exact h1 x hx
      · refine ⟨a, by simp only [argminLabel, hp, hlt, if_false], [], pre ++ p :: post, by simp, by simp, ?_⟩
        intro x hx
        have hle := not_lt.mp hlt
        rcases List.mem_append.mp hx with hx | hx
        · exact hle.trans (h1 x hx).le
        · rcases List.mem_cons.mp hx with rfl | hx
          · exact hle
          · exact hle.trans (h2 x hx)

theorem isFirstClosest_unique {radius : ℚ} {s : Series} {p q : ℚ × ℚ} (hp : IsFirstClosest radius s p)
    (hq : IsFirstClosest radius s q) : p = q := by
  obtain ⟨a, b, rfl, h1, h2⟩ := hp
  obtain ⟨c, d, he, h3, h4⟩ := hq
  rcases List.append_eq_append_iff.mp he with ⟨e, rfl, h⟩ | ⟨e, rfl, h⟩
  · rcases e with _ | ⟨x, e⟩
    · simp at h; exact h.1
    · simp only [List.cons_append, List.cons.injEq] at h
      obtain ⟨rfl, rfl⟩ := h
      exact absurd (h2 q (by simp)) (not_le.mpr (h3 p (by simp)))
  · rcases e with _ | ⟨x, e⟩
    · simp at h; exact h.1.symm
    · simp only [List.cons_append, List.cons.injEq] at h
      obtain ⟨rfl, rfl⟩ := h
      exact absurd (h4 p (by simp)) (not_le.mpr (h1 q (by simp)))

theorem closestTime_spec {radius : ℚ} {s : Series} {p : ℚ × ℚ} (h : IsFirstClosest radius s p) :
    closestTime radius s = .ok p.1 := by
  rcases argminLabel_spec radius s with ⟨rfl, _⟩ | ⟨q, hq, hc⟩
  · obtain ⟨a, b, h, _⟩ := h; simp at h
  · unfold closestTime; rw [hq, isFirstClosest_unique hc h]

theorem exists_closest {radius : ℚ} {s : Series} (h : s ≠ []) : ∃ p, IsFirstClosest radius s p := by
  rcases argminLabel_spec radius s with ⟨rfl, _⟩ | ⟨q, _, hc⟩
  · exact absurd rfl h
  · exact ⟨q, hc⟩

theorem mapM_ok {α β : Type} (f : α → Except Err β) (g : α → β) : ∀ (l : List α),
    (∀ a ∈ l, f a = .ok (g a)) → l.mapM f = .ok (l.map g) := by
  intro l h
  induction l with
  | nil => rfl
  | cons a l ih =>
    rw [List.mapM_cons, h a (by simp), ih (fun x hx => h x (by simp [hx]))]; rfl

theorem foldl_min_spec : ∀ (xs : List ℚ) (x : ℚ), xs.foldl min x ∈ x :: xs ∧ ∀ y ∈ x :: xs, xs.foldl min x ≤ y := by
  intro xs
  induction xs with
  | nil => intro x; simp
  | cons y ys ih =>
    intro x
    obtain ⟨h1, h2⟩ := ih (min x y)
    simp only [List.foldl_cons]
    refine ⟨?_, ?_⟩
    · rcases List.mem_cons.mp h1 with h | h
      · rw [h]; rcases min_choice x y with h | h <;> rw [h] <;> simp
      · simp [h]
    · intro z hz
      have h0 := h2 (min x y) (by simp)
      rcases List.mem_cons.mp hz with rfl | hz
      · exact h0.trans (min_le_left _ _)
      · rcases List.mem_cons.mp hz with rfl | hz
        · exact h0.trans (min_le_right _ _)
        · exact h2 z (by simp [hz])

theorem stretch_self {α : Type} (l : List α) : stretch l.length l = l := by
  unfold stretch; split <;> simp

end Strata.Spreading
