import Verif.Props.Spreading
/-!
# C63: by how many boxes the collected edges are off, for every history

`C63_radius_exact_partial` says that each row is moved by some multiple of the box.  Here the multiple
is computed: it is constant except where both edges change periodic image between two observations, and
there it grows by the number of images crossed, which the tracker does not notice.
-/
namespace Strata.Spreading
open Strata.Spec

/-- Periodic images by which both edges move between two observations of a droplet, if both move; 0
otherwise. -/
def jump (B : ℚ) (p q : ℚ × ℚ) : ℤ :=
  if image B q.1 = image B p.1 ∨ image B q.2 = image B p.2 then 0 else image B q.1 - image B p.1

/-- All such steps in a history. -/
def jumps (B : ℚ) : List (ℚ × ℚ) → ℤ
  | p :: q :: t => jump B p q + jumps B (q :: t)
  | _ => 0

/-- The history `obs` after an observation `p` reported with offset `k`. -/
def reported (B : ℚ) : ℤ → ℚ × ℚ → List (ℚ × ℚ) → List (ℚ × ℚ × ℚ)
  | _, _, [] => []
  | k, p, q :: t =>
    (q.1 - (k + jump B p q : ℤ) * B, q.2 - (k + jump B p q : ℤ) * B, (q.2 - q.1) / 2) ::
      reported B (k + jump B p q) q t

theorem length_reported (B : ℚ) : ∀ (obs : List (ℚ × ℚ)) (k : ℤ) (p : ℚ × ℚ),
    (reported B k p obs).length = obs.length
  | [], _, _ => rfl
  | q :: t, k, p => by simp [reported, length_reported B t]

theorem reported_get (B : ℚ) : ∀ (obs : List (ℚ × ℚ)) (k : ℤ) (p : ℚ × ℚ) (n : ℕ) (h : n < obs.length),
    (reported B k p obs)[n]'(by rw [length_reported]; exact h) =
      (obs[n].1 - (k + jumps B (p :: obs.take (n + 1)) : ℤ) * B,
        obs[n].2 - (k + jumps B (p :: obs.take (n + 1)) : ℤ) * B, (obs[n].2 - obs[n].1) / 2)
  | [], _, _, _, h => by simp at h
  | q :: t, k, p, 0, _ => by simp [reported, jumps]
  | q :: t, k, p, n + 1, h => by
    simp only [reported, List.getElem_cons_succ, List.take_succ_cons]
    rw [reported_get B t (k + jump B p q) q n (by simpa using h)]
    simp only [jumps, add_assoc]

/-- One step of the tracker: the offset grows by `jump`. -/
theorem updateInfo_jump {B : ℚ} (hB : 0 < B) {p q : ℚ × ℚ} (hp : Fits B p) (hq : Fits B q)
    (hs : Slow B p q) (k : ℤ) :
    updateInfo ⟨some (wrap B p.1), some (wrap B p.2), image B p.1 - k, image B p.2 - k⟩ B
        (wrap B q.1) (wrap B q.2) =
      ⟨some (wrap B q.1), some (wrap B q.2), image B q.1 - (k + jump B p q),
        image B q.2 - (k + jump B p q)⟩ := by
  by_cases hc : AtMostOneCrosses B p q
  · have hj : jump B p q = 0 := if_pos hc
    rw [hj, add_zero]
    exact updateInfo_exact hB hp hq hs hc k
  · have hj : jump B p q = image B q.1 - image B p.1 := if_neg hc
    obtain ⟨ml', mr', hu, hd, hk⟩ := updateInfo_diff hB hp hq hs (image B p.1 - k) (image B p.2 - k)
      (by omega)
    obtain ⟨h1, h2⟩ := hk hc
    rw [hu, hj, h1, h2]
    have e1 : image B q.1 - (k + (image B q.1 - image B p.1)) = image B p.1 - k := by omega
    have e2 : image B q.2 - (k + (image B q.1 - image B p.1)) = image B p.2 - k := by omega
    rw [e1, e2]

theorem loop_jump {B : ℚ} (hB : 0 < B) (dt : ℚ) (save : Bool) :
    ∀ (frames : List Frame) (hist : List (Option (ℚ × ℚ))) (s : State) (i : ℕ) (p : ℚ × ℚ) (k : ℤ),
      Observes B frames hist →
      s.info = ⟨some (wrap B p.1), some (wrap B p.2), image B p.1 - k, image B p.2 - k⟩ → Fits B p →
      (∀ q ∈ hist.reduceOption, Fits B q) → (p :: hist.reduceOption).IsChain (Slow B) →
      (loop dt save s i frames).rows.map Row.geom = s.rows.map Row.geom ++
        reported B k p hist.reduceOption := by
  intro frames
  induction frames with
  | nil =>
    intro hist s i p k ho ht hp hf hs
    have := ho.nil; subst this
    simp [loop, reported]
  | cons f fs ih =>
    intro hist s i p k ho ht hp hf hs
    obtain ⟨o, hist', rfl, he, hb, ho'⟩ := ho.cons
    unfold loop
    rcases o with _ | q
    · simp only [List.reduceOption_cons_of_none] at hf hs ⊢
      have : step dt save s i f = s := by unfold step; rw [he]; rfl
      rw [this]
      exact ih hist' s (i + 1) p k ho' ht hp hf hs
    · simp only [List.reduceOption_cons_of_some] at hf hs ⊢
      have hq : Fits B q := hf q (by simp)
      have hs' := List.isChain_cons_cons.mp hs
      have hu := updateInfo_jump hB hp hq hs'.1 k
      have hstep : (step dt save s i f).info =
            ⟨some (wrap B q.1), some (wrap B q.2), image B q.1 - (k + jump B p q),
              image B q.2 - (k + jump B p q)⟩ ∧
          (step dt save s i f).rows.map Row.geom = s.rows.map Row.geom ++
            [(q.1 - (k + jump B p q : ℤ) * B, q.2 - (k + jump B p q : ℤ) * B, (q.2 - q.1) / 2)] := by
        generalize k + jump B p q = k' at hu ⊢
        unfold step
        rw [he, hb]
        simp only [Option.map_some, ht, hu, row_exact hB hq]
        refine ⟨trivial, ?_⟩ <;> simp only [List.map_append, List.map_cons, List.map_nil, Row.geom] <;>
          rw [half_abs (by have := hq.1; linarith)] <;> ring_nf
      rw [ih hist' (step dt save s i f) (i + 1) q (k + jump B p q) ho' hstep.1 hq
        (fun x hx => hf x (by simp [hx])) hs'.2, hstep.2]
      simp [reported]

/-- **C63, as coded.** For every history of a droplet that fits in the box and moves less than half a
box per step: row `n` holds the true edges of observation `n`, moved by a number of boxes that is the
periodic image of the very first left edge plus the images crossed in those steps up to `n` in which
both edges changed image, and half the true width. -/
theorem C63_offset_as_coded {B : ℚ} (hB : 0 < B) (dt t0 : ℚ) (save flag : Bool)
    (frames : List Frame) (hist : List (Option (ℚ × ℚ))) (ho : Observes B frames hist)
    (hfit : ∀ p ∈ hist.reduceOption, Fits B p) (hslow : hist.reduceOption.IsChain (Slow B)) :
    (collect dt t0 save flag frames).rows.length = hist.reduceOption.length ∧
    ∀ (n : ℕ) (p0 p : ℚ × ℚ) (r : Row), hist.reduceOption[0]? = some p0 → hist.reduceOption[n]? = some p →
      (collect dt t0 save flag frames).rows[n]? = some r →
      r.left = p.1 - (image B p0.1 + jumps B (hist.reduceOption.take (n + 1)) : ℤ) * B ∧
      r.right = p.2 - (image B p0.1 + jumps B (hist.reduceOption.take (n + 1)) : ℤ) * B ∧
      r.radius = (p.2 - p.1) / 2 := by
  have main : ∀ (frames : List Frame) (hist : List (Option (ℚ × ℚ))) (s : State) (i : ℕ),
      Observes B frames hist → s.info = initPeriodicInfo → s.rows = [] →
      (∀ p ∈ hist.reduceOption, Fits B p) → hist.reduceOption.IsChain (Slow B) →
      (loop dt save s i frames).rows.map Row.geom =
        match hist.reduceOption with
        | [] => []
        | q :: t => (q.1 - (image B q.1 : ℤ) * B, q.2 - (image B q.1 : ℤ) * B, (q.2 - q.1) / 2) ::
            reported B (image B q.1) q t := by
    intro frames
    induction frames with
    | nil =>
      intro hist s i ho hi hr _ _
      have := ho.nil; subst this
      simp [loop, hr, List.reduceOption]
    | cons f fs ih =>
      intro hist s i ho hi hr hf hs
      obtain ⟨o, hist', rfl, he, hb, ho'⟩ := ho.cons
      unfold loop
      rcases o with _ | q
      · simp only [List.reduceOption_cons_of_none] at hf hs ⊢
        have : step dt save s i f = s := by unfold step; rw [he]; rfl
        rw [this]
        exact ih hist' s (i + 1) ho' hi hr hf hs
      · simp only [List.reduceOption_cons_of_some] at hf hs ⊢
        have hq : Fits B q := hf q (by simp)
        have hu := updateInfo_first hB hq
        have hstep : (step dt save s i f).info =
              ⟨some (wrap B q.1), some (wrap B q.2), image B q.1 - image B q.1, image B q.2 - image B q.1⟩ ∧
            (step dt save s i f).rows.map Row.geom =
              [(q.1 - (image B q.1 : ℤ) * B, q.2 - (image B q.1 : ℤ) * B, (q.2 - q.1) / 2)] := by
          unfold step
          rw [he, hb]
          simp only [Option.map_some, hi, hu, row_exact hB hq, hr]
          refine ⟨trivial, ?_⟩ <;>
            simp only [List.nil_append, List.map_cons, List.map_nil, Row.geom] <;>
            rw [half_abs (by have := hq.1; linarith)] <;> ring_nf
        rw [loop_jump hB dt save fs hist' (step dt save s i f) (i + 1) q (image B q.1) ho' hstep.1 hq
          (fun x hx => hf x (by simp [hx])) hs, hstep.2]
        rfl
  have hm := main frames hist ⟨initPeriodicInfo, t0, [], flag, []⟩ 0 ho rfl rfl hfit hslow
  unfold collect
  generalize (loop dt save ⟨initPeriodicInfo, t0, [], flag, []⟩ 0 frames).rows = rows at hm ⊢
  generalize hist.reduceOption = obs at hm ⊢
  rcases obs with _ | ⟨q, t⟩
  · simp only [List.map_eq_nil_iff] at hm
    subst hm
    simp
  · simp only at hm
    have hlen := congrArg List.length hm
    simp only [List.length_map, List.length_cons, length_reported] at hlen
    refine ⟨by simpa using hlen, ?_⟩
    intro n p0 p r h0 hn hr
    simp only [List.getElem?_cons_zero, Option.some.injEq] at h0
    subst h0
    have hg : (rows.map Row.geom)[n]? = some r.geom := by rw [List.getElem?_map, hr]; rfl
    rw [hm] at hg
    rcases n with _ | n
    · simp only [List.getElem?_cons_zero, Option.some.injEq] at hg hn
      subst hn
      have : jumps B (List.take (0 + 1) (q :: t)) = 0 := by simp [jumps]
      rw [this, add_zero]
      simp only [Row.geom, Prod.mk.injEq] at hg
      exact ⟨hg.1.symm, hg.2.1.symm, hg.2.2.symm⟩
    · simp only [List.getElem?_cons_succ] at hg hn
      obtain ⟨hlt, he⟩ := List.getElem?_eq_some_iff.mp hn
      rw [List.getElem?_eq_getElem (by rw [length_reported]; exact hlt), reported_get B t _ q n hlt, he] at hg
      simp only [Option.some.injEq, Row.geom, Prod.mk.injEq] at hg
      simp only [List.take_succ_cons]
      exact ⟨hg.1.symm, hg.2.1.symm, hg.2.2.symm⟩

/-- A droplet of width 9.5 in a box of 10 moving to the right by 1.5 per map, then back: both edges cross
in the second step and back in the last. -/
example : let hist : List (Option (ℚ × ℚ)) := [some (9, 37 / 2), some (21 / 2, 20), none, some (12, 43 / 2), some (21 / 2, 20), some (9, 37 / 2)]
    Observes 10 (hist.map fun o => ⟨10, o.map (fun p => (wrap 10 p.1, wrap 10 p.2)), []⟩) hist ∧
    (∀ p ∈ hist.reduceOption, Fits 10 p) ∧ hist.reduceOption.IsChain (Slow 10) ∧
    (List.range 5).map (fun n => jumps 10 (hist.reduceOption.take (n + 1))) = [0, 1, 1, 1, 0] ∧
    (collect 1 0 false false (hist.map fun o => ⟨10, o.map (fun p => (wrap 10 p.1, wrap 10 p.2)), []⟩)).rows.map
      (fun r => (r.left, r.right, r.radius)) =
      [(9, 37 / 2, 19 / 4), (1 / 2, 10, 19 / 4), (2, 23 / 2, 19 / 4), (1 / 2, 10, 19 / 4), (9, 37 / 2, 19 / 4)] := by
  refine ⟨⟨rfl, by simp⟩, ?_, ?_, ?_, ?_⟩ <;> decide +kernel

/-- **C63, exactly when the claim holds.** The collected edges are the true ones moved by one fixed
multiple of the box if and only if the images crossed by both edges together cancel at every observation. -/
theorem C63_fixed_offset_iff {B : ℚ} (hB : 0 < B) (dt t0 : ℚ) (save flag : Bool)
    (frames : List Frame) (hist : List (Option (ℚ × ℚ))) (ho : Observes B frames hist)
    (hfit : ∀ p ∈ hist.reduceOption, Fits B p) (hslow : hist.reduceOption.IsChain (Slow B)) :
    (∃ k : ℤ, (collect dt t0 save flag frames).rows.map (fun r => (r.left, r.right)) =
        hist.reduceOption.map (fun p => (p.1 - k * B, p.2 - k * B))) ↔
      ∀ n < hist.reduceOption.length, jumps B (hist.reduceOption.take (n + 1)) = 0 := by
  obtain ⟨hlen, hall⟩ := C63_offset_as_coded hB dt t0 save flag frames hist ho hfit hslow
  generalize (collect dt t0 save flag frames).rows = rows at hlen hall ⊢
  generalize hist.reduceOption = obs at hlen hall ⊢
  have key : ∀ n (h : n < obs.length), rows[n]'(by omega) = rows[n]'(by omega) ∧
      (rows[n]'(by omega)).left = obs[n].1 - (image B (obs[0]'(by omega)).1 + jumps B (obs.take (n + 1)) : ℤ) * B ∧
      (rows[n]'(by omega)).right = obs[n].2 - (image B (obs[0]'(by omega)).1 + jumps B (obs.take (n + 1)) : ℤ) * B := by
    intro n h
    obtain ⟨h1, h2, _⟩ := hall n _ _ _ (List.getElem?_eq_getElem (by omega)) (List.getElem?_eq_getElem h)
      (List.getElem?_eq_getElem (by omega))
    exact ⟨rfl, h1, h2⟩
  constructor
  · rintro ⟨k, hk⟩
    have hn : ∀ n (h : n < obs.length), (image B (obs[0]'(by omega)).1 + jumps B (obs.take (n + 1)) : ℤ) = k := by
      intro n h
      have e : (rows.map (fun r => (r.left, r.right)))[n]? =
          (obs.map (fun p => (p.1 - k * B, p.2 - k * B)))[n]? := by rw [hk]
      rw [List.getElem?_map, List.getElem?_map, List.getElem?_eq_getElem (by omega),
        List.getElem?_eq_getElem h] at e
      simp only [Option.map_some, Option.some.injEq, Prod.mk.injEq] at e
      have e1 := e.1
      rw [(key n h).2.1] at e1
      have e2 : ((image B (obs[0]'(by omega)).1 + jumps B (obs.take (n + 1)) : ℤ) : ℚ) * B = k * B := by linarith
      have e3 := mul_right_cancel₀ hB.ne' e2
      exact_mod_cast e3
    intro n h
    have h0 := hn 0 (by omega)
    have h1 := hn n h
    have z : jumps B (obs.take (0 + 1)) = 0 := by
      rcases obs with _ | ⟨q, t⟩ <;> simp [jumps]
    omega
  · intro hz
    rcases Nat.eq_zero_or_pos obs.length with h0 | h0
    · have : obs = [] := List.length_eq_zero_iff.mp h0
      have hr : rows = [] := List.length_eq_zero_iff.mp (by omega)
      exact ⟨0, by simp [this, hr]⟩
    · refine ⟨image B (obs[0]).1, ?_⟩
      refine List.ext_getElem (by simp [hlen]) ?_
      intro n h1 h2
      have hn : n < obs.length := by simpa using h2
      obtain ⟨_, e1, e2⟩ := key n hn
      simp only [List.getElem_map]
      rw [e1, e2, hz n hn, add_zero]

example : let hist : List (Option (ℚ × ℚ)) := [some (2, 8), some (5, 11), some (8, 14), some (12, 18)]
    ∀ n < hist.reduceOption.length, jumps 10 (hist.reduceOption.take (n + 1)) = 0 := by
  decide +kernel

end Strata.Spreading
