import Verif.Proofs.SpreadingLoop
/-!
# Properties C62–C66, C75, C76: spreading radius, periodic tracking, series output, synchronisation
-/
namespace Strata.Spreading
open Strata.Spec

/-- **C62.** For every droplet history whose width fits in the box, whose edges move less than half a
box between maps with a droplet and where at most one edge changes periodic image at a time, the
collected edges are the true ones shifted by one fixed multiple of the box, and the radius is half the
true width. -/
theorem C62_edges_and_radius {B : ℚ} (hB : 0 < B) (dt t0 : ℚ) (save flag : Bool)
    (frames : List Frame) (hist : List (Option (ℚ × ℚ))) (ho : Observes B frames hist)
    (hfit : ∀ p ∈ hist.reduceOption, Fits B p)
    (hslow : hist.reduceOption.IsChain (Slow B))
    (hcross : hist.reduceOption.IsChain (AtMostOneCrosses B)) :
    ∃ k : ℤ, (collect dt t0 save flag frames).rows.map (fun r => (r.left, r.right, r.radius)) =
      hist.reduceOption.map (fun p => (p.1 - k * B, p.2 - k * B, (p.2 - p.1) / 2)) := by
  have main : ∀ (frames : List Frame) (hist : List (Option (ℚ × ℚ))) (s : State) (i : ℕ),
      Observes B frames hist → s.info = initPeriodicInfo → s.rows = [] →
      (∀ p ∈ hist.reduceOption, Fits B p) → hist.reduceOption.IsChain (Slow B) →
      hist.reduceOption.IsChain (AtMostOneCrosses B) →
      ∃ k : ℤ, (loop dt save s i frames).rows.map Row.geom =
        hist.reduceOption.map (fun p => (p.1 - k * B, p.2 - k * B, (p.2 - p.1) / 2)) := by
    intro frames
    induction frames with
    | nil =>
      intro hist s i ho hi hr _ _ _
      have := ho.nil; subst this
      exact ⟨0, by simp [loop, hr]⟩
    | cons f fs ih =>
      intro hist s i ho hi hr hf hs hc
      obtain ⟨o, hist', rfl, he, hb, ho'⟩ := ho.cons
      unfold loop
      rcases o with _ | q
      · simp only [List.reduceOption_cons_of_none] at hf hs hc ⊢
        have : step dt save s i f = s := by unfold step; rw [he]; rfl
        rw [this]
        exact ih hist' s (i + 1) ho' hi hr hf hs hc
      · simp only [List.reduceOption_cons_of_some] at hf hs hc ⊢
        have hq : Fits B q := hf q (by simp)
        have hu := updateInfo_first hB hq
        refine ⟨image B q.1, ?_⟩
        have hstep : (step dt save s i f).info =
              ⟨some (wrap B q.1), some (wrap B q.2), image B q.1 - image B q.1, image B q.2 - image B q.1⟩ ∧
            (step dt save s i f).rows.map Row.geom =
              [(q.1 - image B q.1 * B, q.2 - image B q.1 * B, (q.2 - q.1) / 2)] := by
          unfold step
          rw [he, hb]
          simp only [Option.map_some, hi, hu, row_exact hB hq, hr]
          refine ⟨trivial, ?_⟩ <;>
            simp only [List.nil_append, List.map_cons, List.map_nil, Row.geom] <;>
            rw [half_abs (by have := hq.1; linarith)] <;> ring_nf
        rw [loop_exact hB dt save (image B q.1) fs hist' (step dt save s i f) (i + 1) q ho' hstep.1 hq
          (fun x hx => hf x (by simp [hx])) hs hc, hstep.2]
        simp
  exact main frames hist _ 0 ho rfl rfl hfit hslow hcross

/-- A droplet that drifts through the boundary, with a map without droplet in between. -/
example : let hist : List (Option (ℚ × ℚ)) := [some (2, 8), none, some (5, 11), some (8, 14), some (12, 18)]
    Observes 10 (hist.map fun o => ⟨10, o.map (fun p => (wrap 10 p.1, wrap 10 p.2)), []⟩) hist ∧
    (∀ p ∈ hist.reduceOption, Fits 10 p) ∧ hist.reduceOption.IsChain (Slow 10) ∧
    hist.reduceOption.IsChain (AtMostOneCrosses 10) ∧
    (hist.map fun o => o.map (fun p => (wrap 10 p.1, wrap 10 p.2))) =
      [some (2, 8), none, some (5, 1), some (8, 4), some (2, 8)] := by
  refine ⟨⟨rfl, by simp⟩, ?_, ?_, ?_, by decide +kernel⟩ <;> decide +kernel

/-! ## C63 -/

/-- **C63, partial.** Without any restriction on how many edges cross, every collected row is the true
droplet moved rigidly by some multiple of the box (not necessarily the same in every row); in particular
the radius is always half the true width.  Missing from the full claim: one fixed multiple, which is
false (`C63_both_cross_counterexample`). -/
theorem C63_radius_exact_partial {B : ℚ} (hB : 0 < B) (dt t0 : ℚ) (save flag : Bool)
    (frames : List Frame) (hist : List (Option (ℚ × ℚ))) (ho : Observes B frames hist)
    (hfit : ∀ p ∈ hist.reduceOption, Fits B p) (hslow : hist.reduceOption.IsChain (Slow B)) :
    ∃ ks : List ℤ, ks.length = hist.reduceOption.length ∧
      (collect dt t0 save flag frames).rows.map (fun r => (r.left, r.right, r.radius)) =
      List.zipWith (fun (k : ℤ) p => (p.1 + k * B, p.2 + k * B, (p.2 - p.1) / 2)) ks
        hist.reduceOption := by
  have main : ∀ (frames : List Frame) (hist : List (Option (ℚ × ℚ))) (s : State) (i : ℕ),
      Observes B frames hist → s.info = initPeriodicInfo → s.rows = [] →
      (∀ p ∈ hist.reduceOption, Fits B p) → hist.reduceOption.IsChain (Slow B) →
      ∃ ks : List ℤ, ks.length = hist.reduceOption.length ∧ (loop dt save s i frames).rows.map Row.geom =
        List.zipWith (fun (k : ℤ) p => (p.1 + k * B, p.2 + k * B, (p.2 - p.1) / 2)) ks
          hist.reduceOption := by
    intro frames
    induction frames with
    | nil =>
      intro hist s i ho hi hr _ _
      have := ho.nil; subst this
      exact ⟨[], rfl, by simp [loop, hr]⟩
    | cons f fs ih =>
      intro hist s i ho hi hr hf hs
      obtain ⟨o, hist', rfl, he, hb, ho'⟩ := ho.cons
      unfold loop
      rcases o with _ | q
      · simp only [List.reduceOption_cons_of_none] at hf hs ⊢
        have : step dt save s i f = s := by unfold step; rw [he]; rfl
        rw [this]
        exact ih hist' s (i + 1) ho' hi hr hf hs
      · simp only [List.reduceOption_cons_of_some] at hf hs ⊢
        have hq : Fits B q := hf q (by simp)
        have hu := updateInfo_first hB hq
        have hstep : (step dt save s i f).info =
              ⟨some (wrap B q.1), some (wrap B q.2), image B q.1 - image B q.1, image B q.2 - image B q.1⟩ ∧
            (step dt save s i f).rows.map Row.geom =
              [(q.1 + (- image B q.1 : ℤ) * B, q.2 + (- image B q.1 : ℤ) * B, (q.2 - q.1) / 2)] := by
          unfold step
          rw [he, hb]
          simp only [Option.map_some, hi, hu, row_exact hB hq, hr]
          refine ⟨trivial, ?_⟩ <;>
            simp only [List.nil_append, List.map_cons, List.map_nil, Row.geom] <;>
            rw [half_abs (by have := hq.1; linarith)] <;> push_cast <;> ring_nf
        obtain ⟨ks, hlen, heq⟩ := loop_diff hB dt save fs hist' (step dt save s i f) (i + 1) q _ _ ho' hstep.1
          (by omega) hq (fun x hx => hf x (by simp [hx])) hs
        exact ⟨(- image B q.1) :: ks, by simp [hlen], by rw [heq, hstep.2]; simp⟩
  exact main frames hist _ 0 ho rfl rfl hfit hslow

/-- **C63, counterexample.** A wide droplet (edges 9, 18.5 → 10.5, 20 in a box of 10) whose edges both
cross in one step: no fixed multiple of the box relates the collected edges to the true ones. -/
theorem C63_both_cross_counterexample :
    ∃ (B : ℚ) (frames : List Frame) (hist : List (Option (ℚ × ℚ))), 0 < B ∧ Observes B frames hist ∧
      (∀ p ∈ hist.reduceOption, Fits B p) ∧ hist.reduceOption.IsChain (Slow B) ∧
      ¬ ∃ k : ℤ, (collect 1 0 false false frames).rows.map (fun r => (r.left, r.right)) =
        hist.reduceOption.map (fun p => (p.1 - k * B, p.2 - k * B)) := by
  refine ⟨10, [⟨10, some (9, 17 / 2), []⟩, ⟨10, some (1 / 2, 0), []⟩],
    [some (9, 37 / 2), some (21 / 2, 20)], by norm_num, ⟨by decide +kernel, by simp⟩, ?_, ?_, ?_⟩
  · decide +kernel
  · decide +kernel
  · rintro ⟨k, hk⟩
    have : (collect 1 0 false false [⟨10, some (9, 17 / 2), []⟩, ⟨10, some (1 / 2, 0), []⟩]).rows.map
        (fun r => (r.left, r.right)) = [(9, 37 / 2), (1 / 2, 10)] := by decide +kernel
    rw [this] at hk
    simp [List.reduceOption] at hk
    obtain ⟨⟨h1, _⟩, h2, _⟩ := hk
    have e1 : (k : ℚ) = 0 := by linarith
    rw [e1] at h2
    norm_num at h2

/-! ## C64 -/

/-- **C64.** One row per map with a droplet, in order; row `n` has time `t0 + n·dt`; its edges are those
of its own map up to box multiples and its radius is half their distance.  Maps without droplet produce no row. -/
theorem C64_rows_aligned (dt t0 : ℚ) (save flag : Bool) (frames : List Frame) :
    (collect dt t0 save flag frames).rows.map Row.time =
      (List.range (detected frames).length).map (fun n : ℕ => t0 + n * dt) ∧
    List.Forall₂ (fun (r : Row) (f : Frame) => ∃ l x, f.edges = some (l, x) ∧
        ∃ a b : ℤ, r.left = l + a * f.box ∧ r.right = x + b * f.box ∧ r.radius = |(r.right - r.left) / 2|)
      (collect dt t0 save flag frames).rows (detected frames) := by
  obtain ⟨new, h1, h2, _, h4, h5⟩ := loop_rows dt save frames ⟨initPeriodicInfo, t0, [], flag, []⟩ 0
  unfold collect
  simp only [List.nil_append] at h1
  rw [h1]
  refine ⟨?_, h5⟩
  refine List.ext_getElem (by simp [h2]) ?_
  intro n hn _
  simp only [List.getElem_map, List.getElem_range]
  exact h4 n (by simpa using hn)

/-- **C64.** Maps without droplet do not influence the rows of the others. -/
theorem C64_empty_maps_do_not_matter (dt t0 : ℚ) (save flag : Bool) (frames : List Frame) :
    (collect dt t0 save flag frames).rows = (collect dt t0 save flag (detected frames)).rows :=
  loop_drop dt save frames _ _ 0 0 rfl rfl rfl

/-- **C64, partial.** If no map after the impact map `a` lacks a droplet, the row of map `a + n` has the
time `n·dt` after the impact.  Missing: series with a gap, see `C64_gap_counterexample`. -/
theorem C64_time_of_frame_partial (dt t0 : ℚ) (save flag : Bool) (pre post : List Frame)
    (h1 : ∀ f ∈ pre, f.edges = none) (h2 : ∀ f ∈ post, f.edges ≠ none) :
    List.Forall₂ (fun (r : Row) (f : Frame × ℕ) => r.time = t0 + (f.2 - pre.length : ℚ) * dt ∧
        ∃ l x, f.1.edges = some (l, x) ∧ ∃ a b : ℤ, r.left = l + a * f.1.box ∧ r.right = x + b * f.1.box)
      (collect dt t0 save flag (pre ++ post)).rows (post.zipIdx pre.length) := by
  have hd : detected (pre ++ post) = post := by
    unfold detected
    rw [List.filter_append, List.filter_eq_nil_iff.mpr (by intro f hf; simp [h1 f hf]),
      List.filter_eq_self.mpr (by intro f hf; simpa [Option.isSome_iff_ne_none] using h2 f hf)]
    rfl
  obtain ⟨ht, hr⟩ := C64_rows_aligned dt t0 save flag (pre ++ post)
  rw [hd] at ht hr
  rw [List.forall₂_iff_get] at hr ⊢
  obtain ⟨hl, hr⟩ := hr
  refine ⟨by simp [hl], ?_⟩
  intro n hn hn'
  have hn'' : n < post.length := by omega
  have ht' : ((collect dt t0 save flag (pre ++ post)).rows.map Row.time)[n]'(by simpa using hn) = t0 + n * dt := by
    simp only [ht, List.getElem_map, List.getElem_range]
  obtain ⟨l, x, he, a, b, e1, e2, _⟩ := hr n hn hn''
  simp only [List.get_eq_getElem, List.getElem_map, List.getElem_zipIdx] at *
  exact ⟨by rw [ht']; push_cast; ring, l, x, he, a, b, e1, e2⟩

example : (collect 1 0 false false ([⟨10, none, []⟩] ++ [⟨10, some (1, 2), []⟩, ⟨10, some (0, 5), []⟩])).rows =
    [⟨0, 1 / 2, 1, 2⟩, ⟨1, 5 / 2, 0, 5⟩] := by decide +kernel

/-- **C64, counterexample.** With a map without droplet after the impact, the row of map 2 carries the
time of map 1. -/
theorem C64_gap_counterexample :
    (collect 1 0 false false [⟨10, some (1, 2), []⟩, ⟨10, none, []⟩, ⟨10, some (3, 5), []⟩]).rows =
      [⟨0, 1 / 2, 1, 2⟩, ⟨1, 1, 3, 5⟩] := by decide +kernel

/-! ## C65 -/

/-- **C65, partial.** In the first series a process writes (`flag = false`), the output has the impact
block, with the time and path of the first map with a droplet, followed by the rows; with no droplet
nothing is written.  Missing: later series, see `C65_second_series_counterexample`. -/
theorem C65_first_series_partial (dt t0 : ℚ) (frames : List Frame) :
    (collect dt t0 true false frames).lines =
      (firstDetected frames).toList.map (fun f => Line.impact (f.2 * dt) f.1.path) ++ (collect dt t0 true false frames).rows.map Line.row := by
  obtain ⟨new, h1, h2, _⟩ := loop_lines dt frames ⟨initPeriodicInfo, t0, [], false, []⟩ 0
  unfold collect
  rw [h1, h2]
  simp [firstDetected]

example : (collect (1 / 2) 0 true false [⟨10, none, "a".toList⟩, ⟨10, some (1, 2), "b".toList⟩]).lines =
    [Line.impact (1 / 2) "b".toList, Line.row ⟨0, 1 / 2, 1, 2⟩] := by decide +kernel

/-- **C65, counterexample.** Every series with a droplet leaves the flag set, and a series collected
afterwards in the same process has rows but no impact block, whatever it contains. -/
theorem C65_second_series_counterexample (dt t0 : ℚ) (first second : List Frame) (flag : Bool)
    (h : ∃ f ∈ first, f.edges ≠ none) :
    let flag' := (collect dt t0 true flag first).flag
    (collect dt t0 true flag' second).lines = (collect dt t0 true flag' second).rows.map Line.row := by
  obtain ⟨_, _, _, h3⟩ := loop_lines dt first ⟨initPeriodicInfo, t0, [], flag, []⟩ 0
  have hflag : (collect dt t0 true flag first).flag = true := by
    unfold collect
    rw [h3]
    obtain ⟨f, hf, he⟩ := h
    simp only [Bool.or_eq_true, List.any_eq_true]
    exact Or.inr ⟨f, hf, by simpa [Option.isSome_iff_ne_none] using he⟩
  simp only [hflag]
  obtain ⟨new, h1, h2, _⟩ := loop_lines dt second ⟨initPeriodicInfo, t0, [], true, []⟩ 0
  unfold collect
  rw [h1, h2]
  simp

/-! ## C66 -/

/-- **C66.** Synchronising non-empty curves succeeds; there is one common time `T`, the earliest of the
times at which the original curves are (first) closest to the radius, such that every curve is the
original one rigidly shifted in time with all radii unchanged, and the shifted curve is first closest
to the radius at time `T`. -/
theorem C66_synchronised (data : List Series) (radius : ℚ) (hd : data ≠ []) (hs : ∀ s ∈ data, s ≠ []) :
    ∃ (T : ℚ) (out : List Series), syncTimeAtRadius data radius = .ok out ∧
      (∃ s ∈ data, ∃ p, IsFirstClosest radius s p ∧ p.1 = T) ∧
      (∀ s ∈ data, ∀ p, IsFirstClosest radius s p → T ≤ p.1) ∧
      List.Forall₂ (fun s s' => (∃ shift, s' = s.map (fun p => (p.1 + shift, p.2))) ∧
        ∃ r, IsFirstClosest radius s' (T, r)) data out := by
  classical
  have hex : ∀ s ∈ data, ∃ p, IsFirstClosest radius s p := fun s h => exists_closest (hs s h)
  let c : Series → ℚ := fun s => if h : ∃ p, IsFirstClosest radius s p then h.choose.1 else 0
  have hc : ∀ s ∈ data, ∃ p, IsFirstClosest radius s p ∧ c s = p.1 := by
    intro s h
    have he := hex s h
    exact ⟨he.choose, he.choose_spec, by simp only [c, dif_pos he]⟩
  have hct : ∀ s ∈ data, closestTime radius s = .ok (c s) := by
    intro s h
    obtain ⟨p, hp, he⟩ := hc s h
    rw [closestTime_spec hp, he]
  have h1 := mapM_ok (closestTime radius) c data hct
  obtain ⟨T, hT, hmem, hle⟩ : ∃ T, minList (data.map c) = .ok T ∧ T ∈ data.map c ∧ ∀ y ∈ data.map c, T ≤ y := by
    cases data with
    | nil => exact absurd rfl hd
    | cons s data =>
      obtain ⟨a, b⟩ := foldl_min_spec (data.map c) (c s)
      exact ⟨_, rfl, a, b⟩
  refine ⟨T, data.map (fun s => s.map fun p => (p.1 - (c s - T), p.2)), ?_, ?_, ?_, ?_⟩
  · unfold syncTimeAtRadius
    rw [h1]
    show (minList (data.map c) >>= _) = _
    rw [hT]
    show data.mapM _ = _
    apply mapM_ok
    intro s h
    rw [hct s h]
    rfl
  · obtain ⟨s, hs, rfl⟩ := List.mem_map.mp hmem
    obtain ⟨p, hp, he⟩ := hc s hs
    exact ⟨s, hs, p, hp, he.symm⟩
  · intro s h p hp
    obtain ⟨q, hq, he⟩ := hc s h
    rw [isFirstClosest_unique hp hq, ← he]
    exact hle _ (List.mem_map.mpr ⟨s, h, rfl⟩)
  · rw [List.forall₂_map_right_iff]
    apply List.forall₂_same.mpr
    intro s h
    refine ⟨⟨-(c s - T), by simp [sub_eq_add_neg]⟩, ?_⟩
    obtain ⟨p, ⟨pre, post, rfl, a, b⟩, he⟩ := hc s h
    refine ⟨p.2, pre.map (fun q => (q.1 - (c (pre ++ p :: post) - T), q.2)),
      post.map (fun q => (q.1 - (c (pre ++ p :: post) - T), q.2)), ?_, ?_, ?_⟩
    · rw [List.map_append, List.map_cons]
      congr 2
      rw [he]; simp
    · intro x hx; obtain ⟨y, hy, rfl⟩ := List.mem_map.mp hx; exact a y hy
    · intro x hx; obtain ⟨y, hy, rfl⟩ := List.mem_map.mp hx; exact b y hy

/-- **C66.** Without curves, or with an empty curve, an error is raised. -/
theorem C66_errors (data : List Series) (radius : ℚ) (h : data = [] ∨ [] ∈ data) :
    syncTimeAtRadius data radius = .error .valueError := by
  have key : ∀ data : List Series, [] ∈ data → data.mapM (closestTime radius) = .error .valueError := by
    intro data
    induction data with
    | nil => simp
    | cons s data ih =>
      intro h
      rw [List.mapM_cons]
      rcases s with _ | ⟨p, s⟩
      · rfl
      · obtain ⟨q, hq⟩ := exists_closest (radius := radius) (s := p :: s) (by simp)
        rw [closestTime_spec hq, ih (by simpa using h)]; rfl
  rcases h with rfl | h
  · rfl
  · unfold syncTimeAtRadius; rw [key data h]; rfl

example : (syncTimeAtRadius [[(0, 1), (1, 3)], [(5, 2), (6, 4)]] 3).toOption =
    some [[(0, 1), (1, 3)], [(1, 2), (2, 4)]] := by decide +kernel

/-! ## C75 -/

/-- **C75.** One pair of factors scales every curve: each time is divided by `tau`, each radius by `R`,
curves and points keep their order. -/
theorem C75_scale_common (data : List Series) (tau R : ℚ) :
    scaleData data (.one tau) (.one R) = .ok (data.map fun s => s.map fun p => (p.1 / tau, p.2 / R)) := by
  have hb : broadcastLen [data.length, 1, 1] = some data.length := by
    unfold broadcastLen
    by_cases h : data.length = 1 <;> simp [h]
  simp only [scaleData, Factor.len, hb, stretch_self]
  congr 1
  refine List.ext_getElem (by simp) ?_
  intro n h1 h2
  simp [scaleSeries]

/-- **C75.** Separate factors (one per curve) scale their own curve. -/
theorem C75_scale_separate (data : List Series) (taus Rs : List ℚ) (h1 : taus.length = data.length)
    (h2 : Rs.length = data.length) :
    scaleData data (.many taus) (.many Rs) = .ok (List.zipWith (fun s (f : ℚ × ℚ) =>
      s.map fun p => (p.1 / f.1, p.2 / f.2)) data (taus.zip Rs)) := by
  have hb : broadcastLen [data.length, data.length, data.length] = some data.length := by
    unfold broadcastLen
    by_cases h : data.length = 1 <;> simp [h]
  have e1 : stretch data.length taus = taus := by rw [← h1, stretch_self]
  have e2 : stretch data.length Rs = Rs := by rw [← h2, stretch_self]
  simp only [scaleData, Factor.len, h1, h2, hb, stretch_self, e1, e2]
  congr 1
  refine List.ext_getElem (by simp) ?_
  intro n h1 h2
  simp [scaleSeries]

/-- **C75.** Factor lists whose length is neither 1 nor the number (≠ 1) of curves are rejected. -/
theorem C75_scale_mismatch (data : List Series) (taus : List ℚ) (R : ℚ) (h0 : data.length ≠ 1)
    (h1 : taus.length ≠ 1) (h2 : taus.length ≠ data.length) :
    scaleData data (.many taus) (.one R) = .error .typeError := by
  have hb : broadcastLen [data.length, taus.length, 1] = none := by
    unfold broadcastLen; simp [h0, h1, h2]
  simp only [scaleData, Factor.len, hb]

/-- **C75.** A single curve with several factors is drawn once per factor. -/
theorem C75_scale_one_curve (c : Series) (taus Rs : List ℚ) (h : taus.length = Rs.length) :
    scaleData [c] (.many taus) (.many Rs) =
      .ok ((taus.zip Rs).map fun f => c.map fun p => (p.1 / f.1, p.2 / f.2)) := by
  have hb : broadcastLen [1, Rs.length, Rs.length] = some Rs.length := by
    unfold broadcastLen
    by_cases h : Rs.length = 1 <;> simp [h]
  have e1 : stretch Rs.length taus = taus := by rw [← h, stretch_self]
  have e2 : stretch Rs.length [c] = List.replicate Rs.length c := rfl
  simp only [scaleData, Factor.len, List.length_singleton, h, hb, e1, stretch_self, e2]
  congr 1
  refine List.ext_getElem (by simp [h]) ?_
  intro n h1 h2
  simp [scaleSeries]

/-- **C75.** A list with a single factor stands for a common factor. -/
theorem C75_scale_single_factor (data : List Series) (t R : ℚ) :
    scaleData data (.many [t]) (.many [R]) = .ok (data.map fun s => s.map fun p => (p.1 / t, p.2 / R)) := by
  have hb : broadcastLen [data.length, 1, 1] = some data.length := by
    unfold broadcastLen
    by_cases h : data.length = 1 <;> simp [h]
  have e2 : ∀ a : ℚ, stretch data.length [a] = List.replicate data.length a := fun _ => rfl
  simp only [scaleData, Factor.len, List.length_singleton, hb, stretch_self, e2]
  congr 1
  refine List.ext_getElem (by simp) ?_
  intro n h1 h2
  simp [scaleSeries]

example : (scaleData [[(2, 4), (4, 6)]] (.many [1, 2]) (.many [2, 1])).toOption =
    some [[(2, 2), (4, 3)], [(1, 4), (2, 6)]] := by decide +kernel

/-- **C75.** Scaling happens before synchronisation: the synchronised result is that of the scaled curves. -/
theorem C75_scale_then_sync (data : List Series) (tau R radius : ℚ) :
    combineData data (some radius) (.one tau) (.one R) =
      syncTimeAtRadius (data.map fun s => s.map fun p => (p.1 / tau, p.2 / R)) radius := by
  unfold combineData; rw [C75_scale_common]; rfl

example : (scaleData [[(2, 4), (4, 6)], [(6, 8)]] (.many [2, 3]) (.one 2)).toOption =
    some [[(1, 2), (2, 3)], [(2, 4)]] := by decide +kernel

/-! ## C76 -/

/-- **C76.** The mask for a fit has one entry per point; it selects exactly the points in the closed
interval (an absent limit not restricting), unless that selects nothing, when it selects everything. -/
theorem C76_fit_range (s : Series) (xmin xmax : Option ℚ) :
    let inside : ℚ × ℚ → Prop := fun p => (∀ a, xmin = some a → a ≤ p.1) ∧ ∀ b, xmax = some b → p.1 ≤ b
    ((∃ p ∈ s, inside p) → List.Forall₂ (fun (m : Bool) p => (m = true ↔ inside p)) (indsInLimits s xmin xmax) s) ∧
    ((¬ ∃ p ∈ s, inside p) → indsInLimits s xmin xmax = s.map fun _ => true) := by
  intro inside
  cases s with
  | nil => simp [indsInLimits, minList]
  | cons p0 s0 =>
    obtain ⟨lo, hlo, hlo'⟩ : ∃ lo, minList ((p0 :: s0).map Prod.fst) = .ok lo ∧ ∀ p ∈ p0 :: s0, lo ≤ p.1 :=
      ⟨_, rfl, fun p hp => (foldl_min_spec _ _).2 _ (List.mem_map_of_mem (f := Prod.fst) hp)⟩
    obtain ⟨hi, hhi, hhi'⟩ : ∃ hi, minList (((p0 :: s0).map Prod.fst).map (fun t => -t)) = .ok hi ∧
        ∀ p ∈ p0 :: s0, hi ≤ -p.1 :=
      ⟨_, rfl, fun p hp => (foldl_min_spec _ _).2 _
        (List.mem_map_of_mem (f := fun t => -t) (List.mem_map_of_mem (f := Prod.fst) hp))⟩
    have hin : ∀ p ∈ p0 :: s0, (p.1 ≥ xmin.getD lo ∧ p.1 ≤ xmax.getD (-hi)) ↔ inside p := by
      intro p hp
      have h1 := hlo' p hp
      have h2 := hhi' p hp
      have h3 : p.1 ≤ -hi := by linarith
      rcases xmin with _ | a <;> rcases xmax with _ | b <;> simp [inside, h1, h3]
    unfold indsInLimits
    simp only [hlo, hhi]
    generalize p0 :: s0 = s at *
    constructor
    · rintro ⟨p, hp, hi'⟩
      rw [if_pos]
      · rw [List.map_map, List.forall₂_map_left_iff]
        apply List.forall₂_same.mpr
        intro q hq
        simp only [Function.comp, decide_eq_true_eq]
        exact hin q hq
      · simp only [List.any_map, List.any_eq_true]
        exact ⟨p, hp, by simpa using (hin p hp).mpr hi'⟩
    · intro h
      rw [if_neg]
      · simp
      · simp only [List.any_map, List.any_eq_true]
        rintro ⟨p, hp, hc⟩
        exact h ⟨p, hp, (hin p hp).mp (by simpa using hc)⟩

/-- **C76.** The fit never gets an empty selection from a non-empty series. -/
theorem C76_never_empty (s : Series) (xmin xmax : Option ℚ) (h : s ≠ []) :
    true ∈ indsInLimits s xmin xmax := by
  obtain ⟨h1, h2⟩ := C76_fit_range s xmin xmax
  by_cases hex : ∃ p ∈ s, (∀ a, xmin = some a → a ≤ p.1) ∧ ∀ b, xmax = some b → p.1 ≤ b
  · obtain ⟨p, hp, hi⟩ := hex
    have hf := h1 ⟨p, hp, hi⟩
    rw [List.forall₂_iff_get] at hf
    obtain ⟨hl, hf⟩ := hf
    obtain ⟨n, hn, rfl⟩ := List.mem_iff_getElem.mp hp
    have := (hf n (by omega) hn).mpr hi
    rw [← this]
    exact List.getElem_mem _
  · rw [h2 hex]
    cases s with
    | nil => exact absurd rfl h
    | cons => simp

example : indsInLimits [(0, 1), (1, 2), (2, 3)] (some 1) none = [false, true, true] ∧
    indsInLimits [(0, 1), (1, 2)] (some 7) none = [true, true] := by decide +kernel

end Strata.Spreading
