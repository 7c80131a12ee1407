import Verif.Proofs.InterfaceShape
import Verif.Proofs.ArgMin
/-!
# C86, C87, C88: contact angles and series of interfaces
-/
namespace Strata.InterfaceFiles
open Strata Strata.Flow Strata.Average Strata.Interface Strata.Spreading Strata.Spec

theorem pointAt_spec (p : Point) (rest : List Point) (height : ℚ) : ClosestTo (p :: rest) p height (pointAt (p :: rest) p height) := by
  have hp : pointAt (p :: rest) p height =
      rest.foldl (fun best z => if |z.y - p.y - height| < |best.y - p.y - height| then z else best) p := by
    unfold pointAt
    rw [List.foldl_cons, if_neg (lt_irrefl _)]
  obtain ⟨A, r, B, h1, h2, h3, h4⟩ := argmin_spec (fun q : Point => |q.y - p.y - height|) p rest
  rw [hp, h1]
  refine ⟨A, B, h2, ?_, ?_⟩
  · intro x hx
    have := h3 x hx
    simpa only [sub_sub] using this
  · intro x hx
    have := h4 x hx
    simpa only [sub_sub] using this

theorem closestTo_unique {edge : List Point} {p q q' : Point} {height : ℚ} (h : ClosestTo edge p height q) (h' : ClosestTo edge p height q') : q = q' := by
  obtain ⟨A, B, rfl, h1, h2⟩ := h
  obtain ⟨A', B', e, h1', h2'⟩ := h'
  rcases List.append_eq_append_iff.mp e with ⟨C, rfl, hC⟩ | ⟨C, rfl, hC⟩
  · cases C with
    | nil => simp only [List.nil_append, List.cons.injEq] at hC; exact hC.1
    | cons c C =>
      simp only [List.cons_append, List.cons.injEq] at hC
      obtain ⟨rfl, rfl⟩ := hC
      have a := h1' q (by simp)
      have b := h2 q' (by simp)
      exact absurd a (not_lt.mpr b)
  · cases C with
    | nil => simp only [List.nil_append, List.cons.injEq] at hC; exact hC.1.symm
    | cons c C =>
      simp only [List.cons_append, List.cons.injEq] at hC
      obtain ⟨rfl, rfl⟩ := hC
      have a := h1 q' (by simp)
      have b := h2' q (by simp)
      exact absurd a (not_lt.mpr b)

theorem arccos_eq_arg (dx dy : ℝ) (h : 0 ≤ dy) (hne : ¬ (dx = 0 ∧ dy = 0)) :
    Real.arccos (dx / Real.sqrt (dx ^ 2 + dy ^ 2)) = Complex.arg ((dx : ℂ) + (dy : ℂ) * Complex.I) := by
  have hz : (dx : ℂ) + (dy : ℂ) * Complex.I ≠ 0 := by
    intro h0
    have h1 := congrArg Complex.re h0
    have h2 := congrArg Complex.im h0
    simp at h1 h2
    exact hne ⟨h1, h2⟩
  have h1 := Complex.cos_arg hz
  have h2 : ((dx : ℂ) + (dy : ℂ) * Complex.I).re = dx := by simp
  rw [h2, Complex.norm_add_mul_I] at h1
  rw [← h1, Real.arccos_cos]
  · rw [Complex.arg_nonneg_iff]
    simpa using h
  · exact Complex.arg_le_pi _

/-- **C86.** The angle measured at a height is the inclination of the line from the lowest point of the edge to the first of the points closest to
that height over it, seen from the liquid; it is undefined if these points coincide. -/
theorem C86_measured (p : Point) (rest : List Point) (hb : ∀ q ∈ rest, p.y ≤ q.y) (right : Bool) (height : ℚ) (q : Point)
    (hq : ClosestTo (p :: rest) p height q) :
    measureAngle (p :: rest) right height = .ok (if q = p then none else some (inclination (seen right p) (seen right q))) := by
  have e : pointAt (p :: rest) p height = q := closestTo_unique (pointAt_spec p rest height) hq
  have hy : p.y ≤ q.y := by
    obtain ⟨A, B, h, -, -⟩ := hq
    have : q ∈ p :: rest := by rw [h]; simp
    rcases List.mem_cons.mp this with rfl | h
    · rfl
    · exact hb q h
  unfold measureAngle
  simp only [e]
  have hiff : ((if right = true then -(q.x - p.x) else q.x - p.x) = 0 ∧ q.y - p.y = 0) ↔ q = p := by
    cases p
    cases q
    simp only [Point.mk.injEq]
    cases right <;> simp [sub_eq_zero, eq_comm]
  by_cases h : q = p
  · rw [if_pos (hiff.mpr h), if_pos h]
  · rw [if_neg (hiff.not.mpr h), if_neg h]
    rw [arccos_eq_arg _ _ (by exact_mod_cast sub_nonneg.mpr hy) (by
      intro hc
      apply hiff.not.mpr h
      exact ⟨by exact_mod_cast hc.1, by exact_mod_cast hc.2⟩)]
    unfold inclination
    cases right
    · simp [seen]
    · simp [seen, sub_eq_add_neg, add_comm]

/-- **C86.** A point closest to the height exists, so an angle is always returned for an edge with points. -/
theorem C86_closest (p : Point) (rest : List Point) (height : ℚ) : ∃ q, ClosestTo (p :: rest) p height q := ⟨_, pointAt_spec p rest height⟩

example : ClosestTo [⟨0, 0⟩, ⟨1, 1⟩, ⟨1, 2⟩, ⟨0, 3⟩] ⟨0, 0⟩ (8 / 5) ⟨1, 2⟩ :=
  ⟨[⟨0, 0⟩, ⟨1, 1⟩], [⟨0, 3⟩], rfl, by decide +kernel, by decide +kernel⟩

theorem degrees_range (v : ℝ) : 0 ≤ Real.arccos v * 180 / Real.pi ∧ Real.arccos v * 180 / Real.pi ≤ 180 := by
  have h1 := Real.arccos_nonneg v
  have h2 := Real.arccos_le_pi v
  have h3 := Real.pi_pos
  constructor
  · positivity
  · rw [div_le_iff₀ h3]
    linarith

/-- **C86.** Angles lie between 0 and 180 degrees. -/
theorem C86_range (edge : List Point) (right : Bool) (height : ℚ) (a : ℝ) (h : measureAngle edge right height = .ok (some a)) : 0 ≤ a ∧ a ≤ 180 := by
  unfold measureAngle at h
  cases edge with
  | nil => cases h
  | cons p0 rest =>
    simp only at h
    by_cases hc : (if right = true then -((pointAt (p0 :: rest) p0 height).x - p0.x) else (pointAt (p0 :: rest) p0 height).x - p0.x) = 0 ∧
        (pointAt (p0 :: rest) p0 height).y - p0.y = 0
    · rw [if_pos hc] at h
      cases h
    · rw [if_neg hc] at h
      simp only [Except.ok.injEq, Option.some.injEq] at h
      rw [← h]
      exact degrees_range _

theorem pointAt_map (g : Point → Point) (hg : ∀ p q : Point, (g p).y - (g q).y = p.y - q.y) (edge : List Point) (p : Point) (height : ℚ) :
    pointAt (edge.map g) (g p) height = g (pointAt edge p height) := by
  unfold pointAt
  rw [List.foldl_map]
  have : ∀ (l : List Point) (b : Point), l.foldl (fun best z => if |(g z).y - (g p).y - height| < |best.y - (g p).y - height| then g z else best) (g b) =
      g (l.foldl (fun best z => if |z.y - p.y - height| < |best.y - p.y - height| then z else best) b) := by
    intro l
    induction l with
    | nil => intro b; rfl
    | cons z l ih =>
      intro b
      simp only [List.foldl_cons, hg]
      rw [← ih]
      congr 1
      · simp only [hg]
      · split_ifs <;> rfl
  exact this edge p

/-- **C86.** The angle does not depend on the position of the interface. -/
theorem C86_moved (a b : ℚ) (edge : List Point) (right : Bool) (height : ℚ) :
    measureAngle (moveX a (moveY b edge)) right height = measureAngle edge right height := by
  cases edge with
  | nil => rfl
  | cons p rest =>
    have h := pointAt_map (fun p => ⟨p.x + a, p.y + b⟩) (fun p q => by simp) (p :: rest) p height
    have e : moveX a (moveY b (p :: rest)) = (p :: rest).map fun p => ⟨p.x + a, p.y + b⟩ := by
      simp [moveX, moveY]
    rw [e]
    unfold measureAngle
    simp only [List.map_cons] at h ⊢
    simp only [h, add_sub_add_right_eq_sub]

/-- **C86.** An edge and its mirror image, seen from the liquid, have the same angle. -/
theorem C86_mirror (edge : List Point) (right : Bool) (height : ℚ) :
    measureAngle (edge.map fun p => ⟨-p.x, p.y⟩) (!right) height = measureAngle edge right height := by
  cases edge with
  | nil => rfl
  | cons p rest =>
    have h := pointAt_map (fun p => ⟨-p.x, p.y⟩) (fun p q => rfl) (p :: rest) p height
    unfold measureAngle
    simp only [List.map_cons] at h ⊢
    simp only [h]
    have : (if (!right) = true then -(-(pointAt (p :: rest) p height).x - -p.x) else -(pointAt (p :: rest) p height).x - -p.x) =
        if right = true then -((pointAt (p :: rest) p height).x - p.x) else (pointAt (p :: rest) p height).x - p.x := by
      cases right <;> simp <;> ring
    rw [this]

theorem closest_le {edge : List Point} {p q : Point} {height : ℚ} (h : ClosestTo edge p height q) : ∀ x ∈ edge, |q.y - (p.y + height)| ≤ |x.y - (p.y + height)| := by
  obtain ⟨A, B, rfl, h1, h2⟩ := h
  intro x hx
  simp only [List.mem_append, List.mem_cons] at hx
  rcases hx with hx | rfl | hx
  · exact (h1 x hx).le
  · rfl
  · exact h2 x hx

/-- **C86.** With ascending heights the angle is undefined exactly if the height is at most half of that of the second layer over the first. -/
theorem C86_undefined (p q : Point) (rest : List Point) (hs : (p :: q :: rest).Pairwise fun a b => a.y < b.y) (right : Bool) (height : ℚ) :
    measureAngle (p :: q :: rest) right height = .ok none ↔ height ≤ (q.y - p.y) / 2 := by
  obtain ⟨c, hc⟩ := C86_closest p (q :: rest) height
  obtain ⟨hs1, hs2⟩ := List.pairwise_cons.mp hs
  rw [C86_measured p (q :: rest) (fun x hx => (hs1 x hx).le) right height c hc]
  have hpq : p.y < q.y := hs1 q (by simp)
  by_cases h : height ≤ (q.y - p.y) / 2
  · have hcp : ClosestTo (p :: q :: rest) p height p := by
      refine ⟨[], q :: rest, rfl, by simp, ?_⟩
      intro x hx
      have hx' : q.y ≤ x.y := by
        rcases List.mem_cons.mp hx with rfl | hx
        · rfl
        · exact ((List.pairwise_cons.mp hs2).1 x hx).le
      rw [show p.y - (p.y + height) = -height by ring, abs_neg]
      rcases abs_cases height with ⟨e, _⟩ | ⟨e, _⟩ <;> rw [e]
      · exact le_trans (by linarith) (le_abs_self _)
      · exact le_trans (by linarith) (le_abs_self _)
    rw [closestTo_unique hc hcp]
    simp [h]
  · have hne : c ≠ p := by
      rintro rfl
      have := closest_le hc q (by simp)
      rw [show c.y - (c.y + height) = -height by ring, abs_neg, abs_of_pos (by linarith)] at this
      rcases abs_cases (q.y - (c.y + height)) with ⟨e, _⟩ | ⟨e, _⟩ <;> rw [e] at this <;> linarith
    simp [hne, h]

example : measureAngle [⟨0, 0⟩, ⟨1, 1⟩] false (1 / 2) = .ok none ∧ measureAngle [⟨0, 0⟩, ⟨1, 1⟩] false (3 / 4) ≠ .ok none := by
  have h := C86_undefined ⟨0, 0⟩ ⟨1, 1⟩ [] (by decide +kernel) false
  exact ⟨(h _).mpr (by norm_num), fun hc => by have := (h _).mp hc; norm_num at this⟩

/-- **C86.** Straight edges are measured exactly: if all points lie on a line in direction `(a, b)`, seen from the liquid, the angle at any height
is that of the line, or undefined. -/
theorem C86_straight (p : Point) (rest : List Point) (right : Bool) (height a b : ℚ) (hb : 0 < b) (hup : ∀ q ∈ rest, p.y ≤ q.y)
    (hl : ∀ q ∈ rest, ((seen right q).x - (seen right p).x) * b = (q.y - p.y) * a) :
    measureAngle (p :: rest) right height = .ok none ∨
    measureAngle (p :: rest) right height = .ok (some (inclination ⟨0, 0⟩ ⟨a, b⟩)) := by
  obtain ⟨q, hq⟩ := C86_closest p rest height
  rw [C86_measured p rest hup right height q hq]
  by_cases h : q = p
  · left; rw [if_pos h]
  · right
    rw [if_neg h]
    have hm : q ∈ p :: rest := by
      obtain ⟨A, B, e, -, -⟩ := hq
      rw [e]
      simp
    have hm' : q ∈ rest := by
      rcases List.mem_cons.mp hm with h' | h'
      · exact absurd h' h
      · exact h'
    have hlq := hl q hm'
    have hyq : ∀ z : Point, (seen right z).y = z.y := by intro z; cases right <;> rfl
    have hy : p.y < q.y := by
      apply lt_of_le_of_ne (hup q hm')
      intro e
      apply h
      rw [e, sub_self, zero_mul] at hlq
      have : (seen right q).x = (seen right p).x := by
        rcases mul_eq_zero.mp hlq with h0 | h0
        · linarith
        · exact absurd h0 hb.ne'
      cases p
      cases q
      cases right <;> simp [seen] at this e ⊢ <;> exact ⟨this, e.symm⟩
    unfold inclination
    rw [hyq, hyq]
    have e1 : (((seen right q).x : ℝ) - ((seen right p).x : ℝ)) = ((q.y - p.y) / b : ℝ) * a := by
      have hb' : (b : ℝ) ≠ 0 := by exact_mod_cast hb.ne'
      field_simp
      exact_mod_cast hlq
    have e2 : ((q.y : ℝ) - (p.y : ℝ)) = ((q.y - p.y) / b : ℝ) * b := by
      have hb' : (b : ℝ) ≠ 0 := by exact_mod_cast hb.ne'
      field_simp
    have hr : (0 : ℝ) < ((q.y : ℝ) - p.y) / b := by
      apply div_pos
      · have : (p.y : ℝ) < (q.y : ℝ) := by exact_mod_cast hy
        linarith
      · exact_mod_cast hb
    obtain ⟨k, hk⟩ : ∃ k : ℝ, ((q.y : ℝ) - p.y) / b = k := ⟨_, rfl⟩
    rw [hk] at e1 e2 hr
    rw [e1, e2]
    have key : (((k * a : ℝ) : ℂ) + ((k * b : ℝ) : ℂ) * Complex.I) = ((k : ℝ) : ℂ) * (((a : ℝ) : ℂ) + ((b : ℝ) : ℂ) * Complex.I) := by
      push_cast
      ring
    rw [key, Complex.arg_real_mul _ hr]
    simp

/-- **C86.** The edges of a droplet given by its layers are its left and right points, from the bottom. -/
theorem C86_edges (t : List (ℚ × ℚ × ℚ)) (hs : (t.map fun e => e.2.2).Pairwise (· < ·)) :
    edgesOf (fromLayers t) = (t.map (fun e => ⟨e.1, e.2.2⟩), t.map fun e => ⟨e.2.1, e.2.2⟩) := by
  have hn : (fromLayers t).length / 2 = t.length := by simp [fromLayers]; omega
  unfold edgesOf
  simp only
  rw [hn]
  have h1 : (fromLayers t).take t.length = t.map fun e => ⟨e.1, e.2.2⟩ := by
    unfold fromLayers
    rw [List.take_append_of_le_length (by simp), List.take_of_length_le (by simp)]
  have h2 : (fromLayers t).reverse.take t.length = t.map fun e => ⟨e.2.1, e.2.2⟩ := by
    unfold fromLayers
    rw [List.reverse_append, List.reverse_reverse, List.take_append_of_le_length (by simp), List.take_of_length_le (by simp)]
  rw [h1, h2]
  rw [List.pairwise_map] at hs
  congr 1
  · exact List.Pairwise.insertionSort_eq (List.pairwise_map.mpr (hs.imp fun h => Or.inl h))
  · exact List.Pairwise.insertionSort_eq (List.pairwise_map.mpr (hs.imp fun h => Or.inl h))

/-- **C86.** The two angles of a droplet that is symmetric about a vertical line are equal. -/
theorem C86_symmetric (t : List (ℚ × ℚ × ℚ)) (hs : (t.map fun e => e.2.2).Pairwise (· < ·)) (c : ℚ) (hsym : ∀ e ∈ t, e.2.1 = c - e.1) (height : ℚ) :
    measureAngle (edgesOf (fromLayers t)).1 false height = measureAngle (edgesOf (fromLayers t)).2 true height := by
  rw [C86_edges t hs, ← C86_mirror _ false, ← C86_moved c 0]
  congr 1
  rw [moveX, moveY, List.map_map, List.map_map, List.map_map]
  apply List.map_congr_left
  intro e he
  simp [hsym e he]
  ring

example : measureAngle (edgesOf (fromLayers [(0, 6, 0), (1, 5, 1), (2, 4, 2)])).1 false 1 =
    measureAngle (edgesOf (fromLayers [(0, 6, 0), (1, 5, 1), (2, 4, 2)])).2 true 1 :=
  C86_symmetric _ (by decide +kernel) 6 (by decide +kernel) 1

/-! ## C87 -/

theorem tan_half {θ : ℝ} (h : Real.sin θ ≠ 0) : Real.tan (θ / 2) = (1 - Real.cos θ) / Real.sin θ := by
  have e : θ = 2 * (θ / 2) := by ring
  have hs : Real.sin θ = 2 * Real.sin (θ / 2) * Real.cos (θ / 2) := by conv_lhs => rw [e, Real.sin_two_mul]
  have hc : Real.cos θ = 1 - 2 * Real.sin (θ / 2) ^ 2 := by
    conv_lhs => rw [e, Real.cos_two_mul]
    have := Real.sin_sq_add_cos_sq (θ / 2)
    linarith
  have h1 : Real.cos (θ / 2) ≠ 0 := by
    intro h0
    apply h
    rw [hs, h0, mul_zero]
  have h2 : Real.sin (θ / 2) ≠ 0 := by
    intro h0
    apply h
    rw [hs, h0]
    ring
  rw [hs, hc, Real.tan_eq_sin_div_cos]
  field_simp
  ring

/-- **C87.** For a circular cap of radius `R` on a substrate at height 0 the fitted angle is the contact angle `θ` of the cap. -/
theorem C87_cap (l r : Point) (ls rs : List Point) (R θ : ℝ) (hR : 0 < R) (h0 : 0 < θ) (hpi : θ < Real.pi) (hl hr : ℚ)
    (hchord : ((r.x - l.x : ℚ) : ℝ) = 2 * R * Real.sin θ)
    (htop : npMax ((l :: ls).map (·.y)) = .ok hl) (htop' : npMax ((r :: rs).map (·.y)) = .ok hr) (hhl : (hl : ℝ) = R * (1 - Real.cos θ)) (hhr : (hr : ℝ) = R * (1 - Real.cos θ)) :
    fitAngle (l :: ls) (r :: rs) = .ok (θ * 180 / Real.pi) := by
  have hsin : 0 < Real.sin θ := Real.sin_pos_of_pos_of_lt_pi h0 hpi
  unfold fitAngle
  simp only
  rw [htop, Gmx.ok_bind, htop', Gmx.ok_bind]
  congr 1
  rw [hchord]
  have e : 2 * (((hl + hr) / 2 : ℚ) : ℝ) / (2 * R * Real.sin θ) = Real.tan (θ / 2) := by
    rw [tan_half hsin.ne']
    push_cast
    rw [hhl, hhr]
    field_simp
    ring
  rw [e, Real.arctan_tan (by linarith) (by linarith)]
  ring

/-- A cap of radius 5 with cos θ = 3/5: chord 8, height 2. -/
example : fitAngle [⟨-4, 0⟩, ⟨-3, 1⟩, ⟨0, 2⟩] [⟨4, 0⟩, ⟨3, 1⟩, ⟨0, 2⟩] = .ok (Real.arccos (3 / 5) * 180 / Real.pi) := by
  have hc : Real.cos (Real.arccos (3 / 5)) = 3 / 5 := Real.cos_arccos (by norm_num) (by norm_num)
  have hs : Real.sin (Real.arccos (3 / 5)) = 4 / 5 := by
    rw [Real.sin_arccos, show (1 : ℝ) - (3 / 5) ^ 2 = (4 / 5) ^ 2 by norm_num, Real.sqrt_sq (by norm_num)]
  refine C87_cap ⟨-4, 0⟩ ⟨4, 0⟩ _ _ 5 _ (by norm_num) (Real.arccos_pos.mpr (by norm_num)) ?_ 2 2 ?_ (by decide +kernel) (by decide +kernel) ?_ ?_
  · rw [Real.arccos_lt_pi]
    norm_num
  · rw [hs]; norm_num
  · rw [hc]; norm_num
  · rw [hc]; norm_num

/-- The angle depends on where the height 0 is: a half circle that does not begin at height 0 is not fitted with 90 degrees. -/
theorem C87_base_counterexample : fitAngle [⟨-1, 0⟩, ⟨0, 1⟩] [⟨1, 0⟩, ⟨0, 1⟩] = .ok 90 ∧
    ∀ b : ℚ, 0 < b → fitAngle (moveY b [⟨-1, 0⟩, ⟨0, 1⟩]) (moveY b [⟨1, 0⟩, ⟨0, 1⟩]) ≠ .ok 90 := by
  have key : ∀ b : ℚ, 0 ≤ b → fitAngle (moveY b [⟨-1, 0⟩, ⟨0, 1⟩]) (moveY b [⟨1, 0⟩, ⟨0, 1⟩]) =
      .ok (2 * (Real.arctan (1 + b) * 180 / Real.pi)) := by
    intro b hb
    have hm : npMax [0 + b, 1 + b] = .ok (1 + b) := by
      rw [npMax_ok_iff]
      refine ⟨by simp, ?_⟩
      intro x hx
      simp at hx
      rcases hx with rfl | rfl <;> linarith
    unfold fitAngle
    simp only [moveY, List.map_cons, List.map_nil]
    rw [hm, Gmx.ok_bind, Gmx.ok_bind]
    congr 4
    push_cast
    ring
  constructor
  · have := key 0 le_rfl
    simp only [moveY, add_zero, List.map_cons, List.map_nil] at this
    rw [this]
    simp only [Rat.cast_zero, add_zero, Real.arctan_one]
    congr 1
    have := Real.pi_pos.ne'
    field_simp
    norm_num
  · intro b hb h
    rw [key b hb.le] at h
    have h1 : Real.arctan 1 < Real.arctan (1 + b) := Real.arctan_strictMono (by
      have : (0 : ℝ) < b := by exact_mod_cast hb
      linarith)
    rw [Real.arctan_one] at h1
    simp only [Except.ok.injEq] at h
    have hp := Real.pi_pos
    have : 2 * (Real.arctan (1 + b) * 180 / Real.pi) > 90 := by
      rw [gt_iff_lt, ← sub_pos]
      have : 2 * (Real.arctan (1 + b) * 180 / Real.pi) - 90 = 360 * (Real.arctan (1 + b) - Real.pi / 4) / Real.pi := by
        field_simp
        ring
      rw [this]
      apply div_pos _ hp
      linarith
    linarith

/-! ## C88 -/

/-- **C88.** The time of a sample is that of its file, also if other files are skipped because they have no sample (`TypeError`). -/
theorem C88_times {α γ : Type} (sample : γ → Except Err α) (dt : ℚ) (files : List γ)
    (h : ∀ f ∈ files, ∀ e, sample f = .error e → e = .typeError) :
    sampleLoop sample dt 0 files =
      (files.zipIdx.filterMap fun fk => match sample fk.1 with | .ok v => some (((fk.2 : ℕ) : ℚ) * dt, v) | .error _ => none, .ok ()) := by
  suffices H : ∀ k, sampleLoop sample dt k files =
      ((files.zipIdx k).filterMap fun fk => match sample fk.1 with | .ok v => some (((fk.2 : ℕ) : ℚ) * dt, v) | .error _ => none, .ok ()) from H 0
  induction files with
  | nil => intro k; rfl
  | cons f fs ih =>
    intro k
    have ih' := ih (fun g hg => h g (by simp [hg])) (k + 1)
    rw [sampleLoop, List.zipIdx_cons]
    cases hs : sample f with
    | ok v =>
      rw [List.filterMap_cons_some (b := ((k : ℚ) * dt, v)) (by simp [hs])]
      simp only
      rw [ih']
    | error e =>
      obtain rfl := h f (by simp) e hs
      rw [List.filterMap_cons_none (by simp [hs])]
      simp only
      rw [ih']

/-- **C88.** Any other error ends the call with that error; the samples of the files before it have been written. -/
theorem C88_error {α γ : Type} (sample : γ → Except Err α) (dt : ℚ) (before : List γ) (f : γ) (after : List γ) (e : Err)
    (h : ∀ g ∈ before, ∀ e', sample g = .error e' → e' = .typeError) (hf : sample f = .error e) (he : e ≠ .typeError) :
    sampleLoop sample dt 0 (before ++ f :: after) = ((sampleLoop sample dt 0 before).1, .error e) := by
  suffices H : ∀ k, sampleLoop sample dt k (before ++ f :: after) = ((sampleLoop sample dt k before).1, .error e) from H 0
  induction before with
  | nil =>
    intro k
    rw [List.nil_append, sampleLoop, sampleLoop, hf]
    cases e <;> first | rfl | exact absurd rfl he
  | cons g gs ih =>
    intro k
    have ih' := ih (fun x hx => h x (by simp [hx])) (k + 1)
    rw [List.cons_append, sampleLoop, sampleLoop]
    cases hs : sample g with
    | ok v => simp only [ih']
    | error e' =>
      obtain rfl := h g (by simp) e' hs
      simp only [ih']

example : sampleLoop (fun n : ℕ => if n = 0 then (.error .typeError : Except Err ℕ) else if n = 9 then .error .indexError else .ok n) (1 / 2) 0 [0, 7, 9, 3] =
    ([(1 / 2, 7)], .error .indexError) := by decide +kernel

/-- **C88.** The areas of collected interfaces: one per file, `delta_t` apart. -/
theorem C88_collected_areas (c : Centre) (o : Interface.Opts) (maps : List Flow) (dt : ℚ) :
    sampleLoop (fun pts : List Point => area (pts.map Point.x) (pts.map Point.y)) dt 0 (collectInterfaces c o none maps).1 =
      ((collectInterfaces c o none maps).1.zipIdx.map fun fk => (((fk.2 : ℕ) : ℚ) * dt, polygonArea fk.1), .ok ()) := by
  have harea : ∀ f ∈ (collectInterfaces c o none maps).1, area (f.map Point.x) (f.map Point.y) = .ok (polygonArea f) := by
    intro f hf
    obtain ⟨ys, -, -, -, h⟩ := collect_good c o maps none (by simp [Good]) f hf
    obtain ⟨t, rfl, -⟩ := ring_of_outline f ys h
    rw [area_ring, polygonArea_ring]
  rw [C88_times _ dt _ (fun f hf e he => by rw [harea f hf] at he; cases he)]
  congr 1
  rw [← congrFun (List.filterMap_eq_map (f := fun fk : List Point × ℕ => (((fk.2 : ℕ) : ℚ) * dt, polygonArea fk.1))) _]
  apply List.filterMap_congr
  rintro ⟨f, k⟩ hfk
  have hf : f ∈ (collectInterfaces c o none maps).1 := by
    have h := (List.mem_zipIdx hfk).2.2
    rw [h]
    exact List.getElem_mem _
  simp only [harea f hf, Function.comp]

theorem contactAngles_rows {fit : Bool} {height : Option ℚ} {files : List (List Point)} {rows : List (Option ℝ × Option (Option ℝ × Option ℝ))}
    (h : files.mapM (angleRow fit height) = .ok rows) : List.Forall₂ (fun f r => angleRow fit height f = .ok r) files rows := by
  induction files generalizing rows with
  | nil => rw [List.mapM_nil] at h; cases h; exact .nil
  | cons f fs ih =>
    rw [List.mapM_cons] at h
    obtain ⟨r, hr, h⟩ := Simple.bind_eq_ok h
    obtain ⟨rs, hrs, h⟩ := Simple.bind_eq_ok h
    cases h
    exact .cons hr (ih hrs)

theorem angleRow_measured {fit : Bool} {h : ℚ} {pts : List Point} {r : Option ℝ × Option (Option ℝ × Option ℝ)} (hr : angleRow fit (some h) pts = .ok r) :
    ∃ a b, measureAngle (edgesOf pts).1 false h = .ok a ∧ measureAngle (edgesOf pts).2 true h = .ok b ∧ r.2 = some (a, b) := by
  unfold angleRow at hr
  obtain ⟨f, -, hr⟩ := Simple.bind_eq_ok hr
  obtain ⟨a, ha, hr⟩ := Simple.bind_eq_ok hr
  obtain ⟨b, hb, hr⟩ := Simple.bind_eq_ok hr
  cases hr
  exact ⟨a, b, ha, hb, rfl⟩

theorem angleRow_fit {height : Option ℚ} {pts : List Point} {r : Option ℝ × Option (Option ℝ × Option ℝ)} (hr : angleRow true height pts = .ok r) :
    ∃ v, fitAngle (edgesOf pts).1 (edgesOf pts).2 = .ok v ∧ r.1 = some v := by
  unfold angleRow at hr
  obtain ⟨f, hf, hr⟩ := Simple.bind_eq_ok hr
  unfold fitIf at hf
  simp only [if_true] at hf
  cases hv : fitAngle (edgesOf pts).1 (edgesOf pts).2 with
  | error e => rw [hv] at hf; cases hf
  | ok v =>
    rw [hv] at hf
    obtain rfl : some v = f := by simpa [Except.map] using hf
    refine ⟨v, rfl, ?_⟩
    split at hr
    · cases hr; rfl
    · obtain ⟨a, -, hr⟩ := Simple.bind_eq_ok hr
      obtain ⟨b, -, hr⟩ := Simple.bind_eq_ok hr
      cases hr; rfl

theorem filterMap_all {α β : Type} {g : α → Option β} {R : γ → β → Prop} {l : List γ} {rows : List α}
    (h : List.Forall₂ (fun c r => ∃ b, g r = some b ∧ R c b) l rows) : List.Forall₂ R l (rows.filterMap g) := by
  induction h with
  | nil => exact .nil
  | cons h _ ih =>
    obtain ⟨b, hb, hR⟩ := h
    rw [List.filterMap_cons_some hb]
    exact .cons hR ih

/-- **C88.** With a height, there is one time and one angle per edge and file, in the order of the files and `delta_t` apart; `measured` is the mean of
both edges and undefined if one of them is. -/
theorem C88_measured_angles (fit : Bool) (h dt : ℚ) (files : List (List Point)) (times : List ℚ) (A : Angles)
    (hok : contactAngles fit (some h) dt files = .ok (times, A)) :
    times = ((List.range files.length).map fun i : ℕ => (i : ℚ) * dt) ∧
    List.Forall₂ (fun f a => measureAngle (edgesOf f).1 false h = .ok a) files A.left ∧
    List.Forall₂ (fun f a => measureAngle (edgesOf f).2 true h = .ok a) files A.right ∧
    List.Forall₂ (fun f m => ∃ a b, measureAngle (edgesOf f).1 false h = .ok a ∧ measureAngle (edgesOf f).2 true h = .ok b ∧
      ((∀ x y, a = some x → b = some y → m = some ((x + y) / 2)) ∧ (a = none ∨ b = none → m = none))) files A.measured := by
  unfold contactAngles at hok
  obtain ⟨rows, hrows, hok⟩ := Simple.bind_eq_ok hok
  have hF := contactAngles_rows hrows
  simp only [Except.ok.injEq, Prod.mk.injEq] at hok
  obtain ⟨ht, rfl⟩ := hok
  have hs : List.Forall₂ (fun f (e : Option ℝ × Option ℝ) => measureAngle (edgesOf f).1 false h = .ok e.1 ∧ measureAngle (edgesOf f).2 true h = .ok e.2)
      files (rows.filterMap Prod.snd) := by
    apply filterMap_all
    apply hF.imp
    intro f r hr
    obtain ⟨a, b, ha, hb, he⟩ := angleRow_measured hr
    exact ⟨(a, b), he, ha, hb⟩
  refine ⟨?_, ?_, ?_, ?_⟩
  · rw [← ht]
    simp only [Option.isSome_some, if_true]
    rw [hs.length_eq]
  · rw [List.forall₂_map_right_iff]
    exact hs.imp fun f e he => he.1
  · rw [List.forall₂_map_right_iff]
    exact hs.imp fun f e he => he.2
  · rw [List.forall₂_map_right_iff]
    apply hs.imp
    rintro f ⟨a, b⟩ ⟨ha, hb⟩
    refine ⟨a, b, ha, hb, ?_, ?_⟩
    · rintro x y rfl rfl
      rfl
    · rintro (rfl | rfl)
      · rfl
      · cases a <;> rfl

/-- **C88.** With the fit, one fitted angle per file; without a height the times belong to them. -/
theorem C88_fitted_angles (height : Option ℚ) (dt : ℚ) (files : List (List Point)) (times : List ℚ) (A : Angles)
    (hok : contactAngles true height dt files = .ok (times, A)) :
    List.Forall₂ (fun f a => fitAngle (edgesOf f).1 (edgesOf f).2 = .ok a) files A.fit ∧
    times = (List.range files.length).map fun i : ℕ => (i : ℚ) * dt := by
  have hok' := hok
  unfold contactAngles at hok
  obtain ⟨rows, hrows, hok⟩ := Simple.bind_eq_ok hok
  have hF := contactAngles_rows hrows
  simp only [Except.ok.injEq, Prod.mk.injEq] at hok
  obtain ⟨ht, rfl⟩ := hok
  have hs : List.Forall₂ (fun f a => fitAngle (edgesOf f).1 (edgesOf f).2 = .ok a) files (rows.filterMap Prod.fst) := by
    apply filterMap_all
    apply hF.imp
    intro f r hr
    obtain ⟨v, hv, he⟩ := angleRow_fit hr
    exact ⟨v, he, hv⟩
  refine ⟨hs, ?_⟩
  cases height with
  | some h => exact (C88_measured_angles true h dt files times _ hok').1
  | none =>
    rw [← ht]
    simp only [Option.isSome_none, Bool.false_eq_true, if_false, if_true]
    rw [hs.length_eq]

/-- Two droplets; the calls succeed. -/
theorem exAngles_ok : ∃ r, contactAngles true (some 1) 10 [fromLayers [(0, 6, 0), (1, 5, 1), (2, 4, 2)], fromLayers [(0, 6, 0), (0, 6, 1)]] = .ok r := by
  unfold contactAngles
  rw [List.mapM_cons, List.mapM_cons, List.mapM_nil]
  unfold angleRow fitIf
  rw [C86_edges _ (by decide +kernel), C86_edges _ (by decide +kernel)]
  simp only [List.map_cons, List.map_nil, if_true]
  have m1 : npMax [0, 1, 2] = .ok 2 := by decide +kernel
  have m2 : npMax [0, 1] = .ok 1 := by decide +kernel
  have hm : ∀ (p : Point) (rest : List Point) (b : Bool), ∃ a, measureAngle (p :: rest) b 1 = .ok a := by
    intro p rest b
    unfold measureAngle
    simp only
    by_cases hc : (if b = true then -((pointAt (p :: rest) p 1).x - p.x) else (pointAt (p :: rest) p 1).x - p.x) = 0 ∧ (pointAt (p :: rest) p 1).y - p.y = 0
    · exact ⟨none, if_pos hc⟩
    · exact ⟨_, if_neg hc⟩
  obtain ⟨a1, h1⟩ := hm ⟨0, 0⟩ [⟨1, 1⟩, ⟨2, 2⟩] false
  obtain ⟨a2, h2⟩ := hm ⟨6, 0⟩ [⟨5, 1⟩, ⟨4, 2⟩] true
  obtain ⟨a3, h3⟩ := hm ⟨0, 0⟩ [⟨0, 1⟩] false
  obtain ⟨a4, h4⟩ := hm ⟨6, 0⟩ [⟨6, 1⟩] true
  rw [h1, h2, h3, h4]
  unfold fitAngle
  simp only [List.map_cons, List.map_nil, m1, m2]
  exact ⟨_, rfl⟩

end Strata.InterfaceFiles
