import Verif.Props.Rigid
import Verif.Props.SampleAngleAll
/-! # C168: sampling by direction on maps that are moved or turned -/
namespace Strata.Sample
open Strata Strata.Flow Strata.Average

/-- The motion turns everything through `α` degrees, counter-clockwise (and may displace it); with `α = 0` it only displaces. -/
def TurnsBy (m : Rigid) (α : ℚ) : Prop :=
  (m.a : ℝ) = Real.cos (α * Real.pi / 180) ∧ (m.b : ℝ) = -Real.sin (α * Real.pi / 180) ∧
  (m.c : ℝ) = Real.sin (α * Real.pi / 180) ∧ (m.d : ℝ) = Real.cos (α * Real.pi / 180)

/-- The bin in row `t` is on the half-line from the origin to the left. -/
def OnNegativeAxis (f : Flow) (o : ℚ × ℚ) (t : ℕ) : Prop := (offset f.data ("X", "Y") o t).2 = 0 ∧ (offset f.data ("X", "Y") o t).1 < 0

theorem IsDirection.turn {m : Rigid} {α : ℚ} (h : TurnsBy m α) {d : ℚ × ℚ} {θ : ℝ} (hd : IsDirection d θ) (h0 : 0 ≤ θ + α) (h1 : θ + α < 360) : IsDirection (m.vec d) (θ + α) := by
  obtain ⟨-, -, r, hr, e1, e2⟩ := hd
  obtain ⟨a, b, c, e⟩ := h
  refine ⟨h0, h1, r, hr, ?_, ?_⟩
  · rw [show (θ + α) * Real.pi / 180 = θ * Real.pi / 180 + α * Real.pi / 180 by ring, Real.cos_add]
    simp only [Rigid.vec]
    push_cast
    rw [a, b, e1, e2]
    ring
  · rw [show (θ + α) * Real.pi / 180 = θ * Real.pi / 180 + α * Real.pi / 180 by ring, Real.sin_add]
    simp only [Rigid.vec]
    push_cast
    rw [c, e, e1, e2]
    ring

theorem IsDirection.turn_back {m : Rigid} {α : ℚ} (h : TurnsBy m α) {d : ℚ × ℚ} {θ : ℝ} (hd : IsDirection (m.vec d) (θ + α)) (h0 : 0 ≤ θ) (h1 : θ < 360) : IsDirection d θ := by
  obtain ⟨-, -, r, hr, e1, e2⟩ := hd
  obtain ⟨a, b, c, e⟩ := h
  rw [show (θ + α) * Real.pi / 180 = θ * Real.pi / 180 + α * Real.pi / 180 by ring] at e1 e2
  rw [Real.cos_add] at e1
  rw [Real.sin_add] at e2
  simp only [Rigid.vec] at e1 e2
  push_cast at e1 e2
  rw [a, b] at e1
  rw [c, e] at e2
  have hs := Real.sin_sq_add_cos_sq ((α : ℝ) * Real.pi / 180)
  refine ⟨h0, h1, r, hr, ?_, ?_⟩
  · generalize Real.cos ((α : ℝ) * Real.pi / 180) = C at *
    generalize Real.sin ((α : ℝ) * Real.pi / 180) = S at *
    linear_combination C * e1 + S * e2 + (r * Real.cos (θ * Real.pi / 180) - d.1) * hs
  · generalize Real.cos ((α : ℝ) * Real.pi / 180) = C at *
    generalize Real.sin ((α : ℝ) * Real.pi / 180) = S at *
    linear_combination C * e2 - S * e1 + (r * Real.sin (θ * Real.pi / 180) - d.2) * hs

/-- `TakenIn`, for a bin that is seen at `d` from the origin. -/
def TakenAt (d : ℚ × ℚ) (amin amax rmin : ℚ) (rmax : Option ℚ) (size : ℚ) (k : ℕ) : Prop :=
  (∃ ρ : ℝ, 0 ≤ ρ ∧ ρ ^ 2 = (d.1 : ℝ) ^ 2 + (d.2 : ℝ) ^ 2 ∧ (rmin : ℝ) ≤ ρ ∧ ∀ m, rmax = some m → ρ ≤ (m : ℝ)) ∧
  ∃ θ, TakenDirection d θ ∧ (amin : ℝ) ≤ θ ∧ θ ≤ (amax : ℝ) ∧ (amin : ℝ) + size * k < θ + 1 / 1000000 ∧ θ + 1 / 1000000 ≤ (amin : ℝ) + size * (k + 1)

theorem radius_turn (m : Rigid) (d : ℚ × ℚ) : ((m.vec d).1 : ℝ) ^ 2 + ((m.vec d).2 : ℝ) ^ 2 = (d.1 : ℝ) ^ 2 + (d.2 : ℝ) ^ 2 := by exact_mod_cast m.vec_sq d

theorem takenAt_turn {m : Rigid} {α : ℚ} (h : TurnsBy m α) {d : ℚ × ℚ} {A B rmin : ℚ} {rmax : Option ℚ} {size : ℚ} {k : ℕ} (hn : α ≠ 0 → ¬ (d.2 = 0 ∧ d.1 < 0) ∧ ¬ ((m.vec d).2 = 0 ∧ (m.vec d).1 < 0))
    (h0 : 0 ≤ A) (h1 : 0 ≤ A + α) (h2 : B < 360) (h3 : B + α < 360) : TakenAt (m.vec d) (A + α) (B + α) rmin rmax size k ↔ TakenAt d A B rmin rmax size k := by
  unfold TakenAt
  rw [radius_turn]
  refine and_congr_right fun _ => ?_
  have h0' : (0 : ℝ) ≤ A := by exact_mod_cast h0
  have h1' : (0 : ℝ) ≤ A + α := by exact_mod_cast h1
  have h2' : (B : ℝ) < 360 := by exact_mod_cast h2
  have h3' : (B : ℝ) + α < 360 := by exact_mod_cast h3
  by_cases hα : α = 0
  · subst hα
    obtain ⟨a, b, c, e⟩ := h
    have hv : m.vec d = d := by
      have ha : m.a = 1 := by have : (m.a : ℝ) = 1 := by rw [a]; simp
                              exact_mod_cast this
      have hb : m.b = 0 := by have : (m.b : ℝ) = 0 := by rw [b]; simp
                              exact_mod_cast this
      have hc : m.c = 0 := by have : (m.c : ℝ) = 0 := by rw [c]; simp
                              exact_mod_cast this
      have hd : m.d = 1 := by have : (m.d : ℝ) = 1 := by rw [e]; simp
                              exact_mod_cast this
      simp [Rigid.vec, ha, hb, hc, hd]
    rw [hv, add_zero, add_zero]
  obtain ⟨n1, n2⟩ := hn hα
  push_cast
  constructor
  · rintro ⟨θ, ht, p1, p2, p3, p4⟩
    rcases ht with ⟨x, y, -⟩ | ⟨-, ht⟩
    · exact absurd ⟨x, y⟩ n2
    refine ⟨θ - α, .inr ⟨n1, IsDirection.turn_back h (by rw [sub_add_cancel]; exact ht) (by linarith) (by linarith)⟩, by linarith, by linarith, by linarith, by linarith⟩
  · rintro ⟨θ, ht, p1, p2, p3, p4⟩
    rcases ht with ⟨x, y, -⟩ | ⟨-, ht⟩
    · exact absurd ⟨x, y⟩ n1
    refine ⟨θ + α, .inr ⟨n2, ht.turn h (by linarith) (by linarith)⟩, by linarith, by linarith, by linarith, by linarith⟩

open Classical in
/-- A sum over rows as a sum over bins. -/
theorem sum_rows (r : Record) (P : ℕ → Prop) (F : ℕ → ℚ) (P' : Bin → Prop) (F' : Bin → ℚ) (hP : ∀ t, t < Flow.size r → (P t ↔ P' (binAt r t))) (hF : ∀ t, t < Flow.size r → F t = F' (binAt r t)) :
    ∑ t ∈ (Finset.range (Flow.size r)).filter P, F t = ((Flow.bins r).map fun b => if P' b then F' b else 0).sum := by
  rw [Finset.sum_filter, Finset.sum_range]
  unfold Flow.bins
  rw [List.map_map, ← List.sum_ofFn, List.ofFn_eq_map, ← List.map_coe_finRange_eq_range, List.map_map]
  refine congrArg List.sum (List.map_congr_left fun t _ => ?_)
  simp only [Function.comp_apply]
  rw [hF t t.2]
  by_cases h : P t
  · rw [if_pos h, if_pos ((hP t t.2).mp h)]
  · rw [if_neg h, if_neg fun h' => h ((hP t t.2).mpr h')]

theorem val_bin_of {r : Record} {l : Label} (hl : l ∈ names r) (t : ℕ) : val r l t = valueOf l (binAt r t) := by
  obtain ⟨c, hc, -⟩ := field_ok hl
  rw [← getD_valueOf hc, val_of_col hc]

/-- **C168, turned maps.**  When a map is turned about any point through `α` degrees and displaced, and sampled from the moved origin within the turned limits, the same values are found at the turned angles.
(Missing, unless `α = 0`: bins on the negative x axis as seen from the origin, before or after the turn, see the counterexample; limits within the range 0 to 360 − size in both maps.) -/
theorem C168_turned_partial {m : Rigid} {f f' : Flow} (h : Moved m f f') (α : ℚ) (hα : TurnsBy m α) (o : ℚ × ℚ) (label : Label) (hl : label ∈ names f.data) (hlx : label ∉ ["X", "Y", "U", "V"])
    (weight : Option Label) (hw : ∀ w, weight = some w → w ∈ names f.data ∧ w ∉ ["X", "Y", "U", "V"]) (amin amax rmin : ℚ) (rmax : Option ℚ) (size : ℚ) (hsz : 1 / 1000000 ≤ size)
    (h0 : 0 ≤ amin) (h1 : 0 ≤ amin + α) (h2 : amax ≤ 360 - size) (h3 : amax + α ≤ 360 - size)
    (hneg : α ≠ 0 → (∀ t, t < Flow.size f.data → ¬ OnNegativeAxis f o t) ∧ ∀ t, t < Flow.size f'.data → ¬ OnNegativeAxis f' (m.pos o) t) :
    ∃ out, perAngle f o label ("X", "Y") weight amin amax rmin rmax size = .ok out ∧
      perAngle f' (m.pos o) label ("X", "Y") weight (amin + α) (amax + α) rmin rmax size = .ok (out.map fun p => (p.1 + α, p.2)) := by
  classical
  have hs : ∀ l ∈ names f.data, l ∈ names f'.data := fun l hl => h.fields ▸ hl
  have hsz0 : 0 < size := lt_of_lt_of_le (by norm_num) hsz
  refine ⟨_, perAngle_eq f o label ("X", "Y") weight amin amax rmin rmax size hsz0 (h.has "X" (by decide)) (h.has "Y" (by decide)) hl fun w e => (hw w e).1, ?_⟩
  rw [perAngle_eq f' (m.pos o) label ("X", "Y") weight (amin + α) (amax + α) rmin rmax size hsz0 (hs _ (h.has "X" (by decide))) (hs _ (h.has "Y" (by decide))) (hs _ hl) fun w e => hs _ (hw w e).1]
  rw [max_eq_right h0, max_eq_right h1, min_eq_right h2, min_eq_right h3, List.map_map]
  have hnum : numIntervals (amin + α) (amax + α) size = numIntervals amin amax size := by
    unfold numIntervals
    rw [show amax + α + size - (amin + α) = amax + size - amin by ring]
  rw [hnum]
  refine congrArg _ (List.map_congr_left fun k _ => ?_)
  simp only [Function.comp_apply]
  rw [Prod.mk.injEq]
  refine ⟨by ring, ?_⟩
  have x1 : "X" ∈ names f.data := h.has "X" (by decide)
  have y1 : "Y" ∈ names f.data := h.has "Y" (by decide)
  let off : ℚ × ℚ → Bin → ℚ × ℚ := fun p b => (valueOf "X" b - p.1, valueOf "Y" b - p.2)
  let wt : Bin → ℚ := fun b => weight.elim 1 fun w => valueOf w b
  have hP : ∀ t, t < Flow.size f.data → (Assigned f.data ("X", "Y") o amin amax rmin rmax size k t ↔ TakenAt (off o (binAt f.data t)) amin amax rmin rmax size k) := by
    intro t _
    rw [assigned_taken _ _ _ _ _ _ _ _ hsz]
    unfold TakenIn TakenAt InRadius offset
    simp only [off, ← val_bin_of x1, ← val_bin_of y1]
  have hP' : ∀ t, t < Flow.size f'.data → (Assigned f'.data ("X", "Y") (m.pos o) (amin + α) (amax + α) rmin rmax size k t ↔ TakenAt (off (m.pos o) (binAt f'.data t)) (amin + α) (amax + α) rmin rmax size k) := by
    intro t _
    rw [assigned_taken _ _ _ _ _ _ _ _ hsz]
    unfold TakenIn TakenAt InRadius offset
    simp only [off, ← val_bin_of (hs _ x1), ← val_bin_of (hs _ y1)]
  have hwt : ∀ t, (weight.elim 1 fun w => val f.data w t) = wt (binAt f.data t) := by
    intro t
    cases weight with
    | none => rfl
    | some w => exact val_bin_of (hw w rfl).1 t
  have hwt' : ∀ t, (weight.elim 1 fun w => val f'.data w t) = wt (binAt f'.data t) := by
    intro t
    cases weight with
    | none => rfl
    | some w => exact val_bin_of (hs _ (hw w rfl).1) t
  have hbin : ∀ b ∈ Flow.bins f.data, (TakenAt (off (m.pos o) (m.bin b)) (amin + α) (amax + α) rmin rmax size k ↔ TakenAt (off o b) amin amax rmin rmax size k) ∧
      valueOf label (m.bin b) = valueOf label b ∧ wt (m.bin b) = wt b := by
    intro b hb
    refine ⟨?_, m.valueOf_other _ hlx, ?_⟩
    · have hoff : off (m.pos o) (m.bin b) = m.vec (off o b) := by
        have hv := (h.values hb).1
        rw [Prod.mk.injEq] at hv
        simp only [off]
        rw [hv.1, hv.2]
        simp only [Rigid.pos, Rigid.vec]
        rw [Prod.mk.injEq]
        constructor <;> ring
      rw [hoff]
      refine takenAt_turn hα (fun ha => ?_) h0 h1 (by linarith) (by linarith)
      obtain ⟨n1, n2⟩ := hneg ha
      obtain ⟨t, ht, rfl⟩ := List.mem_map.mp hb
      rw [List.mem_range] at ht
      obtain ⟨t', ht'⟩ := (C163_bins h).1 t ht
      constructor
      · intro hc
        refine n1 t ht ?_
        unfold OnNegativeAxis offset
        simp only [off] at hc
        rw [val_bin_of x1, val_bin_of y1]
        exact hc
      · intro hc
        refine n2 t' ht'.2.1 ?_
        unfold OnNegativeAxis offset
        rw [val_bin_of (hs _ x1), val_bin_of (hs _ y1), ht'.2.2]
        rw [← hoff] at hc
        exact hc
    · simp only [wt]
      cases weight with
      | none => rfl
      | some w => exact m.valueOf_other _ (hw w rfl).2
  unfold meanOf
  let T : Bin → Prop := fun b => TakenAt (off o b) amin amax rmin rmax size k
  let T' : Bin → Prop := fun b => TakenAt (off (m.pos o) b) (amin + α) (amax + α) rmin rmax size k
  rw [sum_rows f.data _ _ T wt hP fun t _ => hwt t, sum_rows f'.data _ _ T' wt hP' fun t _ => hwt' t,
    sum_rows f.data _ _ T (fun b => valueOf label b * wt b) hP fun t _ => by rw [val_bin_of hl]; exact congrArg _ (hwt t),
    sum_rows f'.data _ _ T' (fun b => valueOf label b * wt b) hP' fun t _ => by rw [val_bin_of (hs _ hl)]; exact congrArg _ (hwt' t)]
  simp only [T, T']
  have e1 : ((Flow.bins f'.data).map fun b => if TakenAt (off (m.pos o) b) (amin + α) (amax + α) rmin rmax size k then wt b else 0).sum =
      ((Flow.bins f.data).map fun b => if TakenAt (off o b) amin amax rmin rmax size k then wt b else 0).sum := by
    refine h.sum' _ _ fun b hb => ?_
    obtain ⟨q1, q2, q3⟩ := hbin b hb
    simp only [q1, q3]
  have e2 : ((Flow.bins f'.data).map fun b => if TakenAt (off (m.pos o) b) (amin + α) (amax + α) rmin rmax size k then valueOf label b * wt b else 0).sum =
      ((Flow.bins f.data).map fun b => if TakenAt (off o b) amin amax rmin rmax size k then valueOf label b * wt b else 0).sum := by
    refine h.sum' _ _ fun b hb => ?_
    obtain ⟨q1, q2, q3⟩ := hbin b hb
    simp only [q1, q2, q3]
  rw [e1, e2]

theorem perAngle_limits (f : Flow) (o : ℚ × ℚ) (label : Label) (co : Label × Label) (weight : Option Label) (amin amax rmin : ℚ) (rmax : Option ℚ) (size : ℚ) :
    perAngle f o label co weight amin amax rmin rmax size = perAngle f o label co weight (max 0 amin) (min (360 - size) amax) rmin rmax size := by
  unfold perAngle
  simp only [max_eq_right (le_max_left (0 : ℚ) amin), min_eq_right (min_le_left (360 - size) amax)]

/-- **C168, displaced maps.**  When a map is displaced, and sampled from the displaced origin, the result is the same, for all limits and all bins. -/
theorem C168_displaced {m : Rigid} {f f' : Flow} (h : Moved m f f') (hm : m.a = 1 ∧ m.b = 0 ∧ m.c = 0 ∧ m.d = 1) (o : ℚ × ℚ) (label : Label) (hl : label ∈ names f.data)
    (hlx : label ∉ ["X", "Y", "U", "V"]) (weight : Option Label) (hw : ∀ w, weight = some w → w ∈ names f.data ∧ w ∉ ["X", "Y", "U", "V"]) (amin amax rmin : ℚ) (rmax : Option ℚ) (size : ℚ)
    (hsz : 1 / 1000000 ≤ size) :
    perAngle f' (o.1 + m.tx, o.2 + m.ty) label ("X", "Y") weight amin amax rmin rmax size = perAngle f o label ("X", "Y") weight amin amax rmin rmax size := by
  have ht : TurnsBy m 0 := by
    obtain ⟨a, b, c, d⟩ := hm
    unfold TurnsBy
    rw [a, b, c, d]
    simp
  have hp : m.pos o = (o.1 + m.tx, o.2 + m.ty) := by
    obtain ⟨a, b, c, d⟩ := hm
    unfold Rigid.pos
    rw [a, b, c, d]
    simp
  obtain ⟨out, h1, h2⟩ := C168_turned_partial h 0 ht o label hl hlx weight hw (max 0 amin) (min (360 - size) amax) rmin rmax size hsz (le_max_left _ _) (by rw [add_zero]; exact le_max_left _ _)
    (min_le_left _ _) (by rw [add_zero]; exact min_le_left _ _) (fun hc => absurd rfl hc)
  rw [add_zero, add_zero, ← perAngle_limits, hp] at h2
  rw [← perAngle_limits] at h1
  rw [h1, h2]
  simp

/-- A quarter turn to the left is a turn through 90 degrees. -/
theorem exQuarter_turns : TurnsBy exQuarter 90 := by
  unfold TurnsBy exQuarter
  rw [show ((90 : ℚ) : ℝ) * Real.pi / 180 = Real.pi / 2 by push_cast; ring, Real.cos_pi_div_two, Real.sin_pi_div_two]
  simp

/-- Two bins, in the directions of (2, 1) and (1, 2). -/
def exAngles : Flow := ⟨[("X", [2, 1]), ("Y", [1, 2]), ("U", [0, 0]), ("V", [1, 1]), ("M", [3, 5])], {}⟩
/-- The same after a quarter turn, stored in the other order. -/
def exAnglesMoved : Flow := ⟨[("X", [-2, -1]), ("Y", [1, 2]), ("U", [-1, -1]), ("V", [0, 0]), ("M", [5, 3])], {}⟩

/-- A case that meets the hypotheses. -/
example : ∃ out, perAngle exAngles (0, 0) "M" ("X", "Y") none 0 90 0 none 45 = .ok out ∧
    perAngle exAnglesMoved (0, 0) "M" ("X", "Y") none 90 180 0 none 45 = .ok (out.map fun p => (p.1 + 90, p.2)) := by
  have hm : Moved exQuarter exAngles exAnglesMoved := ⟨⟨by decide, by decide⟩, ⟨by decide, by decide⟩, rfl, by decide, by decide +kernel⟩
  have hq : exQuarter.pos (0, 0) = (0, 0) := by decide +kernel
  have := C168_turned_partial hm 90 exQuarter_turns (0, 0) "M" (by decide) (by decide) none (by simp) 0 90 0 none 45 (by norm_num) (by norm_num) (by norm_num) (by norm_num) (by norm_num) (fun _ => by
    rw [hq]
    unfold OnNegativeAxis
    constructor
    · have : ∀ t : ℕ, t < 2 → ¬ ((offset exAngles.data ("X", "Y") (0, 0) t).2 = 0 ∧ (offset exAngles.data ("X", "Y") (0, 0) t).1 < 0) := by decide +kernel
      exact this
    · have : ∀ t : ℕ, t < 2 → ¬ ((offset exAnglesMoved.data ("X", "Y") (0, 0) t).2 = 0 ∧ (offset exAnglesMoved.data ("X", "Y") (0, 0) t).1 < 0) := by decide +kernel
      exact this)
  rw [hq] at this
  norm_num at this
  exact this

/-- A bin straight above the origin. -/
def exAbove : Flow := ⟨[("X", [0]), ("Y", [1]), ("U", [0]), ("V", [1]), ("M", [7])], {}⟩
/-- The same after a quarter turn. -/
def exLeft : Flow := ⟨[("X", [-1]), ("Y", [0]), ("U", [-1]), ("V", [0]), ("M", [7])], {}⟩

theorem meanOf_one (v : ℕ → ℚ) (P : ℕ → Prop) : (P 0 → meanOf 1 v (fun _ => 1) P = v 0) ∧ (¬ P 0 → meanOf 1 v (fun _ => 1) P = 0) := by
  classical
  unfold meanOf
  constructor <;> intro h <;> simp [Finset.filter_singleton, h]

/-- **C168 is false with bins on the negative x axis.**  A bin straight above the origin is sampled at 90 degrees; after a quarter turn of the map it is not found at 180 degrees, nor at any other. -/
theorem C168_counterexample : Moved exQuarter exAbove exLeft ∧ TurnsBy exQuarter 90 ∧
    ∃ out out', perAngle exAbove (0, 0) "M" ("X", "Y") none 0 180 0 none 45 = .ok out ∧ perAngle exLeft (0, 0) "M" ("X", "Y") none 90 270 0 none 45 = .ok out' ∧
      out.getD 2 (0, 0) = (90, 7) ∧ ∀ k, k < out'.length → (out'.getD k (0, 0)).2 = 0 := by
  refine ⟨⟨⟨by decide, by decide⟩, ⟨by decide, by decide⟩, rfl, by decide, by decide +kernel⟩, exQuarter_turns, ?_⟩
  obtain ⟨out, h1, h2, h3⟩ := C45_as_coded exAbove (0, 0) "M" ("X", "Y") none 0 180 0 none 45 (by norm_num) (by decide) (by decide) (by decide) (by simp) 0 180 (by norm_num) (by norm_num)
  obtain ⟨out', h1', h2', h3'⟩ := C45_as_coded exLeft (0, 0) "M" ("X", "Y") none 90 270 0 none 45 (by norm_num) (by decide) (by decide) (by decide) (by simp) 90 270 (by norm_num) (by norm_num)
  have o1 : offset exAbove.data ("X", "Y") (0, 0) 0 = (0, 1) := by decide +kernel
  have o2 : offset exLeft.data ("X", "Y") (0, 0) 0 = (-1, 0) := by decide +kernel
  refine ⟨out, out', h1, h1', ?_, fun k hk => ?_⟩
  · have hlen : out.length = 5 := by
      have : ⌈(180 + 45 - 0 : ℚ) / 45⌉ = 5 := by norm_num
      rw [this] at h2
      omega
    rw [h3 2 (by omega)]
    rw [Prod.mk.injEq]
    refine ⟨by norm_num, ?_⟩
    have hP : TakenIn exAbove.data ("X", "Y") (0, 0) 0 180 0 none 45 2 0 := by
      refine ⟨⟨1, by norm_num, by rw [o1]; norm_num, by norm_num, by simp⟩, 90, .inr ⟨by rw [o1]; norm_num, ?_⟩, by norm_num, by norm_num, by norm_num, by norm_num⟩
      rw [o1]
      refine ⟨by norm_num, by norm_num, 1, by norm_num, ?_, ?_⟩
      · rw [show (90 : ℝ) * Real.pi / 180 = Real.pi / 2 by ring, Real.cos_pi_div_two]; norm_num
      · rw [show (90 : ℝ) * Real.pi / 180 = Real.pi / 2 by ring, Real.sin_pi_div_two]; norm_num
    have := (meanOf_one (val exAbove.data "M") (TakenIn exAbove.data ("X", "Y") (0, 0) 0 180 0 none 45 2)).1 hP
    have hv : val exAbove.data "M" 0 = 7 := by decide +kernel
    rw [hv] at this
    exact this
  · rw [h3' k hk]
    refine (meanOf_one (val exLeft.data "M") (TakenIn exLeft.data ("X", "Y") (0, 0) 90 270 0 none 45 k)).2 ?_
    rintro ⟨-, θ, hd, h4, -⟩
    rw [o2] at hd
    rcases hd with ⟨-, -, rfl⟩ | ⟨hn, -⟩
    · norm_num at h4
    · exact hn ⟨rfl, by norm_num⟩

end Strata.Sample
