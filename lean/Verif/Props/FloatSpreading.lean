import Verif.Model.FloatSpreading
import Verif.Spec.FloatSpreading
import Verif.Props.Spreading
import Verif.Props.FloatAverage
/-!
# C139: spreading curves in double precision
-/
namespace Strata.FloatSpreading
open Strata Strata.Spec Strata.FloatAverage
open Strata.Spreading (PeriodicInfo Frame Row State initPeriodicInfo Observes wrap_bounds image_step fits_cases crossing_iff crossing)

variable {u : ℚ} {fl : ℚ → ℚ}

/-- The error of an absolute position. -/
theorem absolute_error (hu : 0 ≤ u) (hu1 : u ≤ 1) (hfl : Rounds u fl) {B x : ℚ} (hx0 : 0 ≤ x) (hx1 : x ≤ B) {m : ℤ} {N : ℕ} (hm : |m| ≤ N) :
    |absolute fl x m B - (x + m * B)| ≤ u * B * (3 * N + 1) := by
  have hB : 0 ≤ B := hx0.trans hx1
  have hmq : |(m : ℚ)| ≤ N := by rw [← Int.cast_abs]; exact_mod_cast hm
  have hN : (0 : ℚ) ≤ N := Nat.cast_nonneg N
  have hmB : |(m : ℚ) * B| ≤ N * B := by rw [abs_mul, abs_of_nonneg hB]; exact mul_le_mul_of_nonneg_right hmq hB
  have h1 := hfl (m * B)
  have h2 := hfl (x + fl (m * B))
  have h1' : |fl (m * B) - m * B| ≤ u * (N * B) := h1.trans (mul_le_mul_of_nonneg_left hmB hu)
  have h1'' : u * (N * B) ≤ N * B := by have := mul_nonneg hN hB; nlinarith
  have h3 : |x + fl (m * B)| ≤ B + 2 * (N * B) := by
    have e : x + fl (m * B) = x + m * B + (fl (m * B) - m * B) := by ring
    rw [e]
    refine (abs_add_le _ _).trans ?_
    have := abs_add_le x (m * B)
    rw [abs_of_nonneg hx0] at this
    linarith
  have h2' : |fl (x + fl (m * B)) - (x + fl (m * B))| ≤ u * (B + 2 * (N * B)) := h2.trans (mul_le_mul_of_nonneg_left h3 hu)
  have e : absolute fl x m B - (x + m * B) = (fl (x + fl (m * B)) - (x + fl (m * B))) + (fl (m * B) - m * B) := by unfold absolute; ring
  rw [e]
  refine (abs_add_le _ _).trans ?_
  have : u * B * (3 * N + 1) = u * (B + 2 * (N * B)) + u * (N * B) := by ring
  rw [this]
  exact add_le_add h2' h1'

/-- The remainder of a number that is `y` plus a multiple of the box. -/
theorem pyMod_error (hu : 0 ≤ u) (hfl : Rounds u fl) {B y : ℚ} (hB : 0 < B) (hy0 : 0 ≤ y) (hy1 : y < B) (m : ℤ) : |pyMod fl (y + m * B) B - y| ≤ u * B := by
  have hb : B ≠ 0 := hB.ne'
  have hq : (y + m * B) / B = y / B + m := by rw [add_div, mul_div_assoc, div_self hb, mul_one]
  have hy2 : 0 ≤ y / B := div_nonneg hy0 hB.le
  have hy3 : y / B < 1 := (div_lt_one hB).mpr hy1
  have hfloor : ⌊(y + m * B) / B⌋ = m := by
    rw [hq, Int.floor_add_intCast, Int.floor_eq_zero_iff.mpr ⟨hy2, hy3⟩, zero_add]
  have huB : 0 ≤ u * B := mul_nonneg hu hB.le
  unfold pyMod
  have hc : cMod (y + m * B) B = y ∨ (0 < y ∧ cMod (y + m * B) B = y - B) := by
    unfold cMod
    by_cases h0 : 0 ≤ (y + m * B) / B
    · rw [if_pos h0, hfloor]; left; ring
    · rw [if_neg h0]
      rcases hy0.eq_or_lt with rfl | hpos
      · have : ⌈(0 + (m : ℚ) * B) / B⌉ = m := by rw [hq, zero_div, zero_add, Int.ceil_intCast]
        rw [this]; left; ring
      · have : ⌈(y + (m : ℚ) * B) / B⌉ = m + 1 := by
          have h1 : ⌈y / B⌉ = 1 := by
            rw [Int.ceil_eq_iff]
            exact ⟨by simpa using div_pos hpos hB, by push_cast; exact hy3.le⟩
          rw [hq, Int.ceil_add_intCast, h1, add_comm]
        rw [this]; right; exact ⟨hpos, by push_cast; ring⟩
  rcases hc with h | ⟨hpos, h⟩
  · rw [h, if_neg (not_lt.mpr hy0), sub_self, abs_zero]; exact huB
  · rw [h, if_pos (by linarith), sub_add_cancel]
    refine (hfl y).trans ?_
    rw [abs_of_pos hpos]
    exact mul_le_mul_of_nonneg_left hy1.le hu

/-- Which side of the box was crossed is decided as with exact numbers. -/
theorem multAddition_rounded (hu : 0 ≤ u) (hu1 : u ≤ 1) (hfl : Rounds u fl) {B d x : ℚ} (hd : 0 < d) {m : ℤ} {N : ℕ} (hm : |m| ≤ N) (hN : u * B * (3 * N + 3) ≤ d) (h0 : d ≤ x)
    (h1 : x ≤ B - d) (hhalf : x ≤ B / 2 - d ∨ B / 2 + d ≤ x) :
    multAddition fl (absolute fl x m B) B = if x > B / 2 then -1 else 1 := by
  have hB : 0 < B := by linarith
  have huB : 0 ≤ u * B := mul_nonneg hu hB.le
  have hNn : (0 : ℚ) ≤ N := Nat.cast_nonneg N
  have hN' : 3 * (u * B * N) + 3 * (u * B) ≤ d := by linarith
  have hNB : 0 ≤ u * B * N := mul_nonneg huB hNn
  have ha := absolute_error hu hu1 hfl (x := x) (B := B) (by linarith) (by linarith) hm
  set y := absolute fl x m B - m * B with hy
  have hay : absolute fl x m B = y + m * B := by rw [hy]; ring
  have hyx : |y - x| ≤ 3 * (u * B * N) + u * B := by
    have e : y - x = absolute fl x m B - (x + m * B) := by rw [hy]; ring
    rw [e]; linarith
  rw [abs_le] at hyx
  have hlt : 3 * (u * B * N) + u * B < d := by
    rcases huB.eq_or_lt with h | h
    · have h' : u * B * N = 0 := by rw [← h, zero_mul]
      rw [h', ← h]; linarith
    · linarith
  have hp := pyMod_error hu hfl hB (y := y) (by linarith) (by linarith) m
  unfold multAddition
  rw [hay]
  set z := pyMod fl (y + m * B) B with hz
  rw [abs_le] at hp
  have hzx1 : z - x ≤ 3 * (u * B * N) + 2 * (u * B) := by linarith
  have hzx2 : -(3 * (u * B * N) + 2 * (u * B)) ≤ z - x := by linarith
  have hBz : |B - z| ≤ B := by rw [abs_le]; constructor <;> linarith
  have hf : |fl (B - z) - (B - z)| ≤ u * B := (hfl _).trans (mul_le_mul_of_nonneg_left hBz hu)
  rw [abs_le] at hf
  have hBz0 : 0 ≤ B - z := by linarith
  rcases hhalf with h | h
  · rw [if_neg (show ¬ x > B / 2 by linarith), if_neg]
    rw [not_lt]
    refine le_trans ?_ (le_abs_self _)
    linarith
  · rw [if_pos (show x > B / 2 by linarith), if_pos]
    rw [gt_iff_lt, abs_lt]
    constructor <;> linarith

/-- Which of two moves is the larger. -/
theorem moves_rounded (hu : 0 ≤ u) (hfl : Rounds u fl) {B d a b : ℚ} (hB : 0 < B) (hd : 0 < d) (hd2 : u * B * 3 ≤ d) (ha : |a| ≤ B / 2 - d) (hb : B / 2 + d ≤ |b|) (hbB : |b| ≤ B) :
    |fl a| < |fl b| := by
  have h1 := (hfl a)
  have h2 := (hfl b)
  have e1 := abs_sub_abs_le_abs_sub (fl a) a
  have e2 := abs_sub_abs_le_abs_sub b (fl b)
  rw [abs_sub_comm b] at e2
  have huB : 0 ≤ u * B := mul_nonneg hu hB.le
  have h3 : u * |a| ≤ u * B := mul_le_mul_of_nonneg_left (by linarith) hu
  have h4 : u * |b| ≤ u * B := mul_le_mul_of_nonneg_left hbB hu
  linarith

/-- One step of the tracker makes the decisions of exact arithmetic. -/
theorem updateInfo_rounded (hu : 0 ≤ u) (hu1 : u ≤ 1) (hfl : Rounds u fl) {B d : ℚ} (hB : 0 < B) (hd : 0 < d) {N : ℕ} (hN : u * B * (3 * N + 3) ≤ d) {p q : ℚ × ℚ} (hp : Fits B p)
    (hq : Fits B q) (ip : Inside B d p) (iq : Inside B d q) (hs : Steady B d p q) (hc : AtMostOneCrosses B p q) (k : ℤ) (h1 : |image B p.1 - k| ≤ N) (h2 : |image B p.2 - k| ≤ N) :
    updateInfo fl ⟨some (wrap B p.1), some (wrap B p.2), image B p.1 - k, image B p.2 - k⟩ B (wrap B q.1) (wrap B q.2) =
      ⟨some (wrap B q.1), some (wrap B q.2), image B q.1 - k, image B q.2 - k⟩ := by
  have hslow : Slow B p q := ⟨by linarith [hs.1], by linarith [hs.2]⟩
  have hexact := Spreading.updateInfo_exact hB hp hq hslow hc k
  rw [← hexact]
  obtain ⟨L, hL0, hL1⟩ := wrap_bounds hB p.1
  obtain ⟨R, hR0, hR1⟩ := wrap_bounds hB p.2
  obtain ⟨L', hL0', hL1'⟩ := wrap_bounds hB q.1
  obtain ⟨R', hR0', hR1'⟩ := wrap_bounds hB q.2
  obtain ⟨⟨a1, a2⟩, a3, a4⟩ := ip
  obtain ⟨⟨b1, b2⟩, b3, b4⟩ := iq
  obtain ⟨s1, s2⟩ := hs
  have i1 := image_step hB hslow.1
  have i2 := image_step hB hslow.2
  have hd2 : u * B * 3 ≤ d := by
    have : 0 ≤ u * B * (3 * N) := by positivity
    linarith
  unfold updateInfo Spreading.updateInfo
  simp only
  by_cases hev : image B q.2 - image B q.1 = image B p.2 - image B p.1
  · have hcr : crossing (wrap B q.1) (wrap B q.2) (wrap B p.1) (wrap B p.2) = false := by rw [crossing_iff hB hp hq]; simp [hev]
    simp [hcr]
  · have hcr : crossing (wrap B q.1) (wrap B q.2) (wrap B p.1) (wrap B p.2) = true := by rw [crossing_iff hB hp hq]; simp [hev]
    rw [if_pos hcr, if_pos hcr]
    -- an edge that crosses
    have key : ∀ {P Q wp wq : ℚ} {ip iq : ℤ}, P = wp + B * (ip : ℚ) → Q = wq + B * (iq : ℚ) → d ≤ wp → wp ≤ B - d → d ≤ wq → wq ≤ B - d → |Q - P| ≤ B / 2 - d →
        (iq = ip - 1 ∨ iq = ip + 1) → B / 2 + d ≤ |wq - wp| ∧ |wq - wp| ≤ B ∧ (wq ≤ B / 2 - d ∨ B / 2 + d ≤ wq) := by
      intro P Q wp wq ip iq e1 e2 c1 c2 c3 c4 c5 c6
      rw [abs_le] at c5
      rcases c6 with h | h
      · rw [h] at e2; push_cast at e2
        have : B / 2 + d ≤ wq - wp := by linarith
        exact ⟨this.trans (le_abs_self _), by rw [abs_le]; constructor <;> linarith, .inr (by linarith)⟩
      · rw [h] at e2; push_cast at e2
        have : B / 2 + d ≤ -(wq - wp) := by linarith
        exact ⟨this.trans (neg_le_abs _), by rw [abs_le]; constructor <;> linarith, .inl (by linarith)⟩
    rcases hc with hc | hc
    · have hi : image B q.2 = image B p.2 - 1 ∨ image B q.2 = image B p.2 + 1 := by omega
      obtain ⟨k1, k2, k3⟩ := key R R' a3 a4 b3 b4 s2 hi
      have e : wrap B q.1 - wrap B p.1 = q.1 - p.1 := by rw [hc] at L'; linarith
      have hle : |wrap B q.1 - wrap B p.1| ≤ B / 2 - d := by rw [e]; exact s1
      rw [if_neg (not_lt.mpr (moves_rounded hu hfl hB hd hd2 hle k1 k2).le), if_neg (not_lt.mpr (by linarith)),
        multAddition_rounded hu hu1 hfl hd h2 hN b3 b4 k3, Spreading.multAddition_of hB _ _ hR0' hR1']
    · have hi : image B q.1 = image B p.1 - 1 ∨ image B q.1 = image B p.1 + 1 := by omega
      obtain ⟨k1, k2, k3⟩ := key L L' a1 a2 b1 b2 s1 hi
      have e : wrap B q.2 - wrap B p.2 = q.2 - p.2 := by rw [hc] at R'; linarith
      have hle : |wrap B q.2 - wrap B p.2| ≤ B / 2 - d := by rw [e]; exact s2
      rw [if_pos (moves_rounded hu hfl hB hd hd2 hle k1 k2), if_pos (show |wrap B q.1 - wrap B p.1| > |wrap B q.2 - wrap B p.2| by linarith),
        multAddition_rounded hu hu1 hfl hd h1 hN b1 b2 k3, Spreading.multAddition_of hB _ _ hL0' hL1']

theorem updateInfo_first (fl : ℚ → ℚ) (B l r : ℚ) : updateInfo fl initPeriodicInfo B l r = Spreading.updateInfo initPeriodicInfo B l r := rfl

/-- A row is near the true edges and half the true width. -/
def Close (B : ℚ) (k : ℤ) (e : ℚ) (p : ℚ × ℚ) (r : Row) : Prop :=
  |r.left - (p.1 - k * B)| ≤ e ∧ |r.right - (p.2 - k * B)| ≤ e ∧ |r.radius - (p.2 - p.1) / 2| ≤ e

/-- The row written for an edge pair. -/
theorem row_close (hu : 0 ≤ u) (hu1 : u ≤ 1) (hfl : Rounds u fl) {B d : ℚ} (hB : 0 < B) {N : ℕ} (hN : u * B * (3 * N + 3) ≤ d) {p : ℚ × ℚ} (hp : Fits B p) (ip : Inside B d p) (k : ℤ)
    (h1 : |image B p.1 - k| ≤ N) (h2 : |image B p.2 - k| ≤ N) (t : ℚ) :
    Close B k (u * B * (3 * N + 4)) p
      ⟨t, |fl ((1 / 2) * fl (absolute fl (wrap B p.2) (image B p.2 - k) B - absolute fl (wrap B p.1) (image B p.1 - k) B))|, absolute fl (wrap B p.1) (image B p.1 - k) B,
        absolute fl (wrap B p.2) (image B p.2 - k) B⟩ := by
  obtain ⟨L, hL0, hL1⟩ := wrap_bounds hB p.1
  obtain ⟨R, hR0, hR1⟩ := wrap_bounds hB p.2
  have huB : 0 ≤ u * B := mul_nonneg hu hB.le
  have hd2 : 2 * d ≤ B := by linarith [ip.1.1, ip.1.2]
  have ea := absolute_error hu hu1 hfl hL0 hL1.le h1
  have eb := absolute_error hu hu1 hfl hR0 hR1.le h2
  have e1 : wrap B p.1 + ((image B p.1 - k : ℤ) : ℚ) * B = p.1 - k * B := by push_cast; linarith
  have e2 : wrap B p.2 + ((image B p.2 - k : ℤ) : ℚ) * B = p.2 - k * B := by push_cast; linarith
  rw [e1] at ea
  rw [e2] at eb
  set la := absolute fl (wrap B p.1) (image B p.1 - k) B
  set ra := absolute fl (wrap B p.2) (image B p.2 - k) B
  refine ⟨by show |la - _| ≤ _; linarith, by show |ra - _| ≤ _; linarith, ?_⟩
  show |(|fl ((1 / 2) * fl (ra - la))|) - _| ≤ _
  have hw0 : 0 ≤ p.2 - p.1 := by linarith [hp.1]
  have hw1 : p.2 - p.1 ≤ B := by linarith [hp.2]
  have hw : |(ra - la) - (p.2 - p.1)| ≤ 2 * (u * B * (3 * N + 1)) := by
    rw [abs_le] at ea eb ⊢
    constructor <;> linarith
  have hsize : |ra - la| ≤ 2 * B := by
    rw [abs_le] at hw ⊢
    have : u * B * (3 * N + 1) ≤ d := by linarith
    constructor <;> linarith
  have f1 : |fl (ra - la) - (ra - la)| ≤ u * (2 * B) := (hfl _).trans (mul_le_mul_of_nonneg_left hsize hu)
  have hsize2 : |(1 / 2) * fl (ra - la)| ≤ 2 * B := by
    rw [abs_mul, abs_of_pos (by norm_num : (0 : ℚ) < 1 / 2)]
    have h := hfl.le (ra - la)
    have h0 := abs_nonneg (ra - la)
    nlinarith
  have f2 : |fl ((1 / 2) * fl (ra - la)) - (1 / 2) * fl (ra - la)| ≤ u * (2 * B) := (hfl _).trans (mul_le_mul_of_nonneg_left hsize2 hu)
  have f3 : |fl ((1 / 2) * fl (ra - la)) - (p.2 - p.1) / 2| ≤ u * B * (3 * N + 4) := by
    rw [abs_le] at f1 f2 hw ⊢
    constructor <;> linarith
  refine le_trans ?_ f3
  have := abs_abs_sub_abs_le (fl ((1 / 2) * fl (ra - la))) ((p.2 - p.1) / 2)
  rwa [abs_of_nonneg (show 0 ≤ (p.2 - p.1) / 2 by linarith)] at this

theorem loop_close (hu : 0 ≤ u) (hu1 : u ≤ 1) (hfl : Rounds u fl) {B d : ℚ} (hB : 0 < B) (hd : 0 < d) {N : ℕ} (hN : u * B * (3 * N + 3) ≤ d) (dt : ℚ) (save : Bool) (k : ℤ) :
    ∀ (frames : List Frame) (hist : List (Option (ℚ × ℚ))) (s : State) (i : ℕ) (p : ℚ × ℚ), Observes B frames hist → Spreading.Tracks B k p s.info →
      (∀ q ∈ p :: hist.reduceOption, Fits B q ∧ Inside B d q ∧ |image B q.1 - k| ≤ N ∧ |image B q.2 - k| ≤ N) → (p :: hist.reduceOption).IsChain (Steady B d) →
      (p :: hist.reduceOption).IsChain (AtMostOneCrosses B) →
      ∃ new, (loop fl dt save s i frames).rows = s.rows ++ new ∧ List.Forall₂ (Close B k (u * B * (3 * N + 4))) hist.reduceOption new := by
  intro frames
  induction frames with
  | nil =>
    intro hist s i p ho _ _ _ _
    have := ho.nil; subst this
    exact ⟨[], by simp [loop], .nil⟩
  | cons f fs ih =>
    intro hist s i p ho ht hf hs hc
    obtain ⟨o, hist', rfl, he, hb, ho'⟩ := ho.cons
    unfold loop
    rcases o with _ | q
    · simp only [List.reduceOption_cons_of_none] at hf hs hc ⊢
      have : step fl dt save s i f = s := by unfold step; rw [he]; rfl
      rw [this]
      exact ih hist' s (i + 1) p ho' ht hf hs hc
    · simp only [List.reduceOption_cons_of_some] at hf hs hc ⊢
      obtain ⟨p1, p2, p3, p4⟩ := hf p (by simp)
      obtain ⟨q1, q2, q3, q4⟩ := hf q (by simp)
      rw [List.isChain_cons_cons] at hs hc
      have hupd := updateInfo_rounded hu hu1 hfl hB hd hN p1 q1 p2 q2 hs.1 hc.1 k p3 p4
      unfold Spreading.Tracks at ht
      obtain ⟨row, hrow, hcl⟩ : ∃ row, (step fl dt save s i f).rows = s.rows ++ [row] ∧ Close B k (u * B * (3 * N + 4)) q row := by
        refine ⟨_, ?_, row_close hu hu1 hfl hB hN q1 q2 k q3 q4 s.time⟩
        unfold step
        rw [he, hb]
        simp only [Option.map_some, ht, hupd]
      have hinfo : (step fl dt save s i f).info = ⟨some (wrap B q.1), some (wrap B q.2), image B q.1 - k, image B q.2 - k⟩ := by
        unfold step
        rw [he, hb]
        simp only [Option.map_some, ht, hupd]
      obtain ⟨new, n1, n2⟩ := ih hist' (step fl dt save s i f) (i + 1) q ho' hinfo (fun x hx => hf x (List.mem_cons_of_mem _ hx)) hs.2 hc.2
      exact ⟨row :: new, by rw [n1, hrow, List.append_assoc]; rfl, .cons hcl n2⟩

/-- **C139, partial.** With every result rounded with relative error `u`: a droplet whose edges keep the distance `d` from the sides of the box, and move by half a box less `d` at most, is followed
as with exact numbers, within `N` boxes, if `d` is at least `(3N + 3)·u` boxes; all edges and radii are right up to `(3N + 4)·u` boxes.  Missing: edges on the sides of the box,
see `C139_side_of_box`. -/
theorem C139_edges_and_radius_partial (hu : 0 ≤ u) (hu1 : u ≤ 1) (hfl : Rounds u fl) {B d : ℚ} (hB : 0 < B) (hd : 0 < d) (N : ℕ) (hN : u * B * (3 * N + 3) ≤ d) (dt t0 : ℚ) (save flag : Bool)
    (frames : List Frame) (hist : List (Option (ℚ × ℚ))) (ho : Observes B frames hist) (hfit : ∀ p ∈ hist.reduceOption, Fits B p) (hin : ∀ p ∈ hist.reduceOption, Inside B d p)
    (hsteady : hist.reduceOption.IsChain (Steady B d)) (hcross : hist.reduceOption.IsChain (AtMostOneCrosses B)) (hnear : Near B N hist.reduceOption) :
    ∃ k : ℤ, List.Forall₂ (fun (p : ℚ × ℚ) (r : Row) => |r.left - (p.1 - k * B)| ≤ u * B * (3 * N + 4) ∧ |r.right - (p.2 - k * B)| ≤ u * B * (3 * N + 4) ∧
      |r.radius - (p.2 - p.1) / 2| ≤ u * B * (3 * N + 4)) hist.reduceOption (collect fl dt t0 save flag frames).rows := by
  have main : ∀ (frames : List Frame) (hist : List (Option (ℚ × ℚ))) (s : State) (i : ℕ), Observes B frames hist → s.info = initPeriodicInfo → s.rows = [] →
      (∀ p ∈ hist.reduceOption, Fits B p) → (∀ p ∈ hist.reduceOption, Inside B d p) → hist.reduceOption.IsChain (Steady B d) → hist.reduceOption.IsChain (AtMostOneCrosses B) →
      Near B N hist.reduceOption → ∃ k : ℤ, List.Forall₂ (Close B k (u * B * (3 * N + 4))) hist.reduceOption (loop fl dt save s i frames).rows := by
    intro frames
    induction frames with
    | nil =>
      intro hist s i ho hi hr _ _ _ _ _
      have := ho.nil; subst this
      refine ⟨0, ?_⟩
      rw [loop, hr]
      exact .nil
    | cons f fs ih =>
      intro hist s i ho hi hr hf hin hs hc hn
      obtain ⟨o, hist', rfl, he, hb, ho'⟩ := ho.cons
      unfold loop
      rcases o with _ | q
      · simp only [List.reduceOption_cons_of_none] at hf hin hs hc hn ⊢
        have : step fl dt save s i f = s := by unfold step; rw [he]; rfl
        rw [this]
        exact ih hist' s (i + 1) ho' hi hr hf hin hs hc hn
      · simp only [List.reduceOption_cons_of_some] at hf hin hs hc hn ⊢
        have hq : Fits B q := hf q (by simp)
        have hupd : updateInfo fl initPeriodicInfo B (wrap B q.1) (wrap B q.2) = _ := Spreading.updateInfo_first hB hq
        have hall : ∀ x ∈ q :: hist'.reduceOption, Fits B x ∧ Inside B d x ∧ |image B x.1 - image B q.1| ≤ N ∧ |image B x.2 - image B q.1| ≤ N :=
          fun x hx => ⟨hf x hx, hin x hx, hn x hx q (by simp)⟩
        obtain ⟨row, hrow, hcl⟩ : ∃ row, (step fl dt save s i f).rows = [row] ∧ Close B (image B q.1) (u * B * (3 * N + 4)) q row := by
          refine ⟨_, ?_, row_close hu hu1 hfl hB hN hq (hin q (by simp)) (image B q.1) (hall q (by simp)).2.2.1 (hall q (by simp)).2.2.2 s.time⟩
          unfold step
          rw [he, hb]
          simp only [Option.map_some, hi, hupd, hr, List.nil_append]
        have hinfo : (step fl dt save s i f).info = ⟨some (wrap B q.1), some (wrap B q.2), image B q.1 - image B q.1, image B q.2 - image B q.1⟩ := by
          unfold step
          rw [he, hb]
          simp only [Option.map_some, hi, hupd]
        obtain ⟨new, n1, n2⟩ := loop_close hu hu1 hfl hB hd hN dt save (image B q.1) fs hist' (step fl dt save s i f) (i + 1) q ho' hinfo hall hs hc
        refine ⟨image B q.1, ?_⟩
        rw [n1, hrow]
        exact .cons hcl n2
  exact main frames hist _ 0 ho rfl rfl hfit hin hsteady hcross hnear

/-- The same in double precision: edges at least `(3N + 3)/2⁵³` boxes from the sides. -/
theorem C139_double_partial {B d : ℚ} (hB : 0 < B) (hd : 0 < d) (N : ℕ) (hN : B * (3 * N + 3) / 2 ^ 53 ≤ d) (dt t0 : ℚ) (save flag : Bool) (frames : List Frame) (hist : List (Option (ℚ × ℚ)))
    (ho : Observes B frames hist) (hfit : ∀ p ∈ hist.reduceOption, Fits B p) (hin : ∀ p ∈ hist.reduceOption, Inside B d p) (hsteady : hist.reduceOption.IsChain (Steady B d))
    (hcross : hist.reduceOption.IsChain (AtMostOneCrosses B)) (hnear : Near B N hist.reduceOption) :
    ∃ k : ℤ, List.Forall₂ (fun (p : ℚ × ℚ) (r : Row) => |r.left - (p.1 - k * B)| ≤ B * (3 * N + 4) / 2 ^ 53 ∧ |r.right - (p.2 - k * B)| ≤ B * (3 * N + 4) / 2 ^ 53 ∧
      |r.radius - (p.2 - p.1) / 2| ≤ B * (3 * N + 4) / 2 ^ 53) hist.reduceOption (collect (roundBits 53) dt t0 save flag frames).rows := by
  have h := C139_edges_and_radius_partial (u := 1 / 2 ^ 53) (fl := roundBits 53) (by positivity) (by norm_num) (rounds_roundBits 53) hB hd N (by
    rw [show 1 / 2 ^ 53 * B * (3 * N + 3) = B * (3 * N + 3) / 2 ^ 53 by ring]; exact hN) dt t0 save flag frames hist ho hfit hin hsteady hcross hnear
  rw [show 1 / 2 ^ 53 * B * (3 * N + 4) = B * (3 * N + 4) / 2 ^ 53 by ring] at h
  exact h

/-- Edges in the middle of bins keep half a bin from the sides. -/
theorem inside_centre {dx : ℚ} (hdx : 0 < dx) {nx : ℕ} (hnx : 0 < nx) (a : ℤ) : dx / 2 ≤ wrap (nx * dx) ((a + 1 / 2) * dx) ∧ wrap (nx * dx) ((a + 1 / 2) * dx) ≤ nx * dx - dx / 2 := by
  have hB : (0 : ℚ) < nx * dx := by positivity
  obtain ⟨h1, h2, h3⟩ := wrap_bounds hB ((a + 1 / 2) * dx)
  have hw : wrap (nx * dx) ((a + 1 / 2) * dx) = (((a - nx * image (nx * dx) ((a + 1 / 2) * dx) : ℤ) : ℚ) + 1 / 2) * dx := by push_cast; linarith
  generalize a - nx * image (nx * dx) ((a + 1 / 2) * dx) = c at hw
  rw [hw] at h2 h3 ⊢
  have c0 : (0 : ℚ) ≤ (c : ℚ) + 1 / 2 := le_of_mul_le_mul_right (by linarith) hdx
  have c1 : (c : ℚ) + 1 / 2 < nx := lt_of_mul_lt_mul_right h3 hdx.le
  have c2 : 0 ≤ c := by
    by_contra h
    have : (c : ℚ) ≤ -1 := by exact_mod_cast (show c ≤ -1 by omega)
    linarith
  have c3 : c + 1 ≤ nx := by
    by_contra h
    have : (nx : ℚ) ≤ c := by exact_mod_cast (show (nx : ℤ) ≤ c by omega)
    linarith
  have c2' : (0 : ℚ) ≤ c := by exact_mod_cast c2
  have c3' : (c : ℚ) + 1 ≤ nx := by exact_mod_cast c3
  constructor
  · nlinarith
  · nlinarith

/-- Edges in the middle of bins that move by less than half a box do so by half a bin less. -/
theorem steady_centre {dx : ℚ} (hdx : 0 < dx) {nx : ℕ} (a b : ℤ) (h : |((b + 1 / 2) * dx : ℚ) - (a + 1 / 2) * dx| < nx * dx / 2) :
    |((b + 1 / 2) * dx : ℚ) - (a + 1 / 2) * dx| ≤ nx * dx / 2 - dx / 2 := by
  have e : ((b + 1 / 2) * dx : ℚ) - (a + 1 / 2) * dx = ((b - a : ℤ) : ℚ) * dx := by push_cast; ring
  rw [e, abs_mul, abs_of_pos hdx, ← Int.cast_abs] at h ⊢
  generalize |b - a| = c at h ⊢
  have h1 : 2 * (c : ℚ) < nx := lt_of_mul_lt_mul_right (by linarith) hdx.le
  have h2 : 2 * c + 1 ≤ nx := by
    have : 2 * c < nx := by exact_mod_cast h1
    omega
  have h3 : 2 * (c : ℚ) + 1 ≤ nx := by exact_mod_cast h2
  nlinarith

/-- **C139, edges in the middle of bins.** For edges in the middle of `nx` bins, which the gmx format has with the origin 0, the hypotheses of `C62_edges_and_radius` are enough, as long as the droplet stays within
`2⁵³/(6 nx) - 1` boxes. -/
theorem C139_bin_centres {dx : ℚ} (hdx : 0 < dx) {nx : ℕ} (hnx : 0 < nx) (N : ℕ) (hN : nx * (6 * N + 6) ≤ 2 ^ 53) (dt t0 : ℚ) (save flag : Bool) (frames : List Frame)
    (hist : List (Option (ℚ × ℚ))) (ho : Observes (nx * dx) frames hist) (hcentre : ∀ p ∈ hist.reduceOption, ∃ a b : ℤ, p = ((a + 1 / 2) * dx, (b + 1 / 2) * dx))
    (hfit : ∀ p ∈ hist.reduceOption, Fits (nx * dx) p) (hslow : hist.reduceOption.IsChain (Slow (nx * dx))) (hcross : hist.reduceOption.IsChain (AtMostOneCrosses (nx * dx)))
    (hnear : Near (nx * dx) N hist.reduceOption) :
    ∃ k : ℤ, List.Forall₂ (fun (p : ℚ × ℚ) (r : Row) => |r.left - (p.1 - k * (nx * dx))| ≤ nx * dx * (3 * N + 4) / 2 ^ 53 ∧ |r.right - (p.2 - k * (nx * dx))| ≤ nx * dx * (3 * N + 4) / 2 ^ 53 ∧
      |r.radius - (p.2 - p.1) / 2| ≤ nx * dx * (3 * N + 4) / 2 ^ 53) hist.reduceOption (collect (roundBits 53) dt t0 save flag frames).rows := by
  refine C139_double_partial (d := dx / 2) (by positivity) (by positivity) N ?_ dt t0 save flag frames hist ho hfit ?_ ?_ hcross hnear
  · have h : (nx : ℚ) * (6 * N + 6) ≤ 2 ^ 53 := by exact_mod_cast hN
    rw [div_le_iff₀ (by positivity)]
    nlinarith
  · intro p hp
    obtain ⟨a, b, rfl⟩ := hcentre p hp
    exact ⟨inside_centre hdx hnx a, inside_centre hdx hnx b⟩
  · refine List.IsChain.imp_of_mem_imp ?_ hslow
    intro p q hp hq h
    obtain ⟨a, b, rfl⟩ := hcentre p hp
    obtain ⟨a', b', rfl⟩ := hcentre q hq
    exact ⟨steady_centre hdx a a' h.1, steady_centre hdx b b' h.2⟩

/-- A droplet on 10 bins of 1/5 that drifts through the boundary. -/
example : let hist : List (Option (ℚ × ℚ)) := [some (((2 : ℤ) + 1 / 2) * (1 / 5), ((7 : ℤ) + 1 / 2) * (1 / 5)), none, some (((6 : ℤ) + 1 / 2) * (1 / 5), ((11 : ℤ) + 1 / 2) * (1 / 5))]
    (∀ p ∈ hist.reduceOption, Fits ((10 : ℕ) * (1 / 5)) p) ∧ hist.reduceOption.IsChain (Slow ((10 : ℕ) * (1 / 5))) ∧ hist.reduceOption.IsChain (AtMostOneCrosses ((10 : ℕ) * (1 / 5))) ∧
    Near ((10 : ℕ) * (1 / 5)) 1000000 hist.reduceOption ∧ 10 * (6 * 1000000 + 6) ≤ 2 ^ 53 := by
  refine ⟨?_, ?_, ?_, ?_, by norm_num⟩ <;> decide +kernel

/-! ## Times -/

theorem loop_times (dt : ℚ) (save : Bool) : ∀ (frames : List Frame) (s : State) (i : ℕ),
    (loop fl dt save s i frames).rows.map Row.time =
      s.rows.map Row.time ++ (List.range (Spreading.detected frames).length).map (fun n : ℕ => (fun t => fl (t + dt))^[n] s.time) := by
  intro frames
  induction frames with
  | nil => intro s i; simp [loop, Spreading.detected]
  | cons f fs ih =>
    intro s i
    unfold loop
    rw [ih]
    rcases he : f.edges with _ | ⟨l, r⟩
    · have h1 : step fl dt save s i f = s := by unfold step; rw [he]
      have h2 : Spreading.detected (f :: fs) = Spreading.detected fs := by unfold Spreading.detected; rw [List.filter_cons_of_neg (by simp [he])]
      rw [h1, h2]
    · have h2 : Spreading.detected (f :: fs) = f :: Spreading.detected fs := by unfold Spreading.detected; rw [List.filter_cons_of_pos (by simp [he])]
      have h3 : (step fl dt save s i f).rows.map Row.time = s.rows.map Row.time ++ [s.time] := by
        unfold step; rw [he]; simp
      have h4 : (step fl dt save s i f).time = fl (s.time + dt) := by
        unfold step; rw [he]
      rw [h2, h3, h4, List.length_cons, List.range_succ_eq_map, List.map_cons, List.map_map, List.append_assoc]
      rfl

theorem added_iterate (t dt : ℚ) : ∀ n : ℕ, Added fl (List.replicate n dt ++ [t]) ((fun x => fl (x + dt))^[n] t)
  | 0 => .single t
  | n + 1 => by
    rw [Function.iterate_succ_apply']
    refine .perm ?_ (.add (added_iterate t dt n) (.single dt))
    rw [List.replicate_succ, List.cons_append]
    exact List.perm_append_singleton _ _

/-- **C139, times.** There is one row per map with a droplet, and the time of row `n`, a sum with `n` rounded additions, differs from `t0 + n·dt` by a relative `8/7·n·u` at most. -/
theorem C139_times (hu : 0 ≤ u) (hfl : Rounds u fl) (dt t0 : ℚ) (save flag : Bool) (frames : List Frame) :
    (collect fl dt t0 save flag frames).rows.length = (Spreading.detected frames).length ∧
    ∀ (n : ℕ) (h : n < (collect fl dt t0 save flag frames).rows.length), (n : ℚ) * u ≤ 1 / 8 →
      |(collect fl dt t0 save flag frames).rows[n].time - (t0 + n * dt)| ≤ 8 / 7 * (n * u) * (|t0| + n * |dt|) := by
  have h := loop_times (fl := fl) dt save frames ⟨initPeriodicInfo, t0, [], flag, []⟩ 0
  rw [List.map_nil, List.nil_append] at h
  have hlen : (collect fl dt t0 save flag frames).rows.length = (Spreading.detected frames).length := by
    have := congrArg List.length h
    rw [List.length_map, List.length_map, List.length_range] at this
    exact this
  refine ⟨hlen, fun n hn hk => ?_⟩
  have ht : (collect fl dt t0 save flag frames).rows[n].time = (fun x => fl (x + dt))^[n] t0 := by
    have h' : ((collect fl dt t0 save flag frames).rows.map Row.time)[n]? = some ((fun x => fl (x + dt))^[n] t0) := by
      unfold collect
      rw [h, List.getElem?_map, List.getElem?_range (by rw [← hlen]; exact hn)]
      rfl
    rw [List.getElem?_map, List.getElem?_eq_getElem hn] at h'
    exact Option.some.inj h'
  have he := (added_iterate (fl := fl) t0 dt n).error hu hfl
  rw [List.sum_append, List.sum_replicate, List.map_append, List.map_replicate, List.sum_append, List.sum_replicate] at he
  simp only [List.sum_cons, List.sum_nil, List.map_cons, List.map_nil, nsmul_eq_mul, add_zero, List.length_append, List.length_replicate, List.length_cons, List.length_nil, zero_add,
    Nat.add_sub_cancel] at he
  rw [ht, add_comm t0, add_comm |t0|]
  refine he.trans (mul_le_mul_of_nonneg_right (pow_bound hu n hk) (by positivity))

/-! ## Edges on the sides of the box -/

/-- A box of 0.7 as a double, and a droplet of a fourth of the box that moves to the right by a fourth of the box in each map. -/
def exBox : ℚ := roundBits 53 (7 / 10)
def exPos (n : ℕ) : ℚ := (n / 4 : ℕ) * exBox + if n % 4 = 3 then roundBits 53 (3 * exBox / 4) else (n % 4 : ℕ) * (exBox / 4)
def exHist : List (Option (ℚ × ℚ)) := (List.range 17).map fun n => some (exPos n, exPos (n + 1))
def exFrames : List Frame := exHist.map fun o => ⟨exBox, o.map fun p => (wrap exBox p.1, wrap exBox p.2), []⟩

/-- All numbers in these maps are doubles. -/
example : roundBits 53 exBox = exBox ∧ ∀ f ∈ exFrames, ∀ p ∈ f.edges, roundBits 53 p.1 = p.1 ∧ roundBits 53 p.2 = p.2 := by decide +kernel

/-- **C139, an edge on the side of the box.** The droplet moves steadily through a box of 0.7; with exact numbers its radius is right in all maps, by `C62_edges_and_radius`. In double precision, when
the right edge comes to the position 0 for the fourth time, it is put two boxes too far to the left: 3·0.7 is rounded down, and its remainder is almost 0.7 instead of 0. The radius is then seven times
as large. -/
theorem C139_side_of_box :
    Observes exBox exFrames exHist ∧ (∀ p ∈ exHist.reduceOption, Fits exBox p) ∧ exHist.reduceOption.IsChain (Slow exBox) ∧ exHist.reduceOption.IsChain (AtMostOneCrosses exBox) ∧
    ((Spreading.collect 1 0 false false exFrames).rows[15]?.map fun r => r.radius) = some ((exPos 16 - exPos 15) / 2) ∧
    (∃ r, (collect (roundBits 53) 1 0 false false exFrames).rows[15]? = some r ∧ 6 * ((exPos 16 - exPos 15) / 2) < r.radius) := by
  refine ⟨⟨rfl, ?_⟩, ?_, ?_, ?_, ?_, ?_⟩
  · decide +kernel
  · decide +kernel
  · decide +kernel
  · decide +kernel
  · decide +kernel
  · have h : ((collect (roundBits 53) 1 0 false false exFrames).rows[15]?.map fun r => decide (6 * ((exPos 16 - exPos 15) / 2) < r.radius)) = some true := by decide +kernel
    obtain ⟨r, h1, h2⟩ := Option.map_eq_some_iff.mp h
    exact ⟨r, h1, of_decide_eq_true h2⟩

/-- The same droplet a little further from the sides meets the hypotheses of `C139_double_partial`. -/
example : let hist : List (Option (ℚ × ℚ)) := [some (2, 8), none, some (5, 11), some (8, 14), some (12, 18)]
    Observes 10 (hist.map fun o => ⟨10, o.map (fun p => (wrap 10 p.1, wrap 10 p.2)), []⟩) hist ∧ (∀ p ∈ hist.reduceOption, Fits 10 p) ∧ (∀ p ∈ hist.reduceOption, Inside 10 1 p) ∧
    hist.reduceOption.IsChain (Steady 10 1) ∧ hist.reduceOption.IsChain (AtMostOneCrosses 10) ∧ Near 10 2 hist.reduceOption ∧ (10 : ℚ) * (3 * (2 : ℕ) + 3) / 2 ^ 53 ≤ 1 := by
  refine ⟨⟨rfl, by simp⟩, ?_, ?_, ?_, ?_, ?_, by norm_num⟩ <;> decide +kernel

end Strata.FloatSpreading
