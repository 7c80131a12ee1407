import Verif.Model.Spreading
import Verif.Spec.Spreading
import Mathlib.Tactic.Linarith
import Mathlib.Tactic.Ring
import Mathlib.Tactic.FieldSimp
/-! # Lemmas about the periodic-boundary tracker -/
namespace Strata.Spreading
open Strata.Spec

theorem wrap_bounds {B : ℚ} (hB : 0 < B) (x : ℚ) :
    x = wrap B x + B * (image B x : ℚ) ∧ 0 ≤ wrap B x ∧ wrap B x < B := by
  have h1 := Int.floor_le (x / B)
  have h2 := Int.lt_floor_add_one (x / B)
  rw [le_div_iff₀ hB] at h1
  rw [div_lt_iff₀ hB] at h2
  unfold wrap image
  refine ⟨by ring, by linarith, by linarith⟩

theorem pyMod_of {B : ℚ} (hB : 0 < B) (l : ℚ) (m : ℤ) (h0 : 0 ≤ l) (h1 : l < B) :
    pyMod (l + m * B) B = l := by
  have hb : B ≠ 0 := hB.ne'
  have : ⌊(l + m * B) / B⌋ = m := by
    rw [add_div, mul_div_assoc, div_self hb, mul_one, Int.floor_add_intCast]
    have : ⌊l / B⌋ = 0 := by
      rw [Int.floor_eq_zero_iff]; exact ⟨div_nonneg h0 hB.le, (div_lt_one hB).mpr h1⟩
    omega
  unfold pyMod; rw [this]; ring

theorem multAddition_of {B : ℚ} (hB : 0 < B) (l : ℚ) (m : ℤ) (h0 : 0 ≤ l) (h1 : l < B) :
    multAddition (l + m * B) B = if l > B / 2 then -1 else 1 := by
  unfold multAddition
  rw [pyMod_of hB l m h0 h1, abs_of_pos (by linarith)]
  congr 1
  apply propext; constructor <;> intro h <;> linarith

/-- Moving by less than half a box changes the image by at most one. -/
theorem image_step {B : ℚ} (hB : 0 < B) {x y : ℚ} (h : |y - x| < B / 2) :
    image B y = image B x - 1 ∨ image B y = image B x ∨ image B y = image B x + 1 := by
  obtain ⟨hx, hx0, hx1⟩ := wrap_bounds hB x
  obtain ⟨hy, hy0, hy1⟩ := wrap_bounds hB y
  rw [abs_lt] at h
  have a : B * ((image B y - image B x : ℤ) : ℚ) < B * 2 := by push_cast; linarith
  have b : B * (-2) < B * ((image B y - image B x : ℤ) : ℚ) := by push_cast; linarith
  have a' := lt_of_mul_lt_mul_left a hB.le
  have b' := lt_of_mul_lt_mul_left b hB.le
  have a'' : image B y - image B x < 2 := by exact_mod_cast a'
  have b'' : -2 < image B y - image B x := by exact_mod_cast b'
  omega

/-- For a droplet that fits in the box the edges are in the same image, in order, or the right edge is
in the next image and behind the left one. -/
theorem fits_cases {B : ℚ} (hB : 0 < B) {p : ℚ × ℚ} (h : Fits B p) :
    (image B p.2 = image B p.1 ∧ wrap B p.1 ≤ wrap B p.2) ∨
    (image B p.2 = image B p.1 + 1 ∧ wrap B p.2 < wrap B p.1) := by
  obtain ⟨hx, hx0, hx1⟩ := wrap_bounds hB p.1
  obtain ⟨hy, hy0, hy1⟩ := wrap_bounds hB p.2
  obtain ⟨h1, h2⟩ := h
  have a : B * ((image B p.2 - image B p.1 : ℤ) : ℚ) < B * 2 := by push_cast; linarith
  have b : B * (-1) < B * ((image B p.2 - image B p.1 : ℤ) : ℚ) := by push_cast; linarith
  have a' := lt_of_mul_lt_mul_left a hB.le
  have b' := lt_of_mul_lt_mul_left b hB.le
  have a'' : image B p.2 - image B p.1 < 2 := by exact_mod_cast a'
  have b'' : -1 < image B p.2 - image B p.1 := by exact_mod_cast b'
  have : image B p.2 = image B p.1 ∨ image B p.2 = image B p.1 + 1 := by omega
  rcases this with h | h
  · left; refine ⟨h, ?_⟩; rw [h] at hy; linarith
  · right; refine ⟨h, ?_⟩; rw [h] at hy; push_cast at hy; linarith

theorem crossing_iff {B : ℚ} (hB : 0 < B) {p q : ℚ × ℚ} (hp : Fits B p) (hq : Fits B q) :
    crossing (wrap B q.1) (wrap B q.2) (wrap B p.1) (wrap B p.2) =
      decide (image B q.2 - image B q.1 ≠ image B p.2 - image B p.1) := by
  unfold crossing
  rcases fits_cases hB hp with ⟨e1, w1⟩ | ⟨e1, w1⟩ <;>
  rcases fits_cases hB hq with ⟨e2, w2⟩ | ⟨e2, w2⟩ <;>
  simp [e1, e2, w1, w2, not_lt.mpr]

/-- One step of the tracker, at most one edge crossing. -/
theorem updateInfo_exact {B : ℚ} (hB : 0 < B) {p q : ℚ × ℚ} (hp : Fits B p) (hq : Fits B q)
    (hs : Slow B p q) (hc : AtMostOneCrosses B p q) (k : ℤ) :
    updateInfo ⟨some (wrap B p.1), some (wrap B p.2), image B p.1 - k, image B p.2 - k⟩ B
        (wrap B q.1) (wrap B q.2) =
      ⟨some (wrap B q.1), some (wrap B q.2), image B q.1 - k, image B q.2 - k⟩ := by
  obtain ⟨L, hL0, hL1⟩ := wrap_bounds hB p.1
  obtain ⟨R, hR0, hR1⟩ := wrap_bounds hB p.2
  obtain ⟨L', hL0', hL1'⟩ := wrap_bounds hB q.1
  obtain ⟨R', hR0', hR1'⟩ := wrap_bounds hB q.2
  obtain ⟨s1, s2⟩ := hs
  have i1 := image_step hB s1
  have i2 := image_step hB s2
  unfold updateInfo
  simp only [crossing_iff hB hp hq, multAddition_of hB _ _ hL0' hL1', multAddition_of hB _ _ hR0' hR1']
  rw [abs_lt] at s1 s2
  by_cases hev : image B q.2 - image B q.1 = image B p.2 - image B p.1
  · have : image B q.1 = image B p.1 ∧ image B q.2 = image B p.2 := by
      unfold AtMostOneCrosses at hc; omega
    simp [this.1, this.2]
  · have hev' : decide (image B q.2 - image B q.1 ≠ image B p.2 - image B p.1) = true := by
      simp [hev]
    rw [if_pos hev']
    rcases hc with hc | hc
    · -- the right edge crossed
      have hlt : ¬ |wrap B q.1 - wrap B p.1| > |wrap B q.2 - wrap B p.2| := by
        rw [hc] at L'
        have e : wrap B q.1 - wrap B p.1 = q.1 - p.1 := by linarith
        rw [e, not_lt]
        have h1 : |q.1 - p.1| < B / 2 := abs_lt.mpr s1
        rcases i2 with h | h | h
        · rw [h] at R'; push_cast at R'
          have : B / 2 < wrap B q.2 - wrap B p.2 := by linarith
          linarith [le_abs_self (wrap B q.2 - wrap B p.2)]
        · omega
        · rw [h] at R'; push_cast at R'
          have : B / 2 < -(wrap B q.2 - wrap B p.2) := by linarith
          linarith [neg_abs_le (wrap B q.2 - wrap B p.2)]
      rw [if_neg hlt, hc]
      rcases i2 with h | h | h
      · have hg : wrap B q.2 > B / 2 := by rw [h] at R'; push_cast at R'; linarith
        rw [if_pos hg, h]; congr 1; ring
      · omega
      · have hg : ¬ wrap B q.2 > B / 2 := by rw [h] at R'; push_cast at R'; linarith
        rw [if_neg hg, h]; congr 1; ring
    · have hgt : |wrap B q.1 - wrap B p.1| > |wrap B q.2 - wrap B p.2| := by
        rw [hc] at R'
        have e : wrap B q.2 - wrap B p.2 = q.2 - p.2 := by linarith
        rw [e]
        have h1 : |q.2 - p.2| < B / 2 := abs_lt.mpr s2
        rcases i1 with h | h | h
        · rw [h] at L'; push_cast at L'
          have : B / 2 < wrap B q.1 - wrap B p.1 := by linarith
          linarith [le_abs_self (wrap B q.1 - wrap B p.1)]
        · omega
        · rw [h] at L'; push_cast at L'
          have : B / 2 < -(wrap B q.1 - wrap B p.1) := by linarith
          linarith [neg_abs_le (wrap B q.1 - wrap B p.1)]
      rw [if_pos hgt, hc]
      rcases i1 with h | h | h
      · have hg : wrap B q.1 > B / 2 := by rw [h] at L'; push_cast at L'; linarith
        rw [if_pos hg, h]; congr 1; ring
      · omega
      · have hg : ¬ wrap B q.1 > B / 2 := by rw [h] at L'; push_cast at L'; linarith
        rw [if_neg hg, h]; congr 1; ring

/-- One step of the tracker when both edges may cross: the difference of the multipliers stays right. -/
theorem updateInfo_diff {B : ℚ} (hB : 0 < B) {p q : ℚ × ℚ} (hp : Fits B p) (hq : Fits B q)
    (hs : Slow B p q) (ml mr : ℤ) (hd : mr - ml = image B p.2 - image B p.1) :
    ∃ ml' mr', updateInfo ⟨some (wrap B p.1), some (wrap B p.2), ml, mr⟩ B (wrap B q.1) (wrap B q.2) =
        ⟨some (wrap B q.1), some (wrap B q.2), ml', mr'⟩ ∧
      mr' - ml' = image B q.2 - image B q.1 ∧
      (¬ AtMostOneCrosses B p q → ml' = ml ∧ mr' = mr) := by
  by_cases hc : AtMostOneCrosses B p q
  · have := updateInfo_exact hB hp hq hs hc (image B p.1 - ml)
    have e1 : image B p.1 - (image B p.1 - ml) = ml := by omega
    have e2 : image B p.2 - (image B p.1 - ml) = mr := by omega
    rw [e1, e2] at this
    exact ⟨image B q.1 - (image B p.1 - ml), image B q.2 - (image B p.1 - ml), this, by omega,
      fun h => absurd hc h⟩
  · refine ⟨ml, mr, ?_, ?_, fun _ => ⟨rfl, rfl⟩⟩
    all_goals
      have i1 := image_step hB hs.1
      have i2 := image_step hB hs.2
      have f1 := fits_cases hB hp
      have f2 := fits_cases hB hq
      unfold AtMostOneCrosses at hc
      have hev : image B q.2 - image B q.1 = image B p.2 - image B p.1 := by omega
    · unfold updateInfo
      simp [crossing_iff hB hp hq, hev]
    · omega

theorem updateInfo_first {B : ℚ} (hB : 0 < B) {q : ℚ × ℚ} (hq : Fits B q) :
    updateInfo initPeriodicInfo B (wrap B q.1) (wrap B q.2) =
      ⟨some (wrap B q.1), some (wrap B q.2), image B q.1 - image B q.1, image B q.2 - image B q.1⟩ := by
  unfold updateInfo initPeriodicInfo
  rcases fits_cases hB hq with ⟨e, w⟩ | ⟨e, w⟩
  · simp [e, not_lt.mpr w]
  · simp [e, w]

end Strata.Spreading
