import Verif.Model.FloatSample
import Verif.Props.FloatInterface
import Verif.Props.Sample
/-!
# Sampled quantities in floating point: C146
-/
namespace Strata.FloatSample
open Strata Strata.Flow Strata.Average Strata.Gmx Strata.FloatAverage Strata.FloatInterface

/-! ## Relative errors -/

/-- `y` is `x ≥ 0` with a relative error of at most `ε`. -/
def Rel (ε x y : ℚ) : Prop := 0 ≤ x ∧ |y - x| ≤ ε * x

theorem Rel.weaken {ε η x y : ℚ} (h : Rel ε x y) (he : ε ≤ η) : Rel η x y := ⟨h.1, le_trans h.2 (mul_le_mul_of_nonneg_right he h.1)⟩

theorem Rel.add {ε x y x' y' : ℚ} (h : Rel ε x y) (h' : Rel ε x' y') : Rel ε (x + x') (y + y') := by
  refine ⟨add_nonneg h.1 h'.1, ?_⟩
  have e : y + y' - (x + x') = (y - x) + (y' - x') := by ring
  rw [e, mul_add]
  exact le_trans (abs_add_le _ _) (add_le_add h.2 h'.2)

theorem Rel.nonneg {ε x y : ℚ} (h : Rel ε x y) (he : ε ≤ 1) : 0 ≤ y := by
  have h1 := (abs_le.mp h.2).1
  have := mul_le_mul_of_nonneg_right he h.1
  linarith

theorem Rel.mul {ε η x y x' y' : ℚ} (h : Rel ε x y) (h' : Rel η x' y') (he : 0 ≤ ε) : Rel (ε + η + ε * η) (x * x') (y * y') := by
  refine ⟨mul_nonneg h.1 h'.1, ?_⟩
  have e : y * y' - x * x' = (y - x) * x' + y * (y' - x') := by ring
  have hy : |y| ≤ (1 + ε) * x := by
    have : y = (y - x) + x := by ring
    rw [this]
    refine le_trans (abs_add_le _ _) ?_
    rw [abs_of_nonneg h.1]
    linarith [h.2]
  rw [e]
  refine le_trans (abs_add_le _ _) ?_
  rw [abs_mul, abs_mul, abs_of_nonneg h'.1]
  have h1 := mul_le_mul_of_nonneg_right h.2 h'.1
  have h2 := mul_le_mul hy h'.2 (abs_nonneg _) (mul_nonneg (by linarith) h.1)
  calc |y - x| * x' + |y| * |y' - x'| ≤ ε * x * x' + (1 + ε) * x * (η * x') := add_le_add h1 h2
    _ = (ε + η + ε * η) * (x * x') := by ring

theorem Rel.scale {ε x y c : ℚ} (h : Rel ε x y) (hc : 0 ≤ c) : Rel ε (c * x) (c * y) := by
  refine ⟨mul_nonneg hc h.1, ?_⟩
  rw [← mul_sub, abs_mul, abs_of_nonneg hc]
  have := mul_le_mul_of_nonneg_left h.2 hc
  linarith

theorem Rel.round {u ε x y : ℚ} {fl : ℚ → ℚ} (hfl : Rounds u fl) (hu : 0 ≤ u) (h : Rel ε x y) : Rel (ε + u * (1 + ε)) x (fl y) := by
  refine ⟨h.1, ?_⟩
  have hy : |y| ≤ (1 + ε) * x := by
    have : y = (y - x) + x := by ring
    rw [this]
    refine le_trans (abs_add_le _ _) ?_
    rw [abs_of_nonneg h.1]
    linarith [h.2]
  have e : fl y - x = (fl y - y) + (y - x) := by ring
  rw [e]
  refine le_trans (abs_add_le _ _) ?_
  have := mul_le_mul_of_nonneg_left hy hu
  have := hfl y
  linarith [h.2]

theorem Rel.refl {x : ℚ} (h : 0 ≤ x) : Rel 0 x x := ⟨h, by simp⟩

theorem rel_square {u : ℚ} {fl : ℚ → ℚ} (hfl : Rounds u fl) (hu : 0 ≤ u) (x : ℚ) : Rel u (x ^ 2) (square fl x) := by
  have := (Rel.refl (sq_nonneg x)).round hfl hu
  rw [pow_two] at this ⊢
  exact this.weaken (by linarith)

theorem rel_square_rounded {u : ℚ} {fl : ℚ → ℚ} (hfl : Rounds u fl) (hu : 0 ≤ u) (hu1 : u ≤ 1 / 1000) (x : ℚ) : Rel (301 / 100 * u) (x ^ 2) (square fl (fl x)) := by
  have h1 : Rel (2001 / 1000 * u) (x ^ 2) (fl x * fl x) := by
    refine ⟨sq_nonneg x, ?_⟩
    have e : fl x * fl x - x ^ 2 = (fl x - x) * (fl x - x + 2 * x) := by ring
    rw [e, abs_mul]
    have h := hfl x
    have h2 : |fl x - x + 2 * x| ≤ (u + 2) * |x| := by
      refine le_trans (abs_add_le _ _) ?_
      rw [abs_mul, abs_of_pos (by norm_num : (0 : ℚ) < 2)]
      linarith
    have ha := abs_nonneg x
    calc |fl x - x| * |fl x - x + 2 * x| ≤ u * |x| * ((u + 2) * |x|) := mul_le_mul h h2 (abs_nonneg _) (mul_nonneg hu ha)
      _ = u * (u + 2) * |x| ^ 2 := by ring
      _ ≤ 2001 / 1000 * u * |x| ^ 2 := by
        apply mul_le_mul_of_nonneg_right _ (sq_nonneg _)
        nlinarith
      _ = 2001 / 1000 * u * x ^ 2 := by rw [sq_abs]
  exact (h1.round hfl hu).weaken (by nlinarith)

/-! ## The formulas -/

theorem energy_error {u : ℚ} {fl : ℚ → ℚ} (hfl : Rounds u fl) (hu : 0 ≤ u) (hu1 : u ≤ 1 / 1000) {m : ℚ} (hm : 0 ≤ m) (a b : ℚ) :
    Rel (5 * u) (1 / 2 * m * (a ^ 2 + b ^ 2)) (energy fl m a b) := by
  unfold energy
  have h1 := (Rel.refl (mul_nonneg (by norm_num : (0 : ℚ) ≤ 1 / 2) hm)).round hfl hu
  have h2 := ((rel_square hfl hu a).add (rel_square hfl hu b)).round hfl hu
  exact ((h1.mul h2 (by linarith)).round hfl hu).weaken (by nlinarith [mul_nonneg hu hu, mul_nonneg hu (mul_nonneg hu hu)])

/-- The formula is evaluated with a small relative error, although terms cancel. -/
theorem formula_error {u : ℚ} {fl : ℚ → ℚ} (hfl : Rounds u fl) (hu : 0 ≤ u) (hu1 : u ≤ 1 / 1000) {μ : ℚ} (hμ : 0 ≤ μ) (a b c d : ℚ) :
    Rel (20 * u) (Sample.formula μ a b c d) (formula fl μ a b c d) := by
  have huu : u * u ≤ 1 / 1000 * u := mul_le_mul_of_nonneg_right hu1 hu
  have hS : Rel (2001 / 1000 * u) (a ^ 2 + d ^ 2) (fl (square fl a + square fl d)) :=
    (((rel_square hfl hu a).add (rel_square hfl hu d)).round hfl hu).weaken (by linarith)
  have hT : Rel (402 / 100 * u) ((a + d) ^ 2 / 3) (fl (square fl (fl (a + d)) / 3)) := by
    have := (((rel_square_rounded hfl hu hu1 (a + d)).scale (by norm_num : (0 : ℚ) ≤ 1 / 3)).round hfl hu).weaken (show _ ≤ 402 / 100 * u by linarith)
    have e1 : (1 : ℚ) / 3 * (a + d) ^ 2 = (a + d) ^ 2 / 3 := by ring
    have e2 : (1 : ℚ) / 3 * square fl (fl (a + d)) = square fl (fl (a + d)) / 3 := by ring
    rwa [e1, e2] at this
  have hE : Rel (152 / 10 * u) (a ^ 2 + d ^ 2 - (a + d) ^ 2 / 3) (fl (fl (square fl a + square fl d) - fl (square fl (fl (a + d)) / 3))) := by
    have h1 : (a ^ 2 + d ^ 2) ≤ 3 * (a ^ 2 + d ^ 2 - (a + d) ^ 2 / 3) := by nlinarith [sq_nonneg (a - d)]
    have h2 : (a + d) ^ 2 / 3 ≤ 2 * (a ^ 2 + d ^ 2 - (a + d) ^ 2 / 3) := by nlinarith [sq_nonneg (a - d)]
    have h0 : 0 ≤ a ^ 2 + d ^ 2 - (a + d) ^ 2 / 3 := by nlinarith [sq_nonneg (a - d), sq_nonneg (a + d)]
    generalize a ^ 2 + d ^ 2 = S at *
    generalize (a + d) ^ 2 / 3 = T at *
    generalize fl (square fl a + square fl d) = S' at *
    generalize fl (square fl (fl (a + d)) / 3) = T' at *
    have : Rel (14046 / 1000 * u) (S - T) (S' - T') := by
      refine ⟨h0, ?_⟩
      have e : S' - T' - (S - T) = (S' - S) + -(T' - T) := by ring
      rw [e]
      refine le_trans (abs_add_le _ _) ?_
      rw [abs_neg]
      have h3 := hS.2
      have h4 := hT.2
      have h5 := mul_le_mul_of_nonneg_left h1 (mul_nonneg (by norm_num : (0 : ℚ) ≤ 2001 / 1000) hu)
      have h6 := mul_le_mul_of_nonneg_left h2 (mul_nonneg (by norm_num : (0 : ℚ) ≤ 402 / 100) hu)
      have h7 := mul_nonneg hu h0
      linarith
    exact (this.round hfl hu).weaken (by linarith)
  have hm : Rel u (2 * μ) (fl (2 * μ)) := ((Rel.refl (mul_nonneg (by norm_num : (0 : ℚ) ≤ 2) hμ)).round hfl hu).weaken (by linarith)
  have hA := ((hm.mul hE hu).round hfl hu).weaken (show _ ≤ 173 / 10 * u by
    have h3 : u * u * u ≤ 1 / 1000 * (u * u) := by nlinarith [mul_nonneg hu hu]
    nlinarith)
  have hB := (((rel_square_rounded hfl hu hu1 (c + b)).scale hμ).round hfl hu).weaken (show _ ≤ 173 / 10 * u by linarith)
  have := ((hA.add hB).round hfl hu).weaken (show _ ≤ 20 * u by linarith)
  exact this

/-! ## Gradients -/

/-- One term of the differences at the ends. -/
theorem term_error {u : ℚ} {fl : ℚ → ℚ} (hfl : Rounds u fl) (hu : 0 ≤ u) (hu1 : u ≤ 1 / 1000) {h F c x x' : ℚ} (hh : 0 < h) (hx : |x| ≤ F) (hx' : |x' - x| ≤ u * |x|) :
    |fl (fl (c / h) * x') - c / h * x| ≤ 301 / 100 * u * (|c| * (F / h)) := by
  have hF : 0 ≤ F := le_trans (abs_nonneg _) hx
  have h1 := hfl (c / h)
  have h2 := hfl (fl (c / h) * x')
  generalize hk : c / h = k at *
  have hkc : |k| * F = |c| * (F / h) := by rw [← hk, abs_div, abs_of_pos hh]; ring
  rw [← hkc]
  have hx'' : |x'| ≤ (1 + u) * F := by
    have : x' = (x' - x) + x := by ring
    rw [this]
    refine le_trans (abs_add_le _ _) ?_
    have := mul_le_mul_of_nonneg_left hx hu
    linarith
  have hp : |fl k * x' - k * x| ≤ (2 * u + u * u) * (|k| * F) := by
    have e : fl k * x' - k * x = (fl k - k) * x' + k * (x' - x) := by ring
    rw [e]
    refine le_trans (abs_add_le _ _) ?_
    rw [abs_mul, abs_mul]
    have a1 := mul_le_mul h1 hx'' (abs_nonneg _) (mul_nonneg hu (abs_nonneg k))
    have a2 : |k| * |x' - x| ≤ |k| * (u * F) := mul_le_mul_of_nonneg_left (le_trans hx' (mul_le_mul_of_nonneg_left hx hu)) (abs_nonneg k)
    calc _ ≤ u * |k| * ((1 + u) * F) + |k| * (u * F) := add_le_add a1 a2
      _ = _ := by ring
  have hkF : 0 ≤ |k| * F := mul_nonneg (abs_nonneg k) hF
  have hkx : |k * x| ≤ |k| * F := by rw [abs_mul]; exact mul_le_mul_of_nonneg_left hx (abs_nonneg k)
  have hp' : |fl k * x'| ≤ (1 + 2 * u + u * u) * (|k| * F) := by
    have : fl k * x' = (fl k * x' - k * x) + k * x := by ring
    rw [this]
    refine le_trans (abs_add_le _ _) ?_
    linarith
  have e : fl (fl k * x') - k * x = (fl (fl k * x') - fl k * x') + (fl k * x' - k * x) := by ring
  rw [e]
  refine le_trans (abs_add_le _ _) ?_
  have h3 := mul_le_mul_of_nonneg_left hp' hu
  have hc : u * (1 + 2 * u + u * u) + (2 * u + u * u) ≤ 301 / 100 * u := by nlinarith [mul_nonneg hu hu]
  have := mul_le_mul_of_nonneg_right hc hkF
  linarith

theorem threePoint_error {u : ℚ} {fl : ℚ → ℚ} (hfl : Rounds u fl) (hu : 0 ≤ u) (hu1 : u ≤ 1 / 1000) {h F a b c x y z x' y' z' : ℚ} (hh : 0 < h)
    (habc : |a| + |b| + |c| = 4) (hx : |x| ≤ F) (hx' : |x' - x| ≤ u * |x|) (hy : |y| ≤ F) (hy' : |y' - y| ≤ u * |y|) (hz : |z| ≤ F) (hz' : |z' - z| ≤ u * |z|) :
    |threePoint fl h a b c x' y' z' - (a / h * x + b / h * y + c / h * z)| ≤ 21 * u * (F / h) ∧ |a / h * x + b / h * y + c / h * z| ≤ 4 * (F / h) := by
  have hF : 0 ≤ F := le_trans (abs_nonneg _) hx
  have hFh : 0 ≤ F / h := div_nonneg hF hh.le
  have t1 := term_error hfl hu hu1 (c := a) hh hx hx'
  have t2 := term_error hfl hu hu1 (c := b) hh hy hy'
  have t3 := term_error hfl hu hu1 (c := c) hh hz hz'
  have size : ∀ k w : ℚ, |w| ≤ F → |k / h * w| ≤ |k| * (F / h) := by
    intro k w hw
    rw [abs_mul, abs_div, abs_of_pos hh]
    have := mul_le_mul_of_nonneg_left hw (div_nonneg (abs_nonneg k) hh.le)
    have e : |k| / h * F = |k| * (F / h) := by ring
    linarith
  have s1 := size a x hx
  have s2 := size b y hy
  have s3 := size c z hz
  unfold threePoint
  generalize fl (fl (a / h) * x') = A at *
  generalize fl (fl (b / h) * y') = B at *
  generalize fl (fl (c / h) * z') = C at *
  generalize a / h * x = p at *
  generalize b / h * y = q at *
  generalize c / h * z = r at *
  have e4 : |a| * (F / h) + |b| * (F / h) + |c| * (F / h) = 4 * (F / h) := by rw [← habc]; ring
  generalize |a| * (F / h) = fa at *
  generalize |b| * (F / h) = fb at *
  generalize |c| * (F / h) = fc at *
  generalize F / h = S at *
  have r1 := hfl (A + B)
  have r2 := hfl (fl (A + B) + C)
  generalize fl (A + B) = D at *
  generalize fl (D + C) = E at *
  have hfa : 0 ≤ fa := le_trans (abs_nonneg _) s1
  have hfb : 0 ≤ fb := le_trans (abs_nonneg _) s2
  have hfc : 0 ≤ fc := le_trans (abs_nonneg _) s3
  have huS : 0 ≤ u * S := mul_nonneg hu hFh
  have huuS : u * (u * S) ≤ 1 / 1000 * (u * S) := mul_le_mul_of_nonneg_right hu1 huS
  have n1 : |A + B - (p + q)| ≤ 301 / 100 * u * (fa + fb) := by
    have e : A + B - (p + q) = (A - p) + (B - q) := by ring
    rw [e]
    refine le_trans (abs_add_le _ _) ?_
    linarith
  have n2 : |p + q| ≤ fa + fb := le_trans (abs_add_le _ _) (add_le_add s1 s2)
  have n3 : |A + B| ≤ fa + fb + 301 / 100 * u * (fa + fb) := by
    have e : A + B = (A + B - (p + q)) + (p + q) := by ring
    rw [e]
    refine le_trans (abs_add_le _ _) ?_
    linarith
  have n3' : |A + B| ≤ 402 / 100 * S := by
    have h1 : fa + fb ≤ 4 * S := by linarith
    have h2 := mul_le_mul_of_nonneg_left h1 (mul_nonneg (by norm_num : (0 : ℚ) ≤ 301 / 100) hu)
    have h3 : u * S ≤ 1 / 1000 * S := mul_le_mul_of_nonneg_right hu1 hFh
    linarith
  have n4 : |D + C - (p + q + r)| ≤ 1607 / 100 * u * S := by
    have e : D + C - (p + q + r) = (D - (A + B)) + (A + B - (p + q)) + (C - r) := by ring
    rw [e]
    refine le_trans (abs_add_le _ _) ?_
    have h1 := abs_add_le (D - (A + B)) (A + B - (p + q))
    have h2 := mul_le_mul_of_nonneg_left n3' hu
    have h3 : 301 / 100 * u * (fa + fb) + 301 / 100 * u * fc = 301 / 100 * u * (4 * S) := by rw [← e4]; ring
    linarith
  have n5 : |p + q + r| ≤ 4 * S := by
    refine le_trans (abs_add_le _ _) ?_
    linarith
  refine ⟨?_, n5⟩
  have n6 : |D + C| ≤ 402 / 100 * S := by
    have e : D + C = (D + C - (p + q + r)) + (p + q + r) := by ring
    rw [e]
    refine le_trans (abs_add_le _ _) ?_
    have h3 : u * S ≤ 1 / 1000 * S := mul_le_mul_of_nonneg_right hu1 hFh
    linarith
  have e : E - (p + q + r) = (E - (D + C)) + (D + C - (p + q + r)) := by ring
  rw [e]
  refine le_trans (abs_add_le _ _) ?_
  have h2 := mul_le_mul_of_nonneg_left n6 hu
  linarith

theorem central_error {u : ℚ} {fl : ℚ → ℚ} (hfl : Rounds u fl) (hu : 0 ≤ u) (hu1 : u ≤ 1 / 1000) {h F x y x' y' : ℚ} (hh : 0 < h)
    (hx : |x| ≤ F) (hx' : |x' - x| ≤ u * |x|) (hy : |y| ≤ F) (hy' : |y' - y| ≤ u * |y|) :
    |fl (fl (x' - y') / fl (2 * h)) - (x - y) / (2 * h)| ≤ 21 * u * (F / h) ∧ |(x - y) / (2 * h)| ≤ 4 * (F / h) := by
  have hF : 0 ≤ F := le_trans (abs_nonneg _) hx
  have hFh : 0 ≤ F / h := div_nonneg hF hh.le
  have hH := rounded_nonneg hfl (x := 2 * h) (by linarith)
  have r1 := hfl (x' - y')
  have r2 := hfl (fl (x' - y') / fl (2 * h))
  generalize fl (2 * h) = H at *
  generalize fl (x' - y') = X at *
  have hHpos : 0 < H := by
    have : 0 < (1 - u) * (2 * h) := mul_pos (by linarith) (by linarith)
    linarith [hH.1]
  have huF : 0 ≤ u * F := mul_nonneg hu hF
  have huuF : u * (u * F) ≤ 1 / 1000 * (u * F) := mul_le_mul_of_nonneg_right hu1 huF
  have n0 : |x - y| ≤ 2 * F := by
    have := abs_sub x y
    linarith
  have n1 : |x' - y' - (x - y)| ≤ 2 * u * F := by
    have e : x' - y' - (x - y) = (x' - x) + -(y' - y) := by ring
    rw [e]
    refine le_trans (abs_add_le _ _) ?_
    rw [abs_neg]
    have := mul_le_mul_of_nonneg_left hx hu
    have := mul_le_mul_of_nonneg_left hy hu
    linarith
  have n2 : |x' - y'| ≤ 2 * F + 2 * u * F := by
    have e : x' - y' = (x' - y' - (x - y)) + (x - y) := by ring
    rw [e]
    refine le_trans (abs_add_le _ _) ?_
    linarith
  have n3 : |X - (x - y)| ≤ 401 / 100 * u * F := by
    have e : X - (x - y) = (X - (x' - y')) + (x' - y' - (x - y)) := by ring
    rw [e]
    refine le_trans (abs_add_le _ _) ?_
    have := mul_le_mul_of_nonneg_left n2 hu
    linarith
  have n4 : |H - 2 * h| ≤ u * (2 * h) := abs_le.mpr ⟨by linarith [hH.1], by linarith [hH.2]⟩
  have n5 : |X / H - (x - y) / (2 * h)| ≤ 31 / 10 * u * (F / h) := by
    have e : X / H - (x - y) / (2 * h) = ((X - (x - y)) * (2 * h) + (x - y) * (2 * h - H)) / (2 * h * H) := by
      field_simp
      ring
    have hpos : 0 < 2 * h * H := by positivity
    rw [e, abs_div, abs_of_pos hpos, div_le_iff₀ hpos]
    refine le_trans (abs_add_le _ _) ?_
    rw [abs_mul (X - (x - y)), abs_mul (x - y), abs_of_pos (show 0 < 2 * h by linarith), abs_sub_comm (2 * h) H]
    have a1 := mul_le_mul_of_nonneg_right n3 (show 0 ≤ 2 * h by linarith)
    have a2 := mul_le_mul n0 n4 (abs_nonneg _) (by linarith)
    have a3 : 31 / 10 * u * (F / h) * (2 * h * H) = 62 / 10 * (u * F) * H := by field_simp; ring
    rw [a3]
    have a4 := mul_le_mul_of_nonneg_left hH.1 (mul_nonneg (by norm_num : (0 : ℚ) ≤ 62 / 10) huF)
    have a5 : (999 : ℚ) / 1000 * (2 * h) ≤ (1 - u) * (2 * h) := mul_le_mul_of_nonneg_right (by linarith) (by linarith)
    have a6 := mul_le_mul_of_nonneg_left a5 (mul_nonneg (by norm_num : (0 : ℚ) ≤ 62 / 10) huF)
    have a7 : 0 ≤ u * F * h := mul_nonneg huF hh.le
    linarith
  have n6 : |(x - y) / (2 * h)| ≤ F / h := by
    rw [abs_div, abs_of_pos (show 0 < 2 * h by linarith), div_le_iff₀ (by linarith)]
    have : F / h * (2 * h) = 2 * F := by field_simp
    linarith
  refine ⟨?_, by linarith⟩
  have huS : 0 ≤ u * (F / h) := mul_nonneg hu hFh
  have n7 : |X / H| ≤ 2 * (F / h) := by
    have e : X / H = (X / H - (x - y) / (2 * h)) + (x - y) / (2 * h) := by ring
    rw [e]
    refine le_trans (abs_add_le _ _) ?_
    have := mul_le_mul_of_nonneg_right hu1 hFh
    linarith
  have e : fl (X / H) - (x - y) / (2 * h) = (fl (X / H) - X / H) + (X / H - (x - y) / (2 * h)) := by ring
  rw [e]
  refine le_trans (abs_add_le _ _) ?_
  have := mul_le_mul_of_nonneg_left n7 hu
  linarith

/-- The differences, of values that are themselves rounded. -/
theorem gradient_error {u : ℚ} {fl : ℚ → ℚ} (hfl : Rounds u fl) (hu : 0 ≤ u) (hu1 : u ≤ 1 / 1000) {n : ℕ} (hn : 3 ≤ n) {h F : ℚ} (hh : 0 < h) (f : ℕ → ℚ)
    (hF : ∀ k, k < n → |f k| ≤ F) {i : ℕ} (hi : i < n) :
    |gradient fl n h (fun k => fl (f k)) i - Sample.gradient n h f i| ≤ 21 * u * (F / h) ∧ |Sample.gradient n h f i| ≤ 4 * (F / h) := by
  unfold gradient Sample.gradient
  by_cases h0 : i = 0
  · rw [if_pos h0, if_pos h0]
    exact threePoint_error hfl hu hu1 hh (by norm_num [abs_of_neg, abs_of_pos]) (hF _ (by omega)) (hfl _) (hF _ (by omega)) (hfl _) (hF _ (by omega)) (hfl _)
  rw [if_neg h0, if_neg h0]
  by_cases h1 : i + 1 = n
  · rw [if_pos h1, if_pos h1]
    exact threePoint_error hfl hu hu1 hh (by norm_num [abs_of_neg, abs_of_pos]) (hF _ (by omega)) (hfl _) (hF _ (by omega)) (hfl _) (hF _ (by omega)) (hfl _)
  rw [if_neg h1, if_neg h1]
  exact central_error hfl hu hu1 hh (hF _ (by omega)) (hfl _) (hF _ (by omega)) (hfl _)

theorem square_diff {u S a a' k δ : ℚ} (hu : 0 ≤ u) (hS : 0 ≤ S) (ha : |a| ≤ k * S) (h : |a' - a| ≤ δ * u * S) (hδ : 0 ≤ δ) (hk : 0 ≤ k) (hδu : δ * u ≤ 42 / 1000) :
    |a' ^ 2 - a ^ 2| ≤ δ * (2 * k + 42 / 1000) * (u * S ^ 2) := by
  have e : a' ^ 2 - a ^ 2 = (a' - a) * (a' - a + 2 * a) := by ring
  rw [e, abs_mul]
  have h2 : |a' - a + 2 * a| ≤ (42 / 1000 + 2 * k) * S := by
    refine le_trans (abs_add_le _ _) ?_
    rw [abs_mul, abs_of_pos (by norm_num : (0 : ℚ) < 2)]
    have := mul_le_mul_of_nonneg_right hδu hS
    linarith
  calc |a' - a| * |a' - a + 2 * a| ≤ δ * u * S * ((42 / 1000 + 2 * k) * S) := mul_le_mul h h2 (abs_nonneg _) (mul_nonneg (mul_nonneg hδ hu) hS)
    _ = _ := by ring

/-- How the formula depends on the gradients. -/
theorem formula_diff {u S μ a b c d a' b' c' d' : ℚ} (hu : 0 ≤ u) (hu1 : u ≤ 1 / 1000) (hS : 0 ≤ S) (hμ : 0 ≤ μ) (ha : |a| ≤ 4 * S) (hb : |b| ≤ 4 * S) (hc : |c| ≤ 4 * S)
    (hd : |d| ≤ 4 * S) (ha' : |a' - a| ≤ 21 * u * S) (hb' : |b' - b| ≤ 21 * u * S) (hc' : |c' - c| ≤ 21 * u * S) (hd' : |d' - d| ≤ 21 * u * S) :
    |Sample.formula μ a' b' c' d' - Sample.formula μ a b c d| ≤ 1800 * (μ * (u * S ^ 2)) ∧ Sample.formula μ a b c d ≤ 128 * (μ * S ^ 2) := by
  have q1 := square_diff hu hS ha ha' (by norm_num) (by norm_num) (by linarith)
  have q2 := square_diff hu hS hd hd' (by norm_num) (by norm_num) (by linarith)
  have two : ∀ x y x' y' : ℚ, |x| ≤ 4 * S → |y| ≤ 4 * S → |x' - x| ≤ 21 * u * S → |y' - y| ≤ 21 * u * S →
      |(x' + y') ^ 2 - (x + y) ^ 2| ≤ 42 * (2 * 8 + 42 / 1000) * (u * S ^ 2) ∧ (x + y) ^ 2 ≤ 64 * S ^ 2 := by
    intro x y x' y' h1 h2 h3 h4
    have h5 : |x + y| ≤ 8 * S := le_trans (abs_add_le _ _) (by linarith)
    constructor
    · refine square_diff hu hS h5 ?_ (by norm_num) (by norm_num) (by linarith)
      have e : x' + y' - (x + y) = (x' - x) + (y' - y) := by ring
      rw [e]
      exact le_trans (abs_add_le _ _) (by linarith)
    · have := mul_self_le_mul_self (abs_nonneg _) h5
      rw [abs_mul_abs_self] at this
      linarith
  obtain ⟨q3, -⟩ := two a d a' d' ha hd ha' hd'
  obtain ⟨q4, s4⟩ := two c b c' b' hc hb hc' hb'
  have hq : 0 ≤ u * S ^ 2 := mul_nonneg hu (sq_nonneg S)
  have single : ∀ x : ℚ, |x| ≤ 4 * S → x ^ 2 ≤ 16 * S ^ 2 := by
    intro x h
    have := mul_self_le_mul_self (abs_nonneg _) h
    rw [abs_mul_abs_self] at this
    linarith
  have s1 := single a ha
  have s2 := single d hd
  unfold Sample.formula
  constructor
  · have e : 2 * μ * (a' ^ 2 + d' ^ 2 - (a' + d') ^ 2 / 3) + μ * (c' + b') ^ 2 - (2 * μ * (a ^ 2 + d ^ 2 - (a + d) ^ 2 / 3) + μ * (c + b) ^ 2) =
        μ * (2 * (a' ^ 2 - a ^ 2) + 2 * (d' ^ 2 - d ^ 2) - 2 / 3 * ((a' + d') ^ 2 - (a + d) ^ 2) + ((c' + b') ^ 2 - (c + b) ^ 2)) := by ring
    rw [e, abs_mul, abs_of_nonneg hμ]
    have : |2 * (a' ^ 2 - a ^ 2) + 2 * (d' ^ 2 - d ^ 2) - 2 / 3 * ((a' + d') ^ 2 - (a + d) ^ 2) + ((c' + b') ^ 2 - (c + b) ^ 2)| ≤ 1800 * (u * S ^ 2) := by
      rw [abs_le] at q1 q2 q3 q4 ⊢
      constructor <;> linarith [q1.1, q1.2, q2.1, q2.2, q3.1, q3.2, q4.1, q4.2]
    have := mul_le_mul_of_nonneg_left this hμ
    linarith
  · have h1 : 2 * (a ^ 2 + d ^ 2 - (a + d) ^ 2 / 3) + (c + b) ^ 2 ≤ 128 * S ^ 2 := by linarith [sq_nonneg (a + d)]
    have := mul_le_mul_of_nonneg_left h1 hμ
    linarith

/-- One bin. -/
theorem bin_error {u : ℚ} {fl : ℚ → ℚ} (hfl : Rounds u fl) (hu : 0 ≤ u) (hu1 : u ≤ 1 / 1000) {S μ a b c d a' b' c' d' w : ℚ} (hS : 0 ≤ S) (hμ : 0 ≤ μ) (hw : w ≠ 0)
    (ha : |a| ≤ 4 * S) (hb : |b| ≤ 4 * S) (hc : |c| ≤ 4 * S) (hd : |d| ≤ 4 * S) (ha' : |a' - a| ≤ 21 * u * S) (hb' : |b' - b| ≤ 21 * u * S) (hc' : |c' - c| ≤ 21 * u * S)
    (hd' : |d' - d| ≤ 21 * u * S) :
    |fl (formula fl μ a' b' c' d' / square fl w) - Sample.formula μ a b c d / w ^ 2| ≤ 5000 * u * (μ * S ^ 2 / w ^ 2) := by
  obtain ⟨d1, d2⟩ := formula_diff hu hu1 hS hμ ha hb hc hd ha' hb' hc' hd'
  obtain ⟨f0, f1⟩ := formula_error hfl hu hu1 hμ a' b' c' d'
  obtain ⟨-, w1⟩ := rel_square hfl hu w
  have hw2 : 0 < w ^ 2 := by positivity
  have h0 := Sample.formula_nonneg hμ a b c d
  have r := hfl (formula fl μ a' b' c' d' / square fl w)
  have eM : μ * S ^ 2 / w ^ 2 * w ^ 2 = μ * S ^ 2 := by field_simp
  have hM : 0 ≤ μ * S ^ 2 := mul_nonneg hμ (sq_nonneg S)
  have hMw : 0 ≤ μ * S ^ 2 / w ^ 2 := div_nonneg hM hw2.le
  have e1 : μ * (u * S ^ 2) = u * (μ * S ^ 2) := by ring
  rw [e1] at d1
  generalize formula fl μ a' b' c' d' = N' at *
  generalize Sample.formula μ a' b' c' d' = N1 at *
  generalize Sample.formula μ a b c d = N at *
  generalize square fl w = W at *
  generalize w ^ 2 = q at *
  generalize hMM : μ * S ^ 2 = M at *
  have huM : 0 ≤ u * M := mul_nonneg hu hM
  have huM1 : u * M ≤ 1 / 1000 * M := mul_le_mul_of_nonneg_right hu1 hM
  have huuM : u * (u * M) ≤ 1 / 1000 * (u * M) := mul_le_mul_of_nonneg_right hu1 huM
  have n1 : N1 ≤ 130 * M := by
    have := (abs_le.mp d1).2
    linarith
  have n2 : |N' - N| ≤ 4400 * (u * M) := by
    have e : N' - N = (N' - N1) + (N1 - N) := by ring
    rw [e]
    refine le_trans (abs_add_le _ _) ?_
    have := mul_le_mul_of_nonneg_left n1 (mul_nonneg (by norm_num : (0 : ℚ) ≤ 20) hu)
    linarith
  have hWl : 999 / 1000 * q ≤ W := by
    have := (abs_le.mp w1).1
    have := mul_le_mul_of_nonneg_right hu1 hw2.le
    linarith
  have hW : 0 < W := by linarith
  have n3 : |N' / W - N / q| ≤ 4540 * u * (M / q) := by
    have e : N' / W - N / q = ((N' - N) * q + N * (q - W)) / (q * W) := by
      field_simp
      ring
    have hpos : 0 < q * W := mul_pos hw2 hW
    rw [e, abs_div, abs_of_pos hpos, div_le_iff₀ hpos]
    refine le_trans (abs_add_le _ _) ?_
    rw [abs_mul, abs_mul, abs_of_pos hw2, abs_of_nonneg h0, abs_sub_comm q W]
    have a1 := mul_le_mul_of_nonneg_right n2 hw2.le
    have a2 := mul_le_mul d2 w1 (abs_nonneg _) (by linarith)
    have a3 : 4540 * u * (M / q) * (q * W) = 4540 * (u * M) * W := by
      rw [← eM]; field_simp
    rw [a3]
    have a4 := mul_le_mul_of_nonneg_left hWl (mul_nonneg (by norm_num : (0 : ℚ) ≤ 4540) huM)
    have a5 : 0 ≤ u * M * q := mul_nonneg huM hw2.le
    linarith
  have n4 : |N / q| ≤ 128 * (M / q) := by
    rw [abs_of_nonneg (div_nonneg h0 hw2.le), div_le_iff₀ hw2]
    linarith
  have n5 : |N' / W| ≤ 200 * (1 + 4540 / 1000) * (M / q) := by
    have e : N' / W = (N' / W - N / q) + N / q := by ring
    rw [e]
    refine le_trans (abs_add_le _ _) ?_
    have := mul_le_mul_of_nonneg_right hu1 hMw
    linarith
  have n6 : |N' / W| ≤ 133 * (M / q) := by
    have e : N' / W = (N' / W - N / q) + N / q := by ring
    rw [e]
    refine le_trans (abs_add_le _ _) ?_
    have := mul_le_mul_of_nonneg_right hu1 hMw
    linarith
  have e : fl (N' / W) - N / q = (fl (N' / W) - N' / W) + (N' / W - N / q) := by ring
  rw [e]
  refine le_trans (abs_add_le _ _) ?_
  have := mul_le_mul_of_nonneg_left n6 hu
  have : 0 ≤ u * (M / q) := mul_nonneg hu hMw
  linarith

theorem bin_nonneg {u : ℚ} {fl : ℚ → ℚ} (hfl : Rounds u fl) (hu : 0 ≤ u) (hu1 : u ≤ 1 / 1000) {μ a b c d w : ℚ} (hμ : 0 ≤ μ) :
    0 ≤ fl (formula fl μ a b c d / square fl w) := by
  have h1 := (formula_error hfl hu hu1 hμ a b c d).nonneg (by linarith)
  have h2 := (rel_square hfl hu w).nonneg (by linarith)
  have := (rounded_nonneg hfl (div_nonneg h1 h2)).1
  have h3 : 0 ≤ (1 - u) * (formula fl μ a b c d / square fl w) := mul_nonneg (by linarith) (div_nonneg h1 h2)
  linarith

/-! ## C146 -/

/-- The weight of a bin: its value of the field, or 1. -/
def weightAt (r : Record) (weight : Option Label) (t : ℕ) : ℚ := weight.elim 1 fun w => val r w t

/-- **C146, viscous dissipation.** In floating point arithmetic with relative errors of at most `u` (double precision: `u = 2⁻⁵³`) the viscous dissipation is
returned whenever it is in exact arithmetic, for the same bins (those with a weight other than 0); it is never negative; and if the (weighted) velocities are at most
`F` and the bins at least `h` wide and high, its error is at most `5000 u μ (F / h)² / w²` in a bin of weight `w`. -/
theorem C146_dissipation (u : ℚ) (hu : 0 ≤ u) (hu1 : u ≤ 1 / 1000) (fl : ℚ → ℚ) (hfl : Rounds u fl) (f : Flow) (μ : ℚ) (hμ : 0 ≤ μ) (co flows : Label × Label) (weight : Option Label)
    (g : Flow) (ds : List (Option ℚ)) (hrun : Sample.viscousDissipation f μ co flows weight = .ok (g, ds))
    (h : ℚ) (hh : 0 < h) (hsp : ∀ dx dy, f.info.spacing = some (dx, dy) → h ≤ dx ∧ h ≤ dy)
    (F : ℚ) (hF : ∀ t, t < ds.length → |val g.data flows.1 t * weightAt g.data weight t| ≤ F ∧ |val g.data flows.2 t * weightAt g.data weight t| ≤ F) :
    ∃ ds', viscousDissipation fl f μ co flows weight = .ok (g, ds') ∧ ds'.length = ds.length ∧ ∀ t, t < ds.length →
      (weightAt g.data weight t = 0 → ds.getD t none = none ∧ ds'.getD t none = none) ∧
      (weightAt g.data weight t ≠ 0 → ∃ d d', ds.getD t none = some d ∧ ds'.getD t none = some d' ∧ 0 ≤ d' ∧
        |d' - d| ≤ 5000 * u * (μ * (F / h) ^ 2 / weightAt g.data weight t ^ 2)) := by
  unfold Sample.viscousDissipation at hrun
  unfold viscousDissipation
  rcases hsh : f.info.shape with _ | ⟨nx, ny⟩
  · rw [hsh] at hrun; cases hrun
  rcases hspa : f.info.spacing with _ | ⟨dx, dy⟩
  · rw [hsh, hspa] at hrun; cases hrun
  rw [hsh, hspa] at hrun
  simp only at hrun ⊢
  obtain ⟨g1, hs, hrun⟩ := Simple.bind_eq_ok hrun
  rw [hs, ok_bind]
  by_cases hneg : nx < 0 ∨ ny < 0 ∨ (size g1.data : ℤ) ≠ nx * ny
  · rw [if_pos hneg] at hrun; cases hrun
  rw [if_neg hneg] at hrun ⊢
  obtain ⟨w, hw, hrun⟩ := Simple.bind_eq_ok hrun
  obtain ⟨uu, huu, hrun⟩ := Simple.bind_eq_ok hrun
  obtain ⟨vv, hvv, hrun⟩ := Simple.bind_eq_ok hrun
  rw [hw, ok_bind, huu, ok_bind, hvv, ok_bind]
  generalize hnx : nx.toNat = X at *
  generalize hny : ny.toNat = Y at *
  by_cases h3 : X < 3 ∨ Y < 3
  · rw [if_pos h3] at hrun; cases hrun
  rw [if_neg h3] at hrun ⊢
  obtain ⟨rfl, rfl⟩ := Prod.mk.inj (Except.ok.inj hrun)
  rw [not_or, not_lt, not_lt] at h3
  obtain ⟨hdx, hdy⟩ := hsp dx dy hspa
  refine ⟨_, rfl, by simp, ?_⟩
  simp only [List.length_map, List.length_range] at hF ⊢
  have fieldVal : ∀ (l : Label) (c : List ℚ), field g1.data l = .ok c → ∀ t, c.getD t 0 = val g1.data l t := by
    intro l c hc t
    unfold field at hc
    cases hcol : col? g1.data l with
    | none => rw [hcol] at hc; cases hc
    | some c' =>
      rw [hcol] at hc
      rw [← Except.ok.inj hc, val_of_col hcol]
  have hwt : ∀ t, t < X * Y → w.getD t 0 = weightAt g1.data weight t := by
    intro t ht
    cases weight with
    | none =>
      rw [← Except.ok.inj hw]
      simp [List.getD_eq_getElem?_getD, ht, weightAt]
    | some l => exact fieldVal l w hw t
  have hU : ∀ t, t < X * Y → |uu.getD t 0 * w.getD t 0| ≤ F := by
    intro t ht; rw [hwt t ht, fieldVal _ _ huu]; exact (hF t ht).1
  have hV : ∀ t, t < X * Y → |vv.getD t 0 * w.getD t 0| ≤ F := by
    intro t ht; rw [hwt t ht, fieldVal _ _ hvv]; exact (hF t ht).2
  have hF0 : 0 ≤ F := le_trans (abs_nonneg _) (hU 0 (Nat.mul_pos (by omega) (by omega)))
  have hS : 0 ≤ F / h := div_nonneg hF0 hh.le
  have widen : ∀ s : ℚ, h ≤ s → F / s ≤ F / h := fun s hs => div_le_div_of_nonneg_left hF0 hh hs
  intro t ht
  have hpos : 0 < X := by omega
  have hi : t % X < X := Nat.mod_lt _ hpos
  have hj : t / X < Y := by rw [Nat.div_lt_iff_lt_mul hpos, Nat.mul_comm]; exact ht
  have grads : ∀ c : List ℚ, (∀ t, t < X * Y → |c.getD t 0 * w.getD t 0| ≤ F) →
      (|(gradients fl X Y dy dx (fun t => fl (c.getD t 0 * w.getD t 0)) t).1 - (Sample.gradients X Y dy dx (fun t => c.getD t 0 * w.getD t 0) t).1| ≤ 21 * u * (F / h) ∧
        |(Sample.gradients X Y dy dx (fun t => c.getD t 0 * w.getD t 0) t).1| ≤ 4 * (F / h)) ∧
      (|(gradients fl X Y dy dx (fun t => fl (c.getD t 0 * w.getD t 0)) t).2 - (Sample.gradients X Y dy dx (fun t => c.getD t 0 * w.getD t 0) t).2| ≤ 21 * u * (F / h) ∧
        |(Sample.gradients X Y dy dx (fun t => c.getD t 0 * w.getD t 0) t).2| ≤ 4 * (F / h)) := by
    intro c hc
    have wide : ∀ s a b : ℚ, h ≤ s → (a ≤ 21 * u * (F / s) ∧ b ≤ 4 * (F / s)) → a ≤ 21 * u * (F / h) ∧ b ≤ 4 * (F / h) := by
      intro s a b hs hab
      have h1 := mul_le_mul_of_nonneg_left (widen s hs) (mul_nonneg (by norm_num : (0 : ℚ) ≤ 21) hu)
      have h2 := widen s hs
      exact ⟨by linarith [hab.1], by linarith [hab.2]⟩
    constructor
    · refine wide dy _ _ hdy ?_
      exact gradient_error hfl hu hu1 h3.2 (by linarith) (fun j => c.getD (j * X + t % X) 0 * w.getD (j * X + t % X) 0) (fun k hk => hc _ (grid_lt hi hk)) hj
    · refine wide dx _ _ hdx ?_
      exact gradient_error hfl hu hu1 h3.1 (by linarith) (fun i => c.getD (t / X * X + i) 0 * w.getD (t / X * X + i) 0) (fun k hk => hc _ (grid_lt hk hj)) hi
  obtain ⟨⟨u1, u2⟩, u3, u4⟩ := grads uu hU
  obtain ⟨⟨v1, v2⟩, v3, v4⟩ := grads vv hV
  simp only [List.getD_eq_getElem?_getD, List.getElem?_map, List.getElem?_range ht, Option.map_some, Option.getD_some]
  simp only [← List.getD_eq_getElem?_getD]
  rw [hwt t ht]
  constructor
  · intro h0
    rw [if_pos (Or.inr (Or.inr h0)), if_pos (Or.inr (Or.inr h0))]
    exact ⟨rfl, rfl⟩
  · intro h0
    have hn : ¬ (dx = 0 ∨ dy = 0 ∨ weightAt g1.data weight t = 0) := by
      rintro (e | e | e)
      · linarith
      · linarith
      · exact h0 e
    rw [if_neg hn, if_neg hn]
    exact ⟨_, _, rfl, rfl, bin_nonneg hfl hu hu1 hμ, bin_error hfl hu hu1 hS hμ h0 u4 u2 v4 v2 u3 u1 v3 v1⟩

/-- **C146, inertial energy.** In floating point the inertial energy of every bin is never negative and has a relative error of at most `5 u`. -/
theorem C146_energy (u : ℚ) (hu : 0 ≤ u) (hu1 : u ≤ 1 / 1000) (fl : ℚ → ℚ) (hfl : Rounds u fl) (f : Flow) (m : Label) (flows : Label × Label) (es : List ℚ)
    (hrun : Sample.inertialEnergy f m flows = .ok es) (hm : ∀ t, 0 ≤ val f.data m t) :
    ∃ es', inertialEnergy fl f m flows = .ok es' ∧ es'.length = es.length ∧ ∀ t, t < es.length → 0 ≤ es'.getD t 0 ∧ |es'.getD t 0 - es.getD t 0| ≤ 5 * u * es.getD t 0 := by
  unfold Sample.inertialEnergy at hrun
  obtain ⟨mm, h1, hrun⟩ := Simple.bind_eq_ok hrun
  obtain ⟨uu, h2, hrun⟩ := Simple.bind_eq_ok hrun
  obtain ⟨vv, h3, hrun⟩ := Simple.bind_eq_ok hrun
  unfold inertialEnergy
  rw [h1, ok_bind, h2, ok_bind, h3, ok_bind]
  rw [← Except.ok.inj hrun]
  refine ⟨_, rfl, by simp, ?_⟩
  intro t ht
  rw [List.length_map, List.length_range] at ht
  rw [getD_map_range _ _ _ ht, getD_map_range _ _ _ ht]
  have hmt : 0 ≤ mm.getD t 0 := by
    unfold field at h1
    cases hcol : col? f.data m with
    | none => rw [hcol] at h1; cases h1
    | some c =>
      rw [hcol] at h1
      rw [← Except.ok.inj h1, ← val_of_col hcol]
      exact hm t
  have := energy_error hfl hu hu1 hmt (uu.getD t 0) (vv.getD t 0)
  exact ⟨this.nonneg (by linarith), this.2⟩

/-- One coordinate of the centre of mass. -/
theorem average_error {u : ℚ} (hu : 0 ≤ u) {fl : ℚ → ℚ} (hfl : Rounds u fl) {sum : List ℚ → ℚ} (hsum : Sums fl sum) {vs ws : List ℚ} (hl : vs.length = ws.length)
    (hne : ws ≠ []) (h0 : ∀ w ∈ ws, 0 ≤ w) {V : ℚ} (hV : ∀ v ∈ vs, |v| ≤ V) (hk : ((ws.length : ℚ) + 1) * u ≤ 1 / 8) :
    (Sample.npAverage vs ws = .error .zeroDivisionError → npAverage fl sum vs ws = .error .zeroDivisionError) ∧
    ∀ a, Sample.npAverage vs ws = .ok a → ∃ a', npAverage fl sum vs ws = .ok a' ∧ |a' - a| ≤ 3 * ((ws.length : ℚ) + 1) * u * V := by
  have e2 : ((vs.zip ws).map fun p => p.2) = ws := List.map_snd_zip (le_of_eq hl.symm)
  have e1 : ((vs.zip ws).map fun p => fl (p.1 * p.2)) = List.zipWith (fun v w => fl (v * w)) vs ws := by rw [List.zip, List.map_zipWith]
  have e3 : ((vs.zip ws).map fun p => p.1 * p.2) = List.zipWith (· * ·) vs ws := by rw [List.zip, List.map_zipWith]
  have el : (vs.zip ws).length = ws.length := by rw [List.length_zip, hl, min_self]
  have hq := quotient_error hu hfl hsum (vs.zip ws) (by intro e; apply hne; rw [← List.length_eq_zero_iff, ← el, e]; rfl) V
    (fun p hp => h0 _ (List.of_mem_zip hp).2) (fun p hp => hV _ (List.of_mem_zip hp).1) (by rw [el]; exact hk)
  rw [e1, e2, e3, el] at hq
  have hn : 0 ≤ ws.sum := List.sum_nonneg h0
  unfold Sample.npAverage npAverage
  constructor
  · intro h
    by_cases hs : ws.sum = 0
    · rw [if_pos (hq.2 hs).1]
    · rw [if_neg hs] at h; cases h
  · intro a h
    by_cases hs : ws.sum = 0
    · rw [if_pos hs] at h; cases h
    · rw [if_neg hs] at h
      obtain ⟨h1, h2⟩ := hq.1 (lt_of_le_of_ne hn (Ne.symm hs))
      rw [if_neg h1.ne']
      exact ⟨_, rfl, by rw [← Except.ok.inj h]; exact h2⟩

/-- **C146, centre of mass.** In floating point, whatever the order of additions, the centre of mass of a map of `n` bins without negative masses is returned exactly when
it is in exact arithmetic (`ZeroDivisionError` for a map without mass), and each coordinate has an error of at most `3 (n + 1) u` times the largest coordinate. -/
theorem C146_center (u : ℚ) (hu : 0 ≤ u) (fl : ℚ → ℚ) (hfl : Rounds u fl) (sum : List ℚ → ℚ) (hsum : Sums fl sum) (f : Flow) (m x y : Label) (hwf : Wf f.data)
    (hm : m ∈ names f.data) (hx : x ∈ names f.data) (hy : y ∈ names f.data) (hpos : 0 < size f.data) (hk : ((size f.data : ℚ) + 1) * u ≤ 1 / 8)
    (h0 : ∀ t, t < size f.data → 0 ≤ val f.data m t) (V : ℚ) (hV : ∀ t, t < size f.data → |val f.data x t| ≤ V ∧ |val f.data y t| ≤ V) :
    (Sample.centerOfMass f m [x, y] = .error .zeroDivisionError → centerOfMass fl sum f m [x, y] = .error .zeroDivisionError) ∧
    ∀ a b, Sample.centerOfMass f m [x, y] = .ok [a, b] → ∃ a' b', centerOfMass fl sum f m [x, y] = .ok [a', b'] ∧
      |a' - a| ≤ 3 * ((size f.data : ℚ) + 1) * u * V ∧ |b' - b| ≤ 3 * ((size f.data : ℚ) + 1) * u * V := by
  obtain ⟨cm, hcm, hcm'⟩ := Sample.field_ok hm
  obtain ⟨cx, hcx, hcx'⟩ := Sample.field_ok hx
  obtain ⟨cy, hcy, hcy'⟩ := Sample.field_ok hy
  have lm := col?_length hwf hcm
  have lx := col?_length hwf hcx
  have ly := col?_length hwf hcy
  have pick : ∀ (l : Label) (c : List ℚ), col? f.data l = some c → ∀ v ∈ c, ∃ t, t < size f.data ∧ v = val f.data l t := by
    intro l c hc v hv
    obtain ⟨t, ht, e⟩ := List.getElem_of_mem hv
    refine ⟨t, by rw [← col?_length hwf hc]; exact ht, ?_⟩
    rw [val_of_col hc, List.getD_eq_getElem?_getD, List.getElem?_eq_getElem ht, Option.getD_some, e]
  have hw0 : ∀ w ∈ cm, 0 ≤ w := by
    intro w hw; obtain ⟨t, ht, rfl⟩ := pick m cm hcm w hw; exact h0 t ht
  have hne : cm ≠ [] := by intro e; rw [e] at lm; simp at lm; omega
  have ex := average_error hu hfl hsum (lx.trans lm.symm) hne hw0 (V := V)
    (by intro v hv; obtain ⟨t, ht, rfl⟩ := pick x cx hcx v hv; exact (hV t ht).1) (by rw [lm]; exact hk)
  have ey := average_error hu hfl hsum (ly.trans lm.symm) hne hw0 (V := V)
    (by intro v hv; obtain ⟨t, ht, rfl⟩ := pick y cy hcy v hv; exact (hV t ht).2) (by rw [lm]; exact hk)
  rw [lm] at ex ey
  unfold Sample.centerOfMass centerOfMass
  rw [List.mapM_cons, List.mapM_cons, List.mapM_nil, List.mapM_cons, List.mapM_cons, List.mapM_nil, hcx', ok_bind, hcm', ok_bind, hcy', ok_bind, ok_bind, ok_bind, ok_bind, ok_bind, ok_bind]
  constructor
  · intro h
    cases hax : Sample.npAverage cx cm with
    | error e =>
      rw [hax] at h
      have : e = .zeroDivisionError := by injection h
      subst this
      rw [ex.1 hax]; rfl
    | ok a =>
      obtain ⟨a', ha', -⟩ := ex.2 a hax
      rw [hax, ok_bind] at h
      rw [ha', ok_bind]
      cases hay : Sample.npAverage cy cm with
      | error e =>
        rw [hay] at h
        have : e = .zeroDivisionError := by injection h
        subst this
        rw [ey.1 hay]; rfl
      | ok b => rw [hay, ok_bind] at h; cases h
  · intro a b h
    obtain ⟨a1, ha1, h⟩ := Simple.bind_eq_ok h
    obtain ⟨l, hl, h⟩ := Simple.bind_eq_ok h
    obtain ⟨b1, hb1, hl⟩ := Simple.bind_eq_ok hl
    have hl := Except.ok.inj hl
    have h := Except.ok.inj h
    subst hl
    obtain ⟨e1, h'⟩ := List.cons.inj h
    obtain ⟨e2, -⟩ := List.cons.inj h'
    rw [e1] at ha1
    rw [e2] at hb1
    obtain ⟨a', ha', ea⟩ := ex.2 a ha1
    obtain ⟨b', hb', eb⟩ := ey.2 b hb1
    exact ⟨a', b', by rw [ha', hb']; rfl, ea, eb⟩

/-- **C146, without rounding.** With exact arithmetic the functions are those of the exact model. -/
theorem C146_exact (f : Flow) : (∀ μ co flows weight, viscousDissipation id f μ co flows weight = Sample.viscousDissipation f μ co flows weight) ∧
    (∀ m flows, inertialEnergy id f m flows = Sample.inertialEnergy f m flows) ∧
    (∀ m coords, centerOfMass id List.sum f m coords = Sample.centerOfMass f m coords) := by
  have hfor : ∀ μ a b c d, formula id μ a b c d = Sample.formula μ a b c d := by
    intro μ a b c d; unfold formula Sample.formula square; simp only [id]; ring
  have hgr : ∀ n h (c : ℕ → ℚ) i, gradient id n h c i = Sample.gradient n h c i := by
    intro n h c i
    unfold gradient Sample.gradient threePoint
    simp only [id]
  refine ⟨?_, ?_, ?_⟩
  · intro μ co flows weight
    unfold viscousDissipation Sample.viscousDissipation gradients Sample.gradients
    simp only [hfor, hgr, id, square, pow_two]
    rcases f.info.shape with _ | ⟨nx, ny⟩
    · rfl
    rcases f.info.spacing with _ | ⟨dx, dy⟩ <;> rfl
  · intro m flows
    unfold inertialEnergy Sample.inertialEnergy energy square
    simp only [id, pow_two]
  · intro m coords
    unfold centerOfMass Sample.centerOfMass npAverage Sample.npAverage
    simp only [id]

/-- Central differences of a constant are exactly 0 in floating point. -/
theorem gradient_inside {fl : ℚ → ℚ} (h0 : fl 0 = 0) {n : ℕ} {h : ℚ} (f : ℕ → ℚ) {i : ℕ} (hi : 0 < i) (hn : i + 1 < n) (hf : f (i + 1) = f (i - 1)) : gradient fl n h f i = 0 := by
  unfold gradient
  rw [if_neg (by omega), if_neg (by omega), hf, sub_self, h0, zero_div, h0]

/-- **C146, uniform flow.** In a flow with the same velocity in all bins (no weights) the dissipation in floating point is exactly 0 in every bin that is not on the border
of the map. -/
theorem C146_uniform_inside (u : ℚ) (fl : ℚ → ℚ) (hfl : Rounds u fl) (f : Flow) (μ : ℚ) (co flows : Label × Label) (g : Flow) (ds : List (Option ℚ))
    (nx ny : ℕ) (dx dy : ℚ) (hsh : f.info.shape = some ((nx : ℤ), (ny : ℤ))) (hsp : f.info.spacing = some (dx, dy)) (hdx : dx ≠ 0) (hdy : dy ≠ 0)
    (hrun : viscousDissipation fl f μ co flows none = .ok (g, ds)) (U V : ℚ) (hU : ∀ t, t < nx * ny → val g.data flows.1 t = U ∧ val g.data flows.2 t = V)
    (i j : ℕ) (hi : 0 < i ∧ i + 1 < nx) (hj : 0 < j ∧ j + 1 < ny) : ds.getD (j * nx + i) none = some 0 := by
  have z : fl 0 = 0 := hfl.zero
  unfold viscousDissipation at hrun
  rw [hsh, hsp] at hrun
  simp only at hrun
  obtain ⟨g1, hs, hrun⟩ := Simple.bind_eq_ok hrun
  by_cases hneg : (nx : ℤ) < 0 ∨ (ny : ℤ) < 0 ∨ (size g1.data : ℤ) ≠ (nx : ℤ) * (ny : ℤ)
  · rw [if_pos hneg] at hrun; cases hrun
  rw [if_neg hneg] at hrun
  obtain ⟨w, hw, hrun⟩ := Simple.bind_eq_ok hrun
  obtain ⟨uu, huu, hrun⟩ := Simple.bind_eq_ok hrun
  obtain ⟨vv, hvv, hrun⟩ := Simple.bind_eq_ok hrun
  rw [Int.toNat_natCast, Int.toNat_natCast] at *
  by_cases h3 : nx < 3 ∨ ny < 3
  · rw [if_pos h3] at hrun; cases hrun
  rw [if_neg h3] at hrun
  obtain ⟨rfl, rfl⟩ := Prod.mk.inj (Except.ok.inj hrun)
  have fieldVal : ∀ (l : Label) (c : List ℚ), field g1.data l = .ok c → ∀ t, c.getD t 0 = val g1.data l t := by
    intro l c hc t
    unfold field at hc
    cases hcol : col? g1.data l with
    | none => rw [hcol] at hc; cases hc
    | some c' =>
      rw [hcol] at hc
      rw [← Except.ok.inj hc, val_of_col hcol]
  have hw1 : ∀ t, t < nx * ny → w.getD t 0 = 1 := by
    intro t ht
    rw [← Except.ok.inj hw]
    simp [List.getD_eq_getElem?_getD, ht]
  have ht : j * nx + i < nx * ny := grid_lt (show i < nx by omega) (show j < ny by omega)
  simp only [List.getD_eq_getElem?_getD, List.getElem?_map, List.getElem?_range ht, Option.map_some, Option.getD_some]
  simp only [← List.getD_eq_getElem?_getD]
  rw [hw1 _ ht, if_neg (by rintro (e | e | e); exacts [hdx e, hdy e, one_ne_zero e])]
  have grads : ∀ (c : List ℚ) (C : ℚ), (∀ t, t < nx * ny → c.getD t 0 = C) → gradients fl nx ny dy dx (fun t => fl (c.getD t 0 * w.getD t 0)) (j * nx + i) = (0, 0) := by
    intro c C hC
    unfold gradients
    rw [grid_mod (show i < nx by omega), grid_div (show i < nx by omega)]
    have same : ∀ a b, a < nx → b < ny → fl (c.getD (b * nx + a) 0 * w.getD (b * nx + a) 0) = fl (C * 1) := by
      intro a b ha hb
      rw [hC _ (grid_lt ha hb), hw1 _ (grid_lt ha hb)]
    rw [gradient_inside z _ hj.1 hj.2 ((same i (j + 1) (by omega) (by omega)).trans (same i (j - 1) (by omega) (by omega)).symm),
      gradient_inside z _ hi.1 hi.2 ((same (i + 1) j (by omega) (by omega)).trans (same (i - 1) j (by omega) (by omega)).symm)]
  rw [grads uu U (fun t ht => by rw [fieldVal _ _ huu]; exact (hU t ht).1), grads vv V (fun t ht => by rw [fieldVal _ _ hvv]; exact (hU t ht).2)]
  simp only [formula, square, mul_zero, add_zero, sub_zero, zero_div, z]

/-- A flow of 0.1 to the right in all bins (the nearest double precision number). -/
def exUniform : Flow := ⟨[("X", [0, 1 / 4, 1 / 2, 0, 1 / 4, 1 / 2, 0, 1 / 4, 1 / 2]), ("Y", [0, 0, 0, 1 / 4, 1 / 4, 1 / 4, 1 / 2, 1 / 2, 1 / 2]),
  ("U", List.replicate 9 (roundBits 53 (1 / 10))), ("V", List.replicate 9 0)], { shape := some (3, 3), spacing := some (1 / 4, 1 / 4) }⟩

/-- **C146, border of a uniform flow.** On the border of the map a uniform flow does not get a dissipation of exactly 0: in double precision, with a velocity of 0.1 to the
right in all bins and a spacing of 0.25, the bins of the first column and the first row get a positive value, as the one-sided differences round; the same flow in exact
arithmetic has none. -/
theorem C146_uniform_border_counterexample : (∀ g ds, viscousDissipation (roundBits 53) exUniform 1 = .ok (g, ds) →
      (∀ t ∈ [0, 1, 2, 3, 6], ∃ d, ds.getD t none = some d ∧ 0 < d) ∧ ∀ t ∈ [4, 5, 7, 8], ds.getD t none = some 0) ∧
    (viscousDissipation (roundBits 53) exUniform 1).isOk = true ∧
    ∀ g ds, Sample.viscousDissipation exUniform 1 = .ok (g, ds) → ds = List.replicate 9 (some 0) := by
  have pos : ∀ o : Option ℚ, (0 : ℚ) < o.getD 0 → ∃ d, o = some d ∧ 0 < d := by
    intro o h
    cases o with
    | none => exact absurd h (lt_irrefl 0)
    | some d => exact ⟨d, rfl, h⟩
  have out : ∀ (r : Except Err (Flow × List (Option ℚ))) g ds, r = .ok (g, ds) → ds = (r.toOption.map Prod.snd).getD [] := by
    intro r g ds h; rw [h]; rfl
  refine ⟨fun g ds h => ?_, by decide +kernel, fun g ds h => ?_⟩
  · rw [out _ g ds h]
    refine ⟨fun t ht => pos _ ?_, by decide +kernel⟩
    have : ∀ t ∈ [0, 1, 2, 3, 6], (0 : ℚ) < (((((viscousDissipation (roundBits 53) exUniform 1).toOption.map Prod.snd).getD []).getD t none).getD 0) := by decide +kernel
    exact this t ht
  · rw [out _ g ds h]
    decide +kernel

/-- **C146, double precision.** For numbers of 53 significant bits that are rounded to nearest, in whatever order numpy adds, the assumptions of the theorems hold with
`u = 2⁻⁵³`, for maps of less than 2⁴⁹ bins. -/
theorem C146_double (n depth : ℕ) (hn : n < 2 ^ 49) : 0 ≤ (1 : ℚ) / 2 ^ 53 ∧ (1 : ℚ) / 2 ^ 53 ≤ 1 / 1000 ∧ Rounds (1 / 2 ^ 53) (roundBits 53) ∧
    Sums (roundBits 53) (inOrder (roundBits 53)) ∧ Sums (roundBits 53) (pairwise (roundBits 53) depth) ∧ ((n : ℚ) + 1) * (1 / 2 ^ 53) ≤ 1 / 8 := by
  refine ⟨by norm_num, by norm_num, rounds_roundBits 53, sums_inOrder _, sums_pairwise _ _, ?_⟩
  have : (n : ℚ) + 1 ≤ 2 ^ 50 := by
    have : n + 1 ≤ 2 ^ 50 := by norm_num at hn ⊢; omega
    exact_mod_cast this
  have h2 : ((n : ℚ) + 1) * (1 / 2 ^ 53) ≤ 2 ^ 50 * (1 / 2 ^ 53) := mul_le_mul_of_nonneg_right this (by norm_num)
  refine le_trans h2 ?_
  norm_num

/-- A flow that is not uniform, with masses and coordinates that are not exact. -/
def exRounded : Flow := ⟨[("X", [0, 1 / 4, 1 / 2, 0, 1 / 4, 1 / 2, 0, 1 / 4, 1 / 2]), ("Y", [0, 0, 0, 1 / 4, 1 / 4, 1 / 4, 1 / 2, 1 / 2, 1 / 2]),
  ("M", [1, 2, 1, roundBits 53 (1 / 3), 1, 1, 0, 1, 1]), ("U", (List.range 9).map fun k : ℕ => roundBits 53 ((k : ℚ) ^ 2 / 100)),
  ("V", (List.range 9).map fun k : ℕ => roundBits 53 (-(k : ℚ) / 7))], { shape := some (3, 3), spacing := some (1 / 4, 1 / 4) }⟩

/-- The hypotheses are met (here also with the mass as the weight: the bin without mass gets no value), and the results differ from the exact ones. -/
example : (Sample.viscousDissipation exRounded 1 ("X", "Y") ("U", "V") (some "M")).isOk = true ∧
    (∀ t : ℕ, t < 9 → |val exRounded.data "U" t * val exRounded.data "M" t| ≤ 2 ∧ |val exRounded.data "V" t * val exRounded.data "M" t| ≤ 2) ∧
    (∀ t : ℕ, t < 9 → 0 ≤ val exRounded.data "M" t) ∧ Wf exRounded.data ∧
    (((viscousDissipation (roundBits 53) exRounded 1 ("X", "Y") ("U", "V") (some "M")).toOption.map Prod.snd).getD []).getD 6 (some 1) = none ∧
    ((viscousDissipation (roundBits 53) exRounded 1).toOption.map Prod.snd) ≠ ((Sample.viscousDissipation exRounded 1).toOption.map Prod.snd) ∧
    (inertialEnergy (roundBits 53) exRounded).toOption ≠ (Sample.inertialEnergy exRounded).toOption ∧
    (centerOfMass (roundBits 53) (inOrder (roundBits 53)) exRounded).toOption ≠ (Sample.centerOfMass exRounded).toOption ∧
    (centerOfMass (roundBits 53) (inOrder (roundBits 53)) exRounded).isOk = true := by
  refine ⟨?_, ?_, ?_, ⟨by decide +kernel, by decide +kernel⟩, ?_, ?_, ?_, ?_, ?_⟩ <;> decide +kernel

/-- The theorem on it. -/
example : ∃ g ds ds', Sample.viscousDissipation exUniform 1 = .ok (g, ds) ∧ viscousDissipation (roundBits 53) exUniform 1 = .ok (g, ds') ∧
    ∀ t, t < 9 → ∃ d', ds'.getD t none = some d' ∧ 0 ≤ d' ∧ d' ≤ 1 / 2 ^ 39 := by
  obtain ⟨⟨g, ds⟩, hr⟩ : ∃ p, Sample.viscousDissipation exUniform 1 = .ok p := by
    have : (Sample.viscousDissipation exUniform 1).isOk = true := by decide +kernel
    cases h : Sample.viscousDissipation exUniform 1 with
    | error e => rw [h] at this; cases this
    | ok p => exact ⟨p, rfl⟩
  have hz := C146_uniform_border_counterexample.2.2 g ds hr
  have hg : g.data = (((Sample.viscousDissipation exUniform 1).toOption.map fun p => p.1.data).getD []) := by rw [hr]; rfl
  obtain ⟨ds', h1, h2, h3⟩ := C146_dissipation (1 / 2 ^ 53) (by norm_num) (by norm_num) _ (rounds_roundBits 53) exUniform 1 (by norm_num) _ _ none g ds hr (1 / 4) (by norm_num)
    (by intro dx dy h; obtain ⟨rfl, rfl⟩ := Prod.mk.inj (Option.some.inj h); exact ⟨le_refl _, le_refl _⟩) (1 / 5)
    (by
      rw [hz, hg, List.length_replicate]
      intro t ht
      have : ∀ t : ℕ, t < 9 → |val (((Sample.viscousDissipation exUniform 1).toOption.map fun p => p.1.data).getD []) "U" t * 1| ≤ 1 / 5 ∧
        |val (((Sample.viscousDissipation exUniform 1).toOption.map fun p => p.1.data).getD []) "V" t * 1| ≤ 1 / 5 := by decide +kernel
      exact this t ht)
  refine ⟨g, ds, ds', hr, h1, ?_⟩
  intro t ht
  obtain ⟨d, d', e1, e2, e3, e4⟩ := (h3 t (by rw [hz, List.length_replicate]; exact ht)).2 (by show (1 : ℚ) ≠ 0; exact one_ne_zero)
  refine ⟨d', e2, e3, ?_⟩
  have e0 : d = 0 := by
    rw [hz, List.getD_eq_getElem?_getD, List.getElem?_replicate, if_pos ht, Option.getD_some] at e1
    exact (Option.some.inj e1).symm
  subst e0
  have e5 := le_trans (le_abs_self _) e4
  have : weightAt g.data none t = 1 := rfl
  rw [this] at e5
  norm_num at e5 ⊢
  linarith

end Strata.FloatSample
