import Verif.Props.SampleAngle
import Verif.Props.Interface
/-!
# The project's own tests of angles, run on the model

Sources: /repo/droplets/tests/test_contact_angle.py, test_sample_flow_angle.py.  Angles are real numbers, so these are proofs,
not evaluations.  Of the tests of contact angles for three angles each, some cases are left out because evaluation is slow.
-/
namespace Strata.Conformance.Angles
open Strata Strata.Flow Strata.Interface

/-- The fixture (test_contact_angle.py:8-44): 101 x 7 bins, the bottom layer from bin 20 to 80 and layer `i` from bin `edge i`
to its mirror image (an empty slice if that is 0). -/
def droplet (bottom : ℕ → Bool) (edge : ℕ → ℕ) : System := (List.range (101 * 7)).map fun t : ℕ =>
  ⟨((t % 101 : ℕ) : ℚ) / 10, ((t / 101 : ℕ) : ℚ) / 2,
    if t / 101 = 0 then (if bottom (t % 101) then 1 else 0)
    else if 0 < edge (t / 101) ∧ edge (t / 101) ≤ t % 101 ∧ t % 101 < 101 - edge (t / 101) then 1 else 0, []⟩

/-- The options of the tests. -/
def opts : Opts := { radius := some 1, bins := 0 }

/-- The bottom layer of the fixture. -/
def bottom (i : ℕ) : Bool := decide (20 ≤ i ∧ i < 81)

/-- The edge of layer `i` for 45 (`a = 1`), 90 (0) and 135 (-1) degrees. -/
def edges (a : ℤ) (i : ℕ) : ℕ := (20 + 5 * a * i).toNat

theorem deg (dy dx : ℚ) : angleDeg dy dx = Sample.degrees (Sample.arctan2 dy dx) := rfl

theorem deg45 : angleDeg 1 1 = 45 := by
  rw [deg]
  refine (Sample.isAngle_arctan2 1 1 (Or.inl (by norm_num))).unique ⟨by norm_num, by norm_num, Real.sqrt 2, by positivity, ?_, ?_⟩
  · rw [show (45 : ℝ) * Real.pi / 180 = Real.pi / 4 by ring, Real.cos_pi_div_four]
    have := Real.mul_self_sqrt (show (0 : ℝ) ≤ 2 by norm_num)
    push_cast; linarith
  · rw [show (45 : ℝ) * Real.pi / 180 = Real.pi / 4 by ring, Real.sin_pi_div_four]
    have := Real.mul_self_sqrt (show (0 : ℝ) ≤ 2 by norm_num)
    push_cast; linarith

theorem deg135 : angleDeg 1 (-1) = 135 := by
  rw [deg]
  refine (Sample.isAngle_arctan2 (-1) 1 (Or.inl (by norm_num))).unique ⟨by norm_num, by norm_num, Real.sqrt 2, by positivity, ?_, ?_⟩
  · rw [show (135 : ℝ) * Real.pi / 180 = Real.pi - Real.pi / 4 by ring, Real.cos_pi_sub, Real.cos_pi_div_four]
    have := Real.mul_self_sqrt (show (0 : ℝ) ≤ 2 by norm_num)
    push_cast; linarith
  · rw [show (135 : ℝ) * Real.pi / 180 = Real.pi - Real.pi / 4 by ring, Real.sin_pi_sub, Real.sin_pi_div_four]
    have := Real.mul_self_sqrt (show (0 : ℝ) ≤ 2 by norm_num)
    push_cast; linarith

theorem deg90 : angleDeg 1 0 = 90 := by
  rw [deg]
  refine (Sample.isAngle_arctan2 0 1 (Or.inr (by norm_num))).unique ⟨by norm_num, by norm_num, 1, by positivity, ?_, ?_⟩
  · rw [show (90 : ℝ) * Real.pi / 180 = Real.pi / 2 by ring, Real.cos_pi_div_two]; norm_num
  · rw [show (90 : ℝ) * Real.pi / 180 = Real.pi / 2 by ring, Real.sin_pi_div_two]; norm_num

/-- Evaluation of `contactAngle` up to the two angles. -/
theorem contactAngle_of {s : System} {box : Option (ℚ × ℚ)} {height : ℚ} {floor yf : Option ℚ} {o : Opts} {l r : ℕ} {rest : List (ℕ × ℕ)}
    {xs xe : ℚ × ℚ} {dy ymin : ℚ} (h1 : floorOf floor s = .ok yf) (h2 : getInterface s box { o with ylims := (yf, none) } = .ok ((l, r) :: rest))
    (h3 : ((row s l).x, (row s r).x) = xe ∧ (row s l).y = ymin) (h4 : floor.isSome = true → yf = some ymin)
    (h5 : angleLoop s height ymin none rest = .ok (xs, dy)) : contactAngle s box height floor o = .ok (some (getAngles xs xe dy)) := by
  obtain ⟨rfl, rfl⟩ := h3
  unfold contactAngle
  rw [h1, Gmx.ok_bind, h2, Gmx.ok_bind]
  simp only
  rw [if_neg (by rintro ⟨a, b⟩; exact b (h4 a)), h5, Gmx.ok_bind]

set_option maxRecDepth 100000 in
/-- `test_contact_angles` (test_contact_angle.py:46-50), 45 degrees. -/
example : contactAngle (droplet bottom (edges 1)) none 1 none opts = .ok (some (45, 45)) := by
  rw [contactAngle_of (l := 20) (r := 80) (rest := [(126, 176), (232, 272), (338, 368), (444, 464), (550, 560), (656, 656)]) (yf := none)
    (xs := (3, 7)) (xe := (2, 8)) (ymin := 0) (dy := 1) rfl (by decide +kernel) (by decide +kernel) (by simp) (by decide +kernel)]
  norm_num [getAngles, deg45]

set_option maxRecDepth 100000 in
/-- The same, 135 degrees. -/
example : contactAngle (droplet bottom (edges (-1))) none 1 none opts = .ok (some (135, 135)) := by
  rw [contactAngle_of (l := 20) (r := 80) (rest := [(116, 186), (212, 292), (308, 398)]) (yf := none)
    (xs := (1, 9)) (xe := (2, 8)) (ymin := 0) (dy := 1) rfl (by decide +kernel) (by decide +kernel) (by simp) (by decide +kernel)]
  norm_num [getAngles, deg135]

set_option maxRecDepth 100000 in
/-- `test_floor` (test_contact_angle.py:52-62), 90 degrees: the bottom layer is full and the floor is the second layer. -/
example : contactAngle (droplet (fun _ => true) (edges 0)) none 1 (some (1 / 2)) opts = .ok (some (90, 90)) := by
  rw [contactAngle_of (l := 121) (r := 181) (rest := [(222, 282), (323, 383), (424, 484), (525, 585), (626, 686)]) (yf := some (1 / 2))
    (xs := (2, 8)) (xe := (2, 8)) (ymin := 1 / 2) (dy := 1) (by decide +kernel) (by decide +kernel) (by decide +kernel) (by simp) (by decide +kernel)]
  norm_num [getAngles, deg90]

theorem contactAngle_off {s : System} {box : Option (ℚ × ℚ)} {height : ℚ} {floor yf : Option ℚ} {o : Opts} {l r : ℕ} {rest : List (ℕ × ℕ)}
    (h1 : floorOf floor s = .ok yf) (h2 : getInterface s box { o with ylims := (yf, none) } = .ok ((l, r) :: rest))
    (h3 : floor.isSome = true ∧ yf ≠ some (row s l).y) : contactAngle s box height floor o = .ok none := by
  unfold contactAngle
  rw [h1, Gmx.ok_bind, h2, Gmx.ok_bind]
  simp only
  rw [if_pos h3]

set_option maxRecDepth 100000 in
/-- `test_nofloor` (test_contact_angle.py:64-72), 45 degrees: an empty bottom layer is the floor. -/
example : contactAngle (droplet (fun _ => false) (edges 1)) none 1 (some 0) opts = .ok none :=
  contactAngle_off (l := 126) (r := 176) (rest := [(232, 272), (338, 368), (444, 464), (550, 560), (656, 656)]) (yf := some 0)
    (by decide +kernel) (by decide +kernel) (by decide +kernel)

/-! ## `test_sample_flow_angle.py` -/

theorem angle_eq {u v : ℚ} {a : ℝ} (h : u ≠ 0 ∨ v ≠ 0) (ha : Sample.IsAngle u v a) : Sample.degrees (Sample.arctan2 v u) = a :=
  (Sample.isAngle_arctan2 u v h).unique ha

theorem diagonal (s t : ℤ) (hs : s = 1 ∨ s = -1) (ht : t = 1 ∨ t = -1) :
    Sample.degrees (Sample.arctan2 (t : ℚ) (s : ℚ)) = (t : ℝ) * (90 - s * 45) := by
  have hq : Real.sqrt 2 * (Real.sqrt 2 / 2) = 1 := by
    have := Real.mul_self_sqrt (show (0 : ℝ) ≤ 2 by norm_num)
    linarith
  have e1 : Real.cos (45 * Real.pi / 180) = Real.sqrt 2 / 2 := by rw [show (45 : ℝ) * Real.pi / 180 = Real.pi / 4 by ring, Real.cos_pi_div_four]
  have e2 : Real.sin (45 * Real.pi / 180) = Real.sqrt 2 / 2 := by rw [show (45 : ℝ) * Real.pi / 180 = Real.pi / 4 by ring, Real.sin_pi_div_four]
  have e3 : Real.cos (135 * Real.pi / 180) = -(Real.sqrt 2 / 2) := by
    rw [show (135 : ℝ) * Real.pi / 180 = Real.pi - Real.pi / 4 by ring, Real.cos_pi_sub, Real.cos_pi_div_four]
  have e4 : Real.sin (135 * Real.pi / 180) = Real.sqrt 2 / 2 := by
    rw [show (135 : ℝ) * Real.pi / 180 = Real.pi - Real.pi / 4 by ring, Real.sin_pi_sub, Real.sin_pi_div_four]
  have n1 : ∀ x : ℝ, Real.cos (-x * Real.pi / 180) = Real.cos (x * Real.pi / 180) := fun x => by
    rw [show -x * Real.pi / 180 = -(x * Real.pi / 180) by ring, Real.cos_neg]
  have n2 : ∀ x : ℝ, Real.sin (-x * Real.pi / 180) = -Real.sin (x * Real.pi / 180) := fun x => by
    rw [show -x * Real.pi / 180 = -(x * Real.pi / 180) by ring, Real.sin_neg]
  rcases hs with rfl | rfl <;> rcases ht with rfl | rfl <;> push_cast <;> apply angle_eq (Or.inl (by norm_num))
  · rw [show (1 : ℝ) * (90 - 1 * 45) = 45 by norm_num]
    exact ⟨by norm_num, by norm_num, Real.sqrt 2, by positivity, by rw [e1, hq]; norm_num, by rw [e2, hq]; norm_num⟩
  · rw [show (-1 : ℝ) * (90 - 1 * 45) = -45 by norm_num]
    exact ⟨by norm_num, by norm_num, Real.sqrt 2, by positivity, by rw [n1, e1, hq]; norm_num, by rw [n2, e2, mul_neg, hq]; norm_num⟩
  · rw [show (1 : ℝ) * (90 - -1 * 45) = 135 by norm_num]
    exact ⟨by norm_num, by norm_num, Real.sqrt 2, by positivity, by rw [e3, mul_neg, hq]; norm_num, by rw [e4, hq]; norm_num⟩
  · rw [show (-1 : ℝ) * (90 - -1 * 45) = -135 by norm_num]
    exact ⟨by norm_num, by norm_num, Real.sqrt 2, by positivity, by rw [n1, e3, mul_neg, hq]; norm_num, by rw [n2, e4, mul_neg, hq]; norm_num⟩

theorem right : Sample.degrees (Sample.arctan2 0 1) = 0 :=
  angle_eq (Or.inl (by norm_num)) ⟨by norm_num, by norm_num, 1, by norm_num, by simp, by simp⟩

theorem left : Sample.degrees (Sample.arctan2 0 (-1)) = 180 := by
  refine angle_eq (Or.inl (by norm_num)) ⟨by norm_num, by norm_num, 1, by norm_num, ?_, ?_⟩
  · rw [show (180 : ℝ) * Real.pi / 180 = Real.pi by ring]; simp
  · rw [show (180 : ℝ) * Real.pi / 180 = Real.pi by ring]; simp

theorem down : Sample.degrees (Sample.arctan2 (-1) 0) = -90 := by
  refine angle_eq (Or.inr (by norm_num)) ⟨by norm_num, by norm_num, 1, by norm_num, ?_, ?_⟩
  · rw [show (-90 : ℝ) * Real.pi / 180 = -(Real.pi / 2) by ring, Real.cos_neg, Real.cos_pi_div_two]; norm_num
  · rw [show (-90 : ℝ) * Real.pi / 180 = -(Real.pi / 2) by ring, Real.sin_neg, Real.sin_pi_div_two]; norm_num

/-- A flow map of two fields. -/
def twoFields (lu lv : Label) (us vs : List ℚ) : Flow := ⟨[(lu, us), (lv, vs)], {}⟩

/-- `test_calc_flow_angles` (test_sample_flow_angle.py:8-14). -/
example : Sample.flowAngle (twoFields "U" "V" [1, 1, 0, -1, -1, 1, 0, -1] [0, 1, 1, 1, 0, -1, -1, -1]) =
    .ok [0, 45, 90, 135, 180, -45, -90, -135] := by
  have d1 := diagonal 1 1 (by simp) (by simp)
  have d2 := diagonal (-1) 1 (by simp) (by simp)
  have d3 := diagonal 1 (-1) (by simp) (by simp)
  have d4 := diagonal (-1) (-1) (by simp) (by simp)
  push_cast at d1 d2 d3 d4
  have up : Sample.degrees (Sample.arctan2 1 0) = 90 := deg90
  show Except.ok (List.zipWith _ _ _) = _
  simp only [List.zipWith, d1, d2, d3, d4, right, left, down, up]
  norm_num

/-- `test_calc_flow_angles_other_labels`, `test_calc_flow_angles_bad_number_of_labels`, `test_calc_weighted_flow_angle_bad_label`
(test_sample_flow_angle.py:16-28, 42-49, 65-74). -/
example : Sample.flowAngle (twoFields "f0" "f1" [1, -1, 1, -1] [1, 1, -1, -1]) ["f0", "f1"] = .ok [45, 135, -45, -135] ∧
    Sample.flowAngle (twoFields "f0" "f1" [1, -1, 1, -1] [1, 1, -1, -1]) = .error .valueError ∧
    Sample.flowAngle (twoFields "U" "V" [1, -1, 1, -1] [1, 1, -1, -1]) ["f0", "f1", "f2"] = .error .valueError ∧
    Sample.flowAngle (twoFields "U" "V" [4, 7, 4] [-3, -1, 3]) (mean := true) (weight := some "M") = .error .valueError := by
  refine ⟨?_, rfl, rfl, rfl⟩
  have d1 := diagonal 1 1 (by simp) (by simp)
  have d2 := diagonal (-1) 1 (by simp) (by simp)
  have d3 := diagonal 1 (-1) (by simp) (by simp)
  have d4 := diagonal (-1) (-1) (by simp) (by simp)
  push_cast at d1 d2 d3 d4
  show Except.ok (List.zipWith _ _ _) = _
  simp only [List.zipWith, d1, d2, d3, d4]
  norm_num

theorem rightwards {u : ℚ} (h : 0 < u) : Sample.degrees (Sample.arctan2 0 u) = 0 :=
  angle_eq (Or.inl h.ne') ⟨by norm_num, by norm_num, (u : ℝ), by exact_mod_cast h, by simp, by simp⟩

/-- `test_calc_flow_angle_mean`, `test_calc_weighted_flow_angle_mean` (test_sample_flow_angle.py:30-40, 51-63). -/
example : Sample.flowAngle (twoFields "U" "V" [1, 1] [-1 / 10, 1 / 10]) (mean := true) = .ok [0] ∧
    Sample.flowAngle ⟨[("U", [4, 7, 4]), ("V", [-3, -1, 3]), ("M", [1, 0, 1])], {}⟩ (mean := true) (weight := some "M") = .ok [0] := by
  constructor
  · show Except.ok [Sample.degrees (Sample.arctan2 (List.sum [-1 / 10, 1 / 10]) (List.sum [1, 1]))] = _
    rw [show List.sum [(-1 / 10 : ℚ), 1 / 10] = 0 by norm_num, show List.sum [(1 : ℚ), 1] = 2 by norm_num, rightwards (by norm_num)]
  · show Except.ok [Sample.degrees (Sample.arctan2 (List.zipWith (· * ·) [-3, -1, 3] [1, 0, 1]).sum (List.zipWith (· * ·) [4, 7, 4] [1, 0, 1]).sum)] = _
    rw [show (List.zipWith (· * ·) [(-3 : ℚ), -1, 3] [1, 0, 1]).sum = 0 by norm_num, show (List.zipWith (· * ·) [(4 : ℚ), 7, 4] [1, 0, 1]).sum = 8 by norm_num,
      rightwards (by norm_num)]

end Strata.Conformance.Angles
