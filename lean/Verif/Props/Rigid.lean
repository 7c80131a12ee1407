import Verif.Spec.Rigid
import Verif.Props.Stored
/-! # C163: maps that are moved, turned or mirrored as a whole -/
namespace Strata.Flow
open Strata Strata.Average Strata.Sample Strata.View

theorem Rigid.sign_sq (m : Rigid) : m.sign ^ 2 = 1 := by
  unfold Rigid.sign
  linear_combination (m.b ^ 2 + m.d ^ 2) * m.unit1 + m.unit2 - (m.a * m.b + m.c * m.d) * m.right

theorem Rigid.vec_sq (m : Rigid) (v : ℚ × ℚ) : (m.vec v).1 ^ 2 + (m.vec v).2 ^ 2 = v.1 ^ 2 + v.2 ^ 2 := by
  unfold Rigid.vec
  linear_combination v.1 ^ 2 * m.unit1 + v.2 ^ 2 * m.unit2 + 2 * v.1 * v.2 * m.right

theorem lookup_map_key (F : Label → ℚ → ℚ) : ∀ (b : Bin) (l : Label), (b.map fun lv => (lv.1, F lv.1 lv.2)).lookup l = (b.lookup l).map (F l) := by
  intro b l
  induction b with
  | nil => rfl
  | cons c b ih =>
    obtain ⟨k, v⟩ := c
    by_cases h : l = k
    · subst h; simp [List.lookup]
    · have : (l == k) = false := by simpa using h
      simp only [List.map_cons, List.lookup, this]
      exact ih

theorem Rigid.val_bin (m : Rigid) (b : Bin) (l : Label) : (m.bin b).val l = (b.val l).map fun v =>
    if l = "X" then (m.pos (valueOf "X" b, valueOf "Y" b)).1 else if l = "Y" then (m.pos (valueOf "X" b, valueOf "Y" b)).2
    else if l = "U" then (m.vec (valueOf "U" b, valueOf "V" b)).1 else if l = "V" then (m.vec (valueOf "U" b, valueOf "V" b)).2 else v :=
  lookup_map_key (fun l v => if l = "X" then (m.pos (valueOf "X" b, valueOf "Y" b)).1 else if l = "Y" then (m.pos (valueOf "X" b, valueOf "Y" b)).2
    else if l = "U" then (m.vec (valueOf "U" b, valueOf "V" b)).1 else if l = "V" then (m.vec (valueOf "U" b, valueOf "V" b)).2 else v) b l

theorem val_some {r : Record} {b : Bin} (h : b ∈ Flow.bins r) {l : Label} (hl : l ∈ names r) : ∃ v, b.val l = some v := by
  obtain ⟨t, -, rfl⟩ := List.mem_map.mp h
  obtain ⟨c, hc, -⟩ := Sample.field_ok hl
  exact ⟨c.getD t 0, by rw [val_binAt, hc]; rfl⟩

theorem Rigid.valueOf_other (m : Rigid) (b : Bin) {l : Label} (hl : l ∉ ["X", "Y", "U", "V"]) : valueOf l (m.bin b) = valueOf l b := by
  simp only [List.mem_cons, List.not_mem_nil, or_false, not_or] at hl
  unfold valueOf
  rw [m.val_bin]
  simp only [if_neg hl.1, if_neg hl.2.1, if_neg hl.2.2.1, if_neg hl.2.2.2]
  cases b.val l <;> rfl

namespace Moved
variable {m : Rigid} {f f' : Flow}

theorem values (h : Moved m f f') {b : Bin} (hb : b ∈ Flow.bins f.data) :
    (valueOf "X" (m.bin b), valueOf "Y" (m.bin b)) = m.pos (valueOf "X" b, valueOf "Y" b) ∧
    (valueOf "U" (m.bin b), valueOf "V" (m.bin b)) = m.vec (valueOf "U" b, valueOf "V" b) := by
  obtain ⟨x, hx⟩ := val_some hb (h.has "X" (by decide))
  obtain ⟨y, hy⟩ := val_some hb (h.has "Y" (by decide))
  obtain ⟨u, hu⟩ := val_some hb (h.has "U" (by decide))
  obtain ⟨v, hv⟩ := val_some hb (h.has "V" (by decide))
  have e : ∀ l, valueOf l (m.bin b) = ((m.bin b).val l).getD 0 := fun _ => rfl
  rw [e "X", e "Y", e "U", e "V", m.val_bin, m.val_bin, m.val_bin, m.val_bin, hx, hy, hu, hv]
  exact ⟨rfl, rfl⟩

theorem size (h : Moved m f f') : Flow.size f'.data = Flow.size f.data := by
  rw [← length_bins, ← length_bins, h.bins.length_eq, List.length_map]

theorem sum (h : Moved m f f') (F : Bin → ℚ) : ((Flow.bins f'.data).map F).sum = ((Flow.bins f.data).map fun b => F (m.bin b)).sum := by
  rw [(h.bins.map F).sum_eq, List.map_map]; rfl

theorem sum' (h : Moved m f f') (F G : Bin → ℚ) (e : ∀ b ∈ Flow.bins f.data, F (m.bin b) = G b) :
    ((Flow.bins f'.data).map F).sum = ((Flow.bins f.data).map G).sum := by
  rw [h.sum]
  exact congrArg List.sum (List.map_congr_left e)

theorem row {t t' : ℕ} (h : Moved m f f') (ht : SameBin m f f' t t') :
    (val f'.data "X" t', val f'.data "Y" t') = m.pos (val f.data "X" t, val f.data "Y" t) ∧
    (val f'.data "U" t', val f'.data "V" t') = m.vec (val f.data "U" t, val f.data "V" t) := by
  have hb : binAt f.data t ∈ Flow.bins f.data := List.mem_map.mpr ⟨t, List.mem_range.mpr ht.1, rfl⟩
  have e : ∀ (r : Record) l t, l ∈ names r → val r l t = valueOf l (binAt r t) := by
    intro r l t hl
    obtain ⟨c, hc, -⟩ := Sample.field_ok hl
    rw [← getD_valueOf hc, val_of_col hc]
  have := h.values hb
  rw [← ht.2.2] at this
  have hs := h.has
  have hs' : ∀ l ∈ ["X", "Y", "U", "V"], l ∈ names f'.data := fun l hl => h.fields ▸ h.has l hl
  rw [e f.data "X" t (hs _ (by decide)), e f.data "Y" t (hs _ (by decide)), e f.data "U" t (hs _ (by decide)), e f.data "V" t (hs _ (by decide)),
    e f'.data "X" t' (hs' _ (by decide)), e f'.data "Y" t' (hs' _ (by decide)), e f'.data "U" t' (hs' _ (by decide)), e f'.data "V" t' (hs' _ (by decide))]
  exact this

theorem other {t t' : ℕ} (h : Moved m f f') (ht : SameBin m f f' t t') {l : Label} (hl : l ∉ ["X", "Y", "U", "V"]) (hn : l ∈ names f.data) :
    val f'.data l t' = val f.data l t := by
  obtain ⟨c, hc, -⟩ := Sample.field_ok hn
  obtain ⟨c', hc', -⟩ := Sample.field_ok (show l ∈ names f'.data from h.fields ▸ hn)
  rw [val_of_col hc, val_of_col hc', getD_valueOf hc, getD_valueOf hc', ht.2.2, m.valueOf_other _ hl]

theorem field_of (h : Moved m f f') {l : Label} (hl : l ∈ names f.data) : ∃ c d, Average.field f.data l = .ok c ∧ Average.field f'.data l = .ok d ∧
    c = (Flow.bins f.data).map (valueOf l) ∧ d = (Flow.bins f'.data).map (valueOf l) := by
  obtain ⟨c, hc, e⟩ := Sample.field_ok hl
  obtain ⟨d, hd, e'⟩ := Sample.field_ok (show l ∈ names f'.data from h.fields ▸ hl)
  exact ⟨c, d, e, e', col_bins h.left hc, col_bins h.right hd⟩

theorem field_none (h : Moved m f f') {l : Label} (hl : l ∉ names f.data) :
    Average.field f.data l = .error .valueError ∧ Average.field f'.data l = .error .valueError := by
  unfold Average.field
  rw [(col?_none_iff _ _).mpr hl, (col?_none_iff _ _).mpr (h.fields ▸ hl)]
  exact ⟨rfl, rfl⟩

end Moved

/-- **C163, bins.**  Every bin of a map is a bin of the moved one, moved, and every bin of the moved one comes from a bin. -/
theorem C163_bins {m : Rigid} {f f' : Flow} (h : Moved m f f') :
    (∀ t, t < size f.data → ∃ t', SameBin m f f' t t') ∧ ∀ t', t' < size f'.data → ∃ t, SameBin m f f' t t' := by
  constructor
  · intro t ht
    have : m.bin (binAt f.data t) ∈ bins f'.data := h.bins.mem_iff.mpr (List.mem_map.mpr ⟨_, List.mem_map.mpr ⟨t, List.mem_range.mpr ht, rfl⟩, rfl⟩)
    obtain ⟨t', ht', e⟩ := List.mem_map.mp this
    exact ⟨t', ht, List.mem_range.mp ht', e⟩
  · intro t' ht'
    have : binAt f'.data t' ∈ (bins f.data).map m.bin := h.bins.mem_iff.mp (List.mem_map.mpr ⟨t', List.mem_range.mpr ht', rfl⟩)
    obtain ⟨b, hb, e⟩ := List.mem_map.mp this
    obtain ⟨t, ht, rfl⟩ := List.mem_map.mp hb
    exact ⟨t, List.mem_range.mp ht, ht', e.symm⟩

theorem com_eq (f : Flow) {mass : Label} {xs ys ms : List ℚ} (hx : Average.field f.data "X" = .ok xs) (hy : Average.field f.data "Y" = .ok ys)
    (hm : Average.field f.data mass = .ok ms) : centerOfMass f mass ["X", "Y"] = if ms.sum = 0 then .error .zeroDivisionError else
      .ok [(List.zipWith (· * ·) xs ms).sum / ms.sum, (List.zipWith (· * ·) ys ms).sum / ms.sum] := by
  unfold centerOfMass
  rw [List.mapM_cons, List.mapM_cons, List.mapM_nil, hx, hy, hm]
  simp only [Gmx.ok_bind]
  unfold npAverage
  by_cases h : ms.sum = 0
  · simp only [if_pos h]; rfl
  · simp only [if_neg h]; rfl

/-- **C163, centre of mass.**  It moves with the map. -/
theorem C163_center_of_mass {m : Rigid} {f f' : Flow} (h : Moved m f f') (mass : Label) (hm : mass ∉ ["X", "Y", "U", "V"]) :
    Alike (fun p q => ∃ x y, p = [x, y] ∧ q = [(m.pos (x, y)).1, (m.pos (x, y)).2]) (centerOfMass f mass ["X", "Y"]) (centerOfMass f' mass ["X", "Y"]) := by
  obtain ⟨xs, xs', x1, x2, x3, x4⟩ := h.field_of (h.has "X" (by decide))
  obtain ⟨ys, ys', y1, y2, y3, y4⟩ := h.field_of (h.has "Y" (by decide))
  by_cases hn : mass ∈ names f.data
  · obtain ⟨ms, ms', m1, m2, m3, m4⟩ := h.field_of hn
    rw [com_eq f x1 y1 m1, com_eq f' x2 y2 m2, x3, x4, y3, y4, m3, m4, zipWith_bins, zipWith_bins, zipWith_bins, zipWith_bins,
      h.sum' (valueOf mass) (valueOf mass) fun b _ => m.valueOf_other b hm,
      h.sum' (fun b => valueOf "X" b * valueOf mass b) (fun b => m.a * (valueOf "X" b * valueOf mass b) + m.b * (valueOf "Y" b * valueOf mass b) + m.tx * valueOf mass b)
        (fun b hb => by
          have e := (Prod.ext_iff.mp (h.values hb).1).1
          simp only [Rigid.pos] at e
          rw [m.valueOf_other b hm, e]; ring),
      h.sum' (fun b => valueOf "Y" b * valueOf mass b) (fun b => m.c * (valueOf "X" b * valueOf mass b) + m.d * (valueOf "Y" b * valueOf mass b) + m.ty * valueOf mass b)
        (fun b hb => by
          have e := (Prod.ext_iff.mp (h.values hb).1).2
          simp only [Rigid.pos] at e
          rw [m.valueOf_other b hm, e]; ring)]
    by_cases h0 : ((bins f.data).map (valueOf mass)).sum = 0
    · rw [if_pos h0, if_pos h0]; exact Or.inr ⟨_, rfl, rfl⟩
    · rw [if_neg h0, if_neg h0]
      refine Or.inl ⟨_, _, rfl, rfl, _, _, rfl, ?_⟩
      rw [List.sum_map_add, List.sum_map_add, List.sum_map_add, List.sum_map_add, List.sum_map_mul_left, List.sum_map_mul_left, List.sum_map_mul_left,
        List.sum_map_mul_left, List.sum_map_mul_left, List.sum_map_mul_left]
      simp only [Rigid.pos, List.cons.injEq, and_true]
      constructor <;> field_simp
  · obtain ⟨e, e'⟩ := h.field_none hn
    refine Or.inr ⟨.valueError, ?_, ?_⟩ <;> unfold centerOfMass <;> rw [List.mapM_cons]
    · rw [x1, e]; rfl
    · rw [x2, e']; rfl

theorem direction_of (m : Rigid) {u v : ℚ} {θ θ' : ℝ} (h : IsAngle u v θ) (h' : IsAngle (m.vec (u, v)).1 (m.vec (u, v)).2 θ') : m.Direction θ θ' := by
  obtain ⟨-, -, r, hr, e1, e2⟩ := h
  obtain ⟨-, -, r', hr', e1', e2'⟩ := h'
  have hq : (((m.vec (u, v)).1 : ℝ)) ^ 2 + (((m.vec (u, v)).2 : ℝ)) ^ 2 = (u : ℝ) ^ 2 + (v : ℝ) ^ 2 := by exact_mod_cast m.vec_sq (u, v)
  have c1 := Real.cos_sq_add_sin_sq (θ * Real.pi / 180)
  have c2 := Real.cos_sq_add_sin_sq (θ' * Real.pi / 180)
  rw [e1, e2, e1', e2'] at hq
  have hrr : r' ^ 2 = r ^ 2 := by linear_combination hq - r' ^ 2 * c2 + r ^ 2 * c1
  have hrr : r' = r := (sq_eq_sq₀ hr'.le hr.le).mp hrr
  have w1 : (((m.vec (u, v)).1 : ℚ) : ℝ) = m.a * u + m.b * v := by simp only [Rigid.vec]; push_cast; rfl
  have w2 : (((m.vec (u, v)).2 : ℚ) : ℝ) = m.c * u + m.d * v := by simp only [Rigid.vec]; push_cast; rfl
  rw [w1, e1, e2, hrr] at e1'
  rw [w2, e1, e2, hrr] at e2'
  constructor
  · apply mul_left_cancel₀ hr.ne'; linear_combination -e1'
  · apply mul_left_cancel₀ hr.ne'; linear_combination -e2'

theorem sum_rows (r : Record) (F : Bin → ℚ) : ∑ t ∈ Finset.range (size r), F (binAt r t) = ((bins r).map F).sum := by
  rw [bins, List.map_map]; rfl

theorem netFlow_eq {f : Flow} {weight : Option Label} (hu : "U" ∈ names f.data) (hv : "V" ∈ names f.data) (hw : ∀ w, weight = some w → w ∈ names f.data) :
    netFlow f weight = (∑ t ∈ Finset.range (size f.data), val f.data "U" t * weight.elim 1 fun w => val f.data w t,
      ∑ t ∈ Finset.range (size f.data), val f.data "V" t * weight.elim 1 fun w => val f.data w t) := by
  have e : ∀ l t, l ∈ names f.data → val f.data l t = valueOf l (binAt f.data t) := by
    intro l t hl
    obtain ⟨c, hc, -⟩ := Sample.field_ok hl
    rw [← getD_valueOf hc, val_of_col hc]
  have ew : ∀ t, (weight.elim 1 fun w => val f.data w t) = weight.elim 1 fun w => valueOf w (binAt f.data t) := by
    intro t
    cases weight with
    | none => rfl
    | some w => exact e w t (hw w rfl)
  unfold netFlow
  rw [← sum_rows, ← sum_rows]
  simp only [e "U" _ hu, e "V" _ hv, ew]
  rfl

theorem Moved.net {m : Rigid} {f f' : Flow} (h : Moved m f f') (weight : Option Label) (hw : ∀ w, weight = some w → w ∉ ["X", "Y", "U", "V"]) :
    netFlow f' weight = m.vec (netFlow f weight) := by
  have ew : ∀ b, (weight.elim 1 fun w => valueOf w (m.bin b)) = weight.elim 1 fun w => valueOf w b := by
    intro b
    cases weight with
    | none => rfl
    | some w => exact m.valueOf_other b (hw w rfl)
  have key : ∀ l, ((Flow.bins f'.data).map fun b => valueOf l b * weight.elim 1 fun w => valueOf w b).sum =
      ((Flow.bins f.data).map fun b => valueOf l (m.bin b) * weight.elim 1 fun w => valueOf w b).sum := by
    intro l
    exact h.sum' _ _ fun b _ => by rw [ew]
  have e : netFlow f' weight = (((Flow.bins f'.data).map fun b => valueOf "U" b * weight.elim 1 fun w => valueOf w b).sum,
    ((Flow.bins f'.data).map fun b => valueOf "V" b * weight.elim 1 fun w => valueOf w b).sum) := rfl
  have e' : netFlow f weight = (((Flow.bins f.data).map fun b => valueOf "U" b * weight.elim 1 fun w => valueOf w b).sum,
    ((Flow.bins f.data).map fun b => valueOf "V" b * weight.elim 1 fun w => valueOf w b).sum) := rfl
  rw [e, e', key, key]
  unfold Rigid.vec
  simp only [Prod.mk.injEq]
  constructor
  · rw [← List.sum_map_mul_left, ← List.sum_map_mul_left, ← List.sum_map_add]
    refine congrArg List.sum (List.map_congr_left fun b hb => ?_)
    have q := (Prod.ext_iff.mp (h.values hb).2).1
    simp only [Rigid.vec] at q
    rw [q]; ring
  · rw [← List.sum_map_mul_left, ← List.sum_map_mul_left, ← List.sum_map_add]
    refine congrArg List.sum (List.map_congr_left fun b hb => ?_)
    have q := (Prod.ext_iff.mp (h.values hb).2).2
    simp only [Rigid.vec] at q
    rw [q]; ring

theorem Rigid.vec_zero_iff (m : Rigid) (v : ℚ × ℚ) : ((m.vec v).1 ≠ 0 ∨ (m.vec v).2 ≠ 0) ↔ (v.1 ≠ 0 ∨ v.2 ≠ 0) := by
  have e := m.vec_sq v
  rw [← not_and_or, ← not_and_or, not_iff_not]
  constructor
  · rintro ⟨h1, h2⟩
    rw [h1, h2] at e
    constructor <;> nlinarith [sq_nonneg v.1, sq_nonneg v.2]
  · rintro ⟨h1, h2⟩
    simp [Rigid.vec, h1, h2]

/-- **C163, mean flow angle.**  The mean direction of the flow turns with the map; without a net flow it is 0. -/
theorem C163_mean_flow_angle {m : Rigid} {f f' : Flow} (h : Moved m f f') (weight : Option Label)
    (hw : ∀ w, weight = some w → w ∈ names f.data ∧ w ≠ "" ∧ w ∉ ["X", "Y", "U", "V"]) :
    ∃ θ θ', flowAngle f ["U", "V"] true weight = .ok [θ] ∧ flowAngle f' ["U", "V"] true weight = .ok [θ'] ∧
      (netFlow f weight ≠ (0, 0) → m.Direction θ θ') ∧ (netFlow f weight = (0, 0) → θ = 0 ∧ θ' = 0) := by
  have hs : ∀ l ∈ ["X", "Y", "U", "V"], l ∈ names f'.data := fun l hl => h.fields ▸ h.has l hl
  have n1 := netFlow_eq (weight := weight) (h.has "U" (by decide)) (h.has "V" (by decide)) fun w e => (hw w e).1
  have n2 := netFlow_eq (weight := weight) (hs "U" (by decide)) (hs "V" (by decide)) fun w e => h.fields ▸ (hw w e).1
  obtain ⟨θ, e, -, ha, h0⟩ := C44_mean_angle f "U" "V" h.left (h.has "U" (by decide)) (h.has "V" (by decide)) weight (fun w e => ⟨(hw w e).1, (hw w e).2.1⟩)
    (netFlow f weight).1 (netFlow f weight).2 (by rw [n1]) (by rw [n1])
  obtain ⟨θ', e', -, ha', h0'⟩ := C44_mean_angle f' "U" "V" h.right (hs "U" (by decide)) (hs "V" (by decide)) weight (fun w e => ⟨h.fields ▸ (hw w e).1, (hw w e).2.1⟩)
    (netFlow f' weight).1 (netFlow f' weight).2 (by rw [n2]) (by rw [n2])
  have hn := h.net weight fun w e => (hw w e).2.2
  rw [hn] at ha' h0'
  refine ⟨θ, θ', e, e', fun hne => ?_, fun hz => ?_⟩
  · have : (netFlow f weight).1 ≠ 0 ∨ (netFlow f weight).2 ≠ 0 := by
      rw [← not_and_or]; exact fun hc => hne (Prod.ext hc.1 hc.2)
    exact direction_of m (ha this) (ha' ((m.vec_zero_iff _).mpr this))
  · rw [hz] at h0 h0'
    exact ⟨h0 rfl rfl, h0' (by simp [Rigid.vec]) (by simp [Rigid.vec])⟩

/-- **C163, flow angles.**  The direction of the flow in a bin turns with the map. -/
theorem C163_flow_angles {m : Rigid} {f f' : Flow} (h : Moved m f f') :
    ∃ a a', flowAngle f ["U", "V"] false none = .ok a ∧ flowAngle f' ["U", "V"] false none = .ok a' ∧
      a.length = size f.data ∧ a'.length = size f'.data ∧
      ∀ t t', SameBin m f f' t t' → (val f.data "U" t ≠ 0 ∨ val f.data "V" t ≠ 0) → m.Direction (a.getD t 0) (a'.getD t' 0) := by
  have hs : ∀ l ∈ ["X", "Y", "U", "V"], l ∈ names f'.data := fun l hl => h.fields ▸ h.has l hl
  obtain ⟨a, e, l, ha⟩ := C44_bin_angles f "U" "V" h.left (h.has "U" (by decide)) (h.has "V" (by decide)) none
  obtain ⟨a', e', l', ha'⟩ := C44_bin_angles f' "U" "V" h.right (hs "U" (by decide)) (hs "V" (by decide)) none
  refine ⟨a, a', e, e', l, l', fun t t' ht hne => ?_⟩
  have hr := Prod.ext_iff.mp (h.row ht).2
  have h2 := (ha' t' ht.2.1).2.1
  simp only at hr
  rw [hr.1, hr.2] at h2
  exact direction_of m ((ha t ht.1).2.1 hne) (h2 ((m.vec_zero_iff _).mpr hne))

/-- **C163, kinetic energy.**  A bin keeps its energy. -/
theorem C163_energy {m : Rigid} {f f' : Flow} (h : Moved m f f') (mass : Label) (hm : mass ∉ ["X", "Y", "U", "V"]) (hn : mass ∈ names f.data) :
    ∃ e e', inertialEnergy f mass ("U", "V") = .ok e ∧ inertialEnergy f' mass ("U", "V") = .ok e' ∧ e.length = size f.data ∧ e'.length = size f'.data ∧
      ∀ t t', SameBin m f f' t t' → e'.getD t' 0 = e.getD t 0 := by
  have hs : ∀ l ∈ ["X", "Y", "U", "V"], l ∈ names f'.data := fun l hl => h.fields ▸ h.has l hl
  obtain ⟨e, h1, h2, h3⟩ := C41_inertial_energy f mass "U" "V" h.left hn (h.has "U" (by decide)) (h.has "V" (by decide))
  obtain ⟨e', h1', h2', h3'⟩ := C41_inertial_energy f' mass "U" "V" h.right (h.fields ▸ hn) (hs "U" (by decide)) (hs "V" (by decide))
  refine ⟨e, e', h1, h1', h2, h2', fun t t' ht => ?_⟩
  have hr := Prod.ext_iff.mp (h.row ht).2
  simp only at hr
  rw [(h3 t ht.1).1, (h3' t' ht.2.1).1, hr.1, hr.2, m.vec_sq, h.other ht hm hn]

/-- **C163, absolute flow.**  A bin keeps its speed. -/
theorem C163_absolute_flow {m : Rigid} {f f' : Flow} (h : Moved m f f') (hn : "flow" ∉ names f.data) :
    ∃ c c', absoluteFlow f.data = .ok c ∧ absoluteFlow f'.data = .ok c' ∧ c.length = size f.data ∧ c'.length = size f'.data ∧
      ∀ t t', SameBin m f f' t t' → c'.getD t' 0 = c.getD t 0 := by
  have hs : ∀ l ∈ ["X", "Y", "U", "V"], l ∈ names f'.data := fun l hl => h.fields ▸ h.has l hl
  obtain ⟨c, h1, h2, h3⟩ := (C93_absolute_flow f.data h.left (h.has "U" (by decide)) (h.has "V" (by decide))).2 hn
  obtain ⟨c', h1', h2', h3'⟩ := (C93_absolute_flow f'.data h.right (hs "U" (by decide)) (hs "V" (by decide))).2 (h.fields ▸ hn)
  refine ⟨c, c', h1, h1', h2, h2', fun t t' ht => ?_⟩
  have hr := Prod.ext_iff.mp (h.row ht).2
  simp only at hr
  apply (sq_eq_sq₀ (h3' t' ht.2.1).1 (h3 t ht.1).1).mp
  rw [(h3' t' ht.2.1).2.1, (h3 t ht.1).2.1, hr.1, hr.2, m.vec_sq]

/-- **C163, radial flow (partial).**  Away from the centre of mass the colouring by radial flow is that of the original map, with the other sign in
mirrors. -/
theorem C163_radial_flow_partial {m : Rigid} {f f' : Flow} (h : Moved m f f') (hn : "radial" ∉ names f.data) (cx cy : ℚ)
    (hc : centerOfMass f "M" ["X", "Y"] = .ok [cx, cy]) :
    ∃ c c', radialColour f = .ok c ∧ radialColour f' = .ok c' ∧ c.length = size f.data ∧ c'.length = size f'.data ∧
      ∀ t t', SameBin m f f' t t' → (val f.data "X" t, val f.data "Y" t) ≠ (cx, cy) → c'.getD t' 0 = m.sign * c.getD t 0 := by
  have hs : ∀ l ∈ ["X", "Y", "U", "V"], l ∈ names f'.data := fun l hl => h.fields ▸ h.has l hl
  rcases C163_center_of_mass h "M" (by decide) with ⟨p, q, e1, e2, x, y, rfl, rfl⟩ | ⟨e, e1, -⟩
  swap
  · rw [hc] at e1; cases e1
  rw [hc] at e1
  injection e1 with e1
  simp only [List.cons.injEq, and_true] at e1
  obtain ⟨rfl, rfl⟩ := e1
  obtain ⟨c, h1, h2, h3⟩ := (C93_radial_flow f.data (cx, cy) (h.has "X" (by decide)) (h.has "Y" (by decide)) (h.has "U" (by decide)) (h.has "V" (by decide))).2 hn
  obtain ⟨c', h1', h2', h3'⟩ := (C93_radial_flow f'.data (m.pos (cx, cy)) (hs "X" (by decide)) (hs "Y" (by decide)) (hs "U" (by decide)) (hs "V" (by decide))).2 (h.fields ▸ hn)
  refine ⟨c, c', by unfold radialColour; rw [hc, Gmx.ok_bind]; exact h1, by unfold radialColour; rw [e2, Gmx.ok_bind]; exact h1', h2, h2', fun t t' ht hne => ?_⟩
  have hr := Prod.ext_iff.mp (h.row ht).2
  have hp := Prod.ext_iff.mp (h.row ht).1
  simp only at hr hp
  set X := val f.data "X" t
  set Y := val f.data "Y" t
  have hpos : 0 < (X - cx) ^ 2 + (Y - cy) ^ 2 := by
    rcases eq_or_ne X cx with hx | hx
    · have hy : Y - cy ≠ 0 := fun hy => hne (Prod.ext hx (by linarith))
      positivity
    · have hx : X - cx ≠ 0 := sub_ne_zero.mpr hx
      positivity
  have hρ : 0 < Real.sqrt (((X - cx) ^ 2 + (Y - cy) ^ 2 : ℚ) : ℝ) := Real.sqrt_pos.mpr (by exact_mod_cast hpos)
  have hρ2 : Real.sqrt (((X - cx) ^ 2 + (Y - cy) ^ 2 : ℚ) : ℝ) ^ 2 = (((X - cx) ^ 2 + (Y - cy) ^ 2 : ℚ) : ℝ) := Real.sq_sqrt (by exact_mod_cast hpos.le)
  have k1 := h3 t ht.1 _ hρ hρ2
  have hd : (m.pos (X, Y)).1 - (m.pos (cx, cy)).1 = (m.vec (X - cx, Y - cy)).1 ∧ (m.pos (X, Y)).2 - (m.pos (cx, cy)).2 = (m.vec (X - cx, Y - cy)).2 := by
    simp only [Rigid.pos, Rigid.vec]; constructor <;> ring
  have k2 := h3' t' ht.2.1 (Real.sqrt (((X - cx) ^ 2 + (Y - cy) ^ 2 : ℚ) : ℝ)) hρ (by rw [hp.1, hp.2, hd.1, hd.2, m.vec_sq, hρ2])
  rw [hp.1, hp.2, hr.1, hr.2, hd.1, hd.2] at k2
  apply mul_right_cancel₀ hρ.ne'
  rw [k2, mul_assoc, k1, ← Rat.cast_mul]
  congr 1
  simp only [Rigid.vec, Rigid.sign]
  ring

/-! ## Arrows -/

/-- The weight of the arrow of a bin. -/
def weightIn (colour : Option Label) (b : Bin) : ℚ := colour.elim 1 fun l => (b.val l).getD 1

/-- The value of a bin is not below the cutoff, if there is one. -/
def cutIn (clim : Option Label × Option ℚ) (b : Bin) : Bool :=
  match clim with
  | (some l, some c) => decide (c ≤ valueOf l b)
  | _ => true

/-- A bin gets an arrow (there are no limits of position). -/
def drawn (clim : Option Label × Option ℚ) (b : Bin) : Bool :=
  decide (valueOf "U" b ≠ 0) && decide (valueOf "V" b ≠ 0) && cutIn clim b

theorem valueOf_row {r : Record} {l : Label} (hl : l ∈ names r) (t : ℕ) : val r l t = valueOf l (binAt r t) := by
  obtain ⟨c, hc, -⟩ := Sample.field_ok hl
  rw [← getD_valueOf hc, val_of_col hc]

theorem arrows_bins {r : Record} (hw : Wf r) (hs : 0 < Flow.size r) (has : ∀ l ∈ ["X", "Y", "U", "V"], l ∈ names r) (colour : Option Label)
    (clim : Option Label × Option ℚ) (hc : ∀ l, clim.1 = some l → l ∈ names r) :
    ∃ A, quiver r ("U", "V") ("X", "Y") colour clim (none, none) (none, none) = .ok A ∧
      arrowList A = ((bins r).filter (drawn clim)).map fun b => (valueOf "X" b, valueOf "Y" b, valueOf "U" b, valueOf "V" b, weightIn colour b) := by
  obtain ⟨rows, h1, h2, h3⟩ := C72_as_coded r hw hs ("U", "V") ("X", "Y") colour clim (none, none) (none, none) (has "X" (by decide)) (has "Y" (by decide))
    (has "U" (by decide)) (has "V" (by decide)) hc
  refine ⟨_, h3, ?_⟩
  have hr : rows = (List.range (Flow.size r)).filter fun t => drawn clim (binAt r t) := by
    apply List.Pairwise.eq_of_mem_iff h1 (List.Pairwise.filter _ List.pairwise_lt_range)
    intro t
    rw [h2, List.mem_filter, List.mem_range]
    refine and_congr_right fun _ => ?_
    unfold drawn cutIn
    simp only [Bool.and_eq_true, decide_eq_true_eq, valueOf_row (has "U" (by decide)), valueOf_row (has "V" (by decide))]
    have hwi : ∀ v : ℚ, Within none none v := fun v => by simp [Within]
    constructor
    · rintro ⟨h, -, -, hcut⟩
      refine ⟨h, ?_⟩
      obtain ⟨l, c⟩ := clim
      cases l with
      | none => rfl
      | some l =>
        cases c with
        | none => rfl
        | some c => simpa [valueOf_row (hc l rfl)] using hcut l c rfl
    · rintro ⟨h, hcut⟩
      refine ⟨h, hwi _, hwi _, ?_⟩
      rintro l c rfl
      rw [valueOf_row (hc l rfl)]
      simpa using hcut
  rw [arrowList_map, hr]
  unfold bins
  rw [List.filter_map, List.map_map]
  apply List.map_congr_left
  intro t _
  simp only [Function.comp_def, valueOf_row (has "U" (by decide)), valueOf_row (has "V" (by decide)), valueOf_row (has "X" (by decide)), valueOf_row (has "Y" (by decide)),
    Prod.mk.injEq, true_and]
  unfold arrowWeight weightIn
  cases colour with
  | none => rfl
  | some l =>
    simp only [Option.elim]
    by_cases hl : l ∈ names r
    · obtain ⟨c, hc, -⟩ := Sample.field_ok hl
      simp [hl, val_of_col hc, val_binAt, hc]
    · simp [hl, val_binAt, (col?_none_iff r l).mpr hl]

/-- **C163, arrows (partial).**  Without limits of position, and if no bin has a flow along one axis only (neither before nor after the motion), the arrows of the
moved map are those of the map, moved. -/
theorem C163_arrows_partial {m : Rigid} {f f' : Flow} (h : Moved m f f') (hs : 0 < Flow.size f.data) (colour : Option Label) (clim : Option Label × Option ℚ)
    (hcol : ∀ l, colour = some l → l ∉ ["X", "Y", "U", "V"]) (hc : ∀ l, clim.1 = some l → l ∈ names f.data ∧ l ∉ ["X", "Y", "U", "V"])
    (hb : ∀ t, t < Flow.size f.data → (val f.data "U" t = 0 ↔ val f.data "V" t = 0))
    (hb' : ∀ t, t < Flow.size f'.data → (val f'.data "U" t = 0 ↔ val f'.data "V" t = 0)) :
    ∃ A A', quiver f.data ("U", "V") ("X", "Y") colour clim (none, none) (none, none) = .ok A ∧
      quiver f'.data ("U", "V") ("X", "Y") colour clim (none, none) (none, none) = .ok A' ∧
      (arrowList A').Perm ((arrowList A).map fun p => ((m.pos (p.1, p.2.1)).1, (m.pos (p.1, p.2.1)).2, (m.vec (p.2.2.1, p.2.2.2.1)).1,
        (m.vec (p.2.2.1, p.2.2.2.1)).2, p.2.2.2.2)) := by
  have has' : ∀ l ∈ ["X", "Y", "U", "V"], l ∈ names f'.data := fun l hl => h.fields ▸ h.has l hl
  obtain ⟨A, e, ea⟩ := arrows_bins h.left hs h.has colour clim fun l e => (hc l e).1
  obtain ⟨A', e', ea'⟩ := arrows_bins h.right (h.size ▸ hs) has' colour clim fun l e => h.fields ▸ (hc l e).1
  refine ⟨A, A', e, e', ?_⟩
  rw [ea, ea', List.map_map]
  refine ((h.bins.filter _).map _).trans ?_
  rw [List.filter_map, List.map_map]
  have hf : (Flow.bins f.data).filter (drawn clim ∘ m.bin) = (Flow.bins f.data).filter (drawn clim) := by
    apply List.filter_congr
    intro b hbm
    obtain ⟨t, ht, rfl⟩ := List.mem_map.mp hbm
    have ht := List.mem_range.mp ht
    obtain ⟨t', hst⟩ := (C163_bins h).1 t ht
    have k1 := hb t ht
    have k2 := hb' t' hst.2.1
    rw [valueOf_row (h.has "U" (by decide)), valueOf_row (h.has "V" (by decide))] at k1
    rw [valueOf_row (has' "U" (by decide)), valueOf_row (has' "V" (by decide)), hst.2.2] at k2
    have k3 := m.vec_zero_iff (valueOf "U" (binAt f.data t), valueOf "V" (binAt f.data t))
    rw [← (h.values hbm).2] at k3
    have kc : cutIn clim (m.bin (binAt f.data t)) = cutIn clim (binAt f.data t) := by
      unfold cutIn
      obtain ⟨l, c⟩ := clim
      cases l with
      | none => rfl
      | some l =>
        cases c with
        | none => rfl
        | some c => simp only [m.valueOf_other _ (hc l rfl).2]
    unfold drawn
    simp only [Function.comp_def]
    rw [kc]
    congr 1
    rw [← Bool.decide_and, ← Bool.decide_and]
    apply decide_eq_decide.mpr
    simp only at k3
    tauto
  rw [hf]
  apply List.Perm.of_eq
  apply List.map_congr_left
  intro b hbm
  have hbm := (List.mem_filter.mp hbm).1
  have k1 := Prod.ext_iff.mp (h.values hbm).1
  have k2 := Prod.ext_iff.mp (h.values hbm).2
  simp only at k1 k2
  simp only [Function.comp_def, k1.1, k1.2, k2.1, k2.2, Prod.mk.injEq, true_and]
  unfold weightIn
  cases colour with
  | none => rfl
  | some l =>
    have hl := hcol l rfl
    simp only [List.mem_cons, List.not_mem_nil, or_false, not_or] at hl
    simp only [Option.elim]
    rw [m.val_bin]
    simp only [if_neg hl.1, if_neg hl.2.1, if_neg hl.2.2.1, if_neg hl.2.2.2]
    cases b.val l <;> rfl

/-! ## Counterexamples and examples -/

/-- A turn to the right with cosine 3/5, and a displacement by (10, 0). -/
def exRigid : Rigid := ⟨3 / 5, 4 / 5, -4 / 5, 3 / 5, 10, 0, by norm_num, by norm_num, by norm_num⟩
/-- Two bins, the first with flow (3, 4). -/
def exRigidMap : Flow := ⟨[("X", [0, 5]), ("Y", [0, 0]), ("U", [3, 1]), ("V", [4, 1]), ("M", [1, 3])], {}⟩
/-- The same map after the turn, the second bin stored first. -/
def exRigidMoved : Flow := ⟨[("X", [13, 10]), ("Y", [-4, 0]), ("U", [7 / 5, 5]), ("V", [-1 / 5, 0]), ("M", [3, 1])], {}⟩

theorem exMoved : Moved exRigid exRigidMap exRigidMoved :=
  ⟨⟨by decide, by decide⟩, ⟨by decide, by decide⟩, rfl, by decide, by decide +kernel⟩

/-- **C163, arrows (counterexample).**  The flow (3, 4) of the first bin becomes (5, 0), and the bin loses its arrow. -/
theorem C163_arrows_counterexample : ∃ m f f', Moved m f f' ∧
    quiver f.data ("U", "V") ("X", "Y") none (none, none) (none, none) (none, none) = .ok ([0, 5], [0, 0], [3, 1], [4, 1], [1, 1]) ∧
    quiver f'.data ("U", "V") ("X", "Y") none (none, none) (none, none) (none, none) = .ok ([13], [-4], [7 / 5], [-1 / 5], [1]) :=
  ⟨exRigid, exRigidMap, exRigidMoved, exMoved, by decide +kernel, by decide +kernel⟩

/-- A quarter turn to the left. -/
def exQuarter : Rigid := ⟨0, -1, 1, 0, 0, 0, by norm_num, by norm_num, by norm_num⟩
/-- A single bin. -/
def exOne : Flow := ⟨[("X", [0]), ("Y", [0]), ("U", [0]), ("V", [1]), ("M", [1])], {}⟩
/-- The same after a quarter turn. -/
def exOneMoved : Flow := ⟨[("X", [0]), ("Y", [0]), ("U", [-1]), ("V", [0]), ("M", [1])], {}⟩

theorem exMovedOne : Moved exQuarter exOne exOneMoved :=
  ⟨⟨by decide, by decide⟩, ⟨by decide, by decide⟩, rfl, by decide, by decide +kernel⟩

/-- **C163, radial flow (counterexample).**  A bin at the centre of mass with flow (0, 1): its radial flow is -1, and after a quarter turn 0. -/
theorem C163_radial_flow_counterexample : ∃ m f f', Moved m f f' ∧ m.sign = 1 ∧ radialColour f = .ok [-1] ∧ radialColour f' = .ok [0] := by
  refine ⟨exQuarter, exOne, exOneMoved, exMovedOne, by unfold Rigid.sign exQuarter; norm_num, ?_, ?_⟩
  · unfold radialColour
    rw [show centerOfMass exOne "M" ["X", "Y"] = .ok [0, 0] by decide +kernel, Gmx.ok_bind]
    unfold radialFlow
    rw [show Average.field exOne.data "Y" = .ok [0] by decide +kernel, show Average.field exOne.data "X" = .ok [0] by decide +kernel,
      show Average.field exOne.data "U" = .ok [0] by decide +kernel, show Average.field exOne.data "V" = .ok [1] by decide +kernel,
      show newName exOne.data "radial" = .ok () by decide +kernel, show Flow.size exOne.data = 1 from rfl]
    simp only [Gmx.ok_bind, List.range_one, List.map_cons, List.map_nil, List.getD_cons_zero, sub_self]
    rw [show arctan2 0 0 = 0 by unfold arctan2; rw [show (⟨((0 : ℚ) : ℝ), ((0 : ℚ) : ℝ)⟩ : ℂ) = 0 from by apply Complex.ext <;> simp, Complex.arg_zero]]
    simp
  · unfold radialColour
    rw [show centerOfMass exOneMoved "M" ["X", "Y"] = .ok [0, 0] by decide +kernel, Gmx.ok_bind]
    unfold radialFlow
    rw [show Average.field exOneMoved.data "Y" = .ok [0] by decide +kernel, show Average.field exOneMoved.data "X" = .ok [0] by decide +kernel,
      show Average.field exOneMoved.data "U" = .ok [-1] by decide +kernel, show Average.field exOneMoved.data "V" = .ok [0] by decide +kernel,
      show newName exOneMoved.data "radial" = .ok () by decide +kernel, show Flow.size exOneMoved.data = 1 from rfl]
    simp only [Gmx.ok_bind, List.range_one, List.map_cons, List.map_nil, List.getD_cons_zero, sub_self]
    rw [show arctan2 0 0 = 0 by unfold arctan2; rw [show (⟨((0 : ℚ) : ℝ), ((0 : ℚ) : ℝ)⟩ : ℂ) = 0 from by apply Complex.ext <;> simp, Complex.arg_zero]]
    simp

/-- A mirror at the diagonal, and a displacement. -/
def exDiagonal : Rigid := ⟨0, 1, 1, 0, 1, 2, by norm_num, by norm_num, by norm_num⟩
/-- The first map in this mirror. -/
def exRigidMirror : Flow := ⟨[("X", [1, 1]), ("Y", [2, 7]), ("U", [4, 1]), ("V", [3, 1]), ("M", [1, 3])], {}⟩
theorem exMovedMirror : Moved exDiagonal exRigidMap exRigidMirror :=
  ⟨⟨by decide, by decide⟩, ⟨by decide, by decide⟩, rfl, by decide, by decide +kernel⟩

-- the hypotheses are met, and the calls succeed
example : centerOfMass exRigidMap "M" ["X", "Y"] = .ok [15 / 4, 0] := by decide +kernel
example : centerOfMass exRigidMoved "M" ["X", "Y"] = .ok [49 / 4, -3] := by decide +kernel
example : netFlow exRigidMap (some "M") = (6, 7) := by decide +kernel
example := C163_mean_flow_angle exMoved (some "M") (by intro w hw; rw [← Option.some.inj hw]; decide)
example := C163_energy exMoved "M" (by decide) (by decide)
example := C163_absolute_flow exMoved (by decide)
example := C163_radial_flow_partial exMoved (by decide) (15 / 4) 0 (by decide +kernel)
example := C163_arrows_partial exMovedMirror (by decide) (some "M") (some "M", some 1) (by rintro l ⟨⟩; decide) (by rintro l ⟨⟩; decide)
  (by show ∀ t : ℕ, t < 2 → _; decide +kernel) (by show ∀ t : ℕ, t < 2 → _; decide +kernel)

end Strata.Flow
