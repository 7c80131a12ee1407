import Verif.Props.AverageUnits
import Verif.Props.SampleAngle
/-!
# C156: sampled quantities have the units they should have
-/
namespace Strata.Sample
open Strata Strata.Flow Strata.Average

variable {u : FieldUnits}

theorem field_fields (f : Flow) (l : Label) : field (u.flow f).data l = (field f.data l).map fun c => c.map (u.value l) := by
  unfold field col?
  rw [show (u.flow f).data = f.data.map fun c => (c.1, c.2.map (u.value c.1)) from rfl, lookup_fields]
  cases f.data.lookup l <;> rfl

theorem field_length {f : Flow} (hw : Wf f.data) {l : Label} {c : List ℚ} (h : field f.data l = .ok c) : c.length = Flow.size f.data := by
  unfold field at h
  cases hl : col? f.data l with
  | none => rw [hl] at h; cases h
  | some c' =>
    rw [hl] at h
    injection h with h
    subst h
    exact col?_length hw hl

theorem getD_value {c : List ℚ} {t : ℕ} (ht : t < c.length) (g : ℚ → ℚ) : (c.map g).getD t 0 = g (c.getD t 0) := by
  simp [List.getD_eq_getElem?_getD, List.getElem?_eq_getElem ht]

theorem map_plain {l : Label} (hx : l ≠ "X") (hy : l ≠ "Y") (c : List ℚ) : c.map (u.value l) = c.map (u.factor l * ·) :=
  List.map_congr_left fun v _ => value_plain hx hy v

theorem getD_factor (k : ℚ) (c : List ℚ) (t : ℕ) : (c.map (k * ·)).getD t 0 = k * c.getD t 0 := by
  rw [List.getD_eq_getElem?_getD, List.getD_eq_getElem?_getD, List.getElem?_map]
  cases c[t]? <;> simp

theorem sum_map_factor (k : ℚ) (c : List ℚ) : (c.map (k * ·)).sum = k * c.sum := by
  rw [List.sum_map_mul_left, List.map_id']

/-! ### Centre of mass, kinetic energy -/

theorem npAverage_units (k a b : ℚ) (hk : 0 < k) (vs ws : List ℚ) (hl : vs.length = ws.length) :
    npAverage (vs.map fun v => a * v + b) (ws.map (k * ·)) = (npAverage vs ws).map fun v => a * v + b := by
  unfold npAverage
  rw [sum_map_factor]
  by_cases hs : ws.sum = 0
  · rw [if_pos (by rw [hs, mul_zero]), if_pos hs]; rfl
  · rw [if_neg (mul_ne_zero hk.ne' hs), if_neg hs]
    show Except.ok _ = Except.ok _
    congr 1
    have e : ∀ (vs ws : List ℚ), vs.length = ws.length → (List.zipWith (· * ·) (vs.map fun v => a * v + b) (ws.map (k * ·))).sum = k * (a * (List.zipWith (· * ·) vs ws).sum + b * ws.sum) := by
      intro vs
      induction vs with
      | nil => intro ws h; rw [List.length_nil, eq_comm, List.length_eq_zero_iff] at h; subst h; simp
      | cons v vs ih =>
        intro ws h
        cases ws with
        | nil => simp at h
        | cons w ws =>
          simp only [List.map_cons, List.zipWith_cons_cons, List.sum_cons]
          rw [ih ws (by simpa using h)]
          ring
    rw [e vs ws hl, mul_div_mul_left _ _ hk.ne', add_div, mul_div_assoc, mul_div_assoc, div_self hs, mul_one]

/-- **C156, centre of mass.** The centre of mass of a map in other units is the position of the centre of mass in these units, and it is found for the same maps. -/
theorem C156_centre_of_mass (u : FieldUnits) (h : u.Valid) (f : Flow) (hw : Wf f.data) :
    centerOfMass (u.flow f) = (centerOfMass f).map fun c => List.zipWith u.value ["X", "Y"] c := by
  unfold centerOfMass
  have one : ∀ l, (do npAverage (← field (u.flow f).data l) (← field (u.flow f).data "M") : Except Err ℚ) =
      (do npAverage (← field f.data l) (← field f.data "M") : Except Err ℚ).map (u.value l) := by
    intro l
    rw [field_fields, field_fields]
    cases hl : field f.data l with
    | error e => rfl
    | ok c =>
      cases hm : field f.data "M" with
      | error e => rfl
      | ok m =>
        show npAverage (c.map (u.value l)) (m.map (u.value "M")) = (npAverage c m).map (u.value l)
        rw [map_plain (l := "M") (by decide) (by decide)]
        exact npAverage_units (u.factor "M") (u.factor l) _ (h _) c m (by rw [field_length hw hl, field_length hw hm])
  rw [List.mapM_cons, List.mapM_cons, List.mapM_nil, List.mapM_cons, List.mapM_cons, List.mapM_nil, one, one]
  cases (do npAverage (← field f.data "X") (← field f.data "M") : Except Err ℚ) with
  | error e => rfl
  | ok x =>
    cases (do npAverage (← field f.data "Y") (← field f.data "M") : Except Err ℚ) <;> rfl

/-- **C156, kinetic energy.** In other units of mass and flow (the same one along x and y) the energies of all bins are multiplied by the unit of the mass and the square of the unit of the flow. -/
theorem C156_energy (u : FieldUnits) (f : Flow) (huv : u.factor "V" = u.factor "U") :
    inertialEnergy (u.flow f) = (inertialEnergy f).map fun e => e.map (u.factor "M" * u.factor "U" ^ 2 * ·) := by
  unfold inertialEnergy
  dsimp only
  rw [field_fields, field_fields, field_fields, size_fields]
  cases field f.data "M" with
  | error e => rfl
  | ok m =>
    cases field f.data "U" with
    | error e => rfl
    | ok us =>
      cases field f.data "V" with
      | error e => rfl
      | ok vs =>
        simp only [Except.map, bind, Except.bind]
        rw [map_plain (by decide) (by decide), map_plain (by decide) (by decide), map_plain (by decide) (by decide), List.map_map]
        congr 1
        refine List.map_congr_left fun t _ => ?_
        simp only [getD_factor, Function.comp, huv]
        ring

/-! ### Flow angles -/

theorem arctan2_units (k v w : ℚ) (hk : 0 < k) : arctan2 (k * v) (k * w) = arctan2 v w := by
  unfold arctan2
  have hk' : (0 : ℝ) < (k : ℝ) := by exact_mod_cast hk
  rw [← Complex.arg_real_mul ⟨(w : ℝ), (v : ℝ)⟩ hk']
  congr 1
  apply Complex.ext <;> simp

theorem zipMul_factor (a b : ℚ) : ∀ vs ws : List ℚ, (List.zipWith (· * ·) (vs.map (a * ·)) (ws.map (b * ·))).sum = a * b * (List.zipWith (· * ·) vs ws).sum
  | [], _ => by simp
  | _ :: _, [] => by simp
  | v :: vs, w :: ws => by
    simp only [List.map_cons, List.zipWith_cons_cons, List.sum_cons]
    rw [zipMul_factor a b vs ws]
    ring

/-- **C156, flow angles.** They do not depend on the units of the flow and of the weights. -/
theorem C156_flow_angle (u : FieldUnits) (h : u.Valid) (f : Flow) (huv : u.factor "V" = u.factor "U") (mean : Bool) (weight : Option Label) (hwt : weight ≠ some "X" ∧ weight ≠ some "Y") :
    flowAngle (u.flow f) ["U", "V"] mean weight = flowAngle f ["U", "V"] mean weight := by
  unfold flowAngle
  dsimp only
  rw [field_fields, field_fields]
  cases field f.data "U" with
  | error e => rfl
  | ok us =>
    cases field f.data "V" with
    | error e => rfl
    | ok vs =>
      simp only [Except.map, bind, Except.bind]
      rw [map_plain (by decide) (by decide), map_plain (by decide) (by decide), huv]
      cases mean with
      | false =>
        simp only [Bool.false_eq_true, if_false]
        congr 1
        rw [List.zipWith_map]
        simp only [arctan2_units _ _ _ (h _)]
      | true =>
        simp only [if_true]
        split
        · rw [sum_map_factor, sum_map_factor, arctan2_units _ _ _ (h _)]
        · rw [sum_map_factor, sum_map_factor, arctan2_units _ _ _ (h _)]
        · rename_i w hw1
          rw [field_fields]
          cases field f.data w with
          | error e => rfl
          | ok ws =>
            simp only [Except.map]
            rw [map_plain (fun e => hwt.1 (by rw [e])) (fun e => hwt.2 (by rw [e])), zipMul_factor, zipMul_factor, arctan2_units _ _ _ (mul_pos (h _) (h _))]

/-! ### Sorting and dissipation -/

theorem value_mono (h : u.Valid) (l : Label) (a b : ℚ) : u.value l a < u.value l b ↔ a < b := by
  rw [← not_le, Average.value_le h, not_le]

theorem lexLE_units (h : u.Valid) : ∀ (keys : List Label) (g k : Label → ℚ),
    lexLE (keys.map fun l => u.value l (g l)) (keys.map fun l => u.value l (k l)) = lexLE (keys.map g) (keys.map k)
  | [], _, _ => rfl
  | l :: keys, g, k => by
    simp only [List.map_cons, lexLE]
    rw [lexLE_units h keys g k]
    simp only [value_mono h]

theorem argsort_fields (h : u.Valid) (f : Flow) (hw : Wf f.data) (o : List Label) (ho : ∀ l ∈ o, l ∈ names f.data) : argsort (u.flow f).data o = argsort f.data o := by
  unfold argsort
  rw [size_fields]
  have hk : sortKeys (u.flow f).data o = sortKeys f.data o := by unfold sortKeys; rw [names_fields]
  rw [hk]
  have hmem : ∀ l ∈ sortKeys f.data o, l ∈ names f.data := by
    intro l hl
    rcases List.mem_append.mp hl with hl | hl
    · exact ho l hl
    · exact (List.mem_filter.mp hl).1
  have hkey : ∀ i, i < Flow.size f.data → keyAt (u.flow f).data (sortKeys f.data o) i = (sortKeys f.data o).map fun l => u.value l (val f.data l i) := by
    intro i hi
    unfold keyAt
    refine List.map_congr_left fun l hl => ?_
    exact val_fields hw (hmem l hl) hi
  have := List.map_insertionSort (r := fun i j => lexLE (keyAt (u.flow f).data (sortKeys f.data o) i) (keyAt (u.flow f).data (sortKeys f.data o) j) = true)
    (s := fun i j => lexLE (keyAt f.data (sortKeys f.data o) i) (keyAt f.data (sortKeys f.data o) j) = true) id (List.range (Flow.size f.data)) (by
      intro i hi j hj
      rw [hkey i (List.mem_range.mp hi), hkey j (List.mem_range.mp hj), lexLE_units h]
      rfl)
  rw [List.map_id, List.map_id] at this
  exact this

/-- Sorting a map in other units. -/
theorem sort_fields (h : u.Valid) (f : Flow) (hw : Wf f.data) : sort (u.flow f) = (sort f).map u.flow := by
  unfold Flow.sort sortRecord
  rw [names_fields]
  by_cases ho : ["Y", "X"].all (· ∈ names f.data)
  · rw [if_pos ho, if_pos ho, argsort_fields h f hw _ (by simpa using ho)]
    show Except.ok _ = Except.ok _
    congr 1
    unfold FieldUnits.flow
    simp only
    congr 1
    unfold gather
    rw [List.map_map, List.map_map]
    refine List.map_congr_left fun c hc => ?_
    simp only [Function.comp]
    congr 1
    unfold pick
    rw [List.map_map]
    refine List.map_congr_left fun i hi => ?_
    have hi' := List.mem_range.mp ((argsort_perm _ _).mem_iff.mp hi)
    exact getD_value (by rw [hw.2 c hc]; exact hi') _
  · rw [if_neg ho, if_neg ho]; rfl

theorem wf_sort {f g : Flow} (hw : Wf f.data) (hg : sort f = .ok g) : Wf g.data ∧ g.info = f.info := by
  unfold Flow.sort sortRecord at hg
  by_cases ho : ["Y", "X"].all (· ∈ names f.data)
  · rw [if_pos ho] at hg
    injection hg with hg
    subst hg
    exact ⟨wf_gather _ hw, rfl⟩
  · rw [if_neg ho] at hg
    cases hg

theorem gradient_units (n : ℕ) (h L k : ℚ) (c : ℕ → ℚ) (i : ℕ) : gradient n (L * h) (fun j => k * c j) i = k / L * gradient n h c i := by
  unfold gradient
  split_ifs
  · simp only [div_eq_mul_inv, mul_inv]; ring
  · simp only [div_eq_mul_inv, mul_inv]; ring
  · simp only [div_eq_mul_inv, mul_inv]; ring

/-- **C156, dissipation.** In other units of length and flow (the same ones along x and y), with the viscosity in a unit of its own, the dissipation of all bins is multiplied by the unit of the viscosity,
the square of the unit of the flow and the inverse square of the unit of length; the units of the weights do not matter. -/
theorem C156_dissipation (u : FieldUnits) (h : u.Valid) (f : Flow) (hw : Wf f.data) (hxy : u.factor "Y" = u.factor "X") (huv : u.factor "V" = u.factor "U") (μ ν : ℚ)
    (weight : Option Label) (hwt : weight ≠ some "X" ∧ weight ≠ some "Y") :
    viscousDissipation (u.flow f) (ν * μ) (weight := weight) =
      (viscousDissipation f μ (weight := weight)).map fun p => (u.flow p.1, p.2.map fun d => d.map (ν * u.factor "U" ^ 2 / u.factor "X" ^ 2 * ·)) := by
  unfold viscousDissipation
  show (match f.info.shape, f.info.spacing.map u.lengths with | some (nx, ny), some (dx, dy) => _ | _, _ => _) = _
  cases f.info.shape with
  | none => rfl
  | some n =>
    obtain ⟨nx, ny⟩ := n
    cases f.info.spacing with
    | none => rfl
    | some sp =>
      obtain ⟨dx, dy⟩ := sp
      simp only [Option.map_some, FieldUnits.lengths]
      rw [sort_fields h f hw]
      cases hs : sort f with
      | error e => rfl
      | ok g =>
        have hg := (wf_sort hw hs).1
        simp only [Except.map, bind, Except.bind]
        rw [size_fields]
        by_cases hc : nx < 0 ∨ ny < 0 ∨ (Flow.size g.data : ℤ) ≠ nx * ny
        · rw [if_pos hc, if_pos hc]
        rw [if_neg hc, if_neg hc]
        have hwe : ∃ kw, 0 < kw ∧ weightsOf (u.flow g).data (nx.toNat * ny.toNat) weight = (weightsOf g.data (nx.toNat * ny.toNat) weight).map fun c => c.map (kw * ·) := by
          cases weight with
          | none => exact ⟨1, one_pos, by simp [weightsOf, Except.map]⟩
          | some l =>
            refine ⟨u.factor l, h l, ?_⟩
            show field (u.flow g).data l = (field g.data l).map _
            rw [field_fields]
            cases field g.data l with
            | error e => rfl
            | ok c =>
              simp only [Except.map]
              rw [map_plain (fun e => hwt.1 (by rw [e])) (fun e => hwt.2 (by rw [e]))]
        obtain ⟨kw, hkw, hwe⟩ := hwe
        rw [hwe, field_fields, field_fields]
        cases weightsOf g.data (nx.toNat * ny.toNat) weight with
        | error e => rfl
        | ok w =>
          cases field g.data "U" with
          | error e => rfl
          | ok us =>
            cases field g.data "V" with
            | error e => rfl
            | ok vs =>
              simp only [Except.map]
              rw [map_plain (by decide) (by decide), map_plain (by decide) (by decide)]
              by_cases hn : nx.toNat < 3 ∨ ny.toNat < 3
              · rw [if_pos hn, if_pos hn]
              rw [if_neg hn, if_neg hn]
              simp only [getD_factor, huv, hxy, List.map_map]
              congr 2
              refine List.map_congr_left fun t _ => ?_
              simp only [Function.comp, gradients]
              have eq1 : ∀ a b : ℚ, u.factor "U" * a * (kw * b) = u.factor "U" * kw * (a * b) := fun a b => by ring
              simp only [eq1, gradient_units]
              have hL := (h "X").ne'
              have z1 : u.factor "X" * dx = 0 ↔ dx = 0 := by rw [mul_eq_zero]; exact ⟨fun e => e.resolve_left hL, .inr⟩
              have z2 : u.factor "X" * dy = 0 ↔ dy = 0 := by rw [mul_eq_zero]; exact ⟨fun e => e.resolve_left hL, .inr⟩
              have z3 : kw * w.getD t 0 = 0 ↔ w.getD t 0 = 0 := by rw [mul_eq_zero]; exact ⟨fun e => e.resolve_left hkw.ne', .inr⟩
              simp only [z1, z2, z3]
              by_cases hz : dx = 0 ∨ dy = 0 ∨ w.getD t 0 = 0
              · rw [if_pos hz, if_pos hz]; rfl
              rw [if_neg hz, if_neg hz]
              simp only [Option.map_some, formula]
              congr 1
              have hw0 : w.getD t 0 ≠ 0 := fun e => hz (.inr (.inr e))
              have hk0 := hkw.ne'
              generalize gradient nx.toNat dx (fun i => us.getD (t / nx.toNat * nx.toNat + i) 0 * w.getD (t / nx.toNat * nx.toNat + i) 0) (t % nx.toNat) = a
              generalize gradient ny.toNat dy (fun j => us.getD (j * nx.toNat + t % nx.toNat) 0 * w.getD (j * nx.toNat + t % nx.toNat) 0) (t / nx.toNat) = b
              generalize gradient nx.toNat dx (fun i => vs.getD (t / nx.toNat * nx.toNat + i) 0 * w.getD (t / nx.toNat * nx.toNat + i) 0) (t % nx.toNat) = c
              generalize gradient ny.toNat dy (fun j => vs.getD (j * nx.toNat + t % nx.toNat) 0 * w.getD (j * nx.toNat + t % nx.toNat) 0) (t / nx.toNat) = d
              field_simp

/-! ### Sampling by direction -/

theorem dist_units (L : ℚ) (hL : 0 < L) (d : ℚ × ℚ) : dist (L * d.1, L * d.2) = (L : ℝ) * dist d := by
  unfold dist
  have hL' : (0 : ℝ) ≤ (L : ℝ) := by exact_mod_cast hL.le
  push_cast
  rw [show ((L : ℝ) * (d.1 : ℝ)) ^ 2 + ((L : ℝ) * (d.2 : ℝ)) ^ 2 = (L : ℝ) ^ 2 * ((d.1 : ℝ) ^ 2 + (d.2 : ℝ) ^ 2) by ring, Real.sqrt_mul (sq_nonneg _), Real.sqrt_sq hL']

theorem binDegrees_units (L : ℚ) (hL : 0 < L) (d : ℚ × ℚ) : binDegrees (L * d.1, L * d.2) = binDegrees d := by
  unfold binDegrees
  have hL' : (L : ℝ) ≠ 0 := by exact_mod_cast hL.ne'
  rw [dist_units L hL]
  have hs : SignType.sign (L * d.2) = SignType.sign d.2 := by
    rw [sign_mul, sign_pos hL, one_mul]
  by_cases h0 : dist d = 0
  · rw [if_pos (by rw [h0, mul_zero]), if_pos h0]
  · rw [if_neg (mul_ne_zero hL' h0), if_neg h0]
    simp only
    rw [hs]
    push_cast
    rw [mul_div_mul_left _ _ hL']

theorem rowWithin_units (L : ℚ) (hL : 0 < L) (d : ℕ → ℚ × ℚ) (amin amax rmin : ℚ) (rmax : Option ℚ) (t : ℕ) :
    rowWithin (fun t => (L * (d t).1, L * (d t).2)) amin amax (L * rmin) (rmax.map (L * ·)) t = rowWithin d amin amax rmin rmax t := by
  unfold rowWithin
  simp only [dist_units L hL, binDegrees_units L hL]
  have hL' : (0 : ℝ) < (L : ℝ) := by exact_mod_cast hL
  have hc : (((L * rmin : ℚ) : ℝ) ≤ (L : ℝ) * dist (d t) ∧ ∀ r, rmax.map (L * ·) = some r → (L : ℝ) * dist (d t) ≤ (r : ℝ)) ↔
      ((rmin : ℝ) ≤ dist (d t) ∧ ∀ r, rmax = some r → dist (d t) ≤ (r : ℝ)) := by
    refine and_congr ?_ ?_
    · push_cast
      rw [mul_le_mul_iff_right₀ hL']
    · cases rmax with
      | none => simp
      | some r =>
        simp only [Option.map_some, Option.some.injEq, forall_eq']
        push_cast
        rw [mul_le_mul_iff_right₀ hL']
  simp only [hc]

theorem rowWithin_lt {n : ℕ} {d : ℕ → ℚ × ℚ} {amin amax rmin : ℚ} {rmax : Option ℚ} {p : ℕ × ℝ} (h : p ∈ rowsWithin n d amin amax rmin rmax) : p.1 < n := by
  unfold rowsWithin at h
  obtain ⟨t, ht, he⟩ := List.mem_filterMap.mp h
  unfold rowWithin at he
  split_ifs at he with hc
  cases hb : binDegrees (d t) with
  | none => rw [hb] at he; cases he
  | some a =>
    rw [hb] at he
    simp only [Option.bind_some] at he
    split_ifs at he with h2
    injection he with he
    rw [← he]
    exact List.mem_range.mp ht

/-- **C156, sampling by direction.** In other units of length (the same one along x and y), with the origin and the limits of the radius in these units, the same directions are reported, and their
values are those of the map in the unit of the sampled field; the units of the weights do not matter. -/
theorem C156_per_angle (u : FieldUnits) (h : u.Valid) (f : Flow) (hw : Wf f.data) (hxy : u.factor "Y" = u.factor "X") (o : ℚ × ℚ) (label : Label) (hlx : label ≠ "X") (hly : label ≠ "Y")
    (weight : Option Label) (hwt : weight ≠ some "X" ∧ weight ≠ some "Y") (amin amax rmin : ℚ) (rmax : Option ℚ) (size : ℚ) :
    perAngle (u.flow f) (u.value "X" o.1, u.value "Y" o.2) label ("X", "Y") weight amin amax (u.factor "X" * rmin) (rmax.map (u.factor "X" * ·)) size =
      (perAngle f o label ("X", "Y") weight amin amax rmin rmax size).map fun l => l.map fun p => (p.1, u.factor label * p.2) := by
  unfold perAngle
  dsimp only
  by_cases hz : size ≤ 0
  · rw [if_pos hz, if_pos hz]; rfl
  rw [if_neg hz, if_neg hz, field_fields, field_fields, field_fields, size_fields]
  have hwe : ∃ kw, 0 < kw ∧ weightsOf (u.flow f).data (Flow.size f.data) weight = (weightsOf f.data (Flow.size f.data) weight).map fun c => c.map (kw * ·) := by
    cases weight with
    | none => exact ⟨1, one_pos, by simp [weightsOf, Except.map]⟩
    | some l =>
      refine ⟨u.factor l, h l, ?_⟩
      show field (u.flow f).data l = (field f.data l).map _
      rw [field_fields]
      cases field f.data l with
      | error e => rfl
      | ok c =>
        simp only [Except.map]
        rw [map_plain (fun e => hwt.1 (by rw [e])) (fun e => hwt.2 (by rw [e]))]
  obtain ⟨kw, hkw, hwe⟩ := hwe
  rw [hwe]
  cases hX : field f.data "X" with
  | error e => rfl
  | ok xs =>
    cases hY : field f.data "Y" with
    | error e => rfl
    | ok ys =>
      cases field f.data label with
      | error e => rfl
      | ok vs =>
        cases weightsOf f.data (Flow.size f.data) weight with
        | error e => rfl
        | ok ws =>
          simp only [Except.map, bind, Except.bind]
          rw [map_plain hlx hly]
          have hrows : rowsWithin (Flow.size f.data) (fun t => ((xs.map (u.value "X")).getD t 0 - u.value "X" o.1, (ys.map (u.value "Y")).getD t 0 - u.value "Y" o.2)) (max 0 amin)
              (min (360 - size) amax) (u.factor "X" * rmin) (rmax.map (u.factor "X" * ·)) =
              rowsWithin (Flow.size f.data) (fun t => (xs.getD t 0 - o.1, ys.getD t 0 - o.2)) (max 0 amin) (min (360 - size) amax) rmin rmax := by
            unfold rowsWithin
            refine List.filterMap_congr fun t ht => ?_
            refine Eq.trans ?_ (rowWithin_units (u.factor "X") (h "X") _ _ _ _ _ _)
            have ht' := List.mem_range.mp ht
            unfold rowWithin
            have e : ((xs.map (u.value "X")).getD t 0 - u.value "X" o.1, (ys.map (u.value "Y")).getD t 0 - u.value "Y" o.2) =
                (u.factor "X" * (xs.getD t 0 - o.1), u.factor "X" * (ys.getD t 0 - o.2)) := by
              rw [getD_value (by rw [field_length hw hX]; exact ht'), getD_value (by rw [field_length hw hY]; exact ht')]
              unfold FieldUnits.value
              rw [hxy]
              ext <;> ring
            simp only [e]
          rw [hrows]
          generalize rowsWithin (Flow.size f.data) (fun t => (xs.getD t 0 - o.1, ys.getD t 0 - o.2)) (max 0 amin) (min (360 - size) amax) rmin rmax = rows
          generalize arange (max 0 amin) (min (360 - size) amax + size) size = out
          by_cases ho : out = [] ∧ rows ≠ []
          · rw [if_pos ho, if_pos ho]
          rw [if_neg ho, if_neg ho]
          simp only [List.map_map, getD_factor]
          congr 1
          refine List.map_congr_left fun ak _ => ?_
          simp only [Function.comp]
          have s1 : ∀ bin : List (ℕ × ℝ), (bin.map fun p : ℕ × ℝ => kw * ws.getD p.1 0).sum = kw * (bin.map fun p : ℕ × ℝ => ws.getD p.1 0).sum := fun bin => List.sum_map_mul_left ..
          have s2 : ∀ bin : List (ℕ × ℝ), (bin.map fun p : ℕ × ℝ => u.factor label * vs.getD p.1 0 * (kw * ws.getD p.1 0)).sum =
              u.factor label * kw * (bin.map fun p : ℕ × ℝ => vs.getD p.1 0 * ws.getD p.1 0).sum := by
            intro bin
            rw [← List.sum_map_mul_left]
            congr 1
            refine List.map_congr_left fun p _ => ?_
            ring
          simp only [s1, s2]
          refine congrArg (Prod.mk ak.1) ?_
          by_cases hb : (rows.filter fun p => closestIndex out (p.2 - 1 / 2 * (size : ℝ) + 1 / 1000000) == ak.2) ≠ [] ∧
              0 < ((rows.filter fun p => closestIndex out (p.2 - 1 / 2 * (size : ℝ) + 1 / 1000000) == ak.2).map fun p : ℕ × ℝ => ws.getD p.1 0).sum
          · rw [if_pos hb, if_pos ⟨hb.1, mul_pos hkw hb.2⟩, mul_comm (u.factor label) kw, mul_assoc, mul_div_mul_left _ _ hkw.ne', mul_div_assoc]
          · rw [if_neg hb, if_neg (fun hb' => hb ⟨hb'.1, (mul_pos_iff_of_pos_left hkw).mp hb'.2⟩), mul_zero]

/-! ### Cases -/

/-- Ångström instead of nanometres, the flow in a hundredth of its unit, masses in a thousandth of theirs. -/
def sampleUnits : FieldUnits := { factor := fun l => if l = "X" ∨ l = "Y" then 10 else if l = "U" ∨ l = "V" then 100 else if l = "M" then 1000 else 1, x0 := 7, y0 := -2 }

theorem sampleUnits_valid : sampleUnits.Valid := by
  intro l
  unfold sampleUnits
  simp only
  split_ifs <;> norm_num

/-- A map of three by three bins with a shear flow, the last bin stored first. -/
def shearMap : Flow :=
  ⟨[("X", [2, 0, 1, 2, 0, 1, 2, 0, 1]), ("Y", [2, 0, 0, 0, 1, 1, 1, 2, 2]), ("U", [4, 0, 0, 0, 1, 1, 1, 4, 4]), ("V", [0, 0, 0, 0, 0, 0, 0, 0, 0]), ("M", [1, 1, 1, 1, 2, 2, 2, 1, 1])],
    { shape := some (3, 3), origin := some (0, 0), spacing := some (1, 1) }⟩

theorem shearMap_wf : Wf shearMap.data := ⟨by decide +kernel, by decide +kernel⟩

example : Wf shearMap.data ∧ sampleUnits.Valid ∧ sampleUnits.factor "V" = sampleUnits.factor "U" ∧ sampleUnits.factor "Y" = sampleUnits.factor "X" :=
  ⟨shearMap_wf, sampleUnits_valid, by decide +kernel, by decide +kernel⟩

example : centerOfMass shearMap = .ok [1, 1] ∧ centerOfMass (sampleUnits.flow shearMap) = .ok [17, 8] := by
  refine ⟨?_, ?_⟩ <;> decide +kernel

example : inertialEnergy shearMap = .ok [8, 0, 0, 0, 1, 1, 1, 8, 8] ∧
    inertialEnergy (sampleUnits.flow shearMap) = .ok [80000000, 0, 0, 0, 10000000, 10000000, 10000000, 80000000, 80000000] := by
  refine ⟨?_, ?_⟩ <;> decide +kernel

/-- The dissipation of the shear flow, 4 in the middle of the first layer; in the new units a hundred times as much, with the viscosity in its old unit. -/
example : (viscousDissipation shearMap 1).map Prod.snd = .ok [some 0, some 0, some 0, some 4, some 4, some 4, some 16, some 16, some 16] ∧
    (viscousDissipation (sampleUnits.flow shearMap) 1).map Prod.snd = .ok [some 0, some 0, some 0, some 400, some 400, some 400, some 1600, some 1600, some 1600] := by
  refine ⟨?_, ?_⟩ <;> decide +kernel

end Strata.Sample
