import Verif.Props.FlowUnits
import Verif.Props.SampleSeries
import Verif.Spec.SampleUnits
/-!
# C170: samples of a series of maps in other units
-/
namespace Strata.SampleSeries
open Strata Strata.Flow Strata.Average Strata.Sample

variable {u : FieldUnits}

/-! ### Selections -/

theorem foldl_max_mono (g : ℚ → ℚ) (hg : ∀ a b, g (max a b) = max (g a) (g b)) : ∀ (l : List ℚ) (a : ℚ), (l.map g).foldl max (g a) = g (l.foldl max a)
  | [], _ => rfl
  | b :: l, a => by
    rw [List.map_cons, List.foldl_cons, List.foldl_cons, ← hg, foldl_max_mono g hg]

theorem foldl_min_mono (g : ℚ → ℚ) (hg : ∀ a b, g (min a b) = min (g a) (g b)) : ∀ (l : List ℚ) (a : ℚ), (l.map g).foldl min (g a) = g (l.foldl min a)
  | [], _ => rfl
  | b :: l, a => by
    rw [List.map_cons, List.foldl_cons, List.foldl_cons, ← hg, foldl_min_mono g hg]

theorem cutoffOf_units (h : u.Valid) (l : Label) (c : List ℚ) (x : Option ℚ) : cutoffOf (c.map (u.value l)) (x.map (u.value l)) = (cutoffOf c x).map (u.value l) := by
  have hm : Monotone (u.value l) := fun a b hab => (value_le h l a b).mpr hab
  cases x with
  | some x => rfl
  | none =>
    cases c with
    | nil => rfl
    | cons a c =>
      show cutoffOf (u.value l a :: c.map (u.value l)) none = _
      unfold cutoffOf npMax npMin
      simp only [Except.map, bind, Except.bind]
      rw [foldl_max_mono _ (fun a b => hm.map_max), foldl_min_mono _ (fun a b => hm.map_min)]
      congr 1
      unfold FieldUnits.value
      ring

theorem rows_units (h : u.Valid) (ν : ℚ) (o : Opts) (f : Flow) : rows (inUnits u ν o) (u.flow f) = rows o f := by
  unfold rows
  rw [size_fields]
  show (match o.cutoffLabel with | none => _ | some l => _) = _
  cases hl : o.cutoffLabel with
  | none => rfl
  | some l =>
    simp only
    rw [field_fields]
    have hc : (inUnits u ν o).cutoff = o.cutoff.map (u.value l) := by unfold inUnits; rw [hl]; rfl
    rw [hc]
    cases field f.data l with
    | error e => rfl
    | ok c =>
      simp only [Except.map, bind, Except.bind]
      rw [cutoffOf_units h]
      cases cutoffOf c o.cutoff with
      | error e => rfl
      | ok x =>
        simp only [Except.map]
        congr 1
        unfold whereIdx
        rw [List.length_map]
        refine List.filter_congr fun i hi => ?_
        rw [getD_value (List.mem_range.mp hi)]
        simp only [value_le h]

/-! ### Statistics -/

theorem mapM_times (k : ℚ) : ∀ vs : List (Option ℚ), (vs.map fun v => v.map (k * ·)).mapM id = (vs.mapM id).map fun l : List ℚ => l.map (k * ·)
  | [] => rfl
  | v :: vs => by
    rw [List.map_cons, List.mapM_cons, List.mapM_cons, mapM_times k vs]
    cases v with
    | none => rfl
    | some v => cases vs.mapM id <;> rfl

theorem mean_units (k : ℚ) (vs : List (Option ℚ)) : mean (vs.map fun v => v.map (k * ·)) = (mean vs).map (k * ·) := by
  unfold mean
  rw [mapM_times]
  cases vs.mapM id with
  | none => rfl
  | some l =>
    simp only [Option.map_some, Option.bind_some]
    by_cases hl : l = []
    · simp [hl]
    · rw [if_neg hl, if_neg (by simpa using hl), sum_map_factor, List.length_map]
      simp only [Option.map_some]
      rw [mul_div_assoc]

theorem var_units (k : ℚ) (vs : List (Option ℚ)) : var (vs.map fun v => v.map (k * ·)) = (var vs).map (k ^ 2 * ·) := by
  unfold var
  rw [mean_units]
  cases mean vs with
  | none => rfl
  | some m =>
    simp only [Option.map_some, Option.bind_some]
    rw [← mean_units, List.map_map, List.map_map]
    congr 1
    refine List.map_congr_left fun v _ => ?_
    cases v with
    | none => rfl
    | some v => simp only [Function.comp, Option.map_some]; congr 1; ring

theorem sum_units (k : ℚ) (vs : List (Option ℚ)) : sum (vs.map fun v => v.map (k * ·)) = (sum vs).map (k * ·) := by
  unfold sum
  rw [mapM_times]
  cases vs.mapM id with
  | none => rfl
  | some l => simp only [Option.map_some]; rw [sum_map_factor]

theorem statistics_units (ν k : ℚ) (o : Opts) (idx : List ℕ) (vs : List (Option ℚ)) :
    statistics (inUnits u ν o) idx (vs.map fun v => v.map (k * ·)) = (statistics o idx vs).times k := by
  unfold statistics
  have e : (idx.map fun t => (vs.map fun v => v.map (k * ·)).getD t none) = (idx.map fun t => vs.getD t none).map fun v => v.map (k * ·) := by
    rw [List.map_map]
    refine List.map_congr_left fun t _ => ?_
    simp only [Function.comp, List.getD_eq_getElem?_getD, List.getElem?_map]
    cases vs[t]? <;> rfl
  simp only
  rw [e, mean_units, var_units, sum_units]
  show (if o.sum = true then _ else _) = _
  split <;> rfl

/-! ### Flow angles -/

theorem angleOf_units (h : u.Valid) (f : Flow) (hw : Wf f.data) (hF : ∀ l ∈ fields, l ∈ names f.data) (huv : u.factor "V" = u.factor "U") (idx : List ℕ) (hi : ∀ t ∈ idx, t < Flow.size f.data) :
    angleOf (u.flow f) idx = angleOf f idx := by
  have hn : ∀ l ∈ fields, l ∈ names (u.flow f).data := fun l hl => by rw [names_fields]; exact hF l hl
  rw [angleOf_eq (wf_fields hw) (hn _ (by decide)) (hn _ (by decide)) (hn _ (by decide)), angleOf_eq hw (hF _ (by decide)) (hF _ (by decide)) (hF _ (by decide))]
  have s : ∀ l, l ∈ fields → l ≠ "X" → l ≠ "Y" → (idx.map fun t => val (u.flow f).data l t * val (u.flow f).data "M" t).sum =
      u.factor l * u.factor "M" * (idx.map fun t => val f.data l t * val f.data "M" t).sum := by
    intro l hl hx hy
    rw [← sum_map_factor, List.map_map]
    congr 1
    refine List.map_congr_left fun t ht => ?_
    rw [val_fields hw (hF _ hl) (hi t ht), val_fields hw (hF _ (by decide)) (hi t ht), value_plain hx hy, value_plain (by decide) (by decide)]
    simp only [Function.comp]
    ring
  rw [s "V" (by decide) (by decide) (by decide), s "U" (by decide) (by decide) (by decide), huv, arctan2_units _ _ _ (mul_pos (h _) (h _))]

theorem rows_lt {o : Opts} {f : Flow} (hw : Wf f.data) {idx : List ℕ} (h : rows o f = .ok idx) : ∀ t ∈ idx, t < Flow.size f.data := by
  unfold rows at h
  cases hl : o.cutoffLabel with
  | none => rw [hl] at h; cases h; intro t ht; exact List.mem_range.mp ht
  | some l =>
    rw [hl] at h
    simp only at h
    obtain ⟨c, hc, h⟩ := Simple.bind_eq_ok h
    obtain ⟨x, -, h⟩ := Simple.bind_eq_ok h
    cases h
    intro t ht
    have := List.mem_range.mp (List.mem_filter.mp ht).1
    rwa [field_length hw hc] at this

/-! ### Slip lengths -/

theorem avg_units (k b : ℚ) (c : List ℚ) (hc : c ≠ []) : avg (c.map fun v => k * v + b) = k * avg c + b := by
  unfold avg
  have hl : (c.length : ℚ) ≠ 0 := by simpa using hc
  have : (c.map fun v => k * v + b).sum = k * c.sum + (c.length : ℚ) * b := by
    clear hl hc
    induction c with
    | nil => simp
    | cons a c ih => simp only [List.map_cons, List.sum_cons, List.length_cons]; rw [ih]; push_cast; ring
  rw [this, List.length_map, add_div, mul_div_cancel_left₀ _ hl, mul_div_assoc]

theorem linregress_units (k L b : ℚ) (hk : 0 < k) (us ys : List ℚ) (hlen : us.length = ys.length) :
    linregress (us.map (k * ·)) (ys.map fun v => L * v + b) = (linregress us ys).map fun r => (L / k * r.1, L * r.2 + b) := by
  by_cases hu : us = []
  · subst hu
    simp [linregress, Except.map]
  have hy : ys ≠ [] := fun e => hu (List.length_eq_zero_iff.mp (by rw [hlen, e]; rfl))
  have hau : avg (us.map (k * ·)) = k * avg us := by simpa using avg_units k 0 us hu
  unfold linregress
  rw [hau, avg_units L b ys hy]
  have hd : ((us.map (k * ·)).map fun v => (v - k * avg us) ^ 2).sum = k ^ 2 * (us.map fun v => (v - avg us) ^ 2).sum := by
    rw [← sum_map_factor, List.map_map, List.map_map]
    congr 1
    refine List.map_congr_left fun v _ => ?_
    simp only [Function.comp]
    ring
  have hs : (List.zipWith (fun v y => (v - k * avg us) * (y - (L * avg ys + b))) (us.map (k * ·)) (ys.map fun v => L * v + b)).sum =
      k * L * (List.zipWith (fun v y => (v - avg us) * (y - avg ys)) us ys).sum := by
    generalize avg us = p
    generalize avg ys = q
    clear hd hau hy hu hlen
    induction us generalizing ys with
    | nil => simp
    | cons a us ih =>
      cases ys with
      | nil => simp
      | cons c ys =>
        simp only [List.map_cons, List.zipWith_cons_cons, List.sum_cons]
        rw [ih ys]
        ring
  simp only
  rw [hd, hs]
  by_cases h0 : (us.map fun v => (v - avg us) ^ 2).sum = 0
  · rw [if_pos h0, if_pos (by rw [h0, mul_zero])]; rfl
  · rw [if_neg h0, if_neg (mul_ne_zero (pow_ne_zero _ hk.ne') h0)]
    simp only [Except.map]
    congr 1
    refine Prod.ext ?_ ?_
    · field_simp
    · field_simp
      ring

theorem column_units (ny i : ℕ) (c : List ℚ) (g : ℚ → ℚ) (h : i * ny + ny ≤ c.length) : column ny (c.map g) i = (column ny c i).map g := by
  unfold column
  rw [List.map_map]
  refine List.map_congr_left fun j hj => ?_
  have := List.mem_range.mp hj
  exact getD_value (by omega) g

theorem mapM_map_ok {α β : Type} (g : β → β) (p q : α → Except Err β) : ∀ l : List α, (∀ a ∈ l, q a = (p a).map g) → l.mapM q = (l.mapM p).map fun r => r.map g
  | [], _ => rfl
  | a :: l, h => by
    rw [List.mapM_cons, List.mapM_cons, h a (List.mem_cons_self ..), mapM_map_ok g p q l fun b hb => h b (List.mem_cons_of_mem _ hb)]
    cases p a with
    | error e => rfl
    | ok v => cases l.mapM p <;> rfl

theorem slipLengths_units (h : u.Valid) (fl : ℚ) (f : Flow) (hw : Wf f.data) :
    slipLengths (u.value "Y" fl) (u.flow f) = (slipLengths fl f).map fun l => l.map (u.factor "Y" * ·) := by
  unfold slipLengths
  rw [size_fields]
  show (match f.info.shape with | none => _ | some (nx, ny) => _) = _
  cases f.info.shape with
  | none => rfl
  | some n =>
    obtain ⟨nx, ny⟩ := n
    simp only
    by_cases hb : nx < 0 ∨ ny < 0 ∨ (Flow.size f.data : ℤ) ≠ nx * ny
    · rw [if_pos hb, if_pos hb]; rfl
    · rw [if_neg hb, if_neg hb, field_fields, field_fields]
      push Not at hb
      obtain ⟨hx, hy, hs⟩ := hb
      lift nx to ℕ using hx
      lift ny to ℕ using hy
      have hs' : Flow.size f.data = nx * ny := by exact_mod_cast hs
      cases hys : field f.data "Y" with
      | error e => rfl
      | ok ys =>
        cases hus : field f.data "U" with
        | error e => rfl
        | ok us =>
          simp only [Except.map, bind, Except.bind]
          refine mapM_map_ok (fun v : ℚ => u.factor "Y" * v) _ _ _ fun i hi => ?_
          have hi' : i < nx := by simpa using hi
          have hle : i * ny + ny ≤ nx * ny := by
            calc i * ny + ny = (i + 1) * ny := by ring
              _ ≤ nx * ny := Nat.mul_le_mul_right _ hi'
          simp only [Int.toNat_natCast]
          rw [column_units ny i us _ (by rw [field_length hw hus, hs']; exact hle), column_units ny i ys _ (by rw [field_length hw hys, hs']; exact hle),
            map_plain (by decide) (by decide)]
          have e : (column ny ys i).map (u.value "Y") = (column ny ys i).map fun v => u.factor "Y" * v + u.y0 :=
            List.map_congr_left fun v _ => by simp [FieldUnits.value]
          rw [e, linregress_units _ _ _ (h "U") _ _ (by simp [column])]
          cases linregress (column ny us i) (column ny ys i) with
          | error e => rfl
          | ok r =>
            simp only [Except.map]
            congr 1
            simp [FieldUnits.value]
            ring

/-! ### One value, one frame, the whole series -/

theorem fieldData_units (f : Flow) (l : Label) (hx : l = "X" → u.x0 = 0) (hy : l = "Y" → u.y0 = 0) :
    field (u.flow f).data l = (field f.data l).map fun c => c.map (u.factor l * ·) := by
  rw [field_fields]
  congr 1
  funext c
  refine List.map_congr_left fun v _ => ?_
  unfold FieldUnits.value
  split_ifs with h1 h2
  · rw [hx h1, add_zero]
  · rw [hy h2, add_zero]
  · rw [add_zero]

/-- **C170, one value.** -/
theorem C170_value (u : FieldUnits) (h : u.Valid) (hxy : u.factor "Y" = u.factor "X") (huv : u.factor "V" = u.factor "U") (ν : ℚ) (o : Opts) (f : Flow) (hw : Wf f.data)
    (hF : ∀ l ∈ fields, l ∈ names f.data) (l : Label) (hx : l = "X" → u.x0 = 0) (hy : l = "Y" → u.y0 = 0) :
    sampleLabel (inUnits u ν o) (u.flow f) l = (sampleLabel o f l).map fun r => (u.flow r.1, r.2.times (unitOf u ν l)) := by
  unfold sampleLabel
  by_cases hs : l = "slip_length"
  · subst hs
    rw [if_pos rfl, if_pos rfl]
    unfold slipLength
    rw [show (inUnits u ν o).floor = u.value "Y" o.floor from rfl, slipLengths_units h _ f hw]
    cases slipLengths o.floor f with
    | error e => rfl
    | ok ls =>
      simp only [Except.map, bind, Except.bind]
      congr 2
      have e : (ls.map (u.factor "Y" * ·)).map some = (ls.map some).map fun v : Option ℚ => v.map (u.factor "Y" * ·) := by
        rw [List.map_map, List.map_map]; rfl
      rw [e, mean_units, var_units]
      rfl
  rw [if_neg hs, if_neg hs]
  unfold sampleValue
  by_cases ha : l = "flow_angle"
  · subst ha
    rw [if_pos rfl, if_pos rfl, rows_units h]
    cases hr : rows o f with
    | error e => rfl
    | ok idx =>
      simp only [Except.map, bind, Except.bind]
      show (if o.sum = true then _ else _) = _
      split
      · rfl
      · rw [angleOf_units h f hw hF huv idx (rows_lt hw hr), angleOf_eq hw (hF _ (by decide)) (hF _ (by decide)) (hF _ (by decide))]
        rfl
  rw [if_neg ha, if_neg ha]
  have key : sampleData (inUnits u ν o) (u.flow f) l = (sampleData o f l).map fun r => (u.flow r.1, r.2.map fun v => v.map (unitOf u ν l * ·)) := by
    unfold sampleData unitOf
    by_cases h1 : l = "inertial_energy"
    · simp only [if_pos h1]
      rw [C156_energy u f huv]
      cases inertialEnergy f with
      | error e => rfl
      | ok e =>
        simp only [Except.map, bind, Except.bind, List.map_map]
        rfl
    rw [if_neg h1, if_neg h1]
    by_cases h2 : l = "visc_diss"
    · rw [if_pos h2, if_pos h2, show (inUnits u ν o).viscosity = ν * o.viscosity from rfl]
      have := C156_dissipation u h f hw hxy huv o.viscosity ν none ⟨by simp, by simp⟩
      rw [this]
      simp only [if_neg h1, if_pos h2]
    simp only [if_neg h1, if_neg h2, if_neg hs]
    rw [fieldData_units f l hx hy]
    cases field f.data l with
    | error e => rfl
    | ok c =>
      simp only [Except.map, bind, Except.bind, List.map_map]
      rfl
  rw [key]
  cases sampleData o f l with
  | error e => rfl
  | ok r =>
    obtain ⟨g, vs⟩ := r
    simp only [Except.map, bind, Except.bind]
    rw [rows_units h]
    cases rows o g with
    | error e => rfl
    | ok idx =>
      simp only
      rw [statistics_units]

theorem names_sort {f g : Flow} (hg : sort f = .ok g) : names g.data = names f.data := by
  unfold Flow.sort sortRecord at hg
  by_cases ho : ["Y", "X"].all (· ∈ names f.data)
  · rw [if_pos ho] at hg
    injection hg with hg
    subst hg
    exact names_gather _ _
  · rw [if_neg ho] at hg
    cases hg

/-- **C170, one file.** -/
theorem C170_frame (u : FieldUnits) (h : u.Valid) (hxy : u.factor "Y" = u.factor "X") (huv : u.factor "V" = u.factor "U") (ν : ℚ) (o : Opts) (ls : List Label)
    (hx : "X" ∈ ls → u.x0 = 0) (hy : "Y" ∈ ls → u.y0 = 0) : ∀ f : Flow, Wf f.data → (∀ l ∈ fields, l ∈ names f.data) →
    sampleLabels (inUnits u ν o) (u.flow f) ls = (sampleLabels o f ls).map fun vs => List.zipWith (fun l v => v.times (unitOf u ν l)) ls vs := by
  induction ls with
  | nil => intro f _ _; rfl
  | cons l ls ih =>
    intro f hw hF
    rw [sampleLabels_cons, sampleLabels_cons, C170_value u h hxy huv ν o f hw hF l (fun e => hx (by rw [e]; exact List.mem_cons_self ..)) (fun e => hy (by rw [e]; exact List.mem_cons_self ..))]
    cases hr : sampleLabel o f l with
    | error e => rfl
    | ok r =>
      obtain ⟨g, v⟩ := r
      have hg : Wf g.data ∧ ∀ l ∈ fields, l ∈ names g.data := by
        rcases sampleLabel_flow o hr with rfl | ⟨-, hsg⟩
        · exact ⟨hw, hF⟩
        · exact ⟨(wf_sort hw hsg).1, fun l hl => by rw [names_sort hsg]; exact hF l hl⟩
      simp only [Except.map, bind, Except.bind]
      rw [ih (fun e => hx (List.mem_cons_of_mem _ e)) (fun e => hy (List.mem_cons_of_mem _ e)) g hg.1 hg.2]
      cases sampleLabels o g ls with
      | error e => rfl
      | ok vs => rfl

theorem frame_eq (o : Opts) (d : Record) (dict : InfoDict) (info : Info) (hn : names d = fields) (hw : Wf d) (hi : setInfo dict = .ok info) :
    frame o (d, dict) = if o.xlim ≠ (none, none) ∨ o.ylim ≠ (none, none) then cut ⟨d, info⟩ o.xlim o.ylim else .ok ⟨d, info⟩ := by
  have hne : d ≠ [] := by rintro rfl; simp [names, fields] at hn
  have e : fields.mapM (fun l => (col? d l).elim (.error .keyError) fun c => (.ok (Arg.tuple l c) : Except Err Arg)) = .ok (asArgs d) := by
    rw [← hn]
    exact mapM_columns [] d (by simpa using hw.1)
  have hmk : Flow.mk (asArgs d) dict = .ok ⟨d, info⟩ := by
    unfold Flow.mk
    rw [setData_of_wf _ _ (collate_asArgs _) hne hw, hi]; rfl
  unfold frame
  simp only
  rw [e, Gmx.ok_bind, hmk, Gmx.ok_bind]

theorem lims_none (u : FieldUnits) (l : Label) (p : Option ℚ × Option ℚ) : u.lims l p = (none, none) ↔ p = (none, none) := by
  obtain ⟨a, b⟩ := p
  cases a <;> cases b <;> simp [FieldUnits.lims]

theorem frame_units (h : u.Valid) (ν : ℚ) (o : Opts) {file file' : Record × InfoDict} (hs : SameFile u file file') :
    frame (inUnits u ν o) file' = (frame o file).map u.flow := by
  obtain ⟨d, dict⟩ := file
  obtain ⟨d', dict'⟩ := file'
  obtain ⟨hn, hw, info, info', h1, h2, he⟩ := hs
  have hd : d' = (u.flow ⟨d, info⟩).data := congrArg Flow.data he
  have hw' : Wf d' := by rw [hd]; exact wf_fields (f := ⟨d, info⟩) hw
  have hn' : names d' = fields := by rw [hd, names_fields]; exact hn
  rw [frame_eq _ d' dict' info' hn' hw' h2, frame_eq o d dict info hn hw h1, he]
  show (if u.lims "X" o.xlim ≠ (none, none) ∨ u.lims "Y" o.ylim ≠ (none, none) then cut (u.flow ⟨d, info⟩) (u.lims "X" o.xlim) (u.lims "Y" o.ylim) else _) = _
  simp only [ne_eq, lims_none]
  split
  · exact C157_cut u h ⟨d, info⟩ hw o.xlim o.ylim
  · rfl

theorem names_lims {f g : Flow} (hw : Wf f.data) {l : Label} {lo hi : Option ℚ} (hg : lims f l lo hi = .ok g) : names g.data = names f.data := by
  cases hc : col? f.data l with
  | none => unfold lims at hg; rw [hc] at hg; cases hg
  | some c =>
    rw [lims_eq f hw l lo hi hc] at hg
    cases hg
    exact names_gather _ _

theorem wf_cut {f g : Flow} (hw : Wf f.data) {xl yl : Option ℚ × Option ℚ} (hg : cut f xl yl = .ok g) : Wf g.data ∧ names g.data = names f.data := by
  unfold cut at hg
  split at hg
  · obtain ⟨g1, h1, hg⟩ := Simple.bind_eq_ok hg
    obtain ⟨g2, h2, hg⟩ := Simple.bind_eq_ok hg
    have n1 := names_lims hw h1
    have w1 := wf_lims hw h1
    have n2 := names_lims w1 h2
    have w2 := wf_lims w1 h2
    split at hg
    · obtain ⟨i, -, hg⟩ := Simple.bind_eq_ok hg
      cases hg
      exact ⟨w2, n2.trans n1⟩
    · cases hg
  · cases hg

theorem wf_frame {o : Opts} {u : FieldUnits} {file file' : Record × InfoDict} (hs : SameFile u file file') {f : Flow} (hf : frame o file = .ok f) : Wf f.data ∧ ∀ l ∈ fields, l ∈ names f.data := by
  obtain ⟨d, dict⟩ := file
  obtain ⟨hn, hw, info, -, h1, -, -⟩ := hs
  rw [frame_eq o d dict info hn hw h1] at hf
  split at hf
  · obtain ⟨a, b⟩ := wf_cut (f := ⟨d, info⟩) hw hf
    exact ⟨a, fun l hl => by rw [b]; show l ∈ names d; rw [show names d = fields from hn]; exact hl⟩
  · cases hf
    exact ⟨hw, fun l hl => by show l ∈ names d; rw [show names d = fields from hn]; exact hl⟩

theorem loop_units (h : u.Valid) (hxy : u.factor "Y" = u.factor "X") (huv : u.factor "V" = u.factor "U") (ν : ℚ) (o : Opts) (dt : ℚ) (ls : List Label)
    (hx : "X" ∈ ls → u.x0 = 0) (hy : "Y" ∈ ls → u.y0 = 0) (τ : ℚ) : ∀ (files files' : List (Record × InfoDict)) (k : ℕ), List.Forall₂ (SameFile u) files files' →
    (loop (inUnits u ν o) (τ * dt) ls k files').lines = (loop o dt ls k files).lines.map (fun r => (τ * r.1, List.zipWith (fun l v => v.times (unitOf u ν l)) ls r.2)) ∧
    (loop (inUnits u ν o) (τ * dt) ls k files').result = (loop o dt ls k files).result.map fun r => r.map fun rows => rows.map fun vs => List.zipWith (fun l v => v.times (unitOf u ν l)) ls vs := by
  intro files
  induction files with
  | nil => intro files' k hf; cases hf; exact ⟨rfl, rfl⟩
  | cons file files ih =>
    intro files' k hf
    cases hf with
    | @cons _ file' _ files' h1 h2 =>
      unfold loop
      rw [frame_units h ν o h1]
      cases hfr : frame o file with
      | error e => exact ⟨rfl, rfl⟩
      | ok f =>
        obtain ⟨hw, hF⟩ := wf_frame h1 hfr
        simp only [Except.map]
        rw [C170_frame u h hxy huv ν o ls hx hy f hw hF]
        cases sampleLabels o f ls with
        | error e => exact ⟨rfl, rfl⟩
        | ok vs =>
          obtain ⟨i1, i2⟩ := ih files' (k + 1) h2
          simp only [Except.map]
          rw [i1, i2]
          refine ⟨?_, ?_⟩
          · simp only [List.map_cons]
            congr 2
            ring
          · cases (loop o dt ls (k + 1) files).result with
            | error e => rfl
            | ok r => cases r <;> rfl

/-- **C170, series.** A series of maps in other units of length, flow, mass and time, sampled with the limits, the floor and the cutoff in the new units, gives the old lines, times and values in
the new units. It fails with the same error, or stops at the same frame, as the old one. -/
theorem C170_series (u : FieldUnits) (h : u.Valid) (hxy : u.factor "Y" = u.factor "X") (huv : u.factor "V" = u.factor "U") (ν τ : ℚ) (o : Opts) (dt : ℚ) (ls : List Label)
    (hx : "X" ∈ ls → u.x0 = 0) (hy : "Y" ∈ ls → u.y0 = 0) (files files' : List (Record × InfoDict)) (hf : List.Forall₂ (SameFile u) files files') :
    sampleAverage (inUnits u ν o) (τ * dt) ls files' =
      ((sampleAverage o dt ls files).1.map fun r => (τ * r.1, List.zipWith (fun l v => v.times (unitOf u ν l)) ls r.2),
        (sampleAverage o dt ls files).2.map fun r => r.map fun p => (p.1.map (τ * ·), List.zipWith (fun l vs => vs.map (Value.times (unitOf u ν l))) ls p.2)) := by
  obtain ⟨h1, h2⟩ := loop_units h hxy huv ν o dt ls hx hy τ files files' 0 hf
  have hrow : ∀ rows, (loop o dt ls 0 files).result = .ok (some rows) → ∀ vs ∈ rows, vs.length = ls.length := by
    clear h1 h2 hf
    generalize 0 = k
    induction files generalizing k with
    | nil => intro rows e; cases e; simp
    | cons file files ih =>
      intro rows e
      unfold loop at e
      split at e
      · cases e
      · rename_i f _
        split at e
        · cases e
        · rename_i vs hvs
          simp only at e
          cases hr : (loop o dt ls (k + 1) files).result with
          | error _ => rw [hr] at e; cases e
          | ok r =>
            cases r with
            | none => rw [hr] at e; cases e
            | some rows' =>
              rw [hr] at e
              cases e
              intro ws hws
              rcases List.mem_cons.mp hws with rfl | hws
              · exact sampleLabels_length o ls f _ hvs
              · exact ih (k + 1) rows' hr ws hws
  unfold sampleAverage
  simp only
  rw [h1, h2]
  refine Prod.ext rfl ?_
  simp only
  cases hr : (loop o dt ls 0 files).result with
  | error e => rfl
  | ok r =>
    cases r with
    | none => rfl
    | some rows =>
      have hlen := hrow rows hr
      simp only [Except.map, Except.bind, Option.map_some]
      by_cases hl : ls = []
      · rw [if_pos hl, if_pos hl]
      · rw [if_neg hl, if_neg hl]
        simp only
        congr 2
        refine Prod.ext ?_ ?_
        · simp only [List.length_map, List.map_map]
          refine List.map_congr_left fun k _ => ?_
          simp only [Function.comp]
          ring
        · simp only
          apply List.ext_getElem (by simp)
          intro j hj1 hj2
          simp only [List.getElem_map, List.getElem_zipWith, List.getElem_zipIdx, zero_add]
          rw [List.filterMap_map, List.map_filterMap]
          refine List.filterMap_congr fun vs hvs => ?_
          have hv := hlen vs hvs
          have hj : j < ls.length := by simpa using hj1
          simp only [Function.comp]
          rw [List.getElem?_eq_getElem (by simp [hv]; exact hj), List.getElem?_eq_getElem (by omega)]
          simp

/-! ### Cases -/

/-- The shear flow in a file with all fields, in the order of the bins that the slip length needs, and the same file in other units. -/
def shearFile : Record × InfoDict :=
  ([("X", [0, 0, 0, 1, 1, 1, 2, 2, 2]), ("Y", [0, 1, 2, 0, 1, 2, 0, 1, 2]), ("U", [1, 2, 3, 1, 2, 3, 2, 4, 6]), ("V", [0, 0, 0, 0, 0, 0, 0, 0, 0]), ("M", [1, 2, 1, 1, 2, 1, 1, 2, 1]),
    ("N", [1, 1, 1, 1, 1, 1, 1, 1, 1]), ("T", [3, 3, 3, 3, 3, 3, 3, 3, 3])],
   [("shape", pairVal (some (3, 3))), ("origin", pairVal (some (0, 0))), ("spacing", pairVal (some (1, 1)))])

def shearFile' : Record × InfoDict :=
  ([("X", [7, 7, 7, 17, 17, 17, 27, 27, 27]), ("Y", [-2, 8, 18, -2, 8, 18, -2, 8, 18]), ("U", [100, 200, 300, 100, 200, 300, 200, 400, 600]), ("V", [0, 0, 0, 0, 0, 0, 0, 0, 0]),
    ("M", [1000, 2000, 1000, 1000, 2000, 1000, 1000, 2000, 1000]), ("N", [1, 1, 1, 1, 1, 1, 1, 1, 1]), ("T", [3, 3, 3, 3, 3, 3, 3, 3, 3])],
   [("shape", pairVal (some (3, 3))), ("origin", pairVal (some (7, -2))), ("spacing", pairVal (some (10, 10)))])

example : SameFile sampleUnits shearFile shearFile' := by
  refine ⟨by decide +kernel, ⟨by decide +kernel, by decide +kernel⟩, ⟨some (3, 3), some (0, 0), some (1, 1), none⟩, ⟨some (3, 3), some (7, -2), some (10, 10), none⟩, ?_, ?_, ?_⟩
  · decide +kernel
  · decide +kernel
  · decide +kernel

/-- Slip lengths of 1 above a floor at 0 (the middle of the first bin) are slip lengths of 10 above the floor at -2. -/
example : ((frame {} shearFile).bind (slipLengths 0)).toOption = some [1, 1, 1] ∧ ((frame {} shearFile').bind (slipLengths (-2))).toOption = some [10, 10, 10] := by
  refine ⟨?_, ?_⟩ <;> decide +kernel

example : unitOf sampleUnits 1 "visc_diss" = 100 ∧ unitOf sampleUnits 1 "inertial_energy" = 10000000 ∧ unitOf sampleUnits 1 "slip_length" = 10 ∧ unitOf sampleUnits 1 "T" = 1 := by
  refine ⟨?_, ?_, ?_, ?_⟩ <;> decide +kernel

/-- A cutoff of 2 in the mass selects the bins with a cutoff of 2000 in the new units. -/
example : ((frame {} shearFile).bind (rows { cutoffLabel := some "M", cutoff := some 2 })).toOption = some [1, 4, 7] ∧
    ((frame {} shearFile').bind (rows (inUnits sampleUnits 1 { cutoffLabel := some "M", cutoff := some 2 }))).toOption = some [1, 4, 7] := by
  refine ⟨?_, ?_⟩ <;> decide +kernel

end Strata.SampleSeries
