import Verif.Spec.SimpleUnits
import Verif.Proofs.SimpleAverage
import Verif.Proofs.GmxRead
/-!
# C174: averages and combined bins of simple maps in other units
-/
namespace Strata.SimpleAverage
open Strata Strata.Flow

theorem value_field (u : FieldUnits) {l : Label} (hx : l ≠ "X") (hy : l ≠ "Y") : u.value l = (u.factor l * ·) := by
  funext v
  unfold FieldUnits.value
  rw [if_neg hx, if_neg hy, add_zero]

theorem col?_record (u : FieldUnits) (l : Label) : ∀ d : Record, col? (u.record d) l = (col? d l).map (List.map (u.value l))
  | [] => rfl
  | (l', c) :: d => by
    unfold col? FieldUnits.record
    rw [List.map_cons, List.lookup_cons, List.lookup_cons]
    have ih := col?_record u l d
    unfold col? FieldUnits.record at ih
    cases h : l == l' with
    | true => rw [eq_of_beq h]; rfl
    | false => exact ih

theorem key_record (u : FieldUnits) (l : Label) (d : Record) : key (u.record d) l = (key d l).map (List.map (u.value l)) := by
  unfold key
  rw [col?_record]
  cases col? d l <;> rfl

theorem getD_scale (k : ℚ) (c : List ℚ) (t : ℕ) : (c.map (k * ·)).getD t 0 = k * c.getD t 0 := by
  rw [List.getD_eq_getElem?_getD, List.getD_eq_getElem?_getD, List.getElem?_map]
  cases c[t]? <;> simp

/-! ### Combined bins -/

theorem reshaped_record (u : FieldUnits) (l : Label) (hx : l ≠ "X") (hy : l ≠ "Y") (d : Record) (sh : ℕ × ℕ) :
    reshaped (u.record d) l sh = (reshaped d l sh).map fun a i j => u.factor l * a i j := by
  unfold reshaped
  rw [key_record, value_field u hx hy]
  cases key d l with
  | error e => rfl
  | ok c =>
    simp only [Except.map, bind, Except.bind, List.length_map]
    by_cases h : c.length = sh.1 * sh.2
    · rw [if_pos h, if_pos h]
      simp only [Except.ok.injEq]
      funext i j
      rw [getD_scale]
    · rw [if_neg h, if_neg h]

theorem slice_scale (k : ℚ) (nx ny i j : ℕ) (a : ℕ → ℕ → ℚ) : slice nx ny i j (fun i j => k * a i j) = (slice nx ny i j a).map (k * ·) := by
  unfold slice
  rw [List.map_map]
  rfl

theorem sum_scale (k : ℚ) (l : List ℚ) : (l.map (k * ·)).sum = k * l.sum := by
  rw [List.sum_map_mul_left, List.map_id']

theorem zipWith_scale (k m : ℚ) (a w : List ℚ) : List.zipWith (· * ·) (a.map (k * ·)) (w.map (m * ·)) = (List.zipWith (· * ·) a w).map (k * m * ·) := by
  rw [List.zipWith_map, List.map_zipWith]
  congr 1
  funext x y
  ring

theorem average_scale {k m : ℚ} (hm : m ≠ 0) (a w : List ℚ) : average (a.map (k * ·)) (w.map (m * ·)) = k * average a w := by
  unfold average
  rw [zipWith_scale, sum_scale, sum_scale]
  by_cases h : w.sum = 0
  · rw [if_pos h, h, mul_zero, if_pos rfl, mul_zero]
  · rw [if_neg h, if_neg (mul_ne_zero hm h)]
    field_simp

theorem combineField_record (u : FieldUnits) (hu : u.Valid) (l : Label) (hx : l ≠ "X") (hy : l ≠ "Y") (d : Record) (sh : ℕ × ℕ) (nx ny : ℕ) (w : Option Label) (hw : ∀ w', w = some w' → w' ≠ "X" ∧ w' ≠ "Y") :
    combineField (u.record d) sh nx ny l w = (combineField d sh nx ny l w).map (List.map (u.value l)) := by
  unfold combineField
  rw [reshaped_record u l hx hy, value_field u hx hy]
  cases reshaped d l sh with
  | error e => rfl
  | ok a =>
    cases w with
    | none =>
      simp only [Except.map, bind, Except.bind, List.map_map, Except.ok.injEq]
      refine List.map_congr_left fun t _ => ?_
      rw [slice_scale, sum_scale]
      rfl
    | some w =>
      simp only [Except.map, bind, Except.bind]
      rw [reshaped_record u w (hw w rfl).1 (hw w rfl).2]
      cases reshaped d w sh with
      | error e => rfl
      | ok b =>
        simp only [Except.map, List.map_map, Except.ok.injEq]
        refine List.map_congr_left fun t _ => ?_
        rw [slice_scale, slice_scale, average_scale (ne_of_gt (hu w))]
        rfl

theorem combinedInfo_units (u : FieldUnits) (i : CInfo) (nx ny : ℕ) : combinedInfo (u.cinfo i) nx ny = u.cinfo (combinedInfo i nx ny) := by
  unfold combinedInfo FieldUnits.cinfo FieldUnits.lengths FieldUnits.value
  simp only [CInfo.mk.injEq, Prod.mk.injEq, true_and, and_true, if_pos, if_neg (show ¬ ("Y" : Label) = "X" by decide)]
  refine ⟨⟨?_, ?_⟩, ?_, ?_⟩ <;> ring

/-- **C174, combined bins.** Combining the bins of a map in other units, with the origin anywhere, is combining those of the map, and fails as it does. -/
theorem C174_combined (u : FieldUnits) (hu : u.Valid) (d : Record) (i : CInfo) (nx ny : ℕ) :
    combineBins (u.record d) (u.cinfo i) nx ny = (combineBins d i nx ny).map fun r => (u.record r.1, u.cinfo r.2) := by
  unfold combineBins
  by_cases h0 : nx = 0 ∨ ny = 0
  · rw [if_pos h0, if_pos h0]; rfl
  · rw [if_neg h0, if_neg h0, combinedInfo_units]
    have hsh : (u.cinfo i).shape = i.shape := rfl
    rw [hsh, combineField_record u hu "N" (by decide) (by decide) d _ _ _ none (by simp), combineField_record u hu "M" (by decide) (by decide) d _ _ _ none (by simp),
      combineField_record u hu "T" (by decide) (by decide) d _ _ _ (some "N") (by rintro _ ⟨⟩; decide), combineField_record u hu "U" (by decide) (by decide) d _ _ _ (some "M") (by rintro _ ⟨⟩; decide),
      combineField_record u hu "V" (by decide) (by decide) d _ _ _ (some "M") (by rintro _ ⟨⟩; decide)]
    simp only [bind, Except.bind, Except.map]
    cases combineField d i.shape nx ny "N" none with
    | error e => rfl
    | ok n =>
      cases combineField d i.shape nx ny "M" none with
      | error e => rfl
      | ok m =>
        cases combineField d i.shape nx ny "T" (some "N") with
        | error e => rfl
        | ok t =>
          cases combineField d i.shape nx ny "U" (some "M") with
          | error e => rfl
          | ok uu =>
            cases combineField d i.shape nx ny "V" (some "M") with
            | error e => rfl
            | ok v =>
              simp only [FieldUnits.record, List.map_cons, List.map_nil, List.map_map, Except.ok.injEq, Prod.mk.injEq, List.cons.injEq, true_and, and_true]
              constructor
              · refine List.map_congr_left fun t _ => ?_
                simp only [FieldUnits.cinfo, FieldUnits.lengths, Function.comp, FieldUnits.value, if_pos]
                ring
              · refine List.map_congr_left fun t _ => ?_
                simp only [FieldUnits.cinfo, FieldUnits.lengths, Function.comp, FieldUnits.value, if_neg (show ¬ ("Y" : Label) = "X" by decide), if_pos]
                ring

/-! ### Averages -/

theorem mapM_scaled {α β γ δ : Type} (f : α → β) (g : α → Except Err γ) (g' : β → Except Err δ) (h : γ → δ) (hg : ∀ a, g' (f a) = (g a).map h) : ∀ ds : List α, (ds.map f).mapM g' = (ds.mapM g).map (List.map h)
  | [] => rfl
  | d :: ds => by
    rw [List.map_cons, List.mapM_cons, List.mapM_cons, hg, mapM_scaled f g g' h hg ds]
    cases g d with
    | error e => rfl
    | ok c => cases ds.mapM g <;> rfl

theorem sumArrays_scale (k : ℚ) (cs : List (List ℚ)) : sumArrays (cs.map (List.map (k * ·))) = (sumArrays cs).map (List.map (k * ·)) := by
  cases cs with
  | nil => rfl
  | cons c cs =>
    rw [List.map_cons]
    unfold sumArrays
    simp only [List.all_map, Function.comp_def, List.length_map]
    split
    · simp only [Except.map, List.map_map, Except.ok.injEq, ← List.map_cons]
      refine List.map_congr_left fun t _ => ?_
      simp only [Function.comp_def, getD_scale]
      rw [← sum_scale, List.map_map]
      rfl
    · rfl

theorem getAvg_record (u : FieldUnits) {l : Label} (hx : l ≠ "X") (hy : l ≠ "Y") (ds : List Record) : getAvg (ds.map u.record) l = (getAvg ds l).map (List.map (u.value l)) := by
  unfold getAvg
  rw [mapM_scaled u.record (fun d => key d l) (fun d => key d l) _ (key_record u l), value_field u hx hy, List.length_map]
  cases ds.mapM fun d => key d l with
  | error e => rfl
  | ok cs =>
    simp only [Except.map, bind, Except.bind]
    rw [sumArrays_scale]
    cases sumArrays cs with
    | error e => rfl
    | ok s =>
      simp only [Except.map, List.map_map, Except.ok.injEq]
      refine List.map_congr_left fun x _ => ?_
      simp only [Function.comp_def]
      ring

theorem weighted_record (u : FieldUnits) {l w : Label} (hx : l ≠ "X") (hy : l ≠ "Y") (wx : w ≠ "X") (wy : w ≠ "Y") (d : Record) :
    weighted l w (u.record d) = (weighted l w d).map (List.map (u.factor l * u.factor w * ·)) := by
  unfold weighted
  rw [key_record, key_record, value_field u hx hy, value_field u wx wy]
  cases key d l with
  | error e => rfl
  | ok a =>
    cases key d w with
    | error e => rfl
    | ok b =>
      simp only [Except.map, bind, Except.bind, List.length_map]
      split
      · rw [zipWith_scale]
      · rfl

theorem quotient_scale {k m s w : ℚ} (hm : m ≠ 0) (h : w = 0 → s = 0) : quotient (k * m * s) (m * w) = k * quotient s w := by
  unfold quotient
  by_cases hw : w = 0
  · simp [hw, h hw]
  · rw [if_pos (mul_ne_zero hm hw), if_pos hw]
    field_simp

/-- Where the weights add up to nothing, so do the weighted values. -/
theorem no_weight (l w : Label) : ∀ (ds : List Record) (ss ws : List (List ℚ)), ds.mapM (weighted l w) = .ok ss → ds.mapM (fun d => key d w) = .ok ws →
    (∀ d ∈ ds, ∀ c, col? d w = some c → ∀ v ∈ c, 0 ≤ v) → ∀ t, 0 ≤ (ws.map fun c => c.getD t 0).sum ∧ ((ws.map fun c => c.getD t 0).sum = 0 → (ss.map fun c => c.getD t 0).sum = 0)
  | [], ss, ws, h1, h2, _, t => by cases h1; cases h2; simp
  | d :: ds, ss, ws, h1, h2, hn, t => by
    rw [List.mapM_cons] at h1 h2
    obtain ⟨s, hs, h1⟩ := Simple.bind_eq_ok h1
    obtain ⟨ss', hss, h1⟩ := Simple.bind_eq_ok h1
    obtain ⟨b, hb, h2⟩ := Simple.bind_eq_ok h2
    obtain ⟨ws', hws, h2⟩ := Simple.bind_eq_ok h2
    cases h1
    cases h2
    obtain ⟨i1, i2⟩ := no_weight l w ds ss' ws' hss hws (fun d hd => hn d (List.mem_cons_of_mem _ hd)) t
    have hb' : col? d w = some b := by
      unfold key at hb
      cases hc : col? d w with
      | none => rw [hc] at hb; cases hb
      | some c => rw [hc] at hb; cases hb; rfl
    have hbt : 0 ≤ b.getD t 0 := by
      rw [List.getD_eq_getElem?_getD]
      cases hg : b[t]? with
      | none => simp
      | some v => exact hn d (List.mem_cons_self ..) b hb' v (List.mem_of_getElem? hg)
    simp only [List.map_cons, List.sum_cons]
    refine ⟨by linarith, fun h0 => ?_⟩
    have hb0 : b.getD t 0 = 0 := by linarith
    rw [i2 (by linarith), add_zero]
    unfold weighted at hs
    obtain ⟨a, ha, hs⟩ := Simple.bind_eq_ok hs
    rw [hb, Gmx.ok_bind] at hs
    split at hs
    · cases hs
      rw [List.getD_eq_getElem?_getD] at hb0 ⊢
      rw [List.getElem?_zipWith]
      cases h3 : a[t]? <;> cases h4 : b[t]? <;> simp_all
    · cases hs

theorem sumArrays_getD {cs : List (List ℚ)} {s : List ℚ} (h : sumArrays cs = .ok s) (t : ℕ) (ht : t < s.length) : s[t] = (cs.map fun c => c.getD t 0).sum := by
  cases cs with
  | nil => cases h
  | cons c cs =>
    unfold sumArrays at h
    simp only at h
    by_cases hh : (cs.all fun c' => c'.length == c.length) = true
    · rw [if_pos hh] at h
      cases h
      simp
    · rw [if_neg hh] at h
      cases h

theorem getWeightedAvg_record (u : FieldUnits) (hu : u.Valid) {l w : Label} (hx : l ≠ "X") (hy : l ≠ "Y") (hw : w = "M" ∨ w = "N") (ds : List Record) (hn : ∀ d ∈ ds, NoNegative d) :
    getWeightedAvg (ds.map u.record) l w = (getWeightedAvg ds l w).map (List.map (u.value l)) := by
  have wx : w ≠ "X" := by rcases hw with rfl | rfl <;> decide
  have wy : w ≠ "Y" := by rcases hw with rfl | rfl <;> decide
  unfold getWeightedAvg
  rw [mapM_scaled u.record (weighted l w) (weighted l w) _ (weighted_record u hx hy wx wy), mapM_scaled u.record (fun d => key d w) (fun d => key d w) _ (key_record u w), value_field u hx hy,
    value_field u wx wy]
  cases h1 : ds.mapM (weighted l w) with
  | error e => rfl
  | ok ss =>
    simp only [Except.map, bind, Except.bind]
    rw [sumArrays_scale]
    cases h2 : sumArrays ss with
    | error e => rfl
    | ok s =>
      simp only [Except.map]
      cases h3 : ds.mapM fun d => key d w with
      | error e => rfl
      | ok ws =>
        simp only
        rw [sumArrays_scale]
        cases h4 : sumArrays ws with
        | error e => rfl
        | ok t =>
          simp only [Except.map, List.length_map]
          by_cases hl : s.length = t.length
          · rw [if_pos hl, if_pos hl]
            simp only [Except.ok.injEq]
            refine List.ext_getElem (by simp) fun n hn1 hn2 => ?_
            simp only [List.length_zipWith, List.length_map] at hn1
            simp only [List.getElem_zipWith, List.getElem_map]
            refine quotient_scale (ne_of_gt (hu w)) fun h0 => ?_
            rw [sumArrays_getD h2]
            rw [sumArrays_getD h4] at h0
            exact (no_weight l w ds ss ws h1 h3 (fun d hd => hn d hd w hw) n).2 h0
          · rw [if_neg hl, if_neg hl]

/-- The averages once the coordinates are checked. -/
theorem averageData_units (u : FieldUnits) (hu : u.Valid) (ds : List Record) (hn : ∀ d ∈ ds, NoNegative d) (atol atol' rtol : ℚ)
    (hc : ∀ d0 ∈ ds, ∀ d ∈ ds, ∀ l, l = "X" ∨ l = "Y" → checkCoord atol' rtol (u.record d0) (u.record d) l = checkCoord atol rtol d0 d l) :
    averageData (ds.map u.record) atol' rtol = (averageData ds atol rtol).map u.record := by
  cases ds with
  | nil => rfl
  | cons d0 rest =>
    have hchk : ∀ ds : List Record, (∀ d ∈ ds, d ∈ rest) → ((ds.map u.record).mapM fun d => do checkCoord atol' rtol (u.record d0) d "X"; checkCoord atol' rtol (u.record d0) d "Y") =
        (ds.mapM fun d => do checkCoord atol rtol d0 d "X"; checkCoord atol rtol d0 d "Y") := by
      intro ds
      induction ds with
      | nil => intro _; rfl
      | cons d ds ih =>
        intro hd
        rw [List.map_cons, List.mapM_cons, List.mapM_cons, ih fun d' h => hd d' (List.mem_cons_of_mem _ h),
          hc d0 (List.mem_cons_self ..) d (List.mem_cons_of_mem _ (hd d (List.mem_cons_self ..))) "X" (Or.inl rfl),
          hc d0 (List.mem_cons_self ..) d (List.mem_cons_of_mem _ (hd d (List.mem_cons_self ..))) "Y" (Or.inr rfl)]
    have hA := fun (l : Label) (hx : l ≠ "X") (hy : l ≠ "Y") => getAvg_record u hx hy (d0 :: rest)
    have hW := fun (l w : Label) (hx : l ≠ "X") (hy : l ≠ "Y") (hw : w = "M" ∨ w = "N") => getWeightedAvg_record u hu hx hy hw (d0 :: rest) hn
    have hK := fun (l : Label) => mapM_scaled u.record (fun d => key d l) (fun d => key d l) _ (key_record u l) (d0 :: rest)
    rw [List.map_cons] at hA hW hK ⊢
    unfold averageData
    simp only
    rw [hchk rest fun _ h => h, hA "M" (by decide) (by decide), hA "N" (by decide) (by decide), hW "U" "M" (by decide) (by decide) (Or.inl rfl), hW "V" "M" (by decide) (by decide) (Or.inl rfl),
      hW "T" "N" (by decide) (by decide) (Or.inr rfl), hK "M", hK "N", key_record, key_record, value_field u (l := "M") (by decide) (by decide), value_field u (l := "N") (by decide) (by decide)]
    generalize (List.mapM (fun d => do checkCoord atol rtol d0 d "X"; checkCoord atol rtol d0 d "Y") rest) = chk
    cases key d0 "X" with
    | error e => rfl
    | ok x =>
    cases key d0 "Y" with
    | error e => rfl
    | ok y =>
    cases chk with
    | error e => rfl
    | ok _ =>
    cases List.mapM (fun d => key d "N") (d0 :: rest) with
    | error e => rfl
    | ok ns =>
    simp only [Except.map, bind, Except.bind]
    rw [sumArrays_scale]
    cases sumArrays ns with
    | error e => rfl
    | ok _ =>
    simp only [Except.map]
    cases List.mapM (fun d => key d "M") (d0 :: rest) with
    | error e => rfl
    | ok ms =>
    simp only [Except.map]
    rw [sumArrays_scale]
    cases sumArrays ms with
    | error e => rfl
    | ok _ =>
    simp only [Except.map]
    cases getAvg (d0 :: rest) "M" with
    | error e => rfl
    | ok m =>
    cases getAvg (d0 :: rest) "N" with
    | error e => rfl
    | ok n =>
    cases getWeightedAvg (d0 :: rest) "U" "M" with
    | error e => rfl
    | ok uu =>
    cases getWeightedAvg (d0 :: rest) "V" "M" with
    | error e => rfl
    | ok v =>
    cases getWeightedAvg (d0 :: rest) "T" "N" with
    | error e => rfl
    | ok t =>
    simp only [FieldUnits.record, List.map_cons, List.map_nil, value_field u (l := "M") (by decide) (by decide), value_field u (l := "N") (by decide) (by decide)]

theorem isClose_scale {c : ℚ} (hc : 0 < c) (atol rtol a b : ℚ) : isClose (c * atol) rtol (c * a) (c * b) = isClose atol rtol a b := by
  unfold isClose
  rw [decide_eq_decide, ← mul_sub, abs_mul, abs_mul, abs_of_pos hc, show c * atol + rtol * (c * |b|) = c * (atol + rtol * |b|) by ring, mul_le_mul_iff_right₀ hc]

theorem allClose_scale {c : ℚ} (hc : 0 < c) (atol rtol : ℚ) (a b : List ℚ) : allClose (c * atol) rtol (a.map (c * ·)) (b.map (c * ·)) = allClose atol rtol a b := by
  have h1 : ∀ p : List (ℚ × ℚ), ((p.map (Prod.map (c * ·) (c * ·))).all fun p => isClose (c * atol) rtol p.1 p.2) = p.all fun p => isClose atol rtol p.1 p.2 := by
    intro p
    rw [List.all_map]
    congr 1
    funext p
    exact isClose_scale hc ..
  unfold allClose
  rw [List.length_map, List.length_map, List.zip_map, h1]
  by_cases h : a.length = b.length
  · rw [if_pos h, if_pos h]
  · rw [if_neg h, if_neg h]
    rcases a with - | ⟨x, - | ⟨x', a⟩⟩ <;> rcases b with - | ⟨y, - | ⟨y', b⟩⟩ <;> simp [List.all_map, Function.comp_def, isClose_scale hc]

/-- **C174, averages (partial).** Averaging maps in other units, with the tolerance of lengths in the new unit of length, is averaging the maps, and is refused as it is. Missing: other tolerances, a moved origin. -/
theorem C174_average_partial (u : FieldUnits) (hu : u.Valid) (c : ℚ) (hc : u.Lengths c) (ds : List Record) (hn : ∀ d ∈ ds, NoNegative d) (atol rtol : ℚ) :
    averageData (ds.map u.record) (c * atol) rtol = (averageData ds atol rtol).map u.record := by
  obtain ⟨h1, h2, h3, h4⟩ := hc
  refine averageData_units u hu ds hn atol _ rtol fun d0 _ d _ l hl => ?_
  have hv : u.value l = (c * ·) := by
    funext v
    unfold FieldUnits.value
    rcases hl with rfl | rfl
    · rw [if_pos rfl, h1, h3, add_zero]
    · rw [if_neg (by decide), if_pos rfl, h2, h4, add_zero]
  have hc0 : 0 < c := h1 ▸ hu "X"
  unfold checkCoord
  rw [key_record, key_record, hv]
  cases key d0 l with
  | error e => rfl
  | ok a =>
    cases key d l with
    | error e => rfl
    | ok b =>
      simp only [Except.map, bind, Except.bind]
      rw [allClose_scale hc0]

/-- **C174, averages of maps on the same bins (partial).** Maps with the same coordinates may be averaged in any units, with the origin anywhere. -/
theorem C174_same_bins_partial (u : FieldUnits) (hu : u.Valid) (ds : List Record) (hn : ∀ d ∈ ds, NoNegative d) (atol rtol : ℚ) (ha : 0 ≤ atol) (hr : 0 ≤ rtol)
    (hs : ∀ d ∈ ds, ∀ d' ∈ ds, ∀ l, l = "X" ∨ l = "Y" → col? d l = col? d' l) :
    averageData (ds.map u.record) atol rtol = (averageData ds atol rtol).map u.record := by
  have hclose : ∀ a : List ℚ, allClose atol rtol a a = .ok true := by
    intro a
    unfold allClose
    rw [if_pos rfl]
    simp only [Except.ok.injEq, List.all_eq_true]
    rintro ⟨x, y⟩ hp
    obtain ⟨i, h1, h2⟩ := List.mem_iff_getElem.mp hp
    rw [List.getElem_zip] at h2
    cases h2
    unfold isClose
    rw [decide_eq_true_eq, sub_self, abs_zero]
    positivity
  refine averageData_units u hu ds hn atol _ rtol fun d0 h0 d hd l hl => ?_
  unfold checkCoord
  have hk : key d l = key d0 l := by unfold key; rw [hs d hd d0 h0 l hl]
  rw [key_record, key_record, hk]
  cases key d0 l with
  | error e => rfl
  | ok a =>
    simp only [Except.map, bind, Except.bind]
    rw [hclose, hclose]

/-! ### The tolerances -/

/-- A map of one bin at the position `x`. -/
def bin (x : ℚ) : Record := [("X", [x]), ("Y", [0]), ("M", [2]), ("N", [1]), ("U", [3]), ("V", [1]), ("T", [300])]

/-- Nanometres to micrometres. -/
def micro : FieldUnits := { factor := fun l => if l = "X" ∨ l = "Y" then 1 / 1000 else 1 }

/-- An origin far away. -/
def away : FieldUnits := { factor := fun _ => 1, x0 := 1000 }

/-- **C174, counterexample.** Maps that are refused in nanometres, being half a bin apart, are averaged in micrometres, and with a distant origin maps a hundredth apart are averaged that are refused with a near one. -/
theorem C174_tolerance_depends_on_units :
    averageData [bin 1, bin (3 / 2)] = .error .valueError ∧ (averageData ([bin 1, bin (3 / 2)].map micro.record)).toOption.isSome = true ∧
    averageData [bin 0, bin (1 / 100)] = .error .valueError ∧ (averageData ([bin 0, bin (1 / 100)].map away.record)).toOption.isSome = true := by
  refine ⟨?_, ?_, ?_, ?_⟩ <;> decide +kernel

/-! ### Cases -/

theorem micro_valid : micro.Valid := by
  intro l
  unfold micro
  simp only
  split <;> norm_num

example : micro.Valid ∧ micro.Lengths (1 / 1000) ∧ (∀ d ∈ [bin 1, bin 1], NoNegative d) := by
  refine ⟨micro_valid, ⟨rfl, rfl, rfl, rfl⟩, ?_⟩
  intro d hd l hl c hc
  simp only [List.mem_cons, List.not_mem_nil, or_false, or_self] at hd
  subst hd
  rcases hl with rfl | rfl
  · have : col? (bin 1) "M" = some [2] := by decide +kernel
    rw [this] at hc
    cases hc
    simp
  · have : col? (bin 1) "N" = some [1] := by decide +kernel
    rw [this] at hc
    cases hc
    simp

/-- Two maps of the same bin are averaged, in nanometres and in micrometres. -/
example : (averageData ([bin 1, bin 1].map micro.record) (1 / 1000 * (1 / 1000))).toOption = ((averageData [bin 1, bin 1]).toOption.map micro.record) ∧
    (averageData [bin 1, bin 1]).toOption = some [("X", [1]), ("Y", [0]), ("M", [2]), ("N", [1]), ("U", [3]), ("V", [1]), ("T", [300])] := by
  constructor <;> decide +kernel

/-- Two bins combined. -/
example : ((combineBins [("X", [0, 1]), ("Y", [0, 0]), ("M", [2, 0]), ("N", [1, 0]), ("U", [3, 7]), ("V", [1, 1]), ("T", [300, 0])] ⟨(2, 1), (1, 1), (0, 0), 2⟩ 2 1).toOption.map fun r => r.1) =
    some [("X", [1 / 2]), ("Y", [0]), ("N", [1]), ("M", [2]), ("T", [300]), ("U", [3]), ("V", [1])] := by decide +kernel

end Strata.SimpleAverage
