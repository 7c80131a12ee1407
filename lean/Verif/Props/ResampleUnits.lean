import Verif.Props.FlowUnits
/-!
# C158: resampled maps in other units
-/
namespace Strata.Resample
open Strata Strata.Flow Strata.Average Strata.Sample

variable {u : FieldUnits}

/-- The geometry of a grid in the new units. -/
def inUnits (u : FieldUnits) (i : GridInfo) : GridInfo := ⟨u.lengths i.spacing, i.shape, (u.value "X" i.origin.1, u.value "Y" i.origin.2)⟩

/-- A record with its fields in the new units. -/
def rec (u : FieldUnits) (d : Record) : Record := d.map fun c => (c.1, c.2.map (u.value c.1))

theorem mk_data {d : Record} (hw : Wf d) {e : InfoDict} {g : Flow} (hg : mk (asArgs d) e = .ok g) : g.data = d := by
  unfold mk at hg
  cases d with
  | nil => rw [show setData (asArgs []) = .error .indexError from rfl] at hg; cases hg
  | cons c d =>
    rw [setData_of_wf _ _ (collate_asArgs _) (by simp) hw] at hg
    cases hi : setInfo e with
    | error _ => rw [hi] at hg; cases hg
    | ok i =>
      rw [hi] at hg
      injection hg with hg
      subst hg
      rfl

theorem value_monotone (h : u.Valid) (l : Label) : ∀ a b, a ≤ b → u.value l a ≤ u.value l b := fun a b hab => (value_le h l a b).mpr hab

theorem value_injective (h : u.Valid) (l : Label) : Function.Injective (u.value l) := fun a b hab => (value_inj h l a b).mp hab

theorem cut_units (h : u.Valid) (f : Flow) (hw : Wf f.data) (xlim ylim : Option ℚ × Option ℚ) :
    cutSystemLimits (u.flow f) (u.lims "X" xlim) (u.lims "Y" ylim) ("X", "Y") = (cutSystemLimits f xlim ylim ("X", "Y")).map u.flow := by
  unfold cutSystemLimits
  rw [field_fields, field_fields, size_fields]
  cases hX : field f.data "X" with
  | error _ => rfl
  | ok xs =>
    cases hY : field f.data "Y" with
    | error _ => rfl
    | ok ys =>
      simp only [Except.map, bind, Except.bind]
      have hx := field_length hw hX
      have hy := field_length hw hY
      have hi : ((List.range (Flow.size f.data)).filter fun t => inLims (u.lims "X" xlim).1 (u.lims "X" xlim).2 ((xs.map (u.value "X")).getD t 0) &&
            inLims (u.lims "Y" ylim).1 (u.lims "Y" ylim).2 ((ys.map (u.value "Y")).getD t 0)) =
          (List.range (Flow.size f.data)).filter fun t => inLims xlim.1 xlim.2 (xs.getD t 0) && inLims ylim.1 ylim.2 (ys.getD t 0) := by
        refine List.filter_congr fun t ht => ?_
        have ht := List.mem_range.mp ht
        rw [getD_value (by omega), getD_value (by omega)]
        exact congrArg₂ _ (inLims_units h "X" _ _ _) (inLims_units h "Y" _ _ _)
      rw [hi]
      generalize hidx : ((List.range (Flow.size f.data)).filter fun t => inLims xlim.1 xlim.2 (xs.getD t 0) && inLims ylim.1 ylim.2 (ys.getD t 0)) = idx
      rw [gather_units f hw idx (by
        intro i hi'
        rw [← hidx] at hi'
        exact List.mem_range.mp (List.mem_filter.mp hi').1)]
      generalize gather idx f.data = d
      have hf : ∀ l, field (d.map fun c => (c.1, c.2.map (u.value c.1))) l = (field d l).map fun c => c.map (u.value l) := fun l => field_fields (u := u) ⟨d, {}⟩ l
      rw [hf, hf]
      cases field d "X" with
      | error _ => rfl
      | ok dx =>
        cases field d "Y" with
        | error _ => rfl
        | ok dy =>
          simp only [Except.map]
          rw [Interface.npMin_conv _ (value_monotone h "X"), Interface.npMin_conv _ (value_monotone h "Y")]
          cases npMin dx with
          | error _ => rfl
          | ok ox =>
            cases npMin dy with
            | error _ => rfl
            | ok oy =>
              simp only [Except.map]
              rw [List.dedup_map_of_injective (value_injective h "X"), List.dedup_map_of_injective (value_injective h "Y"), List.length_map, List.length_map]
              refine mk_units ?_
              obtain ⟨d', ⟨s, o, p, n⟩⟩ := f
              cases p <;> rfl

theorem cut_wf {f g : Flow} (hw : Wf f.data) {xlim ylim : Option ℚ × Option ℚ} (hg : cutSystemLimits f xlim ylim ("X", "Y") = .ok g) : Wf g.data := by
  unfold cutSystemLimits at hg
  obtain ⟨xs, -, hg⟩ := Simple.bind_eq_ok hg
  obtain ⟨ys, -, hg⟩ := Simple.bind_eq_ok hg
  obtain ⟨dx, -, hg⟩ := Simple.bind_eq_ok hg
  obtain ⟨dy, -, hg⟩ := Simple.bind_eq_ok hg
  obtain ⟨ox, -, hg⟩ := Simple.bind_eq_ok hg
  obtain ⟨oy, -, hg⟩ := Simple.bind_eq_ok hg
  rw [mk_data (wf_gather _ hw) hg]
  exact wf_gather _ hw

theorem downscaled_units (f : Flow) (n : ℕ × ℕ) : downscaledInfo (u.flow f) n = (downscaledInfo f n).map (inUnits u) := by
  obtain ⟨d, ⟨s, o, p, m⟩⟩ := f
  unfold downscaledInfo FieldUnits.flow
  cases s with
  | none => cases p <;> rfl
  | some s =>
    cases p with
    | none => rfl
    | some p =>
      cases o with
      | none => rfl
      | some o =>
        simp only [Option.map_some]
        by_cases h0 : n.1 = 0 ∨ n.2 = 0
        · simp only [FieldUnits.lengths, if_pos h0]; rfl
        · simp only [FieldUnits.lengths, if_neg h0]
          show Except.ok _ = Except.ok _
          congr 1
          unfold inUnits FieldUnits.lengths FieldUnits.value
          congr 1
          · ext <;> simp only <;> ring
          · ext <;> simp only <;> ring

theorem xs_units (i : GridInfo) : (inUnits u i).xs = i.xs.map (u.value "X") := by
  unfold GridInfo.xs inUnits
  rw [List.map_map]
  refine List.map_congr_left fun t _ => ?_
  simp only [Function.comp, FieldUnits.lengths, value_add]
  ring

theorem ys_units (i : GridInfo) : (inUnits u i).ys = i.ys.map (u.value "Y") := by
  unfold GridInfo.ys inUnits
  rw [List.map_map]
  refine List.map_congr_left fun t _ => ?_
  simp only [Function.comp, FieldUnits.lengths, value_add]
  ring

theorem dict_units (d : Record) (i : GridInfo) : setInfo (inUnits u i).dict = (setInfo i.dict).map fun j => (u.flow ⟨d, j⟩).info := rfl

theorem block_factor (k : ℚ) (sx nx ny J I : ℕ) (c : List ℚ) : block sx nx ny J I (c.map (k * ·)) = (block sx nx ny J I c).map (k * ·) := by
  unfold block
  rw [List.map_flatMap]
  simp only [getD_factor, List.map_map]
  rfl

theorem zip_factor (k m : ℚ) (vs ws : List ℚ) : List.zipWith (· * ·) (vs.map (k * ·)) (ws.map (m * ·)) = (List.zipWith (· * ·) vs ws).map (k * m * ·) := by
  rw [List.zipWith_map, List.map_zipWith]
  congr 1
  funext a b
  ring

theorem wavg_factor (k m : ℚ) (hm : 0 < m) (vs ws : List ℚ) : wavg (vs.map (k * ·)) (ws.map (m * ·)) = k * wavg vs ws := by
  unfold wavg
  rw [zip_factor, sum_map_factor, sum_map_factor]
  by_cases hs : ws.sum = 0
  · rw [if_pos (by rw [hs, mul_zero]), if_pos hs, mul_zero]
  · rw [if_neg (mul_ne_zero hm.ne' hs), if_neg hs, mul_comm k m, mul_assoc, mul_div_mul_left _ _ hm.ne', mul_div_assoc]

theorem sortRecord_units (h : u.Valid) (f : Flow) (hw : Wf f.data) :
    sortRecord (u.flow f).data ["Y", "X"] = (sortRecord f.data ["Y", "X"]).map (rec u) := by
  have e := sort_fields h f hw
  unfold Flow.sort at e
  simp only at e
  cases h1 : sortRecord (u.flow f).data ["Y", "X"] with
  | error a =>
    rw [h1] at e
    cases h2 : sortRecord f.data ["Y", "X"] with
    | error b => rw [h2] at e; injection e with e; subst e; rfl
    | ok b => rw [h2] at e; cases e
  | ok a =>
    rw [h1] at e
    cases h2 : sortRecord f.data ["Y", "X"] with
    | error b => rw [h2] at e; cases e
    | ok b =>
      rw [h2] at e
      injection e with e
      have := congrArg Flow.data e
      exact congrArg Except.ok this

theorem combine_units (h : u.Valid) (i : GridInfo) (f : Flow) (hw : Wf f.data) (n : ℕ × ℕ) (ws : List (Label × Label))
    (hws : ∀ p ∈ ws, p.1 ≠ "X" ∧ p.1 ≠ "Y" ∧ p.2 ≠ "X" ∧ p.2 ≠ "Y") :
    combineBins (inUnits u i) (u.flow f) n ("X", "Y") ws = (combineBins i f n ("X", "Y") ws).map (rec u) := by
  unfold combineBins
  simp only
  rw [sortRecord_units h f hw]
  cases sortRecord f.data ["Y", "X"] with
  | error _ => rfl
  | ok d =>
    simp only [Except.map, bind, Except.bind]
    rw [show (u.flow f).info.shape = f.info.shape from rfl]
    cases f.info.shape with
    | none => rfl
    | some s =>
      obtain ⟨sx, sy⟩ := s
      simp only
      rw [show Flow.size (rec u d) = Flow.size d from size_map d, show names (rec u d) = names d from names_fields (u := u) ⟨d, {}⟩]
      by_cases h1 : (Flow.size d : ℤ) ≠ sx * sy
      · rw [if_pos h1, if_pos h1]
      rw [if_neg h1, if_neg h1]
      rw [show (inUnits u i).shape = i.shape from rfl]
      by_cases h2 : i.shape.1 * i.shape.2 ≠ 0 ∧ ¬ (ws.all fun lw => decide (lw.1 ∈ names d ∧ lw.2 ∈ names d)) = true
      · rw [if_pos h2, if_pos h2]
      rw [if_neg h2, if_neg h2]
      show Except.ok _ = Except.ok _
      congr 1
      unfold rec
      rw [List.map_map]
      refine List.map_congr_left fun l _ => ?_
      simp only [Function.comp]
      refine congrArg (Prod.mk l) ?_
      have hcol : ∀ l, l ≠ "X" → l ≠ "Y" → ((col? (d.map fun c => (c.1, c.2.map (u.value c.1))) l).getD []) = ((col? d l).getD []).map (u.factor l * ·) := by
        intro l hx hy
        unfold col?
        rw [lookup_fields]
        cases d.lookup l with
        | none => rfl
        | some c => exact map_plain hx hy c
      cases hl : ws.reverse.lookup l with
      | some w =>
        obtain ⟨a1, a2, a3, a4⟩ := hws (l, w) (List.mem_reverse.mp (lookup_mem hl))
        simp only
        rw [hcol l a1 a2, hcol w a3 a4, List.map_map]
        refine List.map_congr_left fun t _ => ?_
        simp only [Function.comp]
        rw [block_factor, block_factor, wavg_factor _ _ (h w), value_plain a1 a2]
      | none =>
        simp only
        by_cases hy : l = "Y"
        · subst hy; rw [if_pos rfl, if_pos rfl, ys_units]
        rw [if_neg hy, if_neg hy]
        by_cases hx : l = "X"
        · subst hx; rw [if_pos rfl, if_pos rfl, xs_units]
        rw [if_neg hx, if_neg hx, hcol l hx hy, List.map_map]
        refine List.map_congr_left fun t _ => ?_
        simp only [Function.comp]
        rw [block_factor, sum_map_factor, value_plain hx hy]

/-- **C158, combining bins.** Combine the bins of a map, or of a part of it, in other units (the limits in these units, weights in theirs): the result is that of the map in the new units, and the same
calls fail. -/
theorem C158_downsample (u : FieldUnits) (h : u.Valid) (f : Flow) (hw : Wf f.data) (n : ℕ × ℕ) (ws : List (Label × Label))
    (hws : ∀ p ∈ ws, p.1 ≠ "X" ∧ p.1 ≠ "Y" ∧ p.2 ≠ "X" ∧ p.2 ≠ "Y") (xlim ylim : Option ℚ × Option ℚ) :
    downsample (u.flow f) n ("X", "Y") ws (u.lims "X" xlim) (u.lims "Y" ylim) = (downsample f n ("X", "Y") ws xlim ylim).map u.flow := by
  unfold downsample
  rw [cut_units h f hw]
  cases hc : cutSystemLimits f xlim ylim ("X", "Y") with
  | error _ => rfl
  | ok g =>
    simp only [Except.map, bind, Except.bind]
    rw [downscaled_units]
    cases downscaledInfo g n with
    | error _ => rfl
    | ok i =>
      simp only [Except.map]
      rw [combine_units h i g (cut_wf hw hc) n ws hws]
      cases combineBins i g n ("X", "Y") ws with
      | error _ => rfl
      | ok d => exact mk_units (dict_units d i)

/-! ### Splitting bins -/

theorem lookup_each (g : Label → ℚ → ℚ) (d : Record) (l : Label) : (d.map fun c => (c.1, c.2.map (g c.1))).lookup l = (d.lookup l).map fun c => c.map (g l) := by
  induction d with
  | nil => rfl
  | cons c d ih =>
    rw [List.map_cons, List.lookup_cons, List.lookup_cons]
    by_cases hl : l = c.1
    · subst hl; simp
    · have : (l == c.1) = false := by simpa using hl
      simp only [this]
      exact ih

theorem field_each (g : Label → ℚ → ℚ) (d : Record) (l : Label) : field (d.map fun c => (c.1, c.2.map (g c.1))) l = (field d l).map fun c => c.map (g l) := by
  unfold field col?
  rw [lookup_each]
  cases d.lookup l <;> rfl

/-- The fields after multiplication with their weights. -/
theorem premultiply_units (k : Label → ℚ) : ∀ (ws : List (Label × Label)) (g : Label → ℚ → ℚ) (d : Record), (ws.map Prod.fst).Nodup → (∀ p ∈ ws, ∀ q ∈ ws, q.1 ≠ p.2) →
    (∀ p ∈ ws, (g p.1 = fun v => k p.1 * v) ∧ (g p.2 = fun v => k p.2 * v)) →
    ∃ g' : Label → ℚ → ℚ, premultiply (d.map fun c => (c.1, c.2.map (g c.1))) ws = (premultiply d ws).map (fun d => d.map fun c => (c.1, c.2.map (g' c.1))) ∧
      (∀ p ∈ ws, g' p.1 = fun v => k p.1 * k p.2 * v) ∧ ∀ l, (∀ p ∈ ws, p.1 ≠ l) → g' l = g l
  | [], g, d, _, _, _ => ⟨g, rfl, fun p hp => absurd hp (by simp), fun _ _ => rfl⟩
  | (l, w) :: ws, g, d, hn, hd, hg => by
    have hn' : l ∉ ws.map Prod.fst ∧ (ws.map Prod.fst).Nodup := List.nodup_cons.mp hn
    have hgl := (hg (l, w) List.mem_cons_self).1
    have hgw := (hg (l, w) List.mem_cons_self).2
    simp only at hgl hgw
    have hne : ∀ p ∈ ws, p.1 ≠ l := fun p hp e => hn'.1 (List.mem_map.mpr ⟨p, hp, e⟩)
    have hne2 : ∀ p ∈ ws, p.2 ≠ l := fun p hp e => hd p (List.mem_cons_of_mem _ hp) (l, w) List.mem_cons_self e.symm
    let g1 : Label → ℚ → ℚ := fun x => if x = l then fun v => k l * k w * v else g x
    have step : ∀ d' : Record, ∃ g' : Label → ℚ → ℚ, premultiply (d'.map fun c => (c.1, c.2.map (g1 c.1))) ws = (premultiply d' ws).map (fun d => d.map fun c => (c.1, c.2.map (g' c.1))) ∧
        (∀ p ∈ ws, g' p.1 = fun v => k p.1 * k p.2 * v) ∧ ∀ l, (∀ p ∈ ws, p.1 ≠ l) → g' l = g1 l := by
      intro d'
      refine premultiply_units k ws g1 d' hn'.2 (fun p hp q hq => hd p (List.mem_cons_of_mem _ hp) q (List.mem_cons_of_mem _ hq)) fun p hp => ?_
      have := hg p (List.mem_cons_of_mem _ hp)
      simp only [g1, if_neg (hne p hp), if_neg (hne2 p hp)]
      exact this
    have hfin : ∀ g' : Label → ℚ → ℚ, (∀ p ∈ ws, g' p.1 = fun v => k p.1 * k p.2 * v) → (∀ l, (∀ p ∈ ws, p.1 ≠ l) → g' l = g1 l) →
        (∀ p ∈ (l, w) :: ws, g' p.1 = fun v => k p.1 * k p.2 * v) ∧ ∀ x, (∀ p ∈ (l, w) :: ws, p.1 ≠ x) → g' x = g x := by
      intro g' h1 h2
      refine ⟨fun p hp => ?_, fun x hx => ?_⟩
      · rcases List.mem_cons.mp hp with rfl | hp
        · rw [h2 l hne]; simp only [g1, if_true]
        · exact h1 p hp
      · rw [h2 x fun p hp => hx p (List.mem_cons_of_mem _ hp)]
        have : x ≠ l := fun e => hx (l, w) List.mem_cons_self e.symm
        simp only [g1, if_neg this]
    have hcons : ∀ d0 : Record, premultiply d0 ((l, w) :: ws) = (do let v ← field d0 l; let x ← field d0 w; premultiply (setCol d0 l (List.zipWith (· * ·) v x)) ws) := by
      intro d0
      unfold premultiply
      rw [List.foldlM_cons]
      cases field d0 l with
      | error _ => rfl
      | ok v => cases field d0 w <;> rfl
    rw [hcons, hcons, field_each, field_each]
    cases field d l with
    | error _ =>
      obtain ⟨g', -, h1, h2⟩ := step []
      exact ⟨g', rfl, hfin g' h1 h2⟩
    | ok v =>
      cases field d w with
      | error _ =>
        obtain ⟨g', -, h1, h2⟩ := step []
        exact ⟨g', rfl, hfin g' h1 h2⟩
      | ok x =>
        simp only [Except.map, bind, Except.bind]
        obtain ⟨g', h0, h1, h2⟩ := step (setCol d l (List.zipWith (· * ·) v x))
        refine ⟨g', ?_, hfin g' h1 h2⟩
        refine Eq.trans ?_ h0
        refine congrArg (fun e => premultiply e ws) ?_
        unfold setCol
        rw [List.map_map, List.map_map]
        refine List.map_congr_left fun c _ => ?_
        simp only [Function.comp]
        by_cases hc : c.1 = l
        · rw [if_pos hc, if_pos hc]
          simp only [g1, hc, if_true]
          rw [hgl, hgw]
          refine congrArg (Prod.mk l) ?_
          exact zip_factor (k l) (k w) v x
        · rw [if_neg hc, if_neg hc]
          simp only [g1, if_neg hc]

theorem window_factor (k : ℚ) (NX NY n i j : ℕ) (c : List ℚ) : windowBins NX NY n i j (c.map (k * ·)) = (windowBins NX NY n i j c).map (k * ·) := by
  unfold windowBins
  rw [List.map_flatMap]
  refine congrArg (fun g => (List.range NY).flatMap g) ?_
  funext a
  rw [List.map_filterMap]
  refine congrArg (fun g => (List.range NX).filterMap g) ?_
  funext b
  rw [getD_factor]
  split_ifs <;> rfl

theorem onGrid_units (h : u.Valid) (NX NY factor : ℕ) (fine : Record) (ws : List (Label × Label)) (hn : (ws.map Prod.fst).Nodup)
    (hws : ∀ p ∈ ws, p.1 ≠ "X" ∧ p.1 ≠ "Y" ∧ p.2 ≠ "X" ∧ p.2 ≠ "Y" ∧ ∀ q ∈ ws, q.1 ≠ p.2) :
    supersampleOnGrid NX NY factor (rec u fine) ("X", "Y") ws = (supersampleOnGrid NX NY factor fine ("X", "Y") ws).map (rec u) := by
  unfold supersampleOnGrid
  obtain ⟨g, h0, h1, h2⟩ := premultiply_units u.factor ws u.value fine hn (fun p hp => (hws p hp).2.2.2.2) (fun p hp =>
    ⟨funext fun v => value_plain (hws p hp).1 (hws p hp).2.1 v, funext fun v => value_plain (hws p hp).2.2.1 (hws p hp).2.2.2.1 v⟩)
  rw [show premultiply (rec u fine) ws = _ from h0]
  cases premultiply fine ws with
  | error _ => rfl
  | ok d =>
    simp only [Except.map, bind, Except.bind]
    congr 1
    rw [show names (rec u fine) = names fine from names_fields (u := u) ⟨fine, {}⟩]
    unfold rec
    rw [List.map_map]
    refine List.map_congr_left fun l _ => ?_
    simp only [Function.comp]
    refine congrArg (Prod.mk l) ?_
    have hcol : ∀ (l : Label) (k : ℚ), g l = (fun v => k * v) → ((col? (d.map fun c => (c.1, c.2.map (g c.1))) l).getD []) = ((col? d l).getD []).map (k * ·) := by
      intro l k hk
      unfold col?
      rw [lookup_each, hk]
      cases d.lookup l <;> rfl
    cases hl : ws.reverse.lookup l with
    | some w =>
      have hm : (l, w) ∈ ws := List.mem_reverse.mp (lookup_mem hl)
      obtain ⟨a1, a2, a3, a4, a5⟩ := hws (l, w) hm
      simp only
      rw [hcol l _ (h1 (l, w) hm), hcol w (u.factor w) (by rw [h2 w a5]; exact funext fun v => value_plain a3 a4 v), List.map_map]
      refine List.map_congr_left fun t _ => ?_
      simp only [Function.comp]
      rw [window_factor, window_factor, sum_map_factor, sum_map_factor, value_plain a1 a2]
      by_cases hs : (windowBins NX NY (factor - 1) (t / NX) (t % NX) ((col? d w).getD [])).sum = 0
      · rw [if_neg (by rw [hs, mul_zero]; simp), if_neg (by rw [hs]; simp), mul_zero]
      · rw [if_pos (mul_ne_zero (h w).ne' hs), if_pos hs, mul_comm (u.factor l), mul_assoc, mul_div_mul_left _ _ (h w).ne', mul_div_assoc]
    | none =>
      have hno : ∀ p ∈ ws, p.1 ≠ l := by
        intro p hp e
        have := List.lookup_eq_none_iff.mp hl p (List.mem_reverse.mpr hp)
        simp [e] at this
      simp only
      by_cases hc : l = "X" ∨ l = "Y"
      · rw [if_pos hc, if_pos hc]
        unfold col?
        rw [lookup_fields]
        cases fine.lookup l <;> rfl
      · rw [if_neg hc, if_neg hc]
        push Not at hc
        rw [hcol l (u.factor l) (by rw [h2 l hno]; exact funext fun v => value_plain hc.1 hc.2 v), List.map_map]
        refine List.map_congr_left fun t _ => ?_
        simp only [Function.comp]
        rw [window_factor, sum_map_factor, List.length_map, value_plain hc.1 hc.2, mul_div_assoc]

theorem superscaled_units (h : u.Valid) (f : Flow) (n : ℕ) : superscaledInfo (u.flow f) n ("X", "Y") = (superscaledInfo f n ("X", "Y")).map (inUnits u) := by
  unfold superscaledInfo
  rw [show (u.flow f).info.shape = f.info.shape from rfl, show (u.flow f).info.spacing = f.info.spacing.map u.lengths from rfl]
  cases f.info.shape with
  | none => rfl
  | some s =>
    cases f.info.spacing with
    | none => rfl
    | some p =>
      obtain ⟨sx, sy⟩ := s
      obtain ⟨dx, dy⟩ := p
      simp only [Option.map_some, FieldUnits.lengths]
      by_cases h0 : n = 0
      · rw [if_pos h0, if_pos h0]; rfl
      rw [if_neg h0, if_neg h0, field_fields, field_fields]
      cases field f.data "X" with
      | error _ => rfl
      | ok xs =>
        simp only [Except.map, bind, Except.bind]
        rw [Interface.npMin_conv _ (value_monotone h "X")]
        cases npMin xs with
        | error _ => rfl
        | ok ox =>
          simp only [Except.map]
          cases field f.data "Y" with
          | error _ => rfl
          | ok ys =>
            simp only
            rw [Interface.npMin_conv _ (value_monotone h "Y")]
            cases npMin ys with
            | error _ => rfl
            | ok oy =>
              show Except.ok _ = Except.ok _
              congr 1
              unfold inUnits FieldUnits.lengths
              congr 1
              ext <;> simp only <;> ring

theorem finer_factor (k : ℚ) (nx ny n : ℕ) (c : List ℚ) : finerCol nx ny n (c.map (k * ·)) = (finerCol nx ny n c).map (k * ·) := by
  unfold finerCol
  rw [List.map_map]
  exact List.map_congr_left fun t _ => getD_factor k c _

/-- **C158, splitting bins.** Split the bins of a map in other units: the result is that of the map in the new units, and the same calls fail. -/
theorem C158_supersample (u : FieldUnits) (h : u.Valid) (f : Flow) (hw : Wf f.data) (n : Option ℕ) (ws : List (Label × Label)) (hn : (ws.map Prod.fst).Nodup)
    (hws : ∀ p ∈ ws, p.1 ≠ "X" ∧ p.1 ≠ "Y" ∧ p.2 ≠ "X" ∧ p.2 ≠ "Y" ∧ ∀ q ∈ ws, q.1 ≠ p.2) :
    supersample (u.flow f) n ("X", "Y") ws = (supersample f n ("X", "Y") ws).map u.flow := by
  unfold supersample
  split
  · exact C157_copy u f
  · exact C157_copy u f
  · rename_i m _
    rw [C157_copy]
    cases hc : copy f with
    | error _ => rfl
    | ok g =>
      have hwg : Wf g.data := by rw [mk_data hw hc]; exact hw
      simp only [Except.map, bind, Except.bind]
      rw [sort_fields h g hwg]
      cases sort g with
      | error _ => rfl
      | ok g =>
        simp only [Except.map]
        rw [superscaled_units h]
        cases superscaledInfo g m ("X", "Y") with
        | error _ => rfl
        | ok i =>
          simp only [Except.map]
          rw [show (inUnits u i).shape = i.shape from rfl, size_fields]
          by_cases hs : Flow.size g.data ≠ i.shape.2 / m * (i.shape.1 / m)
          · rw [if_pos hs, if_pos hs]
          rw [if_neg hs, if_neg hs]
          have hfine : ((u.flow g).data.map fun lc => (lc.1, if lc.1 = "Y" then (inUnits u i).ys else if lc.1 = "X" then (inUnits u i).xs else finerCol (i.shape.1 / m) (i.shape.2 / m) m lc.2)) =
              rec u (g.data.map fun lc => (lc.1, if lc.1 = "Y" then i.ys else if lc.1 = "X" then i.xs else finerCol (i.shape.1 / m) (i.shape.2 / m) m lc.2)) := by
            unfold rec FieldUnits.flow
            rw [List.map_map, List.map_map]
            refine List.map_congr_left fun c _ => ?_
            simp only [Function.comp]
            refine congrArg (Prod.mk c.1) ?_
            by_cases hy : c.1 = "Y"
            · rw [if_pos hy, if_pos hy, hy, ys_units]
            rw [if_neg hy, if_neg hy]
            by_cases hx : c.1 = "X"
            · rw [if_pos hx, if_pos hx, hx, xs_units]
            rw [if_neg hx, if_neg hx, map_plain hx hy, finer_factor, map_plain hx hy]
          rw [hfine, onGrid_units h _ _ _ _ ws hn hws]
          generalize supersampleOnGrid i.shape.1 i.shape.2 m _ ("X", "Y") ws = q
          cases q with
          | error _ => rfl
          | ok d => exact mk_units (dict_units d i)

/-! ### A case -/

/-- Five bins in a row, 1 nm wide. -/
def bigMap : Flow :=
  ⟨[("X", [0, 1, 2, 3, 4]), ("Y", [0, 0, 0, 0, 0]), ("U", [1, 2, 3, 3, 3]), ("M", [1, 1, 1, 3, 1])], { shape := some (5, 1), origin := some (0, 0), spacing := some (1, 1), numBins := some 5 }⟩

/-- In ångström from another corner, the flow in a hundredth of its unit, masses in a fifth of theirs. -/
def bigUnits : FieldUnits := { factor := fun l => if l = "U" then 100 else if l = "M" then 5 else 10, x0 := 3, y0 := 0 }

/-- Masses as weights of the flow: combining and splitting the bins of a map in nanometres and in ångström. -/
example : Wf bigMap.data ∧ bigUnits.Valid ∧ ([("U", "M")].map Prod.fst).Nodup ∧
    (∀ p ∈ [("U", "M")], p.1 ≠ "X" ∧ p.1 ≠ "Y" ∧ p.2 ≠ "X" ∧ p.2 ≠ "Y" ∧ ∀ q ∈ [("U", "M")], q.1 ≠ p.2) := by
  exact ⟨⟨by decide +kernel, by decide +kernel⟩, fun l => by unfold bigUnits; simp only; split_ifs <;> norm_num, by decide, by decide⟩

example : (downsample bigMap (2, 1) ("X", "Y") [("U", "M")] (none, some (7 / 2)) (none, none)).map (fun f => (f.data, f.info.spacing, f.info.origin)) =
      .ok ([("X", [1 / 2, 5 / 2]), ("Y", [0, 0]), ("U", [3 / 2, 3]), ("M", [2, 4])], some (2, 1), some (1 / 2, 0)) ∧
    (downsample (bigUnits.flow bigMap) (2, 1) ("X", "Y") [("U", "M")] (none, some 38) (none, none)).map (fun f => (f.data, f.info.spacing, f.info.origin)) =
      .ok ([("X", [8, 28]), ("Y", [0, 0]), ("U", [150, 300]), ("M", [10, 20])], some (20, 10), some (8, 0)) := by
  refine ⟨?_, ?_⟩ <;> decide +kernel

example : (supersample bigMap (some 2) ("X", "Y") [("U", "M")]).map (fun f => (col? f.data "U", f.info.spacing)) =
      .ok (some [1, 4 / 3, 5 / 3, 7 / 3, 8 / 3, 3, 3, 3, 3, 3, 1, 4 / 3, 5 / 3, 7 / 3, 8 / 3, 3, 3, 3, 3, 3], some (1 / 2, 1 / 2)) ∧
    (supersample (bigUnits.flow bigMap) (some 2) ("X", "Y") [("U", "M")]).map (fun f => f.info.spacing) = .ok (some (5, 5)) := by
  refine ⟨?_, ?_⟩ <;> decide +kernel

end Strata.Resample
