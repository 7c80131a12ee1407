import Verif.Spec.SampleSeries
import Verif.Props.SampleAngle
import Verif.Props.Flow
import Verif.Proofs.Resample
/-!
# Lemmas on sampled series
-/
namespace Strata.SampleSeries
open Strata Strata.Flow Strata.Average Strata.Sample Finset

theorem omapM (l : List (Option ℚ)) : l.mapM id = if none ∈ l then none else some (l.map fun v => v.getD 0) := by
  induction l with
  | nil => rfl
  | cons a l ih =>
    rw [List.mapM_cons, ih]
    cases a with
    | none => simp
    | some a =>
      by_cases h : none ∈ l
      · simp [h]
      · simp [h]

theorem mean_perm {l l' : List (Option ℚ)} (h : l.Perm l') : mean l = mean l' := by
  unfold mean
  rw [omapM, omapM]
  by_cases hn : none ∈ l
  · rw [if_pos hn, if_pos (h.mem_iff.mp hn)]
  · rw [if_neg hn, if_neg (fun c => hn (h.mem_iff.mpr c))]
    simp only [Option.bind_some, List.map_eq_nil_iff, List.length_map]
    rw [(h.map _).sum_eq, h.length_eq]
    by_cases hl : l = []
    · subst hl; rw [List.nil_perm.mp h]
    · rw [if_neg hl, if_neg (fun c => hl (by subst c; exact List.perm_nil.mp h))]

theorem var_perm {l l' : List (Option ℚ)} (h : l.Perm l') : var l = var l' := by
  unfold var
  rw [mean_perm h]
  congr 1
  funext m
  exact mean_perm (h.map _)

theorem sum_perm {l l' : List (Option ℚ)} (h : l.Perm l') : sum l = sum l' := by
  unfold SampleSeries.sum
  rw [omapM, omapM]
  by_cases hn : none ∈ l
  · rw [if_pos hn, if_pos (h.mem_iff.mp hn)]
  · rw [if_neg hn, if_neg (fun c => hn (h.mem_iff.mpr c)), Option.map_some, Option.map_some, (h.map _).sum_eq]

theorem mapM_some (l : List ℚ) : (l.map some).mapM id = some l := by
  rw [omapM, if_neg (by simp), List.map_map]
  simp

theorem mean_some (l : List ℚ) : mean (l.map some) = if l = [] then none else some (l.sum / (l.length : ℚ)) := by
  unfold mean
  rw [mapM_some]
  rfl

theorem var_some (l : List ℚ) : var (l.map some) = if l = [] then none else
    some ((l.map fun v => (v - l.sum / (l.length : ℚ)) ^ 2).sum / (l.length : ℚ)) := by
  unfold var
  rw [mean_some]
  by_cases hl : l = []
  · rw [if_pos hl, if_pos hl]; rfl
  · rw [if_neg hl, if_neg hl, Option.bind_some]
    have : ((l.map some).map fun v : Option ℚ => v.map fun v => (v - l.sum / (l.length : ℚ)) ^ 2) =
        (l.map fun v => (v - l.sum / (l.length : ℚ)) ^ 2).map some := by
      rw [List.map_map, List.map_map]
      rfl
    rw [this, mean_some, if_neg (by simpa using hl), List.length_map]

theorem filter_sum (n : ℕ) (p : ℕ → Bool) (q : ℕ → ℚ) :
    (((List.range n).filter p).map q).sum = ∑ t ∈ (range n).filter (fun t => p t = true), q t := by
  rw [sum_filter, ← list_sum_range]
  induction List.range n with
  | nil => rfl
  | cons a l ih =>
    rw [List.filter_cons]
    by_cases h : p a = true
    · rw [if_pos h, List.map_cons, List.map_cons, List.sum_cons, List.sum_cons, ih, if_pos h]
    · rw [if_neg h, List.map_cons, List.sum_cons, ih, if_neg h, zero_add]

theorem filter_card (n : ℕ) (p : ℕ → Bool) : ((List.range n).filter p).length = #((range n).filter fun t => p t = true) := by
  show _ = ((List.range n).filter fun t => decide (p t = true)).length
  simp

theorem statistics_eq (o : Opts) (n : ℕ) (p : ℕ → Bool) (vs : List (Option ℚ)) (q : ℕ → ℚ) (h : ∀ t, t < n → vs.getD t none = some (q t)) :
    statistics o ((List.range n).filter p) vs = stats o.sum ((range n).filter fun t => p t = true) q := by
  have e : (((List.range n).filter p).map fun t => vs.getD t none) = (((List.range n).filter p).map q).map some := by
    rw [List.map_map]
    refine List.map_congr_left fun t ht => ?_
    exact h t (List.mem_range.mp (List.mem_filter.mp ht).1)
  unfold statistics stats
  simp only
  rw [e]
  cases o.sum with
  | true =>
    simp only [if_true]
    unfold SampleSeries.sum
    rw [mapM_some, Option.map_some, filter_sum]
  | false =>
    simp only [Bool.false_eq_true, if_false]
    rw [mean_some, var_some, filter_sum, List.length_map, filter_card, List.map_map]
    have he : ((List.range n).filter p).map q = [] ↔ (range n).filter (fun t => p t = true) = ∅ := by
      rw [List.map_eq_nil_iff, ← List.length_eq_zero_iff, filter_card, card_eq_zero]
    by_cases hc : (range n).filter (fun t => p t = true) = ∅
    · rw [if_pos (he.mpr hc), if_pos (he.mpr hc), if_pos hc]
    · rw [if_neg (fun c => hc (he.mp c)), if_neg (fun c => hc (he.mp c)), if_neg hc]
      congr 3
      have := filter_sum n p ((fun v => (v - (∑ t ∈ (range n).filter (fun t => p t = true), q t) / (#((range n).filter fun t => p t = true) : ℚ)) ^ 2) ∘ q)
      rw [this]
      rfl

/-! ## Reordering -/

theorem npMax_perm {l l' : List ℚ} (h : l.Perm l') : npMax l = npMax l' := by
  cases l with
  | nil => rw [List.nil_perm.mp h]
  | cons a l =>
    obtain ⟨m, hm⟩ := npMax_exists (l := a :: l) (by simp)
    rw [hm]
    rw [npMax_ok_iff] at hm
    exact ((npMax_ok_iff _ _).mpr ⟨h.mem_iff.mp hm.1, fun x hx => hm.2 x (h.mem_iff.mpr hx)⟩).symm

theorem npMin_perm {l l' : List ℚ} (h : l.Perm l') : npMin l = npMin l' := by
  cases l with
  | nil => rw [List.nil_perm.mp h]
  | cons a l =>
    obtain ⟨m, hm⟩ := npMin_exists (l := a :: l) (by simp)
    rw [hm]
    rw [npMin_ok_iff] at hm
    exact ((npMin_ok_iff _ _).mpr ⟨h.mem_iff.mp hm.1, fun x hx => hm.2 x (h.mem_iff.mpr hx)⟩).symm

theorem pick_perm {idx : List ℕ} {c : List ℚ} (h : idx.Perm (List.range c.length)) : (pick idx c).Perm c := by
  unfold pick
  have := h.map fun i => c.getD i 0
  rwa [← Simple.eq_map_getD c] at this

theorem cutoffOf_pick {idx : List ℕ} {c : List ℚ} (h : idx.Perm (List.range c.length)) (x : Option ℚ) : cutoffOf (pick idx c) x = cutoffOf c x := by
  cases x with
  | some x => rfl
  | none =>
    unfold cutoffOf
    simp only
    rw [npMax_perm (pick_perm h), npMin_perm (pick_perm h)]

theorem getD_pick {idx : List ℕ} {c : List ℚ} {s : ℕ} (hs : s < idx.length) : (pick idx c).getD s 0 = c.getD (idx.getD s 0) 0 := by
  unfold pick
  rw [List.getD_eq_getElem?_getD, List.getElem?_eq_getElem (by rw [List.length_map]; exact hs), Option.getD_some, List.getElem_map,
    List.getD_eq_getElem?_getD (l := idx), List.getElem?_eq_getElem hs, Option.getD_some]

/-- Selecting from reordered data and evaluating is, up to order, selecting from the data and evaluating. -/
theorem select_perm {β : Type} {n : ℕ} {idx : List ℕ} (h : idx.Perm (List.range n)) (p : ℕ → Bool) (q : ℕ → β) :
    (((List.range n).filter fun s => p (idx.getD s 0)).map fun s => q (idx.getD s 0)).Perm (((List.range n).filter p).map q) := by
  have hlen : idx.length = n := by simpa using h.length_eq
  have e : (List.range n).map (fun s => idx.getD s 0) = idx := by
    conv_rhs => rw [← List.map_id idx]
    refine List.ext_getElem (by simp [hlen]) ?_
    intro i h1 h2
    simp only [List.getElem_map, List.getElem_range]
    rw [List.getD_eq_getElem?_getD, List.getElem?_eq_getElem (by rw [hlen]; simpa using h1), Option.getD_some]
    rfl
  have : (((List.range n).filter fun s => p (idx.getD s 0)).map fun s => q (idx.getD s 0)) = (idx.filter p).map q := by
    conv_rhs => rw [← e]
    rw [List.filter_map, List.map_map]
    rfl
  rw [this]
  exact (h.filter p).map q

/-- The reordered flow. -/
def reordered (idx : List ℕ) (f : Flow) : Flow := ⟨gather idx f.data, f.info⟩

variable {f : Flow} {idx : List ℕ}

theorem field_reordered (l : Label) : field (reordered idx f).data l = (field f.data l).map (pick idx) := by
  unfold field reordered
  simp only
  rw [col?_gather]
  cases col? f.data l <;> rfl

theorem size_reordered (hne : f.data ≠ []) (h : idx.Perm (List.range (Flow.size f.data))) : Flow.size (reordered idx f).data = Flow.size f.data := by
  unfold reordered
  rw [size_gather _ _ hne]
  simpa using h.length_eq

/-- The rows chosen are the same up to the order. -/
theorem rows_reordered (o : Opts) (hw : Wf f.data) (hne : f.data ≠ []) (h : idx.Perm (List.range (Flow.size f.data))) :
    (∃ e, rows o f = .error e ∧ rows o (reordered idx f) = .error e) ∨
    ∃ p : ℕ → Bool, rows o f = .ok ((List.range (Flow.size f.data)).filter p) ∧
      rows o (reordered idx f) = .ok ((List.range (Flow.size f.data)).filter fun s => p (idx.getD s 0)) := by
  have hlen : idx.length = Flow.size f.data := by simpa using h.length_eq
  cases hl : o.cutoffLabel with
  | none =>
    right
    refine ⟨fun _ => true, by unfold rows; rw [hl]; simp, ?_⟩
    unfold rows
    rw [hl]
    simp only
    rw [size_reordered hne h]
    simp
  | some l =>
    have e1 : rows o f = field f.data l >>= fun c => cutoffOf c o.cutoff >>= fun x => .ok (whereIdx (fun v => decide (x ≤ v)) c) := by
      unfold rows; rw [hl]
    have e2 : rows o (reordered idx f) = (field f.data l).map (pick idx) >>= fun c => cutoffOf c o.cutoff >>= fun x => .ok (whereIdx (fun v => decide (x ≤ v)) c) := by
      unfold rows; rw [hl]; simp only; rw [field_reordered]
    rw [e1, e2]
    unfold field
    cases hc : col? f.data l with
    | none => exact .inl ⟨_, rfl, rfl⟩
    | some c =>
      have hl := col?_length hw hc
      simp only [Except.map]
      rw [Gmx.ok_bind, Gmx.ok_bind, cutoffOf_pick (by rw [hl]; exact h)]
      cases cutoffOf c o.cutoff with
      | error e => exact .inl ⟨e, rfl, rfl⟩
      | ok x =>
        right
        refine ⟨fun t => decide (x ≤ c.getD t 0), ?_, ?_⟩
        · rw [Gmx.ok_bind]
          unfold whereIdx
          rw [hl]
        · rw [Gmx.ok_bind]
          unfold whereIdx
          have : (pick idx c).length = Flow.size f.data := by unfold pick; rw [List.length_map, hlen]
          rw [this]
          congr 1
          refine List.filter_congr fun t ht => ?_
          rw [getD_pick (by rw [hlen]; exact List.mem_range.mp ht)]

/-- Statistics do not depend on the order. -/
theorem statistics_reordered (o : Opts) {n : ℕ} (h : idx.Perm (List.range n)) (p : ℕ → Bool) (vs ws : List (Option ℚ))
    (hv : ∀ s, s < n → ws.getD s none = vs.getD (idx.getD s 0) none) :
    statistics o ((List.range n).filter fun s => p (idx.getD s 0)) ws = statistics o ((List.range n).filter p) vs := by
  have hp := select_perm h p fun t => vs.getD t none
  have e : (((List.range n).filter fun s => p (idx.getD s 0)).map fun t => ws.getD t none) =
      (((List.range n).filter fun s => p (idx.getD s 0)).map fun s => vs.getD (idx.getD s 0) none) :=
    List.map_congr_left fun s hs => hv s (List.mem_range.mp (List.mem_filter.mp hs).1)
  unfold statistics
  simp only
  rw [e, mean_perm hp, var_perm hp, sum_perm hp]

theorem mk_three (a b c : List ℚ) (n : ℕ) (ha : a.length = n) (hb : b.length = n) (hc : c.length = n) :
    Flow.mk (asArgs [("U", a), ("V", b), ("M", c)]) [] = .ok ⟨[("U", a), ("V", b), ("M", c)], {}⟩ := by
  have : Flow.setData (asArgs [("U", a), ("V", b), ("M", c)]) = .ok [("U", a), ("V", b), ("M", c)] := by
    unfold setData asArgs
    simp only [List.map_cons, List.map_nil, collate]
    simp only [bind, Except.bind]
    rw [if_pos (by simp)]
    simp [List.mapM_cons, assign, ha, hb, hc, bind, Except.bind, pure, Except.pure]
  unfold Flow.mk
  rw [this]
  rfl

theorem wf_three (a b c : List ℚ) (n : ℕ) (ha : a.length = n) (hb : b.length = n) (hc : c.length = n) :
    Wf [("U", a), ("V", b), ("M", c)] := by
  refine ⟨by simp [names], ?_⟩
  intro d hd
  simp only [List.mem_cons, List.not_mem_nil, or_false] at hd
  rcases hd with rfl | rfl | rfl <;> simp [Flow.size, ha, hb, hc]

theorem angleOf_eq (hw : Wf f.data) (hu : "U" ∈ names f.data) (hv : "V" ∈ names f.data) (hm : "M" ∈ names f.data) (sel : List ℕ) :
    angleOf f sel = .ok (.angle (degrees (arctan2 (sel.map fun t => val f.data "V" t * val f.data "M" t).sum
      (sel.map fun t => val f.data "U" t * val f.data "M" t).sum))) := by
  obtain ⟨u, hu1, hu2⟩ := Sample.field_ok hu
  obtain ⟨v, hv1, hv2⟩ := Sample.field_ok hv
  obtain ⟨m, hm1, hm2⟩ := Sample.field_ok hm
  have hl : ∀ c : List ℚ, (pick sel c).length = sel.length := fun c => by unfold pick; rw [List.length_map]
  unfold angleOf
  rw [hu2, Gmx.ok_bind, hv2, Gmx.ok_bind, hm2, Gmx.ok_bind, mk_three _ _ _ sel.length (hl u) (hl v) (hl m), Gmx.ok_bind,
    flowAngle_mean _ "U" "V" (wf_three _ _ _ sel.length (hl u) (hl v) (hl m)) (by simp [names]) (by simp [names]) (some "M") (by
      intro w hw; cases hw; exact ⟨by simp [names], by decide⟩), Gmx.ok_bind]
  simp only [Option.elim_some]
  have key : ∀ (l : Label) (c : List ℚ), col? f.data l = some c → col? [("U", pick sel u), ("V", pick sel v), ("M", pick sel m)] l = some (pick sel c) →
      ∑ t ∈ range (Flow.size [("U", pick sel u), ("V", pick sel v), ("M", pick sel m)]), val [("U", pick sel u), ("V", pick sel v), ("M", pick sel m)] l t *
        val [("U", pick sel u), ("V", pick sel v), ("M", pick sel m)] "M" t = (sel.map fun t => val f.data l t * val f.data "M" t).sum := by
    intro l c hc hc'
    have hs : Flow.size [("U", pick sel u), ("V", pick sel v), ("M", pick sel m)] = sel.length := hl u
    rw [hs, ← list_sum_range]
    congr 1
    refine List.ext_getElem (by simp) ?_
    intro i h1 h2
    have hi : i < sel.length := by simpa using h1
    simp only [List.getElem_map, List.getElem_range]
    rw [val_of_col hc', val_of_col (c := pick sel m) (l := "M") (by rfl), getD_pick hi, getD_pick hi, val_of_col hc, val_of_col hm1]
    rw [List.getD_eq_getElem?_getD (l := sel), List.getElem?_eq_getElem hi, Option.getD_some]
  rw [key "V" v hv1 rfl, key "U" u hu1 rfl]

/-- Every sample except the slip length is independent of the order of the bins. -/
theorem sampleLabel_reordered (o : Opts) (hw : Wf f.data) (hF : ∀ l ∈ fields, l ∈ names f.data) (h : idx.Perm (List.range (Flow.size f.data)))
    (l : Label) (hl : l ≠ "slip_length") :
    (sampleLabel o (reordered idx f) l).map Prod.snd = (sampleLabel o f l).map Prod.snd := by
  have hX := hF "X" (by decide)
  have hne : f.data ≠ [] := by rintro e; rw [e] at hX; simp [names] at hX
  have hlen : idx.length = Flow.size f.data := by simpa using h.length_eq
  unfold sampleLabel
  rw [if_neg hl, if_neg hl]
  unfold sampleValue
  have hval : ∀ l s, s < Flow.size f.data → val (reordered idx f).data l s = val f.data l (idx.getD s 0) := by
    intro l s hs
    unfold reordered
    rw [Resample.val_gather hw _ _ _ (by rw [hlen]; exact hs), List.getD_eq_getElem?_getD, List.getElem?_eq_getElem (by rw [hlen]; exact hs), Option.getD_some]
  have hwr : Wf (reordered idx f).data := wf_gather _ hw
  have hnr : names (reordered idx f).data = names f.data := names_gather _ _
  by_cases ha : l = "flow_angle"
  · rw [if_pos ha, if_pos ha]
    rcases rows_reordered o hw hne h with ⟨e, e1, e2⟩ | ⟨p, e1, e2⟩
    · rw [e1, e2]; rfl
    · rw [e1, e2, Gmx.ok_bind, Gmx.ok_bind]
      cases o.sum with
      | true => rfl
      | false =>
        simp only [Bool.false_eq_true, if_false]
        rw [angleOf_eq hw (hF _ (by decide)) (hF _ (by decide)) (hF _ (by decide)),
          angleOf_eq hwr (by rw [hnr]; exact hF _ (by decide)) (by rw [hnr]; exact hF _ (by decide)) (by rw [hnr]; exact hF _ (by decide))]
        have key : ∀ l, ((((List.range (Flow.size f.data)).filter fun s => p (idx.getD s 0)).map fun t => val (reordered idx f).data l t * val (reordered idx f).data "M" t).sum) =
            (((List.range (Flow.size f.data)).filter p).map fun t => val f.data l t * val f.data "M" t).sum := by
          intro l
          rw [← (select_perm h p fun t => val f.data l t * val f.data "M" t).sum_eq]
          congr 1
          refine List.map_congr_left fun s hs => ?_
          have hs' := List.mem_range.mp (List.mem_filter.mp hs).1
          rw [hval l s hs', hval "M" s hs']
        rw [key "V", key "U"]
        rfl
  · rw [if_neg ha, if_neg ha]
    by_cases hv : l = "visc_diss"
    · have : viscousDissipation (reordered idx f) o.viscosity = viscousDissipation f o.viscosity := by
        have hs : sort (reordered idx f) ("X", "Y") = sort f ("X", "Y") := by
          refine C15_sort_canonical _ _ hwr hw hnr rfl (by rw [hnr]; exact hX) (by rw [hnr]; exact hF _ (by decide)) ?_
          unfold reordered
          rw [bins_gather _ hne]
          exact h.map _
        unfold viscousDissipation
        rw [hs]
        rfl
      have e : ∀ g : Flow, sampleData o g l = viscousDissipation g o.viscosity := by
        intro g; unfold sampleData; rw [if_neg (by rw [hv]; decide), if_pos hv]
      rw [e, e, this]
    · have key : (∃ e, sampleData o f l = .error e ∧ sampleData o (reordered idx f) l = .error e) ∨
          ∃ vs ws, sampleData o f l = .ok (f, vs) ∧ sampleData o (reordered idx f) l = .ok (reordered idx f, ws) ∧
            ∀ s, s < Flow.size f.data → ws.getD s none = vs.getD (idx.getD s 0) none := by
        have hlt : ∀ s, s < Flow.size f.data → idx.getD s 0 < Flow.size f.data := by
          intro s hs
          rw [List.getD_eq_getElem?_getD, List.getElem?_eq_getElem (by rw [hlen]; exact hs), Option.getD_some]
          exact List.mem_range.mp (h.mem_iff.mp (List.getElem_mem _))
        have gm : ∀ (c : List ℚ) (s : ℕ), s < c.length → (c.map some).getD s none = some (c.getD s 0) := by
          intro c s hs
          rw [List.getD_eq_getElem?_getD, List.getElem?_eq_getElem (by rw [List.length_map]; exact hs), Option.getD_some, List.getElem_map,
            List.getD_eq_getElem?_getD, List.getElem?_eq_getElem hs, Option.getD_some]
        unfold sampleData
        by_cases hi : l = "inertial_energy"
        · rw [if_pos hi, if_pos hi]
          obtain ⟨e1, h1, h2, h3⟩ := C41_inertial_energy f "M" "U" "V" hw (hF _ (by decide)) (hF _ (by decide)) (hF _ (by decide))
          obtain ⟨e2, h4, h5, h6⟩ := C41_inertial_energy (reordered idx f) "M" "U" "V" hwr (by rw [hnr]; exact hF _ (by decide)) (by rw [hnr]; exact hF _ (by decide)) (by rw [hnr]; exact hF _ (by decide))
          right
          refine ⟨_, _, by rw [h1]; rfl, by rw [h4]; rfl, ?_⟩
          intro s hs
          rw [size_reordered hne h] at h5 h6
          rw [gm _ _ (by rw [h5]; exact hs), gm _ _ (by rw [h2]; exact hlt s hs), (h6 s hs).1, (h3 _ (hlt s hs)).1, hval _ s hs, hval _ s hs, hval _ s hs]
        · rw [if_neg hi, if_neg hi, if_neg hv, if_neg hv, field_reordered]
          unfold field
          cases hc : col? f.data l with
          | none => exact .inl ⟨_, rfl, rfl⟩
          | some c =>
            right
            refine ⟨_, _, rfl, rfl, ?_⟩
            intro s hs
            have hcl := col?_length hw hc
            rw [gm _ _ (by unfold pick; rw [List.length_map, hlen]; exact hs), gm _ _ (by rw [hcl]; exact hlt s hs), getD_pick (by rw [hlen]; exact hs)]
      rcases key with ⟨e, e1, e2⟩ | ⟨vs, ws, e1, e2, hvw⟩
      · rw [e1, e2]
      · rw [e1, e2, Gmx.ok_bind, Gmx.ok_bind]
        simp only
        rcases rows_reordered o hw hne h with ⟨e, e3, e4⟩ | ⟨p, e3, e4⟩
        · rw [e3, e4]; rfl
        · rw [e3, e4, Gmx.ok_bind, Gmx.ok_bind, statistics_reordered o h p vs ws hvw]
          try rfl

/-- The flow object after sampling a label: the same, or sorted. -/
theorem sampleLabel_flow (o : Opts) {g : Flow} {v : Value} {l : Label} (he : sampleLabel o f l = .ok (g, v)) :
    g = f ∨ (l = "visc_diss" ∧ sort f ("X", "Y") = .ok g) := by
  unfold sampleLabel at he
  split at he
  · obtain ⟨w, _, he⟩ := Simple.bind_eq_ok he
    cases he; exact .inl rfl
  · unfold sampleValue at he
    split at he
    · obtain ⟨w, _, he⟩ := Simple.bind_eq_ok he
      split at he
      · cases he
      · obtain ⟨w, _, he⟩ := Simple.bind_eq_ok he
        cases he; exact .inl rfl
    · obtain ⟨⟨g', vs⟩, hd, he⟩ := Simple.bind_eq_ok he
      simp only at he
      obtain ⟨w, _, he⟩ := Simple.bind_eq_ok he
      cases he
      unfold sampleData at hd
      split at hd
      · obtain ⟨w, _, hd⟩ := Simple.bind_eq_ok hd
        cases hd; exact .inl rfl
      · split at hd
        · rename_i hv
          right
          refine ⟨hv, ?_⟩
          unfold viscousDissipation at hd
          split at hd
          · obtain ⟨s, hs, hd⟩ := Simple.bind_eq_ok hd
            split at hd
            · cases hd
            · obtain ⟨w, _, hd⟩ := Simple.bind_eq_ok hd
              obtain ⟨w, _, hd⟩ := Simple.bind_eq_ok hd
              obtain ⟨w, _, hd⟩ := Simple.bind_eq_ok hd
              split at hd
              · cases hd
              · cases hd; exact hs
          · cases hd
        · obtain ⟨w, _, hd⟩ := Simple.bind_eq_ok hd
          cases hd; exact .inl rfl

theorem sort_reordered (hX : "X" ∈ names f.data) (hY : "Y" ∈ names f.data) :
    sort f ("X", "Y") = .ok (reordered (argsort f.data ["Y", "X"]) f) := by
  unfold Flow.sort sortRecord
  rw [if_pos (by simp [hX, hY])]
  rfl

theorem sort_of_reordered (hw : Wf f.data) (hX : "X" ∈ names f.data) (hY : "Y" ∈ names f.data) (h : idx.Perm (List.range (Flow.size f.data))) :
    sort (reordered idx f) ("X", "Y") = sort f ("X", "Y") := by
  have hne : f.data ≠ [] := by rintro e; rw [e] at hX; simp [names] at hX
  have hnr : names (reordered idx f).data = names f.data := names_gather _ _
  refine C15_sort_canonical _ _ (wf_gather _ hw) hw hnr rfl (by rw [hnr]; exact hX) (by rw [hnr]; exact hY) ?_
  unfold reordered
  rw [bins_gather _ hne]
  exact h.map _

theorem sampleLabels_cons (o : Opts) (g : Flow) (l : Label) (ls : List Label) :
    sampleLabels o g (l :: ls) = sampleLabel o g l >>= fun r => sampleLabels o r.1 ls >>= fun vs => .ok (r.2 :: vs) := rfl

theorem sampleLabels_reordered (o : Opts) (hw : Wf f.data) (hF : ∀ l ∈ fields, l ∈ names f.data) : ∀ (ls : List Label) (idx : List ℕ),
    idx.Perm (List.range (Flow.size f.data)) → "slip_length" ∉ ls →
    sampleLabels o (reordered idx f) ls = ls.mapM fun l => (sampleLabel o f l).map Prod.snd := by
  intro ls
  induction ls with
  | nil => intros; rfl
  | cons l ls ih =>
    intro idx h hs
    rw [List.mem_cons, not_or] at hs
    have hX := hF "X" (by decide)
    have hY := hF "Y" (by decide)
    have e := sampleLabel_reordered o hw hF h l (fun e => hs.1 e.symm)
    rw [sampleLabels_cons, List.mapM_cons, ← e]
    cases hr : sampleLabel o (reordered idx f) l with
    | error e => rfl
    | ok r =>
      obtain ⟨g, v⟩ := r
      have hg : ∃ idx', idx'.Perm (List.range (Flow.size f.data)) ∧ g = reordered idx' f := by
        rcases sampleLabel_flow o hr with rfl | ⟨-, hsg⟩
        · exact ⟨idx, h, rfl⟩
        · rw [sort_of_reordered hw hX hY h, sort_reordered hX hY] at hsg
          cases hsg
          exact ⟨_, argsort_perm _ _, rfl⟩
      obtain ⟨idx', h', rfl⟩ := hg
      rw [Gmx.ok_bind]
      simp only
      rw [ih idx' h' hs.2]
      rfl

end Strata.SampleSeries
