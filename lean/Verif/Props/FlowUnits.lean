import Verif.Props.SampleUnits
import Verif.Props.InterfaceUnits
/-!
# C157: selections, translation and sizes of maps in other units
-/
namespace Strata.Flow
open Strata Strata.Average Strata.Sample

variable {u : FieldUnits}

/-- The fields of a record in the new units. -/
theorem flow_data (d : Record) (i : Info) : (u.flow ⟨d, i⟩).data = d.map fun c => (c.1, c.2.map (u.value c.1)) := rfl

theorem assign_units (n : ℕ) (c : List ℚ) (g : ℚ → ℚ) : assign n (c.map g) = (assign n c).map fun r => r.map g := by
  unfold assign
  rw [List.length_map]
  by_cases hl : c.length = n
  · rw [if_pos hl, if_pos hl]; rfl
  · rw [if_neg hl, if_neg hl]
    match c with
    | [] => rfl
    | [v] =>
      show Except.ok (List.replicate n (g v)) = Except.ok ((List.replicate n v).map g)
      rw [List.map_replicate]
    | _ :: _ :: _ => rfl

theorem setData_units (d : Record) : setData (asArgs (d.map fun c => (c.1, c.2.map (u.value c.1)))) = (setData (asArgs d)).map fun r => r.map fun c => (c.1, c.2.map (u.value c.1)) := by
  unfold setData
  rw [collate_asArgs, collate_asArgs]
  cases d with
  | nil => rfl
  | cons c d =>
    simp only [bind, Except.bind, List.map_cons]
    have hn : (c.1 :: (d.map fun c => (c.1, c.2.map (u.value c.1))).map Prod.fst) = c.1 :: d.map Prod.fst := by
      rw [List.map_map]; rfl
    rw [hn]
    by_cases hnd : (c.1 :: d.map Prod.fst).Nodup
    · rw [if_pos hnd, if_pos hnd, ← List.map_cons (f := fun c : Label × List ℚ => (c.1, c.2.map (u.value c.1))), List.length_map]
      generalize c.2.length = n
      generalize c :: d = e
      induction e with
      | nil => rfl
      | cons c e ih =>
        rw [List.map_cons, List.mapM_cons, List.mapM_cons, ih, assign_units]
        cases assign n c.2 with
        | error _ => rfl
        | ok r =>
          simp only [Except.map, bind, Except.bind, pure, Except.pure]
          generalize List.mapM (m := Except Err) _ e = q
          cases q <;> rfl
    · rw [if_neg hnd, if_neg hnd]; rfl

/-- The information in the new units. -/
theorem mk_units {d : Record} {e e' : InfoDict} (he : setInfo e' = (setInfo e).map fun i => (u.flow ⟨d, i⟩).info) :
    mk (asArgs (d.map fun c => (c.1, c.2.map (u.value c.1)))) e' = (mk (asArgs d) e).map u.flow := by
  unfold mk
  rw [setData_units, he]
  cases setData (asArgs d) with
  | error _ => rfl
  | ok r => cases setInfo e <;> rfl

/-- **C157, copies.** The copy of a map in other units is its copy in these units. -/
theorem C157_copy (u : FieldUnits) (f : Flow) : copy (u.flow f) = (copy f).map u.flow := by
  unfold copy
  refine mk_units ?_
  obtain ⟨d, ⟨s, o, p, n⟩⟩ := f
  cases s <;> cases o <;> cases p <;> cases n <;> rfl

theorem gather_units (f : Flow) (hw : Wf f.data) (idx : List ℕ) (hi : ∀ i ∈ idx, i < size f.data) :
    gather idx (u.flow f).data = (gather idx f.data).map fun c => (c.1, c.2.map (u.value c.1)) := by
  unfold gather FieldUnits.flow
  rw [List.map_map, List.map_map]
  refine List.map_congr_left fun c hc => ?_
  simp only [Function.comp]
  congr 1
  unfold pick
  rw [List.map_map]
  exact List.map_congr_left fun i h => getD_value (by rw [hw.2 c hc]; exact hi i h) _

theorem inLims_units (h : u.Valid) (l : Label) (lo hi : Option ℚ) (v : ℚ) : inLims (lo.map (u.value l)) (hi.map (u.value l)) (u.value l v) = inLims lo hi v := by
  unfold inLims
  cases lo <;> cases hi <;> simp [value_le h]

theorem whereIdx_units (h : u.Valid) (l : Label) (lo hi : Option ℚ) (c : List ℚ) :
    whereIdx (inLims (lo.map (u.value l)) (hi.map (u.value l))) (c.map (u.value l)) = whereIdx (inLims lo hi) c := by
  unfold whereIdx
  rw [List.length_map]
  refine List.filter_congr fun i hi' => ?_
  rw [getD_value (List.mem_range.mp hi'), inLims_units h]

theorem size_map (d : Record) : size (d.map fun c => (c.1, c.2.map (u.value c.1))) = size d := size_fields (u := u) ⟨d, {}⟩

/-- **C157, selections.** Selecting by the limits of a field, in its new unit, selects the same bins. -/
theorem C157_lims (u : FieldUnits) (h : u.Valid) (f : Flow) (hw : Wf f.data) (l : Label) (lo hi : Option ℚ) :
    lims (u.flow f) l (lo.map (u.value l)) (hi.map (u.value l)) = (lims f l lo hi).map u.flow := by
  unfold lims
  rw [show col? (u.flow f).data l = (col? f.data l).map fun c => c.map (u.value l) from lookup_fields f.data l]
  cases hc : col? f.data l with
  | none => rfl
  | some c =>
    simp only [Option.map_some]
    have hlen := col?_length hw hc
    rw [whereIdx_units h, gather_units f hw _ (by
      intro i hi'
      have := List.mem_range.mp (List.mem_filter.mp hi').1
      omega), size_map]
    refine mk_units ?_
    obtain ⟨d, ⟨s, o, p, n⟩⟩ := f
    cases p <;> rfl

theorem wf_lims {f g : Flow} (hw : Wf f.data) {l : Label} {lo hi : Option ℚ} (hg : lims f l lo hi = .ok g) : Wf g.data := by
  cases hc : col? f.data l with
  | none => unfold lims at hg; rw [hc] at hg; cases hg
  | some c =>
    rw [lims_eq f hw l lo hi hc] at hg
    injection hg with hg
    subst hg
    exact wf_gather _ hw

/-- **C157, cuts.** Cutting a map by limits in the new units of the coordinates (or up to its borders) selects the same bins; the origin, spacing and shape are those of the cut map in the new units. -/
theorem C157_cut (u : FieldUnits) (h : u.Valid) (f : Flow) (hw : Wf f.data) (xlim ylim : Option ℚ × Option ℚ) :
    cut (u.flow f) (u.lims "X" xlim) (u.lims "Y" ylim) = (cut f xlim ylim).map u.flow := by
  unfold cut FieldUnits.lims
  cases ho : f.info.origin with
  | none => simp only [FieldUnits.flow, ho, Option.map_none]; rfl
  | some o =>
    cases hs : f.info.shape with
    | none => simp only [FieldUnits.flow, ho, hs, Option.map_some]; rfl
    | some n =>
      cases hp : f.info.spacing with
      | none => simp only [FieldUnits.flow, ho, hs, hp, Option.map_some, Option.map_none]; rfl
      | some p =>
        rw [show (u.flow f).info.origin = some (u.value "X" o.1, u.value "Y" o.2) from by simp only [FieldUnits.flow, ho, Option.map_some],
          show (u.flow f).info.shape = some n from hs,
          show (u.flow f).info.spacing = some (u.lengths p) from by simp only [FieldUnits.flow, hp, Option.map_some]]
        obtain ⟨ox, oy⟩ := o
        obtain ⟨nx, ny⟩ := n
        obtain ⟨dx, dy⟩ := p
        simp only [FieldUnits.lengths]
        have e1 : ∀ (l : Label) (a b : ℚ) (q : Option ℚ) (k : ℤ), some ((q.map (u.value l)).getD (u.value l a + k * (u.factor l * b))) = (some (q.getD (a + k * b))).map (u.value l) := by
          intro l a b q k
          cases q with
          | none =>
            simp only [Option.map_none, Option.getD_none, Option.map_some]
            rw [value_add]
            congr 2
            ring
          | some q => rfl
        have e0 : ∀ (l : Label) (a : ℚ) (q : Option ℚ), (q.map (u.value l)).getD (u.value l a) = u.value l (q.getD a) := by
          intro l a q
          cases q <;> rfl
        rw [e0 "X" ox, e0 "Y" oy, e1 "X" ox dx, e1 "Y" oy dy]
        rw [show some (u.value "X" (xlim.1.getD ox)) = (some (xlim.1.getD ox)).map (u.value "X") from rfl,
          show some (u.value "Y" (ylim.1.getD oy)) = (some (ylim.1.getD oy)).map (u.value "Y") from rfl, C157_lims u h f hw]
        cases h1 : lims f "X" (some (xlim.1.getD ox)) (some (xlim.2.getD (ox + nx * dx))) with
        | error _ => rfl
        | ok g =>
          simp only [Except.map, bind, Except.bind]
          have hwg : Wf g.data := wf_lims hw h1
          rw [C157_lims u h g hwg]
          cases h2 : lims g "Y" (some (ylim.1.getD oy)) (some (ylim.2.getD (oy + ny * dy))) with
          | error _ => rfl
          | ok k =>
            simp only [Except.map]
            rw [show col? (u.flow k).data "X" = (col? k.data "X").map fun c => c.map (u.value "X") from lookup_fields k.data "X",
              show col? (u.flow k).data "Y" = (col? k.data "Y").map fun c => c.map (u.value "Y") from lookup_fields k.data "Y"]
            cases col? k.data "X" with
            | none => rfl
            | some xs =>
              cases col? k.data "Y" with
              | none => rfl
              | some ys =>
                simp only [Option.map_some]
                have inj : ∀ l, Function.Injective (u.value l) := fun l a b hab => (value_inj h l a b).mp hab
                rw [List.dedup_map_of_injective (inj "X"), List.dedup_map_of_injective (inj "Y"), List.length_map, List.length_map]
                rfl

/-- **C157, sizes.** The size of the box is in the units of the coordinates. -/
theorem C157_size (u : FieldUnits) (f : Flow) : boxSize (u.flow f) = (boxSize f).map u.lengths := by
  obtain ⟨d, ⟨s, o, p, n⟩⟩ := f
  unfold boxSize FieldUnits.flow FieldUnits.lengths
  cases s with
  | none => rfl
  | some s =>
    cases p with
    | none => rfl
    | some p =>
      simp only [Option.map_some]
      congr 2 <;> ring

/-- **C157, sorting.** The bins of a map in other units are sorted into the same order. -/
theorem C157_sort (u : FieldUnits) (h : u.Valid) (f : Flow) (hw : Wf f.data) : sort (u.flow f) = (sort f).map u.flow := sort_fields h f hw

theorem addTo_units (l : Label) (c : List ℚ) (s : Shift) : addTo (c.map (u.value l)) (u.shift l s) = (addTo c s).map fun r => r.map (u.value l) := by
  have e : ∀ v, (c.map (u.value l)).map (· + u.factor l * v) = (c.map (· + v)).map (u.value l) := by
    intro v
    rw [List.map_map, List.map_map]
    exact List.map_congr_left fun a _ => (value_add l a v).symm
  cases s with
  | scalar v =>
    show Except.ok _ = Except.ok _
    rw [e]
  | array vs =>
    unfold FieldUnits.shift addTo
    simp only [List.length_map]
    by_cases hl : vs.length = c.length
    · rw [if_pos hl, if_pos hl]
      show Except.ok _ = Except.ok _
      congr 1
      rw [List.zipWith_map]
      simp only [List.map_zipWith, value_add]
    · rw [if_neg hl, if_neg hl]
      match vs with
      | [] => rfl
      | [v] =>
        show Except.ok _ = Except.ok _
        rw [e]
      | _ :: _ :: _ => rfl

/-- **C157, translation.** Translating a field, by a number or by an array in its new unit, gives the translated map in the new units. -/
theorem C157_translate (u : FieldUnits) (f : Flow) (l : Label) (s : Shift) : translate (u.flow f) l (u.shift l s) = (translate f l s).map u.flow := by
  unfold translate
  rw [C157_copy]
  cases copy f with
  | error _ => rfl
  | ok g =>
    simp only [Except.map, bind, Except.bind]
    rw [show col? (u.flow g).data l = (col? g.data l).map fun c => c.map (u.value l) from lookup_fields g.data l]
    cases col? g.data l with
    | none => rfl
    | some c =>
      simp only [Option.map_some]
      rw [addTo_units]
      cases addTo c s with
      | error _ => rfl
      | ok c' =>
        show Except.ok _ = Except.ok _
        congr 1
        unfold FieldUnits.flow setCol
        simp only
        congr 1
        rw [List.map_map, List.map_map]
        refine List.map_congr_left fun e _ => ?_
        simp only [Function.comp]
        by_cases hl : e.1 = l
        · subst hl; simp
        · simp [hl]

/-! ### A case -/

/-- Two by two bins of 1 nm. -/
def smallMap : Flow :=
  ⟨[("X", [0, 1, 0, 1]), ("Y", [0, 0, 1, 1]), ("M", [1, 2, 3, 4])], { shape := some (2, 2), origin := some (0, 0), spacing := some (1, 1), numBins := some 4 }⟩

/-- In ångström, from another corner; masses in another unit. -/
def smallUnits : FieldUnits := { factor := fun l => if l = "M" then 5 else 10, x0 := 3, y0 := 0 }

example : Wf smallMap.data ∧ smallUnits.Valid := ⟨⟨by decide +kernel, by decide +kernel⟩, fun l => by unfold smallUnits; simp only; split_ifs <;> norm_num⟩

example : cut smallMap (some (1 / 2), none) (none, none) =
      .ok ⟨[("X", [1, 1]), ("Y", [0, 1]), ("M", [2, 4])], { shape := some (1, 2), origin := some (1 / 2, 0), spacing := some (1, 1), numBins := some 2 }⟩ ∧
    cut (smallUnits.flow smallMap) (some 8, none) (none, none) =
      .ok ⟨[("X", [13, 13]), ("Y", [0, 10]), ("M", [10, 20])], { shape := some (1, 2), origin := some (8, 0), spacing := some (10, 10), numBins := some 2 }⟩ := by
  refine ⟨?_, ?_⟩ <;> decide +kernel

example : translate (smallUnits.flow smallMap) "X" (.scalar 10) = (translate smallMap "X" (.scalar 1)).map smallUnits.flow ∧ boxSize (smallUnits.flow smallMap) = some (20, 20) := by
  refine ⟨?_, ?_⟩ <;> decide +kernel

end Strata.Flow
