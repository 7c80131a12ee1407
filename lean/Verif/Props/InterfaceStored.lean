import Verif.Spec.InterfaceStored
import Verif.Props.InterfaceUnits
import Verif.Proofs.InterfaceAngle
/-! # C150: the interface does not depend on how the bins are stored -/
namespace Strata.Interface
open Strata Strata.Flow

theorem liquidCell_full {s t : System} {c : ℚ} (h : (full c s).Perm (full c t)) (r : ℚ) (b : ℤ) (a : Cell) :
    LiquidCell s r c b a ↔ LiquidCell t r c b a := by
  rw [← liquidCell_filter s, ← liquidCell_filter t]
  unfold LiquidCell
  rw [show List.countP (counts r c a) (s.filter fun d => decide (d.v ≥ c)) =
    List.countP (counts r c a) (t.filter fun d => decide (d.v ≥ c)) from h.countP_eq _]

theorem liquid_exists {s : System} {r c : ℚ} {b : ℤ} {P : Cell → Prop} :
    (∃ i, Liquid s r c b i ∧ P (row s i)) ↔ ∃ a ∈ s, LiquidCell s r c b a ∧ P a := by
  constructor
  · rintro ⟨i, hi, hp⟩
    refine ⟨row s i, ?_, (liquid_iff_cell s r c b i hi.1).mp hi, hp⟩
    rw [row_eq_getElem s i hi.1]; exact List.getElem_mem hi.1
  · rintro ⟨a, ha, hl, hp⟩
    have hlt := List.idxOf_lt_length_of_mem ha
    have he : row s (indexOf a s) = a := row_indexOf ha
    refine ⟨indexOf a s, (liquid_iff_cell s r c b (indexOf a s) hlt).mpr ?_, ?_⟩
    · rw [he]; exact hl
    · rw [he]; exact hp

theorem liquid_exists_full {s t : System} {c : ℚ} (h : (full c s).Perm (full c t)) {r : ℚ} {b : ℤ} {P : Cell → Prop} :
    (∃ i, Liquid s r c b i ∧ P (row s i)) → ∃ i, Liquid t r c b i ∧ P (row t i) := by
  rw [liquid_exists, liquid_exists]
  rintro ⟨a, ha, hl, hp⟩
  have : a ∈ full c t := h.mem_iff.mp (List.mem_filter.mpr ⟨ha, by simpa using hl.1⟩)
  exact ⟨a, (List.mem_filter.mp this).1, (liquidCell_full h r b a).mp hl, hp⟩

theorem liquidLayer_full {s t : System} {c : ℚ} (h : (full c s).Perm (full c t)) {r : ℚ} {b : ℤ} {y xl xr : ℚ}
    (hL : LiquidLayer s r c b y xl xr) : LiquidLayer t r c b y xl xr := by
  obtain ⟨h1, h2, h3⟩ := hL
  refine ⟨liquid_exists_full h (P := fun a => a.y = y ∧ a.x = xl) h1,
    liquid_exists_full h (P := fun a => a.y = y ∧ a.x = xr) h2, ?_⟩
  intro j hj hy
  by_contra hn
  obtain ⟨i, hi, hiy, hix⟩ := liquid_exists_full h.symm (P := fun a => a.y = y ∧ ¬ (xl ≤ a.x ∧ a.x ≤ xr)) ⟨j, hj, hy, hn⟩
  exact hix (h3 i hi hiy)

theorem isLayers_full {s t : System} {c : ℚ} (h : (full c s).Perm (full c t)) {r : ℚ} {b : ℤ} {lo hi : Option ℚ}
    {ts : List (ℚ × ℚ × ℚ)} (hL : IsLayers s r c b lo hi ts) : IsLayers t r c b lo hi ts :=
  ⟨hL.sorted, fun u hu => ⟨liquidLayer_full h (hL.layer u hu).1, (hL.layer u hu).2⟩,
    fun y xl xr hl hw => hL.complete y xl xr (liquidLayer_full h.symm hl) hw⟩

theorem triples_full {s t : System} {c : ℚ} (h : (full c s).Perm (full c t)) (r : ℚ) (b : ℤ) (lims : Option ℚ × Option ℚ) :
    (outsideIn s r c b lims).map (triple s) = (outsideIn t r c b lims).map (triple t) :=
  isLayers_unique (isLayers_full h (isLayers_outsideIn s r c b lims.1 lims.2)) (isLayers_outsideIn t r c b lims.1 lims.2)

theorem foundEdges_of {s t : System} {o o' : Opts} {box : Option (ℚ × ℚ)} (hl : o.longest = false)
    (hl' : o'.longest = false)
    (hc : getCutoff o.cutoff s = getCutoff o'.cutoff t) (hr : getRadius o.radius s = getRadius o'.radius t)
    (f : ℚ × ℚ × ℚ → ℚ × ℚ × ℚ)
    (ho : ∀ c r, (outsideIn t r c o'.bins o'.ylims).map (triple t) = ((outsideIn s r c o.bins o.ylims).map (triple s)).map f) :
    foundEdges t box o' = (foundEdges s box o).map fun l => l.map f := by
  unfold foundEdges getInterface
  rw [hc, hr]
  cases getCutoff o'.cutoff t with
  | error e => cases e <;> rfl
  | ok c =>
    simp only [bind, Except.bind]
    cases getRadius o'.radius t with
    | error e => rfl
    | ok r =>
      simp only [hl, hl', Except.map, Bool.false_eq_true, if_false]
      exact congrArg Except.ok (ho c r)

theorem npMin_perm' {l l' : List ℚ} (h : l.Perm l') : npMin l = npMin l' := by
  cases e : npMin l' with
  | ok m =>
    rw [npMin_ok_iff] at e ⊢
    exact ⟨h.mem_iff.mpr e.1, fun x hx => e.2 x (h.mem_iff.mp hx)⟩
  | error e' =>
    cases l' with
    | nil => rw [List.perm_nil.mp h]; exact e
    | cons a l' => simp [npMin] at e

theorem npMax_perm' {l l' : List ℚ} (h : l.Perm l') : npMax l = npMax l' := by
  cases e : npMax l' with
  | ok m =>
    rw [npMax_ok_iff] at e ⊢
    exact ⟨h.mem_iff.mpr e.1, fun x hx => e.2 x (h.mem_iff.mp hx)⟩
  | error e' =>
    cases l' with
    | nil => rw [List.perm_nil.mp h]; exact e
    | cons a l' => simp [npMax] at e

theorem npUnique_perm' {l l' : List ℚ} (h : l.Perm l') : npUnique l = npUnique l' := by
  have hn : ∀ k : List ℚ, (npUnique k).Nodup := fun k => (pairwise_npUnique k).imp fun {a b} hab => hab.ne
  refine List.Perm.eq_of_pairwise (le := (· < ·)) (fun a b _ _ h1 h2 => absurd (h1.trans h2) (lt_irrefl _))
    (pairwise_npUnique l) (pairwise_npUnique l') ?_
  rw [List.perm_ext_iff_of_nodup (hn l) (hn l')]
  intro a
  rw [mem_npUnique, mem_npUnique, h.mem_iff]

theorem getCutoff_perm {s t : System} (h : s.Perm t) (c : Option ℚ) : getCutoff c s = getCutoff c t := by
  cases c with
  | some c => rfl
  | none =>
    unfold getCutoff
    simp only
    rw [npMin_perm' (h.map (·.v)), npMax_perm' (h.map (·.v))]

theorem getRadius_perm {s t : System} (h : s.Perm t) (r : Option ℚ) : getRadius r s = getRadius r t := by
  cases r with
  | some r => rfl
  | none =>
    unfold getRadius
    simp only
    rw [npUnique_perm' (h.map (·.x))]

/-- **C150.** The default search finds the same edges however the bins are stored. -/
theorem C150_order (s t : System) (h : s.Perm t) (box : Option (ℚ × ℚ)) (o : Opts) (hl : o.longest = false) :
    foundEdges t box o = foundEdges s box o := by
  rw [foundEdges_of hl hl (getCutoff_perm h _) (getRadius_perm h _) id]
  · cases foundEdges s box o <;> simp [Except.map]
  · intro c r
    rw [List.map_id]
    exact (triples_full (h.filter _) r o.bins o.ylims).symm

/-- **C150.** With a given cut-off and radius the default search depends only on the bins that reach the cut-off:
two maps with the same such bins, stored anyhow, have the same edges whatever other bins they have. -/
theorem C150_empty_bins (s t : System) (box : Option (ℚ × ℚ)) (o : Opts) (hl : o.longest = false) (c r : ℚ)
    (hc : o.cutoff = some c) (hr : o.radius = some r) (h : (full c s).Perm (full c t)) :
    foundEdges t box o = foundEdges s box o := by
  unfold foundEdges getInterface
  simp only [hc, hr, getCutoff, getRadius, bind, Except.bind, hl, Except.map, Bool.false_eq_true, if_false]
  exact congrArg Except.ok (triples_full h r o.bins o.ylims).symm

/-- **C150.** The edges found in a mirror are the mirrored edges, left and right exchanged. -/
theorem C150_mirror (s : System) (box : Option (ℚ × ℚ)) (o : Opts) (hl : o.longest = false) :
    foundEdges (mirror s) box o = (foundEdges s box o).map fun l => l.map fun e => (e.1, -e.2.2, -e.2.1) := by
  apply foundEdges_of hl hl (getCutoff_mirror _ _).symm (getRadius_mirror _ _).symm
  intro c r
  exact isLayers_unique (isLayers_outsideIn _ _ _ _ o.ylims.1 o.ylims.2) (isLayers_mirror (isLayers_outsideIn _ _ _ _ _ _))

/-! ### Contact angles -/

/-- Angle from the found edges. -/
theorem contactAngle_of {s t : System} {box : Option (ℚ × ℚ)} {height : ℚ} {floor : Option ℚ} {o : Opts}
    (hf : floorOf floor t = floorOf floor s)
    (he : ∀ yf, foundEdges t box { o with ylims := (yf, none) } = foundEdges s box { o with ylims := (yf, none) }) :
    contactAngle t box height floor o = contactAngle s box height floor o := by
  unfold contactAngle
  rw [hf]
  cases floorOf floor s with
  | error e => rfl
  | ok yf =>
    have h := he yf
    simp only [bind, Except.bind]
    unfold foundEdges at h
    cases h1 : getInterface t box { o with ylims := (yf, none) } with
    | error e =>
      cases h2 : getInterface s box { o with ylims := (yf, none) } with
      | error e' => rw [h1, h2] at h; simpa [Except.map] using h
      | ok out' => rw [h1, h2] at h; simp [Except.map] at h
    | ok out =>
      cases h2 : getInterface s box { o with ylims := (yf, none) } with
      | error e' => rw [h1, h2] at h; simp [Except.map] at h
      | ok out' =>
        rw [h1, h2] at h
        simp only [Except.map, Except.ok.injEq] at h
        cases out with
        | nil =>
          cases out' with
          | nil => rfl
          | cons p l => simp at h
        | cons p l =>
          cases out' with
          | nil => simp at h
          | cons q m =>
            simp only [List.map_cons, List.cons.injEq] at h
            obtain ⟨e, em⟩ := h
            have e1 : (row t p.1).y = (row s q.1).y := congrArg Prod.fst e
            have e2 : (row t p.1).x = (row s q.1).x := congrArg (fun z => z.2.1) e
            have e3 : (row t p.2).x = (row s q.2).x := congrArg (fun z => z.2.2) e
            have em' : l.map (triple t) = m.map (triple s) := em
            simp only [angleLoop_eq, em', e1, e2, e3]

theorem closest_perm {l l' : List ℚ} (h : l.Perm l') (f : ℚ) (hu : ∀ a ∈ l, ∀ b ∈ l, (∀ d ∈ l, |a - f| ≤ |d - f| ∧ |b - f| ≤ |d - f|) → a = b) :
    closest f l = closest f l' := by
  cases e : closest f l' with
  | error e' =>
    cases l' with
    | nil => rw [List.perm_nil.mp h]; exact e
    | cons a l' => simp [closest] at e
  | ok z =>
    cases e' : closest f l with
    | error e'' =>
      cases l with
      | nil => rw [List.nil_perm.mp h] at e; simp [closest] at e
      | cons a l => simp [closest] at e'
    | ok w =>
      obtain ⟨h1, h2⟩ := closest_spec f _ _ e
      obtain ⟨g1, g2⟩ := closest_spec f _ _ e'
      congr 1
      exact hu w g1 z (h.mem_iff.mpr h1) fun d hd => ⟨g2 d hd, h2 d (h.mem_iff.mp hd)⟩

/-- **C150 (partial).** The contact angles do not depend on the order of the bins.  Missing: a floor midway between
two layers, for which the statement is false (`C150_floor_counterexample`). -/
theorem C150_angle_order_partial (s t : System) (h : s.Perm t) (box : Option (ℚ × ℚ)) (height : ℚ) (floor : Option ℚ)
    (o : Opts) (hl : o.longest = false) (hf : OneFloor s floor) :
    contactAngle t box height floor o = contactAngle s box height floor o := by
  apply contactAngle_of
  · cases floor with
    | none => rfl
    | some f =>
      unfold floorOf
      simp only
      rw [closest_perm (h.map (·.y)) f]
      intro a ha b hb
      obtain ⟨c, hc, rfl⟩ := List.mem_map.mp ha
      obtain ⟨d, hd, rfl⟩ := List.mem_map.mp hb
      intro hmin
      exact hf f rfl c hc d hd fun e he => hmin e.y (List.mem_map_of_mem he)
  · intro yf
    exact C150_order s t h box _ hl

theorem floorOf_layer {s : System} {floor : Option ℚ} (h : FloorLayer s floor) : floorOf floor s = .ok floor := by
  cases floor with
  | none => rfl
  | some f =>
    obtain ⟨a, ha, hf⟩ := h f rfl
    have hm : f ∈ s.map (·.y) := List.mem_map.mpr ⟨a, ha, hf⟩
    unfold floorOf
    simp only
    cases e : closest f (s.map (·.y)) with
    | error e' =>
      cases hs : s.map (·.y) with
      | nil => rw [hs] at hm; simp at hm
      | cons b l => rw [hs] at e; simp [closest] at e
    | ok z =>
      have := (closest_spec f _ _ e).2 f hm
      rw [sub_self, abs_zero] at this
      have hz : z - f = 0 := abs_eq_zero.mp (le_antisymm this (abs_nonneg _))
      rw [sub_eq_zero.mp hz]
      rfl

/-- **C150.** The contact angles too depend only on the bins that reach a given cut-off, if no floor is given or
both maps have a layer at the floor. -/
theorem C150_angle_empty_bins (s t : System) (box : Option (ℚ × ℚ)) (height : ℚ) (floor : Option ℚ) (o : Opts)
    (hl : o.longest = false) (c r : ℚ) (hc : o.cutoff = some c) (hr : o.radius = some r)
    (h : (full c s).Perm (full c t)) (hs : FloorLayer s floor) (ht : FloorLayer t floor) :
    contactAngle t box height floor o = contactAngle s box height floor o := by
  refine contactAngle_of (by rw [floorOf_layer hs, floorOf_layer ht]) ?_
  intro yf
  exact C150_empty_bins s t box _ hl c r hc hr h

/-! ### Cases -/

/-- The demo droplet stored from right to left. -/
def dropTurned : System := dropDemo.reverse

/-- The demo droplet in a larger map, with a finer column of empty bins beside it. -/
def dropWide : System :=
  [⟨9 / 2, 0, 0, []⟩, ⟨5, 0, 0, []⟩] ++ dropDemo ++ [⟨9 / 2, 1, 0, []⟩, ⟨5, 1, 0, []⟩, ⟨0, 2, 0, []⟩]

example : dropDemo.Perm dropTurned ∧ OneFloor dropDemo (some (1 / 10)) ∧ OneFloor dropDemo none ∧
    (full 5 dropDemo).Perm (full 5 dropWide) ∧ FloorLayer dropDemo (some 1) ∧ FloorLayer dropWide (some 1) ∧
    foundEdges dropDemo none {} = .ok [(0, 0, 3), (1, 1, 2)] ∧
    foundEdges dropTurned none {} = .ok [(0, 0, 3), (1, 1, 2)] ∧
    getInterface dropTurned none {} = .ok [(7, 4), (2, 1)] ∧
    foundEdges dropWide none { cutoff := some 5, radius := some 1 } = .ok [(0, 0, 3), (1, 1, 2)] ∧
    foundEdges (mirror dropDemo) none {} = .ok [(0, -3, 0), (1, -2, -1)] := by
  refine ⟨(List.reverse_perm _).symm, ?_, ?_, ?_, ?_, ?_, ?_, ?_, ?_, ?_, ?_⟩
  · intro f hf
    rw [Option.some.injEq] at hf
    subst hf
    decide +kernel
  · intro f hf; simp at hf
  · decide +kernel
  · intro f hf; rw [Option.some.injEq] at hf; subst hf; decide +kernel
  · intro f hf; rw [Option.some.injEq] at hf; subst hf; decide +kernel
  all_goals decide +kernel

/-- **C150 is false of default settings when bins are added**: the default radius is the smallest spacing of any
bins and the default cut-off lies between the smallest and the largest value of any bins, so that adding bins
that reach no cut-off of interest changes the droplet. -/
theorem C150_default_counterexample :
    (full (5 / 2) dropDemo).Perm (full (5 / 2) dropWide) ∧
    foundEdges dropDemo none { cutoff := some (5 / 2) } = .ok [(0, 0, 3), (1, 1, 2)] ∧
    foundEdges dropWide none { cutoff := some (5 / 2) } = .ok [] ∧
    (full (5 / 2) dropDemo).Perm (full (5 / 2) (dropDemo ++ [⟨4, 0, -50, []⟩])) ∧
    foundEdges (⟨4, 0, 1, []⟩ :: dropDemo) none { radius := some 1 } = .ok [(0, 0, 3), (1, 1, 2)] ∧
    foundEdges (⟨4, 0, 1, []⟩ :: dropDemo ++ [⟨9, 0, -50, []⟩]) none { radius := some 1 } = .ok [(0, 0, 4), (1, 0, 3)] := by
  refine ⟨?_, ?_, ?_, ?_, ?_, ?_⟩ <;> decide +kernel

/-- **C150 is false of the periodic search**: the same bins in another order have other edges (`C34`). -/
theorem C150_periodic_counterexample :
    let o : Opts := { longest := true, radius := some 1, cutoff := some 5 }
    let t : System := unsortedDemo.tail ++ unsortedDemo.take 1
    unsortedDemo.Perm t ∧
    foundEdges unsortedDemo (some (5, 1)) o = .ok [(0, 3 / 2, 5 / 2)] ∧
    foundEdges t (some (5, 1)) o = .ok [(0, 5 / 2, 7 / 2)] := by
  refine ⟨?_, ?_, ?_⟩ <;> decide +kernel

/-- **C150 is false of a floor midway between two layers**: the layer that is stored first is taken for the
floor, so that the same droplet has angles in one order and none in another. -/
theorem C150_floor_counterexample :
    let s : System := ⟨0, -1, 0, []⟩ :: dropDemo
    let t : System := dropDemo ++ [⟨0, -1, 0, []⟩]
    s.Perm t ∧ contactAngle s none 2 (some (-1 / 2)) {} = .ok none ∧
    contactAngle t none 2 (some (-1 / 2)) {} = .ok (some (angleDeg 1 1, angleDeg 1 1)) := by
  intro s t
  refine ⟨by decide +kernel, ?_, ?_⟩
  · have hset : Setting s {} (some (-1 / 2)) 1 (5 / 2) (some (-1)) :=
      ⟨rfl, by decide +kernel, by decide +kernel, by decide +kernel⟩
    rw [hset.angle none 2]
    have h' : (outsideIn s 1 (5 / 2) ({} : Opts).bins (some (-1), none)).map (triple s) =
      [((0 : ℚ), (0 : ℚ), (3 : ℚ)), (1, 1, 2)] := by decide +kernel
    rw [h']
    simp only [angleOf, Option.isSome_some]
    norm_num
  · have hset : Setting t {} (some (-1 / 2)) 1 (5 / 2) (some 0) :=
      ⟨rfl, by decide +kernel, by decide +kernel, by decide +kernel⟩
    rw [hset.angle none 2]
    have h' : (outsideIn t 1 (5 / 2) ({} : Opts).bins (some 0, none)).map (triple t) =
      [((0 : ℚ), (0 : ℚ), (3 : ℚ)), (1, 1, 2)] := by decide +kernel
    rw [h']
    have hl : angleLoopT 2 0 none [((1 : ℚ), (1 : ℚ), (2 : ℚ))] = .ok ((1, 2), 1) := by decide +kernel
    simp only [angleOf, Option.isSome_some, hl, Except.map, getAngles]
    norm_num

end Strata.Interface
