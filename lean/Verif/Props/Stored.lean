import Verif.Spec.Stored
import Verif.Props.Flow
import Verif.Props.Sample
import Verif.Props.SampleAngle
import Verif.Props.View
import Verif.Props.ResampleUnits
import Verif.Props.InterfaceStored
/-! # C161: results do not depend on the order in which the bins are stored -/
namespace Strata.Flow
open Strata Strata.Average Strata.Sample

/-- The value of a bin, 0 if it has none. -/
def valueOf (l : Label) (b : Bin) : ℚ := (b.val l).getD 0

theorem col_bins {r : Record} (h : Wf r) {l : Label} {c : List ℚ} (hc : col? r l = some c) :
    c = (bins r).map (valueOf l) := by
  have := congrArg (List.map fun o : Option ℚ => o.getD 0) (bins_map_val h hc)
  simp only [List.map_map] at this
  rw [show (List.map ((fun o : Option ℚ => o.getD 0) ∘ some) c) = c from by simp [Function.comp_def]] at this
  exact this.symm

theorem getD_valueOf {r : Record} {l : Label} {c : List ℚ} (hc : col? r l = some c) (t : ℕ) :
    c.getD t 0 = valueOf l (binAt r t) := by
  simp [valueOf, val_binAt, hc]

namespace SameMap
variable {f g : Flow}

theorem symm (h : SameMap f g) : SameMap g f := ⟨h.right, h.left, h.info.symm, h.fields.symm, h.bins.symm⟩

theorem size (h : SameMap f g) : Flow.size f.data = Flow.size g.data := by
  rw [← length_bins, ← length_bins]; exact h.bins.length_eq

theorem nil_iff (h : SameMap f g) : f.data = [] ↔ g.data = [] := by
  have := congrArg List.length h.fields
  simp only [names, List.length_map] at this
  rw [← List.length_eq_zero_iff, ← List.length_eq_zero_iff, this]

theorem field (h : SameMap f g) (l : Label) :
    (∃ c d, Average.field f.data l = .ok c ∧ Average.field g.data l = .ok d ∧ col? f.data l = some c ∧ col? g.data l = some d ∧
      c = (Flow.bins f.data).map (valueOf l) ∧ d = (Flow.bins g.data).map (valueOf l)) ∨
    (Average.field f.data l = .error .valueError ∧ Average.field g.data l = .error .valueError) := by
  by_cases hl : l ∈ names f.data
  · obtain ⟨c, hc, hc'⟩ := Sample.field_ok hl
    obtain ⟨d, hd, hd'⟩ := Sample.field_ok (h.fields ▸ hl)
    exact Or.inl ⟨c, d, hc', hd', hc, hd, col_bins h.left hc, col_bins h.right hd⟩
  · have h1 := (col?_none_iff f.data l).mpr hl
    have h2 := (col?_none_iff g.data l).mpr (h.fields ▸ hl)
    exact Or.inr ⟨by simp [Average.field, h1], by simp [Average.field, h2]⟩

theorem sortRecord (h : SameMap f g) (o : List Label) : Flow.sortRecord f.data o = Flow.sortRecord g.data o := by
  unfold Flow.sortRecord
  rw [h.fields]
  by_cases ho : o.all (· ∈ names g.data) = true
  · rw [if_pos ho, if_pos ho]
    by_cases hne : f.data = []
    · rw [hne, h.nil_iff.mp hne]
    · rw [sortRecord_canonical h.left h.right h.fields hne h.bins o]
      intro l hl
      rw [h.fields]
      simpa using List.all_eq_true.mp ho l hl
  · rw [if_neg ho, if_neg ho]

theorem sort (h : SameMap f g) (co : Label × Label) : Flow.sort f co = Flow.sort g co := by
  unfold Flow.sort
  rw [h.sortRecord, h.info]

theorem sum (h : SameMap f g) (F : Bin → ℚ) : ((Flow.bins f.data).map F).sum = ((Flow.bins g.data).map F).sum :=
  (h.bins.map F).sum_eq

end SameMap

theorem zipWith_bins {α β γ δ : Type} (F : β → γ → δ) (p : α → β) (q : α → γ) (l : List α) :
    List.zipWith F (l.map p) (l.map q) = l.map fun a => F (p a) (q a) := by
  induction l with
  | nil => rfl
  | cons a l ih => simp [ih]

/-! ## Numbers -/

/-- **C161, centre of mass.** -/
theorem C161_center_of_mass {f g : Flow} (h : SameMap f g) (mass : Label) (coords : List Label) :
    centerOfMass f mass coords = centerOfMass g mass coords := by
  unfold centerOfMass
  congr 1
  funext l
  rcases h.field l with ⟨c, d, hc, hd, -, -, ec, ed⟩ | ⟨hc, hd⟩
  · rw [hc, hd]
    simp only [Gmx.ok_bind]
    rcases h.field mass with ⟨c', d', hc', hd', -, -, ec', ed'⟩ | ⟨hc', hd'⟩
    · rw [hc', hd']
      simp only [Gmx.ok_bind]
      unfold npAverage
      rw [ec, ec', ed, ed', zipWith_bins, zipWith_bins, h.sum, h.sum]
    · rw [hc', hd']; rfl
  · rw [hc, hd]; rfl

/-- **C161, mean flow angle.** -/
theorem C161_mean_flow_angle {f g : Flow} (h : SameMap f g) (flows : List Label) (weight : Option Label) :
    flowAngle f flows true weight = flowAngle g flows true weight := by
  have key : ∀ u v, flowAngle f [u, v] true weight = flowAngle g [u, v] true weight := by
    intro u v
    unfold flowAngle
    rcases h.field u with ⟨c, d, hc, hd, -, -, ec, ed⟩ | ⟨hc, hd⟩
    · rcases h.field v with ⟨c', d', hc', hd', -, -, ec', ed'⟩ | ⟨hc', hd'⟩
      · simp only [hc, hd, hc', hd', Gmx.ok_bind, if_true]
        split
        · rw [ec, ec', ed, ed', h.sum, h.sum]
        · rw [ec, ec', ed, ed', h.sum, h.sum]
        · rename_i w _
          rcases h.field w with ⟨c2, d2, hc2, hd2, -, -, ec2, ed2⟩ | ⟨hc2, hd2⟩
          · simp only [hc2, hd2, Gmx.ok_bind]
            rw [ec, ec', ed, ed', ec2, ed2, zipWith_bins, zipWith_bins, zipWith_bins, zipWith_bins, h.sum, h.sum]
          · rw [hc2, hd2]; rfl
      · simp only [hc, hd, hc', hd', Gmx.ok_bind]; rfl
    · simp only [hc, hd]; rfl
  match flows with
  | [] => rfl
  | [_] => rfl
  | [u, v] => exact key u v
  | _ :: _ :: _ :: _ => rfl

/-- **C161, dissipation.**  Also the map, which is sorted in place, comes out the same. -/
theorem C161_dissipation {f g : Flow} (h : SameMap f g) (μ : ℚ) (coords flows : Label × Label) (weight : Option Label) :
    viscousDissipation f μ coords flows weight = viscousDissipation g μ coords flows weight := by
  unfold viscousDissipation
  rw [h.sort, h.info]

/-- **C161, density gradient and evaporation.** -/
theorem C161_density_gradient_evaporation {f g : Flow} (h : SameMap f g) :
    View.densityGradient f = View.densityGradient g ∧ View.evaporation f = View.evaporation g := by
  have : View.massOnGrid f = View.massOnGrid g := by
    unfold View.massOnGrid
    rw [h.sort, h.info]
  exact ⟨by unfold View.densityGradient; rw [this], by unfold View.evaporation; rw [this]⟩

/-! ## One value per bin -/

theorem bins_map_range {α : Type} (r : Record) (F : Bin → α) :
    (List.range (Flow.size r)).map (fun t => F (binAt r t)) = (bins r).map F := by
  simp [bins, Function.comp_def]

/-- **C161, kinetic energy and flow angles.**  One value for each bin, in another order. -/
theorem C161_energy {f g : Flow} (h : SameMap f g) (mass : Label) (flows : Label × Label) :
    Alike List.Perm (inertialEnergy f mass flows) (inertialEnergy g mass flows) := by
  unfold inertialEnergy
  rcases h.field mass with ⟨c, d, hc, hd, c1, d1, -, -⟩ | ⟨hc, hd⟩
  · rcases h.field flows.1 with ⟨c', d', hc', hd', c2, d2, -, -⟩ | ⟨hc', hd'⟩
    · rcases h.field flows.2 with ⟨c'', d'', hc'', hd'', c3, d3, -, -⟩ | ⟨hc'', hd''⟩
      · refine Or.inl ⟨_, _, by simp only [hc, hc', hc'', Gmx.ok_bind]; rfl, by simp only [hd, hd', hd'', Gmx.ok_bind]; rfl, ?_⟩
        simp only [getD_valueOf c1, getD_valueOf c2, getD_valueOf c3, getD_valueOf d1, getD_valueOf d2, getD_valueOf d3]
        rw [bins_map_range f.data fun b => 1 / 2 * valueOf mass b * (valueOf flows.1 b ^ 2 + valueOf flows.2 b ^ 2),
          bins_map_range g.data fun b => 1 / 2 * valueOf mass b * (valueOf flows.1 b ^ 2 + valueOf flows.2 b ^ 2)]
        exact h.bins.map _
      · exact Or.inr ⟨_, by simp only [hc, hc', hc'', Gmx.ok_bind]; rfl, by simp only [hd, hd', hd'', Gmx.ok_bind]; rfl⟩
    · exact Or.inr ⟨_, by simp only [hc, hc', Gmx.ok_bind]; rfl, by simp only [hd, hd', Gmx.ok_bind]; rfl⟩
  · exact Or.inr ⟨_, by simp only [hc]; rfl, by simp only [hd]; rfl⟩

theorem C161_flow_angles {f g : Flow} (h : SameMap f g) (flows : List Label) (weight : Option Label) :
    Alike List.Perm (flowAngle f flows false weight) (flowAngle g flows false weight) := by
  match flows with
  | [] => exact Or.inr ⟨_, rfl, rfl⟩
  | [_] => exact Or.inr ⟨_, rfl, rfl⟩
  | _ :: _ :: _ :: _ => exact Or.inr ⟨_, rfl, rfl⟩
  | [u, v] =>
    unfold flowAngle
    rcases h.field u with ⟨c, d, hc, hd, -, -, ec, ed⟩ | ⟨hc, hd⟩
    · rcases h.field v with ⟨c', d', hc', hd', -, -, ec', ed'⟩ | ⟨hc', hd'⟩
      · refine Or.inl ⟨_, _, by simp only [hc, hc', Gmx.ok_bind]; rfl, by simp only [hd, hd', Gmx.ok_bind]; rfl, ?_⟩
        rw [ec, ec', ed, ed', zipWith_bins, zipWith_bins]
        exact h.bins.map _
      · exact Or.inr ⟨_, by simp only [hc, hc', Gmx.ok_bind]; rfl, by simp only [hd, hd', Gmx.ok_bind]; rfl⟩
    · exact Or.inr ⟨_, by simp only [hc]; rfl, by simp only [hd]; rfl⟩


/-! ## Selections -/

theorem SameMap.lims {f g : Flow} (h : SameMap f g) (l : Label) (lo hi : Option ℚ) :
    Alike SameMap (Flow.lims f l lo hi) (Flow.lims g l lo hi) := by
  by_cases hl : l ∈ names f.data
  · obtain ⟨c, hc, -⟩ := Sample.field_ok hl
    obtain ⟨d, hd, -⟩ := Sample.field_ok (h.fields ▸ hl)
    have hb : (Flow.bins (gather (whereIdx (inLims lo hi) c) f.data)).Perm (Flow.bins (gather (whereIdx (inLims lo hi) d) g.data)) := by
      rw [bins_lims h.left l lo hi hc, bins_lims h.right l lo hi hd]
      exact h.bins.filter _
    refine Or.inl ⟨_, _, lims_eq f h.left l lo hi hc, lims_eq g h.right l lo hi hd, wf_gather _ h.left, wf_gather _ h.right, ?_, ?_, hb⟩
    · have := hb.length_eq
      rw [length_bins, length_bins, size_gather _ _ (ne_nil_of_col hc), size_gather _ _ (ne_nil_of_col hd)] at this
      simp only [h.info, this]
    · simpa using h.fields
  · exact Or.inr ⟨_, C12_unknown_label f l lo hi hl, C12_unknown_label g l lo hi (h.fields ▸ hl)⟩

/-- **C161, selections.** -/
theorem C161_lims {f g : Flow} (h : SameMap f g) (l : Label) (lo hi : Option ℚ) :
    Alike SameMap (lims f l lo hi) (lims g l lo hi) := h.lims l lo hi

theorem SameMap.col {f g : Flow} (h : SameMap f g) {l : Label} {c d : List ℚ} (hc : col? f.data l = some c) (hd : col? g.data l = some d) :
    c.Perm d := by
  rw [col_bins h.left hc, col_bins h.right hd]; exact h.bins.map _

theorem SameMap.col_none {f g : Flow} (h : SameMap f g) {l : Label} (hc : col? f.data l = none) : col? g.data l = none :=
  (col?_none_iff _ _).mpr (h.fields ▸ (col?_none_iff _ _).mp hc)

theorem C161_cut {f g : Flow} (h : SameMap f g) (xlim ylim : Option ℚ × Option ℚ) :
    Alike SameMap (cut f xlim ylim) (cut g xlim ylim) := by
  unfold cut
  rw [h.info]
  split
  · rename_i ox oy nx ny dx dy _ _ _
    simp only
    rcases h.lims "X" (some (xlim.1.getD ox)) (some (xlim.2.getD (ox + nx * dx))) with ⟨a, b, ha, hb, hab⟩ | ⟨e, ha, hb⟩
    · rw [ha, hb]
      simp only [Gmx.ok_bind]
      rcases hab.lims "Y" (some (ylim.1.getD oy)) (some (ylim.2.getD (oy + ny * dy))) with ⟨a', b', ha', hb', hab'⟩ | ⟨e, ha', hb'⟩
      · rw [ha', hb']
        simp only [Gmx.ok_bind]
        cases hcx : col? a'.data "X" with
        | none =>
          rw [hab'.col_none hcx]
          exact Or.inr ⟨_, rfl, rfl⟩
        | some cx =>
          cases hcy : col? a'.data "Y" with
          | none =>
            rw [hab'.col_none hcy]
            cases col? b'.data "X" <;> exact Or.inr ⟨_, rfl, rfl⟩
          | some cy =>
            obtain ⟨dx', hdx⟩ := (col?_isSome_iff b'.data "X").mpr (hab'.fields ▸ (col?_isSome_iff a'.data "X").mp ⟨cx, hcx⟩)
            obtain ⟨dy', hdy⟩ := (col?_isSome_iff b'.data "Y").mpr (hab'.fields ▸ (col?_isSome_iff a'.data "Y").mp ⟨cy, hcy⟩)
            rw [hdx, hdy]
            simp only
            rw [(hab'.col hcx hdx).dedup.length_eq, (hab'.col hcy hdy).dedup.length_eq]
            cases setInfo [("spacing", pairVal (some (dx, dy))), ("origin", pairVal (some (xlim.1.getD ox, ylim.1.getD oy))),
              ("shape", pairVal (some ((dx'.dedup.length : ℚ), (dy'.dedup.length : ℚ)))), ("num_bins", .num (dx'.dedup.length * dy'.dedup.length : ℕ))] with
            | error e => exact Or.inr ⟨e, rfl, rfl⟩
            | ok i => exact Or.inl ⟨_, _, rfl, rfl, hab'.left, hab'.right, rfl, hab'.fields, hab'.bins⟩
      · rw [ha', hb']; exact Or.inr ⟨e, rfl, rfl⟩
    · rw [ha, hb]; exact Or.inr ⟨e, rfl, rfl⟩
  · exact Or.inr ⟨_, rfl, rfl⟩

/-! ## Resampling -/

theorem cutRows_bins {r : Record} (hne : r ≠ []) {lx ly : Label} {cx cy : List ℚ} (hx : col? r lx = some cx) (hy : col? r ly = some cy)
    (p q : ℚ → Bool) :
    bins (gather ((List.range (Flow.size r)).filter fun t => p (cx.getD t 0) && q (cy.getD t 0)) r) =
      (bins r).filter fun b => p (valueOf lx b) && q (valueOf ly b) := by
  rw [bins_gather _ hne]
  unfold bins
  rw [List.filter_map]
  congr 1
  apply List.filter_congr
  intro t _
  simp only [Function.comp_def, getD_valueOf hx, getD_valueOf hy]

theorem cutLimits_alike {f g : Flow} (h : SameMap f g) (xlim ylim : Option ℚ × Option ℚ) (co : Label × Label) :
    Alike SameMap (Resample.cutSystemLimits f xlim ylim co) (Resample.cutSystemLimits g xlim ylim co) := by
  unfold Resample.cutSystemLimits
  rcases h.field co.1 with ⟨c, d, hc, hd, c1, d1, -, -⟩ | ⟨hc, hd⟩
  · rcases h.field co.2 with ⟨c', d', hc', hd', c2, d2, -, -⟩ | ⟨hc', hd'⟩
    · simp only [hc, hc', hd, hd', Gmx.ok_bind]
      have hne := ne_nil_of_col c1
      have hne' := ne_nil_of_col d1
      have e1 := cutRows_bins hne c1 c2 (inLims xlim.1 xlim.2) (inLims ylim.1 ylim.2)
      have e2 := cutRows_bins hne' d1 d2 (inLims xlim.1 xlim.2) (inLims ylim.1 ylim.2)
      generalize hi : ((List.range (Flow.size f.data)).filter fun t => inLims xlim.1 xlim.2 (c.getD t 0) && inLims ylim.1 ylim.2 (c'.getD t 0)) = I at e1 ⊢
      generalize hj : ((List.range (Flow.size g.data)).filter fun t => inLims xlim.1 xlim.2 (d.getD t 0) && inLims ylim.1 ylim.2 (d'.getD t 0)) = J at e2 ⊢
      have hs : SameMap ⟨gather I f.data, f.info⟩ ⟨gather J g.data, g.info⟩ :=
        ⟨wf_gather _ h.left, wf_gather _ h.right, h.info, by simpa using h.fields, by
          show (bins (gather I f.data)).Perm (bins (gather J g.data))
          rw [e1, e2]; exact h.bins.filter _⟩
      rcases hs.field co.1 with ⟨a, b, ha, hb, a1, b1, -, -⟩ | ⟨ha, hb⟩
      · rcases hs.field co.2 with ⟨a', b', ha', hb', a2, b2, -, -⟩ | ⟨ha', hb'⟩
        · simp only at ha ha' hb hb'
          simp only [ha, ha', hb, hb', Gmx.ok_bind]
          rw [Interface.npMin_perm' (hs.col a1 b1), Interface.npMin_perm' (hs.col a2 b2), (hs.col a1 b1).dedup.length_eq, (hs.col a2 b2).dedup.length_eq, h.info]
          cases npMin b with
          | error e => exact Or.inr ⟨e, rfl, rfl⟩
          | ok ox =>
            cases npMin b' with
            | error e => exact Or.inr ⟨e, rfl, rfl⟩
            | ok oy =>
              simp only [Gmx.ok_bind]
              unfold mk
              rw [setData_of_wf _ _ (collate_asArgs _) (by simpa [gather] using hne) hs.left,
                setData_of_wf _ _ (collate_asArgs _) (by simpa [gather] using hne') hs.right]
              simp only [Gmx.ok_bind]
              generalize setInfo _ = i
              cases i with
              | error e => exact Or.inr ⟨e, rfl, rfl⟩
              | ok i => exact Or.inl ⟨_, _, rfl, rfl, hs.left, hs.right, rfl, hs.fields, hs.bins⟩
        · simp only at ha ha' hb hb'
          exact Or.inr ⟨_, by simp only [ha, ha', Gmx.ok_bind]; rfl, by simp only [hb, hb', Gmx.ok_bind]; rfl⟩
      · simp only at ha hb
        exact Or.inr ⟨_, by simp only [ha]; rfl, by simp only [hb]; rfl⟩
    · exact Or.inr ⟨_, by simp only [hc, hc', Gmx.ok_bind]; rfl, by simp only [hd, hd', Gmx.ok_bind]; rfl⟩
  · exact Or.inr ⟨_, by simp only [hc]; rfl, by simp only [hd]; rfl⟩

/-- **C161, resampling.**  The coarser map, and the finer one, are the same; without a factor, or with factor 1, a copy of
the map is returned as it is stored. -/
theorem C161_downsample {f g : Flow} (h : SameMap f g) (n : ℕ × ℕ) (co : Label × Label) (ws : List (Label × Label)) (xlim ylim : Option ℚ × Option ℚ) :
    Resample.downsample f n co ws xlim ylim = Resample.downsample g n co ws xlim ylim := by
  unfold Resample.downsample
  rcases cutLimits_alike h xlim ylim co with ⟨a, b, ha, hb, hab⟩ | ⟨e, ha, hb⟩
  · rw [ha, hb]
    simp only [Gmx.ok_bind]
    have e1 : Resample.downscaledInfo a n = Resample.downscaledInfo b n := by unfold Resample.downscaledInfo; rw [hab.info]
    have e2 : ∀ i, Resample.combineBins i a n co ws = Resample.combineBins i b n co ws := by
      intro i; unfold Resample.combineBins; rw [hab.sortRecord, hab.info]
    simp only [e1, e2]
  · rw [ha, hb]

theorem SameMap.copy {f g : Flow} (h : SameMap f g) : (Flow.copy f >>= fun a => Flow.sort a co) = (Flow.copy g >>= fun a => Flow.sort a co) := by
  by_cases hne : f.data = []
  · have : f = g := by
      obtain ⟨a, b⟩ := f
      obtain ⟨c, d⟩ := g
      have := h.nil_iff.mp hne
      have hi := h.info
      simp only at hne this hi
      rw [hne, this, hi]
    rw [this]
  · rw [copy_eq f h.left hne, copy_eq g h.right (fun h0 => hne (h.nil_iff.mpr h0))]
    exact h.sort co

theorem C161_supersample {f g : Flow} (h : SameMap f g) (n : ℕ) (hn : n ≠ 1) (co : Label × Label) (ws : List (Label × Label)) :
    Resample.supersample f (some n) co ws = Resample.supersample g (some n) co ws := by
  have key := h.copy (co := co)
  have : ∀ k : Flow, Resample.supersample k (some n) co ws = ((Flow.copy k >>= fun a => Flow.sort a co) >>= fun f => do
    let info ← Resample.superscaledInfo f n co
    let nx := info.shape.1 / n
    let ny := info.shape.2 / n
    if Flow.size f.data ≠ ny * nx then .error .valueError
    else
      let fine := f.data.map fun lc => (lc.1,
        if lc.1 = co.2 then info.ys else if lc.1 = co.1 then info.xs else Resample.finerCol nx ny n lc.2)
      let data ← Resample.supersampleOnGrid info.shape.1 info.shape.2 n fine co ws
      mk (asArgs data) info.dict) := by
    intro k
    unfold Resample.supersample
    split
    · rename_i h0; exact absurd h0 (by simp)
    · rename_i h0; exact absurd (Option.some.inj h0) hn
    · rename_i m _ h0
      rw [← Option.some.inj h0]
      cases Flow.copy k <;> rfl
  rw [this f, this g, key]


/-! ## Per angle -/

open Classical in
/-- The angle of a bin within the limits. -/
noncomputable def angleOf (amin amax rmin : ℚ) (rmax : Option ℚ) (d : ℚ × ℚ) : Option ℝ :=
  if (rmin : ℝ) ≤ Sample.dist d ∧ ∀ r, rmax = some r → Sample.dist d ≤ (r : ℝ) then
    (binDegrees d).bind fun a => if (amin : ℝ) ≤ a ∧ a ≤ (amax : ℝ) then some a else none
  else none

theorem rowWithin_eq (d : ℕ → ℚ × ℚ) (amin amax rmin : ℚ) (rmax : Option ℚ) (t : ℕ) :
    rowWithin d amin amax rmin rmax t = (angleOf amin amax rmin rmax (d t)).map fun a => (t, a) := by
  unfold rowWithin angleOf
  split
  · cases binDegrees (d t) with
    | none => rfl
    | some a =>
      simp only [Option.bind_some]
      split <;> rfl
  · rfl

/-- The bins within the limits, with their angles. -/
noncomputable def binAngles (amin amax rmin : ℚ) (rmax : Option ℚ) (D : Bin → ℚ × ℚ) (B : List Bin) : List (Bin × ℝ) :=
  B.filterMap fun b => (angleOf amin amax rmin rmax (D b)).map fun a => (b, a)

theorem rows_bins (r : Record) (D : Bin → ℚ × ℚ) (d : ℕ → ℚ × ℚ) (hd : ∀ t, d t = D (binAt r t)) (amin amax rmin : ℚ) (rmax : Option ℚ) :
    (rowsWithin (Flow.size r) d amin amax rmin rmax).map (fun p => (binAt r p.1, p.2)) = binAngles amin amax rmin rmax D (bins r) := by
  unfold rowsWithin binAngles bins
  rw [List.map_filterMap, List.filterMap_map]
  congr 1
  funext t
  rw [rowWithin_eq, hd]
  simp only [Function.comp_def, Option.map_map]

theorem row_lt {n : ℕ} {d : ℕ → ℚ × ℚ} {amin amax rmin : ℚ} {rmax : Option ℚ} {p : ℕ × ℝ} (h : p ∈ rowsWithin n d amin amax rmin rmax) : p.1 < n := by
  unfold rowsWithin at h
  obtain ⟨t, ht, e⟩ := List.mem_filterMap.mp h
  rw [rowWithin_eq, Option.map_eq_some_iff] at e
  obtain ⟨a, -, rfl⟩ := e
  exact List.mem_range.mp ht

/-- The value of one interval of angles, of the bins with their angles. -/
noncomputable def intervalValue (out : List ℚ) (size : ℚ) (v w : Bin → ℚ) (R : List (Bin × ℝ)) (k : ℕ) : ℚ :=
  let b := R.filter fun p => closestIndex out (p.2 - 1 / 2 * (size : ℝ) + 1 / 1000000) == k
  if b ≠ [] ∧ 0 < (b.map fun p => w p.1).sum then (b.map fun p => v p.1 * w p.1).sum / (b.map fun p => w p.1).sum else 0

theorem intervalValue_perm (out : List ℚ) (size : ℚ) (v w : Bin → ℚ) {R S : List (Bin × ℝ)} (h : R.Perm S) (k : ℕ) :
    intervalValue out size v w R k = intervalValue out size v w S k := by
  unfold intervalValue
  have hb := h.filter fun p => closestIndex out (p.2 - 1 / 2 * (size : ℝ) + 1 / 1000000) == k
  simp only [(hb.map _).sum_eq]
  have : ((R.filter fun p => closestIndex out (p.2 - 1 / 2 * (size : ℝ) + 1 / 1000000) == k) ≠ []) ↔
      ((S.filter fun p => closestIndex out (p.2 - 1 / 2 * (size : ℝ) + 1 / 1000000) == k) ≠ []) := by
    rw [ne_eq, ne_eq, ← List.length_eq_zero_iff, ← List.length_eq_zero_iff, hb.length_eq]
  simp only [this]

/-- The value of a weight. -/
def weightOf (weight : Option Label) (b : Bin) : ℚ := match weight with | none => 1 | some l => valueOf l b

theorem perAngle_bins {r : Record} (info : Info) (origin : ℚ × ℚ) (label : Label) (co : Label × Label) (weight : Option Label) (amin amax rmin : ℚ) (rmax : Option ℚ)
    (size : ℚ) (hs : ¬ size ≤ 0) {xs ys vs ws : List ℚ} (hx : col? r co.1 = some xs) (hy : col? r co.2 = some ys) (hv : col? r label = some vs)
    (hww : weightsOf r (Flow.size r) weight = .ok ws) :
    perAngle ⟨r, info⟩ origin label co weight amin amax rmin rmax size =
      let out := arange (max 0 amin) (min (360 - size) amax + size) size
      let R := binAngles (max 0 amin) (min (360 - size) amax) rmin rmax (fun b => (valueOf co.1 b - origin.1, valueOf co.2 b - origin.2)) (bins r)
      if out = [] ∧ R ≠ [] then .error .valueError
      else .ok (out.zipIdx.map fun ak => (ak.1, intervalValue out size (valueOf label) (weightOf weight) R ak.2)) := by
  have fx : field r co.1 = .ok xs := by simp [field, hx]
  have fy : field r co.2 = .ok ys := by simp [field, hy]
  have fv : field r label = .ok vs := by simp [field, hv]
  unfold perAngle
  simp only [if_neg hs, fx, fy, fv, hww, Gmx.ok_bind]
  generalize arange (max 0 amin) (min (360 - size) amax + size) size = out
  have hd : ∀ t, (xs.getD t 0 - origin.1, ys.getD t 0 - origin.2) = (fun b => (valueOf co.1 b - origin.1, valueOf co.2 b - origin.2)) (binAt r t) := by
    intro t; simp only [getD_valueOf hx, getD_valueOf hy]
  rw [← rows_bins r _ _ hd]
  have hlt := fun p hp => row_lt (n := Flow.size r) (d := fun t => (xs.getD t 0 - origin.1, ys.getD t 0 - origin.2)) (amin := max 0 amin) (amax := min (360 - size) amax) (rmin := rmin) (rmax := rmax) (p := p) hp
  generalize rowsWithin (Flow.size r) (fun t => (xs.getD t 0 - origin.1, ys.getD t 0 - origin.2)) (max 0 amin) (min (360 - size) amax) rmin rmax = rows at hlt ⊢
  have hwt : ∀ t, t < Flow.size r → ws.getD t 0 = weightOf weight (binAt r t) := by
    intro t ht
    cases weight with
    | none =>
      simp only [weightsOf, Except.ok.injEq] at hww
      rw [← hww]
      simp [List.getD_eq_getElem?_getD, ht, weightOf]
    | some l =>
      simp only [weightsOf, field] at hww
      cases hl : col? r l with
      | none => rw [hl] at hww; exact absurd hww (by simp)
      | some c =>
        rw [hl] at hww
        injection hww with hww
        rw [← hww, getD_valueOf hl]; rfl
  have hmap : (rows.map fun p => (binAt r p.1, p.2)) ≠ [] ↔ rows ≠ [] := by simp
  simp only [hmap]
  congr 3
  funext ak
  congr 1
  unfold intervalValue
  simp only [List.filter_map, Function.comp_def, List.map_map]
  have hf : ∀ p ∈ rows.filter (fun p => closestIndex out (p.2 - 1 / 2 * (size : ℝ) + 1 / 1000000) == ak.2), p.1 < Flow.size r :=
    fun p hp => hlt p (List.mem_filter.mp hp).1
  generalize rows.filter (fun p => closestIndex out (p.2 - 1 / 2 * (size : ℝ) + 1 / 1000000) == ak.2) = B at hf
  have e1 : (B.map fun p => ws.getD p.1 0) = B.map fun p => weightOf weight (binAt r p.1) := List.map_congr_left fun p hp => hwt p.1 (hf p hp)
  have e2 : (B.map fun p => vs.getD p.1 0 * ws.getD p.1 0) = B.map fun p => valueOf label (binAt r p.1) * weightOf weight (binAt r p.1) :=
    List.map_congr_left fun p hp => by rw [hwt p.1 (hf p hp), getD_valueOf hv]
  rw [e1, e2]
  simp only [ne_eq, List.map_eq_nil_iff]

/-- **C161, samples per angle.** -/
theorem C161_per_angle {f g : Flow} (h : SameMap f g) (origin : ℚ × ℚ) (label : Label) (co : Label × Label) (weight : Option Label) (amin amax rmin : ℚ) (rmax : Option ℚ) (size : ℚ) :
    perAngle f origin label co weight amin amax rmin rmax size = perAngle g origin label co weight amin amax rmin rmax size := by
  by_cases hs : size ≤ 0
  · unfold perAngle; simp only [if_pos hs]
  have herr : ∀ k : Flow, (field k.data co.1 = .error .valueError ∨ field k.data co.2 = .error .valueError ∨ field k.data label = .error .valueError ∨
      weightsOf k.data (Flow.size k.data) weight = .error .valueError) → perAngle k origin label co weight amin amax rmin rmax size = .error .valueError := by
    intro k hk
    have fe : ∀ l e, field k.data l = .error e → e = .valueError := by
      intro l e he; unfold field at he; split at he
      · exact absurd he (by simp)
      · exact (by injection he with he; exact he.symm)
    unfold perAngle
    simp only [if_neg hs]
    cases hx : field k.data co.1 with
    | error e => rw [fe _ _ hx]; rfl
    | ok xs =>
      simp only [Gmx.ok_bind]
      cases hy : field k.data co.2 with
      | error e => rw [fe _ _ hy]; rfl
      | ok ys =>
        simp only [Gmx.ok_bind]
        cases hv : field k.data label with
        | error e => rw [fe _ _ hv]; rfl
        | ok vs =>
          rw [hx, hy, hv] at hk
          simp only [reduceCtorEq, false_or] at hk
          simp only [Gmx.ok_bind, hk]; rfl
  rcases h.field co.1 with ⟨xs, xs', -, -, hx, hx', -, -⟩ | ⟨a, b⟩
  · rcases h.field co.2 with ⟨ys, ys', -, -, hy, hy', -, -⟩ | ⟨a, b⟩
    · rcases h.field label with ⟨vs, vs', -, -, hv, hv', -, -⟩ | ⟨a, b⟩
      · have hR : ∀ D : Bin → ℚ × ℚ, (binAngles (max 0 amin) (min (360 - size) amax) rmin rmax D (bins f.data)).Perm (binAngles (max 0 amin) (min (360 - size) amax) rmin rmax D (bins g.data)) :=
          fun D => h.bins.filterMap _
        have fin : ∀ ws ws', weightsOf f.data (Flow.size f.data) weight = .ok ws → weightsOf g.data (Flow.size g.data) weight = .ok ws' →
            perAngle f origin label co weight amin amax rmin rmax size = perAngle g origin label co weight amin amax rmin rmax size := by
          intro ws ws' hw hw'
          have e1 := perAngle_bins f.info origin label co weight amin amax rmin rmax size hs hx hy hv hw
          have e2 := perAngle_bins g.info origin label co weight amin amax rmin rmax size hs hx' hy' hv' hw'
          rw [show perAngle f origin label co weight amin amax rmin rmax size = _ from e1,
            show perAngle g origin label co weight amin amax rmin rmax size = _ from e2]
          simp only [intervalValue_perm _ _ _ _ (hR _)]
          have : ∀ D : Bin → ℚ × ℚ, (binAngles (max 0 amin) (min (360 - size) amax) rmin rmax D (bins f.data)) ≠ [] ↔
              (binAngles (max 0 amin) (min (360 - size) amax) rmin rmax D (bins g.data)) ≠ [] := by
            intro D
            rw [ne_eq, ne_eq, ← List.length_eq_zero_iff, ← List.length_eq_zero_iff, (hR D).length_eq]
          simp only [this]
        cases weight with
        | none => exact fin _ _ rfl rfl
        | some l =>
          rcases h.field l with ⟨ws, ws', hw, hw', -⟩ | ⟨a, b⟩
          · exact fin ws ws' hw hw'
          · rw [herr f (Or.inr (Or.inr (Or.inr a))), herr g (Or.inr (Or.inr (Or.inr b)))]
      · rw [herr f (Or.inr (Or.inr (Or.inl a))), herr g (Or.inr (Or.inr (Or.inl b)))]
    · rw [herr f (Or.inr (Or.inl a)), herr g (Or.inr (Or.inl b))]
  · rw [herr f (Or.inl a), herr g (Or.inl b)]

/-! ## Arrows -/

theorem cutSystem_alike {c d : List ℚ} (h : c.Perm d) (lims : Option ℚ × Option ℚ) :
    (∃ p : ℚ → Bool, View.cutSystem c lims = .ok (c.map p) ∧ View.cutSystem d lims = .ok (d.map p)) ∨
    ∃ e, View.cutSystem c lims = .error e ∧ View.cutSystem d lims = .error e := by
  unfold View.cutSystem
  rw [Interface.npMin_perm' h, Interface.npMax_perm' h]
  obtain ⟨a, b⟩ := lims
  cases a <;> cases b <;> cases npMin d <;> cases npMax d <;>
    first
    | exact Or.inl ⟨_, rfl, rfl⟩
    | exact Or.inr ⟨_, rfl, rfl⟩

theorem cutoffMask_alike {f g : Flow} (h : SameMap f g) (clim : Option Label × Option ℚ) :
    (∃ (p : Bin → Bool) (m m' : List Bool), View.cutoffMask f.data clim = .ok m ∧ View.cutoffMask g.data clim = .ok m' ∧
      (∀ t, t < Flow.size f.data → m.getD t false = p (binAt f.data t)) ∧ ∀ t, t < Flow.size g.data → m'.getD t false = p (binAt g.data t)) ∨
    ∃ e, View.cutoffMask f.data clim = .error e ∧ View.cutoffMask g.data clim = .error e := by
  unfold View.cutoffMask
  cases clim.1 with
  | none =>
    refine Or.inl ⟨fun _ => true, _, _, rfl, rfl, ?_, ?_⟩ <;> intro t ht <;> simp [List.getD_eq_getElem?_getD, ht]
  | some l =>
    rcases h.field l with ⟨c, d, hc, hd, c1, d1, -, -⟩ | ⟨hc, hd⟩
    · simp only [hc, hd, Gmx.ok_bind]
      rcases cutSystem_alike (h.col c1 d1) (clim.2, none) with ⟨p, e1, e2⟩ | ⟨e, e1, e2⟩
      · refine Or.inl ⟨fun b => p (valueOf l b), _, _, e1, e2, ?_, ?_⟩
        · intro t ht
          rw [View.getD_map_bool _ _ (by rw [col?_length h.left c1]; exact ht), getD_valueOf c1]
        · intro t ht
          rw [View.getD_map_bool _ _ (by rw [col?_length h.right d1]; exact ht), getD_valueOf d1]
      · exact Or.inr ⟨e, e1, e2⟩
    · exact Or.inr ⟨_, by simp only [hc]; rfl, by simp only [hd]; rfl⟩

theorem arrowList_map {α : Type} (l : List α) (a b c d e : α → ℚ) :
    arrowList (l.map a, l.map b, l.map c, l.map d, l.map e) = l.map fun x => (a x, b x, c x, d x, e x) := by
  unfold arrowList
  simp only [List.zip, zipWith_bins]

theorem colour_value {f g : Flow} (h : SameMap f g) (colour : Option Label) :
    ∃ w : Bin → ℚ, (∀ t, t < Flow.size f.data → ((colour.bind (col? f.data)).getD (List.replicate (Flow.size f.data) 1)).getD t 0 = w (binAt f.data t)) ∧
      ∀ t, t < Flow.size g.data → ((colour.bind (col? g.data)).getD (List.replicate (Flow.size g.data) 1)).getD t 0 = w (binAt g.data t) := by
  have hone : ∀ n t : ℕ, t < n → (List.replicate n (1 : ℚ)).getD t 0 = 1 := by intro n t ht; simp [List.getD_eq_getElem?_getD, ht]
  cases colour with
  | none => exact ⟨fun _ => 1, fun t ht => hone _ _ ht, fun t ht => hone _ _ ht⟩
  | some l =>
    simp only [Option.bind_some]
    rcases h.field l with ⟨c, d, -, -, c1, d1, -, -⟩ | ⟨hc, hd⟩
    · rw [c1, d1]
      exact ⟨valueOf l, fun t _ => getD_valueOf c1 t, fun t _ => getD_valueOf d1 t⟩
    · have n1 : col? f.data l = none := by
        unfold Average.field at hc; split at hc
        · exact absurd hc (by simp)
        · assumption
      rw [n1, h.col_none n1]
      exact ⟨fun _ => 1, fun t ht => hone _ _ ht, fun t ht => hone _ _ ht⟩

theorem quiver_rows {r : Record} {lx ly lu lv : Label} {xs ys us vs : List ℚ} (hx : col? r lx = some xs) (hy : col? r ly = some ys)
    (hu : col? r lu = some us) (hv : col? r lv = some vs) {mx my mc : List Bool} {ws : List ℚ} {p q o : Bin → Bool} {w : Bin → ℚ}
    (h1 : ∀ t, t < Flow.size r → mx.getD t false = p (binAt r t)) (h2 : ∀ t, t < Flow.size r → my.getD t false = q (binAt r t))
    (h3 : ∀ t, t < Flow.size r → mc.getD t false = o (binAt r t)) (h4 : ∀ t, t < Flow.size r → ws.getD t 0 = w (binAt r t)) (I : List ℕ)
    (hI : I = (List.range (Flow.size r)).filter fun t : ℕ =>
      decide (us.getD t 0 ≠ 0) && decide (vs.getD t 0 ≠ 0) && mx.getD t false && my.getD t false && mc.getD t false) :
    arrowList (pick I xs, pick I ys, pick I us, pick I vs, pick I ws) =
      ((bins r).filter fun b => decide (valueOf lu b ≠ 0) && decide (valueOf lv b ≠ 0) && p b && q b && o b).map
        fun b => (valueOf lx b, valueOf ly b, valueOf lu b, valueOf lv b, w b) := by
  unfold pick
  rw [arrowList_map]
  unfold bins
  rw [List.filter_map, List.map_map]
  have : I = (List.range (Flow.size r)).filter ((fun b => decide (valueOf lu b ≠ 0) && decide (valueOf lv b ≠ 0) && p b && q b && o b) ∘ binAt r) := by
    rw [hI]
    apply List.filter_congr
    intro t ht
    have ht := List.mem_range.mp ht
    simp only [Function.comp_def, h1 t ht, h2 t ht, h3 t ht, getD_valueOf hu, getD_valueOf hv]
  rw [← this]
  apply List.map_congr_left
  intro t ht
  have : t < Flow.size r := by rw [hI] at ht; exact List.mem_range.mp (List.mem_filter.mp ht).1
  simp only [Function.comp_def, h4 t this, getD_valueOf hx, getD_valueOf hy, getD_valueOf hu, getD_valueOf hv]

/-- **C161, arrows.** -/
theorem C161_arrows {f g : Flow} (h : SameMap f g) (labels coords : Label × Label) (colour : Option Label) (clim : Option Label × Option ℚ)
    (xlim ylim : Option ℚ × Option ℚ) :
    Alike (fun a b => (arrowList a).Perm (arrowList b)) (View.quiver f.data labels coords colour clim xlim ylim)
      (View.quiver g.data labels coords colour clim xlim ylim) := by
  unfold View.quiver
  rcases h.field coords.1 with ⟨xs, xs', x1, x2, hx, hx', -, -⟩ | ⟨a, b⟩
  swap
  · exact Or.inr ⟨_, by simp only [a]; rfl, by simp only [b]; rfl⟩
  rcases h.field coords.2 with ⟨ys, ys', y1, y2, hy, hy', -, -⟩ | ⟨a, b⟩
  swap
  · exact Or.inr ⟨_, by simp only [x1, a, Gmx.ok_bind]; rfl, by simp only [x2, b, Gmx.ok_bind]; rfl⟩
  rcases h.field labels.1 with ⟨us, us', u1, u2, hu, hu', -, -⟩ | ⟨a, b⟩
  swap
  · exact Or.inr ⟨_, by simp only [x1, y1, a, Gmx.ok_bind]; rfl, by simp only [x2, y2, b, Gmx.ok_bind]; rfl⟩
  rcases h.field labels.2 with ⟨vs, vs', v1, v2, hv, hv', -, -⟩ | ⟨a, b⟩
  swap
  · exact Or.inr ⟨_, by simp only [x1, y1, u1, a, Gmx.ok_bind]; rfl, by simp only [x2, y2, u2, b, Gmx.ok_bind]; rfl⟩
  simp only [x1, x2, y1, y2, u1, u2, v1, v2, Gmx.ok_bind]
  rcases cutSystem_alike (h.col hx hx') xlim with ⟨p, p1, p2⟩ | ⟨e, a, b⟩
  swap
  · exact Or.inr ⟨e, by simp only [a]; rfl, by simp only [b]; rfl⟩
  rcases cutSystem_alike (h.col hy hy') ylim with ⟨q, q1, q2⟩ | ⟨e, a, b⟩
  swap
  · exact Or.inr ⟨e, by simp only [p1, a, Gmx.ok_bind]; rfl, by simp only [p2, b, Gmx.ok_bind]; rfl⟩
  rcases cutoffMask_alike h clim with ⟨o, m, m', o1, o2, o3, o4⟩ | ⟨e, a, b⟩
  swap
  · exact Or.inr ⟨e, by simp only [p1, q1, a, Gmx.ok_bind]; rfl, by simp only [p2, q2, b, Gmx.ok_bind]; rfl⟩
  simp only [p1, p2, q1, q2, o1, o2, Gmx.ok_bind]
  obtain ⟨w, w1, w2⟩ := colour_value h colour
  have mask : ∀ {r : Record} (_ : Wf r) {l : Label} {c : List ℚ} (_ : col? r l = some c) (k : ℚ → Bool) (t : ℕ), t < Flow.size r →
      (c.map k).getD t false = (fun b => k (valueOf l b)) (binAt r t) := by
    intro r hr l c hc k t ht
    rw [View.getD_map_bool _ _ (by rw [col?_length hr hc]; exact ht), getD_valueOf hc]
  refine Or.inl ⟨_, _, rfl, rfl, ?_⟩
  beta_reduce
  rw [quiver_rows (mx := xs.map p) (my := ys.map q) (p := fun b => p (valueOf coords.1 b)) (q := fun b => q (valueOf coords.2 b)) hx hy hu hv (mask h.left hx p) (mask h.left hy q) o3 w1 _ rfl,
    quiver_rows (mx := xs'.map p) (my := ys'.map q) (p := fun b => p (valueOf coords.1 b)) (q := fun b => q (valueOf coords.2 b)) hx' hy' hu' hv' (mask h.right hx' p) (mask h.right hy' q) o4 w2 _ rfl]
  exact (h.bins.filter _).map _

/-! ## Averages -/

theorem sortAll {maps maps' : List Flow} (h : List.Forall₂ SameMap maps maps') : (maps.mapM fun f => sort f) = maps'.mapM fun f => sort f := by
  induction h with
  | nil => rfl
  | cons h _ ih => rw [List.mapM_cons, List.mapM_cons, h.sort, ih]

/-- **C161, averages (partial).**  Maps that are sorted before they are averaged. -/
theorem C161_average_sorted_partial (huge : ℚ) {maps maps' : List Flow} (h : List.Forall₂ SameMap maps maps') (ws : List (Label × Label)) (ex : Bool)
    (co : Label × Label) :
    ((maps.mapM fun f => sort f) >>= fun m => averageFlowData huge m ws ex co) =
      (maps'.mapM fun f => sort f) >>= fun m => averageFlowData huge m ws ex co := by
  rw [sortAll h]

/-- A map of two columns and two rows from (0, 0), stored row by row. -/
def exRows : Flow := ⟨[("X", [0, 1, 0, 1]), ("Y", [0, 0, 1, 1]), ("M", [1, 2, 3, 4])], { shape := some (2, 2), spacing := some (1, 1) }⟩
/-- The same map stored column by column, as maps are read from gmx files. -/
def exCols : Flow := ⟨[("X", [0, 0, 1, 1]), ("Y", [0, 1, 0, 1]), ("M", [1, 3, 2, 4])], { shape := some (2, 2), spacing := some (1, 1) }⟩
/-- The next map, from (1, 0), stored row by row. -/
def exRows1 : Flow := ⟨[("X", [1, 2, 1, 2]), ("Y", [0, 0, 1, 1]), ("M", [6, 8, 10, 12])], { shape := some (2, 2), spacing := some (1, 1) }⟩
/-- The next map stored column by column. -/
def exCols1 : Flow := ⟨[("X", [1, 1, 2, 2]), ("Y", [0, 1, 0, 1]), ("M", [6, 10, 8, 12])], { shape := some (2, 2), spacing := some (1, 1) }⟩

theorem exSame : SameMap exRows exCols := ⟨⟨by decide, by decide⟩, ⟨by decide, by decide⟩, rfl, rfl, by decide +kernel⟩
theorem exSame1 : SameMap exRows1 exCols1 := ⟨⟨by decide, by decide⟩, ⟨by decide, by decide⟩, rfl, rfl, by decide +kernel⟩

/-- **C161, averages (counterexample).**  Two pairs of maps with the same bins: stored row by row the mean mass at (0, 1) is 3/2,
the half of the only map that covers it; stored column by column (as gmx files are read) it is 9/2, half the sum of the first map at (0, 1) and
the second one at (1, 0). -/
theorem C161_average_counterexample (huge : ℚ) : SameMap exRows exCols ∧ SameMap exRows1 exCols1 ∧
    ∃ a b, averageFlowData huge [exRows, exRows1] = .ok a ∧ averageFlowData huge [exCols, exCols1] = .ok b ∧
      a.info = b.info ∧ [("X", 0), ("Y", 1), ("M", 3 / 2)] ∈ bins a.data ∧ [("X", 0), ("Y", 1), ("M", 9 / 2)] ∈ bins b.data ∧
      [("X", 0), ("Y", 1), ("M", 9 / 2)] ∉ bins a.data :=
  ⟨exSame, exSame1,
    ⟨[("X", [0, 1, 2, 0, 1, 2]), ("Y", [0, 0, 0, 1, 1, 1]), ("M", [1 / 2, 4, 4, 3 / 2, 7, 6])],
      { shape := some (3, 2), origin := some (0, 0), spacing := some (1, 1), numBins := some 6 }⟩,
    ⟨[("X", [0, 0, 2, 1, 1, 2]), ("Y", [0, 1, 0, 0, 1, 1]), ("M", [1 / 2, 9 / 2, 5, 1, 6, 6])],
      { shape := some (3, 2), origin := some (0, 0), spacing := some (1, 1), numBins := some 6 }⟩,
    (show averageFlowData huge [exRows, exRows1] = averageFlowData 0 [exRows, exRows1] from rfl).trans (by decide +kernel),
    (show averageFlowData huge [exCols, exCols1] = averageFlowData 0 [exCols, exCols1] from rfl).trans (by decide +kernel),
    rfl, by decide +kernel, by decide +kernel, by decide +kernel⟩

/-! ## Cases -/

/-- A map of three columns and three rows, stored row by row. -/
def exMap : Flow := ⟨[("X", [0, 1, 2, 0, 1, 2, 0, 1, 2]), ("Y", [0, 0, 0, 1, 1, 1, 2, 2, 2]), ("M", [1, 2, 3, 4, 5, 6, 7, 8, 9]), ("U", [1, 0, 2, 3, 1, 0, 1, 1, 2]),
  ("V", [1, 1, 0, 2, 1, 1, 3, 0, 1])], { shape := some (3, 3), spacing := some (1, 1), origin := some (0, 0), numBins := some 9 }⟩
/-- The same map stored column by column. -/
def exMapCols : Flow := ⟨[("X", [0, 0, 0, 1, 1, 1, 2, 2, 2]), ("Y", [0, 1, 2, 0, 1, 2, 0, 1, 2]), ("M", [1, 4, 7, 2, 5, 8, 3, 6, 9]), ("U", [1, 3, 1, 0, 1, 1, 2, 0, 2]),
  ("V", [1, 2, 3, 1, 1, 0, 0, 1, 1])], { shape := some (3, 3), spacing := some (1, 1), origin := some (0, 0), numBins := some 9 }⟩

theorem exMapSame : SameMap exMap exMapCols := ⟨⟨by decide, by decide⟩, ⟨by decide, by decide⟩, rfl, rfl, by decide +kernel⟩

-- the theorems apply to calls that succeed
example : centerOfMass exMapCols "M" ["X", "Y"] = .ok [17 / 15, 7 / 5] := by decide +kernel
example : (viscousDissipation exMapCols 1 ("X", "Y") ("U", "V") (some "M")).isOk = true := by decide +kernel
example : (View.evaporation exMapCols).isOk = true := by decide +kernel
example : (Resample.downsample exMapCols (3, 1) ("X", "Y") [("U", "M")] (none, none) (none, none)).toOption.map (·.data) =
    some [("X", [1, 1, 1]), ("Y", [0, 1, 2]), ("M", [6, 15, 24]), ("U", [7 / 6, 17 / 15, 11 / 8]), ("V", [2, 4, 4])] := by decide +kernel
example : (Resample.supersample exMapCols (some 2) ("X", "Y") [("U", "M")]).isOk = true := by decide +kernel
example : (cut exMapCols (some 1, none) (none, some 1)).isOk = true := by decide +kernel
example : (inertialEnergy exMapCols "M" ("U", "V")).toOption.map List.length = some 9 := by decide +kernel
example : (View.quiver exMapCols.data ("U", "V") ("X", "Y") none (some "M", some 2) (some 1, none) (none, none)).toOption.map arrowList =
    some [(1, 1, 1, 1, 1), (2, 2, 2, 1, 1)] := by decide +kernel
-- the results are not the same lists: the order of the arrows follows that of the bins
example : inertialEnergy exMap "M" ("U", "V") ≠ inertialEnergy exMapCols "M" ("U", "V") := by decide +kernel

end Strata.Flow
