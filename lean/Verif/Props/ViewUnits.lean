import Verif.Props.SampleUnits
import Verif.Props.View
/-! # C169: the colours of flow maps in other units -/
namespace Strata.View
open Strata Strata.Flow Strata.Average Strata.Sample

variable {u : FieldUnits}

theorem newName_fields (f : Flow) (l : Label) : newName (u.flow f).data l = newName f.data l := by
  unfold newName
  rw [names_fields]

theorem gradient1_units (n : ℕ) (h L k : ℚ) (c : ℕ → ℚ) (i : ℕ) : gradient1 n (L * h) (fun j => k * c j) i = k / L * gradient1 n h c i := by
  unfold gradient1
  split_ifs
  · simp only [div_eq_mul_inv, mul_inv]; ring
  · simp only [div_eq_mul_inv, mul_inv]; ring
  · simp only [div_eq_mul_inv, mul_inv]; ring

theorem massOnGrid_units (h : u.Valid) (f : Flow) (hw : Wf f.data) :
    massOnGrid (u.flow f) = (massOnGrid f).map fun p => (u.flow p.1, p.2.1, p.2.2.1, u.lengths p.2.2.2.1, p.2.2.2.2.map (u.factor "M" * ·)) := by
  unfold massOnGrid
  rw [sort_fields h f hw]
  cases hs : sort f with
  | error e => rfl
  | ok g =>
    simp only [Except.map, bind, Except.bind]
    show (match f.info.shape with | none => _ | some (nx, ny) => _) = _
    cases f.info.shape with
    | none => rfl
    | some n =>
      obtain ⟨nx, ny⟩ := n
      simp only
      rw [size_fields]
      by_cases hc : nx < 0 ∨ ny < 0 ∨ (Flow.size g.data : ℤ) ≠ nx * ny
      · rw [if_pos hc, if_pos hc]
      rw [if_neg hc, if_neg hc, field_fields]
      cases field g.data "M" with
      | error e => rfl
      | ok m =>
        simp only [Except.map]
        by_cases hn : nx < 2 ∨ ny < 2
        · rw [if_pos hn, if_pos hn]
        rw [if_neg hn, if_neg hn]
        show (match f.info.spacing.map u.lengths with | none => _ | some sp => _) = _
        cases f.info.spacing with
        | none => rfl
        | some sp =>
          simp only [Option.map_some]
          rw [map_plain (by decide) (by decide)]

/-- **C169, density gradient, as coded.**  With different units along x and y: the gradient along x is divided by the unit along y and that along y by the unit along x (the spacings are swapped, C71). -/
theorem C169_density_gradient_as_coded (u : FieldUnits) (h : u.Valid) (f : Flow) (hw : Wf f.data) :
    densityGradient (u.flow f) = (densityGradient f).map fun p =>
      (u.flow p.1, p.2.1.map fun d => d.map (u.factor "M" / u.factor "Y" * ·), p.2.2.map fun d => d.map (u.factor "M" / u.factor "X" * ·)) := by
  unfold densityGradient
  rw [massOnGrid_units h f hw]
  cases massOnGrid f with
  | error e => rfl
  | ok p =>
    obtain ⟨g, nx, ny, sp, m⟩ := p
    simp only [Except.map, bind, Except.bind]
    rw [newName_fields, newName_fields]
    cases newName g.data "grad_rho_x" with
    | error e => rfl
    | ok _ =>
      cases newName g.data "grad_rho_y" with
      | error e => rfl
      | ok _ =>
        have z : ∀ l (a : ℚ), u.factor l * a = 0 ↔ a = 0 := fun l a => by rw [mul_eq_zero]; exact ⟨fun e => e.resolve_left (h l).ne', .inr⟩
        simp only [FieldUnits.lengths, massGradients, getD_factor, gradient1_units, List.map_map, z]
        congr 3 <;> (refine List.map_congr_left fun t _ => ?_; simp only [Function.comp]; split <;> rfl)

/-- **C169, density gradient.**  In other units of length (the same one along x and y) and mass, the gradients of all bins are multiplied by the unit of mass and divided by that of length, and they are found for
the same maps. -/
theorem C169_density_gradient (u : FieldUnits) (h : u.Valid) (f : Flow) (hw : Wf f.data) (hxy : u.factor "Y" = u.factor "X") :
    densityGradient (u.flow f) = (densityGradient f).map fun p =>
      (u.flow p.1, p.2.1.map fun d => d.map (u.factor "M" / u.factor "X" * ·), p.2.2.map fun d => d.map (u.factor "M" / u.factor "X" * ·)) := by
  rw [C169_density_gradient_as_coded u h f hw, hxy]

/-- **C169, evaporation.**  In other units of length and flow (the same ones along x and y) and mass, the evaporation of all bins is multiplied by the units of flow and mass and divided by that of length. -/
theorem C169_evaporation (u : FieldUnits) (h : u.Valid) (f : Flow) (hw : Wf f.data) (hxy : u.factor "Y" = u.factor "X") (huv : u.factor "V" = u.factor "U") :
    evaporation (u.flow f) = (evaporation f).map fun p => (u.flow p.1, p.2.map fun d => d.map (u.factor "U" * u.factor "M" / u.factor "X" * ·)) := by
  unfold evaporation
  rw [massOnGrid_units h f hw]
  cases massOnGrid f with
  | error e => rfl
  | ok p =>
    obtain ⟨g, nx, ny, sp, m⟩ := p
    simp only [Except.map, bind, Except.bind]
    rw [newName_fields, field_fields, field_fields]
    cases field g.data "U" with
    | error e => rfl
    | ok us =>
      cases field g.data "V" with
      | error e => rfl
      | ok vs =>
        cases newName g.data "evaporation" with
        | error e => rfl
        | ok _ =>
          have hL := (h "X").ne'
          have z : ∀ a : ℚ, u.factor "X" * a = 0 ↔ a = 0 := fun a => by rw [mul_eq_zero]; exact ⟨fun e => e.resolve_left hL, .inr⟩
          simp only [Except.map]
          rw [map_plain (by decide) (by decide), map_plain (by decide) (by decide)]
          simp only [FieldUnits.lengths, hxy, huv, massGradients, getD_factor, gradient1_units, List.map_map, z]
          congr 2
          refine List.map_congr_left fun t _ => ?_
          simp only [Function.comp]
          split
          · rfl
          · simp only [Option.map_some]
            congr 1
            ring

/-- **C169, absolute flow.**  It is in the unit of the flow. -/
theorem C169_absolute_flow (u : FieldUnits) (h : u.Valid) (f : Flow) (huv : u.factor "V" = u.factor "U") :
    absoluteFlow (u.flow f).data = (absoluteFlow f.data).map fun c => c.map ((u.factor "U" : ℝ) * ·) := by
  unfold absoluteFlow
  rw [newName_fields, field_fields, field_fields]
  cases field f.data "U" with
  | error e => rfl
  | ok us =>
    cases field f.data "V" with
    | error e => rfl
    | ok vs =>
      cases newName f.data "flow" with
      | error e => rfl
      | ok _ =>
        simp only [Except.map, bind, Except.bind]
        rw [map_plain (by decide) (by decide), map_plain (by decide) (by decide), List.zipWith_map, huv, List.map_zipWith]
        congr 2
        funext a b
        have hU : (0 : ℝ) ≤ (u.factor "U" : ℝ) := by exact_mod_cast (h "U").le
        push_cast
        rw [show ((u.factor "U" : ℝ) * (a : ℝ)) ^ 2 + ((u.factor "U" : ℝ) * (b : ℝ)) ^ 2 = (u.factor "U" : ℝ) ^ 2 * ((a : ℝ) ^ 2 + (b : ℝ) ^ 2) by ring, Real.sqrt_mul (sq_nonneg _),
          Real.sqrt_sq hU]

theorem mapM_len {α β : Type} {F : α → Except Err β} : ∀ {l : List α} {r : List β}, l.mapM F = .ok r → r.length = l.length
  | [], r, h => by rw [List.mapM_nil] at h; injection h with h; subst h; rfl
  | a :: l, r, h => by
    rw [List.mapM_cons] at h
    cases ha : F a with
    | error e => rw [ha] at h; cases h
    | ok b =>
      rw [ha, Gmx.ok_bind] at h
      cases hl : l.mapM F with
      | error e => rw [hl] at h; cases h
      | ok bs =>
        rw [hl, Gmx.ok_bind] at h
        injection h with h
        subst h
        simp [mapM_len hl]

/-- **C169, radial flow.**  Around the centre of mass it is in the unit of the flow, whatever the units of length (the same one along x and y) and mass and the position of the zero of the coordinates. -/
theorem C169_radial_flow (u : FieldUnits) (h : u.Valid) (f : Flow) (hw : Wf f.data) (hxy : u.factor "Y" = u.factor "X") (huv : u.factor "V" = u.factor "U") :
    radialColour (u.flow f) = (radialColour f).map fun c => c.map ((u.factor "U" : ℝ) * ·) := by
  unfold radialColour
  rw [C156_centre_of_mass u h f hw]
  cases hc : centerOfMass f with
  | error e => rfl
  | ok c =>
    simp only [Except.map, bind, Except.bind]
    match c with
    | [] => rfl
    | [_] => rfl
    | _ :: _ :: _ :: _ => 
      exfalso
      unfold centerOfMass at hc
      have := mapM_len hc
      simp at this
    | [x, y] =>
      simp only [List.zipWith_cons_cons, List.zipWith_nil_left]
      unfold radialFlow
      rw [newName_fields, field_fields, field_fields, field_fields, field_fields, size_fields]
      cases hy : field f.data "Y" with
      | error e => rfl
      | ok ys =>
        cases hx : field f.data "X" with
        | error e => rfl
        | ok xs =>
          cases field f.data "U" with
          | error e => rfl
          | ok us =>
            cases field f.data "V" with
            | error e => rfl
            | ok vs =>
              cases newName f.data "radial" with
              | error e => rfl
              | ok _ =>
                simp only [Except.map, bind, Except.bind]
                rw [map_plain (l := "U") (by decide) (by decide), map_plain (l := "V") (by decide) (by decide), List.map_map]
                refine congrArg _ (List.map_congr_left fun t ht => ?_)
                rw [List.mem_range] at ht
                simp only [Function.comp]
                rw [getD_value (c := xs) (by rw [field_length hw hx]; exact ht), getD_value (c := ys) (by rw [field_length hw hy]; exact ht), getD_factor, getD_factor, huv]
                have e1 : u.value "X" (xs.getD t 0) - u.value "X" x = u.factor "X" * (xs.getD t 0 - x) := by unfold FieldUnits.value; ring
                have e2 : u.value "Y" (ys.getD t 0) - u.value "Y" y = u.factor "X" * (ys.getD t 0 - y) := by unfold FieldUnits.value; rw [hxy]; ring
                rw [e1, e2, arctan2_scale _ _ _ (h "X")]
                push_cast
                ring

/-- A map with 2 × 2 bins, and the same in other units (lengths halved and moved by 3, flow times 10, mass times 5). -/
def exView : Flow := ⟨[("X", [0, 2, 0, 2]), ("Y", [0, 0, 2, 2]), ("M", [1, 5, 3, 9]), ("U", [1, 0, 0, 2]), ("V", [0, 1, 0, 3])], { shape := some (2, 2), spacing := some (2, 2) }⟩
def exViewUnits : FieldUnits := { factor := fun l => if l = "X" ∨ l = "Y" then 1 / 2 else if l = "M" then 5 else if l = "U" ∨ l = "V" then 10 else 1, x0 := 3 }

/-- The hypotheses are met, and the gradients of a non-trivial map are those that the theorem says. -/
example : exViewUnits.Valid ∧ Wf exView.data ∧ exViewUnits.factor "Y" = exViewUnits.factor "X" ∧ exViewUnits.factor "V" = exViewUnits.factor "U" ∧
    ((densityGradient exView).toOption.map fun p => p.2.1) = some [some 2, some 2, some 3, some 3] ∧
    ((densityGradient (exViewUnits.flow exView)).toOption.map fun p => p.2.1) = some [some 20, some 20, some 30, some 30] ∧
    ((evaporation exView).toOption.map fun p => p.2) = some [some 2, some 2, some 0, some 12] ∧
    ((evaporation (exViewUnits.flow exView)).toOption.map fun p => p.2) = some [some 200, some 200, some 0, some 1200] := by
  refine ⟨?_, ⟨by decide, by decide⟩, by decide +kernel, by decide +kernel, by decide +kernel, by decide +kernel, by decide +kernel, by decide +kernel⟩
  intro l
  unfold exViewUnits
  simp only
  split_ifs <;> norm_num

end Strata.View
