import Verif.Props.SimpleAverage
import Verif.Proofs.AverageProps
/-!
# C128: averaging in stages and in any order
-/
namespace Strata.SimpleAverage
open Strata Strata.Flow Strata.Average Strata.Gmx Strata.Simple

/-- Masses and numbers are not negative. -/
def Weighted (d : Record) (n : ℕ) : Prop := ∀ l ∈ ["M", "N"], ∀ t, t < n → 0 ≤ val d l t

/-- What `average_data` returns, for maps with weights that are not negative. -/
structure IsAverage (ds : List Record) (n : ℕ) (r : Record) : Prop where
  fields : names r = ["X", "Y", "M", "N", "U", "V", "T"]
  sizes : ∀ c ∈ r, c.2.length = n
  first : ∀ d0 rest, ds = d0 :: rest → ∀ t, t < n → val r "X" t = val d0 "X" t ∧ val r "Y" t = val d0 "Y" t
  mean : ∀ l ∈ ["M", "N"], ∀ t, t < n → val r l t = sumOver ds l t / (ds.length : ℚ)
  weighted : ∀ p ∈ [("U", "M"), ("V", "M"), ("T", "N")], ∀ t, t < n →
    val r p.1 t = if sumOver ds p.2 t = 0 then 0 else sumOver2 ds p.1 p.2 t / sumOver ds p.2 t

theorem sumOver2_zero {ds : List Record} {n : ℕ} (hp : ∀ d ∈ ds, Weighted d n) {l w : Label} (hw : w ∈ ["M", "N"]) {t : ℕ} (ht : t < n)
    (h : sumOver ds w t = 0) : sumOver2 ds l w t = 0 := by
  unfold sumOver at h
  have hz := sum_zero_of_nonneg _ (by
    intro x hx
    obtain ⟨d, hd, rfl⟩ := List.mem_map.mp hx
    exact hp d hd w hw t ht) h
  unfold sumOver2
  apply List.sum_eq_zero
  intro x hx
  obtain ⟨d, hd, rfl⟩ := List.mem_map.mp hx
  rw [hz _ (List.mem_map.mpr ⟨d, hd, rfl⟩), mul_zero]

theorem weight_mem {p : Label × Label} (hp : p ∈ [("U", "M"), ("V", "M"), ("T", "N")]) : p.2 ∈ ["M", "N"] := by
  simp only [List.mem_cons, List.not_mem_nil, or_false] at hp
  rcases hp with rfl | rfl | rfl <;> simp

/-- The result of a call that returns. -/
theorem averageData_is {ds : List Record} {n : ℕ} {atol rtol : ℚ} (hne : ds ≠ []) (hf : ∀ d ∈ ds, HasFields d n) (hp : ∀ d ∈ ds, Weighted d n) {r : Record}
    (hr : averageData ds atol rtol = .ok r) : IsAverage ds n r := by
  obtain ⟨d0, rest, rfl⟩ := List.exists_cons_of_ne_nil hne
  have hc : ∀ d ∈ rest, Close atol rtol n d0 d := by
    intro d hd l hl t ht
    by_contra hcon
    have := C54_coordinates_differ d0 rest n atol rtol hf ⟨d, hd, l, hl, t, ht, not_le.mp hcon⟩
    rw [hr] at this
    cases this
  obtain ⟨r', hr', h1, h2, h3⟩ := C54_average d0 rest n atol rtol hf hc
  rw [hr] at hr'
  obtain rfl := Except.ok.inj hr'
  refine ⟨h1, h2, ?_, ?_, ?_⟩
  · intro d0' rest' he t ht
    rw [List.cons.injEq] at he
    rw [← he.1]
    exact ⟨(h3 t ht).1, (h3 t ht).2.1⟩
  · intro l hl t ht
    rw [(h3 t ht).2.2.1 l hl, List.length_cons]
    push_cast
    rfl
  · intro p hpm t ht
    obtain ⟨a1, a2⟩ := (h3 t ht).2.2.2 p hpm
    by_cases hz : sumOver (d0 :: rest) p.2 t = 0
    · rw [if_pos hz]
      refine a2 ?_
      intro d hd
      have := sum_zero_of_nonneg _ (by
        intro x hx
        obtain ⟨d, hd, rfl⟩ := List.mem_map.mp hx
        exact hp d hd p.2 (weight_mem hpm) t ht) hz
      exact this _ (List.mem_map.mpr ⟨d, hd, rfl⟩)
    · rw [if_neg hz]
      exact a1 hz

theorem IsAverage.hasFields {ds : List Record} {n : ℕ} {r : Record} (h : IsAverage ds n r) : HasFields r n := by
  intro l hl
  have hl' : l ∈ names r := by
    rw [h.fields]
    simp only [List.mem_cons, List.not_mem_nil, or_false] at hl ⊢
    tauto
  obtain ⟨c, hc, rfl⟩ := List.mem_map.mp hl'
  obtain ⟨c', hc'⟩ := (col?_isSome_iff r c.1).mpr hl'
  exact ⟨c', hc', h.sizes _ (lookup_mem hc')⟩

theorem sumOver_nonneg {ds : List Record} {n : ℕ} (hp : ∀ d ∈ ds, Weighted d n) {w : Label} (hw : w ∈ ["M", "N"]) {t : ℕ} (ht : t < n) : 0 ≤ sumOver ds w t := by
  unfold sumOver
  refine List.sum_nonneg ?_
  intro x hx
  obtain ⟨d, hd, rfl⟩ := List.mem_map.mp hx
  exact hp d hd w hw t ht

theorem IsAverage.nonneg {ds : List Record} {n : ℕ} {r : Record} (h : IsAverage ds n r) (hp : ∀ d ∈ ds, Weighted d n) : Weighted r n := by
  intro l hl t ht
  rw [h.mean l hl t ht]
  exact div_nonneg (sumOver_nonneg hp hl ht) (by positivity)

/-- Momentum and the like are averaged. -/
theorem IsAverage.momentum {ds : List Record} {n : ℕ} {r : Record} (h : IsAverage ds n r) (hp : ∀ d ∈ ds, Weighted d n)
    {p : Label × Label} (hpm : p ∈ [("U", "M"), ("V", "M"), ("T", "N")]) {t : ℕ} (ht : t < n) :
    val r p.1 t * val r p.2 t = sumOver2 ds p.1 p.2 t / (ds.length : ℚ) := by
  rw [h.weighted p hpm t ht, h.mean p.2 (weight_mem hpm) t ht]
  by_cases hz : sumOver ds p.2 t = 0
  · rw [if_pos hz, sumOver2_zero hp (weight_mem hpm) ht hz]
    simp
  · rw [if_neg hz, div_mul_div_comm, mul_comm (sumOver2 ds p.1 p.2 t), mul_div_mul_left _ _ hz]

/-- Two averages with the same values are the same. -/
theorem average_ext {r r' : Record} {n : ℕ} (h1 : names r = ["X", "Y", "M", "N", "U", "V", "T"]) (h2 : ∀ c ∈ r, c.2.length = n)
    (h1' : names r' = ["X", "Y", "M", "N", "U", "V", "T"]) (h2' : ∀ c ∈ r', c.2.length = n)
    (hv : ∀ l ∈ ["X", "Y", "M", "N", "U", "V", "T"], ∀ t, t < n → val r l t = val r' l t) : r = r' := by
  have hs : ∀ q : Record, names q = ["X", "Y", "M", "N", "U", "V", "T"] → (∀ c ∈ q, c.2.length = n) → Wf q ∧ Flow.size q = n := by
    intro q hq hl
    obtain ⟨c, q', rfl⟩ : ∃ c q', q = c :: q' := by
      cases q with
      | nil => cases hq
      | cons c q' => exact ⟨c, q', rfl⟩
    have hsz : Flow.size (c :: q') = n := hl c (by simp)
    exact ⟨⟨by rw [hq]; decide, fun c' hc' => by rw [hsz]; exact hl c' hc'⟩, hsz⟩
  obtain ⟨w1, z1⟩ := hs r h1 h2
  obtain ⟨w2, z2⟩ := hs r' h1' h2'
  refine record_ext_val w1 w2 (h1.trans h1'.symm) (z1.trans z2.symm) ?_
  intro l hl t ht
  rw [h1] at hl
  exact hv l hl t (by rwa [z1] at ht)

theorem sum_forall₂ {α β : Type} {f : α → ℚ} {g : β → ℚ} {as : List α} {bs : List β} (h : List.Forall₂ (fun a b => f a = g b) as bs) :
    (as.map f).sum = (bs.map g).sum := by
  induction h with
  | nil => rfl
  | cons h _ ih => rw [List.map_cons, List.map_cons, List.sum_cons, List.sum_cons, h, ih]

theorem sumOver_flatten (gs : List (List Record)) (l : Label) (t : ℕ) : sumOver gs.flatten l t = (gs.map fun g => sumOver g l t).sum := by
  unfold sumOver
  induction gs with
  | nil => rfl
  | cons g gs ih => rw [List.flatten_cons, List.map_append, List.sum_append, ih, List.map_cons, List.sum_cons]

theorem sumOver2_flatten (gs : List (List Record)) (l w : Label) (t : ℕ) : sumOver2 gs.flatten l w t = (gs.map fun g => sumOver2 g l w t).sum := by
  unfold sumOver2
  induction gs with
  | nil => rfl
  | cons g gs ih => rw [List.flatten_cons, List.map_append, List.sum_append, ih, List.map_cons, List.sum_cons]

theorem sum_div {α : Type} (l : List α) (f : α → ℚ) (k : ℚ) : (l.map fun a => f a / k).sum = (l.map f).sum / k := by
  induction l with
  | nil => simp
  | cons a l ih => rw [List.map_cons, List.map_cons, List.sum_cons, List.sum_cons, ih, add_div]

/-- **C128, in stages.** The average of the averages of groups of `k` maps each is the average of all maps. -/
theorem C128_stages (gs : List (List Record)) (k n : ℕ) (hk : 0 < k) (hne : gs ≠ []) (hlen : ∀ g ∈ gs, g.length = k)
    (hf : ∀ g ∈ gs, ∀ d ∈ g, HasFields d n) (hp : ∀ g ∈ gs, ∀ d ∈ g, Weighted d n) (atol rtol : ℚ) (avgs : List Record)
    (h1 : List.Forall₂ (fun g a => averageData g atol rtol = .ok a) gs avgs) (r r' : Record)
    (h2 : averageData avgs atol rtol = .ok r) (h3 : averageData gs.flatten atol rtol = .ok r') : r = r' := by
  have hA : List.Forall₂ (fun g a => g ∈ gs ∧ IsAverage g n a) gs avgs := by
    rw [List.forall₂_iff_get] at h1 ⊢
    refine ⟨h1.1, ?_⟩
    intro i hi hi'
    have hg : gs.get ⟨i, hi⟩ ∈ gs := List.get_mem _ _
    refine ⟨hg, averageData_is ?_ (hf _ hg) (hp _ hg) (h1.2 i hi hi')⟩
    intro h0
    have := hlen _ hg
    rw [h0, List.length_nil] at this
    omega
  have hmemA : ∀ a ∈ avgs, ∃ g ∈ gs, IsAverage g n a := by
    intro a ha
    obtain ⟨i, hi, rfl⟩ := List.mem_iff_getElem.mp ha
    rw [List.forall₂_iff_get] at hA
    exact ⟨_, (hA.2 i (by rw [hA.1]; exact hi) hi).1, (hA.2 i (by rw [hA.1]; exact hi) hi).2⟩
  have hneA : avgs ≠ [] := by
    rintro rfl
    exact hne (List.forall₂_nil_right_iff.mp hA)
  have hpA : ∀ a ∈ avgs, Weighted a n := by
    intro a ha
    obtain ⟨g, hg, h⟩ := hmemA a ha
    exact h.nonneg (hp g hg)
  have hR := averageData_is hneA (fun a ha => by obtain ⟨g, hg, h⟩ := hmemA a ha; exact h.hasFields) hpA h2
  have hneF : gs.flatten ≠ [] := by
    obtain ⟨g, gs', rfl⟩ := List.exists_cons_of_ne_nil hne
    rw [List.flatten_cons]
    intro h0
    have := hlen g (by simp)
    rw [(List.append_eq_nil_iff.mp h0).1, List.length_nil] at this
    omega
  have hpF : ∀ d ∈ gs.flatten, Weighted d n := by
    intro d hd
    obtain ⟨g, hg, hd⟩ := List.mem_flatten.mp hd
    exact hp g hg d hd
  have hR' := averageData_is hneF (fun d hd => by obtain ⟨g, hg, hd⟩ := List.mem_flatten.mp hd; exact hf g hg d hd) hpF h3
  have hkq : (k : ℚ) ≠ 0 := by exact_mod_cast hk.ne'
  have hlenF : (gs.flatten.length : ℚ) = (avgs.length : ℚ) * k := by
    have : gs.flatten.length = avgs.length * k := by
      rw [← hA.length_eq, List.length_flatten, List.map_congr_left (g := fun _ => k) hlen]
      simp
    rw [this]
    push_cast
    rfl
  have hs1 : ∀ l ∈ ["M", "N"], ∀ t, t < n → sumOver avgs l t = sumOver gs.flatten l t / k := by
    intro l hl t ht
    rw [sumOver_flatten, ← sum_div]
    refine (sum_forall₂ (hA.imp ?_)).symm
    rintro g a ⟨hg, h⟩
    rw [h.mean l hl t ht, hlen g hg]
  have hs2 : ∀ p ∈ [("U", "M"), ("V", "M"), ("T", "N")], ∀ t, t < n → sumOver2 avgs p.1 p.2 t = sumOver2 gs.flatten p.1 p.2 t / k := by
    intro p hpm t ht
    rw [sumOver2_flatten, ← sum_div]
    refine (sum_forall₂ (hA.imp ?_)).symm
    rintro g a ⟨hg, h⟩
    rw [h.momentum (hp g hg) hpm ht, hlen g hg]
  refine average_ext hR.fields hR.sizes hR'.fields hR'.sizes ?_
  have hXY : ∀ t, t < n → val r "X" t = val r' "X" t ∧ val r "Y" t = val r' "Y" t := by
    intro t ht
    obtain ⟨g, gs', rfl⟩ := List.exists_cons_of_ne_nil hne
    obtain ⟨a, avgs', rfl⟩ := List.exists_cons_of_ne_nil hneA
    obtain ⟨d, g', rfl⟩ : ∃ d g', g = d :: g' := by
      cases g with
      | nil => have := hlen [] (by simp); rw [List.length_nil] at this; omega
      | cons d g' => exact ⟨d, g', rfl⟩
    have ha := (List.forall₂_cons.mp hA).1.2
    have e1 := hR.first a avgs' rfl t ht
    have e2 := hR'.first d (g' ++ gs'.flatten) (by simp) t ht
    have e3 := ha.first d g' rfl t ht
    exact ⟨by rw [e1.1, e2.1, e3.1], by rw [e1.2, e2.2, e3.2]⟩
  have hMN : ∀ l ∈ ["M", "N"], ∀ t, t < n → val r l t = val r' l t := by
    intro l hl t ht
    rw [hR.mean l hl t ht, hR'.mean l hl t ht, hs1 l hl t ht, hlenF, div_div, mul_comm (k : ℚ)]
  have hW : ∀ p ∈ [("U", "M"), ("V", "M"), ("T", "N")], ∀ t, t < n → val r p.1 t = val r' p.1 t := by
    intro p hpm t ht
    rw [hR.weighted p hpm t ht, hR'.weighted p hpm t ht, hs1 p.2 (weight_mem hpm) t ht, hs2 p hpm t ht]
    by_cases hz : sumOver gs.flatten p.2 t = 0
    · rw [if_pos hz, hz, zero_div, if_pos rfl]
    · rw [if_neg hz, if_neg (div_ne_zero hz hkq), div_div_div_cancel_right₀ hkq]
  intro l hl t ht
  simp only [List.mem_cons, List.not_mem_nil, or_false] at hl
  rcases hl with rfl | rfl | rfl | rfl | rfl | rfl | rfl
  · exact (hXY t ht).1
  · exact (hXY t ht).2
  · exact hMN "M" (by simp) t ht
  · exact hMN "N" (by simp) t ht
  · exact hW ("U", "M") (by simp) t ht
  · exact hW ("V", "M") (by simp) t ht
  · exact hW ("T", "N") (by simp) t ht

/-- **C128, order.** The order of the maps does not matter, but for the coordinates, which are those of the first one. -/
theorem C128_order (ds ds' : List Record) (n : ℕ) (hperm : ds.Perm ds') (hne : ds ≠ []) (hf : ∀ d ∈ ds, HasFields d n) (hp : ∀ d ∈ ds, Weighted d n)
    (atol rtol : ℚ) (r r' : Record) (h1 : averageData ds atol rtol = .ok r) (h2 : averageData ds' atol rtol = .ok r') :
    (∀ l ∈ ["M", "N", "U", "V", "T"], ∀ t, t < n → val r l t = val r' l t) ∧
    ((∀ d ∈ ds, ∀ d' ∈ ds, ∀ l ∈ ["X", "Y"], ∀ t, t < n → val d l t = val d' l t) → r = r') := by
  have hne' : ds' ≠ [] := by rintro rfl; exact hne hperm.eq_nil
  have hR := averageData_is hne hf hp h1
  have hR' := averageData_is hne' (fun d hd => hf d (hperm.mem_iff.mpr hd)) (fun d hd => hp d (hperm.mem_iff.mpr hd)) h2
  have hs1 : ∀ l t, sumOver ds l t = sumOver ds' l t := fun l t => (hperm.map _).sum_eq
  have hs2 : ∀ l w t, sumOver2 ds l w t = sumOver2 ds' l w t := fun l w t => (hperm.map _).sum_eq
  have hMN : ∀ l ∈ ["M", "N"], ∀ t, t < n → val r l t = val r' l t := by
    intro l hl t ht
    rw [hR.mean l hl t ht, hR'.mean l hl t ht, hs1, hperm.length_eq]
  have hW : ∀ p ∈ [("U", "M"), ("V", "M"), ("T", "N")], ∀ t, t < n → val r p.1 t = val r' p.1 t := by
    intro p hpm t ht
    rw [hR.weighted p hpm t ht, hR'.weighted p hpm t ht, hs1, hs2]
  have hval : ∀ l ∈ ["M", "N", "U", "V", "T"], ∀ t, t < n → val r l t = val r' l t := by
    intro l hl t ht
    simp only [List.mem_cons, List.not_mem_nil, or_false] at hl
    rcases hl with rfl | rfl | rfl | rfl | rfl
    · exact hMN "M" (by simp) t ht
    · exact hMN "N" (by simp) t ht
    · exact hW ("U", "M") (by simp) t ht
    · exact hW ("V", "M") (by simp) t ht
    · exact hW ("T", "N") (by simp) t ht
  refine ⟨hval, ?_⟩
  intro hsame
  refine average_ext hR.fields hR.sizes hR'.fields hR'.sizes ?_
  intro l hl t ht
  by_cases hl' : l ∈ ["M", "N", "U", "V", "T"]
  · exact hval l hl' t ht
  · obtain ⟨d, rest, rfl⟩ := List.exists_cons_of_ne_nil hne
    obtain ⟨d', rest', rfl⟩ := List.exists_cons_of_ne_nil hne'
    have hxy : l = "X" ∨ l = "Y" := by
      simp only [List.mem_cons, List.not_mem_nil, or_false] at hl hl'
      tauto
    have e1 := hR.first d rest rfl t ht
    have e2 := hR'.first d' rest' rfl t ht
    have hd' : d' ∈ d :: rest := hperm.mem_iff.mpr (by simp)
    rcases hxy with rfl | rfl
    · rw [e1.1, e2.1, hsame d (by simp) d' hd' "X" (by simp) t ht]
    · rw [e1.2, e2.2, hsame d (by simp) d' hd' "Y" (by simp) t ht]

/-- **C128, one map.** The average of a single map is the map, with velocities and temperatures 0 where they have no weight. -/
theorem C128_single (d : Record) (n : ℕ) (hf : HasFields d n) (hp : Weighted d n) (atol rtol : ℚ) :
    ∃ r, averageData [d] atol rtol = .ok r ∧ HasFields r n ∧ ∀ t, t < n → (∀ l ∈ ["X", "Y", "M", "N"], val r l t = val d l t) ∧
      ∀ p ∈ [("U", "M"), ("V", "M"), ("T", "N")], val r p.1 t = if val d p.2 t = 0 then 0 else val d p.1 t := by
  have hf' : ∀ d' ∈ [d], HasFields d' n := by intro d' hd'; rw [List.mem_singleton.mp hd']; exact hf
  have hp' : ∀ d' ∈ [d], Weighted d' n := by intro d' hd'; rw [List.mem_singleton.mp hd']; exact hp
  obtain ⟨r, hr, -⟩ := C54_average d [] n atol rtol hf' (by simp)
  have hR := averageData_is (by simp) hf' hp' hr
  refine ⟨r, hr, hR.hasFields, ?_⟩
  intro t ht
  have hMN : ∀ l ∈ ["M", "N"], val r l t = val d l t := by
    intro l hl
    rw [hR.mean l hl t ht]
    simp [sumOver]
  refine ⟨?_, ?_⟩
  · intro l hl
    have e1 := hR.first d [] rfl t ht
    simp only [List.mem_cons, List.not_mem_nil, or_false] at hl
    rcases hl with rfl | rfl | rfl | rfl
    · exact e1.1
    · exact e1.2
    · exact hMN "M" (by simp)
    · exact hMN "N" (by simp)
  · intro p hpm
    rw [hR.weighted p hpm t ht]
    have hw : sumOver [d] p.2 t = val d p.2 t := by simp [sumOver]
    have hw2 : sumOver2 [d] p.1 p.2 t = val d p.1 t * val d p.2 t := by simp [sumOver2]
    rw [hw, hw2]
    by_cases hz : val d p.2 t = 0
    · rw [if_pos hz, if_pos hz]
    · rw [if_neg hz, if_neg hz, mul_div_assoc, div_self hz, mul_one]

/-- **C128, counterexample: groups of different sizes.** The average of averages of groups of one and of two maps is not the average of the three maps. -/
theorem C128_unequal_groups_counterexample : ∃ a b c ab r r' : Record, averageData [b, c] = .ok ab ∧ averageData [a, ab] = .ok r ∧
    averageData [a, b, c] = .ok r' ∧ val r "M" 0 ≠ val r' "M" 0 ∧ val r "U" 0 ≠ val r' "U" 0 := by
  refine ⟨mapA, mapB, mapB, [("X", [1 / 2000, 1]), ("Y", [0, 0]), ("M", [6, 0]), ("N", [3, 0]), ("U", [3, 0]), ("V", [1, 0]), ("T", [100, 0])],
    [("X", [0, 1]), ("Y", [0, 0]), ("M", [4, 0]), ("N", [2, 0]), ("U", [5 / 2, 0]), ("V", [1 / 2, 0]), ("T", [150, 0])],
    [("X", [0, 1]), ("Y", [0, 0]), ("M", [14 / 3, 0]), ("N", [7 / 3, 0]), ("U", [19 / 7, 0]), ("V", [5 / 7, 0]), ("T", [900 / 7, 0])], ?_, ?_, ?_, ?_, ?_⟩ <;>
    decide +kernel

/-- Four maps in two groups of two meet the hypotheses. -/
example : ∃ avgs r r', List.Forall₂ (fun g a => averageData g = .ok a) [[mapA, mapB], [mapB, mapA]] avgs ∧ averageData avgs = .ok r ∧
    averageData [[mapA, mapB], [mapB, mapA]].flatten = .ok r' ∧ r = r' ∧ val r "U" 0 = 5 / 2 ∧ HasFields mapA 2 ∧ HasFields mapB 2 ∧ Weighted mapA 2 ∧ Weighted mapB 2 := by
  refine ⟨[[("X", [0, 1]), ("Y", [0, 0]), ("M", [4, 0]), ("N", [2, 0]), ("U", [5 / 2, 0]), ("V", [1 / 2, 0]), ("T", [150, 0])],
    [("X", [1 / 2000, 1]), ("Y", [0, 0]), ("M", [4, 0]), ("N", [2, 0]), ("U", [5 / 2, 0]), ("V", [1 / 2, 0]), ("T", [150, 0])]],
    [("X", [0, 1]), ("Y", [0, 0]), ("M", [4, 0]), ("N", [2, 0]), ("U", [5 / 2, 0]), ("V", [1 / 2, 0]), ("T", [150, 0])],
    [("X", [0, 1]), ("Y", [0, 0]), ("M", [4, 0]), ("N", [2, 0]), ("U", [5 / 2, 0]), ("V", [1 / 2, 0]), ("T", [150, 0])],
    .cons (by decide +kernel) (.cons (by decide +kernel) .nil), by decide +kernel, by decide +kernel, rfl, by decide +kernel,
    hasFields_of _ _ (by decide +kernel), hasFields_of _ _ (by decide +kernel), ?_, ?_⟩
  · have : ∀ l ∈ ["M", "N"], ∀ t : ℕ, t < 2 → 0 ≤ val mapA l t := by decide +kernel
    exact this
  · have : ∀ l ∈ ["M", "N"], ∀ t : ℕ, t < 2 → 0 ≤ val mapB l t := by decide +kernel
    exact this

end Strata.SimpleAverage
