import Verif.Spec.ContactLine
import Verif.Proofs.Interface
import Verif.Proofs.InterfaceRun
import Verif.Proofs.Numeric
import Verif.Proofs.Average
/-!
# Lemmas about contact line extraction
-/
namespace Strata.ContactLine
open Strata Strata.Flow Strata.Average Strata.Interface

theorem foldl_min_le {α : Type} (g : α → ℚ) (l : List α) (a v : ℚ) :
    l.foldl (fun m j => min m (g j)) a ≤ v ↔ a ≤ v ∨ ∃ j ∈ l, g j ≤ v := by
  induction l generalizing a with
  | nil => simp
  | cons b l ih => rw [List.foldl_cons, ih]; simp [or_assoc]

theorem le_foldl_max {α : Type} (g : α → ℚ) (l : List α) (a v : ℚ) :
    v ≤ l.foldl (fun m j => max m (g j)) a ↔ v ≤ a ∨ ∃ j ∈ l, v ≤ g j := by
  induction l generalizing a with
  | nil => simp
  | cons b l ih => rw [List.foldl_cons, ih]; simp [or_assoc]

theorem mem_takeWhile_le {α : Type} (y : α → ℚ) (c : ℚ) (l : List α) (h : l.Pairwise fun a b => y a < y b) (a : α) :
    a ∈ l.takeWhile (fun b => decide (y b ≤ c)) ↔ a ∈ l ∧ y a ≤ c := by
  induction l with
  | nil => simp
  | cons b l ih =>
    rw [List.pairwise_cons] at h
    rw [List.takeWhile_cons]
    by_cases hb : y b ≤ c
    · rw [if_pos (by simpa using hb)]
      simp only [List.mem_cons, ih h.2]
      constructor
      · rintro (rfl | ⟨h1, h2⟩)
        · exact ⟨Or.inl rfl, hb⟩
        · exact ⟨Or.inr h1, h2⟩
      · rintro ⟨rfl | h1, h2⟩
        · exact Or.inl rfl
        · exact Or.inr ⟨h1, h2⟩
    · rw [if_neg (by simpa using hb)]
      constructor
      · intro h'; cases h'
      · rintro ⟨h1, h2⟩
        rcases List.mem_cons.mp h1 with rfl | h1
        · exact absurd h2 hb
        · exact absurd (le_trans (h.1 a h1).le h2) hb

/-- The layers of an interface: ascending heights, both bins of a layer at the same height. -/
structure Layers (s : System) (pts : List (ℕ × ℕ)) : Prop where
  asc : pts.Pairwise fun p q => (row s p.1).y < (row s q.1).y
  same : ∀ p ∈ pts, (row s p.2).y = (row s p.1).y

theorem longestConnected_layers {s : System} {r c : ℚ} {b : ℤ} {lims : Option ℚ × Option ℚ} {box : ℚ} {pts : List (ℕ × ℕ)}
    (h : longestConnected s r c b lims box = .ok pts) : Layers s pts := by
  unfold longestConnected at h
  simp only at h
  split at h
  · cases h
  · rw [Except.ok.injEq] at h
    subst h
    have key : ∀ y (p : ℕ × ℕ), ((findEdges (filledCells (sortLayer (((List.range s.length).filter fun i => (row s i).y = y).map (row s))) (ySlice s r box y) r c b)).map fun e =>
        (((List.range s.length).filter fun i => (row s i).y = y).getD e.1 0, ((List.range s.length).filter fun i => (row s i).y = y).getD e.2 0)) = some p →
        (row s p.1).y = y ∧ (row s p.2).y = y := by
      intro y p hp
      rw [Option.map_eq_some_iff] at hp
      obtain ⟨⟨e1, e2⟩, he, rfl⟩ := hp
      obtain ⟨len, hl, he2, -⟩ := (findEdges_spec _).2 e1 e2 he
      have hlen : (filledCells (sortLayer (((List.range s.length).filter fun i => (row s i).y = y).map (row s))) (ySlice s r box y) r c b).length =
          ((List.range s.length).filter fun i => (row s i).y = y).length := by
        unfold filledCells sortLayer
        rw [List.length_map, List.length_insertionSort, List.length_map]
      have h1 := hl.2.2.1
      have h2 : e2 < (filledCells (sortLayer (((List.range s.length).filter fun i => (row s i).y = y).map (row s))) (ySlice s r box y) r c b).length := by
        rw [he2]; exact Nat.mod_lt _ (by omega)
      rw [hlen] at h1 h2
      have get : ∀ e, e < ((List.range s.length).filter fun i => (row s i).y = y).length →
          (row s (((List.range s.length).filter fun i => (row s i).y = y).getD e 0)).y = y := by
        intro e he
        have := List.getElem_mem he
        rw [List.getD_eq_getElem?_getD, List.getElem?_eq_getElem he, Option.getD_some]
        simpa using (List.mem_filter.mp this).2
      exact ⟨get e1 h1, get e2 h2⟩
    constructor
    · rw [List.pairwise_filterMap]
      refine (yValues_pairwise _ _ _).imp ?_
      intro y y' hlt p hp p' hp'
      rw [(key y p hp).1, (key y' p' hp').1]
      exact hlt
    · intro p hp
      rw [List.mem_filterMap] at hp
      obtain ⟨y, -, hp⟩ := hp
      rw [(key y p hp).1, (key y p hp).2]

theorem getInterface_layers {s : System} {box : Option (ℚ × ℚ)} {o : Opts} {pts : List (ℕ × ℕ)} (h : getInterface s box o = .ok pts) : Layers s pts := by
  unfold getInterface at h
  split at h
  · cases h; exact ⟨List.Pairwise.nil, by simp⟩
  · cases h
  · rename_i cutoff _
    cases hr : getRadius o.radius s with
    | error e => rw [hr] at h; cases h
    | ok r =>
      rw [hr] at h
      simp only [bind, Except.bind] at h
      split at h
      · split at h
        · cases h
        · exact longestConnected_layers h
      · cases h
        have := outsideIn_spec s r cutoff o.bins o.ylims.1 o.ylims.2
        exact ⟨List.pairwise_map.mp this.1, fun p hp => (this.2.1 p hp).1⟩

theorem mem_interfaceOfHeight {s : System} {pts : List (ℕ × ℕ)} (h : Layers s pts) (height : ℚ) (q : ℕ × ℕ) :
    q ∈ interfaceOfHeight s pts height ↔ UsedLayer s pts height q := by
  unfold interfaceOfHeight UsedLayer
  cases pts with
  | nil => simp
  | cons p rest =>
    have hp := List.pairwise_cons.mp h.asc
    simp only [List.mem_cons, mem_takeWhile_le (fun q : ℕ × ℕ => (row s q.1).y) _ rest hp.2, List.head?_cons, Option.some.injEq, forall_eq']
    constructor
    · rintro (rfl | ⟨h1, h2⟩)
      · exact ⟨Or.inl rfl, Or.inl rfl⟩
      · exact ⟨Or.inr h1, Or.inr h2⟩
    · rintro ⟨rfl | h1, h2⟩
      · exact Or.inl rfl
      · rcases h2 with rfl | h2
        · exact Or.inl rfl
        · exact Or.inr ⟨h1, h2⟩

/-- The cells of one edge. -/
theorem mem_cellsOfEdge {s : System} {pts : List (ℕ × ℕ)} (h : Layers s pts) (side : ℕ × ℕ → ℕ) (hside : ∀ p ∈ pts, (row s (side p)).y = (row s p.1).y)
    (left : Bool) (w height eh : ℚ) (t : ℕ) :
    t ∈ cellsOfEdge s ((interfaceOfHeight s pts height).map side) left w eh ↔ InBox s pts side (if left then w else -w) height eh t := by
  cases pts with
  | nil =>
    constructor
    · intro h'; cases h'
    · rintro ⟨-, p, ⟨⟨hp, -⟩, -⟩, -⟩; cases hp
  | cons f rest =>
    have hmem := mem_interfaceOfHeight h height
    have hasc := List.pairwise_cons.mp h.asc
    set U := rest.takeWhile (fun q => decide ((row s q.1).y ≤ (row s f.1).y + height)) with hU
    have hused : interfaceOfHeight s (f :: rest) height = f :: U := rfl
    have hUsub : U.Sublist rest := List.takeWhile_sublist _
    have hFU : (f :: U).Pairwise fun p q => (row s p.1).y < (row s q.1).y := h.asc.sublist (hUsub.cons_cons f)
    have hFsub : ∀ q ∈ f :: U, q ∈ f :: rest := fun q hq => (hUsub.cons_cons f).subset hq
    rw [hused] at hmem ⊢
    -- the box layer
    set T := U.takeWhile (fun q => decide ((row s q.1).y ≤ (row s f.1).y + eh)) with hT
    have hpos : boxPosition s ((f :: U).map side) eh = T.length := by
      unfold boxPosition
      rw [List.map_cons, List.tail_cons, List.headD_cons, List.takeWhile_map, List.length_map, hT]
      congr 1
      have : ∀ q ∈ U, ((fun j => decide ((row s j).y ≤ (row s (side f)).y + eh)) ∘ side) q = decide ((row s q.1).y ≤ (row s f.1).y + eh) := by
        intro q hq
        simp only [Function.comp]
        rw [hside q (hFsub q (List.mem_cons_of_mem _ hq)), hside f (by simp)]
      clear hT T hmem hFU hUsub hFsub hused hU
      clear_value U
      induction U with
      | nil => rfl
      | cons a U ih =>
        rw [List.takeWhile_cons, List.takeWhile_cons, this a (by simp), ih fun q hq => this q (List.mem_cons_of_mem _ hq)]
    have hTpre : T <+: U := List.takeWhile_prefix _
    have hTlt : T.length < (f :: U).length := by have := hTpre.length_le; simp; omega
    set p0 := (f :: U)[T.length] with hp0
    have hp0mem : p0 ∈ f :: T := by
      have : (f :: T) <+: (f :: U) := List.prefix_cons_inj f |>.mpr hTpre
      have e : (f :: U)[T.length] = (f :: T)[T.length]'(by simp) := by
        rw [← this.getElem]
      rw [hp0, e]; exact List.getElem_mem _
    have hTmem := mem_takeWhile_le (fun q : ℕ × ℕ => (row s q.1).y) ((row s f.1).y + eh) U (List.pairwise_cons.mp hFU).2
    have hp0max : ∀ q ∈ f :: T, (row s q.1).y ≤ (row s p0.1).y := by
      intro q hq
      have hpre : (f :: T) <+: (f :: U) := List.prefix_cons_inj f |>.mpr hTpre
      obtain ⟨k, hk, rfl⟩ := List.getElem_of_mem hq
      rw [hpre.getElem]
      have hkl : k < T.length + 1 := by simpa using hk
      rcases Nat.lt_or_ge k T.length with hlt | hge
      · exact (List.pairwise_iff_getElem.mp hFU k T.length (by simp at hTlt ⊢; omega) hTlt hlt).le
      · have : k = T.length := by omega
        subst this; exact le_refl _
    have hTused : ∀ q, q ∈ f :: T ↔ UsedLayer s (f :: rest) height q ∧ UsedLayer s (f :: rest) eh q := by
      intro q
      rw [← hmem q]
      have hT' : q ∈ T ↔ q ∈ U ∧ (row s q.1).y ≤ (row s f.1).y + eh := hTmem q
      unfold UsedLayer
      simp only [List.mem_cons, List.head?_cons, Option.some.injEq, forall_eq', hT']
      constructor
      · rintro (rfl | ⟨h1, h2⟩)
        · exact ⟨Or.inl rfl, Or.inl rfl, Or.inl rfl⟩
        · exact ⟨Or.inr h1, Or.inr (hUsub.subset h1), Or.inr h2⟩
      · rintro ⟨h1, -, h2⟩
        rcases h2 with rfl | h2
        · exact Or.inl rfl
        · rcases h1 with rfl | h1
          · exact Or.inl rfl
          · exact Or.inr ⟨h1, h2⟩
    have hbox : ∀ p, BoxLayer s (f :: rest) height eh p ↔ p = p0 := by
      intro p
      constructor
      · rintro ⟨h1, h2, h3⟩
        have hp := (hTused p).mpr ⟨h1, h2⟩
        have e1 := hp0max p hp
        have hp0' := (hTused p0).mp hp0mem
        have e2 := h3 p0 hp0'.1 hp0'.2
        have e : (row s p.1).y = (row s p0.1).y := le_antisymm e1 e2
        obtain ⟨i, hi, ei⟩ := List.getElem_of_mem (h1.1)
        obtain ⟨j, hj, ej⟩ := List.getElem_of_mem (hp0'.1.1)
        rcases Nat.lt_trichotomy i j with hlt | rfl | hlt
        · have := List.pairwise_iff_getElem.mp h.asc i j hi hj hlt
          rw [ei, ej, e] at this; exact absurd this (lt_irrefl _)
        · rw [← ei, ← ej]
        · have := List.pairwise_iff_getElem.mp h.asc j i hj hi hlt
          rw [ei, ej, e] at this; exact absurd this (lt_irrefl _)
      · rintro rfl
        have hp0' := (hTused p0).mp hp0mem
        exact ⟨hp0'.1, hp0'.2, fun q h1 h2 => hp0max q ((hTused q).mpr ⟨h1, h2⟩)⟩
    have hlast : ∀ q ∈ f :: U, (row s q.1).y ≤ (row s ((f :: U).getLast (List.cons_ne_nil _ _)).1).y := by
      intro q hq
      obtain ⟨k, hk, rfl⟩ := List.getElem_of_mem hq
      rw [List.getLast_eq_getElem]
      rcases Nat.lt_or_ge k ((f :: U).length - 1) with hlt | hge
      · exact (List.pairwise_iff_getElem.mp hFU k _ hk (by simp) hlt).le
      · have : k = (f :: U).length - 1 := by omega
        subst this; exact le_refl _
    have hfirst : ∀ q ∈ f :: U, (row s f.1).y ≤ (row s q.1).y := by
      intro q hq
      rcases List.mem_cons.mp hq with rfl | hq
      · exact le_refl _
      · exact ((List.pairwise_cons.mp hFU).1 q hq).le
    have hS : ∀ q ∈ f :: U, (row s (side q)).y = (row s q.1).y := fun q hq => hside q (hFsub q hq)
    have hx0 : (row s (((f :: U).map side).getD T.length 0)).x = (row s (side p0)).x := by
      rw [List.getD_eq_getElem?_getD, List.getElem?_eq_getElem (by rw [List.length_map]; exact hTlt), Option.getD_some, List.getElem_map]
    have hinner : (if left = true then (row s (((f :: U).map side).getD T.length 0)).x + w else (row s (((f :: U).map side).getD T.length 0)).x - w) =
        (row s (side p0)).x + (if left = true then w else -w) := by
      rw [hx0]; split <;> ring
    have hgl : (row s (((f :: U).map side).getLast (by simp))).y = (row s ((f :: U).getLast (List.cons_ne_nil _ _)).1).y := by
      rw [List.getLast_map]
      exact hS _ (List.getLast_mem _)
    unfold cellsOfEdge InBox
    simp only [List.map_cons] at hpos hinner hgl ⊢
    rw [hpos, hinner, hgl]
    rw [List.mem_filter, List.mem_range, decide_eq_true_iff]
    refine and_congr_right fun _ => ?_
    constructor
    · rintro ⟨h1, h2, h3, h4⟩
      refine ⟨p0, (hbox p0).mpr rfl, ⟨?_, ?_⟩, ⟨(row s (side f)).y, ⟨f, (hmem f).mp (by simp), rfl⟩, h3⟩,
        ⟨_, ⟨(f :: U).getLast (List.cons_ne_nil _ _), (hmem _).mp (List.getLast_mem _), rfl⟩, by rw [hS _ (List.getLast_mem _)]; exact h4⟩⟩
      · rw [min_le_iff, foldl_min_le] at h1
        rcases h1 with (h1 | ⟨j, hj, h1⟩) | h1
        · exact ⟨_, Or.inr ⟨f, (hmem f).mp (by simp), rfl⟩, h1⟩
        · obtain ⟨q, hq, rfl⟩ := List.mem_map.mp hj
          exact ⟨_, Or.inr ⟨q, (hmem q).mp (List.mem_cons_of_mem _ hq), rfl⟩, h1⟩
        · exact ⟨_, Or.inl rfl, h1⟩
      · rw [le_max_iff, le_foldl_max] at h2
        rcases h2 with (h1 | ⟨j, hj, h1⟩) | h1
        · exact ⟨_, Or.inr ⟨f, (hmem f).mp (by simp), rfl⟩, h1⟩
        · obtain ⟨q, hq, rfl⟩ := List.mem_map.mp hj
          exact ⟨_, Or.inr ⟨q, (hmem q).mp (List.mem_cons_of_mem _ hq), rfl⟩, h1⟩
        · exact ⟨_, Or.inl rfl, h1⟩
    · rintro ⟨p, hp, ⟨⟨a, ha, hav⟩, ⟨b, hb, hbv⟩⟩, ⟨⟨c, ⟨q, hq, rfl⟩, hcv⟩, ⟨d, ⟨q', hq', rfl⟩, hdv⟩⟩⟩
      have hpe := (hbox p).mp hp
      subst hpe
      refine ⟨?_, ?_, ?_, ?_⟩
      · rw [min_le_iff, foldl_min_le]
        rcases ha with rfl | ⟨q, hq, rfl⟩
        · exact Or.inr hav
        · rcases List.mem_cons.mp ((hmem q).mpr hq) with rfl | hq
          · exact Or.inl (Or.inl hav)
          · exact Or.inl (Or.inr ⟨side q, List.mem_map_of_mem hq, hav⟩)
      · rw [le_max_iff, le_foldl_max]
        rcases hb with rfl | ⟨q, hq, rfl⟩
        · exact Or.inr hbv
        · rcases List.mem_cons.mp ((hmem q).mpr hq) with rfl | hq
          · exact Or.inl (Or.inl hbv)
          · exact Or.inl (Or.inr ⟨side q, List.mem_map_of_mem hq, hbv⟩)
      · have := hfirst q ((hmem q).mpr hq)
        rw [hS q ((hmem q).mpr hq)] at hcv
        rw [hS f (by simp)]
        linarith
      · have := hlast q' ((hmem q').mpr hq')
        rw [hS q' ((hmem q').mpr hq')] at hdv
        linarith

/-! ## Adjustments -/

theorem subCol_spec {r : Record} (h : Wf r) {l : Label} (hl : l ∈ names r) (v : ℚ) :
    ∃ r', subCol r l v = .ok r' ∧ Wf r' ∧ names r' = names r ∧ Flow.size r' = Flow.size r ∧
      ∀ l' t, t < Flow.size r → val r' l' t = if l' = l then val r l t - v else val r l' t := by
  obtain ⟨c, hc⟩ := (col?_isSome_iff r l).mpr hl
  have hlen := col?_length h hc
  have hwf := wf_setCol h l (c.map (· - v)) (by rw [List.length_map, hlen])
  have hcol := fun l' => col?_setCol r l l' (c.map (· - v)) hl
  refine ⟨setCol r l (c.map (· - v)), by unfold subCol field; rw [hc]; rfl, hwf, names_setCol r l _, ?_, ?_⟩
  · have := hcol l
    rw [if_pos rfl] at this
    rw [← col?_length hwf this, List.length_map, hlen]
  · intro l' t ht
    by_cases he : l' = l
    · subst he
      have := hcol l'
      rw [if_pos rfl] at this ⊢
      rw [val_of_col this, val_of_col hc, List.getD_eq_getElem?_getD, List.getElem?_eq_getElem (by rw [List.length_map, hlen]; exact ht), Option.getD_some,
        List.getElem_map, List.getD_eq_getElem?_getD, List.getElem?_eq_getElem (by rw [hlen]; exact ht)]
      rfl
    · have := hcol l'
      rw [if_neg he] at this ⊢
      unfold val
      rw [this]

theorem mem_col_val {r : Record} (h : Wf r) {l : Label} {c : List ℚ} (hc : col? r l = some c) (x : ℚ) :
    x ∈ c ↔ ∃ t, t < Flow.size r ∧ val r l t = x := by
  have hlen := col?_length h hc
  constructor
  · intro hx
    obtain ⟨t, ht, rfl⟩ := List.getElem_of_mem hx
    refine ⟨t, by omega, ?_⟩
    rw [val_of_col hc, List.getD_eq_getElem?_getD, List.getElem?_eq_getElem ht]; rfl
  · rintro ⟨t, ht, rfl⟩
    rw [val_of_col hc, List.getD_eq_getElem?_getD, List.getElem?_eq_getElem (by omega)]
    exact List.getElem_mem _

/-- The smallest value of a field. -/
theorem npMin_val {r : Record} (h : Wf r) {l : Label} {c : List ℚ} (hc : col? r l = some c) (hn : 0 < Flow.size r) :
    ∃ m, npMin c = .ok m ∧ (∃ t, t < Flow.size r ∧ val r l t = m) ∧ ∀ t, t < Flow.size r → m ≤ val r l t := by
  obtain ⟨m, hm⟩ := npMin_exists (l := c) (by rintro rfl; have := col?_length h hc; simp at this; omega)
  obtain ⟨h1, h2⟩ := (npMin_ok_iff _ _).mp hm
  exact ⟨m, hm, (mem_col_val h hc m).mp h1, fun t ht => h2 _ ((mem_col_val h hc _).mpr ⟨t, ht, rfl⟩)⟩

/-- The largest value of a field. -/
theorem npMax_val {r : Record} (h : Wf r) {l : Label} {c : List ℚ} (hc : col? r l = some c) (hn : 0 < Flow.size r) :
    ∃ m, npMax c = .ok m ∧ (∃ t, t < Flow.size r ∧ val r l t = m) ∧ ∀ t, t < Flow.size r → val r l t ≤ m := by
  obtain ⟨m, hm⟩ := npMax_exists (l := c) (by rintro rfl; have := col?_length h hc; simp at this; omega)
  obtain ⟨h1, h2⟩ := (npMax_ok_iff _ _).mp hm
  exact ⟨m, hm, (mem_col_val h hc m).mp h1, fun t ht => h2 _ ((mem_col_val h hc _).mpr ⟨t, ht, rfl⟩)⟩

/-! ## Groups -/

theorem groupLoop_block {α : Type} (m : ℕ) (hm : 0 < m) : ∀ (xs acc : List α), acc.length < m →
    groupLoop m false acc xs = (List.range ((acc ++ xs).length / m)).map fun k => ((acc ++ xs).drop (k * m)).take m := by
  intro xs
  induction xs with
  | nil =>
    intro acc h
    rw [List.append_nil, Nat.div_eq_of_lt h]
    rfl
  | cons a rest ih =>
    intro acc h
    unfold groupLoop
    have e : acc ++ a :: rest = (acc ++ [a]) ++ rest := by simp
    by_cases hl : (acc ++ [a]).length = m
    · rw [if_pos (by exact_mod_cast hl)]
      simp only [Bool.false_eq_true, if_false]
      rw [ih [] (by simpa using hm), e]
      have hn : ((acc ++ [a]) ++ rest).length / m = rest.length / m + 1 := by
        rw [List.length_append, hl, Nat.add_div_left _ hm]
      rw [hn, List.range_succ_eq_map, List.map_cons, List.map_map]
      congr 1
      · rw [Nat.zero_mul, List.drop_zero, ← hl, List.take_left]
      · rw [List.nil_append]
        apply List.map_congr_left
        intro k _
        simp only [Function.comp]
        rw [show k.succ * m = m + k * m by rw [Nat.succ_mul, Nat.add_comm], ← List.drop_drop]
        congr 2
        rw [← hl, List.drop_left]
    · rw [if_neg (by exact_mod_cast hl), ih (acc ++ [a]) (by simp at hl ⊢; omega), e]

theorem groupLoop_rolling {α : Type} (m : ℕ) (hm : 0 < m) : ∀ (xs acc : List α), acc.length < m →
    groupLoop m true acc xs = (List.range ((acc ++ xs).length + 1 - m)).map fun k => ((acc ++ xs).drop k).take m := by
  intro xs
  induction xs with
  | nil =>
    intro acc h
    rw [List.append_nil, show acc.length + 1 - m = 0 by omega]
    rfl
  | cons a rest ih =>
    intro acc h
    unfold groupLoop
    have e : acc ++ a :: rest = (acc ++ [a]) ++ rest := by simp
    by_cases hl : (acc ++ [a]).length = m
    · rw [if_pos (by exact_mod_cast hl)]
      simp only [if_true]
      have e2 : (acc ++ [a]).drop 1 ++ rest = ((acc ++ [a]) ++ rest).drop 1 := by
        exact (List.drop_append_of_le_length (l₁ := acc ++ [a]) (by simp)).symm
      rw [ih _ (by rw [List.length_drop]; omega), e, e2]
      have hn : ((acc ++ [a]) ++ rest).length + 1 - m = (((acc ++ [a]) ++ rest).drop 1).length + 1 - m + 1 := by
        simp only [List.length_drop, List.length_append, List.length_singleton] at hl ⊢; omega
      rw [hn, List.range_succ_eq_map, List.map_cons, List.map_map]
      congr 1
      · rw [List.drop_zero, ← hl, List.take_left]
      · apply List.map_congr_left
        intro k _
        simp only [Function.comp]
        rw [List.drop_drop, Nat.add_comm]
    · rw [if_neg (by exact_mod_cast hl), ih (acc ++ [a]) (by simp at hl ⊢; omega), e]

theorem groupLoop_nonpos {α : Type} (m : ℤ) (hm : m ≤ 0) (b : Bool) : ∀ (xs acc : List α), groupLoop m b acc xs = [] := by
  intro xs
  induction xs with
  | nil => intro acc; rfl
  | cons a rest ih =>
    intro acc
    unfold groupLoop
    rw [if_neg (by simp; omega), ih]

/-! ## Shape of the cells -/

theorem cutLoop_spec (y0 dx dy : ℚ) : ∀ (l : List ℚ) (n : ℕ) (a : List ℚ) (b : ℚ) (c : List ℚ), l = a ++ b :: c →
    (∀ y ∈ a, y0 - 1 / 2 * dy ≤ y ∧ y < y0 + 1 / 2 * dx) → ¬ (y0 - 1 / 2 * dy ≤ b ∧ b < y0 + 1 / 2 * dx) → cutLoop y0 dx dy n l = .ok (n + a.length) := by
  intro l n a
  induction a generalizing l n with
  | nil =>
    rintro b c rfl - hb
    rw [List.nil_append, cutLoop, if_neg hb]
    rfl
  | cons y a ih =>
    rintro b c rfl ha hb
    rw [List.cons_append, cutLoop, if_pos (ha y (by simp)), ih _ (n + 1) b c rfl (fun z hz => ha z (List.mem_cons_of_mem _ hz)) hb]
    rw [List.length_cons]; congr 1; omega

theorem cutLoop_all (y0 dx dy : ℚ) : ∀ (l : List ℚ) (n : ℕ), (∀ y ∈ l, y0 - 1 / 2 * dy ≤ y ∧ y < y0 + 1 / 2 * dx) → cutLoop y0 dx dy n l = .error .indexError := by
  intro l
  induction l with
  | nil => intro n _; rfl
  | cons y l ih => intro n h; rw [cutLoop, if_pos (h y (by simp)), ih _ fun z hz => h z (List.mem_cons_of_mem _ hz)]

end Strata.ContactLine
