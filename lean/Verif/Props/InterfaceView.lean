import Verif.Proofs.InterfaceShape
/-!
# C89, C90: averages of interfaces
-/
namespace Strata.InterfaceFiles
open Strata Strata.Flow Strata.Average Strata.Interface Strata.Spreading Strata.Spec

theorem lookup_eq_some_iff {l : Side} (hn : (l.map Prod.fst).Nodup) (y x : ℚ) : l.lookup y = some x ↔ (y, x) ∈ l := by
  induction l with
  | nil => simp
  | cons e l ih =>
    obtain ⟨a, b⟩ := e
    simp only [List.map_cons, List.nodup_cons] at hn
    rw [List.lookup_cons]
    by_cases h : y = a
    · subst h
      simp only [beq_self_eq_true, cond_true]
      constructor
      · intro h; simp at h; subst h; simp
      · intro h
        rcases List.mem_cons.mp h with h | h
        · simp at h; rw [h]
        · exact absurd (List.mem_map.mpr ⟨_, h, rfl⟩) hn.1
    · have hb : (y == a) = false := by simpa using h
      simp only [hb, cond_false]
      rw [ih hn.2]
      simp [h]

theorem lookup_perm {l l' : Side} (hp : l.Perm l') (hn : (l.map Prod.fst).Nodup) (y : ℚ) : l.lookup y = l'.lookup y := by
  have hn' : (l'.map Prod.fst).Nodup := (hp.map _).nodup_iff.mp hn
  ext x
  rw [lookup_eq_some_iff hn, lookup_eq_some_iff hn', hp.mem_iff]

theorem lookup_left (t : List (ℚ × ℚ × ℚ)) (y : ℚ) : (t.map fun e => (e.2.2, e.1)).lookup y = (edgesAt t y).map Prod.fst := by
  induction t with
  | nil => rfl
  | cons e t ih =>
    unfold edgesAt at ih ⊢
    rw [List.map_cons, List.lookup_cons, List.find?_cons]
    by_cases h : e.2.2 = y
    · simp [h]
    · have hb : (y == e.2.2) = false := by simpa using Ne.symm h
      simp only [hb, cond_false, h, decide_false]
      rw [ih]

theorem lookup_right (t : List (ℚ × ℚ × ℚ)) (y : ℚ) : (t.map fun e => (e.2.2, e.2.1)).lookup y = (edgesAt t y).map Prod.snd := by
  induction t with
  | nil => rfl
  | cons e t ih =>
    unfold edgesAt at ih ⊢
    rw [List.map_cons, List.lookup_cons, List.find?_cons]
    by_cases h : e.2.2 = y
    · simp [h]
    · have hb : (y == e.2.2) = false := by simpa using Ne.symm h
      simp only [hb, cond_false, h, decide_false]
      rw [ih]

theorem sides_fromLayers (t : List (ℚ × ℚ × ℚ)) :
    sides (fromLayers t) = (t.map fun e => (e.2.2, e.1), (t.map fun e => (e.2.2, e.2.1)).reverse) := by
  have hn : (fromLayers t).length / 2 = t.length := by simp [fromLayers]; omega
  unfold sides
  simp only
  rw [hn]
  unfold fromLayers
  rw [List.take_append_of_le_length (by simp), List.take_of_length_le (by simp), List.drop_append, List.drop_of_length_le (by simp)]
  simp [Function.comp_def]

theorem omapM_map {α β γ : Type} (f : α → Option β) (g : β → γ) (l : List α) : (l.mapM fun a => (f a).map g) = (l.mapM f).map (List.map g) := by
  induction l with
  | nil => rfl
  | cons a l ih =>
    rw [List.mapM_cons, List.mapM_cons, ih]
    cases f a with
    | none => rfl
    | some b => cases l.mapM f <;> rfl

theorem omapM_comp {α β γ : Type} (g : α → β) (f : β → Option γ) (l : List α) : (l.map g).mapM f = l.mapM fun a => f (g a) := by
  induction l with
  | nil => rfl
  | cons a l ih => rw [List.map_cons, List.mapM_cons, List.mapM_cons, ih]

theorem omapM_congr {α β : Type} (f g : α → Option β) (l : List α) (h : ∀ a ∈ l, f a = g a) : l.mapM f = l.mapM g := by
  induction l with
  | nil => rfl
  | cons a l ih => rw [List.mapM_cons, List.mapM_cons, h a (by simp), ih fun b hb => h b (by simp [hb])]

theorem omapM_forall₂ {α β : Type} (f : α → Option β) (l : List α) (bs : List β) : l.mapM f = some bs ↔ List.Forall₂ (fun a b => f a = some b) l bs := by
  induction l generalizing bs with
  | nil =>
    rw [List.mapM_nil]
    constructor
    · intro h; cases h; exact .nil
    · intro h; cases h; rfl
  | cons a l ih =>
    rw [List.mapM_cons]
    constructor
    · intro h
      cases hf : f a with
      | none => rw [hf] at h; cases h
      | some b =>
        rw [hf] at h
        cases hm : l.mapM f with
        | none => rw [hm] at h; cases h
        | some bs' =>
          rw [hm] at h
          cases h
          exact .cons hf ((ih _).mp hm)
    · intro h
      cases h with
      | cons h1 h2 =>
        rw [h1, (ih _).mpr h2]
        rfl

/-- The mean of droplets given by their layers. -/
def meanLayers (l : List (List (ℚ × ℚ × ℚ))) (first : List (ℚ × ℚ × ℚ)) : List (ℚ × ℚ × ℚ) :=
  first.filterMap fun e => (l.mapM fun s => edgesAt s e.2.2).map fun es => (mean (es.map Prod.fst), mean (es.map Prod.snd), e.2.2)

theorem meanLayers_ascending (l : List (List (ℚ × ℚ × ℚ))) (first : List (ℚ × ℚ × ℚ)) (h : (first.map fun e => e.2.2).Pairwise (· < ·)) :
    ((meanLayers l first).map fun e => e.2.2).Pairwise (· < ·) := by
  unfold meanLayers
  rw [List.pairwise_map, List.pairwise_filterMap]
  rw [List.pairwise_map] at h
  apply h.imp
  intro a b hab x hx y hy
  obtain ⟨_, -, rfl⟩ := Option.map_eq_some_iff.mp hx
  obtain ⟨_, -, rfl⟩ := Option.map_eq_some_iff.mp hy
  exact hab

theorem forall₂_left {α β : Type} {R : α → β → Prop} {l : List α} {bs : List β} (h : List.Forall₂ R l bs) : ∀ a ∈ l, ∃ b, R a b := by
  induction h with
  | nil => simp
  | cons h _ ih =>
    intro a ha
    rcases List.mem_cons.mp ha with rfl | ha
    · exact ⟨_, h⟩
    · exact ih a ha

theorem omapM_isSome {α β : Type} (f : α → Option β) (l : List α) (h : ∀ a ∈ l, ∃ b, f a = some b) : ∃ bs, l.mapM f = some bs := by
  induction l with
  | nil => exact ⟨[], rfl⟩
  | cons a l ih =>
    obtain ⟨b, hb⟩ := h a (by simp)
    obtain ⟨bs, hbs⟩ := ih fun c hc => h c (by simp [hc])
    exact ⟨b :: bs, by rw [List.mapM_cons, hb, hbs]; rfl⟩

theorem exists_of_edgesAt {t : List (ℚ × ℚ × ℚ)} {y : ℚ} {ed : ℚ × ℚ} (h : edgesAt t y = some ed) : ∃ e ∈ t, e.2.2 = y := by
  obtain ⟨e, he, -⟩ := Option.map_eq_some_iff.mp h
  exact ⟨e, List.mem_of_find?_eq_some he, by simpa using List.find?_some he⟩

theorem averageInterfaces_layers (first : List (ℚ × ℚ × ℚ)) (rest : List (List (ℚ × ℚ × ℚ)))
    (hs : ∀ s ∈ first :: rest, (s.map fun e => e.2.2).Pairwise (· < ·)) :
    averageInterfaces ((first :: rest).map fromLayers) = .ok (fromLayers (meanLayers (first :: rest) first)) := by
  have hnd : ∀ s ∈ first :: rest, (s.map fun e => e.2.2).Nodup := fun s h => (hs s h).imp fun h => h.ne
  have eL : ((first :: rest).map fromLayers).map (fun p => (sides p).1) = (first :: rest).map fun t => t.map fun e => (e.2.2, e.1) := by
    rw [List.map_map]
    apply List.map_congr_left
    intro t _
    simp [sides_fromLayers]
  have eR : ((first :: rest).map fromLayers).map (fun p => (sides p).2) = (first :: rest).map fun t => (t.map fun e => (e.2.2, e.2.1)).reverse := by
    rw [List.map_map]
    apply List.map_congr_left
    intro t _
    simp [sides_fromLayers]
  have hL : averageSide (((first :: rest).map fromLayers).map fun p => (sides p).1) =
      .ok ((meanLayers (first :: rest) first).map fun e => (e.2.2, e.1)) := by
    rw [eL]
    unfold averageSide
    simp only [List.map_cons]
    rw [if_pos]
    · congr 1
      unfold meanLayers
      rw [List.map_filterMap, List.map_map, List.filterMap_map]
      apply List.filterMap_congr
      intro e he
      have hm : (((first.map fun e => (e.2.2, e.1)) :: rest.map fun t => t.map fun e => (e.2.2, e.1)).mapM fun s : Side => s.lookup e.2.2) =
          ((first :: rest).mapM fun s => edgesAt s e.2.2).map (List.map Prod.fst) := by
        rw [← List.map_cons (f := fun t : List (ℚ × ℚ × ℚ) => t.map fun e => (e.2.2, e.1)), omapM_comp, ← omapM_map]
        simp only [lookup_left]
      simp only [Function.comp, hm]
      cases (first :: rest).mapM fun s => edgesAt s e.2.2 with
      | none => rfl
      | some es => simp [mean]
    · rw [List.all_eq_true]
      intro s hs'
      rw [← List.map_cons (f := fun t : List (ℚ × ℚ × ℚ) => t.map fun e => (e.2.2, e.1))] at hs'
      obtain ⟨t, ht, rfl⟩ := List.mem_map.mp hs'
      have := hnd t ht
      simpa [Function.comp_def] using this
  have hR : averageSide (((first :: rest).map fromLayers).map fun p => (sides p).2) =
      .ok ((meanLayers (first :: rest) first).map fun e => (e.2.2, e.2.1)).reverse := by
    rw [eR]
    unfold averageSide
    simp only [List.map_cons]
    rw [if_pos]
    · congr 1
      unfold meanLayers
      rw [List.map_filterMap, List.map_reverse, List.map_map, List.filterMap_reverse, List.filterMap_map]
      congr 1
      apply List.filterMap_congr
      intro e he
      have hm : (((first.map fun e => (e.2.2, e.2.1)).reverse :: rest.map fun t => (t.map fun e => (e.2.2, e.2.1)).reverse).mapM fun s : Side => s.lookup e.2.2) =
          ((first :: rest).mapM fun s => edgesAt s e.2.2).map (List.map Prod.snd) := by
        rw [← List.map_cons (f := fun t : List (ℚ × ℚ × ℚ) => (t.map fun e => (e.2.2, e.2.1)).reverse), omapM_comp, ← omapM_map]
        apply omapM_congr
        intro t ht
        rw [← lookup_right]
        apply lookup_perm (List.reverse_perm _)
        rw [List.map_reverse, List.nodup_reverse]
        simpa [Function.comp_def] using hnd t ht
      simp only [Function.comp, hm]
      cases (first :: rest).mapM fun s => edgesAt s e.2.2 with
      | none => rfl
      | some es => simp [mean]
    · rw [List.all_eq_true]
      intro s hs'
      rw [← List.map_cons (f := fun t : List (ℚ × ℚ × ℚ) => (t.map fun e => (e.2.2, e.2.1)).reverse)] at hs'
      obtain ⟨t, ht, rfl⟩ := List.mem_map.mp hs'
      have := hnd t ht
      simpa [Function.comp_def] using this
  unfold averageInterfaces
  rw [hL, Gmx.ok_bind, hR, Gmx.ok_bind]
  congr 1
  unfold stitch
  rw [List.Pairwise.insertionSort_eq]
  · unfold fromLayers
    simp [Function.comp_def]
  · rw [List.pairwise_reverse]
    rw [List.pairwise_map]
    exact (List.pairwise_map.mp (meanLayers_ascending _ first (hs first (by simp)))).imp fun h => h.le

/-- **C89.** The average of a group of droplets with ascending heights is their mean: it has the heights that all of them have and at each of these
the mean left and right edges, going up the left and down the right edge. -/
theorem C89_mean (l : List (List (ℚ × ℚ × ℚ))) (hl : l ≠ []) (hs : ∀ s ∈ l, (s.map fun e => e.2.2).Pairwise (· < ·)) :
    ∃ t, averageInterfaces (l.map fromLayers) = .ok (fromLayers t) ∧ IsMean l t := by
  obtain ⟨first, rest, rfl⟩ : ∃ first rest, l = first :: rest := by
    cases l with
    | nil => exact absurd rfl hl
    | cons a b => exact ⟨a, b, rfl⟩
  refine ⟨_, averageInterfaces_layers first rest hs, meanLayers_ascending _ first (hs first (by simp)), ?_, ?_⟩
  · intro y
    constructor
    · rintro ⟨e, he, rfl⟩ s hs'
      obtain ⟨e0, -, he0⟩ := List.mem_filterMap.mp he
      obtain ⟨es, hes, rfl⟩ := Option.map_eq_some_iff.mp he0
      obtain ⟨ed, hed⟩ := forall₂_left ((omapM_forall₂ _ _ _).mp hes) s hs'
      exact exists_of_edgesAt hed
    · intro h
      obtain ⟨e0, he0, rfl⟩ := h first (by simp)
      obtain ⟨es, hes⟩ : ∃ es, ((first :: rest).mapM fun s => edgesAt s e0.2.2) = some es := by
        apply omapM_isSome
        intro s hs'
        obtain ⟨e1, he1, h1⟩ := h s hs'
        unfold edgesAt
        cases hf : s.find? fun e => decide (e.2.2 = e0.2.2) with
        | none =>
          rw [List.find?_eq_none] at hf
          have := hf e1 he1
          simp [h1] at this
        | some e2 => exact ⟨_, rfl⟩
      exact ⟨(mean (es.map Prod.fst), mean (es.map Prod.snd), e0.2.2), List.mem_filterMap.mpr ⟨e0, he0, by rw [hes]; rfl⟩, rfl⟩
  · intro e he
    obtain ⟨e0, -, he0⟩ := List.mem_filterMap.mp he
    obtain ⟨es, hes, rfl⟩ := Option.map_eq_some_iff.mp he0
    exact ⟨es, (omapM_forall₂ _ _ _).mp hes, rfl, rfl⟩

example : averageInterfaces ([[(0, 6, 0), (1, 5, 1), (2, 4, 2)], [(1, 8, 0), (2, 7, 1)]].map fromLayers) =
    .ok (fromLayers [(1 / 2, 7, 0), (3 / 2, 6, 1)]) := by decide +kernel

/-- **C89.** One interface is its own average. -/
theorem C89_single (t : List (ℚ × ℚ × ℚ)) (hs : (t.map fun e => e.2.2).Pairwise (· < ·)) : averageInterfaces [fromLayers t] = .ok (fromLayers t) := by
  have h := averageInterfaces_layers t [] (by simpa using hs)
  rw [List.map_cons, List.map_nil] at h
  rw [h]
  congr 2
  have hnd : (t.map fun e => e.2.2).Nodup := hs.imp fun h => h.ne
  unfold meanLayers
  have : ∀ e ∈ t, ([t].mapM fun s => edgesAt s e.2.2).map (fun es => (mean (es.map Prod.fst), mean (es.map Prod.snd), e.2.2)) = some e := by
    intro e he
    have hf : edgesAt t e.2.2 = some (e.1, e.2.1) := by
      unfold edgesAt
      have : t.find? (fun e' => decide (e'.2.2 = e.2.2)) = some e := by
        cases hf : t.find? fun e' => decide (e'.2.2 = e.2.2) with
        | none =>
          rw [List.find?_eq_none] at hf
          have := hf e he
          simp at this
        | some e2 =>
          have h1 := List.mem_of_find?_eq_some hf
          have h2 := List.find?_some hf
          simp only [decide_eq_true_eq] at h2
          rw [List.inj_on_of_nodup_map hnd h1 he h2]
      rw [this]
      rfl
    rw [List.mapM_cons, List.mapM_nil, hf]
    simp [mean]
  rw [List.filterMap_congr this]
  simp

/-- A group without common heights has an empty average; an empty group has none. -/
example : averageInterfaces ([[(0, 6, 0)], [(1, 8, 1)]].map fromLayers) = .ok [] ∧ averageInterfaces [] = .error .valueError := by
  refine ⟨?_, ?_⟩ <;> decide +kernel

/-! ## C90 -/

/-- **C90, partial.** Without saving, the averages of all groups that can be averaged are returned in order. -/
theorem C90_returned_partial (groups : List (List (List Point))) :
    viewInterfaces false groups = .ok (groups.filterMap fun g => (averageInterfaces g).toOption) := by
  induction groups with
  | nil => rfl
  | cons g gs ih =>
    rw [viewInterfaces]
    cases h : averageInterfaces g with
    | error e => simp only [List.filterMap_cons, h, Except.toOption]; exact ih
    | ok p =>
      simp only [List.filterMap_cons, h, Except.toOption, ih]
      rfl

/-- **C90 fails whenever it is used:** if averages are to be saved and there is a group with an average, the call raises `KeyError`. -/
theorem C90_save_counterexample (groups : List (List (List Point))) (g : List (List Point)) (hg : g ∈ groups) (p : List Point)
    (h : averageInterfaces g = .ok p) : viewInterfaces true groups = .error .keyError := by
  induction groups with
  | nil => simp at hg
  | cons g' gs ih =>
    rw [viewInterfaces]
    cases h' : averageInterfaces g' with
    | ok p' => simp only; rfl
    | error e =>
      simp only
      rcases List.mem_cons.mp hg with rfl | hg
      · rw [h] at h'; cases h'
      · exact ih hg

example : viewInterfaces true [[fromLayers [(0, 6, 0), (1, 5, 1)]]] = .error .keyError :=
  C90_save_counterexample _ [fromLayers [(0, 6, 0), (1, 5, 1)]] (by simp) _ (C89_single [(0, 6, 0), (1, 5, 1)] (by decide +kernel))

end Strata.InterfaceFiles
