import Verif.Spec.Average
import Verif.Proofs.Flow
import Verif.Proofs.Numeric
import Verif.Proofs.Grid
import Mathlib.Tactic.FieldSimp
/-! # Lemmas about averaging -/
namespace Strata.Average
open Strata Strata.Flow

theorem pyRound_int (k : ℤ) : pyRound (k : ℚ) = k := by
  unfold pyRound
  simp

theorem field_ok {r : Record} {l : Label} (h : l ∈ names r) : ∃ c, field r l = .ok c ∧ col? r l = some c := by
  obtain ⟨c, hc⟩ := (col?_isSome_iff r l).mpr h
  exact ⟨c, by simp [field, hc], hc⟩

theorem val_of_col {r : Record} {l : Label} {c : List ℚ} (h : col? r l = some c) (t : ℕ) : val r l t = c.getD t 0 := by
  simp [val, h]

theorem mem_col_iff {r : Record} (hw : Wf r) {l : Label} {c : List ℚ} (h : col? r l = some c) (x : ℚ) :
    x ∈ c ↔ ∃ t, t < Flow.size r ∧ val r l t = x := by
  have hl := col?_length hw h
  constructor
  · intro hx
    obtain ⟨t, ht, rfl⟩ := List.getElem_of_mem hx
    exact ⟨t, by omega, by rw [val_of_col h]; simp [List.getD_eq_getElem?_getD, ht]⟩
  · rintro ⟨t, ht, rfl⟩
    rw [val_of_col h, List.getD_eq_getElem?_getD, List.getElem?_eq_getElem (by omega)]
    exact List.getElem_mem _

theorem npMin_field {r : Record} (hw : Wf r) {l : Label} (hl : l ∈ names r) (hs : 0 < Flow.size r) :
    ∃ m, (do npMin (← field r l)) = .ok m ∧ (∃ t, t < Flow.size r ∧ val r l t = m) ∧
      ∀ t, t < Flow.size r → m ≤ val r l t := by
  obtain ⟨c, hf, hc⟩ := field_ok hl
  have hlen := col?_length hw hc
  obtain ⟨m, hm⟩ := npMin_exists (l := c) (by intro h; simp [h] at hlen; omega)
  obtain ⟨h1, h2⟩ := (npMin_ok_iff _ _).mp hm
  refine ⟨m, by rw [hf]; exact hm, (mem_col_iff hw hc m).mp h1, ?_⟩
  intro t ht
  exact h2 _ ((mem_col_iff hw hc _).mpr ⟨t, ht, rfl⟩)

theorem npMax_field {r : Record} (hw : Wf r) {l : Label} (hl : l ∈ names r) (hs : 0 < Flow.size r) :
    ∃ m, (do npMax (← field r l)) = .ok m ∧ (∃ t, t < Flow.size r ∧ val r l t = m) ∧
      ∀ t, t < Flow.size r → val r l t ≤ m := by
  obtain ⟨c, hf, hc⟩ := field_ok hl
  have hlen := col?_length hw hc
  obtain ⟨m, hm⟩ := npMax_exists (l := c) (by intro h; simp [h] at hlen; omega)
  obtain ⟨h1, h2⟩ := (npMax_ok_iff _ _).mp hm
  refine ⟨m, by rw [hf]; exact hm, (mem_col_iff hw hc m).mp h1, ?_⟩
  intro t ht
  exact h2 _ ((mem_col_iff hw hc _).mpr ⟨t, ht, rfl⟩)

theorem mapM_choose {α β : Type} (f : α → Except Err β) (P : α → β → Prop) (l : List α)
    (h : ∀ a ∈ l, ∃ b, f a = .ok b ∧ P a b) : ∃ bs, l.mapM f = .ok bs ∧ List.Forall₂ P l bs := by
  induction l with
  | nil => exact ⟨[], rfl, .nil⟩
  | cons a l ih =>
    obtain ⟨b, hb, hP⟩ := h a (by simp)
    obtain ⟨bs, hbs, hF⟩ := ih fun x hx => h x (by simp [hx])
    refine ⟨b :: bs, ?_, .cons hP hF⟩
    rw [List.mapM_cons, hb]
    simp only [bind, Except.bind, hbs]
    rfl

theorem forall2_mem_right {α β : Type} {P : α → β → Prop} {l : List α} {bs : List β} (h : List.Forall₂ P l bs) :
    ∀ b ∈ bs, ∃ a ∈ l, P a b := by
  induction h with
  | nil => simp
  | cons hP _ ih =>
    intro b hb
    rcases List.mem_cons.mp hb with rfl | hb
    · exact ⟨_, by simp, hP⟩
    · obtain ⟨a, ha, hp⟩ := ih b hb; exact ⟨a, by simp [ha], hp⟩

theorem forall2_mem_left {α β : Type} {P : α → β → Prop} {l : List α} {bs : List β} (h : List.Forall₂ P l bs) :
    ∀ a ∈ l, ∃ b ∈ bs, P a b := by
  induction h with
  | nil => simp
  | cons hP _ ih =>
    intro a ha
    rcases List.mem_cons.mp ha with rfl | ha
    · exact ⟨_, by simp, hP⟩
    · obtain ⟨b, hb, hp⟩ := ih a ha; exact ⟨b, by simp [hb], hp⟩

theorem getMinMax_spec (ds : List Record) (l : Label) (hne : ds ≠ [])
    (h : ∀ d ∈ ds, Wf d ∧ l ∈ names d ∧ 0 < Flow.size d) :
    ∃ m M, getMinMax ds l = .ok (m, M) ∧
      (∃ d ∈ ds, ∃ t, t < Flow.size d ∧ val d l t = m) ∧ (∃ d ∈ ds, ∃ t, t < Flow.size d ∧ val d l t = M) ∧
      ∀ d ∈ ds, ∀ t, t < Flow.size d → m ≤ val d l t ∧ val d l t ≤ M := by
  obtain ⟨mins, hmins, hF⟩ := mapM_choose (fun d => do npMin (← field d l))
    (fun d m => (∃ t, t < Flow.size d ∧ val d l t = m) ∧ ∀ t, t < Flow.size d → m ≤ val d l t) ds (by
      intro d hd
      obtain ⟨a, b, c⟩ := h d hd
      exact npMin_field a b c)
  obtain ⟨maxs, hmaxs, hG⟩ := mapM_choose (fun d => do npMax (← field d l))
    (fun d m => (∃ t, t < Flow.size d ∧ val d l t = m) ∧ ∀ t, t < Flow.size d → val d l t ≤ m) ds (by
      intro d hd
      obtain ⟨a, b, c⟩ := h d hd
      exact npMax_field a b c)
  have hl1 := hF.length_eq
  have hl2 := hG.length_eq
  have hpos := List.length_pos_of_ne_nil hne
  obtain ⟨m, hm⟩ := npMin_exists (l := mins) (by intro e; simp [e] at hl1; exact hne hl1)
  obtain ⟨M, hM⟩ := npMax_exists (l := maxs) (by intro e; simp [e] at hl2; exact hne hl2)
  obtain ⟨m1, m2⟩ := (npMin_ok_iff _ _).mp hm
  obtain ⟨M1, M2⟩ := (npMax_ok_iff _ _).mp hM
  refine ⟨m, M, ?_, ?_, ?_, ?_⟩
  · unfold getMinMax
    rw [hmins, hmaxs]
    simp only [bind, Except.bind, hm, hM]
  · obtain ⟨d, hd, ht, _⟩ := forall2_mem_right hF m m1; exact ⟨d, hd, ht⟩
  · obtain ⟨d, hd, ht, _⟩ := forall2_mem_right hG M M1; exact ⟨d, hd, ht⟩
  · intro d hd t ht
    obtain ⟨b, hb, _, h2⟩ := forall2_mem_left hF d hd
    obtain ⟨b', hb', _, h2'⟩ := forall2_mem_left hG d hd
    exact ⟨(m2 b hb).trans (h2 t ht), (h2' t ht).trans (M2 b' hb')⟩

/-- A record with computed columns. -/
theorem col?_map_names (ls : List Label) (hn : ls.Nodup) (F : Label → List ℚ) (l : Label) (hl : l ∈ ls) :
    col? (ls.map fun l => (l, F l)) l = some (F l) := by
  unfold col?
  apply lookup_of_mem
  · simpa [Function.comp_def] using hn
  · exact List.mem_map.mpr ⟨l, hl, rfl⟩

theorem names_map_names (ls : List Label) (F : Label → List ℚ) : names (ls.map fun l => (l, F l)) = ls := by
  simp [names, Function.comp_def]

theorem wf_map_names (ls : List Label) (hn : ls.Nodup) (F : Label → List ℚ) (n : ℕ) (h : ∀ l ∈ ls, (F l).length = n) :
    Wf (ls.map fun l => (l, F l)) := by
  refine ⟨by rw [names_map_names]; exact hn, ?_⟩
  intro c hc
  obtain ⟨l, hl, rfl⟩ := List.mem_map.mp hc
  cases ls with
  | nil => simp at hl
  | cons a ls => simp only [List.map_cons, Flow.size]; rw [h l hl, h a (by simp)]

theorem getD_map_range (n : ℕ) (f : ℕ → ℚ) (t : ℕ) (h : t < n) : ((List.range n).map f).getD t 0 = f t := by
  simp [List.getD_eq_getElem?_getD, h]

theorem size_map_names (ls : List Label) (hne : ls ≠ []) (F : Label → List ℚ) (n : ℕ) (h : ∀ l ∈ ls, (F l).length = n) :
    Flow.size (ls.map fun l => (l, F l)) = n := by
  cases ls with
  | nil => exact absurd rfl hne
  | cons a ls => simp only [List.map_cons, Flow.size]; exact h a (by simp)

/-- The combined grid for lattice-aligned data. -/
theorem combinedGrid_spec (ds : List Record) (spacing : ℚ × ℚ) (coords : Label × Label) (hxy : coords.1 ≠ coords.2)
    (hdx : 0 < spacing.1) (hdy : 0 < spacing.2)
    (hwf : ∀ d ∈ ds, Wf d ∧ coords.1 ∈ names d ∧ coords.2 ∈ names d) (hne : ∃ d ∈ ds, 0 < Flow.size d)
    (ox oy : ℚ) (hlat : ∀ d ∈ ds, ∀ t, t < Flow.size d →
      (∃ k : ℤ, val d coords.1 t = ox + spacing.1 * k) ∧ ∃ k : ℤ, val d coords.2 t = oy + spacing.2 * k) :
    ∃ g xmin ymin, getCombinedGrid ds spacing coords = .ok g ∧
      Lattice g.data spacing xmin ymin g.nx g.ny coords ∧
      (∀ d, ds.head? = some d → names g.data = names d) ∧
      (∀ l, l ≠ coords.1 → l ≠ coords.2 → ∀ t, val g.data l t = 0) ∧
      (∃ d ∈ ds, ∃ t, t < Flow.size d ∧ val d coords.1 t = xmin) ∧
      (∃ d ∈ ds, ∃ t, t < Flow.size d ∧ val d coords.2 t = ymin) ∧
      (∃ d ∈ ds, ∃ t, t < Flow.size d ∧ val d coords.1 t = xmin + spacing.1 * ((g.nx - 1 : ℕ) : ℚ)) ∧
      (∃ d ∈ ds, ∃ t, t < Flow.size d ∧ val d coords.2 t = ymin + spacing.2 * ((g.ny - 1 : ℕ) : ℚ)) ∧
      (∀ d ∈ ds, ∀ t, t < Flow.size d → ∃ i j, i < g.nx ∧ j < g.ny ∧
        val d coords.1 t = xmin + spacing.1 * (i : ℚ) ∧ val d coords.2 t = ymin + spacing.2 * (j : ℚ)) := by
  obtain ⟨d0, hd0, hs0⟩ := hne
  have hfne : (ds.filter fun d => decide (0 < Flow.size d)) ≠ [] := by
    intro h
    have : d0 ∈ ds.filter fun d => decide (0 < Flow.size d) := by rw [List.mem_filter]; exact ⟨hd0, by simpa using hs0⟩
    rw [h] at this; simp at this
  have hf : ∀ d, d ∈ (ds.filter fun d => decide (0 < Flow.size d)) ↔ d ∈ ds ∧ 0 < Flow.size d := by
    intro d; rw [List.mem_filter]; simp
  obtain ⟨xmin, xmax, hmx, ⟨dm, hdm, tm, htm, hvm⟩, ⟨dM, hdM, tM, htM, hvM⟩, hbx⟩ :=
    getMinMax_spec _ coords.1 hfne (by intro d hd; rw [hf] at hd; exact ⟨(hwf d hd.1).1, (hwf d hd.1).2.1, hd.2⟩)
  obtain ⟨ymin, ymax, hmy, ⟨em, hem, um, hum, hwm⟩, ⟨eM, heM, uM, huM, hwM⟩, hby⟩ :=
    getMinMax_spec _ coords.2 hfne (by intro d hd; rw [hf] at hd; exact ⟨(hwf d hd.1).1, (hwf d hd.1).2.2, hd.2⟩)
  rw [hf] at hdm hdM hem heM
  obtain ⟨kx, hkx⟩ := (hlat dm hdm.1 tm htm).1
  obtain ⟨Kx, hKx⟩ := (hlat dM hdM.1 tM htM).1
  obtain ⟨ky, hky⟩ := (hlat em hem.1 um hum).2
  obtain ⟨Ky, hKy⟩ := (hlat eM heM.1 uM huM).2
  rw [hvm] at hkx
  rw [hvM] at hKx
  rw [hwm] at hky
  rw [hwM] at hKy
  -- index of any input coordinate relative to the minimum
  have hix : ∀ d ∈ ds, ∀ t, t < Flow.size d → ∃ k : ℕ, (k : ℤ) ≤ Kx - kx ∧ val d coords.1 t = xmin + spacing.1 * (k : ℚ) := by
    intro d hd t ht
    obtain ⟨k, hk⟩ := (hlat d hd t ht).1
    obtain ⟨b1, b2⟩ := hbx d ((hf d).mpr ⟨hd, by omega⟩) t ht
    rw [hk] at b1 b2
    have c1 : (kx : ℚ) ≤ k := by
      rw [hkx] at b1; by_contra hc; rw [not_le] at hc; nlinarith
    have c2 : (k : ℚ) ≤ Kx := by
      rw [hKx] at b2; by_contra hc; rw [not_le] at hc; nlinarith
    have c1' : kx ≤ k := by exact_mod_cast c1
    have c2' : k ≤ Kx := by exact_mod_cast c2
    refine ⟨(k - kx).toNat, by omega, ?_⟩
    have : (((k - kx).toNat : ℕ) : ℚ) = (k : ℚ) - kx := by
      have h : (((k - kx).toNat : ℕ) : ℤ) = k - kx := by omega
      exact_mod_cast h
    rw [this, hk, hkx]; ring
  have hiy : ∀ d ∈ ds, ∀ t, t < Flow.size d → ∃ k : ℕ, (k : ℤ) ≤ Ky - ky ∧ val d coords.2 t = ymin + spacing.2 * (k : ℚ) := by
    intro d hd t ht
    obtain ⟨k, hk⟩ := (hlat d hd t ht).2
    obtain ⟨b1, b2⟩ := hby d ((hf d).mpr ⟨hd, by omega⟩) t ht
    rw [hk] at b1 b2
    have c1 : (ky : ℚ) ≤ k := by
      rw [hky] at b1; by_contra hc; rw [not_le] at hc; nlinarith
    have c2 : (k : ℚ) ≤ Ky := by
      rw [hKy] at b2; by_contra hc; rw [not_le] at hc; nlinarith
    have c1' : ky ≤ k := by exact_mod_cast c1
    have c2' : k ≤ Ky := by exact_mod_cast c2
    refine ⟨(k - ky).toNat, by omega, ?_⟩
    have : (((k - ky).toNat : ℕ) : ℚ) = (k : ℚ) - ky := by
      have h : (((k - ky).toNat : ℕ) : ℤ) = k - ky := by omega
      exact_mod_cast h
    rw [this, hk, hky]; ring
  obtain ⟨ax, hax, haxv⟩ := hix dM hdM.1 tM htM
  obtain ⟨ay, hay, hayv⟩ := hiy eM heM.1 uM huM
  have hnx : pyRound ((xmax - xmin) / spacing.1) = Kx - kx := by
    rw [hkx, hKx, show (ox + spacing.1 * (Kx : ℚ) - (ox + spacing.1 * (kx : ℚ))) / spacing.1 = ((Kx - kx : ℤ) : ℚ) by
      push_cast; field_simp; ring]
    exact pyRound_int _
  have hny : pyRound ((ymax - ymin) / spacing.2) = Ky - ky := by
    rw [hky, hKy, show (oy + spacing.2 * (Ky : ℚ) - (oy + spacing.2 * (ky : ℚ))) / spacing.2 = ((Ky - ky : ℤ) : ℚ) by
      push_cast; field_simp; ring]
    exact pyRound_int _
  have hKk : 0 ≤ Kx - kx := by omega
  have hLl : 0 ≤ Ky - ky := by omega
  let NX := (Kx - kx + 1).toNat
  let NY := (Ky - ky + 1).toNat
  have hNX : (NX : ℤ) = Kx - kx + 1 := by simp only [NX]; omega
  have hNY : (NY : ℤ) = Ky - ky + 1 := by simp only [NY]; omega
  cases ds with
  | nil => simp at hd0
  | cons first rest =>
    let xs := (List.range (NX * NY)).map fun t => xmin + spacing.1 * ((t % NX : ℕ) : ℚ)
    let ys := (List.range (NX * NY)).map fun t => ymin + spacing.2 * ((t / NX : ℕ) : ℚ)
    let F : Label → List ℚ := fun l =>
      if l = coords.2 then ys else if l = coords.1 then xs else List.replicate (NX * NY) 0
    have hfw := hwf first (by simp)
    have hFl : ∀ l ∈ names first, (F l).length = NX * NY := by
      intro l _
      simp only [F]
      split
      · simp [ys]
      · split
        · simp [xs]
        · simp
    refine ⟨⟨NX, NY, (names first).map fun l => (l, F l)⟩, xmin, ymin, ?_, ?_, ?_, ?_, ?_, ?_, ?_, ?_, ?_⟩
    · unfold getCombinedGrid
      simp only [hmx, hmy, bind, Except.bind, hnx, hny]
      rw [if_neg, if_pos ⟨hfw.2.1, hfw.2.2⟩]
      · rintro (h | h | h | h)
        · exact hdx.ne' h
        · exact hdy.ne' h
        · omega
        · omega
    · have hcx := col?_map_names (names first) hfw.1.1 F coords.1 hfw.2.1
      have hcy := col?_map_names (names first) hfw.1.1 F coords.2 hfw.2.2
      refine ⟨wf_map_names _ hfw.1.1 F (NX * NY) hFl, by simp only [NX]; omega, by simp only [NY]; omega, ?_, ?_, ?_, ?_, ?_⟩
      · exact size_map_names _ (by intro h; rw [h] at hfw; simp at hfw) F (NX * NY) hFl
      · rw [names_map_names]; exact hfw.2.1
      · rw [names_map_names]; exact hfw.2.2
      · intro t ht
        rw [val_of_col hcx]
        simp only [F, hxy, if_false, if_true, xs]
        exact getD_map_range _ _ t ht
      · intro t ht
        rw [val_of_col hcy]
        simp only [F, if_true, ys]
        exact getD_map_range _ _ t ht
    · intro d hd
      simp only [List.head?_cons, Option.some.injEq] at hd
      rw [names_map_names, hd]
    · intro l h1 h2 t
      by_cases hl : l ∈ names first
      · rw [val_of_col (col?_map_names (names first) hfw.1.1 F l hl)]
        simp only [F, h1, h2, if_false]
        simp only [List.getD_eq_getElem?_getD, List.getElem?_replicate]
        split <;> rfl
      · unfold val
        rw [(col?_none_iff _ _).mpr (by rw [names_map_names]; exact hl)]
        simp
    · exact ⟨dm, hdm.1, tm, htm, hvm⟩
    · exact ⟨em, hem.1, um, hum, hwm⟩
    · refine ⟨dM, hdM.1, tM, htM, ?_⟩
      have h : ((NX - 1 : ℕ) : ℤ) = Kx - kx := by omega
      have h' : ((NX - 1 : ℕ) : ℚ) = (Kx : ℚ) - kx := by exact_mod_cast h
      simp only
      rw [hvM, h', hKx, hkx]; ring
    · refine ⟨eM, heM.1, uM, huM, ?_⟩
      have h : ((NY - 1 : ℕ) : ℤ) = Ky - ky := by omega
      have h' : ((NY - 1 : ℕ) : ℚ) = (Ky : ℚ) - ky := by exact_mod_cast h
      simp only
      rw [hwM, h', hKy, hky]; ring
    · intro d hd t ht
      obtain ⟨i, hi, hvi⟩ := hix d hd t ht
      obtain ⟨j, hj, hvj⟩ := hiy d hd t ht
      exact ⟨i, j, by simp only; omega, by simp only; omega, hvi, hvj⟩

end Strata.Average
