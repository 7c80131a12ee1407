import Verif.Proofs.InterfaceFiles
/-! # Tracking the edges of an interface, height by height -/
namespace Strata.InterfaceFiles
open Strata Strata.Flow Strata.Average Strata.Interface Strata.Spreading Strata.Spec

theorem zipWith_getElem? {α β γ : Type} (g : α → β → γ) (a : List α) (b : List β) (i : ℕ) (x : α) (y : β) (hx : a[i]? = some x) (hy : b[i]? = some y) :
    (List.zipWith g a b)[i]? = some (g x y) := by
  rw [List.getElem?_zipWith, hx, hy]

theorem length_interfaceArray (ys ls rs : List ℚ) (h1 : ls.length = ys.length) (h2 : rs.length = ys.length) :
    (interfaceArray ys ls rs).length = 2 * ys.length := by
  unfold interfaceArray
  simp [h1, h2]
  omega

theorem interfaceArray_left (ys ls rs : List ℚ) (h1 : ls.length = ys.length) (i : ℕ) (x y : ℚ) (hx : ls[i]? = some x) (hy : ys[i]? = some y) :
    (interfaceArray ys ls rs)[i]? = some ⟨x, y⟩ := by
  have hi : i < ys.length := (List.getElem?_eq_some_iff.mp hy).1
  unfold interfaceArray
  apply zipWith_getElem?
  · rw [List.getElem?_append_left (by omega)]; exact hx
  · rw [List.getElem?_append_left hi]; exact hy

theorem interfaceArray_right (ys ls rs : List ℚ) (h1 : ls.length = ys.length) (h2 : rs.length = ys.length) (i : ℕ) (x y : ℚ) (hx : rs[i]? = some x) (hy : ys[i]? = some y) :
    (interfaceArray ys ls rs)[2 * ys.length - 1 - i]? = some ⟨x, y⟩ := by
  have hi : i < ys.length := (List.getElem?_eq_some_iff.mp hy).1
  unfold interfaceArray
  apply zipWith_getElem?
  · rw [List.getElem?_append_right (by omega), List.getElem?_reverse (by omega), ← hx]
    congr 1
    omega
  · rw [List.getElem?_append_right (by omega), List.getElem?_reverse (by omega), ← hy]
    congr 1
    omega

/-- One map: the heights are evenly spaced. -/
theorem updateInterface_levels (y0 d B : ℚ) (n : ℕ) (hd : 0 < d) (hn : 2 ≤ n) (ls rs : List ℚ) (h1 : ls.length = n) (h2 : rs.length = n) (old : Memory)
    (t : List (Option PeriodicInfo)) (ht : transferValues old (levelIndex y0 d n) = .ok t) (hl : t.length = n) :
    ∃ pts infos, updateInterface (levels y0 d n) ls rs B old = .ok (pts, some (infos, levelIndex y0 d n)) ∧ infos.length = n ∧ pts.length = 2 * n ∧
      ∀ (i : ℕ) (info : Option PeriodicInfo) (l r : ℚ), (fillInfo t)[i]? = some info → ls[i]? = some l → rs[i]? = some r →
        infos[i]? = some (updateRow B info l r) ∧
        pts[i]? = some ⟨(addMultipliers (updateRow B info l r) B l r).1, y0 + d * (i : ℚ)⟩ ∧
        pts[2 * n - 1 - i]? = some ⟨(addMultipliers (updateRow B info l r) B l r).2, y0 + d * (i : ℚ)⟩ := by
  have hf : (fillInfo t).length = n := by rw [length_fillInfo, hl]
  obtain ⟨infos, hinfos⟩ : ∃ infos, infos = List.zipWith (fun i (e : ℚ × ℚ) => updateRow B i e.1 e.2) (fillInfo t) (ls.zip rs) := ⟨_, rfl⟩
  obtain ⟨edges, hedges⟩ : ∃ edges, edges = List.zipWith (fun i (e : ℚ × ℚ) => addMultipliers i B e.1 e.2) infos (ls.zip rs) := ⟨_, rfl⟩
  have li : infos.length = n := by rw [hinfos]; simp [hf, h1, h2]
  have le : edges.length = n := by rw [hedges]; simp [li, h1, h2]
  refine ⟨interfaceArray (levels y0 d n) (edges.map Prod.fst) (edges.map Prod.snd), infos, ?_, li, ?_, ?_⟩
  · unfold updateInterface
    rw [yindexData_levels y0 d n hd hn, Gmx.ok_bind, ht, Gmx.ok_bind, ← hinfos]
    simp only
    rw [← hedges]
  · rw [length_interfaceArray _ _ _ (by simp [le, length_levels]) (by simp [le, length_levels]), length_levels]
  · intro i info l r hi hl' hr'
    have hin : i < n := by rw [← h1]; exact (List.getElem?_eq_some_iff.mp hl').1
    have hz : (ls.zip rs)[i]? = some (l, r) := zipWith_getElem? _ _ _ _ _ _ hl' hr'
    have hI : infos[i]? = some (updateRow B info l r) := by rw [hinfos]; exact zipWith_getElem? _ _ _ _ _ _ hi hz
    have hE : edges[i]? = some (addMultipliers (updateRow B info l r) B l r) := by rw [hedges]; exact zipWith_getElem? _ _ _ _ _ _ hI hz
    refine ⟨hI, ?_, ?_⟩
    · apply interfaceArray_left _ _ _ (by simp [le, length_levels]) i _ _ _ (getElem?_levels y0 d n i hin)
      rw [List.getElem?_map, hE]; rfl
    · have := interfaceArray_right (levels y0 d n) (edges.map Prod.fst) (edges.map Prod.snd) (by simp [le, length_levels]) (by simp [le, length_levels]) i
        (addMultipliers (updateRow B info l r) B l r).2 _ (by rw [List.getElem?_map, hE]; rfl) (getElem?_levels y0 d n i hin)
      rw [length_levels] at this
      exact this

theorem getElem?_fromBase (pts : List Point) (i : ℕ) (p : Point) (h : pts[i]? = some p) :
    (fromBase pts)[i]? = some ⟨p.x, p.y - (pts.headD ⟨0, 0⟩).y⟩ := by
  unfold fromBase
  rw [List.getElem?_map, h]; rfl

/-- One map that shows a profile. -/
theorem interfaceCoordinates_shows (o : Interface.Opts) (B y0 d : ℚ) (f : Flow) (p : Profile) (h : Shows o B y0 d f p) (hd : 0 < d) (hn : 2 ≤ p.num)
    (old : Memory) (t : List (Option PeriodicInfo)) (ht : transferValues old (levelIndex (y0 + d * (p.base : ℚ)) d p.num) = .ok t) (hl : t.length = p.num) :
    ∃ pts infos, interfaceCoordinates f "M" old .other o = .ok (pts, some (infos, levelIndex (y0 + d * (p.base : ℚ)) d p.num)) ∧
      infos.length = p.num ∧ pts.length = 2 * p.num ∧
      ∀ (i : ℕ) (info : Option PeriodicInfo), (fillInfo t)[i]? = some info →
        infos[i]? = some (updateRow B info (wrap B (p.edge (p.base + i)).1) (wrap B (p.edge (p.base + i)).2)) ∧
        pts[i]? = some ⟨(addMultipliers (updateRow B info (wrap B (p.edge (p.base + i)).1) (wrap B (p.edge (p.base + i)).2)) B
          (wrap B (p.edge (p.base + i)).1) (wrap B (p.edge (p.base + i)).2)).1, d * (i : ℚ)⟩ ∧
        pts[2 * p.num - 1 - i]? = some ⟨(addMultipliers (updateRow B info (wrap B (p.edge (p.base + i)).1) (wrap B (p.edge (p.base + i)).2)) B
          (wrap B (p.edge (p.base + i)).1) (wrap B (p.edge (p.base + i)).2)).2, d * (i : ℚ)⟩ := by
  obtain ⟨s, pts0, hh, hs, hb, hg, hlen, hrow⟩ := h
  have e0 : pts0.map (fun q => (row s q.1).y) = levels (y0 + d * (p.base : ℚ)) d p.num := by
    refine List.ext_getElem? fun i => ?_
    by_cases hi : i < p.num
    · obtain ⟨q, hq⟩ : ∃ q, pts0[i]? = some q := ⟨_, List.getElem?_eq_getElem (by omega)⟩
      rw [List.getElem?_map, hq, getElem?_levels _ _ _ _ hi, Option.map_some, (hrow i q hq).1]
      congr 1
      push_cast
      ring
    · rw [List.getElem?_eq_none (by simp; omega), List.getElem?_eq_none (by rw [length_levels]; omega)]
  have e1 : ∀ i, i < p.num → (pts0.map fun q => (row s q.1).x)[i]? = some (wrap B (p.edge (p.base + i)).1) := by
    intro i hi
    obtain ⟨q, hq⟩ : ∃ q, pts0[i]? = some q := ⟨_, List.getElem?_eq_getElem (by omega)⟩
    rw [List.getElem?_map, hq, Option.map_some, (hrow i q hq).2.1]
  have e2 : ∀ i, i < p.num → (pts0.map fun q => (row s q.2).x)[i]? = some (wrap B (p.edge (p.base + i)).2) := by
    intro i hi
    obtain ⟨q, hq⟩ : ∃ q, pts0[i]? = some q := ⟨_, List.getElem?_eq_getElem (by omega)⟩
    rw [List.getElem?_map, hq, Option.map_some, (hrow i q hq).2.2]
  obtain ⟨pts, infos, hu, hi1, hi2, hi3⟩ := updateInterface_levels (y0 + d * (p.base : ℚ)) d B p.num hd hn (pts0.map fun q => (row s q.1).x)
    (pts0.map fun q => (row s q.2).x) (by simp [hlen]) (by simp [hlen]) old t ht hl
  have hfl : (fillInfo t).length = p.num := by rw [length_fillInfo, hl]
  have hhead : (pts.headD ⟨0, 0⟩).y = y0 + d * (p.base : ℚ) := by
    obtain ⟨info, hinfo⟩ : ∃ info, (fillInfo t)[0]? = some info := ⟨_, List.getElem?_eq_getElem (by omega)⟩
    have := (hi3 0 info _ _ hinfo (e1 0 (by omega)) (e2 0 (by omega))).2.1
    rw [← List.head?_eq_getElem?] at this
    rw [List.headD_eq_head?_getD, this]
    simp
  refine ⟨fromBase pts, infos, ?_, hi1, by rw [fromBase, List.length_map, hi2], ?_⟩
  · unfold interfaceCoordinates
    rw [hs, Gmx.ok_bind, hb, hg, Gmx.ok_bind]
    cases pts0 with
    | nil => simp at hlen; omega
    | cons q rest =>
      simp only
      rw [e0, hu, Gmx.ok_bind]
      rfl
  · intro i info hinfo
    have hin : i < p.num := by rw [← hfl]; exact (List.getElem?_eq_some_iff.mp hinfo).1
    obtain ⟨a, b, c⟩ := hi3 i info _ _ hinfo (e1 i hin) (e2 i hin)
    refine ⟨a, ?_, ?_⟩
    · rw [getElem?_fromBase _ _ _ b, hhead]
      simp only
      congr 2
      ring
    · rw [getElem?_fromBase _ _ _ c, hhead]
      simp only
      congr 2
      ring

/-- The state after the tracker has seen height `k` of profile `p`. -/
def Knows (B y0 d : ℚ) (k : ℤ) (c : ℤ) (p : Profile) (m : Memory) : Prop :=
  ∃ infos, m = some (infos, levelIndex (y0 + d * (p.base : ℚ)) d p.num) ∧ infos.length = p.num ∧
    infos[(k - p.base).toNat]? = some ⟨some (wrap B (p.edge k).1), some (wrap B (p.edge k).2), Spec.image B (p.edge k).1 - c, Spec.image B (p.edge k).2 - c⟩

theorem toNat_base (k : ℤ) (p : Profile) (h : p.Has k) : p.base + ((k - p.base).toNat : ℤ) = k ∧ (k - p.base).toNat < p.num := by
  unfold Profile.Has at h
  omega

theorem fileShows_of {B y0 d : ℚ} (hB : 0 < B) {k c : ℤ} {p : Profile} (hk : p.Has k) (hf : Fits B (p.edge k)) {pts : List Point} (hl : pts.length = 2 * p.num)
    {info : PeriodicInfo} (hinfo : info = ⟨some (wrap B (p.edge k).1), some (wrap B (p.edge k).2), Spec.image B (p.edge k).1 - c, Spec.image B (p.edge k).2 - c⟩)
    (h1 : pts[(k - p.base).toNat]? = some ⟨(addMultipliers info B (wrap B (p.edge k).1) (wrap B (p.edge k).2)).1, d * (((k - p.base).toNat : ℕ) : ℚ)⟩)
    (h2 : pts[2 * p.num - 1 - (k - p.base).toNat]? = some ⟨(addMultipliers info B (wrap B (p.edge k).1) (wrap B (p.edge k).2)).2, d * (((k - p.base).toNat : ℕ) : ℚ)⟩) :
    FileShows B d k c p (fileRows pts) := by
  have hc : (((k - p.base).toNat : ℕ) : ℚ) = ((k - p.base : ℤ) : ℚ) := by
    have := (toNat_base k p hk).1
    have h' : (((k - p.base).toNat : ℕ) : ℤ) = k - p.base := by omega
    exact_mod_cast h'
  rw [hinfo, row_exact hB hf] at h1 h2
  refine ⟨by simp [fileRows, hl], ?_, ?_⟩
  · unfold fileRows
    rw [List.getElem?_map, h1, hc]; rfl
  · unfold fileRows
    rw [List.getElem?_map, h2, hc]; rfl

theorem collect_track {B y0 d : ℚ} (hB : 0 < B) (hd : 0 < d) (o : Interface.Opts) (k c : ℤ) :
    ∀ (fs : List Flow) (ps : List Profile) (p : Profile) (m : Memory), Knows B y0 d k c p m → 2 ≤ p.num → p.Has k → Fits B (p.edge k) →
      List.Forall₂ (Shows o B y0 d) fs ps → (∀ q ∈ ps, 2 ≤ q.num ∧ q.Has k ∧ Distinct d (y0 + d * (q.base : ℚ)) ∧ Fits B (q.edge k)) →
      (p :: ps).IsChain (fun a b => Slow B (a.edge k) (b.edge k)) → (p :: ps).IsChain (fun a b => AtMostOneCrosses B (a.edge k) (b.edge k)) →
      ∃ files, collectInterfaces .other o m fs = (files, .ok ()) ∧ List.Forall₂ (FileShows B d k c) ps files := by
  intro fs ps p m hm hpn hpk hpf hF
  induction hF generalizing p m with
  | nil => exact fun _ _ _ => ⟨[], rfl, .nil⟩
  | @cons f q fs ps hf hF ih =>
    intro hq hs hc
    obtain ⟨hqn, hqk, hqd, hqf⟩ := hq q (by simp)
    obtain ⟨infos, hmem, hlen, hknow⟩ := hm
    have hs' := List.isChain_cons_cons.mp hs
    have hc' := List.isChain_cons_cons.mp hc
    obtain ⟨kp1, kp2⟩ := toNat_base k p hpk
    obtain ⟨kq1, kq2⟩ := toNat_base k q hqk
    have hy : y0 + d * (q.base : ℚ) = y0 + d * (p.base : ℚ) + d * ((q.base - p.base : ℤ) : ℚ) := by push_cast; ring
    have ht := transferValues_levels (y0 + d * (p.base : ℚ)) d hd p.num q.num (q.base - p.base) (by rw [← hy]; exact hqd) (by omega) (by omega)
      (by have := hpk; have := hqk; unfold Profile.Has at *; omega) (by have := hpk; have := hqk; unfold Profile.Has at *; omega) infos hlen
    rw [← hy, ← hmem] at ht
    obtain ⟨pts, infos', hI, hl1, hl2, hrow⟩ := interfaceCoordinates_shows o B y0 d f q hf hd hqn m _ ht (by simp)
    have hget := getElem?_fillInfo _ (k - q.base).toNat _ (show ((List.range q.num).map fun i : ℕ =>
        if 0 ≤ q.base - p.base + i then infos[(q.base - p.base + (i : ℤ)).toNat]? else none)[(k - q.base).toNat]? = some (some _) by
      rw [List.getElem?_map, List.getElem?_range kq2, Option.map_some, if_pos (by unfold Profile.Has at hpk; omega)]
      rw [show (q.base - p.base + ((k - q.base).toNat : ℤ)).toNat = (k - p.base).toNat by omega, hknow])
    obtain ⟨a, b, e⟩ := hrow _ _ hget
    rw [kq1] at a b e
    have hu := updateInfo_exact hB hpf hqf hs'.1 hc'.1 c
    have hur : updateRow B (some ⟨some (wrap B (p.edge k).1), some (wrap B (p.edge k).2), Spec.image B (p.edge k).1 - c, Spec.image B (p.edge k).2 - c⟩)
        (wrap B (q.edge k).1) (wrap B (q.edge k).2) = ⟨some (wrap B (q.edge k).1), some (wrap B (q.edge k).2), Spec.image B (q.edge k).1 - c, Spec.image B (q.edge k).2 - c⟩ := hu
    obtain ⟨files, hfiles, hall⟩ := ih q (some (infos', levelIndex (y0 + d * (q.base : ℚ)) d q.num)) ⟨infos', rfl, hl1, by rw [a, hur]⟩ hqn hqk hqf
      (fun x hx => hq x (by simp [hx])) hs'.2 hc'.2
    refine ⟨fileRows pts :: files, ?_, .cons (fileShows_of (y0 := y0) hB hqk hqf hl2 hur b e) hall⟩
    unfold collectInterfaces
    rw [hI]
    simp only
    rw [hfiles]

end Strata.InterfaceFiles
