import Verif.Proofs.InterfaceTrack
import Verif.Proofs.ContactLine
import Verif.Proofs.Ieee
/-! # The shape of interfaces -/
namespace Strata.InterfaceFiles
open Strata Strata.Flow Strata.Average Strata.Interface Strata.Spreading Strata.Spec

/-- The memory has one entry per height. -/
def Good (m : Memory) : Prop := ∀ infos d, m = some (infos, d) → infos.length = d.num

theorem length_transferValues {m : Memory} (hm : Good m) {d : YIndex} {t : List (Option PeriodicInfo)} (h : transferValues m d = .ok t) : t.length = d.num := by
  unfold transferValues at h
  split at h
  · cases h; simp
  · rename_i xs d0
    split_ifs at h with h1 h2
    · cases h
      rw [List.length_map, hm xs d0 rfl, h1.2.2.2]
    · unfold sliceAssign at h
      simp only at h
      split at h
      · cases h; simp
      · split at h
        · cases h; simp
        · cases h

theorem yindexData_ok {ys : List ℚ} {d : YIndex} (h : yindexData ys = .ok d) : 2 ≤ ys.length ∧ d.num = ys.length := by
  unfold yindexData at h
  split at h
  · cases h
  · rename_i dy rest hu
    obtain ⟨lo, -, h⟩ := Simple.bind_eq_ok h
    obtain ⟨hi, -, h⟩ := Simple.bind_eq_ok h
    cases h
    refine ⟨?_, rfl⟩
    match ys, hu with
    | [], hu => simp [npDiff, npUnique] at hu
    | [_], hu => simp [npDiff, npUnique] at hu
    | _ :: _ :: _, _ => simp

theorem updateInterface_ok {ys ls rs : List ℚ} {B : ℚ} {m m' : Memory} {pts : List Point} (hm : Good m) (h1 : ls.length = ys.length) (h2 : rs.length = ys.length)
    (h : updateInterface ys ls rs B m = .ok (pts, m')) : 2 ≤ ys.length ∧ Good m' ∧ pts.map Point.y = ys ++ ys.reverse := by
  unfold updateInterface at h
  obtain ⟨d, hd, h⟩ := Simple.bind_eq_ok h
  obtain ⟨t, ht, h⟩ := Simple.bind_eq_ok h
  obtain ⟨hy, hn⟩ := yindexData_ok hd
  have hl := length_transferValues hm ht
  simp only [Except.ok.injEq, Prod.mk.injEq] at h
  obtain ⟨hp, hm'⟩ := h
  refine ⟨hy, ?_, ?_⟩
  · intro infos d' he
    rw [← hm'] at he
    simp only [Option.some.injEq, Prod.mk.injEq] at he
    rw [← he.1, ← he.2]
    simp [length_fillInfo, hl, h1, h2, hn]
  · rw [← hp]
    unfold interfaceArray
    rw [List.map_zipWith]
    have : ∀ (a b : List ℚ), a.length = b.length → List.zipWith (fun x y => (Point.mk x y).y) a b = b := by
      intro a b hab
      induction a generalizing b with
      | nil => cases b with
        | nil => rfl
        | cons => simp at hab
      | cons x a ih => cases b with
        | nil => simp at hab
        | cons y b => simp only [List.zipWith_cons_cons]; rw [ih b (by simpa using hab)]
    apply this
    simp [length_fillInfo, hl, h1, h2, hn]

theorem map_y_fromBase (pts : List Point) : (fromBase pts).map Point.y = (pts.map Point.y).map fun y => y - (pts.headD ⟨0, 0⟩).y := by
  unfold fromBase
  rw [List.map_map, List.map_map]
  rfl

theorem outline_fromBase {pts : List Point} {ys : List ℚ} (h2 : 2 ≤ ys.length) (hp : ys.Pairwise (· < ·)) (hy : pts.map Point.y = ys ++ ys.reverse) :
    Outline (· < ·) (fromBase pts) := by
  obtain ⟨y, ys', rfl⟩ : ∃ y ys', ys = y :: ys' := by
    cases ys with
    | nil => simp at h2
    | cons y ys' => exact ⟨y, ys', rfl⟩
  have hh : (pts.headD ⟨0, 0⟩).y = y := by
    cases pts with
    | nil => simp at hy
    | cons p pts =>
      simp only [List.map_cons, List.cons_append, List.cons.injEq] at hy
      exact hy.1
  refine ⟨(y :: ys').map fun z => z - y, by simpa using h2, ?_, by simp, ?_⟩
  · rw [List.pairwise_map]
    exact hp.imp fun h => by linarith
  · rw [map_y_fromBase, hy, hh, List.map_append, List.map_reverse]

theorem recentre_y {c : Centre} {f : Flow} {l xl : Label} {pts pts' : List Point} (h : recentre c f l xl pts = .ok pts') :
    ∃ a, pts' = moveX a pts := by
  unfold recentre at h
  split at h
  · cases h
    exact ⟨-(((pts.headD ⟨0, 0⟩).x + (pts.getLastD ⟨0, 0⟩).x) / 2), List.map_congr_left fun p _ => by simp [sub_eq_add_neg]⟩
  · obtain ⟨xs, -, h⟩ := Simple.bind_eq_ok h
    obtain ⟨ms, -, h⟩ := Simple.bind_eq_ok h
    obtain ⟨a, -, h⟩ := Simple.bind_eq_ok h
    cases h
    exact ⟨-a, List.map_congr_left fun p _ => by simp [sub_eq_add_neg]⟩
  · cases h
    exact ⟨0, by simp [moveX]⟩

theorem outline_moveX {R : ℚ → ℚ → Prop} {pts : List Point} (a : ℚ) (h : Outline R pts) : Outline R (moveX a pts) := by
  obtain ⟨ys, h1, h2, h3, h4⟩ := h
  refine ⟨ys, h1, h2, h3, ?_⟩
  rw [← h4]
  unfold moveX
  rw [List.map_map]
  rfl

theorem interfaceCoordinates_ok {f : Flow} {l : Label} {m m' : Memory} {c : Centre} {o : Interface.Opts} {coords : Label × Label} {pts : List Point} (hm : Good m)
    (h : interfaceCoordinates f l m c o coords = .ok (pts, m')) : Good m' ∧ Outline (· < ·) pts := by
  unfold interfaceCoordinates at h
  obtain ⟨s, -, h⟩ := Simple.bind_eq_ok h
  obtain ⟨ps, hps, h⟩ := Simple.bind_eq_ok h
  have hL := ContactLine.getInterface_layers hps
  split at h
  · cases h
  · cases h
  · rename_i p rest b _ _
    obtain ⟨r, hr, h⟩ := Simple.bind_eq_ok h
    obtain ⟨q, hq, h⟩ := Simple.bind_eq_ok h
    cases h
    obtain ⟨a1, a2, a3⟩ := updateInterface_ok (pts := r.1) (m' := r.2) hm (by simp) (by simp) hr
    refine ⟨a2, ?_⟩
    obtain ⟨a, rfl⟩ := recentre_y hq
    apply outline_moveX
    exact outline_fromBase a1 (List.pairwise_map.mpr hL.asc) a3

theorem written_mono {x y : ℚ} (h : x ≤ y) : written x ≤ written y := by
  unfold written
  have key : pyRound (1000 * x) ≤ pyRound (1000 * y) := by
    by_contra hlt
    push Not at hlt
    have h1 : (pyRound (1000 * y) : ℚ) + 1 ≤ (pyRound (1000 * x) : ℚ) := by exact_mod_cast hlt
    have h2 := abs_le.mp (Bytes.pyRound_near' (1000 * x))
    have h3 := abs_le.mp (Bytes.pyRound_near' (1000 * y))
    have e : x = y := by linarith
    rw [e] at hlt
    omega
  have : (pyRound (1000 * x) : ℚ) ≤ (pyRound (1000 * y) : ℚ) := by exact_mod_cast key
  linarith

theorem written_zero : written 0 = 0 := by decide +kernel

theorem outline_fileRows {pts : List Point} (h : Outline (· < ·) pts) : Outline (· ≤ ·) (fileRows pts) := by
  obtain ⟨ys, h1, h2, h3, h4⟩ := h
  refine ⟨ys.map written, by simpa using h1, ?_, ?_, ?_⟩
  · rw [List.pairwise_map]
    exact h2.imp fun h => written_mono h.le
  · rw [List.head?_map, h3, Option.map_some, written_zero]
  · rw [← List.map_reverse, ← List.map_append, ← h4]
    unfold fileRows
    rw [List.map_map, List.map_map]
    rfl

theorem collect_good (c : Centre) (o : Interface.Opts) : ∀ (maps : List Flow) (m : Memory), Good m →
    ∀ file ∈ (collectInterfaces c o m maps).1, Outline (· ≤ ·) file := by
  intro maps
  induction maps with
  | nil => intro m _ file hf; simp [collectInterfaces] at hf
  | cons f fs ih =>
    intro m hm file hf
    unfold collectInterfaces at hf
    split at hf
    · simp at hf
    · rename_i pts m' he
      obtain ⟨g1, g2⟩ := interfaceCoordinates_ok hm he
      simp only [List.mem_cons] at hf
      rcases hf with rfl | hf
      · exact outline_fileRows g2
      · exact ih m' g1 file hf

/-! ## Area -/

theorem crossSum_snoc (L : List Point) (p q : Point) : crossSum (L ++ [p, q]) = crossSum (L ++ [p]) + cross p q := by
  induction L with
  | nil => simp [crossSum]
  | cons a L ih =>
    cases L with
    | nil => simp [crossSum]
    | cons b L =>
      simp only [List.cons_append] at ih ⊢
      rw [crossSum, ih, crossSum]
      ring

/-- The outline through left edge, right edge and heights, from the inside out. -/
def ring : List (ℚ × ℚ × ℚ) → List Point
  | [] => []
  | (l, r, y) :: t => ⟨l, y⟩ :: ring t ++ [⟨r, y⟩]

theorem ring_eq (t : List (ℚ × ℚ × ℚ)) : ring t = t.map (fun e => ⟨e.1, e.2.2⟩) ++ (t.map fun e => (⟨e.2.1, e.2.2⟩ : Point)).reverse := by
  induction t with
  | nil => rfl
  | cons e t ih =>
    obtain ⟨l, r, y⟩ := e
    rw [ring, ih]
    simp

theorem crossSum_cons_ne (p : Point) (q : Point) (L : List Point) : crossSum (p :: q :: L) = cross p q + crossSum (q :: L) := rfl

/-- Sum of the trapezoids. -/
def trapezoids (t : List (ℚ × ℚ × ℚ)) : ℚ :=
  (List.zipWith (· * ·) (npDiff (t.map fun e => e.2.2)) (meanWidths (t.map fun e => e.1) (t.map fun e => e.2.1))).sum

theorem polygonArea_ring : ∀ t : List (ℚ × ℚ × ℚ), polygonArea (ring t) = trapezoids t
  | [] => by simp [ring, polygonArea, trapezoids, npDiff]
  | [(l, r, y)] => by
    simp [ring, polygonArea, trapezoids, npDiff, crossSum, cross]
  | (l0, r0, y0) :: (l1, r1, y1) :: t => by
    have ih := polygonArea_ring ((l1, r1, y1) :: t)
    obtain ⟨X, hX⟩ : ∃ X, ring t = X := ⟨_, rfl⟩
    have e1 : trapezoids ((l0, r0, y0) :: (l1, r1, y1) :: t) = (y1 - y0) * (1 / 2 * ((r0 - l0) + (r1 - l1))) + trapezoids ((l1, r1, y1) :: t) := by
      simp [trapezoids, npDiff, meanWidths]
    rw [e1, ← ih]
    have hr : ring ((l1, r1, y1) :: t) = ⟨l1, y1⟩ :: X ++ [⟨r1, y1⟩] := by rw [ring, hX]
    rw [ring, hr]
    have a1 : polygonArea (⟨l1, y1⟩ :: X ++ [⟨r1, y1⟩]) = (crossSum (⟨l1, y1⟩ :: X ++ [⟨r1, y1⟩]) + cross ⟨r1, y1⟩ ⟨l1, y1⟩) / 2 := by
      rw [← crossSum_snoc]
      simp [polygonArea]
    have a2 : polygonArea (⟨l0, y0⟩ :: (⟨l1, y1⟩ :: X ++ [⟨r1, y1⟩]) ++ [⟨r0, y0⟩]) =
        (cross ⟨l0, y0⟩ ⟨l1, y1⟩ + (crossSum (⟨l1, y1⟩ :: X ++ [⟨r1, y1⟩]) + cross ⟨r1, y1⟩ ⟨r0, y0⟩) + cross ⟨r0, y0⟩ ⟨l0, y0⟩) / 2 := by
      have h1 := crossSum_snoc (⟨l1, y1⟩ :: X) ⟨r1, y1⟩ ⟨r0, y0⟩
      have h2 := crossSum_snoc (⟨l0, y0⟩ :: ⟨l1, y1⟩ :: X ++ [⟨r1, y1⟩]) ⟨r0, y0⟩ ⟨l0, y0⟩
      simp only [List.cons_append, List.append_assoc, List.nil_append] at h1 h2
      simp only [polygonArea, List.cons_append, List.append_assoc, List.nil_append]
      rw [h2, crossSum_cons_ne, h1]
    rw [a1, a2]
    unfold cross
    simp only
    ring

theorem closeAll_self (a : List ℚ) : closeAll a a = .ok true := by
  unfold closeAll
  rw [if_pos rfl]
  congr 1
  induction a with
  | nil => rfl
  | cons x a ih => simp only [List.zipWith_cons_cons, List.all_cons, id_eq, isClose_self, Bool.true_and]; exact ih

/-- The area of an outline is the sum of the trapezoids. -/
theorem area_ring (t : List (ℚ × ℚ × ℚ)) : area ((ring t).map Point.x) ((ring t).map Point.y) = .ok (trapezoids t) := by
  have hx : (ring t).map Point.x = t.map (fun e => e.1) ++ (t.map fun e => e.2.1).reverse := by
    rw [ring_eq]; simp [Function.comp_def]
  have hy : (ring t).map Point.y = t.map (fun e => e.2.2) ++ (t.map fun e => e.2.2).reverse := by
    rw [ring_eq]; simp [Function.comp_def]
  have hn : (t.map (fun e => e.1) ++ (t.map fun e => e.2.1).reverse).length / 2 = t.length := by simp; omega
  unfold area
  rw [hx, hy, hn]
  have t1 : (t.map (fun e => e.2.2) ++ (t.map fun e => e.2.2).reverse).take t.length = t.map fun e => e.2.2 := by
    rw [List.take_append_of_le_length (by simp), List.take_of_length_le (by simp)]
  have t2 : (t.map (fun e => e.2.2) ++ (t.map fun e => e.2.2).reverse).drop t.length = (t.map fun e => e.2.2).reverse := by
    rw [List.drop_append, List.drop_of_length_le (by simp)]; simp
  have t3 : (t.map (fun e => e.1) ++ (t.map fun e => e.2.1).reverse).take t.length = t.map fun e => e.1 := by
    rw [List.take_append_of_le_length (by simp), List.take_of_length_le (by simp)]
  have t4 : (t.map (fun e => e.1) ++ (t.map fun e => e.2.1).reverse).drop t.length = (t.map fun e => e.2.1).reverse := by
    rw [List.drop_append, List.drop_of_length_le (by simp)]; simp
  simp only
  rw [t1, t2, t3, t4, List.reverse_reverse, List.reverse_reverse, closeAll_self]
  rfl

/-- Every outline is a ring. -/
theorem ring_of_outline (pts : List Point) (ys : List ℚ) (h : pts.map Point.y = ys ++ ys.reverse) :
    ∃ t : List (ℚ × ℚ × ℚ), pts = ring t ∧ t.map (fun e => e.2.2) = ys := by
  induction ys generalizing pts with
  | nil =>
    refine ⟨[], ?_, rfl⟩
    simpa [ring] using h
  | cons y ys ih =>
    cases pts with
    | nil => simp at h
    | cons p pts =>
      simp only [List.map_cons, List.reverse_cons, List.cons_append, List.cons.injEq] at h
      obtain ⟨h1, h2⟩ := h
      rcases List.eq_nil_or_concat pts with rfl | ⟨M, q, rfl⟩
      · simp at h2
      · rw [List.concat_eq_append] at h2 ⊢
        rw [List.map_append, ← List.append_assoc] at h2
        have h3 := List.append_inj' h2 (by simp)
        obtain ⟨t, rfl, ht⟩ := ih M h3.1
        refine ⟨(p.x, q.x, y) :: t, ?_, by simp [ht]⟩
        have h4 : q.y = y := by simpa using h3.2
        rw [ring]
        cases p
        cases q
        simp only at h1 h4 ⊢
        rw [h1, h4]
        rfl

end Strata.InterfaceFiles
