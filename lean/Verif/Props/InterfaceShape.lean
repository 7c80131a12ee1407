import Verif.Proofs.InterfaceShape
import Verif.Props.InterfaceFiles
import Mathlib.Analysis.Complex.Norm
/-!
# C85, C68: shape, area and length of interfaces
-/
namespace Strata.InterfaceFiles
open Strata Strata.Flow Strata.Average Strata.Interface Strata.Spreading Strata.Spec

/-! ## C85 -/

/-- **C85.** Every file written has the shape of an outline, whatever the maps, the search and the recentring, and also if the call fails at a
later map (equal neighbouring heights only come from the three decimals of the file). -/
theorem C85_files (c : Centre) (o : Interface.Opts) (maps : List Flow) : ∀ file ∈ (collectInterfaces c o none maps).1, Outline (· ≤ ·) file :=
  collect_good c o maps none (by simp [Good])

/-- **C85.** The coordinates before they are written: strictly ascending heights. -/
theorem C85_coordinates {f : Flow} {l : Label} {m' : Memory} {c : Centre} {o : Interface.Opts} {coords : Label × Label} {pts : List Point}
    (h : interfaceCoordinates f l none c o coords = .ok (pts, m')) : Outline (· < ·) pts :=
  (interfaceCoordinates_ok (by simp [Good]) h).2

example : (collectInterfaces .zero crossingOpts none [crossingMap [1, 1, 0, 0, 0, 0, 1, 1, 1, 1]]).1 = [[⟨-1, 0⟩, ⟨-1, 1⟩, ⟨1, 1⟩, ⟨1, 0⟩]] := by
  decide +kernel

/-- Recentring is the last step. -/
theorem interfaceCoordinates_recentre {f : Flow} {l : Label} {m m' : Memory} {o : Interface.Opts} {coords : Label × Label} {pts0 : List Point}
    (h : interfaceCoordinates f l m .other o coords = .ok (pts0, m')) (c : Centre) :
    interfaceCoordinates f l m c o coords = (recentre c f l coords.1 pts0).map fun p => (p, m') := by
  unfold interfaceCoordinates at h ⊢
  obtain ⟨s, hs, h⟩ := Simple.bind_eq_ok h
  obtain ⟨ps, hps, h⟩ := Simple.bind_eq_ok h
  rw [hs, Gmx.ok_bind, hps, Gmx.ok_bind]
  split at h
  · cases h
  · cases h
  · obtain ⟨r, hr, h⟩ := Simple.bind_eq_ok h
    rw [hr, Gmx.ok_bind]
    simp only [recentre, Gmx.ok_bind] at h
    cases h
    cases recentre c f l coords.1 (fromBase r.1) <;> rfl

/-- **C85.** Recentring on the contact line moves the interface rigidly along x, so that its first and last point lie opposite of each other;
what is remembered for the next map is not affected. -/
theorem C85_zero {f : Flow} {l : Label} {m m' : Memory} {o : Interface.Opts} {coords : Label × Label} {pts : List Point}
    (h : interfaceCoordinates f l m .other o coords = .ok (pts, m')) :
    ∃ a, interfaceCoordinates f l m .zero o coords = .ok (moveX a pts, m') ∧
      ∀ p q, (moveX a pts).head? = some p → (moveX a pts).getLast? = some q → p.x + q.x = 0 := by
  refine ⟨-(((pts.headD ⟨0, 0⟩).x + (pts.getLastD ⟨0, 0⟩).x) / 2), ?_, ?_⟩
  · rw [interfaceCoordinates_recentre h]
    unfold recentre moveX
    simp only [sub_eq_add_neg]
    rfl
  · intro p q hp hq
    unfold moveX at hp hq
    rw [List.head?_map] at hp
    rw [List.getLast?_map] at hq
    rw [List.headD_eq_head?_getD, List.getLastD_eq_getLast?] at hp hq
    cases h1 : pts.head? with
    | none => rw [h1] at hp; simp at hp
    | some p0 =>
      cases h2 : pts.getLast? with
      | none => rw [h2] at hq; simp at hq
      | some q0 =>
        rw [h1, h2] at hp hq
        simp only [Option.map_some, Option.some.injEq, Option.getD_some] at hp hq
        rw [← hp, ← hq]
        simp only
        ring

/-- **C85.** Recentring on the centre of mass moves the interface rigidly along x by the mass weighted mean of the bin positions. -/
theorem C85_com {f : Flow} {l : Label} {m m' : Memory} {o : Interface.Opts} {coords : Label × Label} {pts : List Point}
    (h : interfaceCoordinates f l m .other o coords = .ok (pts, m')) {xs ms : List ℚ} (hx : field f.data coords.1 = .ok xs)
    (hm : field f.data l = .ok ms) (hs : ms.sum ≠ 0) :
    ∃ a, interfaceCoordinates f l m .com o coords = .ok (moveX (-a) pts, m') ∧ a * ms.sum = (List.zipWith (· * ·) xs ms).sum := by
  refine ⟨(List.zipWith (· * ·) xs ms).sum / ms.sum, ?_, by field_simp⟩
  rw [interfaceCoordinates_recentre h]
  unfold recentre
  simp only
  rw [hx, Gmx.ok_bind, hm, Gmx.ok_bind]
  unfold Sample.npAverage
  rw [if_neg hs, Gmx.ok_bind]
  unfold moveX
  simp only [sub_eq_add_neg]
  rfl

example : ∃ pts m', interfaceCoordinates (crossingMap [1, 1, 0, 0, 0, 0, 1, 1, 1, 1]) "M" none .other crossingOpts = .ok (pts, m') ∧
    field (crossingMap [1, 1, 0, 0, 0, 0, 1, 1, 1, 1]).data "M" = .ok [1, 1, 0, 0, 0, 0, 1, 1, 1, 1] ∧ pts = [⟨3, 0⟩, ⟨3, 1⟩, ⟨5, 1⟩, ⟨5, 0⟩] :=
  ⟨_, some ([⟨some 3, some 0, 0, 1⟩, ⟨some 3, some 0, 0, 1⟩], ⟨0, 1, 1, 2⟩), by decide +kernel, by decide +kernel, rfl⟩

/-- A map on which nothing is found ends the collection with `ValueError`; the files of the maps before it are written and none of the
maps after it is looked at. -/
theorem C85_no_interface (c : Centre) (o : Interface.Opts) (before : List Flow) (f : Flow) (after : List Flow) (s : System)
    (hb : ∀ m g, g ∈ before → ∃ r, interfaceCoordinates g "M" m c o = .ok r)
    (hs : cells f.data "M" = .ok s) (hn : getInterface s (boxSize f) { o with longest := true } = .ok []) (m : Memory) :
    ∃ files, collectInterfaces c o m (before ++ f :: after) = (files, .error .valueError) ∧ files.length = before.length := by
  induction before generalizing m with
  | nil =>
    refine ⟨[], ?_, rfl⟩
    rw [List.nil_append, collectInterfaces]
    have : interfaceCoordinates f "M" m c o = .error .valueError := by
      unfold interfaceCoordinates
      rw [hs, Gmx.ok_bind, hn, Gmx.ok_bind]
    rw [this]
  | cons g gs ih =>
    obtain ⟨⟨pts, m'⟩, hr⟩ := hb m g (by simp)
    obtain ⟨files, h1, h2⟩ := ih (fun m x hx => hb m x (by simp [hx])) m'
    refine ⟨fileRows pts :: files, ?_, by simp [h2]⟩
    rw [List.cons_append, collectInterfaces, hr]
    simp only
    rw [h1]

example : collectInterfaces .zero crossingOpts none [crossingMap [1, 1, 0, 0, 0, 0, 1, 1, 1, 1], crossingMap [0, 0, 0, 0, 0, 0, 0, 0, 0, 0],
    crossingMap [1, 1, 0, 0, 0, 0, 1, 1, 1, 1]] = ([[⟨-1, 0⟩, ⟨-1, 1⟩, ⟨1, 1⟩, ⟨1, 0⟩]], .error .valueError) := by decide +kernel

/-! ## C68: area -/

theorem sameHeights_of_outline {R : ℚ → ℚ → Prop} {pts : List Point} (h : Outline R pts) : SameHeights pts := by
  obtain ⟨ys, -, -, -, h⟩ := h
  exact ⟨ys, h⟩

theorem ring_of_sameHeights {pts : List Point} (h : SameHeights pts) : ∃ t, pts = ring t := by
  obtain ⟨ys, h⟩ := h
  obtain ⟨t, ht, -⟩ := ring_of_outline pts ys h
  exact ⟨t, ht⟩

/-- **C68.** The area of an interface is the area of the polygon through its points. -/
theorem C68_area_is_polygon {pts : List Point} (h : SameHeights pts) : area (pts.map Point.x) (pts.map Point.y) = .ok (polygonArea pts) := by
  obtain ⟨t, rfl⟩ := ring_of_sameHeights h
  rw [area_ring, polygonArea_ring]

/-- **C68.** Every collected interface has an area. -/
theorem C68_collected (c : Centre) (o : Interface.Opts) (maps : List Flow) :
    ∀ file ∈ (collectInterfaces c o none maps).1, area (file.map Point.x) (file.map Point.y) = .ok (polygonArea file) :=
  fun file hf => C68_area_is_polygon (sameHeights_of_outline (C85_files c o maps file hf))

theorem trapezoids_cons (l0 r0 y0 l1 r1 y1 : ℚ) (t : List (ℚ × ℚ × ℚ)) :
    trapezoids ((l0, r0, y0) :: (l1, r1, y1) :: t) = (y1 - y0) * (1 / 2 * ((r0 - l0) + (r1 - l1))) + trapezoids ((l1, r1, y1) :: t) := by
  simp [trapezoids, npDiff, meanWidths]

/-- **C68.** The area does not depend on the position along x: true for all lists of coordinates. -/
theorem C68_area_moved_x (a : ℚ) (xs ys : List ℚ) : area (xs.map (· + a)) ys = area xs ys := by
  have hm : ∀ l r : List ℚ, meanWidths (l.map (· + a)) (r.map (· + a)) = meanWidths l r := by
    intro l
    induction l with
    | nil => intro r; simp [meanWidths]
    | cons l0 l ih =>
      intro r
      match l, r with
      | [], _ => simp [meanWidths]
      | _ :: _, [] => simp [meanWidths]
      | _ :: _, [_] => simp [meanWidths]
      | l1 :: l, r0 :: r1 :: r =>
        have := ih (r1 :: r)
        simp only [List.map_cons] at this ⊢
        rw [meanWidths, meanWidths, this]
        congr 1
        ring
  unfold area
  simp only [List.length_map]
  rw [← List.map_take, ← List.map_drop, ← List.map_reverse, hm]

/-- **C68.** The area does not depend on the height of the interface. -/
theorem C68_area_moved_y (a : ℚ) {pts : List Point} (h : SameHeights pts) :
    area ((moveY a pts).map Point.x) ((moveY a pts).map Point.y) = area (pts.map Point.x) (pts.map Point.y) := by
  obtain ⟨t, rfl⟩ := ring_of_sameHeights h
  have hm : moveY a (ring t) = ring (t.map fun e => (e.1, e.2.1, e.2.2 + a)) := by
    rw [ring_eq, ring_eq]
    simp [moveY, Function.comp_def]
  rw [hm, area_ring, area_ring]
  congr 1
  clear h hm
  induction t with
  | nil => rfl
  | cons e t ih =>
    match e, t with
    | _, [] => simp [trapezoids, npDiff]
    | (l0, r0, y0), (l1, r1, y1) :: t =>
      simp only [List.map_cons] at ih ⊢
      rw [trapezoids_cons, trapezoids_cons, ih]
      ring

/-- **C68.** The mirror image has the same area. -/
theorem C68_area_mirrored {pts : List Point} (h : SameHeights pts) :
    area ((mirrored pts).map Point.x) ((mirrored pts).map Point.y) = area (pts.map Point.x) (pts.map Point.y) := by
  obtain ⟨t, rfl⟩ := ring_of_sameHeights h
  have hm : mirrored (ring t) = ring (t.map fun e => (-e.2.1, -e.1, e.2.2)) := by
    rw [ring_eq, ring_eq]
    simp [mirrored, Function.comp_def]
  rw [hm, area_ring, area_ring]
  congr 1
  clear h hm
  induction t with
  | nil => rfl
  | cons e t ih =>
    match e, t with
    | _, [] => simp [trapezoids, npDiff]
    | (l0, r0, y0), (l1, r1, y1) :: t =>
      simp only [List.map_cons] at ih ⊢
      rw [trapezoids_cons, trapezoids_cons, ih]
      ring

/-- **C68.** With ordered edges and ascending heights the area is not negative; more exactly it lies between height times smallest width and height
times largest width. -/
theorem C68_area_bounds (t : List (ℚ × ℚ × ℚ)) (hy : (t.map fun e => e.2.2).Pairwise (· ≤ ·)) (w W : ℚ)
    (hw : ∀ e ∈ t, w ≤ e.2.1 - e.1 ∧ e.2.1 - e.1 ≤ W) (bottom top : ℚ × ℚ × ℚ) (hb : t.head? = some bottom) (ht : t.getLast? = some top) :
    ∃ A, area ((fromLayers t).map Point.x) ((fromLayers t).map Point.y) = .ok A ∧ w * (top.2.2 - bottom.2.2) ≤ A ∧ A ≤ W * (top.2.2 - bottom.2.2) := by
  refine ⟨trapezoids t, ?_, ?_⟩
  · rw [fromLayers, ← ring_eq, area_ring]
  · induction t generalizing bottom with
    | nil => simp at hb
    | cons e t ih =>
      match e, t with
      | (l, r, y), [] =>
        simp at hb ht
        subst hb
        subst ht
        simp [trapezoids, npDiff]
      | (l0, r0, y0), (l1, r1, y1) :: t =>
        simp only [List.head?_cons, Option.some.injEq] at hb
        subst hb
        have h1 := ih (List.pairwise_cons.mp hy).2 (fun e he => hw e (by simp [he])) (l1, r1, y1) rfl (by simpa using ht)
        have h2 : y0 ≤ y1 := (List.pairwise_cons.mp hy).1 _ (by simp)
        have h3 := hw (l0, r0, y0) (by simp)
        have h4 := hw (l1, r1, y1) (by simp)
        simp only at h1 h3 h4 ⊢
        rw [trapezoids_cons]
        constructor <;> nlinarith

theorem C68_area_nonneg (t : List (ℚ × ℚ × ℚ)) (hy : (t.map fun e => e.2.2).Pairwise (· ≤ ·)) (hw : ∀ e ∈ t, e.1 ≤ e.2.1) :
    ∃ A, area ((fromLayers t).map Point.x) ((fromLayers t).map Point.y) = .ok A ∧ 0 ≤ A := by
  refine ⟨trapezoids t, by rw [fromLayers, ← ring_eq, area_ring], ?_⟩
  induction t with
  | nil => simp [trapezoids, npDiff]
  | cons e t ih =>
    match e, t with
    | _, [] => simp [trapezoids, npDiff]
    | (l0, r0, y0), (l1, r1, y1) :: t =>
      have h1 := ih (List.pairwise_cons.mp hy).2 (fun e he => hw e (by simp [he]))
      have h2 : y0 ≤ y1 := (List.pairwise_cons.mp hy).1 _ (by simp)
      have h3 := hw (l0, r0, y0) (by simp)
      have h4 := hw (l1, r1, y1) (by simp)
      simp only at h3 h4
      rw [trapezoids_cons]
      have := mul_nonneg (sub_nonneg.mpr h2) (by linarith : 0 ≤ 1 / 2 * (r0 - l0 + (r1 - l1)))
      linarith

/-- A trapezoid: 6 wide at the bottom, 2 wide at height 2. -/
example : area ((fromLayers [(0, 6, 0), (1, 5, 1), (2, 4, 2)]).map Point.x) ((fromLayers [(0, 6, 0), (1, 5, 1), (2, 4, 2)]).map Point.y) = .ok 8 := by
  decide +kernel

/-- **C68.** Exactly the interfaces whose heights differ somewhere between the edges, by more than 1e-8 plus 1e-5 of the height on the right, are refused: the file is skipped.
`l` and `r` are the heights on the left and on the right, from below. -/
theorem C68_area_refused (xs l r : List ℚ) (hlen : l.length = r.length) (hx : xs.length = 2 * l.length) :
    area xs (l ++ r.reverse) = .error .typeError ↔ ∃ p ∈ l.zip r, 1 / 100000000 + 1 / 100000 * |p.2| < |p.1 - p.2| := by
  have hn : xs.length / 2 = l.length := by omega
  have t1 : (l ++ r.reverse).take l.length = l := by
    rw [List.take_append_of_le_length le_rfl, List.take_length]
  have t2 : ((l ++ r.reverse).drop l.length).reverse = r := by
    rw [List.drop_left, List.reverse_reverse]
  have hc : closeAll l r = .ok ((l.zip r).all fun p => decide (|p.1 - p.2| ≤ 1 / 100000000 + 1 / 100000 * |p.2|)) := by
    unfold closeAll
    rw [if_pos hlen]
    congr 1
    clear hx hn t1 t2
    induction l generalizing r with
    | nil => rfl
    | cons a l ih =>
      cases r with
      | nil => rfl
      | cons b r =>
        rw [List.zipWith_cons_cons, List.zip_cons_cons, List.all_cons, List.all_cons, ih r (by simpa using hlen)]
        rfl
  unfold area
  simp only
  rw [hn, t1, t2, hc, Gmx.ok_bind]
  by_cases h : (l.zip r).all (fun p => decide (|p.1 - p.2| ≤ 1 / 100000000 + 1 / 100000 * |p.2|)) = true
  · rw [if_pos h]
    constructor
    · intro h'; cases h'
    · rintro ⟨p, hp, hlt⟩
      have := List.all_eq_true.mp h p hp
      rw [decide_eq_true_iff] at this
      exact absurd this (not_le.mpr hlt)
  · rw [if_neg h]
    refine ⟨fun _ => ?_, fun _ => rfl⟩
    by_contra hcon
    push Not at hcon
    exact h (List.all_eq_true.mpr fun p hp => by rw [decide_eq_true_iff]; exact hcon p hp)

/-- **C68.** An odd number of points, at least five, ends the call with `ValueError`. -/
theorem C68_area_odd (xs ys : List ℚ) (n : ℕ) (hn : 2 ≤ n) (hx : xs.length = 2 * n + 1) (hy : ys.length = 2 * n + 1) : area xs ys = .error .valueError := by
  have h1 : xs.length / 2 = n := by omega
  have h2 : (ys.take n).length = n := by rw [List.length_take]; omega
  have h3 : (ys.drop n).reverse.length = n + 1 := by rw [List.length_reverse, List.length_drop]; omega
  have hc : closeAll (ys.take n) (ys.drop n).reverse = .error .valueError := by
    generalize ys.take n = a at h2
    generalize (ys.drop n).reverse = b at h3
    unfold closeAll
    rw [if_neg (by omega)]
    rcases a with _ | ⟨a1, _ | ⟨a2, a⟩⟩
    · simp at h2; omega
    · simp at h2; omega
    · rcases b with _ | ⟨b1, _ | ⟨b2, b⟩⟩
      · simp at h3
      · simp at h3; omega
      · rfl
  unfold area
  simp only
  rw [h1, hc]
  rfl

/-- One pair of heights of two differs; a hundredth of a millionth is accepted; and five points. -/
example : (∃ p ∈ [0, (1 : ℚ)].zip [0, 2], 1 / 100000000 + 1 / 100000 * |p.2| < |p.1 - p.2|) ∧ area [0, 1, 5, 6] ([0, 1] ++ [0, 2].reverse) = .error .typeError ∧
    area [0, 1, 5, 6] ([0, 1] ++ [0, 1 + 1 / 100000000].reverse) = .ok 5 ∧ area [0, 1, 2, 5, 6] [0, 1, 2, 1, 0] = .error .valueError := by
  refine ⟨⟨(1, 2), by simp, by norm_num⟩, ?_, ?_, ?_⟩ <;> decide +kernel

example : area [0, 1, 5, 6] [0, 1, 2, 0] = .error .typeError := by decide +kernel

/-! ## C68: length -/

/-- **C68.** The length is that of the path through the points. -/
theorem C68_length_is_path : ∀ pts : List Point, length (pts.map Point.x) (pts.map Point.y) = pathLength pts
  | [] => by simp [length, npDiff, pathLength]
  | [_] => by simp [length, npDiff, pathLength]
  | p :: q :: rest => by
    have ih := C68_length_is_path (q :: rest)
    rw [pathLength, ← ih]
    simp only [length, List.map_cons, npDiff, List.zipWith_cons_cons, List.sum_cons, distance]
    push_cast
    rfl

theorem distance_eq (p q : Point) : distance p q = ‖((q.x : ℝ) : ℂ) + ((q.y : ℝ) : ℂ) * Complex.I - (((p.x : ℝ) : ℂ) + ((p.y : ℝ) : ℂ) * Complex.I)‖ := by
  have : ((q.x : ℝ) : ℂ) + ((q.y : ℝ) : ℂ) * Complex.I - (((p.x : ℝ) : ℂ) + ((p.y : ℝ) : ℂ) * Complex.I) =
      (((q.x : ℝ) - p.x : ℝ) : ℂ) + (((q.y : ℝ) - p.y : ℝ) : ℂ) * Complex.I := by push_cast; ring
  rw [this, Complex.norm_add_mul_I]
  rfl

theorem distance_triangle (p q r : Point) : distance p r ≤ distance p q + distance q r := by
  have h := norm_sub_le_norm_sub_add_norm_sub (((r.x : ℝ) : ℂ) + ((r.y : ℝ) : ℂ) * Complex.I) (((q.x : ℝ) : ℂ) + ((q.y : ℝ) : ℂ) * Complex.I)
    (((p.x : ℝ) : ℂ) + ((p.y : ℝ) : ℂ) * Complex.I)
  rw [← distance_eq, ← distance_eq, ← distance_eq] at h
  linarith

theorem distance_comm (p q : Point) : distance p q = distance q p := by
  rw [distance_eq, distance_eq, norm_sub_rev]

theorem distance_nonneg (p q : Point) : 0 ≤ distance p q := Real.sqrt_nonneg _

/-- **C68.** The length is additive: an interface cut at one of its points has the lengths of its two parts. -/
theorem C68_length_additive (A : List Point) (v : Point) (B : List Point) :
    length ((A ++ v :: B).map Point.x) ((A ++ v :: B).map Point.y) =
      length ((A ++ [v]).map Point.x) ((A ++ [v]).map Point.y) + length ((v :: B).map Point.x) ((v :: B).map Point.y) := by
  rw [C68_length_is_path, C68_length_is_path, C68_length_is_path]
  induction A with
  | nil => simp [pathLength]
  | cons a A ih =>
    cases A with
    | nil => simp [pathLength]
    | cons b A =>
      simp only [List.cons_append] at ih ⊢
      rw [pathLength, pathLength, ih]
      ring

/-- **C68.** The length is at least the distance of the ends. -/
theorem C68_length_ends (pts : List Point) (p q : Point) (hp : pts.head? = some p) (hq : pts.getLast? = some q) :
    distance p q ≤ length (pts.map Point.x) (pts.map Point.y) := by
  rw [C68_length_is_path]
  induction pts generalizing p with
  | nil => simp at hp
  | cons a t ih =>
    cases t with
    | nil =>
      simp at hp hq
      subst hp
      subst hq
      simp [pathLength, distance]
    | cons b t =>
      simp only [List.head?_cons, Option.some.injEq] at hp
      subst hp
      rw [pathLength]
      have := ih b rfl (by simpa using hq)
      have := distance_triangle a b q
      linarith

/-- **C68.** The length is at least the way over any of the points of the interface. -/
theorem C68_length_via (pts : List Point) (p v q : Point) (hp : pts.head? = some p) (hq : pts.getLast? = some q) (hv : v ∈ pts) :
    distance p v + distance v q ≤ length (pts.map Point.x) (pts.map Point.y) := by
  obtain ⟨A, B, rfl⟩ := List.append_of_mem hv
  rw [C68_length_additive]
  refine add_le_add (C68_length_ends _ _ _ ?_ (by simp)) (C68_length_ends _ _ _ rfl ?_)
  · cases A with
    | nil => simpa using hp
    | cons => simpa using hp
  · rw [List.getLast?_append] at hq
    simpa using hq

/-- **C68.** The length does not depend on position and direction. -/
theorem C68_length_moved (a b : ℚ) (pts : List Point) :
    length ((moveX a (moveY b pts)).map Point.x) ((moveX a (moveY b pts)).map Point.y) = length (pts.map Point.x) (pts.map Point.y) := by
  rw [C68_length_is_path, C68_length_is_path]
  induction pts with
  | nil => rfl
  | cons p t ih =>
    cases t with
    | nil => rfl
    | cons q t =>
      simp only [moveX, moveY, List.map_cons] at ih ⊢
      rw [pathLength, pathLength, ih]
      congr 1
      unfold distance
      push_cast
      congr 2 <;> ring

theorem pathLength_reverse (pts : List Point) : pathLength pts.reverse = pathLength pts := by
  induction pts with
  | nil => rfl
  | cons p t ih =>
    cases t with
    | nil => rfl
    | cons q t =>
      have h := C68_length_additive t.reverse q [p]
      rw [C68_length_is_path, C68_length_is_path, C68_length_is_path] at h
      simp only [List.reverse_cons, List.append_assoc, List.cons_append, List.nil_append] at ih ⊢
      rw [h, ih]
      simp only [pathLength]
      rw [distance_comm q p]
      ring

theorem C68_length_mirrored (pts : List Point) :
    length ((mirrored pts).map Point.x) ((mirrored pts).map Point.y) = length (pts.map Point.x) (pts.map Point.y) := by
  rw [C68_length_is_path, C68_length_is_path]
  unfold mirrored
  rw [pathLength_reverse]
  induction pts with
  | nil => rfl
  | cons p t ih =>
    cases t with
    | nil => rfl
    | cons q t =>
      simp only [List.map_cons] at ih ⊢
      rw [pathLength, pathLength, ih]
      congr 1
      unfold distance
      push_cast
      congr 2
      ring

/-- Steps of 3 up and 4 to the right, and down again. -/
example : length ([⟨0, 0⟩, ⟨4, 3⟩, ⟨8, 0⟩].map Point.x) ([⟨0, 0⟩, ⟨4, 3⟩, ⟨8, 0⟩].map Point.y) = 10 := by
  simp only [length, npDiff, List.map_cons, List.map_nil, List.zipWith_cons_cons, List.zipWith_nil_right, List.sum_cons, List.sum_nil]
  norm_num
  rw [show (25 : ℝ) = 5 ^ 2 by norm_num, Real.sqrt_sq (by norm_num)]
  norm_num

end Strata.InterfaceFiles
