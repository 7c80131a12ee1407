import Verif.Proofs.InterfaceTrack
/-!
# C67, C84: heights of interfaces and periodic boundaries
-/
namespace Strata.InterfaceFiles
open Strata Strata.Flow Strata.Average Strata.Interface Strata.Spreading Strata.Spec

/-! ## C67 -/

/-- **C67, partial.** Between overlapping ranges of evenly spaced heights on a common lattice (the new range begins `m` heights above the old
one) every value is put in the row of its own height; rows of heights without value are unset.  Missing: disjoint ranges and ranges with
gaps, see `C67_disjoint_counterexample` and `C67_gap_counterexample`. -/
theorem C67_overlapping_partial {α : Type} (y0 d : ℚ) (hd : 0 < d) (n n' : ℕ) (m : ℤ) (hn : 2 ≤ n) (hn' : 2 ≤ n') (hdis : Distinct d (y0 + d * (m : ℚ)))
    (h1 : m < n) (h2 : 0 < m + n') (xs : List α) (hx : xs.length = n) :
    ∃ D D' out, yindexData (levels y0 d n) = .ok D ∧ yindexData (levels (y0 + d * (m : ℚ)) d n') = .ok D' ∧
      transferValues (some (xs, D)) D' = .ok out ∧ out.length = n' ∧
      ∀ (i : ℕ) (y : ℚ), (levels (y0 + d * (m : ℚ)) d n')[i]? = some y →
        (∀ (j : ℕ) (v : α), (levels y0 d n)[j]? = some y → xs[j]? = some v → out[i]? = some (some v)) ∧
        (y ∉ levels y0 d n → out[i]? = some none) := by
  refine ⟨_, _, _, yindexData_levels y0 d n hd hn, yindexData_levels _ d n' hd hn',
    transferValues_levels y0 d hd n n' m hdis (by omega) (by omega) h1 h2 xs hx, by simp, ?_⟩
  intro i y hy
  have hi : i < n' := by
    have := (List.getElem?_eq_some_iff.mp hy).1
    rwa [length_levels] at this
  rw [getElem?_levels _ _ _ _ hi, Option.some_inj] at hy
  constructor
  · intro j v hj hv
    have hj' : j < n := by
      have := (List.getElem?_eq_some_iff.mp hj).1
      rwa [length_levels] at this
    rw [getElem?_levels _ _ _ _ hj', Option.some_inj, ← hy] at hj
    have e : (j : ℤ) = m + i := by
      have : d * ((j : ℚ) - (m + i)) = 0 := by linarith
      rcases mul_eq_zero.mp this with h | h
      · exact absurd h hd.ne'
      · have : (j : ℚ) = ((m + i : ℤ) : ℚ) := by push_cast; linarith
        exact_mod_cast this
    rw [List.getElem?_map, List.getElem?_range hi, Option.map_some, if_pos (by omega), show (m + (i : ℤ)).toNat = j by omega, hv]
  · intro hno
    rw [List.getElem?_map, List.getElem?_range hi, Option.map_some]
    split_ifs with h0
    · rw [List.getElem?_eq_none]
      by_contra hlt
      push Not at hlt
      apply hno
      rw [mem_levels]
      refine ⟨(m + i).toNat, by omega, ?_⟩
      have : (((m + i).toNat : ℕ) : ℚ) = ((m + i : ℤ) : ℚ) := by
        have h' : (((m + i).toNat : ℕ) : ℤ) = m + i := by omega
        exact_mod_cast h'
      rw [this, ← hy]
      push_cast
      ring
    · rfl

example : transferValues (some (["a", "b", "c"], levelIndex 1 2 3)) (levelIndex 3 2 4) = .ok [some "b", some "c", none, none] ∧
    Distinct 2 3 := by
  refine ⟨by decide +kernel, ?_⟩
  unfold Distinct
  norm_num

/-- **C67.** Before the first map all rows are unset. -/
theorem C67_first {α : Type} (D : YIndex) : transferValues (α := α) none D = .ok (List.replicate D.num none) := rfl

/-- **C67.** Different spacings are refused. -/
theorem C67_spacing {α : Type} (xs : List α) (D D' : YIndex) (h : isClose D.dy D'.dy = false) :
    transferValues (some (xs, D)) D' = .error .valueError := by
  unfold transferValues
  simp [h]

/-- **C67 fails for disjoint ranges**, for all of them: the value of the nearest end is put in a row of another height. -/
theorem C67_disjoint_counterexample {α : Type} (y0 d : ℚ) (hd : 0 < d) (n n' : ℕ) (m : ℤ) (hn : 1 ≤ n) (hn' : 1 ≤ n') (hdis : Distinct d (y0 + d * (m : ℚ)))
    (h : (n : ℤ) ≤ m ∨ m + n' ≤ 0) (xs : List α) (hx : xs.length = n) :
    ∃ v, v ∈ xs ∧ transferValues (some (xs, levelIndex y0 d n)) (levelIndex (y0 + d * (m : ℚ)) d n') =
      .ok ((List.range n').map fun i : ℕ => if (i : ℤ) = (if (n : ℤ) ≤ m then 0 else (n' : ℤ) - 1) then some v else none) ∧
      ∀ y ∈ levels (y0 + d * (m : ℚ)) d n', y ∉ levels y0 d n := by
  have hm : m ≠ 0 := by omega
  have i1 := yindexOf_levels (y0 + d * (m : ℚ)) d n' hd hn' (-m)
  have i2 := yindexOf_levels (y0 + d * (m : ℚ)) d n' hd hn' ((n : ℤ) - 1 - m)
  have j1 := yindexOf_levels y0 d n hd hn m
  have j2 := yindexOf_levels y0 d n hd hn (m + n' - 1)
  have e1 : y0 + d * (m : ℚ) + d * ((-m : ℤ) : ℚ) = y0 := by push_cast; ring
  have e2 : y0 + d * (m : ℚ) + d * (((n : ℤ) - 1 - m : ℤ) : ℚ) = y0 + d * ((n : ℚ) - 1) := by push_cast; ring
  have e3 : y0 + d * ((m + n' - 1 : ℤ) : ℚ) = y0 + d * (m : ℚ) + d * ((n' : ℚ) - 1) := by push_cast; ring
  rw [e1] at i1
  rw [e2] at i2
  rw [e3] at j2
  have hd' : ∀ y ∈ levels (y0 + d * (m : ℚ)) d n', y ∉ levels y0 d n := by
    intro y hy hy'
    rw [mem_levels] at hy hy'
    obtain ⟨i, hi, rfl⟩ := hy
    obtain ⟨j, hj, he⟩ := hy'
    have e : (j : ℤ) = m + i := by
      have : d * ((j : ℚ) - (m + i)) = 0 := by linarith
      rcases mul_eq_zero.mp this with h | h
      · exact absurd h hd.ne'
      · have : (j : ℚ) = ((m + i : ℤ) : ℚ) := by push_cast; linarith
        exact_mod_cast this
    omega
  have hsrc : ∀ v, xs[if (n : ℤ) ≤ m then n - 1 else 0]? = some v →
      (xs.take (yindexOf (y0 + d * (m : ℚ) + d * ((n' : ℚ) - 1)) (levelIndex y0 d n) + 1)).drop (yindexOf (y0 + d * (m : ℚ)) (levelIndex y0 d n)) = [v] := by
    intro v hv
    have a : yindexOf (y0 + d * (m : ℚ)) (levelIndex y0 d n) = if (n : ℤ) ≤ m then n - 1 else 0 := by split_ifs <;> omega
    have b : yindexOf (y0 + d * (m : ℚ) + d * ((n' : ℚ) - 1)) (levelIndex y0 d n) = if (n : ℤ) ≤ m then n - 1 else 0 := by split_ifs <;> omega
    rw [a, b]
    generalize (if (n : ℤ) ≤ m then n - 1 else 0) = j at *
    obtain ⟨hj, rfl⟩ := List.getElem?_eq_some_iff.mp hv
    rw [List.drop_take]
    simp only [Nat.add_sub_cancel_left]
    rw [List.drop_eq_getElem_cons hj]
    rfl
  obtain ⟨v, hv⟩ : ∃ v, xs[if (n : ℤ) ≤ m then n - 1 else 0]? = some v := ⟨_, List.getElem?_eq_getElem (by split_ifs <;> omega)⟩
  refine ⟨v, List.mem_of_getElem? hv, ?_, hd'⟩
  unfold transferValues
  simp only
  rw [if_neg (by
    rintro ⟨hc, -⟩
    exact hm (isClose_lattice m hdis hd hc)), if_neg (by
    have := isClose_self d
    simpa [levelIndex] using this)]
  have ev1 : (levelIndex y0 d n).ymin = y0 := rfl
  have ev2 : (levelIndex y0 d n).ymax = y0 + d * ((n : ℚ) - 1) := rfl
  have ev3 : (levelIndex (y0 + d * (m : ℚ)) d n').ymin = y0 + d * (m : ℚ) := rfl
  have ev4 : (levelIndex (y0 + d * (m : ℚ)) d n').ymax = y0 + d * (m : ℚ) + d * ((n' : ℚ) - 1) := rfl
  have ev5 : (levelIndex (y0 + d * (m : ℚ)) d n').num = n' := rfl
  rw [ev1, ev2, ev3, ev4, ev5, hsrc v hv]
  generalize yindexOf y0 (levelIndex (y0 + d * (m : ℚ)) d n') = imin at *
  generalize yindexOf (y0 + d * ((n : ℚ) - 1)) (levelIndex (y0 + d * (m : ℚ)) d n') = imax at *
  unfold sliceAssign
  simp only [List.length_singleton]
  rw [if_pos (by omega)]
  congr 1
  apply List.map_congr_left
  intro i hi
  rw [List.mem_range] at hi
  by_cases hb : (i : ℤ) = (if (n : ℤ) ≤ m then 0 else (n' : ℤ) - 1)
  · rw [if_pos hb, if_pos (by split_ifs at hb <;> omega), show i - imin = 0 by split_ifs at hb <;> omega]
    rfl
  · rw [if_neg hb, if_neg (by split_ifs at hb <;> omega)]

example : transferValues (some (["a", "b"], levelIndex 0 1 2)) (levelIndex 5 1 3) = .ok [some "b", none, none] := by decide +kernel

/-- **C67 fails for ranges with a gap** (a layer without droplet): the value of height 3 is put in the row of height 2, or the transfer
fails. -/
theorem C67_gap_counterexample :
    (do let D ← yindexData [0, 1, 3, 4]; let D' ← yindexData [0, 1, 2, 3]; transferValues (some (["0", "1", "3", "4"], D)) D') =
      .ok [some "0", some "1", some "3", some "4"] ∧
    (do let D ← yindexData [0, 1, 2, 3]; let D' ← yindexData [0, 1, 3]; transferValues (some (["0", "1", "2", "3"], D)) D') = .error .valueError := by
  refine ⟨?_, ?_⟩ <;> decide +kernel

/-! ## C84 -/

/-- **C84.** A series of maps on which the search finds interfaces at evenly spaced heights; the range of heights may differ from map to map.
Whatever happens at other heights, a height `k` present on all maps is tracked through the periodic boundary: if its true edges fit into the
box, move by less than half a box and at most one of them crosses the boundary at a time, all files are written and their rows of
height `k` are the true edges up to one fixed number of box lengths. -/
theorem C84_interface_follows_edges {B y0 d : ℚ} (hB : 0 < B) (hd : 0 < d) (o : Interface.Opts) (k : ℤ) (maps : List Flow) (profiles : List Profile)
    (hs : List.Forall₂ (Shows o B y0 d) maps profiles)
    (hp : ∀ q ∈ profiles, 2 ≤ q.num ∧ q.Has k ∧ Distinct d (y0 + d * (q.base : ℚ)) ∧ Fits B (q.edge k))
    (hslow : profiles.IsChain fun a b => Slow B (a.edge k) (b.edge k))
    (hcross : profiles.IsChain fun a b => AtMostOneCrosses B (a.edge k) (b.edge k)) :
    ∃ (c : ℤ) (files : List (List Point)), collectInterfaces .other o none maps = (files, .ok ()) ∧
      List.Forall₂ (FileShows B d k c) profiles files := by
  cases hs with
  | nil => exact ⟨0, [], rfl, .nil⟩
  | @cons f q fs ps hf hF =>
    obtain ⟨hqn, hqk, hqd, hqf⟩ := hp q (by simp)
    obtain ⟨kq1, kq2⟩ := toNat_base k q hqk
    obtain ⟨pts, infos', hI, hl1, hl2, hrow⟩ := interfaceCoordinates_shows o B y0 d f q hf hd hqn none _ rfl (by simp [levelIndex])
    have hget : (fillInfo (List.replicate (levelIndex (y0 + d * (q.base : ℚ)) d q.num).num none))[(k - q.base).toNat]? = some (some initPeriodicInfo) := by
      rw [fillInfo_none, List.getElem?_replicate, if_pos (by simpa [levelIndex] using kq2)]
    obtain ⟨a, b, e⟩ := hrow _ _ hget
    rw [kq1] at a b e
    have hur : updateRow B (some initPeriodicInfo) (wrap B (q.edge k).1) (wrap B (q.edge k).2) =
        ⟨some (wrap B (q.edge k).1), some (wrap B (q.edge k).2), Spec.image B (q.edge k).1 - Spec.image B (q.edge k).1,
          Spec.image B (q.edge k).2 - Spec.image B (q.edge k).1⟩ := updateInfo_first hB hqf
    obtain ⟨files, hfiles, hall⟩ := collect_track hB hd o k (Spec.image B (q.edge k).1) fs ps q
      (some (infos', levelIndex (y0 + d * (q.base : ℚ)) d q.num)) ⟨infos', rfl, hl1, by rw [a, hur]⟩ hqn hqk hqf hF
      (fun x hx => hp x (by simp [hx])) hslow hcross
    refine ⟨Spec.image B (q.edge k).1, fileRows pts :: files, ?_, .cons (fileShows_of (y0 := y0) hB hqk hqf hl2 hur b e) hall⟩
    unfold collectInterfaces
    rw [hI]
    simp only
    rw [hfiles]

/-- A map of 5 x 2 bins with a droplet three bins wide. -/
def crossingMap (m : List ℚ) : Flow :=
  ⟨[("X", [0, 0, 1, 1, 2, 2, 3, 3, 4, 4]), ("Y", [0, 1, 0, 1, 0, 1, 0, 1, 0, 1]), ("M", m)], { shape := some (5, 2), spacing := some (1, 1) }⟩

def crossingOpts : Interface.Opts := { cutoff := some (1 / 2), radius := some 1 }

/-- The droplet moves across the boundary of the box; the maps meet the hypotheses of C84. -/
example : List.Forall₂ (Shows crossingOpts 5 0 1)
    [crossingMap [1, 1, 0, 0, 0, 0, 1, 1, 1, 1], crossingMap [1, 1, 1, 1, 0, 0, 0, 0, 1, 1], crossingMap [1, 1, 1, 1, 1, 1, 0, 0, 0, 0]]
    [⟨0, 2, fun _ => (3, 5)⟩, ⟨0, 2, fun _ => (4, 6)⟩, ⟨0, 2, fun _ => (5, 7)⟩] := by
  refine .cons ?_ (.cons ?_ (.cons ?_ .nil))
  · refine ⟨[⟨0, 0, 1, [0, 1]⟩, ⟨0, 1, 1, [1, 1]⟩, ⟨1, 0, 0, [0, 0]⟩, ⟨1, 1, 0, [1, 0]⟩, ⟨2, 0, 0, [0, 0]⟩, ⟨2, 1, 0, [1, 0]⟩, ⟨3, 0, 1, [0, 1]⟩, ⟨3, 1, 1, [1, 1]⟩,
      ⟨4, 0, 1, [0, 1]⟩, ⟨4, 1, 1, [1, 1]⟩], [(6, 0), (7, 1)], 2, by decide +kernel, by decide +kernel, by decide +kernel, rfl, ?_⟩
    intro i q hq
    match i with
    | 0 => obtain rfl := Option.some.inj hq; decide +kernel
    | 1 => obtain rfl := Option.some.inj hq; decide +kernel
    | n + 2 => simp at hq
  · refine ⟨[⟨0, 0, 1, [0, 1]⟩, ⟨0, 1, 1, [1, 1]⟩, ⟨1, 0, 1, [0, 1]⟩, ⟨1, 1, 1, [1, 1]⟩, ⟨2, 0, 0, [0, 0]⟩, ⟨2, 1, 0, [1, 0]⟩, ⟨3, 0, 0, [0, 0]⟩, ⟨3, 1, 0, [1, 0]⟩,
      ⟨4, 0, 1, [0, 1]⟩, ⟨4, 1, 1, [1, 1]⟩], [(8, 2), (9, 3)], 2, by decide +kernel, by decide +kernel, by decide +kernel, rfl, ?_⟩
    intro i q hq
    match i with
    | 0 => obtain rfl := Option.some.inj hq; decide +kernel
    | 1 => obtain rfl := Option.some.inj hq; decide +kernel
    | n + 2 => simp at hq
  · refine ⟨[⟨0, 0, 1, [0, 1]⟩, ⟨0, 1, 1, [1, 1]⟩, ⟨1, 0, 1, [0, 1]⟩, ⟨1, 1, 1, [1, 1]⟩, ⟨2, 0, 1, [0, 1]⟩, ⟨2, 1, 1, [1, 1]⟩, ⟨3, 0, 0, [0, 0]⟩, ⟨3, 1, 0, [1, 0]⟩,
      ⟨4, 0, 0, [0, 0]⟩, ⟨4, 1, 0, [1, 0]⟩], [(0, 4), (1, 5)], 2, by decide +kernel, by decide +kernel, by decide +kernel, rfl, ?_⟩
    intro i q hq
    match i with
    | 0 => obtain rfl := Option.some.inj hq; decide +kernel
    | 1 => obtain rfl := Option.some.inj hq; decide +kernel
    | n + 2 => simp at hq

example : (collectInterfaces .other crossingOpts none
    [crossingMap [1, 1, 0, 0, 0, 0, 1, 1, 1, 1], crossingMap [1, 1, 1, 1, 0, 0, 0, 0, 1, 1], crossingMap [1, 1, 1, 1, 1, 1, 0, 0, 0, 0]]).1 =
    [[⟨3, 0⟩, ⟨3, 1⟩, ⟨5, 1⟩, ⟨5, 0⟩], [⟨4, 0⟩, ⟨4, 1⟩, ⟨6, 1⟩, ⟨6, 0⟩], [⟨5, 0⟩, ⟨5, 1⟩, ⟨7, 1⟩, ⟨7, 0⟩]] := by decide +kernel

end Strata.InterfaceFiles
