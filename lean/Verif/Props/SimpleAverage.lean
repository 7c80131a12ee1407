import Verif.Proofs.SimpleAverage
/-!
# Averages and combinations of file data: C54, C55, C77
-/
namespace Strata.SimpleAverage
open Strata Strata.Flow Strata.Average Strata.Gmx Strata.Simple

/-! ## Demonstration data -/

def mapA : Record := [("X", [0, 1]), ("Y", [0, 0]), ("N", [1, 0]), ("T", [300, 7]), ("M", [2, 0]), ("U", [1, 5]), ("V", [-1, 5])]
def mapB : Record := [("X", [1 / 2000, 1]), ("Y", [0, 0]), ("N", [3, 0]), ("T", [100, 9]), ("M", [6, 0]), ("U", [3, 5]), ("V", [1, 5])]
def mapC : Record := [("X", [1 / 2, 1]), ("Y", [0, 0]), ("N", [3, 0]), ("T", [100, 9]), ("M", [6, 0]), ("U", [3, 5]), ("V", [1, 5])]

/-- A map of 3 × 2 bins, column after column. -/
def mapD : Record := [("X", [0, 0, 1, 1, 2, 2]), ("Y", [0, 1, 0, 1, 0, 1]), ("N", [1, 2, 3, 4, 5, 6]), ("T", [10, 20, 30, 40, 50, 60]),
  ("M", [1, 1, 2, 0, 1, 1]), ("U", [1, 2, 3, 4, 5, 6]), ("V", [0, 0, 1, 1, 2, 2])]

theorem hasFields_of (d : Record) (n : ℕ) (h : ∀ l ∈ ["X", "Y", "N", "T", "M", "U", "V"], (col? d l).map List.length = some n) : HasFields d n := by
  intro l hl
  have := h l hl
  cases hc : col? d l with
  | none => rw [hc] at this; cases this
  | some c => rw [hc] at this; exact ⟨c, rfl, by simpa using this⟩

/-! ## C54 -/

/-- **C54, no input.** -/
theorem C54_no_input (atol rtol : ℚ) : averageData [] atol rtol = .ok [] := rfl

/-- **C54.** The average of dicts on the same grid (within the tolerances) has the coordinates of the first, the mean of
M and N, the mass weighted mean of U and V, the number weighted mean of T, and 0 for these where there is no weight. -/
theorem C54_average (d0 : Record) (rest : List Record) (n : ℕ) (atol rtol : ℚ) (h : ∀ d ∈ d0 :: rest, HasFields d n)
    (hc : ∀ d ∈ rest, Close atol rtol n d0 d) :
    ∃ r, averageData (d0 :: rest) atol rtol = .ok r ∧ names r = ["X", "Y", "M", "N", "U", "V", "T"] ∧ (∀ c ∈ r, c.2.length = n) ∧
      ∀ t, t < n → val r "X" t = val d0 "X" t ∧ val r "Y" t = val d0 "Y" t ∧
        (∀ l ∈ ["M", "N"], val r l t = ((d0 :: rest).map fun d => val d l t).sum / ((rest.length : ℚ) + 1)) ∧
        (∀ p ∈ [("U", "M"), ("V", "M"), ("T", "N")],
          (((d0 :: rest).map fun d => val d p.2 t).sum ≠ 0 →
            val r p.1 t = ((d0 :: rest).map fun d => val d p.1 t * val d p.2 t).sum / ((d0 :: rest).map fun d => val d p.2 t).sum) ∧
          ((∀ d ∈ d0 :: rest, val d p.2 t = 0) → val r p.1 t = 0)) := by
  refine ⟨avgOf d0 rest n, averageData_eq d0 rest n atol rtol h hc, rfl, ?_, ?_⟩
  · intro c hc
    unfold avgOf at hc
    simp only [List.mem_cons, List.not_mem_nil, or_false] at hc
    rcases hc with rfl | rfl | rfl | rfl | rfl | rfl | rfl <;> simp
  · intro t ht
    refine ⟨?_, ?_, ?_, ?_⟩
    · rw [val_of_col (c := (List.range n).map (val d0 "X")) rfl, getD_map_range _ _ _ ht]
    · rw [val_of_col (c := (List.range n).map (val d0 "Y")) rfl, getD_map_range _ _ _ ht]
    · intro l hl
      have this : ((col? (avgOf d0 rest n) l).getD []) = (List.range n).map fun t => sumOver (d0 :: rest) l t / ((d0 :: rest).length : ℚ) := by
        simp only [List.mem_cons, List.not_mem_nil, or_false] at hl
        rcases hl with rfl | rfl <;> rfl
      unfold Average.val
      rw [this, getD_map_range _ _ _ ht]
      unfold sumOver
      rw [List.length_cons]
      push_cast
      rfl
    · intro p hp
      have this : val (avgOf d0 rest n) p.1 t = quotient (sumOver2 (d0 :: rest) p.1 p.2 t) (sumOver (d0 :: rest) p.2 t) := by
        unfold Average.val
        have : ((col? (avgOf d0 rest n) p.1).getD []) = (List.range n).map fun t => quotient (sumOver2 (d0 :: rest) p.1 p.2 t) (sumOver (d0 :: rest) p.2 t) := by
          simp only [List.mem_cons, List.not_mem_nil, or_false] at hp
          rcases hp with rfl | rfl | rfl <;> rfl
        rw [this, getD_map_range _ _ _ ht]
      rw [this]
      constructor
      · intro hne
        unfold quotient sumOver sumOver2
        rw [if_pos hne]
      · intro hz
        have h1 : sumOver (d0 :: rest) p.2 t = 0 := by
          unfold sumOver
          apply List.sum_eq_zero
          intro x hx
          obtain ⟨d, hd, rfl⟩ := List.mem_map.mp hx
          exact hz d hd
        have h2 : sumOver2 (d0 :: rest) p.1 p.2 t = 0 := by
          unfold sumOver2
          apply List.sum_eq_zero
          intro x hx
          obtain ⟨d, hd, rfl⟩ := List.mem_map.mp hx
          rw [hz d hd, mul_zero]
        rw [h1, h2]
        rfl

theorem sum_zero_of_nonneg (l : List ℚ) (h : ∀ x ∈ l, 0 ≤ x) (hs : l.sum = 0) : ∀ x ∈ l, x = 0 := by
  induction l with
  | nil => simp
  | cons a l ih =>
    rw [List.sum_cons] at hs
    have ha := h a (by simp)
    have hl : 0 ≤ l.sum := List.sum_nonneg fun x hx => h x (by simp [hx])
    intro x hx
    rcases List.mem_cons.mp hx with rfl | hx
    · linarith
    · exact ih (fun x hx => h x (by simp [hx])) (by linarith) x hx

/-- **C54, momentum and heat.** With non-negative masses and numbers, the averaged mass times the averaged velocity is
the average of the momentum, and likewise for the temperature. -/
theorem C54_momentum (d0 : Record) (rest : List Record) (n : ℕ) (atol rtol : ℚ) (h : ∀ d ∈ d0 :: rest, HasFields d n)
    (hc : ∀ d ∈ rest, Close atol rtol n d0 d) (hpos : ∀ d ∈ d0 :: rest, ∀ l ∈ ["M", "N"], ∀ t, t < n → 0 ≤ val d l t) (r : Record)
    (hr : averageData (d0 :: rest) atol rtol = .ok r) :
    ∀ t, t < n → ∀ p ∈ [("U", "M"), ("V", "M"), ("T", "N")],
      val r p.2 t * val r p.1 t = ((d0 :: rest).map fun d => val d p.1 t * val d p.2 t).sum / ((rest.length : ℚ) + 1) := by
  obtain ⟨r', hr', -, -, hv⟩ := C54_average d0 rest n atol rtol h hc
  rw [hr] at hr'
  cases hr'
  intro t ht p hp
  obtain ⟨-, -, hM, hU⟩ := hv t ht
  have hw : p.2 ∈ ["M", "N"] := by
    simp only [List.mem_cons, List.not_mem_nil, or_false] at hp
    rcases hp with rfl | rfl | rfl <;> simp
  rw [hM _ hw]
  by_cases hs : ((d0 :: rest).map fun d => val d p.2 t).sum = 0
  · have hz : ∀ d ∈ d0 :: rest, val d p.2 t = 0 := by
      intro d hd
      refine sum_zero_of_nonneg _ ?_ hs _ (List.mem_map.mpr ⟨d, hd, rfl⟩)
      intro x hx
      obtain ⟨d, hd, rfl⟩ := List.mem_map.mp hx
      exact hpos d hd _ hw t ht
    rw [(hU p hp).2 hz, hs]
    have : ((d0 :: rest).map fun d => val d p.1 t * val d p.2 t).sum = 0 := by
      apply List.sum_eq_zero
      intro x hx
      obtain ⟨d, hd, rfl⟩ := List.mem_map.mp hx
      rw [hz d hd, mul_zero]
    rw [this]; simp
  · rw [(hU p hp).1 hs]
    field_simp

/-- **C54, differing coordinates.** If some coordinate of some dict differs by more than the tolerance from that of the
first, the call raises `ValueError`. -/
theorem C54_coordinates_differ (d0 : Record) (rest : List Record) (n : ℕ) (atol rtol : ℚ) (h : ∀ d ∈ d0 :: rest, HasFields d n)
    (hd : ∃ d ∈ rest, ∃ l ∈ ["X", "Y"], ∃ t, t < n ∧ atol + rtol * |val d l t| < |val d0 l t - val d l t|) :
    averageData (d0 :: rest) atol rtol = .error .valueError := by
  have hX : ∀ d ∈ rest, ∀ l ∈ ["X", "Y"], checkCoord atol rtol d0 d l = .ok () ∨ checkCoord atol rtol d0 d l = .error .valueError := by
    intro d hd l hl
    have := checkCoord_eq (h d0 (by simp)) (h d (by simp [hd])) atol rtol hl
    by_cases hc : ∀ t, t < n → |val d0 l t - val d l t| ≤ atol + rtol * |val d l t|
    · exact Or.inl (this.1 hc)
    · push Not at hc
      obtain ⟨t, ht, hc⟩ := hc
      exact Or.inr (this.2 ⟨t, ht, not_le.mpr hc⟩)
  have hchk : rest.mapM (fun d => do checkCoord atol rtol d0 d "X"; checkCoord atol rtol d0 d "Y") = .error .valueError := by
    apply mapM_first_error
    · obtain ⟨d, hd, l, hl, t, ht, hc⟩ := hd
      have herr := (checkCoord_eq (h d0 (by simp)) (h d (by simp [hd])) atol rtol hl).2 ⟨t, ht, not_le.mpr hc⟩
      refine ⟨d, hd, .valueError, ?_⟩
      simp only [List.mem_cons, List.not_mem_nil, or_false] at hl
      rcases hl with rfl | rfl
      · rw [herr]; rfl
      · rcases hX d hd "X" (by simp) with h1 | h1
        · rw [h1, ok_bind, herr]
        · rw [h1]; rfl
    · intro d hd e he
      rcases hX d hd "X" (by simp) with h1 | h1
      · rw [h1, ok_bind] at he
        rcases hX d hd "Y" (by simp) with h2 | h2
        · rw [h2] at he; cases he
        · rw [h2] at he; cases he; rfl
      · rw [h1] at he; cases he; rfl
  unfold averageData
  simp only
  rw [key_eq (h d0 (by simp)) (by simp), ok_bind, key_eq (h d0 (by simp)) (by simp), ok_bind, hchk]
  rfl

theorem key_ok {d : Record} {l : Label} {c : List ℚ} (h : key d l = .ok c) : l ∈ names d := by
  unfold key at h
  cases hc : col? d l with
  | none => rw [hc] at h; cases h
  | some c' => exact (col?_isSome_iff d l).mp ⟨c', hc⟩

theorem keys_ok {ds : List Record} {l : Label} {out : List (List ℚ)} (h : (ds.mapM fun d => key d l) = .ok out) : ∀ d ∈ ds, l ∈ names d := by
  induction ds generalizing out with
  | nil => intro d hd; cases hd
  | cons d0 ds ih =>
    rw [List.mapM_cons] at h
    obtain ⟨c, h1, h⟩ := Simple.bind_eq_ok h
    obtain ⟨cs, h2, -⟩ := Simple.bind_eq_ok h
    intro d hd
    rcases List.mem_cons.mp hd with rfl | hd
    · exact key_ok h1
    · exact ih h2 d hd

theorem weights_ok {ds : List Record} {l w : Label} {out : List (List ℚ)} (h : ds.mapM (weighted l w) = .ok out) : ∀ d ∈ ds, l ∈ names d ∧ w ∈ names d := by
  induction ds generalizing out with
  | nil => intro d hd; cases hd
  | cons d0 ds ih =>
    rw [List.mapM_cons] at h
    obtain ⟨c, h1, h⟩ := Simple.bind_eq_ok h
    obtain ⟨cs, h2, -⟩ := Simple.bind_eq_ok h
    intro d hd
    rcases List.mem_cons.mp hd with rfl | hd
    · unfold weighted at h1
      obtain ⟨a, ha, h1⟩ := Simple.bind_eq_ok h1
      obtain ⟨b, hb, -⟩ := Simple.bind_eq_ok h1
      exact ⟨key_ok ha, key_ok hb⟩
    · exact ih h2 d hd

theorem checks_ok {ds : List Record} {d0 : Record} {atol rtol : ℚ} {out : List Unit}
    (h : (ds.mapM fun d => do checkCoord atol rtol d0 d "X"; checkCoord atol rtol d0 d "Y") = .ok out) : ∀ d ∈ ds, "X" ∈ names d ∧ "Y" ∈ names d := by
  induction ds generalizing out with
  | nil => intro d hd; cases hd
  | cons d1 ds ih =>
    rw [List.mapM_cons] at h
    obtain ⟨c, h1, h⟩ := Simple.bind_eq_ok h
    obtain ⟨cs, h2, -⟩ := Simple.bind_eq_ok h
    intro d hd
    rcases List.mem_cons.mp hd with rfl | hd
    · obtain ⟨_, hx, hy⟩ := Simple.bind_eq_ok h1
      unfold checkCoord at hx hy
      obtain ⟨a, -, hx⟩ := Simple.bind_eq_ok hx
      obtain ⟨b, hb, -⟩ := Simple.bind_eq_ok hx
      obtain ⟨a', -, hy⟩ := Simple.bind_eq_ok hy
      obtain ⟨b', hb', -⟩ := Simple.bind_eq_ok hy
      exact ⟨key_ok hb, key_ok hb'⟩
    · exact ih h2 d hd

/-- **C54, missing field.** If one of the seven fields is missing in one of the dicts, the call raises an error, whatever else the dicts hold. -/
theorem C54_missing_field (ds : List Record) (atol rtol : ℚ) (d : Record) (hd : d ∈ ds) (l : Label) (hl : l ∈ ["X", "Y", "M", "N", "U", "V", "T"]) (hm : l ∉ names d) :
    ∃ e, averageData ds atol rtol = .error e := by
  cases h : averageData ds atol rtol with
  | error e => exact ⟨e, rfl⟩
  | ok r =>
    exfalso
    apply hm
    cases ds with
    | nil => cases hd
    | cons d0 rest =>
      unfold averageData at h
      simp only at h
      obtain ⟨x, hx, h⟩ := Simple.bind_eq_ok h
      obtain ⟨y, hy, h⟩ := Simple.bind_eq_ok h
      obtain ⟨_, hc, h⟩ := Simple.bind_eq_ok h
      obtain ⟨n1, hn1, h⟩ := Simple.bind_eq_ok h
      obtain ⟨_, -, h⟩ := Simple.bind_eq_ok h
      obtain ⟨m1, hm1, h⟩ := Simple.bind_eq_ok h
      obtain ⟨_, -, h⟩ := Simple.bind_eq_ok h
      obtain ⟨_, -, h⟩ := Simple.bind_eq_ok h
      obtain ⟨_, -, h⟩ := Simple.bind_eq_ok h
      obtain ⟨u, hu, h⟩ := Simple.bind_eq_ok h
      obtain ⟨v, hv, h⟩ := Simple.bind_eq_ok h
      obtain ⟨t, htt, h⟩ := Simple.bind_eq_ok h
      have wt : ∀ a b c, getWeightedAvg (d0 :: rest) a b = .ok c → a ∈ names d := by
        intro a b c hh
        unfold getWeightedAvg at hh
        obtain ⟨s, hs, -⟩ := Simple.bind_eq_ok hh
        exact (weights_ok hs d hd).1
      have coord : "X" ∈ names d ∧ "Y" ∈ names d := by
        rcases List.mem_cons.mp hd with rfl | hd
        · exact ⟨key_ok hx, key_ok hy⟩
        · exact checks_ok hc d hd
      simp only [List.mem_cons, List.not_mem_nil, or_false] at hl
      rcases hl with rfl | rfl | rfl | rfl | rfl | rfl | rfl
      · exact coord.1
      · exact coord.2
      · exact keys_ok hm1 d hd
      · exact keys_ok hn1 d hd
      · exact wt _ _ _ hu
      · exact wt _ _ _ hv
      · exact wt _ _ _ htt

/-- A dict without temperatures beside a complete one: `KeyError`. -/
example : averageData [[("X", [0]), ("Y", [0]), ("M", [1]), ("N", [1]), ("U", [1]), ("V", [1]), ("T", [1])],
    [("X", [0]), ("Y", [0]), ("M", [1]), ("N", [1]), ("U", [1]), ("V", [1])]] = .error .keyError := by decide +kernel

/-- **C54, differing sizes.** Maps with another number of bins (and more than one bin) raise `ValueError` as well. -/
theorem C54_sizes_differ (d0 d1 : Record) (rest : List Record) (n m : ℕ) (atol rtol : ℚ) (h0 : HasFields d0 n) (h1 : HasFields d1 m)
    (hne : n ≠ m) (hn : n ≠ 1) (hm : m ≠ 1) : averageData (d0 :: d1 :: rest) atol rtol = .error .valueError := by
  unfold averageData
  simp only
  rw [key_eq h0 (by simp), ok_bind, key_eq h0 (by simp), ok_bind, List.mapM_cons]
  have : checkCoord atol rtol d0 d1 "X" = .error .valueError := by
    unfold checkCoord
    rw [key_eq h0 (by simp), key_eq h1 (by simp), ok_bind, ok_bind]
    have : allClose atol rtol ((List.range n).map (val d0 "X")) ((List.range m).map (val d1 "X")) = .error .valueError := by
      have hl1 : ((List.range n).map (val d0 "X")).length = n := by simp
      have hl2 : ((List.range m).map (val d1 "X")).length = m := by simp
      generalize (List.range n).map (val d0 "X") = a at hl1 ⊢
      generalize (List.range m).map (val d1 "X") = b at hl2 ⊢
      unfold allClose
      rw [if_neg (by omega)]
      split
      · simp only [List.length_singleton] at hl1; omega
      · simp only [List.length_singleton] at hl2; omega
      · rfl
    rw [this]; rfl
  rw [this]; rfl

/-- Maps that meet the hypotheses, their average, and a map that does not fit. -/
example : (∀ d ∈ [mapA, mapB], HasFields d 2) ∧ Close (1 / 1000) (1 / 100000) 2 mapA mapB ∧
    averageData [mapA, mapB] = .ok [("X", [0, 1]), ("Y", [0, 0]), ("M", [4, 0]), ("N", [2, 0]), ("U", [5 / 2, 0]), ("V", [1 / 2, 0]), ("T", [150, 0])] ∧
    averageData [mapA, mapC] = .error .valueError ∧ HasFields mapD 6 ∧ averageData [mapA, mapD] = .error .valueError := by
  refine ⟨?_, ?_, by decide +kernel, by decide +kernel, hasFields_of _ _ (by decide +kernel), by decide +kernel⟩
  · intro d hd
    simp only [List.mem_cons, List.not_mem_nil, or_false] at hd
    rcases hd with rfl | rfl <;> exact hasFields_of _ _ (by decide +kernel)
  · unfold Close; decide +kernel

/-! ## C55 -/

/-- **C55.** Combining `nx` × `ny` bins: the information is that of the coarser grid; N and M are the sums over the blocks,
T is number weighted, U and V are mass weighted, 0 in blocks whose weights sum to 0. -/
theorem C55_combined (d : Record) (i : CInfo) (nx ny : ℕ) (hnx : 0 < nx) (hny : 0 < ny) (h : HasFields d (i.shape.1 * i.shape.2)) :
    ∃ out info, combineBins d i nx ny = .ok (out, info) ∧ info.shape = (i.shape.1 / nx, i.shape.2 / ny) ∧
      info.spacing = (i.spacing.1 * nx, i.spacing.2 * ny) ∧ info.numBins = info.shape.1 * info.shape.2 ∧
      info.origin = (i.origin.1 + i.spacing.1 * (((nx : ℚ) - 1) / 2), i.origin.2 + i.spacing.2 * (((ny : ℚ) - 1) / 2)) ∧
      names out = ["X", "Y", "N", "M", "T", "U", "V"] ∧ (∀ c ∈ out, c.2.length = info.numBins) ∧
      ∀ I J, I < info.shape.1 → J < info.shape.2 →
        cell out "X" info.shape.2 I J = info.origin.1 + info.spacing.1 * (I : ℚ) ∧
        cell out "Y" info.shape.2 I J = info.origin.2 + info.spacing.2 * (J : ℚ) ∧
        (∀ l ∈ ["N", "M"], cell out l info.shape.2 I J = block nx ny (cell d l i.shape.2) I J) ∧
        ∀ p ∈ [("T", "N"), ("U", "M"), ("V", "M")], cell out p.1 info.shape.2 I J =
          if block nx ny (cell d p.2 i.shape.2) I J = 0 then 0
          else block nx ny (fun a b => cell d p.1 i.shape.2 a b * cell d p.2 i.shape.2 a b) I J / block nx ny (cell d p.2 i.shape.2) I J := by
  obtain ⟨⟨SX, SY⟩, ⟨dx, dy⟩, ⟨x0, y0⟩, nb⟩ := i
  simp only at h ⊢
  have e := combineBins_eq h dx dy x0 y0 nb nx ny hnx hny
  refine ⟨_, _, e, rfl, rfl, rfl, ?_, rfl, ?_, ?_⟩
  · show ((_ : ℚ), (_ : ℚ)) = _
    simp only [Prod.mk.injEq]
    constructor <;> ring
  · intro c hc
    simp only [List.mem_cons, List.not_mem_nil, or_false] at hc
    rcases hc with rfl | rfl | rfl | rfl | rfl | rfl | rfl <;> simp [combinedInfo, sumCol, avgCol]
  · intro I J hI hJ
    have hI' : I < SX / nx := hI
    have hJ' : J < SY / ny := hJ
    have ht : I * (SY / ny) + J < SX / nx * (SY / ny) := by
      have := grid_lt (nx := SY / ny) (ny := SX / nx) hJ' hI'
      rwa [Nat.mul_comm (SY / ny)] at this
    have cells : ∀ (r : Record) (l : Label) (f : ℕ → ℚ), col? r l = some ((List.range (SX / nx * (SY / ny))).map f) → cell r l (SY / ny) I J = f (I * (SY / ny) + J) := by
      intro r l f hc
      unfold cell
      rw [val_of_col hc, getD_map_range _ _ _ ht]
    have hd : (I * (SY / ny) + J) / (SY / ny) = I := grid_div hJ'
    have hm : (I * (SY / ny) + J) % (SY / ny) = J := grid_mod hJ'
    refine ⟨?_, ?_, ?_, ?_⟩
    · refine (cells _ "X" _ rfl).trans ?_
      rw [hd]; rfl
    · refine (cells _ "Y" _ rfl).trans ?_
      rw [hm]; rfl
    · intro l hl
      simp only [List.mem_cons, List.not_mem_nil, or_false] at hl
      rcases hl with rfl | rfl
      · refine (cells _ "N" _ rfl).trans ?_
        simp only [hd, hm]
      · refine (cells _ "M" _ rfl).trans ?_
        simp only [hd, hm]
    · intro p hp
      simp only [List.mem_cons, List.not_mem_nil, or_false] at hp
      rcases hp with rfl | rfl | rfl
      · refine (cells _ "T" _ rfl).trans ?_
        simp only [hd, hm]
      · refine (cells _ "U" _ rfl).trans ?_
        simp only [hd, hm]
      · refine (cells _ "V" _ rfl).trans ?_
        simp only [hd, hm]

/-- **C55, conservation.** Total mass and number are those of the bins covered by whole blocks; with non-negative masses and
numbers, so are the total momentum and the total of N times T. -/
theorem C55_conserved (d : Record) (i : CInfo) (nx ny : ℕ) (hnx : 0 < nx) (hny : 0 < ny) (h : HasFields d (i.shape.1 * i.shape.2))
    (out : Record) (info : CInfo) (hout : combineBins d i nx ny = .ok (out, info)) :
    (∀ l ∈ ["N", "M"], gridSum info.shape.1 info.shape.2 (cell out l info.shape.2) =
      gridSum (nx * (i.shape.1 / nx)) (ny * (i.shape.2 / ny)) (cell d l i.shape.2)) ∧
    ((∀ l ∈ ["N", "M"], ∀ a b, a < i.shape.1 → b < i.shape.2 → 0 ≤ cell d l i.shape.2 a b) →
      ∀ p ∈ [("T", "N"), ("U", "M"), ("V", "M")],
        gridSum info.shape.1 info.shape.2 (fun I J => cell out p.1 info.shape.2 I J * cell out p.2 info.shape.2 I J) =
        gridSum (nx * (i.shape.1 / nx)) (ny * (i.shape.2 / ny)) (fun a b => cell d p.1 i.shape.2 a b * cell d p.2 i.shape.2 a b)) := by
  obtain ⟨out', info', hout', hsh, -, -, -, -, -, hv⟩ := C55_combined d i nx ny hnx hny h
  rw [hout] at hout'
  simp only [Except.ok.injEq, Prod.mk.injEq] at hout'
  obtain ⟨rfl, rfl⟩ := hout'
  have h1 : info.shape.1 = i.shape.1 / nx := by rw [hsh]
  have h2 : info.shape.2 = i.shape.2 / ny := by rw [hsh]
  constructor
  · intro l hl
    rw [gridSum_congr _ _ _ (block nx ny (cell d l i.shape.2)) fun I J hI hJ => (hv I J hI hJ).2.2.1 l hl, gridSum_block, h1, h2]
  · intro hpos p hp
    have hw : p.2 ∈ ["N", "M"] := by
      simp only [List.mem_cons, List.not_mem_nil, or_false] at hp
      rcases hp with rfl | rfl | rfl <;> simp
    rw [← gridSum_block, ← h1, ← h2]
    apply gridSum_congr
    intro I J hI hJ
    rw [(hv I J hI hJ).2.2.1 _ hw, (hv I J hI hJ).2.2.2 p hp]
    by_cases hz : block nx ny (cell d p.2 i.shape.2) I J = 0
    · rw [if_pos hz, zero_mul, block_zero nx ny I J _ _ ?_ hz]
      intro a b ha hb
      have inside : ∀ (n S K a : ℕ), K < S / n → a < n → n * K + a < S := by
        intro n S K a hK ha
        have h1 : n * (K + 1) ≤ n * (S / n) := Nat.mul_le_mul_left n hK
        have h2 : n * (S / n) ≤ S := Nat.mul_div_le S n
        rw [Nat.mul_succ] at h1
        omega
      exact hpos _ hw _ _ (inside _ _ _ _ (h1 ▸ hI) ha) (inside _ _ _ _ (h2 ▸ hJ) hb)
    · rw [if_neg hz]
      field_simp

/-- **C55, errors.** Combining 0 bins raises `ZeroDivisionError`; a map whose number of bins is not that of its
information raises `ValueError`. -/
theorem C55_errors (d : Record) (i : CInfo) (nx ny n : ℕ) (h : HasFields d n) :
    (nx = 0 ∨ ny = 0 → combineBins d i nx ny = .error .zeroDivisionError) ∧
    (0 < nx → 0 < ny → n ≠ i.shape.1 * i.shape.2 → combineBins d i nx ny = .error .valueError) := by
  constructor
  · intro h0
    unfold combineBins
    rw [if_pos h0]
  · intro h1 h2 hne
    unfold combineBins combineField reshaped
    rw [if_neg (by omega), key_eq h (by simp), ok_bind, if_neg (by simpa using hne)]
    rfl

/-- A map of 3 × 2 bins, combined 2 × 2: the last column is not covered. -/
example : HasFields mapD (3 * 2) ∧ combineBins mapD ⟨(3, 2), (1, 1), (0, 0), 6⟩ 2 2 =
    .ok ([("X", [1 / 2]), ("Y", [1 / 2]), ("N", [10]), ("M", [4]), ("T", [30]), ("U", [9 / 4]), ("V", [1 / 2])], ⟨(1, 1), (2, 2), (1 / 2, 1 / 2), 1⟩) :=
  ⟨hasFields_of _ _ (by decide +kernel), by decide +kernel⟩

/-! ## C77 -/

/-- **C77 (partial).** If the origin in the information is the centre of the first bin, as for maps read from simple
files, each combined bin lies at the mean position of the bins it combines.

Missing: maps read from gmx_flow_1 files, for which the claim is false, see `C77_gmx_maps_are_shifted`. -/
theorem C77_combined_positions_partial (d : Record) (i : CInfo) (nx ny : ℕ) (hnx : 0 < nx) (hny : 0 < ny) (h : HasFields d (i.shape.1 * i.shape.2))
    (hx : ∀ a b, a < i.shape.1 → b < i.shape.2 → cell d "X" i.shape.2 a b = i.origin.1 + i.spacing.1 * (a : ℚ))
    (hy : ∀ a b, a < i.shape.1 → b < i.shape.2 → cell d "Y" i.shape.2 a b = i.origin.2 + i.spacing.2 * (b : ℚ)) :
    ∃ out info, combineBins d i nx ny = .ok (out, info) ∧ ∀ I J, I < info.shape.1 → J < info.shape.2 →
      ∀ l ∈ ["X", "Y"], cell out l info.shape.2 I J = block nx ny (cell d l i.shape.2) I J / ((nx : ℚ) * ny) := by
  obtain ⟨out, info, hout, hsh, hsp, -, hor, -, -, hv⟩ := C55_combined d i nx ny hnx hny h
  refine ⟨out, info, hout, ?_⟩
  intro I J hI hJ l hl
  have hI' : I < i.shape.1 / nx := by rw [hsh] at hI; exact hI
  have hJ' : J < i.shape.2 / ny := by rw [hsh] at hJ; exact hJ
  obtain ⟨vx, vy, -, -⟩ := hv I J hI hJ
  rw [hor, hsp] at vx vy
  have hn1 : (nx : ℚ) ≠ 0 := by exact_mod_cast hnx.ne'
  have hn2 : (ny : ℚ) ≠ 0 := by exact_mod_cast hny.ne'
  have gauss : ∀ n : ℕ, ∑ a ∈ Finset.range n, (a : ℚ) = (n : ℚ) * ((n : ℚ) - 1) / 2 := by
    intro n
    induction n with
    | zero => simp
    | succ n ih => rw [Finset.sum_range_succ, ih]; push_cast; ring
  simp only [List.mem_cons, List.not_mem_nil, or_false] at hl
  rcases hl with rfl | rfl
  · rw [vx, block_congr nx ny I J _ _ hI' hJ' _ (fun a _ => i.origin.1 + i.spacing.1 * (a : ℚ)) hx]
    unfold block
    simp only [Finset.sum_const, Finset.card_range, nsmul_eq_mul]
    push_cast
    rw [← Finset.mul_sum, Finset.sum_add_distrib, ← Finset.mul_sum, Finset.sum_add_distrib, gauss]
    simp only [Finset.sum_const, Finset.card_range, nsmul_eq_mul]
    field_simp
    ring
  · rw [vy, block_congr nx ny I J _ _ hI' hJ' _ (fun _ b => i.origin.2 + i.spacing.2 * (b : ℚ)) hy]
    unfold block
    simp only [Finset.sum_const, Finset.card_range, nsmul_eq_mul]
    push_cast
    rw [Finset.sum_add_distrib, ← Finset.mul_sum, Finset.sum_add_distrib, gauss]
    simp only [Finset.sum_const, Finset.card_range, nsmul_eq_mul]
    field_simp
    ring

/-- **C77 is false for maps read from gmx_flow_1 files**: their bins lie half a bin from the origin (C47), and combined
bins are half a (fine) bin to the left of and below the middle of the bins they combine, for every such map. -/
theorem C77_gmx_maps_are_shifted (d : Record) (i : CInfo) (nx ny : ℕ) (hnx : 0 < nx) (hny : 0 < ny) (h : HasFields d (i.shape.1 * i.shape.2))
    (hx : ∀ a b, a < i.shape.1 → b < i.shape.2 → cell d "X" i.shape.2 a b = i.origin.1 + i.spacing.1 * ((a : ℚ) + 1 / 2))
    (hy : ∀ a b, a < i.shape.1 → b < i.shape.2 → cell d "Y" i.shape.2 a b = i.origin.2 + i.spacing.2 * ((b : ℚ) + 1 / 2)) :
    ∃ out info, combineBins d i nx ny = .ok (out, info) ∧ ∀ I J, I < info.shape.1 → J < info.shape.2 →
      cell out "X" info.shape.2 I J = block nx ny (cell d "X" i.shape.2) I J / ((nx : ℚ) * ny) - i.spacing.1 / 2 ∧
      cell out "Y" info.shape.2 I J = block nx ny (cell d "Y" i.shape.2) I J / ((nx : ℚ) * ny) - i.spacing.2 / 2 := by
  obtain ⟨out, info, hout, hsh, hsp, -, hor, -, -, hv⟩ := C55_combined d i nx ny hnx hny h
  refine ⟨out, info, hout, ?_⟩
  intro I J hI hJ
  have hI' : I < i.shape.1 / nx := by rw [hsh] at hI; exact hI
  have hJ' : J < i.shape.2 / ny := by rw [hsh] at hJ; exact hJ
  obtain ⟨vx, vy, -, -⟩ := hv I J hI hJ
  rw [hor, hsp] at vx vy
  have hn1 : (nx : ℚ) ≠ 0 := by exact_mod_cast hnx.ne'
  have hn2 : (ny : ℚ) ≠ 0 := by exact_mod_cast hny.ne'
  have gauss : ∀ n : ℕ, ∑ a ∈ Finset.range n, (a : ℚ) = (n : ℚ) * ((n : ℚ) - 1) / 2 := by
    intro n
    induction n with
    | zero => simp
    | succ n ih => rw [Finset.sum_range_succ, ih]; push_cast; ring
  constructor
  · rw [vx, block_congr nx ny I J _ _ hI' hJ' _ (fun a _ => i.origin.1 + i.spacing.1 * ((a : ℚ) + 1 / 2)) hx]
    unfold block
    simp only [Finset.sum_const, Finset.card_range, nsmul_eq_mul]
    push_cast
    rw [← Finset.mul_sum, Finset.sum_add_distrib, ← Finset.mul_sum, Finset.sum_add_distrib, Finset.sum_add_distrib, gauss]
    simp only [Finset.sum_const, Finset.card_range, nsmul_eq_mul]
    field_simp
    ring
  · rw [vy, block_congr nx ny I J _ _ hI' hJ' _ (fun _ b => i.origin.2 + i.spacing.2 * ((b : ℚ) + 1 / 2)) hy]
    unfold block
    simp only [Finset.sum_const, Finset.card_range, nsmul_eq_mul]
    push_cast
    rw [Finset.sum_add_distrib, ← Finset.mul_sum, Finset.sum_add_distrib, Finset.sum_add_distrib, gauss]
    simp only [Finset.sum_const, Finset.card_range, nsmul_eq_mul]
    field_simp
    ring

/-- The demonstration map meets the hypotheses with the origin at (0, 0) (simple), resp. (-1/2, -1/2) (gmx). -/
example : (∀ a < 3, ∀ b < 2, cell mapD "X" 2 a b = 0 + 1 * ((a : ℕ) : ℚ) ∧ cell mapD "Y" 2 a b = 0 + 1 * ((b : ℕ) : ℚ)) ∧
    ∀ a < 3, ∀ b < 2, cell mapD "X" 2 a b = -1 / 2 + 1 * (((a : ℕ) : ℚ) + 1 / 2) ∧ cell mapD "Y" 2 a b = -1 / 2 + 1 * (((b : ℕ) : ℚ) + 1 / 2) := by
  decide +kernel

end Strata.SimpleAverage
