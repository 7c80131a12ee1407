import Verif.Model.ResampleInt
import Verif.Proofs.SimpleAverage
import Verif.Props.Resample
import Verif.Proofs.GmxRead
/-!
# C175: numbers of bins that make no sense
-/
namespace Strata.SimpleAverage
open Strata Strata.Flow

/-- **C175, combining, sensible numbers.** -/
theorem C175_combine_sensible (d : Record) (i : CInfo) (nx ny : ℕ) (hx : 0 < nx) (hy : 0 < ny) : combineBinsInt d i nx ny = combineBins d i nx ny := by
  unfold combineBinsInt
  rw [if_neg (by omega), if_neg, if_pos ⟨by omega, by omega⟩, Int.toNat_natCast, Int.toNat_natCast]
  have h1 := Int.fdiv_nonneg (a := (i.shape.1 : ℤ)) (b := (nx : ℤ)) (by omega) (by omega)
  have h2 := Int.fdiv_nonneg (a := (i.shape.2 : ℤ)) (b := (ny : ℤ)) (by omega) (by omega)
  omega

theorem fdiv_neg_axis {m : ℕ} {n : ℤ} (hm : 0 < m) (hn : n < 0) : (m : ℤ).fdiv n < 0 := by
  obtain ⟨k, rfl⟩ : ∃ k, m = k + 1 := ⟨m - 1, by omega⟩
  cases n with
  | ofNat n => exact absurd hn (by simp)
  | negSucc n => exact Int.negSucc_lt_zero _

/-- **C175, combining (partial).** `combine_bins` refuses zero and negative numbers of bins, whatever the data of the map are. -/
theorem C175_combine_refused_partial (d : Record) (i : CInfo) (hs : 0 < i.shape.1 ∧ 0 < i.shape.2) (nx ny : ℤ) (h : nx ≤ 0 ∨ ny ≤ 0) :
    combineBinsInt d i nx ny = .error (if nx = 0 ∨ ny = 0 then .zeroDivisionError else .valueError) := by
  unfold combineBinsInt
  by_cases h0 : nx = 0 ∨ ny = 0
  · rw [if_pos h0, if_pos h0]
  · rw [if_neg h0, if_neg h0, if_pos]
    rcases h with h | h
    · exact Or.inl (fdiv_neg_axis (by omega) (by omega))
    · exact Or.inr (fdiv_neg_axis (by omega) (by omega))

end Strata.SimpleAverage

namespace Strata.Resample
open Strata Strata.Flow Strata.Average

/-- **C175, resampling, zero (partial).** Zero bins cannot be combined, nor can a bin be split into none. -/
theorem C175_zero_partial (f : Flow) (n : ℤ × ℤ) (h : n.1 = 0 ∨ n.2 = 0) (coords : Label × Label) (weights : List (Label × Label)) (xlim ylim : Option ℚ × Option ℚ) :
    (∃ e, downsampleInt f n coords weights xlim ylim = .error e) ∧ ∃ e, supersampleInt f 0 coords weights = .error e := by
  constructor
  · unfold downsampleInt
    by_cases h0 : 0 ≤ n.1 ∧ 0 ≤ n.2
    · rw [if_pos h0]
      unfold downsample
      cases cutSystemLimits f xlim ylim coords with
      | error e => exact ⟨e, rfl⟩
      | ok f =>
        rw [Gmx.ok_bind]
        have : ∃ e, downscaledInfo f (n.1.toNat, n.2.toNat) = .error e := by
          unfold downscaledInfo
          split
          · rw [if_pos (by simp only; omega)]
            exact ⟨_, rfl⟩
          · exact ⟨_, rfl⟩
        obtain ⟨e, he⟩ := this
        exact ⟨e, by rw [he]; rfl⟩
    · rw [if_neg h0]
      cases cutSystemLimits f xlim ylim coords with
      | error e => exact ⟨e, rfl⟩
      | ok f =>
        rw [Gmx.ok_bind]
        split
        · rw [if_pos h]
          exact ⟨_, rfl⟩
        · exact ⟨_, rfl⟩
  · unfold supersampleInt
    rw [if_pos le_rfl]
    unfold supersample
    simp only [Int.toNat_zero]
    cases copy f with
    | error e => exact ⟨e, rfl⟩
    | ok f =>
      rw [Gmx.ok_bind]
      cases sort f coords with
      | error e => exact ⟨e, rfl⟩
      | ok f =>
        rw [Gmx.ok_bind]
        have : ∃ e, superscaledInfo f 0 coords = .error e := by
          unfold superscaledInfo
          split
          · rw [if_pos rfl]
            exact ⟨_, rfl⟩
          · exact ⟨_, rfl⟩
        obtain ⟨e, he⟩ := this
        exact ⟨e, by rw [he]; rfl⟩

/-- **C175, resampling, sensible numbers.** -/
theorem C175_resample_sensible (f : Flow) (nx ny n : ℕ) (coords : Label × Label) (weights : List (Label × Label)) (xlim ylim : Option ℚ × Option ℚ) :
    downsampleInt f (nx, ny) coords weights xlim ylim = downsample f (nx, ny) coords weights xlim ylim ∧ supersampleInt f n coords weights = supersample f (some n) coords weights := by
  constructor
  · unfold downsampleInt
    rw [if_pos ⟨by simp, by simp⟩, Int.toNat_natCast, Int.toNat_natCast]
  · unfold supersampleInt
    rw [if_pos (by simp), Int.toNat_natCast]

theorem mk_noBins {r : Record} {d : InfoDict} {g : Flow} (h : mk (asArgs (noBins r)) d = .ok g) : ∀ c ∈ g.data, c.2 = [] := by
  unfold mk at h
  obtain ⟨data, hd, h⟩ := Simple.bind_eq_ok h
  obtain ⟨info, -, h⟩ := Simple.bind_eq_ok h
  cases h
  unfold setData at hd
  rw [collate_asArgs, Gmx.ok_bind] at hd
  have key : ∀ (n : ℕ) (cols out : Record), (∀ c ∈ cols, c.2 = []) → n = 0 → (cols.mapM fun lc => do .ok (lc.1, ← assign n lc.2)) = .ok out → ∀ c ∈ out, c.2 = [] := by
    intro n cols
    induction cols with
    | nil => intro out _ _ h; cases h; simp
    | cons c cols ih =>
      intro out hc hn h
      rw [List.mapM_cons] at h
      obtain ⟨c', h1, h⟩ := Simple.bind_eq_ok h
      obtain ⟨out', h2, h⟩ := Simple.bind_eq_ok h
      cases h
      obtain ⟨v, h3, h1⟩ := Simple.bind_eq_ok h1
      cases h1
      rw [hc c (List.mem_cons_self ..), hn] at h3
      cases h3
      intro x hx
      rcases List.mem_cons.mp hx with rfl | hx
      · rfl
      · exact ih out' (fun c h => hc c (List.mem_cons_of_mem _ h)) hn h2 x hx
  have hno : ∀ c ∈ noBins r, c.2 = [] := by
    intro c hc
    unfold noBins at hc
    obtain ⟨c', -, rfl⟩ := List.mem_map.mp hc
    rfl
  generalize noBins r = cols at hd hno
  cases cols with
  | nil => cases hd
  | cons c cols =>
    simp only at hd
    split at hd
    · exact key _ _ data hno (by rw [hno c (List.mem_cons_self ..)]; rfl) hd
    · cases hd

/-- **C175, counterexample for all maps.** A negative number of bins is not refused by the other functions: whatever the map, if it can be resampled, all of its bins are lost. -/
theorem C175_negative_loses_everything (f : Flow) (coords : Label × Label) (weights : List (Label × Label)) (g : Flow) :
    (∀ (n : ℤ × ℤ) (xlim ylim : Option ℚ × Option ℚ), n.1 < 0 ∨ n.2 < 0 → downsampleInt f n coords weights xlim ylim = .ok g → ∀ c ∈ g.data, c.2 = []) ∧
    ∀ n : ℤ, n < 0 → supersampleInt f n coords weights = .ok g → ∀ c ∈ g.data, c.2 = [] := by
  constructor
  · intro n xlim ylim hn h
    unfold downsampleInt at h
    rw [if_neg (by omega)] at h
    obtain ⟨f', -, h⟩ := Simple.bind_eq_ok h
    split at h
    · split at h
      · cases h
      · obtain ⟨r, -, h⟩ := Simple.bind_eq_ok h
        split at h
        · cases h
        · exact mk_noBins h
    · cases h
  · intro n hn h
    unfold supersampleInt at h
    rw [if_neg (by omega)] at h
    obtain ⟨f1, -, h⟩ := Simple.bind_eq_ok h
    obtain ⟨f2, -, h⟩ := Simple.bind_eq_ok h
    split at h
    · obtain ⟨x1, -, h⟩ := Simple.bind_eq_ok h
      obtain ⟨x2, -, h⟩ := Simple.bind_eq_ok h
      obtain ⟨x3, -, h⟩ := Simple.bind_eq_ok h
      obtain ⟨x4, -, h⟩ := Simple.bind_eq_ok h
      split at h
      · cases h
      · obtain ⟨x5, -, h⟩ := Simple.bind_eq_ok h
        exact mk_noBins h
    · cases h

/-- **C175, counterexample.** A map of six bins is resampled to a map that has no bins, but says it has six or twenty-four. -/
theorem C175_negative_accepted :
    ((downsampleInt exF (-1, -1)).map fun g => (g.data, g.info.shape, g.info.numBins)) = .ok ([("X", []), ("Y", []), ("M", []), ("U", [])], some (-3, -2), some 6) ∧
    ((supersampleInt exF (-2)).map fun g => (g.data, g.info.shape, g.info.numBins)) = .ok ([("X", []), ("Y", []), ("M", []), ("U", [])], some (-6, -4), some 24) := by
  constructor <;> decide +kernel

end Strata.Resample

namespace Strata.SimpleAverage
open Strata Strata.Flow

/-- Two bins are combined, but not minus two. -/
example : (combineBinsInt [("X", [0, 1]), ("Y", [0, 0]), ("M", [2, 0]), ("N", [1, 0]), ("U", [3, 7]), ("V", [1, 1]), ("T", [300, 0])] ⟨(2, 1), (1, 1), (0, 0), 2⟩ 2 1).toOption.isSome = true ∧
    (combineBinsInt [("X", [0, 1]), ("Y", [0, 0]), ("M", [2, 0]), ("N", [1, 0]), ("U", [3, 7]), ("V", [1, 1]), ("T", [300, 0])] ⟨(2, 1), (1, 1), (0, 0), 2⟩ (-2) 1).toOption.isSome = false := by
  constructor <;> decide +kernel

end Strata.SimpleAverage
