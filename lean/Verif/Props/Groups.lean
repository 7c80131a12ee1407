import Verif.Model.Groups
import Verif.Proofs.Files
/-!
# C119, C120: bounds that are not numbers, and group sizes below one

`bound e` is the value given for `end`: `np.inf` for none.
-/
namespace Strata.Groups
open Strata Strata.Flow Strata.Files Strata.Driver

/-- The `end` that stands for an optional last number. -/
def bound (e : Option ℤ) : Bound := e.elim .inf .num

theorem le_bound (n : ℤ) (e : Option ℤ) : le? (.num n) (bound e) = .ok (leEnd n e) := by
  cases e <;> rfl

theorem singles_fuel (dir : Dir) (base ext : Text) (e : Option ℤ) (fuel : ℕ) (b : ℤ)
    (h : (yieldSinglesFuel dir base ext e b fuel).length < fuel) :
    singles dir base ext (bound e) (.num b) fuel = some (yieldSinglesFuel dir base ext e b fuel, .ok ()) := by
  induction fuel generalizing b with
  | zero => simp at h
  | succ fuel ih =>
    rw [singles, le_bound]
    rw [yieldSinglesFuel] at h ⊢
    by_cases h1 : leEnd b e = true
    · rw [if_pos h1] at h ⊢
      rw [h1]
      simp only [isFile]
      by_cases h2 : fileName base ext b ∈ dir
      · rw [if_pos h2] at h ⊢
        rw [if_pos h2]
        rw [List.length_cons] at h
        simp only [add]
        rw [ih (b + 1) (by omega)]
        rfl
      · rw [if_neg h2]
        rw [if_neg h2]
    · rw [if_neg h1]
      rw [Bool.not_eq_true] at h1
      rw [h1]

theorem singles_spec (dir : Dir) (base ext : Text) (b : ℤ) (e : Option ℤ) (extra : ℕ) :
    singles dir base ext (bound e) (.num b) (dir.length + 1 + extra) = some (yieldSingles dir base ext b e, .ok ()) := by
  have h := yieldSinglesFuel_mono dir base ext e b extra
  obtain ⟨k, hk, heq, -, -⟩ := yieldSingles_spec dir base ext b e
  rw [singles_fuel _ _ _ _ _ _ (by rw [h, heq, List.length_map, List.length_range]; omega), h]

/-! ## C119 -/

/-- **C119.** With numbers as bounds the search ends on its own with the files of C02, whatever number of further steps is allowed. -/
theorem C119_numbers (dir : Dir) (base ext : Text) (b : ℤ) (e : Option ℤ) (extra : ℕ) :
    findFiles dir base ext (.num b) (bound e) (dir.length + 1 + extra) = some (yieldSingles dir base ext b e, .ok ()) := by
  unfold findFiles
  rw [singles_spec]
  rfl

/-- **C119.** A bound that is not a number: no file and no group is found, and no exception is raised, for every directory. -/
theorem C119_not_numbers (dir : Dir) (base ext : Text) (begin_ end_ : Bound) (h : (∀ n, begin_ ≠ .num n) ∨ end_ = .other) (group : ℤ) (rolling : Bool) (fuel : ℕ) :
    findFiles dir base ext begin_ end_ (fuel + 1) = some ([], .ok ()) ∧
    findGroups dir base ext group rolling begin_ end_ (fuel + 1) = some ([], .ok ()) := by
  have hle : ∀ n, end_ = .other → le? (.num n) end_ = .error .typeError := by rintro n rfl; rfl
  unfold findFiles findGroups
  cases begin_ with
  | num n =>
    have he : end_ = .other := h.resolve_left fun hb => hb n rfl
    rw [singles, groups, hle n he, hle (n + group - 1) he]
    exact ⟨rfl, rfl⟩
  | inf => exact ⟨by cases end_ <;> rfl, rfl⟩
  | other => exact ⟨by cases end_ <;> rfl, rfl⟩

/-! ## Groups -/

theorem groups_step (dir : Dir) (base ext : Text) (group : ℤ) (rolling : Bool) (e : Option ℤ) (b : ℤ) (fuel : ℕ) :
    groups dir base ext group rolling (bound e) (.num b) (fuel + 1) =
      if leEnd (b + group - 1) e = true ∧ ((yieldSingles dir base ext b (some (b + group - 1))).length : ℤ) = group then
        (groups dir base ext group rolling (bound e) (.num (if rolling then b + 1 else b + group)) fuel).map fun r =>
          (yieldSingles dir base ext b (some (b + group - 1)) :: r.1, r.2)
      else some ([], .ok ()) := by
  rw [groups, le_bound]
  have hs := singles_spec dir base ext b (some (b + group - 1)) fuel
  rw [show dir.length + 1 + fuel = fuel + 1 + dir.length by omega, show bound (some (b + group - 1)) = .num (b + group - 1) from rfl] at hs
  by_cases h1 : leEnd (b + group - 1) e = true
  · by_cases h2 : ((yieldSingles dir base ext b (some (b + group - 1))).length : ℤ) = group
    · conv_rhs => rw [if_pos (And.intro h1 h2)]
      simp only [h1, hs]
      rw [if_pos h2]
      cases rolling <;> rfl
    · conv_rhs => rw [if_neg (fun h : _ ∧ _ => h2 h.2)]
      simp only [h1, hs]
      rw [if_neg h2]
  · conv_rhs => rw [if_neg (fun h : _ ∧ _ => h1 h.1)]
    rw [Bool.not_eq_true] at h1
    rw [h1]

theorem groups_mono (dir : Dir) (base ext : Text) (group : ℤ) (rolling : Bool) (e : Option ℤ) (fuel : ℕ) (b : ℤ) (r : List (List Text) × Except Err Unit)
    (h : groups dir base ext group rolling (bound e) (.num b) fuel = some r) (extra : ℕ) :
    groups dir base ext group rolling (bound e) (.num b) (fuel + extra) = some r := by
  induction fuel generalizing b r with
  | zero => rw [groups] at h; cases h
  | succ fuel ih =>
    rw [show fuel + 1 + extra = (fuel + extra) + 1 by omega, groups_step]
    rw [groups_step] at h
    by_cases hc : leEnd (b + group - 1) e = true ∧ ((yieldSingles dir base ext b (some (b + group - 1))).length : ℤ) = group
    · rw [if_pos hc] at h ⊢
      obtain ⟨r', hr', rfl⟩ := Option.map_eq_some_iff.mp h
      rw [ih _ _ hr']
      rfl
    · rw [if_neg hc] at h ⊢
      exact h

theorem groups_fuel (dir : Dir) (base ext : Text) (g : ℕ) (rolling : Bool) (e : Option ℤ) (fuel : ℕ) (b : ℤ)
    (h : (yieldGroupsFuel dir base ext g rolling e b fuel).length < fuel) :
    groups dir base ext g rolling (bound e) (.num b) fuel = some (yieldGroupsFuel dir base ext g rolling e b fuel, .ok ()) := by
  induction fuel generalizing b with
  | zero => simp at h
  | succ fuel ih =>
    rw [groups_step]
    rw [yieldGroupsFuel] at h ⊢
    by_cases h1 : leEnd (b + g - 1) e = true
    · rw [if_pos h1] at h ⊢
      simp only at h ⊢
      by_cases h2 : (yieldSingles dir base ext b (some (b + g - 1))).length = g
      · rw [if_pos h2] at h ⊢
        rw [if_pos ⟨h1, by exact_mod_cast h2⟩]
        rw [List.length_cons] at h
        rw [ih _ (by omega)]
        rfl
      · rw [if_neg h2, if_neg fun hc => h2 (by exact_mod_cast hc.2)]
    · rw [if_neg h1, if_neg fun hc => h1 hc.1]

/-- **C119.** With numbers as bounds and groups of at least one file the search ends on its own with the groups of C03. -/
theorem C119_groups (dir : Dir) (base ext : Text) (g : ℕ) (hg : 1 ≤ g) (rolling : Bool) (b : ℤ) (e : Option ℤ) (extra : ℕ) :
    findGroups dir base ext g rolling (.num b) (bound e) (dir.length + 1 + extra) = some (yieldGroups dir base ext g rolling b e, .ok ()) := by
  obtain ⟨k, hk, heq, -, -⟩ := yieldGroups_spec dir base ext g hg rolling b e
  unfold findGroups
  rw [groups_mono _ _ _ _ _ _ (dir.length + 1) b _ (groups_fuel dir base ext g rolling e (dir.length + 1) b ?_)]
  · rfl
  · show (yieldGroups dir base ext g rolling b e).length < _
    rw [heq, List.length_map, List.length_range]
    omega

/-! ## C120 -/

variable {γ : Type}

/-- **C120.** For groups of at least one file this is the `average` of C56. -/
theorem C120_positive (read : γ → Except Err Map) (write : Record → DInfo → Option γ × Except Err Unit) (edges : Flow → Except Err (Option ℚ × Option ℚ)) (o : Opts) (fs : FS γ)
    (dir : Dir) (base output ext : Text) (outext : Option Text) (g : ℕ) (hg : 1 ≤ g) (rolling : Bool) (b : ℤ) (e : Option ℤ) (extra : ℕ) :
    averageAny read write edges o fs dir base output ext outext g rolling b e (dir.length + 1 + extra) =
      some (average read write edges o fs dir base output ext outext g rolling b e) := by
  unfold averageAny
  rw [if_neg (by rintro ⟨h, -⟩; omega)]
  have := C119_groups dir base ext g hg rolling b e extra
  rw [show bound e = e.elim .inf .num from rfl] at this
  rw [this]
  unfold average findGroupsToSingles
  rfl

theorem yieldSingles_empty (dir : Dir) (base ext : Text) (b m : ℤ) (h : m < b) : yieldSingles dir base ext b (some m) = [] := by
  unfold yieldSingles
  rw [yieldSinglesFuel, if_neg]
  simp only [leEnd, decide_eq_true_eq]
  omega

/-- Groups of 0 files: as many empty groups as there are numbers up to the one after the last. -/
theorem groups_zero (dir : Dir) (base ext : Text) (e : Option ℤ) (fuel : ℕ) (b : ℤ) (r : List (List Text) × Except Err Unit)
    (h : groups dir base ext 0 true (bound e) (.num b) fuel = some r) :
    r.2 = .ok () ∧ (∀ f ∈ r.1, f = []) ∧ ∃ m, e = some m ∧ (r.1 = [] ↔ m + 1 < b) := by
  induction fuel generalizing b r with
  | zero => rw [groups] at h; cases h
  | succ fuel ih =>
    rw [groups_step, yieldSingles_empty _ _ _ _ _ (by omega : b + 0 - 1 < b)] at h
    by_cases hc : leEnd (b + 0 - 1) e = true ∧ (([] : List Text).length : ℤ) = 0
    · rw [if_pos hc] at h
      obtain ⟨r', hr', rfl⟩ := Option.map_eq_some_iff.mp h
      obtain ⟨h1, h2, m, hm, -⟩ := ih _ _ hr'
      refine ⟨h1, ?_, m, hm, ?_⟩
      · intro f hf
        rcases List.mem_cons.mp hf with hf | hf
        · exact hf
        · exact h2 f hf
      · have := hc.1
        rw [hm] at this
        simp only [leEnd, decide_eq_true_eq] at this
        refine ⟨fun h => (List.cons_ne_nil _ _ h).elim, fun h => ?_⟩
        omega
    · rw [if_neg hc] at h
      cases h
      refine ⟨rfl, (fun f hf => by cases hf), ?_⟩
      have hc' : ¬ leEnd (b + 0 - 1) e = true := fun hle => hc ⟨hle, rfl⟩
      cases e with
      | none => exact absurd rfl hc'
      | some m =>
        simp only [leEnd, decide_eq_true_eq] at hc'
        exact ⟨m, rfl, fun _ => by omega, fun _ => rfl⟩

/-- **C120.** Groups of less than one file: whenever the call ends, every file is as before.  Groups of 0 files raise `ZeroDivisionError`; rolling groups of 0 files raise
`AssertionError` if the range from the number before `begin` to `end` is not empty and do not end without `end`; negative sizes find no group. -/
theorem C120_below_one (read : γ → Except Err Map) (write : Record → DInfo → Option γ × Except Err Unit) (edges : Flow → Except Err (Option ℚ × Option ℚ)) (o : Opts) (fs : FS γ)
    (dir : Dir) (base output ext : Text) (outext : Option Text) (group : ℤ) (hg : group < 1) (rolling : Bool) (b : ℤ) (e : Option ℤ) (fuel : ℕ) :
    (∀ r, averageAny read write edges o fs dir base output ext outext group rolling b e fuel = some r → r.1 = fs ∧
      (group = 0 → rolling = false → r.2 = .error .zeroDivisionError) ∧
      (group = 0 → rolling = true → ∃ m, e = some m ∧ (b ≤ m + 1 → r.2 = .error .assertionError)) ∧
      (group < 0 → o.quiet = false → r.2 = .ok ())) ∧
    (group < 0 → 0 < fuel → ∃ r, averageAny read write edges o fs dir base output ext outext group rolling b e fuel = some r) := by
  have hneg : group < 0 → 0 < fuel → findGroups dir base ext group rolling (.num b) (bound e) fuel = some ([], .ok ()) := by
    intro hg' hf
    obtain ⟨k, rfl⟩ := Nat.exists_eq_add_of_lt hf
    unfold findGroups
    rw [Nat.zero_add, groups_step, if_neg]
    · rfl
    · rintro ⟨-, h⟩
      omega
  have hzero : findGroups dir base ext group rolling (.num b) (bound e) 0 = none := rfl
  unfold averageAny
  rw [show e.elim Bound.inf Bound.num = bound e from rfl]
  constructor
  · intro r hr
    by_cases hz : group = 0 ∧ rolling = false
    · rw [if_pos hz] at hr
      cases hr
      exact ⟨rfl, fun _ _ => rfl, fun _ h => (by rw [hz.2] at h; cases h), fun h => by omega⟩
    · rw [if_neg hz] at hr
      rcases lt_or_eq_of_le (show group ≤ 0 by omega) with hlt | h0
      · cases fuel with
        | zero => rw [hzero] at hr; cases hr
        | succ n =>
          rw [hneg hlt (by omega)] at hr
          simp only [List.zip_nil_left, List.map_nil, Option.some.injEq] at hr
          rw [averageLoop] at hr
          rw [← hr]
          exact ⟨rfl, fun h => by omega, fun h => by omega, fun _ hq => by simp [hq]⟩
      · have hroll : rolling = true := by
          cases rolling with
          | true => rfl
          | false => exact absurd ⟨h0, rfl⟩ hz
        subst hroll
        subst h0
        cases hgr : groups dir base ext 0 true (bound e) (.num b) fuel with
        | none =>
          unfold findGroups at hr
          rw [hgr] at hr
          cases hr
        | some q =>
          obtain ⟨h1, h2, m, hm, h3⟩ := groups_zero dir base ext e fuel b q hgr
          obtain ⟨found, out⟩ := q
          simp only at h1 h2 h3
          subst h1
          have hfg : findGroups dir base ext 0 true (.num b) (bound e) fuel = some (found, .ok ()) := by
            unfold findGroups; rw [hgr]; rfl
          rw [hfg] at hr
          simp only [Option.some.injEq] at hr
          cases found with
          | nil =>
            simp only [List.zip_nil_left, List.map_nil] at hr
            rw [averageLoop] at hr
            rw [← hr]
            refine ⟨rfl, (fun _ h => by cases h), fun _ _ => ⟨m, hm, fun hb => ?_⟩, fun h => absurd h (by omega)⟩
            have := h3.mp rfl
            omega
          | cons f rest =>
            have hf : f = [] := h2 f List.mem_cons_self
            subst hf
            rw [List.length_cons, genFilenames, if_pos (by simp only [leEnd]), List.zip_cons_cons, List.map_cons, List.map_nil, averageLoop] at hr
            have herr : readGroup read fs [] >>= averageGroup edges o = .error .assertionError := rfl
            rw [herr] at hr
            simp only at hr
            rw [← hr]
            exact ⟨rfl, (fun _ h => by cases h), fun _ _ => ⟨m, hm, fun _ => rfl⟩, fun h => absurd h (by omega)⟩
  · intro hlt hf
    rw [if_neg (by rintro ⟨h, -⟩; omega), hneg hlt hf]
    exact ⟨_, rfl⟩

example : findFiles ["a00002.d".toList, "a00003.d".toList] "a".toList ".d".toList (.num 2) .inf 3 = some (["a00002.d".toList, "a00003.d".toList], .ok ()) := by decide +kernel
example : findFiles ["a00002.d".toList, "a00003.d".toList] "a".toList ".d".toList (.num 2) .other 1 = some ([], .ok ()) := by decide +kernel
example : findGroups ["a00002.d".toList, "a00003.d".toList] "a".toList ".d".toList 2 false (.num 2) .inf 3 = some ([["a00002.d".toList, "a00003.d".toList]], .ok ()) := by
  decide +kernel
example : findGroups ["a00002.d".toList] "a".toList ".d".toList 0 true (.num 2) (.num 3) 9 = some ([[], [], []], .ok ()) := by decide +kernel

end Strata.Groups
