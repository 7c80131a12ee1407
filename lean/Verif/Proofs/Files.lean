import Verif.Proofs.Decimal
import Mathlib.Data.List.Perm.Subperm
import Mathlib.Tactic.Linarith
/-! Helper lemmas on file discovery and `prepare_path`. -/
namespace Strata.Files

theorem range_map_succ {α : Type} (f : ℤ → α) (n : ℤ) (k : ℕ) :
    f n :: (List.range k).map (fun i : ℕ => f (n + 1 + i)) =
      (List.range (k + 1)).map (fun i : ℕ => f (n + i)) := by
  rw [List.range_succ_eq_map, List.map_cons, List.map_map]
  simp only [Nat.cast_zero, add_zero, List.cons.injEq, true_and]
  apply List.map_congr_left
  intro i _
  simp only [Function.comp, Nat.succ_eq_add_one, Nat.cast_add, Nat.cast_one]
  congr 1; ring

theorem genFilenames_spec (base ext : Text) (e : Option ℤ) (fuel : ℕ) (num : ℤ) :
    ∃ k ≤ fuel, genFilenames base ext e num fuel =
        (List.range k).map (fun i : ℕ => fileName base ext (num + i)) ∧
      (∀ i < k, leEnd (num + i) e = true) ∧ (k < fuel → leEnd (num + k) e = false) := by
  induction fuel generalizing num with
  | zero => exact ⟨0, le_rfl, by simp [genFilenames]⟩
  | succ fuel ih =>
    by_cases h : leEnd num e = true
    · obtain ⟨k, hk, heq, hall, hstop⟩ := ih (num + 1)
      refine ⟨k + 1, by omega, ?_, ?_, ?_⟩
      · rw [genFilenames, if_pos h, heq, range_map_succ]
      · intro i hi
        rcases i with _ | i
        · simpa using h
        · have := hall i (by omega); push_cast; rw [show num + (i + 1 : ℤ) = num + 1 + i by ring]
          exact this
      · intro hlt
        have := hstop (by omega)
        push_cast; rw [show num + (k + 1 : ℤ) = num + 1 + k by ring]; exact this
    · exact ⟨0, by omega, by simp [genFilenames, h], by simp, by simpa using h⟩

theorem yieldSinglesFuel_spec (dir : Dir) (base ext : Text) (e : Option ℤ) (fuel : ℕ) (num : ℤ) :
    ∃ k ≤ fuel, yieldSinglesFuel dir base ext e num fuel =
        (List.range k).map (fun i : ℕ => fileName base ext (num + i)) ∧
      (∀ i < k, leEnd (num + i) e = true ∧ fileName base ext (num + i) ∈ dir) ∧
      (k < fuel → ¬ (leEnd (num + k) e = true ∧ fileName base ext (num + k) ∈ dir)) := by
  induction fuel generalizing num with
  | zero => exact ⟨0, le_rfl, by simp [yieldSinglesFuel]⟩
  | succ fuel ih =>
    by_cases h : leEnd num e = true ∧ fileName base ext num ∈ dir
    · obtain ⟨k, hk, heq, hall, hstop⟩ := ih (num + 1)
      refine ⟨k + 1, by omega, ?_, ?_, ?_⟩
      · rw [yieldSinglesFuel, if_pos h.1, if_pos h.2, heq, range_map_succ]
      · intro i hi
        rcases i with _ | i
        · simpa using h
        · have := hall i (by omega); push_cast; rw [show num + (i + 1 : ℤ) = num + 1 + i by ring]
          exact this
      · intro hlt
        have := hstop (by omega)
        push_cast; rw [show num + (k + 1 : ℤ) = num + 1 + k by ring]; exact this
    · refine ⟨0, by omega, ?_, by simp, by simpa using h⟩
      rw [yieldSinglesFuel]
      split
      · rename_i h1; rw [if_neg (fun h2 => h ⟨h1, h2⟩)]; rfl
      · rfl

/-- Pigeonhole: distinct names all in existence. -/
theorem card_le_of_names (dir : Dir) (f : ℕ → Text) (hf : Function.Injective f) (k : ℕ)
    (h : ∀ i < k, f i ∈ dir) : k ≤ dir.length := by
  have hnd : ((List.range k).map f).Nodup := List.nodup_range.map hf
  have hsub : (List.range k).map f ⊆ dir := by
    intro x hx
    obtain ⟨i, hi, rfl⟩ := List.mem_map.mp hx
    exact h i (List.mem_range.mp hi)
  simpa using (hnd.subperm hsub).length_le

theorem yieldSingles_spec (dir : Dir) (base ext : Text) (begin_ : ℤ) (e : Option ℤ) :
    ∃ k ≤ dir.length, yieldSingles dir base ext begin_ e =
        (List.range k).map (fun i : ℕ => fileName base ext (begin_ + i)) ∧
      (∀ i < k, leEnd (begin_ + i) e = true ∧ fileName base ext (begin_ + i) ∈ dir) ∧
      ¬ (leEnd (begin_ + k) e = true ∧ fileName base ext (begin_ + k) ∈ dir) := by
  obtain ⟨k, hk, heq, hall, hstop⟩ := yieldSinglesFuel_spec dir base ext e (dir.length + 1) begin_
  have hle : k ≤ dir.length := by
    refine card_le_of_names dir (fun i : ℕ => fileName base ext (begin_ + i)) ?_ k (fun i hi => (hall i hi).2)
    intro a b hab
    have := fileName_injective base ext hab
    omega
  exact ⟨k, hle, heq, hall, hstop (by omega)⟩

theorem yieldSinglesFuel_mono (dir : Dir) (base ext : Text) (e : Option ℤ) (begin_ : ℤ) (extra : ℕ) :
    yieldSinglesFuel dir base ext e begin_ (dir.length + 1 + extra) =
      yieldSingles dir base ext begin_ e := by
  obtain ⟨k, hk, heq, hall, hstop⟩ := yieldSinglesFuel_spec dir base ext e (dir.length + 1 + extra) begin_
  obtain ⟨k', hk', heq', hall', hstop'⟩ := yieldSingles_spec dir base ext begin_ e
  have hle : k ≤ dir.length := by
    refine card_le_of_names dir (fun i : ℕ => fileName base ext (begin_ + i)) ?_ k (fun i hi => (hall i hi).2)
    intro a b hab
    have := fileName_injective base ext hab
    omega
  have h1 := hstop (by omega)
  have : k = k' := by
    rcases lt_trichotomy k k' with h | h | h
    · exact absurd (hall' k h) h1
    · exact h
    · exact absurd (hall k' h) hstop'
  rw [heq, heq', this]

/-! groups -/

/-- All files of the window of length `g` starting at `n` exist and are within the bound. -/
def WindowOk (dir : Dir) (base ext : Text) (g : ℕ) (e : Option ℤ) (n : ℤ) : Prop :=
  leEnd (n + g - 1) e = true ∧ ∀ j < g, fileName base ext (n + (j : ℕ)) ∈ dir

theorem yieldSingles_window (dir : Dir) (base ext : Text) (g : ℕ) (n : ℤ) :
    ((yieldSingles dir base ext n (some (n + g - 1))).length = g ↔
      ∀ j < g, fileName base ext (n + (j : ℕ)) ∈ dir) ∧
    ((yieldSingles dir base ext n (some (n + g - 1))).length = g →
      yieldSingles dir base ext n (some (n + g - 1)) =
        (List.range g).map (fun j : ℕ => fileName base ext (n + j))) := by
  obtain ⟨k, hk, heq, hall, hstop⟩ := yieldSingles_spec dir base ext n (some (n + g - 1))
  rw [heq]
  simp only [List.length_map, List.length_range]
  refine ⟨⟨?_, ?_⟩, ?_⟩
  · rintro rfl j hj; exact (hall j hj).2
  · intro h
    by_contra hne
    rcases lt_or_gt_of_ne hne with h1 | h1
    · exact hstop ⟨by simp [leEnd]; omega, h k h1⟩
    · have := (hall g h1).1
      simp [leEnd] at this
  · rintro rfl; rfl

theorem yieldGroupsFuel_spec (dir : Dir) (base ext : Text) (g : ℕ) (rolling : Bool)
    (e : Option ℤ) (fuel : ℕ) (n : ℤ) :
    ∃ k ≤ fuel, yieldGroupsFuel dir base ext g rolling e n fuel =
        (List.range k).map (fun i : ℕ => (List.range g).map (fun j : ℕ =>
          fileName base ext (n + i * (if rolling then 1 else g : ℕ) + j))) ∧
      (∀ i < k, WindowOk dir base ext g e (n + (i : ℕ) * (if rolling then 1 else g : ℕ))) ∧
      (k < fuel → ¬ WindowOk dir base ext g e (n + (k : ℕ) * (if rolling then 1 else g : ℕ))) := by
  induction fuel generalizing n with
  | zero => exact ⟨0, le_rfl, by simp [yieldGroupsFuel]⟩
  | succ fuel ih =>
    obtain ⟨hiff, hval⟩ := yieldSingles_window dir base ext g n
    by_cases h : WindowOk dir base ext g e n
    · obtain ⟨k, hk, heq, hall, hstop⟩ := ih (n + (if rolling then 1 else g : ℕ))
      have hstep : (if rolling then n + 1 else n + (g : ℤ)) = n + (if rolling then 1 else g : ℕ) := by
        cases rolling <;> simp
      refine ⟨k + 1, by omega, ?_, ?_, ?_⟩
      · rw [yieldGroupsFuel, if_pos h.1]
        simp only [hiff.mpr h.2, if_true]
        rw [hstep, heq, hval (hiff.mpr h.2), List.range_succ_eq_map, List.map_cons, List.map_map]
        congr 1
        · simp
        · apply List.map_congr_left
          intro i _
          apply List.map_congr_left
          intro j _
          simp only [Nat.succ_eq_add_one]
          congr 1; push_cast; ring
      · intro i hi
        rcases i with _ | i
        · simpa using h
        · have := hall i (by omega)
          rwa [show n + ((i + 1 : ℕ) : ℤ) * (if rolling then 1 else g : ℕ) =
            n + (if rolling then 1 else g : ℕ) + i * (if rolling then 1 else g : ℕ) by
              push_cast; ring]
      · intro hlt
        have := hstop (by omega)
        rwa [show n + ((k + 1 : ℕ) : ℤ) * (if rolling then 1 else g : ℕ) =
            n + (if rolling then 1 else g : ℕ) + k * (if rolling then 1 else g : ℕ) by
              push_cast; ring]
    · refine ⟨0, by omega, ?_, by simp, by simpa using h⟩
      rw [yieldGroupsFuel]
      split
      · rename_i h1
        have : ¬ (yieldSingles dir base ext n (some (n + g - 1))).length = g :=
          fun hl => h ⟨h1, hiff.mp hl⟩
        simp [this]
      · rfl

theorem yieldGroups_spec (dir : Dir) (base ext : Text) (g : ℕ) (hg : 1 ≤ g) (rolling : Bool)
    (n : ℤ) (e : Option ℤ) :
    ∃ k ≤ dir.length, yieldGroups dir base ext g rolling n e =
        (List.range k).map (fun i : ℕ => (List.range g).map (fun j : ℕ =>
          fileName base ext (n + i * (if rolling then 1 else g : ℕ) + j))) ∧
      (∀ i < k, WindowOk dir base ext g e (n + (i : ℕ) * (if rolling then 1 else g : ℕ))) ∧
      ¬ WindowOk dir base ext g e (n + (k : ℕ) * (if rolling then 1 else g : ℕ)) := by
  obtain ⟨k, hk, heq, hall, hstop⟩ := yieldGroupsFuel_spec dir base ext g rolling e (dir.length + 1) n
  have hle : k ≤ dir.length := by
    refine card_le_of_names dir
      (fun i : ℕ => fileName base ext (n + i * (if rolling then 1 else g : ℕ))) ?_ k ?_
    · intro a b hab
      have := fileName_injective base ext hab
      have h2 : (a : ℤ) * (if rolling then 1 else g : ℕ) = b * (if rolling then 1 else g : ℕ) := by
        linarith
      have h3 : ((if rolling then 1 else g : ℕ) : ℤ) ≠ 0 := by
        cases rolling <;> (simp; try omega)
      exact_mod_cast mul_right_cancel₀ h3 h2
    · intro i hi
      simpa using (hall i hi).2 0 hg
  exact ⟨k, hle, heq, hall, hstop (by omega)⟩

/-! file system -/
variable {γ : Type}

theorem get?_cons (e : Path × γ) (fs : FS γ) (p : Path) :
    FS.get? (e :: fs) p = if e.1 = p then some e.2 else FS.get? fs p := by
  unfold FS.get?
  by_cases h : e.1 = p <;> simp [h]

theorem get?_remove (fs : FS γ) (p q : Path) :
    (fs.remove p).get? q = if q = p then none else fs.get? q := by
  induction fs with
  | nil => simp [FS.remove, FS.get?]
  | cons e fs ih =>
    unfold FS.remove at ih ⊢
    by_cases h : e.1 = p
    · rw [List.filter_cons_of_neg (by simp [h]), ih, get?_cons]
      by_cases hq : q = p
      · simp [hq]
      · rw [if_neg hq, if_neg hq, if_neg (by rw [h]; exact fun x => hq x.symm)]
    · rw [List.filter_cons_of_pos (by simp [h]), get?_cons, get?_cons, ih]
      by_cases hq : e.1 = q
      · rw [if_pos hq, if_pos hq, if_neg (by rintro rfl; exact h hq)]
      · simp [hq]

theorem get?_put (fs : FS γ) (p q : Path) (c : γ) :
    (fs.put p c).get? q = if q = p then some c else fs.get? q := by
  unfold FS.put
  rw [get?_cons, get?_remove]
  by_cases h : p = q
  · simp [h]
  · rw [if_neg h, if_neg (fun x => h x.symm), if_neg (fun x => h x.symm)]

theorem exists?_iff (fs : FS γ) (p : Path) : fs.exists? p = true ↔ fs.get? p ≠ none := by
  induction fs with
  | nil => simp [FS.exists?, FS.get?]
  | cons e fs ih =>
    rw [get?_cons]
    unfold FS.exists? at ih ⊢
    by_cases h : e.1 = p
    · simp [h]
    · simp only [List.any_cons, h, decide_false, Bool.false_or, if_false]
      exact ih

theorem exists?_iff_mem (fs : FS γ) (p : Path) : fs.exists? p = true ↔ p ∈ fs.map Prod.fst := by
  simp only [FS.exists?, List.any_eq_true, decide_eq_true_eq, List.mem_map]

theorem backupPath_injective (p : Path) : Function.Injective (backupPath p) := by
  intro a b h
  simp only [backupPath, Prod.mk.injEq, true_and, List.cons_append, List.cons.injEq] at h
  rw [List.append_assoc, List.append_assoc] at h
  have h := List.append_cancel_left h
  simp only [List.cons_append, List.cons.injEq, true_and] at h
  exact decimal_injective (List.append_cancel_right h)

theorem backupPath_ne (p : Path) (i : ℕ) : backupPath p i ≠ p := by
  intro h
  have : (backupPath p i).2.length = p.2.length := by rw [h]
  simp [backupPath] at this
  omega

theorem findBackup_spec (fs : FS γ) (p : Path) (fuel : ℕ) (i : ℕ) (b : Path) :
    (fs.exists? b = false ∧ 0 < fuel ∧ findBackup fs p b i fuel = some b) ∨
    (fs.exists? b = true ∧ ((∃ j ≥ i, j + 1 - i < fuel ∧
      (∀ m, i ≤ m → m < j → fs.exists? (backupPath p m) = true) ∧
      fs.exists? (backupPath p j) = false ∧
      findBackup fs p b i fuel = some (backupPath p j)) ∨
      (∀ m, i ≤ m → m + 1 < i + fuel → fs.exists? (backupPath p m) = true))) ∨ fuel = 0 := by
  induction fuel generalizing i b with
  | zero => right; right; rfl
  | succ fuel ih =>
    by_cases hb : fs.exists? b = true
    · right; left
      refine ⟨hb, ?_⟩
      rcases ih (i + 1) (backupPath p i) with ⟨h1, h2, h3⟩ | ⟨h1, h2⟩ | h
      · left
        refine ⟨i, le_rfl, by omega, by intro m h1 h2; omega, h1, ?_⟩
        rw [findBackup, if_pos hb, h3]
      · rcases h2 with ⟨j, hj, hlt, hall, hfree, hres⟩ | hall
        · left
          refine ⟨j, by omega, by omega, ?_, hfree, ?_⟩
          · intro m hm1 hm2
            rcases Nat.eq_or_lt_of_le hm1 with rfl | h
            · exact h1
            · exact hall m h hm2
          · rw [findBackup, if_pos hb, hres]
        · right
          intro m hm1 hm2
          rcases Nat.eq_or_lt_of_le hm1 with rfl | h
          · exact h1
          · exact hall m h (by omega)
      · subst h
        right
        intro m h1 h2
        omega
    · left
      have hb' : fs.exists? b = false := by simpa using hb
      exact ⟨hb', by omega, by rw [findBackup]; simp [hb']⟩

theorem not_all_backups (fs : FS γ) (p : Path) :
    ¬ ∀ m, 1 ≤ m → m + 1 < 1 + (fs.length + 2) → fs.exists? (backupPath p m) = true := by
  intro h
  have hnd : ((List.range (fs.length + 1)).map (fun m => backupPath p (m + 1))).Nodup :=
    List.nodup_range.map (fun a b hab => by
      have := backupPath_injective p hab; omega)
  have hsub : (List.range (fs.length + 1)).map (fun m => backupPath p (m + 1)) ⊆ fs.map Prod.fst := by
    intro x hx
    obtain ⟨i, hi, rfl⟩ := List.mem_map.mp hx
    rw [← exists?_iff_mem]
    exact h (i + 1) (by omega) (by have := List.mem_range.mp hi; omega)
  have := (hnd.subperm hsub).length_le
  simp at this

/-- The complete behaviour of the search for a free backup name. -/
theorem backupTarget_spec (fs : FS γ) (p : Path) :
    (fs.get? p = none ∧ backupTarget fs p = .ok none) ∨
    (fs.get? p ≠ none ∧ ∃ i, 1 ≤ i ∧ i ≤ fs.length + 1 ∧ (∀ m, 1 ≤ m → m < i → fs.get? (backupPath p m) ≠ none) ∧
      fs.get? (backupPath p i) = none ∧ backupTarget fs p = .ok (some (backupPath p i))) := by
  rcases findBackup_spec fs p (fs.length + 2) 1 p with ⟨h1, h2, h3⟩ | ⟨h1, h2⟩ | h
  · left
    have : ¬ fs.get? p ≠ none := fun h => by rw [← exists?_iff, h1] at h; simp at h
    exact ⟨by simpa using this, by simp [backupTarget, h3]⟩
  · right
    refine ⟨(exists?_iff _ _).mp h1, ?_⟩
    rcases h2 with ⟨j, hj, hlt, hall, hfree, hres⟩ | hall
    · refine ⟨j, hj, by omega, fun m h1 h2 => (exists?_iff _ _).mp (hall m h1 h2), ?_, ?_⟩
      · have : ¬ fs.get? (backupPath p j) ≠ none := fun h => by
          rw [← exists?_iff, hfree] at h; simp at h
        simpa using this
      · simp [backupTarget, hres, backupPath_ne]
    · exact absurd hall (not_all_backups fs p)
  · omega

end Strata.Files
