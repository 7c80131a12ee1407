import Verif.Spec.ReadFiles
import Verif.Props.Gmx
import Verif.Props.Simple
import Verif.Props.Driver
import Verif.Props.Files
import Verif.Proofs.Ieee
/-!
# Lemmas about files read as maps
-/
namespace Strata.Gmx
open Strata Strata.Flow Strata.Average Strata.Bytes Strata.PyText Strata.Files

theorem length_foldl_set' {α : Type} (g : α → ℕ) (v : α → ℚ) (l : List α) : ∀ col : List ℚ, (l.foldl (fun col p => col.set (g p) (v p)) col).length = col.length := by
  induction l with
  | nil => intro col; rfl
  | cons a l ih => intro col; rw [List.foldl_cons, ih, List.length_set]

theorem mem_foldl_set {α : Type} (g : α → ℕ) (v : α → ℚ) (l : List α) : ∀ (col : List ℚ) (x : ℚ), x ∈ l.foldl (fun col p => col.set (g p) (v p)) col →
    x ∈ col ∨ ∃ p ∈ l, x = v p := by
  induction l with
  | nil => intro col x hx; exact .inl hx
  | cons a l ih =>
    intro col x hx
    rw [List.foldl_cons] at hx
    rcases ih _ _ hx with hx | ⟨p, hp, rfl⟩
    · rcases List.mem_or_eq_of_mem_set hx with hx | rfl
      · exact .inl hx
      · exact .inr ⟨a, by simp, rfl⟩
    · exact .inr ⟨p, by simp [hp], rfl⟩

theorem mem_bcast {α : Type} {n : ℕ} {a b : List α} (h : bcast n a = some b) : ∀ x ∈ b, x ∈ a := by
  unfold bcast at h
  split at h
  · cases h; exact fun x hx => hx
  · split at h
    · cases h
      intro x hx
      rw [List.eq_of_mem_replicate hx]
      simp
    · cases h

theorem assign_ok {nx ny : ℕ} {ix iy : List ℕ} {vs c : List ℚ} (h : assign nx ny ix iy vs = .ok c) :
    c.length = nx * ny ∧ ∀ x ∈ c, x = 0 ∨ x ∈ vs := by
  unfold assign at h
  split at h
  · cases h
  · split at h
    · split at h
      · cases h
      · split at h
        · cases h
        · rename_i vs' hv
          have h := Except.ok.inj h
          subst h
          refine ⟨?_, ?_⟩
          · rw [length_foldl_set' (fun p : (ℕ × ℕ) × ℚ => p.1.1 * ny + p.1.2) (fun p => p.2), List.length_replicate]
          · intro x hx
            rcases mem_foldl_set (fun p : (ℕ × ℕ) × ℚ => p.1.1 * ny + p.1.2) (fun p => p.2) _ _ x hx with hx | ⟨p, hp, rfl⟩
            · exact .inl (List.eq_of_mem_replicate hx)
            · exact .inr (mem_bcast hv _ (List.of_mem_zip hp).2)
    · cases h

theorem readValues_floats (F : F32) (num : ℤ) : ∀ (ls : List Text) (f : File) (d : List (Text × Arr)), readValues F f num ls = .ok d →
    ∀ p ∈ d, ∀ vs, p.2 = .floats vs → ∀ v ∈ vs, ∃ b : Bytes, v = F.dec b := by
  intro ls
  induction ls with
  | nil =>
    intro f d h
    rw [readValues] at h
    have h := Except.ok.inj h
    subst h
    simp
  | cons l ls ih =>
    intro f d h
    rw [readValues] at h
    split at h
    · cases h
    · split at h
      · obtain ⟨d', h1, h2⟩ := Simple.bind_eq_ok h
        have h2 := Except.ok.inj h2
        subst h2
        intro p hp vs hvs
        rcases List.mem_cons.mp hp with rfl | hp
        · cases hvs
        · exact ih _ _ h1 p hp vs hvs
      · split at h
        · obtain ⟨d', h1, h2⟩ := Simple.bind_eq_ok h
          have h2 := Except.ok.inj h2
          subst h2
          intro p hp vs hvs
          rcases List.mem_cons.mp hp with rfl | hp
          · simp only [Arr.floats.injEq] at hvs
            subst hvs
            intro v hv
            obtain ⟨b, -, rfl⟩ := List.mem_map.mp hv
            exact ⟨b, rfl⟩
          · exact ih _ _ h1 p hp vs hvs
        · cases h

theorem fieldCol_ok {nx ny : ℕ} {d : List (Text × Arr)} {l : Label} {c : Label × List ℚ} (h : fieldCol nx ny d l = .ok c) :
    c.1 = l ∧ c.2.length = nx * ny ∧ ∀ x ∈ c.2, x = 0 ∨ ∃ p ∈ d, ∃ vs, p.2 = .floats vs ∧ x ∈ vs := by
  unfold fieldCol at h
  split at h
  · rename_i ix iy vs h1 h2 h3
    obtain ⟨c', h4, h5⟩ := Simple.bind_eq_ok h
    have h5 := Except.ok.inj h5
    subst h5
    obtain ⟨e1, e2⟩ := assign_ok h4
    refine ⟨rfl, e1, fun x hx => ?_⟩
    rcases e2 x hx with h0 | hv
    · exact .inl h0
    · refine .inr ⟨(l.toList, .floats vs), ?_, vs, rfl, hv⟩
      unfold arr? at h3
      exact List.mem_reverse.mp (lookup_mem h3)
  · cases h

/-- What the reader returns for any file it accepts. -/
theorem readData_shape {F : F32} {content : Bytes} {r : Record} {i : Info} (h : readData F content = .ok (r, i)) :
    ∃ (nx ny : ℕ) (dx dy x0 y0 : ℚ), i = ⟨some ((nx : ℤ), (ny : ℤ)), some (x0, y0), some (dx, dy), some ((nx : ℤ) * ny)⟩ ∧
      r.map Prod.fst = ["X", "Y", "N", "T", "M", "U", "V"] ∧ (∀ c ∈ r, c.2.length = nx * ny) ∧
      (∀ t, t < nx * ny → val r "X" t = x0 + dx * (((t / ny : ℕ) : ℚ) + 1 / 2) ∧ val r "Y" t = y0 + dy * (((t % ny : ℕ) : ℚ) + 1 / 2)) ∧
      ∀ c ∈ r, c.1 ∈ ["N", "T", "M", "U", "V"] → ∀ x ∈ c.2, x = 0 ∨ ∃ b : Bytes, x = F.dec b := by
  unfold readData at h
  obtain ⟨⟨hd, f⟩, -, h⟩ := Simple.bind_eq_ok h
  obtain ⟨d, hd', h⟩ := Simple.bind_eq_ok h
  split at h
  · rename_i x0 y0 nx ny dx dy e1 e2 e3
    split at h
    · cases h
    · rename_i hneg
      obtain ⟨cols, hc, h⟩ := Simple.bind_eq_ok h
      have h := Except.ok.inj h
      obtain ⟨hr, hi⟩ := Prod.mk.inj h
      subst hr hi
      push Not at hneg
      have hn : ((nx.toNat : ℕ) : ℤ) = nx ∧ ((ny.toNat : ℕ) : ℤ) = ny := ⟨Int.toNat_of_nonneg hneg.1, Int.toNat_of_nonneg hneg.2⟩
      simp only [fieldsOrdered, List.mapM_cons, List.mapM_nil] at hc
      obtain ⟨cN, hN, hc⟩ := Simple.bind_eq_ok hc
      obtain ⟨c', hT', hc⟩ := Simple.bind_eq_ok hc
      obtain ⟨cT, hT, hT'⟩ := Simple.bind_eq_ok hT'
      obtain ⟨c'', hM', hT'⟩ := Simple.bind_eq_ok hT'
      obtain ⟨cM, hM, hM'⟩ := Simple.bind_eq_ok hM'
      obtain ⟨c3, hU', hM'⟩ := Simple.bind_eq_ok hM'
      obtain ⟨cU, hU, hU'⟩ := Simple.bind_eq_ok hU'
      obtain ⟨c4, hV', hU'⟩ := Simple.bind_eq_ok hU'
      obtain ⟨cV, hV, hV'⟩ := Simple.bind_eq_ok hV'
      have hc : cols = [cN, cT, cM, cU, cV] := by
        simp only [pure, Except.pure, bind, Except.bind, Except.ok.injEq] at hc hT' hM' hU' hV'
        rw [← hc, ← hT', ← hM', ← hU', ← hV']
      subst hc
      refine ⟨nx.toNat, ny.toNat, dx, dy, x0, y0, ?_, ?_, ?_, ?_, ?_⟩
      · rw [hn.1, hn.2]
      · simp [(fieldCol_ok hN).1, (fieldCol_ok hT).1, (fieldCol_ok hM).1, (fieldCol_ok hU).1, (fieldCol_ok hV).1]
      · intro c hc
        simp only [List.cons_append, List.nil_append, List.mem_cons, List.not_mem_nil, or_false] at hc
        rcases hc with rfl | rfl | rfl | rfl | rfl | rfl | rfl
        · simp
        · simp
        · exact (fieldCol_ok hN).2.1
        · exact (fieldCol_ok hT).2.1
        · exact (fieldCol_ok hM).2.1
        · exact (fieldCol_ok hU).2.1
        · exact (fieldCol_ok hV).2.1
      · intro t ht
        refine ⟨?_, ?_⟩
        · rw [val_of_col (c := (List.range (nx.toNat * ny.toNat)).map fun t => x0 + dx * (((t / ny.toNat : ℕ) : ℚ) + 1 / 2)) rfl, getD_map_range _ _ _ ht]
        · rw [val_of_col (c := (List.range (nx.toNat * ny.toNat)).map fun t => y0 + dy * (((t % ny.toNat : ℕ) : ℚ) + 1 / 2)) rfl, getD_map_range _ _ _ ht]
      · have key : ∀ {l : Label} {c : Label × List ℚ}, fieldCol nx.toNat ny.toNat d l = .ok c → ∀ x ∈ c.2, x = 0 ∨ ∃ b : Bytes, x = F.dec b := by
          intro l c hc x hx
          rcases (fieldCol_ok hc).2.2 x hx with h0 | ⟨p, hp, vs, hvs, hv⟩
          · exact .inl h0
          · exact .inr (readValues_floats F _ _ _ _ hd' p hp vs hvs x hv)
        intro c hc hl
        simp only [List.cons_append, List.nil_append, List.mem_cons, List.not_mem_nil, or_false] at hc
        rcases hc with rfl | rfl | rfl | rfl | rfl | rfl | rfl
        · simp at hl
        · simp at hl
        · exact key hN
        · exact key hT
        · exact key hM
        · exact key hU
        · exact key hV
  · cases h
  · cases h
  · cases h

end Strata.Gmx

namespace Strata.Bytes
open Strata

/-- Every single precision number is stored exactly. -/
theorem ieee32_dec (b : Bytes) (h : |ieee32.dec b| ≤ maxSingle) : ieee32.rnd (ieee32.dec b) = ieee32.dec b := by
  have key : ∃ k p : ℤ, |k| ≤ 2 ^ 24 ∧ -149 ≤ p ∧ ieee32.dec b = (k : ℚ) * 2 ^ p := by
    unfold ieee32
    simp only
    generalize ofBytes b = n
    have hm : n % 2 ^ 23 < 2 ^ 23 := Nat.mod_lt _ (by norm_num)
    generalize n % 2 ^ 23 = m at hm
    generalize n / 2 ^ 23 % 256 = e
    have hs : ∃ s : ℤ, |s| = 1 ∧ ((if n / 2 ^ 31 = 1 then -1 else 1 : ℚ)) = (s : ℚ) := by
      split
      · exact ⟨-1, by norm_num, by norm_num⟩
      · exact ⟨1, by norm_num, by norm_num⟩
    obtain ⟨s, hs1, hs2⟩ := hs
    rw [hs2]
    have hm' : (m : ℤ) < 2 ^ 23 := by exact_mod_cast hm
    split
    · refine ⟨s * m, -149, ?_, le_refl _, by push_cast; ring⟩
      rw [abs_mul, hs1, one_mul, abs_of_nonneg (by positivity)]
      norm_num at hm' ⊢
      omega
    · rename_i he
      refine ⟨s * (2 ^ 23 + m), (e : ℤ) - 150, ?_, by omega, by push_cast; ring⟩
      rw [abs_mul, hs1, one_mul, abs_of_nonneg (by positivity)]
      norm_num at hm' ⊢
      omega
  obtain ⟨k, p, hk, hp, e⟩ := key
  rw [e] at h ⊢
  exact ieee32_exact k p hk hp h

end Strata.Bytes
