import Verif.Proofs.Driver
import Verif.Proofs.Downsample
import Verif.Proofs.ResampleProps
import Verif.Proofs.Ieee
/-!
# Lemmas about recentring
-/
namespace Strata.Driver
open Strata Strata.Flow Strata.Average Strata.SimpleAverage Strata.Files Strata.Bytes Strata.Simple Strata.Resample

theorem npUnique_grid (c : List ℚ) (n : ℕ) (x0 d : ℚ) (hd : 0 < d) (h : ∀ x, x ∈ c ↔ ∃ i : ℕ, i < n ∧ x0 + d * (i : ℚ) = x) :
    npUnique c = (List.range n).map fun i : ℕ => x0 + d * (i : ℚ) := by
  have p1 := pairwise_npUnique c
  have p2 : ((List.range n).map fun i : ℕ => x0 + d * (i : ℚ)).Pairwise (· < ·) := by
    rw [List.pairwise_map]
    refine List.pairwise_lt_range.imp ?_
    intro a b hab
    have : (a : ℚ) < b := by exact_mod_cast hab
    nlinarith
  have hperm : (npUnique c).Perm ((List.range n).map fun i : ℕ => x0 + d * (i : ℚ)) := by
    rw [List.perm_ext_iff_of_nodup (p1.imp fun h => h.ne) (p2.imp fun h => h.ne)]
    intro x
    rw [mem_npUnique, h, List.mem_map]
    simp
  exact hperm.eq_of_pairwise (fun a b _ _ h1 h2 => absurd h1 (not_lt.mpr h2.le)) p1 p2

theorem npDiff_grid (x0 d : ℚ) : ∀ (n : ℕ), npDiff ((List.range n).map fun i : ℕ => x0 + d * (i : ℚ)) = List.replicate (n - 1) d
  | 0 => rfl
  | 1 => rfl
  | n + 2 => by
    have ih := npDiff_grid (x0 + d) d (n + 1)
    have e : ((List.range (n + 2)).map fun i : ℕ => x0 + d * (i : ℚ)) = x0 :: ((List.range (n + 1)).map fun i : ℕ => (x0 + d) + d * (i : ℚ)) := by
      rw [List.range_succ_eq_map, List.map_cons, List.map_map]
      congr 1
      · simp
      · refine List.map_congr_left fun i _ => ?_
        simp only [Function.comp, Nat.succ_eq_add_one]
        push_cast
        ring
    have e2 : ((List.range (n + 1)).map fun i : ℕ => (x0 + d) + d * (i : ℚ)) = (x0 + d) :: ((List.range n).map fun i : ℕ => (x0 + d + d) + d * (i : ℚ)) := by
      rw [List.range_succ_eq_map, List.map_cons, List.map_map]
      congr 1
      · simp
      · refine List.map_congr_left fun i _ => ?_
        simp only [Function.comp, Nat.succ_eq_add_one]
        push_cast
        ring
    rw [e, e2, npDiff, ← e2, ih]
    simp only [Nat.add_sub_cancel, Nat.succ_sub_one]
    rw [List.replicate_succ]
    congr 1
    ring

theorem spacingOf_grid (c : List ℚ) (n : ℕ) (hn : 2 ≤ n) (x0 d : ℚ) (hd : 0 < d) (h : ∀ x, x ∈ c ↔ ∃ i : ℕ, i < n ∧ x0 + d * (i : ℚ) = x) :
    spacingOf c = some d := by
  unfold spacingOf
  rw [npUnique_grid c n x0 d hd h, npDiff_grid]
  have : List.replicate (n - 1) d ≠ [] := by simp; omega
  rw [if_neg this]
  congr 1
  rw [List.sum_replicate, List.length_replicate, nsmul_eq_mul]
  have : ((n - 1 : ℕ) : ℚ) ≠ 0 := by
    have : n - 1 ≠ 0 := by omega
    exact_mod_cast this
  field_simp

/-- The record with its x positions replaced, as the last column. -/
def moved (d : Record) (xs : List ℚ) : Record := (d.filter fun c => decide (c.1 ≠ "X")) ++ [("X", xs)]

theorem lookup_filter_ne (d : Record) (l : Label) (hl : l ≠ "X") : (d.filter fun c => decide (c.1 ≠ "X")).lookup l = d.lookup l := by
  induction d with
  | nil => rfl
  | cons c d ih =>
    obtain ⟨k, v⟩ := c
    by_cases hk : k = "X"
    · subst hk
      rw [List.filter_cons_of_neg (by simp), List.lookup_cons, ih]
      have : (l == "X") = false := by simpa using hl
      rw [this]
    · rw [List.filter_cons_of_pos (by simpa using hk), List.lookup_cons, List.lookup_cons, ih]

theorem lookup_append_single (a : Record) (k l : Label) (v : List ℚ) (h : a.lookup k = none) :
    (a ++ [(k, v)]).lookup l = if l = k then some v else a.lookup l := by
  induction a with
  | nil =>
    rw [List.nil_append, List.lookup_cons, List.lookup_nil]
    by_cases hl : l = k
    · subst hl; simp
    · rw [if_neg hl]
      have : (l == k) = false := by simpa using hl
      rw [this]
  | cons c a ih =>
    obtain ⟨k', v'⟩ := c
    rw [List.lookup_cons] at h
    rw [List.cons_append, List.lookup_cons, List.lookup_cons]
    by_cases hk : k == k'
    · rw [hk] at h; cases h
    · have hk' : (k == k') = false := by simpa using hk
      rw [hk'] at h
      rw [ih h]
      by_cases hl : l == k'
      · rw [hl]
        have : l ≠ k := by
          rintro rfl
          exact hk hl
        simp only [if_neg this]
      · have : (l == k') = false := by simpa using hl
        rw [this]

theorem find?_congr' {α : Type} (l : List α) (p q : α → Bool) (h : ∀ a ∈ l, p a = q a) : l.find? p = l.find? q := by
  induction l with
  | nil => rfl
  | cons a l ih =>
    rw [List.find?_cons, List.find?_cons, h a (by simp), ih fun b hb => h b (by simp [hb])]

theorem lookup_filter_X (d : Record) : (d.filter fun c => decide (c.1 ≠ "X")).lookup "X" = none := by
  rw [List.lookup_eq_none_iff]
  intro c hc
  rw [List.mem_filter] at hc
  simpa using fun e : "X" = c.1 => (of_decide_eq_true hc.2) e.symm

theorem col?_moved (d : Record) (xs : List ℚ) (l : Label) : col? (moved d xs) l = if l = "X" then some xs else col? d l := by
  unfold moved col?
  rw [lookup_append_single _ _ _ _ (lookup_filter_X d)]
  by_cases hl : l = "X"
  · rw [if_pos hl, if_pos hl]
  · rw [if_neg hl, if_neg hl, lookup_filter_ne _ _ hl]

theorem val_moved (d : Record) (xs : List ℚ) (l : Label) (t : ℕ) : val (moved d xs) l t = if l = "X" then xs.getD t 0 else val d l t := by
  unfold Average.val
  rw [col?_moved]
  split <;> rfl

theorem mem_names_moved (d : Record) (xs : List ℚ) (l : Label) : l ∈ names (moved d xs) ↔ l = "X" ∨ l ∈ names d := by
  rw [← col?_isSome_iff, ← col?_isSome_iff, col?_moved]
  by_cases hl : l = "X"
  · simp [hl]
  · simp [hl]

theorem wf_moved {d : Record} (hw : Wf d) (xs : List ℚ) (hl : xs.length = Flow.size d) : Wf (moved d xs) ∧ Flow.size (moved d xs) = Flow.size d := by
  have hlen : ∀ c ∈ moved d xs, c.2.length = Flow.size d := by
    intro c hc
    unfold moved at hc
    rw [List.mem_append, List.mem_filter, List.mem_singleton] at hc
    rcases hc with hc | rfl
    · exact hw.2 c hc.1
    · exact hl
  have hsz : Flow.size (moved d xs) = Flow.size d := by
    have hne : moved d xs ≠ [] := by simp [moved]
    cases hm : moved d xs with
    | nil => exact absurd hm hne
    | cons c cs =>
      have := hlen c (by rw [hm]; simp)
      simpa [Flow.size] using this
  refine ⟨⟨?_, fun c hc => by rw [hsz]; exact hlen c hc⟩, hsz⟩
  unfold names moved
  rw [List.map_append, List.nodup_append]
  refine ⟨?_, by simp, ?_⟩
  · exact (List.Sublist.map _ List.filter_sublist).nodup hw.1
  · intro a ha b hb
    rw [List.map_cons, List.map_nil, List.mem_singleton] at hb
    subst hb
    obtain ⟨c, hc, rfl⟩ := List.mem_map.mp ha
    rw [List.mem_filter] at hc
    exact of_decide_eq_true hc.2

theorem moved_fullGrid {d : Record} {h hy x0 y0 : ℚ} {nx ny : ℕ} (hg : FullGrid d (h, hy) x0 y0 nx ny) {c : List ℚ} (hc : col? d "X" = some c) (s : ℚ) :
    FullGrid (moved d (c.map fun v => v - s)) (h, hy) (x0 - s) y0 nx ny := by
  have hlen : (c.map fun v => v - s).length = Flow.size d := by rw [List.length_map]; exact col?_length hg.wf hc
  obtain ⟨hw, hs⟩ := wf_moved hg.wf _ hlen
  have hX : ∀ t, t < Flow.size d → val (moved d (c.map fun v => v - s)) "X" t = val d "X" t - s := by
    intro t ht
    rw [val_moved, if_pos rfl, val_of_col hc, List.getD_eq_getElem?_getD, List.getElem?_eq_getElem (by rw [hlen]; exact ht), Option.getD_some,
      List.getElem_map, List.getD_eq_getElem?_getD, List.getElem?_eq_getElem (by rw [List.length_map] at hlen; rw [hlen]; exact ht), Option.getD_some]
  have hY : ∀ t, val (moved d (c.map fun v => v - s)) "Y" t = val d "Y" t := by
    intro t
    rw [val_moved, if_neg (by decide)]
  refine ⟨hw, by rw [mem_names_moved]; exact Or.inl rfl, by rw [mem_names_moved]; exact Or.inr hg.hasY, hg.nxpos, hg.nypos, ?_, ?_⟩
  · intro i j hi hj
    obtain ⟨t, ⟨ht, e1, e2⟩, hu⟩ := hg.node i j hi hj
    simp only at e1 e2 hu ⊢
    refine ⟨t, ⟨by rw [hs]; exact ht, by rw [hX t ht, e1]; ring, by rw [hY, e2]⟩, ?_⟩
    rintro t' ⟨ht', f1, f2⟩
    rw [hs] at ht'
    rw [hX t' ht'] at f1
    rw [hY] at f2
    exact hu t' ⟨ht', by linarith, f2⟩
  · intro t ht
    rw [hs] at ht
    obtain ⟨i, j, hi, hj, e1, e2⟩ := hg.row t ht
    simp only at e1 e2 ⊢
    exact ⟨i, j, hi, hj, by rw [hX t ht, e1]; ring, by rw [hY, e2]⟩

theorem translated_grid {d : Record} {h hy x0 y0 : ℚ} {nx ny : ℕ} (hg : FullGrid d (h, hy) x0 y0 nx ny) (hh : 0 < h) (hn : 2 ≤ nx) {x : List ℚ}
    (hx : col? d "X" = some x) (c : ℚ) :
    translated x (some c) = .ok (some (x.map fun v => v - h * (pyRound ((c - x0) / h) : ℚ))) := by
  have hmem := fun v => hg.col_x hx v
  unfold translated
  rw [npMin_of_iff x nx hg.nxpos x0 h hh hmem, Gmx.ok_bind]
  simp only
  rw [spacingOf_grid x nx hn x0 h hh hmem, Option.map_some]
  congr 2
  refine List.map_congr_left fun v hv => ?_
  obtain ⟨i, -, rfl⟩ := (hmem v).mp hv
  have e : (x0 + (h, hy).1 * (i : ℚ) - x0) / h = ((i : ℤ) : ℚ) := by
    simp only
    push_cast
    field_simp
    ring
  rw [e, pyRound_int]
  push_cast
  ring

theorem npMax_of_iff (c : List ℚ) (n : ℕ) (hn : 0 < n) (x0 d : ℚ) (hd : 0 < d)
    (h : ∀ x, x ∈ c ↔ ∃ i : ℕ, i < n ∧ x0 + d * (i : ℚ) = x) : npMax c = .ok (x0 + d * ((n : ℚ) - 1)) := by
  rw [npMax_ok_iff]
  have hc : ((n - 1 : ℕ) : ℚ) = (n : ℚ) - 1 := by rw [Nat.cast_sub hn]; simp
  refine ⟨(h _).mpr ⟨n - 1, by omega, by rw [hc]⟩, ?_⟩
  intro x hx
  obtain ⟨i, hi, rfl⟩ := (h x).mp hx
  have : (i : ℚ) ≤ (n : ℚ) - 1 := by
    rw [← hc]
    exact_mod_cast (by omega : i ≤ n - 1)
  nlinarith

/-- The bins of a full grid within limits that lie on the grid form the full grid between them. -/
theorem subset_grid {d : Record} {h hy x0 y0 s : ℚ} {nx ny : ℕ} (hg : FullGrid d (h, hy) x0 y0 nx ny) (hh : 0 < h) (hhy : 0 < hy) {x : List ℚ}
    (hx : col? d "X" = some x) (A N : ℕ) (hN : 0 < N) (hAN : A + N ≤ nx) :
    ∃ r, subset (x0 - s + h * A) (x0 - s + h * (A + N - 1)) (x.map fun v => v - s) d = .ok r ∧
      r = gather ((List.range (Flow.size d)).filter fun t => decide (x0 - s + h * A ≤ val d "X" t - s ∧ val d "X" t - s ≤ x0 - s + h * (A + N - 1)))
        (moved d (x.map fun v => v - s)) ∧
      FullGrid r (h, hy) (x0 - s + h * A) y0 N ny ∧
      ∀ l, l ≠ "X" → ∀ i j, i < N → j < ny → valueAt r l (x0 - s + h * A + h * i) (y0 + hy * j) = valueAt d l (x0 + h * (A + i)) (y0 + hy * j) := by
  have hm := moved_fullGrid hg hx s
  have hlen : (x.map fun v => v - s).length = Flow.size d := by rw [List.length_map]; exact col?_length hg.wf hx
  obtain ⟨hw, hsz⟩ := wf_moved hg.wf _ hlen
  set m := moved d (x.map fun v => v - s) with hmdef
  have hX : ∀ t, t < Flow.size d → val m "X" t = val d "X" t - s := by
    intro t ht
    rw [hmdef, val_moved, if_pos rfl, val_of_col hx, List.getD_eq_getElem?_getD, List.getElem?_eq_getElem (by rw [hlen]; exact ht), Option.getD_some,
      List.getElem_map, List.getD_eq_getElem?_getD, List.getElem?_eq_getElem (by rw [List.length_map] at hlen; rw [hlen]; exact ht), Option.getD_some]
  have hidx : selIdx m (some (x0 - s + h * A), some (x0 - s + h * (A + N - 1))) (none, none) ("X", "Y") =
      (List.range (Flow.size d)).filter fun t => decide (x0 - s + h * A ≤ val d "X" t - s ∧ val d "X" t - s ≤ x0 - s + h * (A + N - 1)) := by
    unfold selIdx
    rw [hsz]
    refine List.filter_congr fun t ht => ?_
    simp only
    rw [hX t (List.mem_range.mp ht)]
    simp [inLims]
  have hsub : subset (x0 - s + h * A) (x0 - s + h * (A + N - 1)) (x.map fun v => v - s) d =
      .ok (gather (selIdx m (some (x0 - s + h * A), some (x0 - s + h * (A + N - 1))) (none, none) ("X", "Y")) m) := by
    unfold subset
    simp only
    rw [if_pos]
    · rw [hidx, hlen]
      congr 2
      refine List.filter_congr fun t ht => ?_
      have := hX t (List.mem_range.mp ht)
      rw [hmdef, val_moved, if_pos rfl] at this
      rw [this]
    · rw [List.all_eq_true]
      intro c hc
      rw [List.mem_filter] at hc
      rw [hlen, hg.wf.2 c hc.1]
      simp
  have hlim : ∀ i : ℕ, (inLims (some (x0 - s + h * A)) (some (x0 - s + h * (A + N - 1))) (x0 - s + h * (i : ℚ)) = true ↔ A ≤ i ∧ i < A + N) := by
    intro i
    simp only [inLims, Bool.and_eq_true, decide_eq_true_eq]
    constructor
    · rintro ⟨h1, h2⟩
      have h1' : (A : ℚ) ≤ i := by nlinarith
      have h2' : (i : ℚ) ≤ A + N - 1 := by nlinarith
      refine ⟨by exact_mod_cast h1', ?_⟩
      have : (i : ℚ) < ((A + N : ℕ) : ℚ) := by push_cast; linarith
      exact_mod_cast this
    · rintro ⟨h1, h2⟩
      have h1' : (A : ℚ) ≤ i := by exact_mod_cast h1
      have h2' : (i : ℚ) + 1 ≤ A + N := by exact_mod_cast h2
      constructor <;> nlinarith
  have hne : selIdx m (some (x0 - s + h * A), some (x0 - s + h * (A + N - 1))) (none, none) ("X", "Y") ≠ [] := by
    obtain ⟨t, ⟨ht, e1, e2⟩, -⟩ := hm.node A 0 (by omega) hg.nypos
    refine List.ne_nil_of_mem (a := t) ?_
    unfold selIdx
    rw [List.mem_filter, List.mem_range]
    refine ⟨ht, ?_⟩
    simp only at e1 e2 ⊢
    rw [e1, (hlim A).mpr ⟨le_rfl, by omega⟩]
    rfl
  obtain ⟨a, b, mx, my, hax, hby, hwx, hwy, hfg, hval⟩ := selection_fullGrid hm hh hhy _ _ hne
  have hmx : 0 < mx := hfg.nxpos
  have hmy : 0 < my := hfg.nypos
  have hwx' : ∀ i, i < nx → (A ≤ i ∧ i < A + N ↔ a ≤ i ∧ i < a + mx) := fun i hi => (hlim i).symm.trans (hwx i hi)
  have ha : a = A := by
    have h1 := (hwx' a (by omega)).mpr ⟨le_rfl, by omega⟩
    have h2 := (hwx' A (by omega)).mp ⟨le_rfl, by omega⟩
    omega
  have hmN : mx = N := by
    subst ha
    have h1 := (hwx' (a + mx - 1) (by omega)).mpr ⟨by omega, by omega⟩
    have h2 := (hwx' (a + N - 1) (by omega)).mp ⟨by omega, by omega⟩
    omega
  have hwy' : ∀ j, j < ny → b ≤ j ∧ j < b + my := fun j hj => (hwy j hj).mp rfl
  have hb : b = 0 := by
    have := hwy' 0 hg.nypos
    omega
  have hmy' : my = ny := by
    have := hwy' (ny - 1) (by have := hg.nypos; omega)
    omega
  subst ha hmN hb hmy'
  refine ⟨_, hsub, by rw [hidx], ?_, ?_⟩
  · simpa using hfg
  · intro l hl i j hi hj
    have := hval l i j hi hj
    unfold atNode at this
    simp only [Nat.cast_zero, mul_zero, add_zero, zero_add] at this
    rw [this]
    unfold valueAt
    rw [hsz]
    have hfind : ((List.range (Flow.size d)).find? fun t => decide (val m "X" t = x0 - s + h * ((a + i : ℕ) : ℚ) ∧ val m "Y" t = y0 + hy * j)) =
        (List.range (Flow.size d)).find? fun t => decide (val d "X" t = x0 + h * (a + i) ∧ val d "Y" t = y0 + hy * j) := by
      refine find?_congr' _ _ _ fun t ht => ?_
      rw [hX t (List.mem_range.mp ht), hmdef, val_moved, if_neg (by decide)]
      push_cast
      simp only [decide_eq_decide]
      constructor
      · rintro ⟨h1, h2⟩; exact ⟨by linarith, h2⟩
      · rintro ⟨h1, h2⟩; exact ⟨by linarith, h2⟩
    simp only
    rw [hfind]
    cases (List.range (Flow.size d)).find? fun t => decide (val d "X" t = x0 + h * (a + i) ∧ val d "Y" t = y0 + hy * j) with
    | none => rfl
    | some t =>
      simp only [Option.elim]
      rw [hmdef, val_moved, if_neg hl]

end Strata.Driver
