import Verif.Props.Simple
/-!
# Which simple files keep the positions of their bins: C125
-/
namespace Strata.Simple
open Strata Strata.Flow Strata.Average Strata.Bytes Strata.PyText Strata.Files Strata.Resample Strata.Gmx

/-- Positions are those of a grid of at least 2 × 2 bins, column after column from the lowest bin on, with rows at least
1e-4 apart. -/
def ColumnOrder (X Y : List ℚ) : Prop :=
  ∃ (nx ny : ℕ) (x0 y0 dx dy : ℚ), 2 ≤ nx ∧ 2 ≤ ny ∧ 0 ≤ dx ∧ 1 / 10000 ≤ dy ∧
    X = ((List.range (nx * ny)).map fun t : ℕ => x0 + dx * ((t / ny : ℕ) : ℚ)) ∧
    Y = ((List.range (nx * ny)).map fun t : ℕ => y0 + dy * ((t % ny : ℕ) : ℚ))

/-- The number of bins in the lowest row: those less than 1e-4 above the lowest bin. -/
def lowest (Y : List ℚ) (y0 : ℚ) : ℕ := (Y.filter fun y => decide (y - y0 < 1 / 10000)).length

theorem takeWhile_filter (l : List ℚ) (b : ℚ) (hs : l.Pairwise (· ≤ ·)) : (l.takeWhile fun y => decide (y < b)) = l.filter fun y => decide (y < b) := by
  induction l with
  | nil => rfl
  | cons a l ih =>
    rw [List.pairwise_cons] at hs
    by_cases h : a < b
    · rw [List.takeWhile_cons_of_pos (by simpa using h), List.filter_cons_of_pos (by simpa using h), ih hs.2]
    · rw [List.takeWhile_cons_of_neg (by simpa using h), List.filter_cons_of_neg (by simpa using h)]
      symm
      rw [List.filter_eq_nil_iff]
      intro y hy
      have := hs.1 y hy
      simp only [decide_eq_true_eq, not_lt]
      linarith

/-- The shape found for any bins. -/
theorem calcShape_all (X Y : List ℚ) (h : X.length = Y.length) (y0 : ℚ) (h0 : npMin Y = .ok y0) :
    calcShape X Y = .ok (lowest Y y0, Y.length / lowest Y y0) := by
  obtain ⟨s, c', hs, hc, hp, hsort⟩ := sorted_col (r := [("X", X), ("Y", Y)]) (l := "Y") (l' := "X") (c := Y) (by simp [names]) (by simp [names]) rfl
    (by simp [size, h])
  unfold calcShape
  rw [hs]
  simp only [ok_bind]
  rw [hc, Option.getD_some]
  rw [npMin_ok_iff] at h0
  cases c' with
  | nil =>
    have := hp.mem_iff.mpr h0.1
    simp at this
  | cons y ys =>
    simp only
    rw [List.pairwise_cons] at hsort
    have hy : y = y0 := by
      have h1 := h0.2 y (hp.mem_iff.mp (by simp))
      have h2 : y ≤ y0 := by
        rcases List.mem_cons.mp (hp.mem_iff.mpr h0.1) with e | e
        · exact e.ge
        · exact hsort.1 _ e
      exact le_antisymm h2 h1
    subst hy
    have e1 : (ys.takeWhile fun z => decide (|z - y| < 1 / 10000)) = ys.filter fun z => decide (z < y + 1 / 10000) := by
      rw [← takeWhile_filter ys _ hsort.2]
      have : ∀ l : List ℚ, (∀ z ∈ l, y ≤ z) → (l.takeWhile fun z => decide (|z - y| < 1 / 10000)) = l.takeWhile fun z => decide (z < y + 1 / 10000) := by
        intro l
        induction l with
        | nil => intro _; rfl
        | cons a l ih =>
          intro hl
          have ha := hl a (by simp)
          have e : decide (|a - y| < 1 / 10000) = decide (a < y + 1 / 10000) := by
            rw [abs_of_nonneg (by linarith)]
            apply decide_eq_decide.mpr
            constructor <;> intro <;> linarith
          rw [List.takeWhile_cons, List.takeWhile_cons, e, ih fun z hz => hl z (by simp [hz])]
      exact this ys hsort.1
    have e2 : 1 + (ys.takeWhile fun z => decide (|z - y| < 1 / 10000)).length = lowest Y y := by
      rw [e1]
      unfold lowest
      rw [← (hp.filter _).length_eq, List.filter_cons_of_pos (by simp), List.length_cons, Nat.add_comm]
      congr 2
      apply List.filter_congr
      intro z _
      apply decide_eq_decide.mpr
      constructor <;> intro <;> linarith
    rw [e2, h]

/-- The information found for any bins. -/
theorem calcInformation_all (X Y : List ℚ) (h : X.length = Y.length) (hne : Y ≠ []) :
    ∃ x0 x1 y0 y1, npMin X = .ok x0 ∧ npMax X = .ok x1 ∧ npMin Y = .ok y0 ∧ npMax Y = .ok y1 ∧ 0 < lowest Y y0 ∧ lowest Y y0 ≤ Y.length ∧
      calcInformation X Y = .ok ⟨(lowest Y y0, Y.length / lowest Y y0),
        (if lowest Y y0 = 1 then none else some ((x1 - x0) / ((lowest Y y0 : ℚ) - 1)),
          if Y.length / lowest Y y0 = 1 then none else some ((y1 - y0) / (((Y.length / lowest Y y0 : ℕ) : ℚ) - 1))), (x0, y0),
        lowest Y y0 * (Y.length / lowest Y y0)⟩ := by
  have hX : X ≠ [] := by
    rintro rfl
    rw [List.length_nil] at h
    exact hne (List.length_eq_zero_iff.mp h.symm)
  obtain ⟨x0, hx0⟩ := npMin_exists hX
  obtain ⟨x1, hx1⟩ := npMax_exists hX
  obtain ⟨y0, hy0⟩ := npMin_exists hne
  obtain ⟨y1, hy1⟩ := npMax_exists hne
  refine ⟨x0, x1, y0, y1, hx0, hx1, hy0, hy1, ?_, ?_, ?_⟩
  · unfold lowest
    rw [List.length_pos_iff_exists_mem]
    exact ⟨y0, List.mem_filter.mpr ⟨((npMin_ok_iff _ _).mp hy0).1, by simp⟩⟩
  · exact List.length_filter_le _ _
  · unfold calcInformation
    rw [if_neg (by simp [h]), calcShape_all X Y h y0 hy0]
    simp only [ok_bind, calc1d, hx0, hx1, hy0, hy1]

/-- What the reader returns for any columns. -/
theorem finish_all (r : Record) (X Y : List ℚ) (hX : col? r "X" = some X) (hY : col? r "Y" = some Y) (h : X.length = Y.length) (hne : Y ≠ []) :
    ∃ out info, finish r = .ok (out, info) ∧ calcInformation (X.map round5) (Y.map round5) = .ok info ∧
      out.x = ((List.range (info.shape.1 * info.shape.2)).map fun t : ℕ => info.spacing.1.map fun dx => info.origin.1 + dx * ((t / info.shape.2 : ℕ) : ℚ)) ∧
      out.y = ((List.range (info.shape.1 * info.shape.2)).map fun t : ℕ => info.spacing.2.map fun dy => info.origin.2 + dy * ((t % info.shape.2 : ℕ) : ℚ)) ∧
      out.rest = r.filter fun c => decide (c.1 ∉ ["X", "Y"]) := by
  obtain ⟨x0, x1, y0, y1, -, -, -, -, -, -, hi⟩ := calcInformation_all (X.map round5) (Y.map round5) (by simpa using h) (by simpa using hne)
  unfold finish
  rw [hX, hY]
  simp only [Option.elim_some, ok_bind]
  rw [hi]
  exact ⟨_, _, rfl, rfl, rfl, rfl, rfl⟩

theorem positions_iff (r : Record) (X Y : List ℚ) (hX : col? r "X" = some X) (hY : col? r "Y" = some Y) (h : X.length = Y.length) (hne : Y ≠ []) :
    ∃ out info, finish r = .ok (out, info) ∧
      (out.x = X.map (fun x => some (round5 x)) ∧ out.y = Y.map (fun y => some (round5 y)) ↔ ColumnOrder (X.map round5) (Y.map round5)) := by
  obtain ⟨out, info, hf, hinf, hox, hoy, -⟩ := finish_all r X Y hX hY h hne
  refine ⟨out, info, hf, ?_⟩
  have hmx : X.map (fun x => some (round5 x)) = (X.map round5).map some := by rw [List.map_map]; rfl
  have hmy : Y.map (fun x => some (round5 x)) = (Y.map round5).map some := by rw [List.map_map]; rfl
  rw [hmx, hmy]
  have hne' : Y.map round5 ≠ [] := by simpa using hne
  have h' : (X.map round5).length = (Y.map round5).length := by simpa using h
  generalize X.map round5 = A at *
  generalize Y.map round5 = B at *
  clear hX hY hmx hmy h hf hne
  constructor
  · rintro ⟨ex, ey⟩
    obtain ⟨x0, x1, y0, y1, hx0, hx1, hy0, hy1, hpos, hle, hi⟩ := calcInformation_all A B h' hne'
    rw [hinf] at hi
    have hi := Except.ok.inj hi
    generalize hnx : lowest B y0 = nx at *
    generalize hny : B.length / nx = ny at *
    subst hi
    simp only at hox hoy
    have hny1 : 0 < ny := by rw [← hny]; exact Nat.div_pos hle hpos
    have hlenB : B.length = nx * ny := by
      have := congrArg List.length (ey.symm.trans hoy)
      simpa using this
    have hlenA : A.length = nx * ny := by rw [h', hlenB]
    have hpos2 : 0 < nx * ny := Nat.mul_pos hpos hny1
    have notnone : ∀ (l : List ℚ) (o : ℕ → Option ℚ), l.map some = (List.range (nx * ny)).map o → ∀ t, t < nx * ny → o t = some (l.getD t 0) := by
      intro l o hl t ht
      have hlen : l.length = nx * ny := by simpa using congrArg List.length hl
      have := congrArg (fun l => l[t]?) hl
      simp only [List.getElem?_map, List.getElem?_range ht, Option.map_some] at this
      rw [List.getElem?_eq_getElem (by omega)] at this
      simp only [Option.map_some, Option.some.injEq] at this
      rw [← this, List.getD_eq_getElem?_getD, List.getElem?_eq_getElem (by omega), Option.getD_some]
    have hA := notnone A _ (ex.symm.trans hox)
    have hB := notnone B _ (ey.symm.trans hoy)
    have hnx2 : nx ≠ 1 := by
      intro e
      have := hA 0 hpos2
      rw [if_pos e] at this
      simp at this
    have hny2 : ny ≠ 1 := by
      intro e
      have := hB 0 hpos2
      rw [if_pos e] at this
      simp at this
    rw [if_neg hnx2] at hox hA
    rw [if_neg hny2] at hoy hB
    simp only [Option.map_some, Option.some.injEq] at hA hB
    have hAeq : A = (List.range (nx * ny)).map fun t : ℕ => x0 + (x1 - x0) / ((nx : ℚ) - 1) * ((t / ny : ℕ) : ℚ) := by
      rw [eq_map_getD A, hlenA]
      apply List.map_congr_left
      intro t ht
      exact (hA t (List.mem_range.mp ht)).symm
    have hBeq : B = (List.range (nx * ny)).map fun t : ℕ => y0 + (y1 - y0) / ((ny : ℚ) - 1) * ((t % ny : ℕ) : ℚ) := by
      rw [eq_map_getD B, hlenB]
      apply List.map_congr_left
      intro t ht
      exact (hB t (List.mem_range.mp ht)).symm
    have hq : ∀ n : ℕ, 0 < n → n ≠ 1 → (0 : ℚ) < (n : ℚ) - 1 := by
      intro n h0 h1
      have : (2 : ℚ) ≤ (n : ℚ) := by exact_mod_cast (by omega : 2 ≤ n)
      linarith
    have hdx : 0 ≤ (x1 - x0) / ((nx : ℚ) - 1) := by
      apply div_nonneg _ (hq nx hpos hnx2).le
      have := ((npMin_ok_iff _ _).mp hx0).2 x1 ((npMax_ok_iff _ _).mp hx1).1
      linarith
    have hdy : 0 ≤ (y1 - y0) / ((ny : ℚ) - 1) := by
      apply div_nonneg _ (hq ny hny1 hny2).le
      have := ((npMin_ok_iff _ _).mp hy0).2 y1 ((npMax_ok_iff _ _).mp hy1).1
      linarith
    generalize hdxe : (x1 - x0) / ((nx : ℚ) - 1) = dx at *
    generalize hdye : (y1 - y0) / ((ny : ℚ) - 1) = dy at *
    refine ⟨nx, ny, x0, y0, dx, dy, by omega, by omega, hdx, ?_, hAeq, hBeq⟩
    by_contra hlt
    rw [not_le] at hlt
    -- the two lowest rows are counted as one
    have hperm : B.Perm ((List.range (nx * ny)).map fun t : ℕ => y0 + dy * ((t / nx : ℕ) : ℚ)) := by
      rw [hBeq]
      exact perm_transpose nx ny hpos hny1 fun _ j => y0 + dy * (j : ℚ)
    have hcount : nx + 1 ≤ lowest B y0 := by
      unfold lowest
      rw [(hperm.filter _).length_eq, List.filter_map, List.length_map]
      have hsub : (List.range (nx + 1)).Sublist (List.range (nx * ny)) := by
        rw [List.range_sublist]
        have : nx * 2 ≤ nx * ny := Nat.mul_le_mul_left _ (by omega)
        omega
      have := (hsub.filter ((fun y => decide (y - y0 < 1 / 10000)) ∘ fun t : ℕ => y0 + dy * ((t / nx : ℕ) : ℚ))).length_le
      refine le_trans ?_ this
      rw [List.filter_eq_self.mpr, List.length_range]
      intro t ht
      have ht' : t < nx + 1 := List.mem_range.mp ht
      have hd : t / nx ≤ 1 := by
        have : t / nx < 2 := by rw [Nat.div_lt_iff_lt_mul hpos]; omega
        omega
      have hd' : ((t / nx : ℕ) : ℚ) ≤ 1 := by exact_mod_cast hd
      simp only [Function.comp, decide_eq_true_eq]
      nlinarith
    omega
  · rintro ⟨nx, ny, x0, y0, dx, dy, hnx, hny, hdx, hdy, rfl, rfl⟩
    have hinfo := calcInformation_eq _ _ nx ny (fun i => x0 + dx * (i : ℚ)) (fun j => y0 + dy * (j : ℚ)) (by omega) (by omega)
      (perm_transpose nx ny (by omega) (by omega) fun i _ => x0 + dx * (i : ℚ))
      (perm_transpose nx ny (by omega) (by omega) fun _ j => y0 + dy * (j : ℚ))
      (by
        intro i j hij _
        have : (i : ℚ) ≤ (j : ℚ) := by exact_mod_cast hij
        nlinarith)
      (by
        intro i j hij _
        have : (i : ℚ) ≤ (j : ℚ) := by exact_mod_cast hij
        nlinarith)
      (by
        intro j hj _
        have : (1 : ℚ) ≤ (j : ℚ) := by exact_mod_cast hj
        push_cast
        nlinarith)
    rw [if_neg (by omega), if_neg (by omega)] at hinfo
    rw [hinf] at hinfo
    have hi := Except.ok.inj hinfo
    have hq : ∀ n : ℕ, 2 ≤ n → ((n : ℚ) - 1) ≠ 0 ∧ (((n - 1 : ℕ) : ℚ)) = (n : ℚ) - 1 := by
      intro n h1
      have : (2 : ℚ) ≤ (n : ℚ) := by exact_mod_cast h1
      refine ⟨by linarith, ?_⟩
      rw [Nat.cast_sub (by omega)]
      simp
    have ex : ((x0 + dx * ((nx - 1 : ℕ) : ℚ)) - (x0 + dx * ((0 : ℕ) : ℚ))) / ((nx : ℚ) - 1) = dx := by
      rw [(hq nx hnx).2]
      have := (hq nx hnx).1
      field_simp
      push_cast
      ring
    have ey : ((y0 + dy * ((ny - 1 : ℕ) : ℚ)) - (y0 + dy * ((0 : ℕ) : ℚ))) / ((ny : ℚ) - 1) = dy := by
      rw [(hq ny hny).2]
      have := (hq ny hny).1
      field_simp
      push_cast
      ring
    rw [ex, ey] at hi
    subst hi
    simp only [Nat.cast_zero, mul_zero, add_zero, Option.map_some] at hox hoy
    rw [hox, hoy, List.map_map, List.map_map]
    exact ⟨rfl, rfl⟩

/-! ## C125 -/

/-- The numbers in column `k` of a table. -/
def column' (vals : List (List ℚ)) (k : ℕ) : List ℚ := vals.map fun row => row.getD k 0

/-- **C125, text files.** Every text file with columns `X` and `Y` and at least two bins is read, and every bin is at the position
given in the file, to five decimals, exactly if the file lists a grid of at least 2 × 2 bins column after column. -/
theorem C125_text_positions (F : F32) (ns : List Text) (rows : List (List Text)) (vals : List (List ℚ)) (hnd : ns.Nodup) (hn : ∀ w ∈ ns, Word w)
    (hr : ∀ row ∈ rows, row.length = ns.length ∧ ∀ w ∈ row, Word w) (hlen : 2 ≤ rows.length)
    (hv : rows.mapM (fun row => row.mapM pyFloat) = .ok vals) (kx ky : ℕ) (hkx : ns[kx]? = some "X".toList) (hky : ns[ky]? = some "Y".toList) :
    ∃ out info, readData F (ascii (tableText ns rows)) = .ok (out, info) ∧
      (out.x = (column' vals kx).map (fun x => some (round5 x)) ∧ out.y = (column' vals ky).map (fun y => some (round5 y)) ↔
        ColumnOrder ((column' vals kx).map round5) ((column' vals ky).map round5)) := by
  have hne : ns ≠ [] := by rintro rfl; simp at hkx
  have hlv : vals.length = rows.length := (mapM_length hv).symm
  have hnd' : (ns.map String.ofList).Nodup := hnd.map (fun a b h => String.ofList_injective h)
  have hcol : ∀ (k : ℕ) (w : Text), ns[k]? = some w →
      col? ((ns.map String.ofList).zipIdx.map fun p => (p.1, vals.map fun row => row.getD p.2 0)) (String.ofList w) = some (column' vals k) := by
    intro k w hk
    unfold col?
    apply lookup_of_mem
    · rw [List.map_map]
      have : ((Prod.fst : Label × List ℚ → Label) ∘ fun p : Label × ℕ => (p.1, vals.map fun row => row.getD p.2 0)) = Prod.fst := rfl
      rw [this, List.zipIdx_map_fst]
      exact hnd'
    · rw [List.mem_map]
      refine ⟨(String.ofList w, k), ?_, rfl⟩
      rw [List.mem_zipIdx_iff_getElem?]
      simp [hk]
  have hp := positions_iff _ _ _ (hcol kx _ hkx) (hcol ky _ hky) (by simp [column']) (by
    intro e
    have := congrArg List.length e
    simp only [column', List.length_map, List.length_nil] at this
    omega)
  unfold readData
  rw [isBinary_valid _ (ascii_valid _ (tableText_ascii ns rows hn fun row h => (hr row h).2)), if_neg (by simp), readPlain_table ns rows vals hne hn hr hv, ok_bind]
  simp only
  rw [if_neg (by omega)]
  exact hp

/-- **C125, binary files.** The same for the rows of a binary file whose bytes are no text. -/
theorem C125_binary_positions (F : F32) (L : List (List ℚ)) (hL : ∀ row ∈ L, row.length = 7) (hne : L ≠ [])
    (hbin : isBinary (L.flatMap fun row => row.flatMap F.enc) = true) :
    ∃ out info, readData F (L.flatMap fun row => row.flatMap F.enc) = .ok (out, info) ∧
      (out.x = L.map (fun row => some (round5 (F.rnd (row.getD 0 0)))) ∧ out.y = L.map (fun row => some (round5 (F.rnd (row.getD 1 0)))) ↔
        ColumnOrder (L.map fun row => round5 (F.rnd (row.getD 0 0))) (L.map fun row => round5 (F.rnd (row.getD 1 0)))) := by
  unfold readData
  rw [if_pos hbin, readBinary_rows F L hL]
  have hp := positions_iff (fields.zipIdx.map fun p => (p.1, L.map fun row => F.rnd (row.getD p.2 0))) (L.map fun row => F.rnd (row.getD 0 0))
    (L.map fun row => F.rnd (row.getD 1 0)) rfl rfl (by simp) (by simpa using hne)
  simp only [List.map_map] at hp
  exact hp

/-- **C125, shape.** For every text file with at least two bins: the number of columns of the grid is the number of bins in the
lowest row, and there are as many positions as values exactly if that number divides the number of bins. -/
theorem C125_counts (F : F32) (ns : List Text) (rows : List (List Text)) (vals : List (List ℚ)) (hnd : ns.Nodup) (hn : ∀ w ∈ ns, Word w)
    (hr : ∀ row ∈ rows, row.length = ns.length ∧ ∀ w ∈ row, Word w) (hlen : 2 ≤ rows.length)
    (hv : rows.mapM (fun row => row.mapM pyFloat) = .ok vals) (kx ky : ℕ) (hkx : ns[kx]? = some "X".toList) (hky : ns[ky]? = some "Y".toList) :
    ∃ out info y0, readData F (ascii (tableText ns rows)) = .ok (out, info) ∧
      y0 ∈ (column' vals ky).map round5 ∧ (∀ y ∈ (column' vals ky).map round5, y0 ≤ y) ∧
      info.shape = (lowest ((column' vals ky).map round5) y0, rows.length / lowest ((column' vals ky).map round5) y0) ∧
      out.x.length = info.shape.1 * info.shape.2 ∧ out.y.length = info.shape.1 * info.shape.2 ∧ info.numBins = info.shape.1 * info.shape.2 ∧
      (out.x.length = rows.length ↔ info.shape.1 ∣ rows.length) ∧ out.x.length ≤ rows.length ∧ (∀ c ∈ out.rest, c.2.length = rows.length) := by
  have hne : ns ≠ [] := by rintro rfl; simp at hkx
  have hlv : vals.length = rows.length := (mapM_length hv).symm
  have hnd' : (ns.map String.ofList).Nodup := hnd.map (fun a b h => String.ofList_injective h)
  have hcol : ∀ (k : ℕ) (w : Text), ns[k]? = some w →
      col? ((ns.map String.ofList).zipIdx.map fun p => (p.1, vals.map fun row => row.getD p.2 0)) (String.ofList w) = some (column' vals k) := by
    intro k w hk
    unfold col?
    apply lookup_of_mem
    · rw [List.map_map]
      have : ((Prod.fst : Label × List ℚ → Label) ∘ fun p : Label × ℕ => (p.1, vals.map fun row => row.getD p.2 0)) = Prod.fst := rfl
      rw [this, List.zipIdx_map_fst]
      exact hnd'
    · rw [List.mem_map]
      refine ⟨(String.ofList w, k), ?_, rfl⟩
      rw [List.mem_zipIdx_iff_getElem?]
      simp [hk]
  have hY : column' vals ky ≠ [] := by
    intro e
    have := congrArg List.length e
    simp only [column', List.length_map, List.length_nil] at this
    omega
  have hl : ((column' vals ky).map round5).length = rows.length := by simp [column', hlv]
  obtain ⟨out, info, hf, hinf, hox, hoy, hrest⟩ := finish_all _ _ _ (hcol kx _ hkx) (hcol ky _ hky) (by simp [column']) hY
  obtain ⟨x0, x1, y0, y1, -, -, hy0, -, hpos, hle, hi⟩ := calcInformation_all ((column' vals kx).map round5) ((column' vals ky).map round5)
    (by simp [column']) (by simpa using hY)
  rw [hinf] at hi
  have hi := Except.ok.inj hi
  rw [hl] at hi hle
  refine ⟨out, info, y0, ?_, ((npMin_ok_iff _ _).mp hy0).1, ((npMin_ok_iff _ _).mp hy0).2, by rw [hi], by rw [hox]; simp, by rw [hoy]; simp, by rw [hi], ?_, ?_, ?_⟩
  · unfold readData
    rw [isBinary_valid _ (ascii_valid _ (tableText_ascii ns rows hn fun row h => (hr row h).2)), if_neg (by simp), readPlain_table ns rows vals hne hn hr hv, ok_bind]
    simp only
    rw [if_neg (by omega)]
    exact hf
  · rw [hox, List.length_map, List.length_range, hi]
    simp only
    constructor
    · intro e; exact ⟨_, e.symm⟩
    · intro e; exact Nat.mul_div_cancel' e
  · rw [hox, List.length_map, List.length_range, hi]
    exact Nat.mul_div_le _ _
  · intro c hc
    rw [hrest] at hc
    obtain ⟨p, _, rfl⟩ := List.mem_map.mp (List.mem_filter.mp hc).1
    simp [hlv]

/-- A file of 2 × 3 bins column after column, and the same without its second line of values: 5 bins. -/
def exTable : List (List Text) := [["0", "0", "7"], ["0", "1", "8"], ["0", "2", "9"], ["1", "0", "4"], ["1", "1", "5"], ["1", "2", "6"]].map fun r : List String => r.map String.toList

/-- The values of the table. -/
def exVals : List (List ℚ) := [[0, 0, 7], [0, 1, 8], [0, 2, 9], [1, 0, 4], [1, 1, 5], [1, 2, 6]]

/-- The names of its columns. -/
def exNames : List Text := ["X", "Y", "M"].map String.toList

/-- The hypotheses are met by both files; the positions are kept in the first only. -/
example : exNames.Nodup ∧ (∀ w ∈ exNames, Word w) ∧ (∀ row ∈ exTable, row.length = exNames.length ∧ ∀ w ∈ row, Word w) ∧
    exTable.mapM (fun row => row.mapM pyFloat) = .ok exVals ∧ (exTable.eraseIdx 1).mapM (fun row => row.mapM pyFloat) = .ok (exVals.eraseIdx 1) ∧
    exNames[0]? = some "X".toList ∧ exNames[1]? = some "Y".toList ∧ ColumnOrder ((column' exVals 0).map round5) ((column' exVals 1).map round5) ∧
    (readData ieee32 (ascii (tableText exNames (exTable.eraseIdx 1)))).map (fun p => (p.1.x, p.1.y, p.1.rest)) =
      .ok ([some 0, some 0, some 1, some 1], [some 0, some 2, some 0, some 2], [("M", [7, 9, 4, 5, 6])]) := by
  refine ⟨by decide, ?_, ?_, by decide +kernel, by decide +kernel, rfl, rfl, ⟨2, 3, 0, 0, 1, 1, le_rfl, by omega, by norm_num, by norm_num, by decide +kernel, by decide +kernel⟩, by decide +kernel⟩
  · unfold Word; decide
  · unfold Word; decide

/-- A binary file that meets the hypotheses. -/
example : (∀ row ∈ [[0, 0, 1, 300, 1, 0, 0], [0, 1, 1, 300, 2, 0, 0], [1, 0, 1, 300, 3, 0, 0], [1, 1, 1, 300, 4, 0, (0 : ℚ)]], row.length = 7) ∧
    isBinary ([[0, 0, 1, 300, 1, 0, 0], [0, 1, 1, 300, 2, 0, 0], [1, 0, 1, 300, 3, 0, 0], [1, 1, 1, 300, 4, 0, (0 : ℚ)]].flatMap fun row => row.flatMap ieee32.enc) = true := by
  decide +kernel

/-- **C125: a missing bin moves others.** In the project's own test file data_avgsimple.dat
(/repo/strata/dataformats/simple/tests/data_avgsimple.dat; values and positions read are in Conformance/Simple.lean) the three bins without
atoms are left out, so 9 bins become 8 positions of a grid of 2 × 4.  Here the smallest case: a bin at (0, 2) is returned at (0, 2) as the second of five
values at four positions, the bin at (1, 0) at (1, 0), the bin at (1, 1) at (1, 2). -/
theorem C125_missing_bin : ∃ out info, readData ieee32 (ascii (tableText exNames (exTable.eraseIdx 1))) = .ok (out, info) ∧
    exVals.eraseIdx 1 = [[0, 0, 7], [0, 2, 9], [1, 0, 4], [1, 1, 5], [1, 2, 6]] ∧
    (out.x.getD 3 none, out.y.getD 3 none, val out.rest "M" 3) = (some 1, some 2, 5) ∧ out.x.length = 4 ∧ out.rest = [("M", [7, 9, 4, 5, 6])] := by
  have h : readData ieee32 (ascii (tableText exNames (exTable.eraseIdx 1))) = .ok (⟨[some 0, some 0, some 1, some 1], [some 0, some 2, some 0, some 2], [("M", [7, 9, 4, 5, 6])]⟩,
      ⟨(2, 2), (some 1, some 2), (0, 0), 4⟩) := by decide +kernel
  exact ⟨_, _, h, rfl, by decide +kernel, rfl, rfl⟩

end Strata.Simple
