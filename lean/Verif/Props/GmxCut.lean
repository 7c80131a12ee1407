import Verif.Props.Gmx
/-!
# C49: files cut within the block of the header's end
-/
namespace Strata.Gmx
open Strata Strata.Flow Strata.Average Strata.Bytes Strata.PyText Strata.Files

/-- The number of bytes between the header and the end of the 1024-byte block in which the header ends. -/
def slack (i : GInfo) (n : ℕ) : ℕ := 1023 - (headerText i n).length % 1024

/-- Reading the header of a file of any length: the data is read from `slack` bytes before the end of the block, or of the file. -/
theorem readHeader_any (i : GInfo) (n : ℕ) (rest : Bytes) :
    readHeader (header i n ++ rest) = .ok (headOf i n, ⟨header i n ++ rest, (header i n).length - (slack i n - rest.length)⟩) := by
  have hlen : (header i n ++ rest).length = (headerText i n).length + 1 + rest.length := by
    simp [header, ascii]; omega
  have hh : (header i n).length = (headerText i n).length + 1 := by simp [header, ascii]
  have hl := length_headerText i n
  have hcont : header i n ++ rest = [] ++ (ascii (headerText i n) ++ 0 :: rest) := by simp [header]
  have hrd := readHeaderString_nul ((header i n ++ rest).length / 1024 + 1) [] (headerText i n) rest (headerText_pos i n)
    (by rw [hlen]; have := Nat.div_le_div_right (c := 1024) (show (headerText i n).length ≤ (headerText i n).length + 1 + rest.length by omega); omega)
  unfold readHeader
  rw [← hcont] at hrd
  simp only [List.length_nil, Nat.zero_add] at hrd
  rw [hrd]
  unfold File.back
  rw [if_pos (by simp only; omega)]
  simp only [Except.map, ok_bind]
  rw [headLines_header]
  simp only [ok_bind, headOf]
  have : min (1024 * ((headerText i n).length / 1024 + 1)) ((headerText i n).length + 1 + rest.length) - (1023 - (headerText i n).length % 1024) =
      (header i n).length - (slack i n - rest.length) := by
    unfold slack
    omega
  rw [this]

theorem pieces_length (w : ℕ) : ∀ (k : ℕ) (b : Bytes), (pieces w k b).length = k := by
  intro k
  induction k with
  | zero => intro b; rfl
  | succ k ih => intro b; rw [pieces, List.length_cons, ih]

theorem fromFile_spec (w n : ℕ) (hw : 0 < w) (f : File) :
    (fromFile w n f).1.length = min n ((f.content.length - f.pos) / w) ∧ (fromFile w n f).2.content = f.content ∧
    f.content.length - (fromFile w n f).2.pos = f.content.length - f.pos - n * w ∧
    (1 ≤ n → w ≤ f.content.length - f.pos → (fromFile w n f).1.head? = some ((f.content.drop f.pos).take w)) := by
  unfold fromFile
  simp only
  by_cases h : n * w ≤ f.content.length - f.pos
  · rw [if_pos h]
    refine ⟨?_, rfl, ?_, ?_⟩
    · rw [pieces_length, Nat.min_eq_left]
      exact (Nat.le_div_iff_mul_le hw).mpr h
    · simp only; omega
    · intro h1 _
      obtain ⟨k, rfl⟩ : ∃ k, n = k + 1 := ⟨n - 1, by omega⟩
      rfl
  · rw [if_neg h]
    have hlt : (f.content.length - f.pos) / w < n := by
      rw [Nat.div_lt_iff_lt_mul hw]; omega
    refine ⟨?_, rfl, ?_, ?_⟩
    · rw [pieces_length, Nat.min_eq_right hlt.le]
    · simp only; omega
    · intro _ h2
      have : 1 ≤ (f.content.length - f.pos) / w := (Nat.le_div_iff_mul_le hw).mpr (by omega)
      obtain ⟨k, hk⟩ : ∃ k, (f.content.length - f.pos) / w = k + 1 := ⟨(f.content.length - f.pos) / w - 1, by omega⟩
      rw [hk]
      rfl

theorem readInts (F : F32) (f : File) (n r : ℕ) (hr : f.content.length - f.pos = r) (l : Text) (hl : l = "IX".toList ∨ l = "IY".toList) :
    ∃ ix f', (∀ ls, readValues F f (n : ℤ) (l :: ls) = (readValues F f' (n : ℤ) ls).map fun t => (l, .ints ix) :: t) ∧ ix.length = min n (r / 8) ∧ f'.content.length - f'.pos = r - 8 * n ∧
      (1 ≤ n → 8 ≤ r → ix.head? = some (ofBytes ((f.content.drop f.pos).take 8))) := by
  obtain ⟨a1, b1, c1, d1⟩ := fromFile_spec 8 n (by omega) f
  refine ⟨(fromFile 8 n f).1.map ofBytes, (fromFile 8 n f).2, fun ls => ?_, ?_, ?_, fun h1 h2 => ?_⟩
  · rw [readValues, if_neg (by omega), if_pos hl, Int.toNat_natCast]
    generalize fromFile 8 n f = g
    obtain ⟨ps, f'⟩ := g
    simp only
    cases readValues F f' (n : ℤ) ls <;> rfl
  · rw [List.length_map, a1, hr]
  · rw [b1, c1, hr]; omega
  · rw [List.head?_map, d1 h1 (by omega)]; rfl

theorem readFloats (F : F32) (f : File) (n r : ℕ) (hr : f.content.length - f.pos = r) (l : Text) (hl : ¬ (l = "IX".toList ∨ l = "IY".toList)) (hl' : l ∈ fieldsOrdered.map String.toList) :
    ∃ vs f', (∀ ls, readValues F f (n : ℤ) (l :: ls) = (readValues F f' (n : ℤ) ls).map fun t => (l, .floats vs) :: t) ∧ vs.length = min n (r / 4) ∧ f'.content.length - f'.pos = r - 4 * n := by
  obtain ⟨a1, b1, c1, -⟩ := fromFile_spec 4 n (by omega) f
  refine ⟨(fromFile 4 n f).1.map F.dec, (fromFile 4 n f).2, fun ls => ?_, ?_, ?_⟩
  · rw [readValues, if_neg (by omega), if_neg hl, if_pos hl', Int.toNat_natCast]
    generalize fromFile 4 n f = g
    obtain ⟨ps, f'⟩ := g
    simp only
    cases readValues F f' (n : ℤ) ls <;> rfl
  · rw [List.length_map, a1, hr]
  · rw [b1, c1, hr]; omega

/-- The arrays read from a file with `r` bytes left. -/
theorem readValues_any (F : F32) (f : File) (n r : ℕ) (hr : f.content.length - f.pos = r) :
    ∃ ix iy vN vT vM vU vV,
      readValues F f (n : ℤ) ["IX".toList, "IY".toList, "N".toList, "T".toList, "M".toList, "U".toList, "V".toList] =
        .ok [("IX".toList, .ints ix), ("IY".toList, .ints iy), ("N".toList, .floats vN), ("T".toList, .floats vT), ("M".toList, .floats vM), ("U".toList, .floats vU), ("V".toList, .floats vV)] ∧
      ix.length = min n (r / 8) ∧ iy.length = min n ((r - 8 * n) / 8) ∧ vN.length = min n ((r - 16 * n) / 4) ∧ vT.length = min n ((r - 20 * n) / 4) ∧
      vM.length = min n ((r - 24 * n) / 4) ∧ vU.length = min n ((r - 28 * n) / 4) ∧ vV.length = min n ((r - 32 * n) / 4) ∧
      (1 ≤ n → 8 ≤ r → ix.head? = some (ofBytes ((f.content.drop f.pos).take 8))) := by
  have q1 : r - 8 * n - 8 * n = r - 16 * n := by omega
  have q2 : r - 16 * n - 4 * n = r - 20 * n := by omega
  have q3 : r - 20 * n - 4 * n = r - 24 * n := by omega
  have q4 : r - 24 * n - 4 * n = r - 28 * n := by omega
  have q5 : r - 28 * n - 4 * n = r - 32 * n := by omega
  obtain ⟨ix, f1, e1, l1, r1, hd⟩ := readInts F f n r hr "IX".toList (by decide)
  obtain ⟨iy, f2, e2, l2, r2, -⟩ := readInts F f1 n _ r1 "IY".toList (by decide)
  obtain ⟨vN, f3, e3, l3, r3⟩ := readFloats F f2 n _ r2 "N".toList (by decide) (by decide)
  obtain ⟨vT, f4, e4, l4, r4⟩ := readFloats F f3 n _ r3 "T".toList (by decide) (by decide)
  obtain ⟨vM, f5, e5, l5, r5⟩ := readFloats F f4 n _ r4 "M".toList (by decide) (by decide)
  obtain ⟨vU, f6, e6, l6, r6⟩ := readFloats F f5 n _ r5 "U".toList (by decide) (by decide)
  obtain ⟨vV, f7, e7, l7, r7⟩ := readFloats F f6 n _ r6 "V".toList (by decide) (by decide)
  rw [q1] at l3 l4 l5 l6 l7
  rw [q2] at l4 l5 l6 l7
  rw [q3] at l5 l6 l7
  rw [q4] at l6 l7
  rw [q5] at l7
  refine ⟨ix, iy, vN, vT, vM, vU, vV, ?_, l1, l2, l3, l4, l5, l6, l7, hd⟩
  have hnil : readValues F f7 (n : ℤ) [] = .ok [] := rfl
  rw [e1, e2, e3, e4, e5, e6, e7, hnil]
  rfl

/-- Reading a file that begins with a written header: `r` is the number of bytes the data is read from. -/
theorem readData_any (F : F32) (i : GInfo) (n : ℕ) (rest : Bytes) :
    ∃ ix iy vN vT vM vU vV,
      readData F (header i n ++ rest) = (do
        let cN ← assign i.shape.1 i.shape.2 ix iy vN
        let cT ← assign i.shape.1 i.shape.2 ix iy vT
        let cM ← assign i.shape.1 i.shape.2 ix iy vM
        let cU ← assign i.shape.1 i.shape.2 ix iy vU
        let cV ← assign i.shape.1 i.shape.2 ix iy vV
        .ok ([("X", (List.range (i.shape.1 * i.shape.2)).map fun t => round6 i.origin.1 + round6 i.spacing.1 * (((t / i.shape.2 : ℕ) : ℚ) + 1 / 2)),
            ("Y", (List.range (i.shape.1 * i.shape.2)).map fun t => round6 i.origin.2 + round6 i.spacing.2 * (((t % i.shape.2 : ℕ) : ℚ) + 1 / 2)),
            ("N", cN), ("T", cT), ("M", cM), ("U", cU), ("V", cV)],
          { shape := some ((i.shape.1 : ℤ), (i.shape.2 : ℤ)), origin := some (round6 i.origin.1, round6 i.origin.2),
            spacing := some (round6 i.spacing.1, round6 i.spacing.2), numBins := some ((i.shape.1 : ℤ) * (i.shape.2 : ℤ)) })) ∧
      let r := max rest.length (slack i n)
      ix.length = min n (r / 8) ∧ iy.length = min n ((r - 8 * n) / 8) ∧ vN.length = min n ((r - 16 * n) / 4) ∧ vT.length = min n ((r - 20 * n) / 4) ∧
      vM.length = min n ((r - 24 * n) / 4) ∧ vU.length = min n ((r - 28 * n) / 4) ∧ vV.length = min n ((r - 32 * n) / 4) ∧
      (1 ≤ n → 8 ≤ r → ix.head? = some (ofBytes (((header i n ++ rest).drop ((header i n).length - (slack i n - rest.length))).take 8))) := by
  have hh : (header i n).length = (headerText i n).length + 1 := by simp [header, ascii]
  have hl := length_headerText i n
  have hr : (header i n ++ rest).length - ((header i n).length - (slack i n - rest.length)) = max rest.length (slack i n) := by
    rw [List.length_append, hh]
    unfold slack
    omega
  obtain ⟨ix, iy, vN, vT, vM, vU, vV, h0, h1⟩ := readValues_any F ⟨header i n ++ rest, (header i n).length - (slack i n - rest.length)⟩ n _ hr
  refine ⟨ix, iy, vN, vT, vM, vU, vV, ?_, h1⟩
  unfold readData
  rw [readHeader_any]
  simp only [ok_bind, headOf, Option.getD_some]
  rw [h0]
  simp only [ok_bind]
  rw [if_neg (by omega), Int.toNat_natCast, Int.toNat_natCast]
  rw [mapM_fields]
  simp only [bind_assoc, ok_bind]
  rfl

/-- An index that is out of range. -/
theorem assign_outOfRange (nx ny : ℕ) (ix iy : List ℕ) (vs : List ℚ) (x : ℕ) (hx : ix.head? = some x) (h : nx ≤ x) (hn : iy ≠ [] ∨ 2 ≤ ix.length) :
    assign nx ny ix iy vs = .error .indexError := by
  obtain ⟨xs, rfl⟩ : ∃ xs, ix = x :: xs := by
    cases ix with
    | nil => cases hx
    | cons a xs => simp only [List.head?_cons, Option.some.injEq] at hx; exact ⟨xs, by rw [hx]⟩
  unfold assign
  cases hb : bcastLen (x :: xs).length iy.length with
  | none => rfl
  | some k =>
    simp only
    have hk : k ≠ 0 := by
      unfold bcastLen at hb
      rintro rfl
      split_ifs at hb with h1 h2 h3
      · simp at hb
      · simp only [Option.some.injEq] at hb
        rcases hn with hn | hn
        · exact hn (List.eq_nil_of_length_eq_zero hb)
        · omega
      · simp at hb
    cases hX : bcast k (x :: xs) with
    | none => rfl
    | some X =>
      cases hY : bcast k iy with
      | none => rfl
      | some Y =>
        simp only
        have hX1 : ∃ X', X = x :: X' := by
          unfold bcast at hX
          split_ifs at hX with h1
          · simp only [Option.some.injEq] at hX; exact ⟨xs, hX.symm⟩
          · cases xs with
            | nil =>
              simp only [Option.some.injEq] at hX
              obtain ⟨k', rfl⟩ : ∃ k', k = k' + 1 := ⟨k - 1, by omega⟩
              exact ⟨List.replicate k' x, by rw [← hX]; rfl⟩
            | cons a b => cases hX
        have hY1 : Y.length = k := by
          unfold bcast at hY
          split_ifs at hY with h1
          · simp only [Option.some.injEq] at hY; rw [← hY]; exact h1
          · match iy, hY with
            | [y], hY => simp only [Option.some.injEq] at hY; rw [← hY]; simp
        obtain ⟨X', rfl⟩ := hX1
        obtain ⟨y, Y', rfl⟩ : ∃ y Y', Y = y :: Y' := by
          cases Y with
          | nil => exact absurd hY1.symm hk
          | cons y Y' => exact ⟨y, Y', rfl⟩
        rw [if_pos]
        simp only [List.zip_cons_cons, List.all_cons, Bool.and_eq_true, decide_eq_true_eq, not_and]
        intro hc
        omega

/-- No index and no values. -/
theorem assign_none (nx ny : ℕ) (ix : List ℕ) (h : ix.length ≤ 1) : assign nx ny ix [] [] = .ok (List.replicate (nx * ny) 0) := by
  match ix, h with
  | [], _ => rfl
  | [x], _ => rfl

theorem ofBytes_pos (bs : Bytes) (h : ∀ b ∈ bs, b ≠ 0) : bs ≠ [] → 256 ^ (bs.length - 1) ≤ ofBytes bs := by
  induction bs with
  | nil => intro hc; exact absurd rfl hc
  | cons b bs ih =>
    intro _
    rw [ofBytes]
    cases bs with
    | nil =>
      have : b ≠ 0 := h b (by simp)
      have : b.toNat ≠ 0 := fun hc => this (UInt8.toNat_inj.mp hc)
      simp only [List.length_singleton, Nat.sub_self, pow_zero]
      omega
    | cons c cs =>
      have := ih (fun b hb => h b (by simp [hb])) (by simp)
      simp only [List.length_cons, Nat.add_sub_cancel] at this ⊢
      rw [pow_succ]
      omega

/-- Number of bytes from the header's NUL to the end of its 1024-byte block. -/
def blockRest (bytes : Bytes) : ℕ := 1023 - bytes.idxOf 0 % 1024

/-- **C49, all positions in the data.** A written file is cut `d` bytes after its header; the reader then takes the last `r` bytes for data, `r` being the greater of `d` and the number of bytes
to the end of the block of the header's NUL.  It refuses the file if `r` is at least 16 and less than the data, unless the last field has exactly one value left, and also if 9 or more bytes
of the header are taken for data.  If `r` is less than 16 it accepts the file as an empty map.

Missing: the files with 1 to 8 bytes of the header taken for data which have all values, or one value of the last field (if their shifted indices are within the map they are accepted, `C49_one_byte_counterexample`). -/
theorem C49_cut_anywhere_partial (F : F32) (data : Record) (i : GInfo) (h : Writable data i) (hs : i.shape.1 ≤ 2 ^ 56) :
    ∃ bytes, writeData F data i = .ok bytes ∧ ∀ d r, bytes.idxOf 0 + 1 + d < bytes.length → r = max d (blockRest bytes) →
      (16 ≤ r → r < 36 * (massRows data i).length → (r - 32 * (massRows data i).length) / 4 ≠ 1 → ∃ e, readData F (bytes.take (bytes.idxOf 0 + 1 + d)) = .error e) ∧
      (16 ≤ r → d + 9 ≤ blockRest bytes → ∃ e, readData F (bytes.take (bytes.idxOf 0 + 1 + d)) = .error e) ∧
      (r < 16 → ∃ out info, readData F (bytes.take (bytes.idxOf 0 + 1 + d)) = .ok (out, info) ∧
        ∀ t, ∀ l ∈ ["N", "T", "M", "U", "V"], val out l t = 0) := by
  refine ⟨_, writeData_eq F data i h, ?_⟩
  intro d r hlt hrd
  unfold blockRest at hrd ⊢
  rw [idxOf_header] at *
  have hhl : (header i (massRows data i).length).length = (headerText i (massRows data i).length).length + 1 := by simp [header, ascii]
  rw [List.length_append, length_body, hhl] at hlt
  have ht : (header i (massRows data i).length ++ body F data i).take ((headerText i (massRows data i).length).length + 1 + d) =
      header i (massRows data i).length ++ (body F data i).take d := by
    rw [← hhl, List.take_append, List.take_of_length_le (by omega), Nat.add_sub_cancel_left]
  rw [ht]
  have hrest : ((body F data i).take d).length = d := by rw [List.length_take, length_body]; omega
  obtain ⟨ix, iy, vN, vT, vM, vU, vV, hread, hL⟩ := readData_any F i (massRows data i).length ((body F data i).take d)
  simp only [hrest] at hL
  rw [show slack i (massRows data i).length = 1023 - (headerText i (massRows data i).length).length % 1024 from rfl, ← hrd] at hL
  generalize hn : (massRows data i).length = n at *
  obtain ⟨l1, l2, l3, l4, l5, l6, l7, hd⟩ := hL
  have herr : (∃ e, assign i.shape.1 i.shape.2 ix iy vN = .error e) ∨ (∃ e, assign i.shape.1 i.shape.2 ix iy vV = .error e) →
      ∃ e, readData F (header i n ++ (body F data i).take d) = .error e := by
    rw [hread]
    clear hread
    generalize assign i.shape.1 i.shape.2 ix iy vN = aN
    generalize assign i.shape.1 i.shape.2 ix iy vT = aT
    generalize assign i.shape.1 i.shape.2 ix iy vM = aM
    generalize assign i.shape.1 i.shape.2 ix iy vU = aU
    generalize assign i.shape.1 i.shape.2 ix iy vV = aV
    intro hh
    cases aN with
    | error e => exact ⟨e, rfl⟩
    | ok _ =>
      cases aT with
      | error e => exact ⟨e, rfl⟩
      | ok _ =>
        cases aM with
        | error e => exact ⟨e, rfl⟩
        | ok _ =>
          cases aU with
          | error e => exact ⟨e, rfl⟩
          | ok _ =>
            cases aV with
            | error e => exact ⟨e, rfl⟩
            | ok _ =>
              rcases hh with ⟨e, he⟩ | ⟨e, he⟩ <;> cases he
  have hn1 : 1 ≤ n := by omega
  refine ⟨fun h16 h36 hne => herr ?_, fun h16 h9 => herr ?_, fun h16 => ?_⟩
  · by_cases hA : r < 16 * n
    · left
      have h0 : vN = [] := List.eq_nil_of_length_eq_zero (by omega)
      rw [h0]
      by_cases h1 : iy.length = 1
      · exact assign_noValues _ _ _ _ h1 (by omega)
      · exact ⟨_, assign_index _ _ _ _ _ (by omega) (by omega) h1⟩
    · right
      have m : ∀ a b v : ℕ, a = min n (r / 8) → b = min n ((r - 8 * n) / 8) → v = min n ((r - 32 * n) / 4) → a = n ∧ b = n ∧ v ≠ n ∧ v ≠ 1 := by
        clear * - hA h36 hne hn1
        intro a b v ha hb hv
        refine ⟨by omega, by omega, by omega, by omega⟩
      obtain ⟨m1, m2, m3, m4⟩ := m _ _ _ l1 l2 l7
      exact assign_mismatch _ _ _ _ _ (by rw [m1, m2]) (by rw [m1]; exact m3) m4
  · left
    refine ⟨_, assign_outOfRange _ _ _ _ _ _ (hd hn1 (by omega)) (le_trans hs ?_) ?_⟩
    · have hc : header i n ++ (body F data i).take d = ascii (headerText i n) ++ ([0] ++ (body F data i).take d) := by simp [header]
      have hal : (ascii (headerText i n)).length = (headerText i n).length := by simp [ascii]
      generalize hp : (header i n).length - (1023 - (headerText i n).length % 1024 - d) = p
      have hp8 : p + 8 ≤ (headerText i n).length := by
        rw [← hp, hhl]
        have := length_headerText i n
        omega
      have e : ((header i n ++ (body F data i).take d).drop p).take 8 = ascii (((headerText i n).drop p).take 8) := by
        rw [hc, List.drop_append_of_le_length (by omega), List.take_append_of_le_length (by rw [List.length_drop]; omega)]
        simp [ascii, List.map_take, List.map_drop]
      rw [e]
      have hlen8 : (ascii (((headerText i n).drop p).take 8)).length = 8 := by
        simp only [ascii, List.length_map, List.length_take, List.length_drop]; omega
      have := ofBytes_pos (ascii (((headerText i n).drop p).take 8)) (by
        intro b hb hb0
        subst hb0
        exact zero_notMem_ascii _ (fun c hc => headerText_pos i n c (List.mem_of_mem_drop (List.mem_of_mem_take hc))) hb) (by
        intro hc
        rw [hc] at hlen8
        cases hlen8)
      rw [hlen8] at this
      refine le_trans ?_ this
      norm_num
    · by_cases hi : iy = []
      · right
        have : iy.length = 0 := by rw [hi]; rfl
        omega
      · exact .inl hi
  · have e1 : iy = [] := List.eq_nil_of_length_eq_zero (by omega)
    have e2 : vN = [] := List.eq_nil_of_length_eq_zero (by omega)
    have e3 : vT = [] := List.eq_nil_of_length_eq_zero (by omega)
    have e4 : vM = [] := List.eq_nil_of_length_eq_zero (by omega)
    have e5 : vU = [] := List.eq_nil_of_length_eq_zero (by omega)
    have e6 : vV = [] := List.eq_nil_of_length_eq_zero (by omega)
    subst e1 e2 e3 e4 e5 e6
    have ha := assign_none i.shape.1 i.shape.2 ix (by omega)
    rw [ha] at hread
    simp only [ok_bind] at hread
    refine ⟨_, _, hread, fun t l hl => ?_⟩
    have hz : ∀ N t : ℕ, (List.replicate N (0 : ℚ)).getD t 0 = 0 := by
      intro N t
      rw [List.getD_eq_getElem?_getD, List.getElem?_replicate]
      split_ifs <;> rfl
    simp only [List.mem_cons, List.not_mem_nil, or_false] at hl
    rcases hl with rfl | rfl | rfl | rfl | rfl <;> exact hz _ _

/-- The hypotheses are met: a map with four bins, whose header ends 101 bytes before the end of its block.  A cut after 10 bytes of data makes 91 bytes of the header data. -/
example : ∃ bytes, writeData ieee32 demo demoInfo = .ok bytes ∧ blockRest bytes = 101 ∧ ∃ e, readData ieee32 (bytes.take (bytes.idxOf 0 + 1 + 10)) = .error e := by
  obtain ⟨bytes, hw, h⟩ := C49_cut_anywhere_partial ieee32 demo demoInfo demo_writable (by decide)
  have hb : ((writeData ieee32 demo demoInfo).toOption.map fun b => decide (blockRest b = 101 ∧ b.idxOf 0 + 1 + 10 < b.length)) = some true := by decide +kernel
  rw [hw] at hb
  simp only [Except.toOption, Option.map_some, Option.some.injEq, decide_eq_true_eq] at hb
  exact ⟨bytes, hw, hb.1, (h 10 101 hb.2 (by rw [hb.1]; rfl)).2.1 (by decide) (by rw [hb.1]; decide)⟩

/-- A column of 257 bins, the lowest two with mass. -/
def shifted : Record :=
  [("N", 2 :: 1 :: List.replicate 255 0), ("T", 300 :: 301 :: List.replicate 255 0), ("M", 4 :: 2 :: List.replicate 255 0), ("U", 1 :: -1 :: List.replicate 255 0),
    ("V", 5 :: 6 :: List.replicate 255 0)]

/-- Its header ends 72 bytes before the end of a block. -/
def shiftedInfo : GInfo := ⟨(1, 257), (1, 1), (10 ^ 19, 10 ^ 16)⟩

/-- **C49 is false** for a file cut by a single byte whose block then ends with one byte missing: all values are read one byte too early and the file is accepted. -/
theorem C49_one_byte_counterexample : ∃ bytes out info, writeData ieee32 shifted shiftedInfo = .ok bytes ∧ readData ieee32 (bytes.take (bytes.length - 1)) = .ok (out, info) ∧
    val shifted "M" 1 = 2 ∧ val out "M" 1 = 0 ∧ val shifted "M" 256 = 0 ∧ val out "M" 256 ≠ 0 := by
  have : ((writeData ieee32 shifted shiftedInfo).toOption.map fun b => (readData ieee32 (b.take (b.length - 1))).toOption.map fun r =>
      decide (val shifted "M" 1 = 2 ∧ val r.1 "M" 1 = 0 ∧ val shifted "M" 256 = 0 ∧ val r.1 "M" 256 ≠ 0)) = some (some true) := by decide +kernel
  cases hw : writeData ieee32 shifted shiftedInfo with
  | error e => rw [hw] at this; cases this
  | ok b =>
    rw [hw] at this
    simp only [Except.toOption, Option.map_some, Option.some.injEq] at this
    cases hr : readData ieee32 (b.take (b.length - 1)) with
    | error e => rw [hr] at this; cases this
    | ok r =>
      rw [hr] at this
      simp only [Option.map_some, Option.some.injEq, decide_eq_true_eq] at this
      exact ⟨b, r.1, r.2, rfl, hr, this⟩

end Strata.Gmx
