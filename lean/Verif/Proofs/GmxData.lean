import Verif.Proofs.GmxRead
/-! # Reading back gmx_flow_1 maps, complete or cut -/
namespace Strata.Gmx
open Strata Strata.Flow Strata.Average Strata.Bytes Strata.PyText Strata.Files

theorem getD_foldl_set (rows : List ℕ) (g : ℕ → ℕ) (v : ℕ → ℚ) (hg : ∀ t ∈ rows, g t = t) : ∀ (col : List ℚ) (k : ℕ), k < col.length →
    (rows.foldl (fun col t => col.set (g t) (v t)) col).getD k 0 = if k ∈ rows then v k else col.getD k 0 := by
  induction rows with
  | nil => intro col k _; simp
  | cons t ts ih =>
    intro col k hk
    rw [List.foldl_cons, ih (fun s hs => hg s (by simp [hs])) _ _ (by simpa using hk), hg t (by simp)]
    by_cases h : k ∈ ts
    · simp [h]
    · by_cases hkt : k = t
      · subst hkt; simp [h, List.getD_eq_getElem?_getD, hk]
      · simp [h, hkt, List.getD_eq_getElem?_getD, List.getElem?_set_ne (Ne.symm hkt)]

theorem length_foldl_set (rows : List ℕ) (g : ℕ → ℕ) (v : ℕ → ℚ) : ∀ (col : List ℚ),
    (rows.foldl (fun col t => col.set (g t) (v t)) col).length = col.length := by
  induction rows with
  | nil => intro col; rfl
  | cons t ts ih => intro col; rw [List.foldl_cons, ih]; simp

/-- Storing one value for each given row. -/
theorem assign_rows (nx ny : ℕ) (rows : List ℕ) (v : ℕ → ℚ) (h : ∀ t ∈ rows, t < nx * ny) :
    assign nx ny (rows.map (· / ny)) (rows.map (· % ny)) (rows.map v) =
      .ok ((List.range (nx * ny)).map fun t => if t ∈ rows then v t else 0) := by
  have hz : (rows.map (· / ny)).zip (rows.map (· % ny)) = rows.map fun t => (t / ny, t % ny) := by rw [List.zip_map']
  have hz2 : (rows.map fun t => (t / ny, t % ny)).zip (rows.map v) = rows.map fun t => ((t / ny, t % ny), v t) := by rw [List.zip_map']
  unfold assign bcastLen bcast
  simp only [List.length_map, if_true, hz, hz2, List.foldl_map]
  rw [if_neg]
  · congr 1
    apply List.ext_getElem
    · rw [length_foldl_set rows (fun t => t / ny * ny + t % ny)]; simp
    · intro k h1 h2
      have hk : k < nx * ny := by simpa using h2
      have := getD_foldl_set rows (fun t => t / ny * ny + t % ny) v (fun t _ => Nat.div_add_mod' t ny) (List.replicate (nx * ny) 0) k (by simpa using hk)
      rw [List.getD_eq_getElem?_getD, List.getElem?_eq_getElem h1, Option.getD_some] at this
      rw [this]
      simp [List.getD_eq_getElem?_getD, hk]
  · rw [not_not, List.all_eq_true]
    intro p hp
    obtain ⟨t, ht, rfl⟩ := List.mem_map.mp hp
    have ht := h t ht
    have hny : 0 < ny := by
      rcases Nat.eq_zero_or_pos ny with h | h
      · rw [h, Nat.mul_zero] at ht; omega
      · exact h
    exact decide_eq_true ⟨(Nat.div_lt_iff_lt_mul hny).mpr ht, Nat.mod_lt _ hny⟩

/-- Storing one value in all given rows. -/
theorem assign_const (nx ny : ℕ) (rows : List ℕ) (x : ℚ) (h : ∀ t ∈ rows, t < nx * ny) :
    assign nx ny (rows.map (· / ny)) (rows.map (· % ny)) [x] =
      .ok ((List.range (nx * ny)).map fun t => if t ∈ rows then x else 0) := by
  rw [← assign_rows nx ny rows (fun _ => x) h]
  unfold assign bcastLen bcast
  simp only [List.length_map, if_true, List.length_singleton, List.map_const']
  by_cases h1 : 1 = rows.length
  · rw [if_pos h1, ← h1]; rfl
  · rw [if_neg h1]; simp

/-- Values that do not fit the indices. -/
theorem assign_mismatch (nx ny : ℕ) (ix iy : List ℕ) (vs : List ℚ) (h : ix.length = iy.length) (h1 : vs.length ≠ ix.length) (h2 : vs.length ≠ 1) :
    ∃ e, assign nx ny ix iy vs = .error e := by
  have hbc : bcast iy.length vs = none := by
    unfold bcast
    rw [if_neg (by rw [← h]; exact h1)]
    match vs, h2 with
    | [], _ => rfl
    | [_], h2 => exact absurd rfl h2
    | _ :: _ :: _, _ => rfl
  unfold assign bcastLen
  rw [if_pos h, h]
  simp only [hbc]
  simp only [bcast, if_true, h]
  split
  · exact ⟨_, rfl⟩
  · exact ⟨_, rfl⟩

/-- Index arrays that do not fit each other. -/
theorem assign_index (nx ny : ℕ) (ix iy : List ℕ) (vs : List ℚ) (h : ix.length ≠ iy.length) (h1 : ix.length ≠ 1) (h2 : iy.length ≠ 1) :
    assign nx ny ix iy vs = .error .indexError := by
  unfold assign bcastLen
  simp only [h, h1, h2, if_false]

/-- One index broadcast to many, without values for them. -/
theorem assign_noValues (nx ny : ℕ) (ix iy : List ℕ) (h : iy.length = 1) (h1 : ix.length ≠ 0) :
    ∃ e, assign nx ny ix iy [] = .error e := by
  unfold assign bcastLen
  by_cases e : ix.length = iy.length
  · rw [if_pos e]
    simp only [bcast, if_true, ← e]
    split
    · exact ⟨_, rfl⟩
    · rw [if_neg (by simpa using h1.symm)]; exact ⟨_, rfl⟩
  · rw [if_neg e]
    have e1 : ix.length ≠ 1 := by rw [h] at e; exact e
    rw [if_neg e1, if_pos h]
    simp only
    match iy, h with
    | [y], _ =>
      simp only [bcast, if_true, List.length_singleton, if_neg (Ne.symm e1)]
      split
      · exact ⟨_, rfl⟩
      · rw [if_neg (by simpa using h1.symm)]; exact ⟨_, rfl⟩

theorem mapM_fields (nx ny : ℕ) (ix iy : List ℕ) (vN vT vM vU vV : List ℚ) :
    fieldsOrdered.mapM (fieldCol nx ny [("IX".toList, .ints ix), ("IY".toList, .ints iy), ("N".toList, .floats vN), ("T".toList, .floats vT),
            ("M".toList, .floats vM), ("U".toList, .floats vU), ("V".toList, .floats vV)]) =
      (do
        let cN ← assign nx ny ix iy vN
        let cT ← assign nx ny ix iy vT
        let cM ← assign nx ny ix iy vM
        let cU ← assign nx ny ix iy vU
        let cV ← assign nx ny ix iy vV
        .ok [("N", cN), ("T", cT), ("M", cM), ("U", cU), ("V", cV)]) := by
  generalize hD : [("IX".toList, Arr.ints ix), ("IY".toList, .ints iy), ("N".toList, .floats vN), ("T".toList, .floats vT),
            ("M".toList, .floats vM), ("U".toList, .floats vU), ("V".toList, .floats vV)] = D
  have h1 : arr? D "IX".toList = some (.ints ix) := by rw [← hD]; rfl
  have h2 : arr? D "IY".toList = some (.ints iy) := by rw [← hD]; rfl
  have h3 : arr? D "N".toList = some (.floats vN) := by rw [← hD]; rfl
  have h4 : arr? D "T".toList = some (.floats vT) := by rw [← hD]; rfl
  have h5 : arr? D "M".toList = some (.floats vM) := by rw [← hD]; rfl
  have h6 : arr? D "U".toList = some (.floats vU) := by rw [← hD]; rfl
  have h7 : arr? D "V".toList = some (.floats vV) := by rw [← hD]; rfl
  unfold fieldsOrdered fieldCol
  simp only [List.mapM_cons, List.mapM_nil, h1, h2, h3, h4, h5, h6, h7, bind_assoc]
  rfl

/-- `readData` of a written file cut after `d` bytes of data, when the header's last block is complete. -/
theorem readData_cut (F : F32) (data : Record) (i : GInfo) (hs : i.shape.1 ≤ 2 ^ 64 ∧ i.shape.2 ≤ 2 ^ 64) (d : ℕ)
    (hb : 1024 * ((headerText i (massRows data i).length).length / 1024 + 1) ≤
      (header i (massRows data i).length ++ (body F data i).take d).length) :
    readData F (header i (massRows data i).length ++ (body F data i).take d) =
      let rows := massRows data i
      let n := rows.length
      let ix := (rows.take (d / 8)).map (· / i.shape.2)
      let iy := (rows.take ((d - n * 8) / 8)).map (· % i.shape.2)
      let put := fun l k => assign i.shape.1 i.shape.2 ix iy ((rows.take k).map fun t => F.rnd (val data l t))
      (do
        let cN ← put "N" ((d - n * 8 - n * 8) / 4)
        let cT ← put "T" ((d - n * 8 - n * 8 - n * 4) / 4)
        let cM ← put "M" ((d - n * 8 - n * 8 - n * 4 - n * 4) / 4)
        let cU ← put "U" ((d - n * 8 - n * 8 - n * 4 - n * 4 - n * 4) / 4)
        let cV ← put "V" ((d - n * 8 - n * 8 - n * 4 - n * 4 - n * 4 - n * 4) / 4)
        .ok ([("X", (List.range (i.shape.1 * i.shape.2)).map fun t => round6 i.origin.1 + round6 i.spacing.1 * (((t / i.shape.2 : ℕ) : ℚ) + 1 / 2)),
            ("Y", (List.range (i.shape.1 * i.shape.2)).map fun t => round6 i.origin.2 + round6 i.spacing.2 * (((t % i.shape.2 : ℕ) : ℚ) + 1 / 2)),
            ("N", cN), ("T", cT), ("M", cM), ("U", cU), ("V", cV)],
          { shape := some ((i.shape.1 : ℤ), (i.shape.2 : ℤ)), origin := some (round6 i.origin.1, round6 i.origin.2),
            spacing := some (round6 i.spacing.1, round6 i.spacing.2), numBins := some ((i.shape.1 : ℤ) * (i.shape.2 : ℤ)) })) := by
  unfold readData
  rw [readHeader_header _ _ _ hb]
  simp only [ok_bind, headOf, Option.getD_some]
  rw [readValues_cut F data i hs]
  simp only [ok_bind]
  rw [if_neg (by omega), Int.toNat_natCast, Int.toNat_natCast]
  rw [mapM_fields]
  simp only [bind_assoc, ok_bind]
  rfl

theorem mem_massRows (data : Record) (i : GInfo) (t : ℕ) :
    t ∈ massRows data i ↔ t < i.shape.1 * i.shape.2 ∧ val data "M" t ≠ 0 := by
  unfold massRows
  rw [List.mem_filter, List.mem_range, decide_eq_true_iff]

/-- The map read back. -/
def outOf (F : F32) (data : Record) (i : GInfo) : Record :=
  let nx := i.shape.1
  let ny := i.shape.2
  ("X", (List.range (nx * ny)).map fun t => round6 i.origin.1 + round6 i.spacing.1 * (((t / ny : ℕ) : ℚ) + 1 / 2)) ::
  ("Y", (List.range (nx * ny)).map fun t => round6 i.origin.2 + round6 i.spacing.2 * (((t % ny : ℕ) : ℚ) + 1 / 2)) ::
  ["N", "T", "M", "U", "V"].map fun l => (l, (List.range (nx * ny)).map fun t => stored F data l t)

/-- The information read back. -/
def infoOf (i : GInfo) : Info :=
  { shape := some ((i.shape.1 : ℤ), (i.shape.2 : ℤ)), origin := some (round6 i.origin.1, round6 i.origin.2),
    spacing := some (round6 i.spacing.1, round6 i.spacing.2), numBins := some ((i.shape.1 : ℤ) * (i.shape.2 : ℤ)) }

theorem map_stored (F : F32) (data : Record) (i : GInfo) (l : Label) :
    ((List.range (i.shape.1 * i.shape.2)).map fun t => if t ∈ massRows data i then F.rnd (val data l t) else 0) =
      (List.range (i.shape.1 * i.shape.2)).map fun t => stored F data l t := by
  apply List.map_congr_left
  intro t ht
  unfold stored
  have ht := List.mem_range.mp ht
  by_cases h : val data "M" t = 0
  · rw [if_neg (by rw [mem_massRows]; tauto), if_neg (by simpa using h)]
  · rw [if_pos ((mem_massRows ..).mpr ⟨ht, h⟩), if_pos h]

theorem idxOf_header (i : GInfo) (num : ℕ) (rest : Bytes) : (header i num ++ rest).idxOf 0 = (headerText i num).length := by
  unfold header
  rw [List.append_assoc, List.singleton_append, idxOf_hdr _ _ (zero_notMem_ascii _ (headerText_pos i num))]
  simp [ascii]

theorem readData_full (F : F32) (data : Record) (i : GInfo) (hs : i.shape.1 ≤ 2 ^ 64 ∧ i.shape.2 ≤ 2 ^ 64)
    (hb : 1024 * ((headerText i (massRows data i).length).length / 1024 + 1) ≤
      (header i (massRows data i).length ++ body F data i).length) :
    readData F (header i (massRows data i).length ++ body F data i) = .ok (outOf F data i, infoOf i) := by
  have hl := length_body F data i
  have ht : (body F data i).take (36 * (massRows data i).length) = body F data i := List.take_of_length_le hl.le
  have key := readData_cut F data i hs (36 * (massRows data i).length) (by rw [ht]; exact hb)
  rw [ht] at key
  rw [key]
  simp only
  have hk : ∀ k, (massRows data i).length ≤ k → (massRows data i).take k = massRows data i := fun k h => List.take_of_length_le h
  rw [hk _ (by omega), hk _ (by omega), hk _ (by omega), hk _ (by omega), hk _ (by omega), hk _ (by omega), hk _ (by omega)]
  have hr : ∀ t ∈ massRows data i, t < i.shape.1 * i.shape.2 := fun t ht => ((mem_massRows ..).mp ht).1
  simp only [assign_rows _ _ _ _ hr, ok_bind, map_stored]
  rfl

/-- An empty map: the position after the header is irrelevant. -/
theorem readValues_zero (F : F32) : ∀ (ls : List Text) (f : File), (∀ l ∈ ls, l ∈ ["IX".toList, "IY".toList] ∨ l ∈ fieldsOrdered.map String.toList) →
    readValues F f 0 ls = .ok (ls.map fun l => (l, if l = "IX".toList ∨ l = "IY".toList then Arr.ints [] else Arr.floats [])) := by
  intro ls
  induction ls with
  | nil => intro f _; rfl
  | cons l ls ih =>
    intro f hl
    have hf : ∀ w, fromFile w (0 : ℤ).toNat f = ([], { f with pos := f.pos + 0 * w }) := by
      intro w
      unfold fromFile
      rw [if_pos (by simp)]; rfl
    rw [readValues, if_neg (by omega), List.map_cons]
    by_cases h : l = "IX".toList ∨ l = "IY".toList
    · rw [if_pos h, if_pos h, hf]
      simp only
      rw [ih _ fun l' hl' => hl l' (by simp [hl'])]; rfl
    · rw [if_neg h, if_neg h, if_pos, hf]
      · simp only
        rw [ih _ fun l' hl' => hl l' (by simp [hl'])]; rfl
      · rcases hl l (by simp) with h' | h'
        · exact absurd (by simpa using h') h
        · exact h'

theorem length_headerText (i : GInfo) (num : ℕ) : 512 ≤ (headerText i num).length := by
  unfold headerText headerLines
  rw [List.flatMap_append, List.length_append]
  have : 512 ≤ (comments.flatMap fun l => l ++ ['\n']).length := by decide +kernel
  exact le_trans this (Nat.le_add_left _ _)

theorem readData_empty (F : F32) (data : Record) (i : GInfo) (h0 : massRows data i = []) :
    readData F (header i (massRows data i).length ++ body F data i) = .ok (outOf F data i, infoOf i) := by
  have hb : body F data i = [] := by
    apply List.eq_nil_of_length_eq_zero; rw [length_body, h0]; rfl
  rw [hb, h0]
  have hcont : header i 0 ++ [] = [] ++ (ascii (headerText i 0) ++ 0 :: []) := by simp [header]
  have hl := length_headerText i 0
  have hrd := readHeaderString_nul ((header i 0 ++ []).length / 1024 + 1) [] (headerText i 0) [] (headerText_pos i 0)
    (by simp only [header, ascii, List.length_append, List.length_map, List.length_nil, List.length_singleton]; omega)
  rw [← hcont] at hrd
  have hback : ∃ f, File.back ⟨header i 0 ++ [], ([] : Bytes).length + min (1024 * ((headerText i 0).length / 1024 + 1)) ((headerText i 0).length + 1 + ([] : Bytes).length)⟩
      (1023 - (headerText i 0).length % 1024) = .ok f := by
    unfold File.back
    simp only [List.length_nil]
    rw [if_pos (by omega)]
    exact ⟨_, rfl⟩
  obtain ⟨f, hf⟩ := hback
  rw [hf] at hrd
  simp only [List.length_nil] at hrd ⊢
  unfold readData readHeader
  rw [hrd]
  simp only [Except.map, ok_bind]
  rw [headLines_header]
  simp only [ok_bind, Option.getD_some, Nat.cast_zero]
  rw [readValues_zero F _ _ (by decide)]
  simp only [ok_bind]
  rw [if_neg (by omega), Int.toNat_natCast, Int.toNat_natCast]
  have hm : (["IX".toList, "IY".toList, "N".toList, "T".toList, "M".toList, "U".toList, "V".toList].map fun l =>
      (l, if l = "IX".toList ∨ l = "IY".toList then Arr.ints [] else Arr.floats [])) =
      [("IX".toList, Arr.ints []), ("IY".toList, .ints []), ("N".toList, .floats []), ("T".toList, .floats []),
            ("M".toList, .floats []), ("U".toList, .floats []), ("V".toList, .floats [])] := by decide
  rw [hm, mapM_fields]
  have ha : assign i.shape.1 i.shape.2 [] [] [] = .ok ((List.range (i.shape.1 * i.shape.2)).map fun _ => 0) := by
    have := assign_rows i.shape.1 i.shape.2 [] (fun _ => 0) (by simp)
    simpa using this
  have hz : ∀ l, ((List.range (i.shape.1 * i.shape.2)).map fun t => stored F data l t) = (List.range (i.shape.1 * i.shape.2)).map fun _ => 0 := by
    intro l
    rw [← map_stored, h0]
    simp
  simp only [ha, ok_bind]
  unfold outOf
  simp only [hz]
  rfl

end Strata.Gmx
