import Verif.Proofs.Gmx
import Verif.Proofs.Average
import Verif.Spec.Gmx
/-! # Reading gmx_flow_1 files -/
namespace Strata.Gmx
open Strata Strata.Flow Strata.Average Strata.Bytes Strata.PyText Strata.Files

theorem idxOf_hdr (hdr rest : Bytes) (h : (0 : UInt8) ∉ hdr) : (hdr ++ 0 :: rest).idxOf 0 = hdr.length := by
  rw [List.idxOf_append_of_notMem h]
  simp

/-- `read_header_string` on a header ended by a NUL. -/
theorem readHeaderString_nul : ∀ (fuel : ℕ) (pre : Bytes) (s : Text) (rest : Bytes), (∀ c ∈ s, 0 < c.toNat ∧ c.toNat < 128) →
    s.length / 1024 < fuel →
    readHeaderString ⟨pre ++ (ascii s ++ 0 :: rest), pre.length⟩ fuel =
      (File.back ⟨pre ++ (ascii s ++ 0 :: rest), pre.length + min (1024 * (s.length / 1024 + 1)) (s.length + 1 + rest.length)⟩
        (1023 - s.length % 1024)).map fun f => (s, f) := by
  intro fuel
  induction fuel with
  | zero => intro pre s rest _ h; omega
  | succ fuel ih =>
    intro pre s rest hs hf
    have hal : (ascii s).length = s.length := by simp [ascii]
    have h0 := zero_notMem_ascii s hs
    unfold readHeaderString File.read
    simp only [List.drop_left]
    by_cases hlt : s.length < 1024
    · have e1 : (ascii s ++ 0 :: rest).take 1024 = ascii s ++ 0 :: rest.take (1023 - s.length) := by
        rw [List.take_append, List.take_of_length_le (by omega), hal,
          show 1024 - s.length = (1023 - s.length) + 1 by omega, List.take_succ_cons]
      rw [e1, if_pos (by simp), idxOf_hdr _ _ h0, List.take_left, decodeAscii_ascii s fun c hc => (hs c hc).2, hal,
        Nat.div_eq_of_lt hlt, Nat.mod_eq_of_lt hlt]
      have e2 : (ascii s ++ 0 :: rest.take (1023 - s.length)).length = min (1024 * (0 + 1)) (s.length + 1 + rest.length) := by
        rw [List.length_append, List.length_cons, List.length_take, hal]; omega
      rw [e2, show 1024 - s.length - 1 = 1023 - s.length by omega]
      show (File.back _ _ >>= fun f => Except.ok (s, f)) = _
      cases File.back _ _ <;> rfl
    · have hge : 1024 ≤ s.length := not_lt.mp hlt
      have e1 : (ascii s ++ 0 :: rest).take 1024 = ascii (s.take 1024) := by
        rw [List.take_append_of_le_length (by omega)]; simp [ascii, List.map_take]
      have hs1 : ∀ c ∈ s.take 1024, 0 < c.toNat ∧ c.toNat < 128 := fun c hc => hs c (List.mem_of_mem_take hc)
      have hs2 : ∀ c ∈ s.drop 1024, 0 < c.toNat ∧ c.toNat < 128 := fun c hc => hs c (List.mem_of_mem_drop hc)
      have hl1 : (ascii (s.take 1024)).length = 1024 := by simp [ascii]; omega
      rw [e1, if_neg (zero_notMem_ascii _ hs1), if_neg (by intro h; rw [h] at hl1; simp at hl1),
        decodeAscii_ascii _ fun c hc => (hs1 c hc).2]
      have hsplit : ascii s = ascii (s.take 1024) ++ ascii (s.drop 1024) := by
        unfold ascii; rw [← List.map_append, List.take_append_drop]
      have hdl : (s.drop 1024).length = s.length - 1024 := by simp
      have key := ih (pre ++ ascii (s.take 1024)) (s.drop 1024) rest hs2 (by rw [hdl]; omega)
      rw [List.length_append, hl1, hdl, List.append_assoc, ← List.append_assoc (ascii _) (ascii _), ← hsplit] at key
      rw [hl1]
      show (readHeaderString _ fuel >>= fun r => Except.ok (s.take 1024 ++ r.1, r.2)) = _
      rw [key]
      have a1 : pre.length + 1024 + min (1024 * ((s.length - 1024) / 1024 + 1)) (s.length - 1024 + 1 + rest.length) =
          pre.length + min (1024 * (s.length / 1024 + 1)) (s.length + 1 + rest.length) := by omega
      have a2 : (s.length - 1024) % 1024 = s.length % 1024 := by omega
      rw [a1, a2]
      cases File.back _ _ with
      | error e => rfl
      | ok f =>
        show Except.ok (s.take 1024 ++ s.drop 1024, f) = _
        rw [List.take_append_drop]; rfl

/-- Without a NUL the loop never ends. -/
theorem readHeaderString_noNul : ∀ (fuel : ℕ) (pre : Bytes) (s : Text), (∀ c ∈ s, 0 < c.toNat ∧ c.toNat < 128) →
    readHeaderString ⟨pre ++ ascii s, pre.length⟩ fuel = .error .infiniteLoop := by
  intro fuel
  induction fuel with
  | zero => intro pre s _; rfl
  | succ fuel ih =>
    intro pre s hs
    unfold readHeaderString File.read
    simp only [List.drop_left]
    have e1 : (ascii s).take 1024 = ascii (s.take 1024) := by simp [ascii, List.map_take]
    have hs1 : ∀ c ∈ s.take 1024, 0 < c.toNat ∧ c.toNat < 128 := fun c hc => hs c (List.mem_of_mem_take hc)
    have hs2 : ∀ c ∈ s.drop 1024, 0 < c.toNat ∧ c.toNat < 128 := fun c hc => hs c (List.mem_of_mem_drop hc)
    rw [e1, if_neg (zero_notMem_ascii _ hs1)]
    split
    · rfl
    · have hsplit : ascii s = ascii (s.take 1024) ++ ascii (s.drop 1024) := by
        unfold ascii; rw [← List.map_append, List.take_append_drop]
      have key := ih (pre ++ ascii (s.take 1024)) (s.drop 1024) hs2
      rw [List.length_append, List.append_assoc, ← hsplit] at key
      rw [decodeAscii_ascii _ fun c hc => (hs1 c hc).2]
      show (readHeaderString _ fuel >>= fun r => Except.ok (s.take 1024 ++ r.1, r.2)) = _
      rw [key]; rfl

theorem headerText_pos (i : GInfo) (num : ℕ) : ∀ c ∈ headerText i num, 0 < c.toNat ∧ c.toNat < 128 := by
  intro c hc
  have := headerText_chars i num c hc
  omega

/-- The header as parsed. -/
def headOf (i : GInfo) (num : ℕ) : Head :=
  ⟨some [(i.shape.1 : ℤ), (i.shape.2 : ℤ)], some [round6 i.spacing.1, round6 i.spacing.2],
      some [round6 i.origin.1, round6 i.origin.2], some ["IX".toList, "IY".toList, "N".toList, "T".toList, "M".toList, "U".toList, "V".toList],
      some (num : ℤ)⟩

/-- Reading the header of a file with at least one full 1024-byte block behind the beginning of the header's last one. -/
theorem readHeader_header (i : GInfo) (num : ℕ) (rest : Bytes)
    (hb : 1024 * ((headerText i num).length / 1024 + 1) ≤ (header i num ++ rest).length) :
    readHeader (header i num ++ rest) = .ok (headOf i num, ⟨header i num ++ rest, (header i num).length⟩) := by
  have hlen : (header i num ++ rest).length = (headerText i num).length + 1 + rest.length := by
    simp [header, ascii]; omega
  rw [hlen] at hb
  have hcont : header i num ++ rest = [] ++ (ascii (headerText i num) ++ 0 :: rest) := by simp [header]
  have hrd := readHeaderString_nul ((header i num ++ rest).length / 1024 + 1) [] (headerText i num) rest (headerText_pos i num)
    (by rw [hlen]; have := Nat.div_le_div_right (c := 1024) (show (headerText i num).length ≤ (headerText i num).length + 1 + rest.length by omega); omega)
  unfold readHeader
  rw [← hcont] at hrd
  simp only [List.length_nil, Nat.zero_add] at hrd
  rw [hrd, Nat.min_eq_left hb]
  unfold File.back
  simp only
  rw [if_pos (by omega)]
  have hp : 1024 * ((headerText i num).length / 1024 + 1) - (1023 - (headerText i num).length % 1024) = (header i num).length := by
    simp only [header, ascii, List.length_append, List.length_map, List.length_singleton]; omega
  rw [hp]
  show (((splitlines (headerText i num)).foldlM headLine {}) >>= _) = _
  rw [headLines_header]
  rfl

/-! ## Data -/

theorem masked_eq {α : Type} (d : α) (N : ℕ) (f : ℕ → Bool) (a : List α) (h : a.length = N) :
    masked ((List.range N).map f) a = .ok (((List.range N).filter f).map fun t => a.getD t d) := by
  unfold masked
  rw [if_neg (by simp [h])]
  congr 1
  have ha : a = (List.range N).map fun t => a.getD t d := by
    apply List.ext_getElem
    · simp [h]
    · intro k h1 h2
      simp [List.getD_eq_getElem?_getD, h1]
  conv_lhs => rw [ha]
  rw [List.zip_map', List.filterMap_map]
  generalize List.range N = l
  induction l with
  | nil => rfl
  | cons x xs ih =>
    rw [List.filterMap_cons, List.filter_cons]
    simp only [Function.comp_apply]
    cases hf : f x
    · simpa using ih
    · simpa using ih

theorem ok_bind {α β : Type} (a : α) (f : α → Except Err β) : (Except.ok a >>= f) = f a := rfl

/-- The data behind the header: the rows' columns, their rows, and the five fields. -/
def body (F : F32) (data : Record) (i : GInfo) : Bytes :=
  let rows := massRows data i
  rows.flatMap (fun t => u64 (t / i.shape.2)) ++ (rows.flatMap (fun t => u64 (t % i.shape.2)) ++
    (rows.flatMap (fun t => F.enc (val data "N" t)) ++ (rows.flatMap (fun t => F.enc (val data "T" t)) ++
      (rows.flatMap (fun t => F.enc (val data "M" t)) ++ (rows.flatMap (fun t => F.enc (val data "U" t)) ++
        (rows.flatMap (fun t => F.enc (val data "V" t)) ++ []))))))

theorem length_body (F : F32) (data : Record) (i : GInfo) : (body F data i).length = 36 * (massRows data i).length := by
  unfold body
  simp only [List.length_append, List.length_nil]
  rw [length_flatMap_const _ 8 _ (fun _ _ => length_u64 _), length_flatMap_const _ 8 _ (fun _ _ => length_u64 _),
    length_flatMap_const _ 4 _ (fun _ _ => F.len _), length_flatMap_const _ 4 _ (fun _ _ => F.len _),
    length_flatMap_const _ 4 _ (fun _ _ => F.len _), length_flatMap_const _ 4 _ (fun _ _ => F.len _),
    length_flatMap_const _ 4 _ (fun _ _ => F.len _)]
  omega

/-- What the writer writes. -/
theorem writeData_eq (F : F32) (data : Record) (i : GInfo) (h : Writable data i) :
    writeData F data i = .ok (header i (massRows data i).length ++ body F data i) := by
  obtain ⟨cN, hN, lN⟩ := h "N" (by simp)
  obtain ⟨cT, hT, lT⟩ := h "T" (by simp)
  obtain ⟨cM, hM, lM⟩ := h "M" (by simp)
  obtain ⟨cU, hU, lU⟩ := h "U" (by simp)
  obtain ⟨cV, hV, lV⟩ := h "V" (by simp)
  have hv : ∀ (l : Label) (c : List ℚ), col? data l = some c → (fun t => c.getD t 0) = val data l := by
    intro l c hc; funext t; rw [val_of_col hc]
  have hinds : (cM.map fun m => decide (m ≠ 0)) = (List.range (i.shape.1 * i.shape.2)).map fun t => decide (val data "M" t ≠ 0) := by
    have : cM = (List.range (i.shape.1 * i.shape.2)).map fun t => val data "M" t := by
      rw [← hv _ _ hM]
      apply List.ext_getElem
      · simp [lM]
      · intro k h1 h2
        simp [List.getD_eq_getElem?_getD, h1]
    conv_lhs => rw [this]
    rw [List.map_map]; rfl
  have hmask : ∀ (l : Label) (c : List ℚ), col? data l = some c → c.length = i.shape.1 * i.shape.2 →
      masked ((List.range (i.shape.1 * i.shape.2)).map fun t => decide (val data "M" t ≠ 0)) c = .ok ((massRows data i).map (val data l)) := by
    intro l c hc hl
    rw [masked_eq 0 _ _ _ hl, hv l c hc]; rfl
  have hidx : ∀ g : ℕ → ℕ, masked ((List.range (i.shape.1 * i.shape.2)).map fun t => decide (val data "M" t ≠ 0))
      ((List.range (i.shape.1 * i.shape.2)).map g) = .ok ((massRows data i).map g) := by
    intro g
    rw [masked_eq 0 _ _ _ (by simp)]
    congr 1
    apply List.map_congr_left
    intro t ht
    have : t < i.shape.1 * i.shape.2 := List.mem_range.mp (List.mem_filter.mp ht).1
    simp [List.getD_eq_getElem?_getD, this]
  have hnum : (((List.range (i.shape.1 * i.shape.2)).map fun t => decide (val data "M" t ≠ 0)).filter id).length = (massRows data i).length := by
    rw [List.filter_map, List.length_map]; rfl
  have hf : fieldsOrdered.mapM (fun l => do
      let c ← (col? data l).elim (Except.error Err.keyError) .ok
      masked ((List.range (i.shape.1 * i.shape.2)).map fun t => decide (val data "M" t ≠ 0)) c) =
      .ok (fieldsOrdered.map fun l => (massRows data i).map (val data l)) := by
    apply mapM_ok'
    intro l hl
    obtain ⟨c, hc, hlen⟩ := h l hl
    rw [hc]
    exact hmask l c hc hlen
  unfold writeData
  rw [hM]
  show (do
    let ixs ← masked (cM.map fun m => decide (m ≠ 0)) _
    _) = _
  rw [hinds, hidx, hnum]
  show (do
    let iys ← masked _ _
    _) = _
  rw [hidx]
  simp only [ok_bind]
  rw [hf, ok_bind]
  congr 1
  unfold body fieldsOrdered
  simp only [List.map_cons, List.map_nil, List.flatMap_cons, List.flatMap_nil, List.flatMap_map, List.append_assoc]

/-- The arrays read from a file cut after `d` bytes of data. -/
theorem readValues_cut (F : F32) (data : Record) (i : GInfo) (hs : i.shape.1 ≤ 2 ^ 64 ∧ i.shape.2 ≤ 2 ^ 64) (pre : Bytes) (d : ℕ) :
    readValues F ⟨pre ++ (body F data i).take d, pre.length⟩ ((massRows data i).length : ℕ)
        ["IX".toList, "IY".toList, "N".toList, "T".toList, "M".toList, "U".toList, "V".toList] =
      let rows := massRows data i
      let n := rows.length
      .ok [("IX".toList, .ints ((rows.take (d / 8)).map (· / i.shape.2))), ("IY".toList, .ints ((rows.take ((d - n * 8) / 8)).map (· % i.shape.2))),
        ("N".toList, .floats ((rows.take ((d - n * 8 - n * 8) / 4)).map fun t => F.rnd (val data "N" t))),
        ("T".toList, .floats ((rows.take ((d - n * 8 - n * 8 - n * 4) / 4)).map fun t => F.rnd (val data "T" t))),
        ("M".toList, .floats ((rows.take ((d - n * 8 - n * 8 - n * 4 - n * 4) / 4)).map fun t => F.rnd (val data "M" t))),
        ("U".toList, .floats ((rows.take ((d - n * 8 - n * 8 - n * 4 - n * 4 - n * 4) / 4)).map fun t => F.rnd (val data "U" t))),
        ("V".toList, .floats ((rows.take ((d - n * 8 - n * 8 - n * 4 - n * 4 - n * 4 - n * 4) / 4)).map fun t => F.rnd (val data "V" t)))] := by
  simp only
  have hrow : ∀ t ∈ massRows data i, t / i.shape.2 < 2 ^ 64 ∧ t % i.shape.2 < 2 ^ 64 := by
    intro t ht
    have ht := List.mem_range.mp (List.mem_filter.mp ht).1
    have h2 : 0 < i.shape.2 := by
      rcases Nat.eq_zero_or_pos i.shape.2 with h | h
      · rw [h, Nat.mul_zero] at ht; omega
      · exact h
    exact ⟨lt_of_lt_of_le ((Nat.div_lt_iff_lt_mul h2).mpr ht) hs.1, lt_of_lt_of_le (Nat.mod_lt _ h2) hs.2⟩
  have hint : ∀ (g : ℕ → ℕ) (k : ℕ), (∀ t ∈ massRows data i, g t < 2 ^ 64) →
      (((massRows data i).take k).map fun t => u64 (g t)).map ofBytes = ((massRows data i).take k).map g := by
    intro g k hg
    rw [List.map_map]
    apply List.map_congr_left
    intro t ht
    exact ofBytes_u64 (hg t (List.mem_of_mem_take ht))
  have hflt : ∀ (l : Label) (k : ℕ), (((massRows data i).take k).map fun t => F.enc (val data l t)).map F.dec =
      ((massRows data i).take k).map fun t => F.rnd (val data l t) := by
    intro l k
    rw [List.map_map]; rfl
  have hneg : ¬ (((massRows data i).length : ℕ) : ℤ) < 0 := by omega
  have hIX : "IX".toList = "IX".toList ∨ "IX".toList = "IY".toList := Or.inl rfl
  have hIY : "IY".toList = "IX".toList ∨ "IY".toList = "IY".toList := Or.inr rfl
  unfold body
  simp only
  rw [readValues, if_neg hneg, if_pos hIX, Int.toNat_natCast,
    fromFile_items (fun t => u64 (t / i.shape.2)) 8 (by norm_num) _ (fun _ _ => length_u64 _)]
  simp only
  rw [hint _ _ fun t ht => (hrow t ht).1]
  generalize pre ++ List.take d (List.flatMap (fun t => u64 (t / i.shape.2)) (massRows data i)) = pre
  generalize hd : d - (massRows data i).length * 8 = d
  rw [readValues, if_neg hneg, if_pos hIY, Int.toNat_natCast,
    fromFile_items (fun t => u64 (t % i.shape.2)) 8 (by norm_num) _ (fun _ _ => length_u64 _)]
  simp only
  rw [hint _ _ fun t ht => (hrow t ht).2]
  have step : ∀ (l : Label) (ls : List Text) (pre rest : Bytes) (d : ℕ), ¬ (l.toList = "IX".toList ∨ l.toList = "IY".toList) →
      l.toList ∈ fieldsOrdered.map String.toList →
      readValues F ⟨pre ++ ((massRows data i).flatMap (fun t => F.enc (val data l t)) ++ rest).take d, pre.length⟩ ((massRows data i).length : ℕ) (l.toList :: ls) =
        (readValues F ⟨(pre ++ ((massRows data i).flatMap fun t => F.enc (val data l t)).take d) ++ rest.take (d - (massRows data i).length * 4),
            (pre ++ ((massRows data i).flatMap fun t => F.enc (val data l t)).take d).length⟩ ((massRows data i).length : ℕ) ls).map
          fun r => (l.toList, Arr.floats (((massRows data i).take (d / 4)).map fun t => F.rnd (val data l t))) :: r := by
    intro l ls pre rest d h1 h2
    rw [readValues, if_neg hneg, if_neg h1, if_pos h2, Int.toNat_natCast,
      fromFile_items (fun t => F.enc (val data l t)) 4 (by norm_num) _ (fun _ _ => F.len _)]
    simp only
    rw [hflt]
    cases readValues F _ _ ls <;> rfl
  rw [step "N" _ _ _ _ (by decide) (by decide), step "T" _ _ _ _ (by decide) (by decide), step "M" _ _ _ _ (by decide) (by decide),
    step "U" _ _ _ _ (by decide) (by decide), step "V" _ _ _ _ (by decide) (by decide)]
  rfl

end Strata.Gmx
