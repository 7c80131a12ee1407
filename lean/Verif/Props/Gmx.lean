import Verif.Proofs.GmxData
/-!
# The gmx_flow_1 file format: C47, C48, C49
-/
namespace Strata.Gmx
open Strata Strata.Flow Strata.Average Strata.Bytes Strata.PyText Strata.Files

/-! ## Demonstration data -/

/-- A map of 2 × 2 bins, all with mass. -/
def demo : Record := [("X", [0, 0, 1, 1]), ("Y", [0, 1, 0, 1]), ("N", [2, 1, 3, 1]), ("T", [300, 301, 302, 303]), ("M", [4, 2, 6, 2]),
  ("U", [1, -1, 1 / 2, 0]), ("V", [5, 6, 7, 8])]

/-- A map of 1 × 2 bins, one without mass. -/
def small : Record := [("N", [2, 1]), ("T", [300, 301]), ("M", [0, 2]), ("U", [1, -1]), ("V", [5, 6])]

def demoInfo : GInfo := ⟨(2, 2), (1, 1), (-1 / 2, -1 / 2)⟩
def smallInfo : GInfo := ⟨(1, 2), (1, 1 / 3), (0, 2)⟩

theorem demo_writable : Writable demo demoInfo := by
  intro l hl
  simp only [List.mem_cons, List.not_mem_nil, or_false] at hl
  rcases hl with rfl | rfl | rfl | rfl | rfl <;> exact ⟨_, rfl, rfl⟩

theorem small_writable : Writable small smallInfo := by
  intro l hl
  simp only [List.mem_cons, List.not_mem_nil, or_false] at hl
  rcases hl with rfl | rfl | rfl | rfl | rfl <;> exact ⟨_, rfl, rfl⟩

/-! ## C47 -/

/-- **C47 (partial).** A map written and read back has the names, sizes, information and values expected: bins with mass
keep their values in single precision, bins without become 0, coordinates are the bin centres of the grid.

Missing: maps with so few bins with mass (1 to 28) that the file ends within the 1024-byte block of the header's NUL;
for those the claim is false, see `C47_small_maps_are_unreadable`. -/
theorem C47_round_trip_partial (F : F32) (data : Record) (i : GInfo) (h : Writable data i)
    (hs : i.shape.1 ≤ 2 ^ 64 ∧ i.shape.2 ≤ 2 ^ 64)
    (hn : massRows data i = [] ∨ 29 ≤ (massRows data i).length ∨ ∀ bytes, writeData F data i = .ok bytes → BlockComplete bytes bytes.length) :
    ∃ bytes out info, writeData F data i = .ok bytes ∧ readData F bytes = .ok (out, info) ∧
      info.shape = some ((i.shape.1 : ℤ), (i.shape.2 : ℤ)) ∧
      info.spacing = some (round6 i.spacing.1, round6 i.spacing.2) ∧
      info.origin = some (round6 i.origin.1, round6 i.origin.2) ∧
      info.numBins = some ((i.shape.1 : ℤ) * i.shape.2) ∧
      out.map Prod.fst = ["X", "Y", "N", "T", "M", "U", "V"] ∧
      (∀ c ∈ out, c.2.length = i.shape.1 * i.shape.2) ∧
      ∀ t < i.shape.1 * i.shape.2,
        val out "X" t = round6 i.origin.1 + round6 i.spacing.1 * (((t / i.shape.2 : ℕ) : ℚ) + 1 / 2) ∧
        val out "Y" t = round6 i.origin.2 + round6 i.spacing.2 * (((t % i.shape.2 : ℕ) : ℚ) + 1 / 2) ∧
        ∀ l ∈ ["N", "T", "M", "U", "V"], val out l t = if val data "M" t ≠ 0 then F.rnd (val data l t) else 0 := by
  have hw := writeData_eq F data i h
  have hr : readData F (header i (massRows data i).length ++ body F data i) = .ok (outOf F data i, infoOf i) := by
    rcases hn with hn | hn | hn
    · exact readData_empty F data i hn
    · apply readData_full F data i hs
      rw [List.length_append, length_body]
      simp only [header, ascii, List.length_append, List.length_map, List.length_singleton]
      omega
    · apply readData_full F data i hs
      have := hn _ hw
      unfold BlockComplete at this
      rwa [idxOf_header] at this
  refine ⟨_, _, _, hw, hr, rfl, rfl, rfl, rfl, rfl, ?_, ?_⟩
  · intro c hc
    simp only [outOf, List.map_cons, List.map_nil, List.mem_cons, List.not_mem_nil, or_false] at hc
    rcases hc with rfl | rfl | rfl | rfl | rfl | rfl | rfl <;> simp
  · intro t ht
    have hcol : ∀ l c, col? (outOf F data i) l = some c → val (outOf F data i) l t = c.getD t 0 := fun l c hc => by rw [val_of_col hc]
    refine ⟨?_, ?_, ?_⟩
    · rw [hcol "X" _ rfl, getD_map_range _ _ _ ht]
    · rw [hcol "Y" _ rfl, getD_map_range _ _ _ ht]
    · intro l hl
      have : col? (outOf F data i) l = some ((List.range (i.shape.1 * i.shape.2)).map fun t => stored F data l t) := by
        simp only [List.mem_cons, List.not_mem_nil, or_false] at hl
        rcases hl with rfl | rfl | rfl | rfl | rfl <;> rfl
      rw [hcol l _ this, getD_map_range _ _ _ ht]
      rfl

/-- The information is off by at most half of the last of the six decimals, and exact if it has six decimals. -/
theorem C47_six_decimals (x : ℚ) : |round6 x - x| ≤ 1 / 2 * (1 / 10 ^ 6) ∧ ((∃ k : ℤ, x = k / 10 ^ 6) → round6 x = x) := by
  refine ⟨?_, ?_⟩
  · have := round6_near x
    first | exact this | (norm_num at this ⊢; exact this)
  · rintro ⟨k, hk⟩
    rw [hk]; exact round6_exact k

/-- **C47, exact round trip.** If additionally the map lies on the grid of its information, which has six decimals, its
values are single precision numbers, and its bins without mass are all zero, the map read is the map written. -/
theorem C47_exact_round_trip_partial (F : F32) (data : Record) (i : GInfo) (h : Writable data i)
    (hs : i.shape.1 ≤ 2 ^ 64 ∧ i.shape.2 ≤ 2 ^ 64)
    (hn : massRows data i = [] ∨ 29 ≤ (massRows data i).length ∨ ∀ bytes, writeData F data i = .ok bytes → BlockComplete bytes bytes.length)
    (hdec : ∀ x ∈ [i.spacing.1, i.spacing.2, i.origin.1, i.origin.2], ∃ k : ℤ, x = k / 10 ^ 6)
    (hgrid : ∀ t < i.shape.1 * i.shape.2, val data "X" t = i.origin.1 + i.spacing.1 * (((t / i.shape.2 : ℕ) : ℚ) + 1 / 2) ∧
      val data "Y" t = i.origin.2 + i.spacing.2 * (((t % i.shape.2 : ℕ) : ℚ) + 1 / 2))
    (hsingle : ∀ t < i.shape.1 * i.shape.2, ∀ l ∈ ["N", "T", "M", "U", "V"], F.rnd (val data l t) = val data l t)
    (hzero : ∀ t < i.shape.1 * i.shape.2, val data "M" t = 0 → ∀ l ∈ ["N", "T", "M", "U", "V"], val data l t = 0) :
    ∃ bytes out, writeData F data i = .ok bytes ∧
      readData F bytes = .ok (out, ⟨some ((i.shape.1 : ℤ), (i.shape.2 : ℤ)), some i.origin, some i.spacing, some ((i.shape.1 : ℤ) * i.shape.2)⟩) ∧
      ∀ t < i.shape.1 * i.shape.2, ∀ l ∈ ["X", "Y", "N", "T", "M", "U", "V"], val out l t = val data l t := by
  obtain ⟨bytes, out, info, hw, hr, h1, h2, h3, h4, _, _, hv⟩ := C47_round_trip_partial F data i h hs hn
  have hx : ∀ x ∈ [i.spacing.1, i.spacing.2, i.origin.1, i.origin.2], round6 x = x := fun x hx => (C47_six_decimals x).2 (hdec x hx)
  rw [hx _ (by simp), hx _ (by simp)] at h2 h3
  refine ⟨bytes, out, hw, ?_, ?_⟩
  · rw [hr]
    obtain ⟨a, b, c, d⟩ := info
    simp only at h1 h2 h3 h4
    simp [h1, h2, h3, h4]
  · intro t ht l hl
    obtain ⟨v1, v2, v3⟩ := hv t ht
    simp only [List.mem_cons, List.not_mem_nil, or_false] at hl
    have key : l ∈ ["N", "T", "M", "U", "V"] → val out l t = val data l t := by
      intro hl
      rw [v3 l hl]
      by_cases hM : val data "M" t = 0
      · rw [if_neg (by simpa using hM), hzero t ht hM l hl]
      · rw [if_pos hM, hsingle t ht l hl]
    rcases hl with rfl | rfl | rfl | rfl | rfl | rfl | rfl
    · rw [v1, (hgrid t ht).1, hx _ (by simp), hx _ (by simp)]
    · rw [v2, (hgrid t ht).2, hx _ (by simp), hx _ (by simp)]
    all_goals exact key (by simp)

/-- A map that meets all hypotheses of the two round trip theorems. -/
example : Writable demo demoInfo ∧ (demoInfo.shape.1 ≤ 2 ^ 64 ∧ demoInfo.shape.2 ≤ 2 ^ 64) ∧
    (∀ bytes, writeData ieee32 demo demoInfo = .ok bytes → BlockComplete bytes bytes.length) ∧
    (∀ x ∈ [demoInfo.spacing.1, demoInfo.spacing.2, demoInfo.origin.1, demoInfo.origin.2], ∃ k : ℤ, x = k / 10 ^ 6) ∧
    (∀ t < demoInfo.shape.1 * demoInfo.shape.2, val demo "X" t = demoInfo.origin.1 + demoInfo.spacing.1 * (((t / demoInfo.shape.2 : ℕ) : ℚ) + 1 / 2) ∧
      val demo "Y" t = demoInfo.origin.2 + demoInfo.spacing.2 * (((t % demoInfo.shape.2 : ℕ) : ℚ) + 1 / 2)) ∧
    (∀ t < demoInfo.shape.1 * demoInfo.shape.2, ∀ l ∈ ["N", "T", "M", "U", "V"], ieee32.rnd (val demo l t) = val demo l t) ∧
    ∀ t < demoInfo.shape.1 * demoInfo.shape.2, val demo "M" t ≠ 0 := by
  refine ⟨demo_writable, by decide +kernel, ?_, ?_, by decide +kernel, by decide +kernel, by decide +kernel⟩
  · intro bytes hb
    have : ((writeData ieee32 demo demoInfo).toOption.map fun b => decide (BlockComplete b b.length)) = some true := by decide +kernel
    rw [hb] at this
    simpa [Except.toOption] using this
  · intro x hx
    simp only [demoInfo, List.mem_cons, List.not_mem_nil, or_false, or_self_left] at hx
    rcases hx with rfl | rfl | rfl
    · exact ⟨1000000, by norm_num⟩
    · exact ⟨-500000, by norm_num⟩
    · exact ⟨-500000, by norm_num⟩

/-- **C47 is false for small maps**: this map of two bins, one of them with mass, is written without error and then
cannot be read. -/
theorem C47_small_maps_are_unreadable : ∃ bytes, writeData ieee32 small smallInfo = .ok bytes ∧ readData ieee32 bytes = .error .indexError := by
  have : ((writeData ieee32 small smallInfo).toOption.map fun b => readData ieee32 b) = some (.error .indexError) := by decide +kernel
  cases hw : writeData ieee32 small smallInfo with
  | error e => rw [hw] at this; simp [Except.toOption] at this
  | ok b =>
    rw [hw] at this
    exact ⟨b, rfl, by simpa [Except.toOption] using this⟩

/-! ## C48 -/

/-- The position after the header of a file with a NUL. -/
theorem readHeader_pos (s : Text) (rest : Bytes) (hs : ∀ c ∈ s, 0 < c.toNat ∧ c.toNat < 128) (h : Head) (f : File)
    (hr : readHeader (ascii s ++ 0 :: rest) = .ok (h, f)) :
    f.content = ascii s ++ 0 :: rest ∧
    f.pos + (1024 * (s.length / 1024 + 1) - (s.length + 1 + rest.length)) = s.length + 1 := by
  have hlen : (ascii s ++ 0 :: rest).length = s.length + 1 + rest.length := by simp [ascii]; omega
  have hrd := readHeaderString_nul ((ascii s ++ 0 :: rest).length / 1024 + 1) [] s rest hs
    (by rw [hlen]; have := Nat.div_le_div_right (c := 1024) (show s.length ≤ s.length + 1 + rest.length by omega); omega)
  simp only [List.nil_append, List.length_nil, Nat.zero_add] at hrd
  unfold readHeader at hr
  rw [hrd] at hr
  unfold File.back at hr
  split at hr
  · rename_i hle
    simp only [Except.map, ok_bind] at hr
    simp only at hle
    cases hf : (splitlines s).foldlM headLine {} with
    | error e => rw [hf] at hr; simp [bind, Except.bind] at hr
    | ok g =>
      rw [hf, ok_bind] at hr
      split at hr
      · simp at hr
      · split at hr
        · simp only [Except.ok.injEq, Prod.mk.injEq] at hr
          rw [← hr.2]
          simp only
          exact ⟨trivial, by omega⟩
        · simp at hr
      · simp at hr
  · simp [Except.map, bind, Except.bind] at hr

/-- **C48 (partial).** The reader continues directly after the NUL, so it reads exactly the data, if the file contains
the whole 1024-byte block of the NUL.

Missing: shorter files, for which it is false: see `C48_position_iff`. -/
theorem C48_header_position_partial (s : Text) (rest : Bytes) (hs : ∀ c ∈ s, 0 < c.toNat ∧ c.toNat < 128) (h : Head) (f : File)
    (hr : readHeader (ascii s ++ 0 :: rest) = .ok (h, f))
    (hb : 1024 * (s.length / 1024 + 1) ≤ (ascii s ++ 0 :: rest).length) :
    f.pos = s.length + 1 ∧ f.content.drop f.pos = rest := by
  have hlen : (ascii s ++ 0 :: rest).length = s.length + 1 + rest.length := by simp [ascii]; omega
  obtain ⟨h1, h2⟩ := readHeader_pos s rest hs h f hr
  rw [hlen] at hb
  have hp : f.pos = s.length + 1 := by omega
  refine ⟨hp, ?_⟩
  rw [h1, hp]
  have : ascii s ++ 0 :: rest = (ascii s ++ [0]) ++ rest := by simp
  rw [this]
  have hl : (ascii s ++ [0]).length = s.length + 1 := by simp [ascii]
  rw [← hl, List.drop_left]

/-- **C48 fails for every shorter file**: there the reader continues at an earlier byte. -/
theorem C48_position_iff (s : Text) (rest : Bytes) (hs : ∀ c ∈ s, 0 < c.toNat ∧ c.toNat < 128) (h : Head) (f : File)
    (hr : readHeader (ascii s ++ 0 :: rest) = .ok (h, f)) :
    f.pos = s.length + 1 ↔ 1024 * (s.length / 1024 + 1) ≤ (ascii s ++ 0 :: rest).length := by
  have hlen : (ascii s ++ 0 :: rest).length = s.length + 1 + rest.length := by simp [ascii]; omega
  obtain ⟨h1, h2⟩ := readHeader_pos s rest hs h f hr
  rw [hlen]; omega

/-- A file in which the reader continues 48 bytes too early. -/
theorem C48_counterexample : ∃ (s : Text) (rest : Bytes) (h : Head) (f : File), (∀ c ∈ s, 0 < c.toNat ∧ c.toNat < 128) ∧
    readHeader (ascii s ++ 0 :: rest) = .ok (h, f) ∧ f.pos ≠ s.length + 1 := by
  obtain ⟨b, hw, _⟩ := C47_small_maps_are_unreadable
  have hc := headerText_pos smallInfo (massRows small smallInfo).length
  have hww := writeData_eq ieee32 small smallInfo small_writable
  have key : ((readHeader (ascii (headerText smallInfo (massRows small smallInfo).length) ++ 0 :: body ieee32 small smallInfo)).toOption.map
      fun p => decide (p.2.pos = (headerText smallInfo (massRows small smallInfo).length).length + 1)) = some false := by decide +kernel
  cases hr : readHeader (ascii (headerText smallInfo (massRows small smallInfo).length) ++ 0 :: body ieee32 small smallInfo) with
  | error e => rw [hr] at key; simp [Except.toOption] at key
  | ok p =>
    rw [hr] at key
    exact ⟨_, _, p.1, p.2, hc, hr, by simpa [Except.toOption] using key⟩

/-- Headers the writer writes are read, whatever their length and whatever follows. -/
theorem C48_written_headers (i : GInfo) (num : ℕ) (rest : Bytes) (hb : 1024 ≤ rest.length) :
    ∃ h f, readHeader (header i num ++ rest) = .ok (h, f) ∧ f.pos = (header i num).length ∧
      h.shape = some [(i.shape.1 : ℤ), (i.shape.2 : ℤ)] ∧ h.num = some (num : ℤ) ∧
      h.spacing = some [round6 i.spacing.1, round6 i.spacing.2] ∧ h.origin = some [round6 i.origin.1, round6 i.origin.2] ∧
      h.fields = some ["IX".toList, "IY".toList, "N".toList, "T".toList, "M".toList, "U".toList, "V".toList] := by
  refine ⟨_, _, readHeader_header i num rest ?_, rfl, rfl, rfl, rfl, rfl, rfl⟩
  simp only [header, ascii, List.length_append, List.length_map, List.length_singleton]
  omega

/-! ## C49 -/

/-- **C49.** A file cut within its header is never accepted (the reader does not return). -/
theorem C49_cut_in_header (F : F32) (data : Record) (i : GInfo) (h : Writable data i) :
    ∃ bytes, writeData F data i = .ok bytes ∧ ∀ k ≤ bytes.idxOf 0, readData F (bytes.take k) = .error .infiniteLoop := by
  refine ⟨_, writeData_eq F data i h, ?_⟩
  intro k hk
  rw [idxOf_header] at hk
  have e : (header i (massRows data i).length ++ body F data i).take k = [] ++ ascii ((headerText i (massRows data i).length).take k) := by
    unfold header
    rw [List.append_assoc, List.take_append_of_le_length (by simpa [ascii] using hk)]
    simp [ascii, List.map_take]
  rw [e]
  have key := readHeaderString_noNul (([] ++ ascii ((headerText i (massRows data i).length).take k)).length / 1024 + 1) []
    ((headerText i (massRows data i).length).take k) fun c hc => headerText_pos _ _ c (List.mem_of_mem_take hc)
  rw [List.length_nil] at key
  unfold readData readHeader
  rw [key]
  rfl

/-- **C49 (partial).** A file cut `d` bytes after its header is refused, for `16 ≤ d`, unless exactly one value of the
last field remains.

Missing: files cut within the 1024-byte block of the header's NUL or less than 16 bytes after it, and the exception,
which is real: see `C49_one_value_left_is_accepted`. -/
theorem C49_cut_in_data_partial (F : F32) (data : Record) (i : GInfo) (h : Writable data i) (hs : i.shape.1 ≤ 2 ^ 64 ∧ i.shape.2 ≤ 2 ^ 64) :
    ∃ bytes, writeData F data i = .ok bytes ∧ ∀ d, BlockComplete bytes (bytes.idxOf 0 + 1 + d) → 16 ≤ d → bytes.idxOf 0 + 1 + d < bytes.length →
      (d - 32 * (massRows data i).length) / 4 ≠ 1 → ∃ e, readData F (bytes.take (bytes.idxOf 0 + 1 + d)) = .error e := by
  refine ⟨_, writeData_eq F data i h, ?_⟩
  intro d hb h16 hlt hne
  unfold BlockComplete at hb
  rw [idxOf_header] at *
  have hhl : (header i (massRows data i).length).length = (headerText i (massRows data i).length).length + 1 := by simp [header, ascii]
  rw [List.length_append, length_body, hhl] at hlt
  have ht : (header i (massRows data i).length ++ body F data i).take ((headerText i (massRows data i).length).length + 1 + d) =
      header i (massRows data i).length ++ (body F data i).take d := by
    rw [← hhl, List.take_append, List.take_of_length_le (by omega), Nat.add_sub_cancel_left]
  rw [ht, readData_cut F data i hs d (by rw [List.length_append, List.length_take, length_body, hhl]; omega)]
  simp only
  generalize hn : (massRows data i).length = n at *
  by_cases hA : d < 16 * n
  · have hN : ∃ e, assign i.shape.1 i.shape.2 (((massRows data i).take (d / 8)).map (· / i.shape.2))
        (((massRows data i).take ((d - n * 8) / 8)).map (· % i.shape.2))
        (((massRows data i).take ((d - n * 8 - n * 8) / 4)).map fun t => F.rnd (val data "N" t)) = .error e := by
      have h0 : (d - n * 8 - n * 8) / 4 = 0 := by omega
      rw [h0, List.take_zero, List.map_nil]
      by_cases h1 : (((massRows data i).take ((d - n * 8) / 8)).map (· % i.shape.2)).length = 1
      · apply assign_noValues _ _ _ _ h1
        rw [List.length_map, List.length_take]; omega
      · refine ⟨_, assign_index _ _ _ _ _ ?_ ?_ h1⟩
        · rw [List.length_map, List.length_take, List.length_map, List.length_take]; omega
        · rw [List.length_map, List.length_take]
          rw [List.length_map, List.length_take] at h1
          omega
    obtain ⟨e, he⟩ := hN
    rw [he]
    exact ⟨e, rfl⟩
  · have hV : ∃ e, assign i.shape.1 i.shape.2 (((massRows data i).take (d / 8)).map (· / i.shape.2))
        (((massRows data i).take ((d - n * 8) / 8)).map (· % i.shape.2))
        (((massRows data i).take ((d - n * 8 - n * 8 - n * 4 - n * 4 - n * 4 - n * 4) / 4)).map fun t => F.rnd (val data "V" t)) = .error e := by
      apply assign_mismatch
      · simp only [List.length_map, List.length_take]; omega
      · simp only [List.length_map, List.length_take]; omega
      · simp only [List.length_map, List.length_take]; omega
    obtain ⟨e, he⟩ := hV
    rw [he]
    generalize assign _ _ _ _ (List.map (fun t => F.rnd (val data "N" t)) _) = aN
    generalize assign _ _ _ _ (List.map (fun t => F.rnd (val data "T" t)) _) = aT
    generalize assign _ _ _ _ (List.map (fun t => F.rnd (val data "M" t)) _) = aM
    generalize assign _ _ _ _ (List.map (fun t => F.rnd (val data "U" t)) _) = aU
    cases aN with
    | error e => exact ⟨e, rfl⟩
    | ok _ =>
      cases aT with
      | error e => exact ⟨e, rfl⟩
      | ok _ =>
        cases aM with
        | error e => exact ⟨e, rfl⟩
        | ok _ =>
          cases aU with
          | error e => exact ⟨e, rfl⟩
          | ok _ => exact ⟨e, rfl⟩

/-- **C49 is false**: cut so that one value of the last field remains, every file is accepted, and all bins get the V of
the first bin with mass. -/
theorem C49_one_value_left_is_accepted (F : F32) (data : Record) (i : GInfo) (h : Writable data i) (hs : i.shape.1 ≤ 2 ^ 64 ∧ i.shape.2 ≤ 2 ^ 64) :
    ∃ bytes, writeData F data i = .ok bytes ∧ ∀ d t₀, (massRows data i).head? = some t₀ → BlockComplete bytes (bytes.idxOf 0 + 1 + d) →
      bytes.idxOf 0 + 1 + d < bytes.length → (d - 32 * (massRows data i).length) / 4 = 1 →
      ∃ out info, readData F (bytes.take (bytes.idxOf 0 + 1 + d)) = .ok (out, info) ∧
        ∀ t < i.shape.1 * i.shape.2, val data "M" t ≠ 0 → val out "V" t = F.rnd (val data "V" t₀) := by
  refine ⟨_, writeData_eq F data i h, ?_⟩
  intro d t₀ h0 hb hlt h1
  unfold BlockComplete at hb
  rw [idxOf_header] at *
  have hhl : (header i (massRows data i).length).length = (headerText i (massRows data i).length).length + 1 := by simp [header, ascii]
  rw [List.length_append, length_body, hhl] at hlt
  have ht : (header i (massRows data i).length ++ body F data i).take ((headerText i (massRows data i).length).length + 1 + d) =
      header i (massRows data i).length ++ (body F data i).take d := by
    rw [← hhl, List.take_append, List.take_of_length_le (by omega), Nat.add_sub_cancel_left]
  rw [ht, readData_cut F data i hs d (by rw [List.length_append, List.length_take, length_body, hhl]; omega)]
  simp only
  have hk : ∀ k, (massRows data i).length ≤ k → (massRows data i).take k = massRows data i := fun k h => List.take_of_length_le h
  rw [hk _ (by omega), hk _ (by omega), hk _ (by omega), hk _ (by omega), hk _ (by omega), hk _ (by omega)]
  have hV : (d - (massRows data i).length * 8 - (massRows data i).length * 8 - (massRows data i).length * 4 - (massRows data i).length * 4 -
      (massRows data i).length * 4 - (massRows data i).length * 4) / 4 = 1 := by omega
  have hr : ∀ t ∈ massRows data i, t < i.shape.1 * i.shape.2 := fun t ht => ((mem_massRows ..).mp ht).1
  have h1' : (massRows data i).take 1 = [t₀] := by
    cases hm : massRows data i with
    | nil => rw [hm] at h0; simp at h0
    | cons a as => rw [hm] at h0; simp at h0; simp [h0]
  rw [hV, h1', List.map_singleton]
  simp only [assign_rows _ _ _ _ hr, assign_const _ _ _ _ hr, ok_bind]
  refine ⟨_, _, rfl, ?_⟩
  intro t ht hM
  rw [val_of_col (c := (List.range (i.shape.1 * i.shape.2)).map fun t => if t ∈ massRows data i then F.rnd (val data "V" t₀) else 0) rfl,
    getD_map_range _ _ _ ht, if_pos ((mem_massRows ..).mpr ⟨ht, hM⟩)]

/-- Cuts of the demonstration file that the theorems above speak about: `d = 140` is refused, `d = 132` is accepted with
wrong data. -/
example : massRows demo demoInfo = [0, 1, 2, 3] ∧
    ((writeData ieee32 demo demoInfo).toOption.map fun b => decide (BlockComplete b (b.idxOf 0 + 1 + 132) ∧ b.idxOf 0 + 1 + 140 < b.length)) = some true ∧
    (140 - 32 * 4) / 4 ≠ 1 ∧ (132 - 32 * 4) / 4 = 1 ∧ val demo "V" 3 ≠ val demo "V" 0 := by decide +kernel

end Strata.Gmx
