import Verif.Props.ReadFiles
/-!
# C115: averaging a series of files, from bytes to bytes
-/
namespace Strata.Driver
open Strata Strata.Flow Strata.Average Strata.Files Strata.Bytes Strata.SimpleAverage

theorem averaged_group (F : F32) (edges : Flow → Except Err (Option ℚ × Option ℚ)) (o : Opts) (ho : Plain o) (maps : List Map) (nx ny : ℕ) (dx dy x1 y1 : ℚ)
    (or : ℚ × ℚ) (md : ℕ) (h : SameGrid maps nx ny dx dy x1 y1 or md) (hm : EnoughSum maps (nx * ny))
    (hs : SixDecimals ⟨(nx, ny), (some dx, some dy), some or, nx * ny⟩) :
    ∃ avg info bytes m', averageGroup edges o maps = .ok (avg, info) ∧ gmxWrite F avg info = (some bytes, .ok ()) ∧ readDataFile F bytes = .ok m' ∧
      OnGrid m' nx ny dx dy (or.1 + dx / 2) (or.2 + dy / 2) or ∧ m'.2.2 = 0 ∧ IsAverage F (maps.map Prod.fst) (nx * ny) m'.1 := by
  obtain ⟨hne, h⟩ := h
  obtain ⟨m, ms, rfl⟩ := List.exists_cons_of_ne_nil hne
  have hlast : ((m :: ms).getLastD m).2.1 = ⟨(nx, ny), (some dx, some dy), some or, nx * ny⟩ := by
    have hl : (m :: ms).getLast? = some ((m :: ms).getLastD m) := by
      rw [List.getLastD_eq_getLast?, List.getLast?_eq_some_getLast (by simp)]; rfl
    exact (h _ (List.mem_of_getLast? hl)).1.info
  obtain ⟨avg, h1, h2, h3, h4⟩ := C56_content edges o ho m ms (nx * ny) (fun m' hm' => by rw [(h m' (by simp [hm'])).2, (h m (by simp)).2])
    (fun m' hm' => (h m' hm').1.hasFields) (by
      intro m' hm' l hl t ht
      obtain ⟨a1, a2⟩ := (h m (by simp)).1.pos t ht
      obtain ⟨b1, b2⟩ := (h m' (by simp [hm'])).1.pos t ht
      have : val m.1 l t = val m'.1 l t := by
        simp only [List.mem_cons, List.not_mem_nil, or_false] at hl
        rcases hl with rfl | rfl
        · rw [a1, b1]
        · rw [a2, b2]
      rw [this, sub_self, abs_zero]
      positivity)
  rw [hlast] at h1
  -- the average as a map on the grid, in the order of its fields
  have hcol : ∀ l ∈ ["X", "Y", "N", "T", "M", "U", "V"], ∃ c, col? avg l = some c ∧ c.length = nx * ny := by
    intro l hl
    have hl' : l ∈ names avg := by
      rw [h2]
      simp only [List.mem_cons, List.not_mem_nil, or_false] at hl ⊢
      tauto
    obtain ⟨c, hc⟩ := (col?_isSome_iff avg l).mpr hl'
    exact ⟨c, hc, h3 _ (lookup_mem hc)⟩
  have hsum : ∀ l t, sumOver ((m :: ms).map Prod.fst) l t = ((m :: ms).map fun m' => val m'.1 l t).sum := by
    intro l t
    unfold sumOver
    rw [List.map_map]
    rfl
  have hsum2 : ∀ l w t, sumOver2 ((m :: ms).map Prod.fst) l w t = ((m :: ms).map fun m' => val m'.1 l t * val m'.1 w t).sum := by
    intro l w t
    unfold sumOver2
    rw [List.map_map]
    rfl
  have hlen : (((m :: ms).map Prod.fst).length : ℚ) = (ms.length : ℚ) + 1 := by simp
  have hpos : ((ms.length : ℚ) + 1) ≠ 0 := by positivity
  have hM : ∀ t, t < nx * ny → (val avg "M" t ≠ 0 ↔ sumOver ((m :: ms).map Prod.fst) "M" t ≠ 0) := by
    intro t ht
    rw [(h4 t ht).2.2.1 "M" (by simp), hsum, ne_eq, ne_eq, div_eq_zero_iff]
    tauto
  have hgi : ginfo ⟨(nx, ny), (some dx, some dy), some or, nx * ny⟩ = ⟨(nx, ny), (dx, dy), or⟩ := rfl
  have hmass : Gmx.massRows avg ⟨(nx, ny), (dx, dy), or⟩ = (List.range (nx * ny)).filter fun t => decide (sumOver ((m :: ms).map Prod.fst) "M" t ≠ 0) := by
    unfold Gmx.massRows
    refine List.filter_congr fun t ht => ?_
    simp only [decide_eq_decide]
    exact hM t (List.mem_range.mp ht)
  have hW : Gmx.Writable avg ⟨(nx, ny), (dx, dy), or⟩ := by
    intro l hl
    exact hcol l (by simp only [List.mem_cons, List.not_mem_nil, or_false] at hl ⊢; tauto)
  obtain ⟨hs1, hs2, hs3⟩ := hs
  simp only [Option.map_some, Option.some.injEq] at hs3
  have hr : ∀ x, x = dx ∨ x = dy ∨ x = or.1 ∨ x = or.2 → PyText.round6 x = x := fun x hx => (Gmx.C47_six_decimals x).2 (hs3 x hx)
  obtain ⟨bytes, out, info, hw, hread, e1, e2, e3, e4, e5, e6, e7⟩ := Gmx.C47_round_trip_partial F avg ⟨(nx, ny), (dx, dy), or⟩ hW ⟨hs1, hs2⟩ (by
    rw [hmass]
    rcases hm with hm | hm
    · left
      rw [List.filter_eq_nil_iff]
      intro t ht
      simp only [decide_eq_true_eq, not_not]
      exact hm t (List.mem_range.mp ht)
    · exact .inr (.inl hm))
  simp only [hr dx (by simp), hr dy (by simp), hr or.1 (by simp), hr or.2 (by simp)] at e1 e2 e3 e4 e6 e7
  have hg : Gmx.isGmx bytes = true := Simple.C53_gmx_is_recognised F avg ⟨(nx, ny), (dx, dy), or⟩ none (by simp) bytes hw
  have hin : infoOfGmx info = .ok ⟨(nx, ny), (some dx, some dy), some or, nx * ny⟩ := by
    unfold infoOfGmx
    rw [e1, e2, e3, e4]
    have : ((nx : ℤ) * (ny : ℤ)).toNat = nx * ny := by rw [← Nat.cast_mul, Int.toNat_natCast]
    simp only [Int.toNat_natCast, this]
  refine ⟨avg, _, bytes, (out, ⟨(nx, ny), (some dx, some dy), some or, nx * ny⟩, 0), h1, ?_, ?_, ⟨rfl, e5, e6, ?_⟩, rfl, ?_⟩
  · unfold gmxWrite
    simp only [Option.getD_some]
    rw [hw]
    rfl
  · unfold readDataFile
    rw [if_pos hg, hread, Gmx.ok_bind]
    simp only
    rw [hin]
    rfl
  · intro t ht
    obtain ⟨hx, hy, -⟩ := e7 t ht
    exact ⟨by rw [hx]; ring, by rw [hy]; ring⟩
  · intro t ht
    obtain ⟨-, -, hv⟩ := e7 t ht
    obtain ⟨-, -, k1, k2⟩ := h4 t ht
    refine ⟨?_, ?_⟩
    · intro h0 l hl
      show val out l t = 0
      rw [hv l hl, if_neg]
      intro hne
      exact (hM t ht).mp hne h0
    · intro hne
      have hne' := (hM t ht).mpr hne
      show val out "M" t = _ ∧ val out "N" t = _ ∧ val out "U" t = _ ∧ val out "V" t = _ ∧ (_ → val out "T" t = _)
      rw [hv "M" (by simp), hv "N" (by simp), hv "U" (by simp), hv "V" (by simp), hv "T" (by simp), if_pos hne', if_pos hne', if_pos hne', if_pos hne', if_pos hne']
      rw [k1 "M" (by simp), k1 "N" (by simp), (k2 ("U", "M") (by simp)).1 (by rw [← hsum]; exact hne), (k2 ("V", "M") (by simp)).1 (by rw [← hsum]; exact hne)]
      rw [hlen, hsum, hsum, hsum2, hsum2, hsum2]
      refine ⟨rfl, rfl, rfl, rfl, fun hN => ?_⟩
      rw [(k2 ("T", "N") (by simp)).1 hN]

/-- **C115.** Averaging a series of files on one grid, from bytes to bytes.  Let groups `0, …, k-1` be complete and group `k` not, and let `maps i` be what the files of group `i`
are read as before the call.  Then the call returns, and output `start + i`, read again, is the average of exactly these maps, on the grid whose corner is the origin of the
information; all files but the outputs are unchanged.

Missing: groups with 1 to 28 bins with mass, whose output cannot be read (C47); `quiet`, with which the call fails (C56); options that change the maps (C57, C58). -/
theorem C115_average_files_partial (F : F32) (edges : Flow → Except Err (Option ℚ × Option ℚ)) (o : Opts) (ho : Plain o) (hq : o.quiet = false) (fs : FS Bytes) (dir : Dir)
    (base output ext : Text) (outext : Option Text) (g : ℕ) (hg : 1 ≤ g) (rolling : Bool) (b : ℤ) (e : Option ℤ) (hslash : '/' ∉ outext.getD ext)
    (k : ℕ) (hk : ∀ i, i < k → Complete dir base ext b e g rolling i) (hk' : ¬ Complete dir base ext b e g rolling k)
    (maps : ℕ → List Map) (hread : ∀ i, i < k → ReadsAs (readDataFile F) fs (groupFiles base ext b g rolling i) (maps i))
    (nx ny : ℕ) (dx dy x1 y1 : ℚ) (or : ℚ × ℚ) (md : ℕ) (hgrid : ∀ i, i < k → ∀ m ∈ maps i, OnGrid m nx ny dx dy x1 y1 or ∧ m.2.2 = md)
    (hmass : ∀ i, i < k → EnoughSum (maps i) (nx * ny)) (hs : SixDecimals ⟨(nx, ny), (some dx, some dy), some or, nx * ny⟩) :
    ∃ start : ℤ, (rolling = true → start = b) ∧ (rolling = false → b ≤ start * g ∧ (start - 1) * g < b) ∧
      ((∀ i i', i < i' → i' < k → splitPath (fileName output (outext.getD ext) (start + i)) ∉ (groupFiles base ext b g rolling i').map splitPath) →
        (average (readDataFile F) (gmxWrite F) edges o fs dir base output ext outext g rolling b e).2 = .ok () ∧
        (∀ i : ℕ, i < k → ∃ c' m', (average (readDataFile F) (gmxWrite F) edges o fs dir base output ext outext g rolling b e).1.get?
            (splitPath (fileName output (outext.getD ext) (start + i))) = some c' ∧ readDataFile F c' = .ok m' ∧
          OnGrid m' nx ny dx dy (or.1 + dx / 2) (or.2 + dy / 2) or ∧ m'.2.2 = 0 ∧ IsAverage F ((maps i).map Prod.fst) (nx * ny) m'.1) ∧
        ∀ p, fs.get? p ≠ none → (∀ i : ℕ, i < k → splitPath (fileName output (outext.getD ext) (start + i)) ≠ p) →
          (average (readDataFile F) (gmxWrite F) edges o fs dir base output ext outext g rolling b e).1.get? p = fs.get? p) := by
  have hne : ∀ i, i < k → maps i ≠ [] := by
    intro i hi h0
    have := List.Forall₂.length_eq (hread i hi)
    rw [h0] at this
    simp only [groupFiles, List.length_map, List.length_range, List.length_nil] at this
    omega
  have key : ∀ i, ∃ (avg : Record) (info : DInfo) (bytes : Bytes) (m' : Map), i < k → (averageGroup edges o (maps i) = .ok (avg, info) ∧ gmxWrite F avg info = (some bytes, .ok ()) ∧
      readDataFile F bytes = .ok m' ∧ OnGrid m' nx ny dx dy (or.1 + dx / 2) (or.2 + dy / 2) or ∧ m'.2.2 = 0 ∧ IsAverage F ((maps i).map Prod.fst) (nx * ny) m'.1) := by
    intro i
    by_cases hi : i < k
    · obtain ⟨avg, info, bytes, m', h⟩ := averaged_group F edges o ho (maps i) nx ny dx dy x1 y1 or md ⟨hne i hi, hgrid i hi⟩ (hmass i hi) hs
      exact ⟨avg, info, bytes, m', fun _ => h⟩
    · exact ⟨[], ⟨(0, 0), (none, none), none, 0⟩, [], ([], ⟨(0, 0), (none, none), none, 0⟩, 0), fun h => absurd h hi⟩
  choose avg info bytes m' hkey using key
  obtain ⟨start, s1, s2, hrest⟩ := C56_series_partial (readDataFile F) (gmxWrite F) edges o fs dir base output ext outext g hg rolling b e hslash k hk hk' maps avg info bytes
    hread (fun i hi => (hkey i hi).1) (fun i hi => (hkey i hi).2.1)
  refine ⟨start, s1, s2, fun hcross => ?_⟩
  obtain ⟨r1, r2, r3⟩ := hrest hcross
  exact ⟨r1 hq, fun i hi => ⟨bytes i, m' i, r2 i hi, (hkey i hi).2.2⟩, r3⟩

/-- **C115, positions of gmx files are kept**: the average of a group of gmx files lies where each of its files lies. -/
theorem C115_gmx_positions {F : F32} {c : Bytes} {m m' : Map} (hg : Gmx.isGmx c = true) (hm : readDataFile F c = .ok m) {nx ny : ℕ} {dx dy x1 y1 : ℚ} {or : ℚ × ℚ}
    (h : OnGrid m nx ny dx dy x1 y1 or) (h' : OnGrid m' nx ny dx dy (or.1 + dx / 2) (or.2 + dy / 2) or) :
    ∀ t, t < nx * ny → val m'.1 "X" t = val m.1 "X" t ∧ val m'.1 "Y" t = val m.1 "Y" t := by
  obtain ⟨nx', ny', dx', dy', x0, y0, hG, -, -⟩ := readDataFile_gmx hg hm
  have := h.info.symm.trans hG.info
  simp only [DInfo.mk.injEq, Prod.mk.injEq, Option.some.injEq] at this
  obtain ⟨⟨rfl, rfl⟩, ⟨rfl, rfl⟩, rfl, -⟩ := this
  intro t ht
  obtain ⟨a1, a2⟩ := h'.pos t ht
  obtain ⟨b1, b2⟩ := hG.pos t ht
  exact ⟨by rw [a1, b1], by rw [a2, b2]⟩

/-- **C115 is false for files in a simple format**: the average of a group lies half a bin off its files. -/
theorem C115_simple_positions_move {F : F32} {c : Bytes} {m m' : Map} (hg : Gmx.isGmx c = false) (hm : readDataFile F c = .ok m) {nx ny : ℕ} {dx dy x1 y1 : ℚ} {or : ℚ × ℚ}
    (h : OnGrid m nx ny dx dy x1 y1 or) (h' : OnGrid m' nx ny dx dy (or.1 + dx / 2) (or.2 + dy / 2) or) :
    ∀ t, t < nx * ny → val m'.1 "X" t = val m.1 "X" t + dx / 2 ∧ val m'.1 "Y" t = val m.1 "Y" t + dy / 2 := by
  obtain ⟨nx', ny', dx', dy', x0, y0, hi, -, hpos⟩ := readDataFile_simple hg hm
  have := h.info.symm.trans (congrArg Prod.fst hi)
  simp only [DInfo.mk.injEq, Prod.mk.injEq, Option.some.injEq] at this
  obtain ⟨⟨rfl, rfl⟩, ⟨rfl, rfl⟩, rfl, -⟩ := this
  intro t ht
  obtain ⟨a1, a2⟩ := h'.pos t ht
  obtain ⟨b1, b2⟩ := hpos t ht
  exact ⟨by rw [a1, b1]; ring, by rw [a2, b2]; ring⟩

/-! ## Examples -/

/-- Two gmx files in a group meet the hypotheses. -/
example : ReadsAs (readDataFile ieee32) [((".".toList, "a00001".toList), exGmx), ((".".toList, "a00002".toList), exGmx)] (groupFiles "a".toList [] 1 2 false 0) [exMapG, exMapG] ∧
    Complete ["a00001".toList, "a00002".toList] "a".toList [] 1 none 2 false 0 ∧ ¬ Complete ["a00001".toList, "a00002".toList] "a".toList [] 1 none 2 false 1 ∧
    (∀ m ∈ [exMapG, exMapG], OnGrid m 2 15 (1 / 2) (1 / 2) (1 / 4) (1 / 4) (0, 0) ∧ m.2.2 = 0) ∧ EnoughSum [exMapG, exMapG] (2 * 15) ∧
    SixDecimals ⟨(2, 15), (some (1 / 2), some (1 / 2)), some (0, 0), 2 * 15⟩ := by
  refine ⟨?_, ?_, ?_, ?_, .inr (by decide +kernel), exMap_decimals.2⟩
  · refine List.Forall₂.cons ⟨exGmx, ?_, exGmx_read⟩ (List.Forall₂.cons ⟨exGmx, ?_, exGmx_read⟩ List.Forall₂.nil) <;> rfl
  · intro j hj
    interval_cases j
    · exact ⟨by decide +kernel, by simp⟩
    · exact ⟨by decide +kernel, by simp⟩
  · intro h
    exact absurd (h 1 (by omega)).1 (by decide +kernel)
  · intro m hm
    simp only [List.mem_cons, List.not_mem_nil, or_false, or_self] at hm
    subst hm
    exact ⟨exMapG_grid, rfl⟩

end Strata.Driver
