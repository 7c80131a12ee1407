import Verif.Proofs.ReadFiles
/-!
# C114, C116: conversion and reading of files, from bytes to bytes
-/
namespace Strata.Driver
open Strata Strata.Flow Strata.Average Strata.Files Strata.Bytes Strata.SimpleAverage

theorem OnGrid.hasFields {m : Map} {nx ny : ℕ} {dx dy x1 y1 : ℚ} {or : ℚ × ℚ} (h : OnGrid m nx ny dx dy x1 y1 or) : HasFields m.1 (nx * ny) := by
  intro l hl
  have hl' : l ∈ names m.1 := by rw [h.labels]; exact hl
  obtain ⟨c, hc⟩ := (col?_isSome_iff m.1 l).mpr hl'
  exact ⟨c, hc, h.sizes _ (lookup_mem hc)⟩

theorem OnGrid.writable {m : Map} {nx ny : ℕ} {dx dy x1 y1 : ℚ} {or : ℚ × ℚ} (h : OnGrid m nx ny dx dy x1 y1 or) : Gmx.Writable m.1 (ginfo m.2.1) := by
  intro l hl
  obtain ⟨c, h1, h2⟩ := h.hasFields l (by simp only [List.mem_cons, List.not_mem_nil, or_false] at hl ⊢; tauto)
  exact ⟨c, h1, by rw [h2, h.info]; rfl⟩

/-- What is read from a gmx file. -/
theorem readDataFile_gmx {F : F32} {c : Bytes} {m : Map} (hg : Gmx.isGmx c = true) (h : readDataFile F c = .ok m) :
    ∃ (nx ny : ℕ) (dx dy x0 y0 : ℚ), OnGrid m nx ny dx dy (x0 + dx / 2) (y0 + dy / 2) (x0, y0) ∧ m.2.2 = 0 ∧
      ∀ l ∈ ["N", "T", "M", "U", "V"], ∀ t, t < nx * ny → val m.1 l t = 0 ∨ ∃ b : Bytes, val m.1 l t = F.dec b := by
  unfold readDataFile at h
  rw [if_pos hg] at h
  obtain ⟨⟨r, i⟩, h1, h⟩ := Simple.bind_eq_ok h
  obtain ⟨i', h2, h⟩ := Simple.bind_eq_ok h
  have h := Except.ok.inj h
  subst h
  obtain ⟨nx, ny, dx, dy, x0, y0, rfl, e2, e3, e4, e5⟩ := Gmx.readData_shape h1
  have h2 := Except.ok.inj h2
  subst h2
  have hG : OnGrid (r, ⟨(nx, ny), (some dx, some dy), some (x0, y0), nx * ny⟩, 0) nx ny dx dy (x0 + dx / 2) (y0 + dy / 2) (x0, y0) := by
    refine ⟨rfl, e2, e3, fun t ht => ?_⟩
    obtain ⟨hx, hy⟩ := e4 t ht
    exact ⟨by rw [hx]; ring, by rw [hy]; ring⟩
  refine ⟨nx, ny, dx, dy, x0, y0, ?_, rfl, ?_⟩
  · have : ((nx : ℤ) * (ny : ℤ)).toNat = nx * ny := by rw [← Nat.cast_mul, Int.toNat_natCast]
    simp only [Int.toNat_natCast, this]
    exact hG
  · intro l hl t ht
    obtain ⟨c, hc, hlen⟩ := hG.hasFields l (by simp only [List.mem_cons, List.not_mem_nil, or_false] at hl ⊢; tauto)
    simp only at hc
    rw [val_of_col hc]
    have hmem : c.getD t 0 ∈ c := by
      rw [List.getD_eq_getElem?_getD, List.getElem?_eq_getElem (by omega), Option.getD_some]
      exact List.getElem_mem _
    exact e5 _ (lookup_mem hc) hl _ hmem

theorem mapM_id_map {n : ℕ} (o : Option ℚ) (g : ℚ → ℕ → ℚ) (hn : 0 < n) (x : List ℚ) (h : ((List.range n).map fun t => o.map fun d => g d t).mapM id = some x) :
    ∃ d, o = some d ∧ x = (List.range n).map (g d) := by
  cases o with
  | none =>
    obtain ⟨k, rfl⟩ : ∃ k, n = k + 1 := ⟨n - 1, by omega⟩
    rw [List.range_succ_eq_map, List.map_cons, List.mapM_cons] at h
    cases h
  | some d =>
    refine ⟨d, rfl, ?_⟩
    have : ∀ l : List ℕ, (l.map fun t => (some d).map fun d => g d t).mapM id = some (l.map (g d)) := by
      intro l
      induction l with
      | nil => rfl
      | cons a l ih => rw [List.map_cons, List.mapM_cons, ih]; rfl
    rw [this] at h
    exact (Option.some.inj h).symm

/-- What is read from a file that is not a gmx file. -/
theorem readDataFile_simple {F : F32} {c : Bytes} {m : Map} (hg : Gmx.isGmx c = false) (h : readDataFile F c = .ok m) :
    ∃ (nx ny : ℕ) (dx dy x0 y0 : ℚ), m.2 = (⟨(nx, ny), (some dx, some dy), some (x0, y0), nx * ny⟩, 1) ∧
      (∀ l ∈ ["X", "Y"], ∃ c, col? m.1 l = some c ∧ c.length = nx * ny) ∧
      ∀ t, t < nx * ny → val m.1 "X" t = x0 + dx * ((t / ny : ℕ) : ℚ) ∧ val m.1 "Y" t = y0 + dy * ((t % ny : ℕ) : ℚ) := by
  unfold readDataFile at h
  rw [if_neg (by simp [hg])] at h
  obtain ⟨⟨o, i⟩, h1, h⟩ := Simple.bind_eq_ok h
  have hfin : ∃ r, Simple.finish r = .ok (o, i) := by
    unfold Simple.readData at h1
    split at h1
    · exact ⟨_, h1⟩
    · obtain ⟨⟨ns, rows⟩, -, h1⟩ := Simple.bind_eq_ok h1
      simp only at h1
      split at h1
      · split at h1 <;> cases h1
      · exact ⟨_, h1⟩
  obtain ⟨r, hfin⟩ := hfin
  unfold Simple.finish at hfin
  obtain ⟨X, -, hfin⟩ := Simple.bind_eq_ok hfin
  obtain ⟨Y, -, hfin⟩ := Simple.bind_eq_ok hfin
  obtain ⟨i', hinfo, hfin⟩ := Simple.bind_eq_ok hfin
  obtain ⟨ho, hi⟩ := Prod.mk.inj (Except.ok.inj hfin)
  subst hi
  -- the shape is not empty
  have hpos : 0 < i'.shape.1 * i'.shape.2 ∧ i'.numBins = i'.shape.1 * i'.shape.2 := by
    unfold Simple.calcInformation at hinfo
    split at hinfo
    · cases hinfo
    · rename_i hXY
      obtain ⟨⟨nx, ny⟩, hs, hinfo⟩ := Simple.bind_eq_ok hinfo
      obtain ⟨_, -, hinfo⟩ := Simple.bind_eq_ok hinfo
      obtain ⟨_, -, hinfo⟩ := Simple.bind_eq_ok hinfo
      obtain ⟨_, -, hinfo⟩ := Simple.bind_eq_ok hinfo
      obtain ⟨_, -, hinfo⟩ := Simple.bind_eq_ok hinfo
      have hinfo := Except.ok.inj hinfo
      subst hinfo
      refine ⟨?_, rfl⟩
      unfold Simple.calcShape at hs
      obtain ⟨q, hq, hs⟩ := Simple.bind_eq_ok hs
      split at hs
      · cases hs
      · rename_i y0 ys hy
        obtain ⟨e1, e2⟩ := Prod.mk.inj (Except.ok.inj hs)
        have hlen : ((col? q "Y").getD []).length = X.length := by
          simp only [ne_eq, not_not, List.length_map] at hXY
          obtain ⟨s, c', g1, g2, g3, -⟩ := Simple.sorted_col (r := [("X", X.map Simple.round5), ("Y", Y.map Simple.round5)]) (l := "Y") (l' := "X")
            (c := Y.map Simple.round5) (by simp [names]) (by simp [names]) rfl (by simp [size, hXY])
          rw [hq] at g1
          have g1 := Except.ok.inj g1
          subst g1
          rw [g2, Option.getD_some, g3.length_eq, List.length_map, hXY]
        rw [hy, List.length_cons] at hlen
        have htw := (List.takeWhile_sublist (fun y => decide (|y - y0| < 1 / 10000)) (l := ys)).length_le
        rw [← e1, ← e2, List.length_map]
        have hle : 1 + (ys.takeWhile fun y => decide (|y - y0| < 1 / 10000)).length ≤ X.length := by omega
        have h1 : 0 < 1 + (ys.takeWhile fun y => decide (|y - y0| < 1 / 10000)).length := by omega
        exact Nat.mul_pos h1 (Nat.div_pos hle h1)
  subst ho
  simp only at h
  split at h
  · rename_i x y hx hy
    obtain ⟨dx, hdx, rfl⟩ := mapM_id_map _ (fun d t => i'.origin.1 + d * ((t / i'.shape.2 : ℕ) : ℚ)) hpos.1 _ hx
    obtain ⟨dy, hdy, rfl⟩ := mapM_id_map _ (fun d t => i'.origin.2 + d * ((t % i'.shape.2 : ℕ) : ℚ)) hpos.1 _ hy
    have h := Except.ok.inj h
    subst h
    refine ⟨i'.shape.1, i'.shape.2, dx, dy, i'.origin.1, i'.origin.2, ?_, ?_, ?_⟩
    · simp only [hpos.2, ← hdx, ← hdy]
    · intro l hl
      simp only [List.mem_cons, List.not_mem_nil, or_false] at hl
      rcases hl with rfl | rfl
      · exact ⟨_, rfl, by simp⟩
      · exact ⟨_, rfl, by simp⟩
    · intro t ht
      refine ⟨?_, ?_⟩
      · rw [val_of_col (c := (List.range (i'.shape.1 * i'.shape.2)).map fun t => i'.origin.1 + dx * ((t / i'.shape.2 : ℕ) : ℚ)) rfl, getD_map_range _ _ _ ht]
      · rw [val_of_col (c := (List.range (i'.shape.1 * i'.shape.2)).map fun t => i'.origin.2 + dy * ((t % i'.shape.2 : ℕ) : ℚ)) rfl, getD_map_range _ _ _ ht]
  · cases h

/-! ## One file -/

theorem massRows_eq (m : Map) (n : ℕ) (h : m.2.1.shape.1 * m.2.1.shape.2 = n) :
    Gmx.massRows m.1 (ginfo m.2.1) = (List.range n).filter fun t => decide (val m.1 "M" t ≠ 0) := by
  unfold Gmx.massRows ginfo
  simp only [h]

/-- Writing any map on a grid in the gmx format and reading the file again: the origin of the information is taken for the corner of the first bin. -/
theorem gmx_file {F : F32} {m : Map} {nx ny : ℕ} {dx dy x1 y1 : ℚ} {or : ℚ × ℚ} (h : OnGrid m nx ny dx dy x1 y1 or) (hm : EnoughMass m.1 (nx * ny))
    (hs : SixDecimals m.2.1) : ∃ b m', Gmx.writeData F m.1 (ginfo m.2.1) = .ok b ∧ Gmx.isGmx b = true ∧ readDataFile F b = .ok m' ∧
      OnGrid m' nx ny dx dy (or.1 + dx / 2) (or.2 + dy / 2) or ∧ m'.2.2 = 0 ∧
      ∀ t, t < nx * ny → ∀ l ∈ ["N", "T", "M", "U", "V"], val m'.1 l t = if val m.1 "M" t ≠ 0 then F.rnd (val m.1 l t) else 0 := by
  have hi := h.info
  have hgi : ginfo m.2.1 = ⟨(nx, ny), (dx, dy), or⟩ := by rw [hi]; rfl
  unfold SixDecimals at hs
  rw [hi] at hs
  simp only [Option.map_some, Option.some.injEq] at hs
  obtain ⟨hs1, hs2, hs3⟩ := hs
  have hr : ∀ x, x = dx ∨ x = dy ∨ x = or.1 ∨ x = or.2 → PyText.round6 x = x := fun x hx => (Gmx.C47_six_decimals x).2 (hs3 x hx)
  have hn : Gmx.massRows m.1 (ginfo m.2.1) = [] ∨ 29 ≤ (Gmx.massRows m.1 (ginfo m.2.1)).length := by
    rw [massRows_eq m (nx * ny) (by rw [hi])]
    rcases hm with hm | hm
    · left
      rw [List.filter_eq_nil_iff]
      intro t ht
      simp [hm t (List.mem_range.mp ht)]
    · exact .inr hm
  obtain ⟨b, out, info, hw, hread, e1, e2, e3, e4, e5, e6, e7⟩ := Gmx.C47_round_trip_partial F m.1 (ginfo m.2.1) h.writable (by rw [hgi]; exact ⟨hs1, hs2⟩)
    (by rcases hn with hn | hn
        · exact .inl hn
        · exact .inr (.inl hn))
  rw [hgi] at e1 e2 e3 e4 e6 e7
  simp only [hr dx (by simp), hr dy (by simp), hr or.1 (by simp), hr or.2 (by simp)] at e2 e3 e7
  have hg : Gmx.isGmx b = true := Simple.C53_gmx_is_recognised F m.1 (ginfo m.2.1) none (by simp) b hw
  have hin : infoOfGmx info = .ok ⟨(nx, ny), (some dx, some dy), some or, nx * ny⟩ := by
    unfold infoOfGmx
    rw [e1, e2, e3, e4]
    have : ((nx : ℤ) * (ny : ℤ)).toNat = nx * ny := by rw [← Nat.cast_mul, Int.toNat_natCast]
    simp only [Int.toNat_natCast, this]
  refine ⟨b, (out, ⟨(nx, ny), (some dx, some dy), some or, nx * ny⟩, 0), hw, hg, ?_, ⟨rfl, e5, e6, ?_⟩, rfl, ?_⟩
  · unfold readDataFile
    rw [if_pos hg, hread, Gmx.ok_bind]
    simp only
    rw [hin]
    rfl
  · intro t ht
    obtain ⟨hx, hy, -⟩ := e7 t ht
    exact ⟨by rw [hx]; ring, by rw [hy]; ring⟩
  · intro t ht l hl
    exact (e7 t ht).2.2 l hl

/-! ## The series -/

theorem convertBytes_of (F : F32) (ftype : String) (given : Bool) (hf : ftype ∈ ["default", "gmx", "simple", "simple_plain"]) (pairs : List (Path × Path)) :
    ∀ fs fs', convertLoop (fun c => readDataFile F c >>= convertWrite F ftype given) id fs pairs = .ok fs' →
      convertBytes F ftype given fs pairs = (fs', .ok ()) := by
  induction pairs with
  | nil => intro fs fs' h; rw [convertLoop] at h; rw [convertBytes, Except.ok.inj h]
  | cons io rest ih =>
    intro fs fs' h
    obtain ⟨pin, pout⟩ := io
    rw [convertLoop] at h
    rw [convertBytes]
    unfold readPath
    cases hc : fs.get? pin with
    | none => rw [hc] at h; cases h
    | some c =>
      rw [hc] at h
      simp only [Option.elim_some] at h ⊢
      cases hm : readDataFile F c with
      | error e => rw [hm] at h; cases h
      | ok m =>
        rw [hm, Gmx.ok_bind] at h
        simp only
        rw [if_neg (not_not.mpr hf)]
        cases hb : convertWrite F ftype given m with
        | error e => rw [hb] at h; cases h
        | ok b =>
          rw [hb] at h
          simp only at h
          cases hp : preparePath fs pout with
          | error e => rw [hp] at h; cases h
          | ok fs1 =>
            rw [hp] at h
            simp only at h ⊢
            exact ih _ _ h

/-- **C114, the series.** If every file found can be read and its map written in the chosen format, the call returns and output `n` contains the map
that input `n` had before the call, in that format; all files but the outputs are unchanged. -/
theorem C114_series (F : F32) (ftype : String) (hf : ftype ∈ ["default", "gmx", "simple", "simple_plain"]) (fs : FS Bytes) (dir : Dir)
    (base output ext : Text) (outext : Option Text) (b : ℤ) (e : Option ℤ) (hslash : '/' ∉ outext.getD ext)
    (hdir : ∀ n, fileName base ext n ∈ dir → fs.get? (splitPath (fileName base ext n)) ≠ none)
    (hcross : ∀ m n, m < n → splitPath (fileName output (outext.getD ext) m) ≠ splitPath (fileName base ext n))
    (hout : outext = none ∨ ftype ∈ ["default", "gmx"])
    (hall : ∀ n, fileName base ext n ∈ yieldSingles dir base ext b e → ∀ c, fs.get? (splitPath (fileName base ext n)) = some c →
      ∃ m bytes, readDataFile F c = .ok m ∧ Simple.write F m.1 (some (ginfo m.2.1)) (some ftype) = .ok bytes) :
    (convertFiles F ftype fs dir base output ext outext b e).2 = .ok () ∧
    (∀ n, fileName base ext n ∈ yieldSingles dir base ext b e → ∃ c m bytes, fs.get? (splitPath (fileName base ext n)) = some c ∧ readDataFile F c = .ok m ∧
      Simple.write F m.1 (some (ginfo m.2.1)) (some ftype) = .ok bytes ∧
      (convertFiles F ftype fs dir base output ext outext b e).1.get? (splitPath (fileName output (outext.getD ext) n)) = some bytes) ∧
    ∀ p, fs.get? p ≠ none → (∀ n, fileName base ext n ∈ yieldSingles dir base ext b e → splitPath (fileName output (outext.getD ext) n) ≠ p) →
      (convertFiles F ftype fs dir base output ext outext b e).1.get? p = fs.get? p := by
  have hcw : ∀ m, convertWrite F ftype outext.isSome m = Simple.write F m.1 (some (ginfo m.2.1)) (some ftype) := by
    intro m
    unfold convertWrite
    rw [if_neg]
    rintro ⟨h1, h2⟩
    rcases hout with rfl | hout
    · cases h1
    · simp only [List.mem_cons, List.not_mem_nil, or_false] at hout h2
      rcases hout with rfl | rfl <;> simp at h2
  obtain ⟨fs', hconv, hres⟩ := C59_convert (fun c => readDataFile F c >>= convertWrite F ftype outext.isSome) id fs dir base output ext outext b e hslash hdir
    (by
      intro n hn c hc
      obtain ⟨m, bytes, h1, h2⟩ := hall n hn c hc
      exact ⟨bytes, by simp only [h1, Gmx.ok_bind, hcw, h2]⟩) hcross
  have hrun : convertFiles F ftype fs dir base output ext outext b e = (fs', .ok ()) := convertBytes_of F ftype _ hf _ fs fs' hconv
  rw [hrun]
  refine ⟨rfl, ?_, ?_⟩
  · intro n hn
    obtain ⟨c, d, hc, hd, ho⟩ := hres n hn
    obtain ⟨m, bytes, h1, h2⟩ := hall n hn c hc
    refine ⟨c, m, bytes, hc, h1, h2, ?_⟩
    simp only [h1, Gmx.ok_bind, hcw, h2, Except.ok.injEq] at hd
    rw [ho, ← hd]
    rfl
  · intro p hp hne
    obtain ⟨k, hfound, hpairs⟩ := C04_pairs dir base output ext outext b e
    refine convertLoop_keeps _ _ _ fs fs' p hp ?_ hconv
    intro io hio
    obtain ⟨io', hio', rfl⟩ := List.mem_map.mp hio
    rw [hpairs] at hio'
    obtain ⟨i, hi, rfl⟩ := List.mem_map.mp hio'
    exact hne _ (by rw [hfound]; exact List.mem_map.mpr ⟨i, hi, rfl⟩)

/-- **C114, gmx to gmx.** Converting a series of gmx files to gmx files: each output is read as the map of its input, on the same grid at the same positions,
with the values of each bin with mass in single precision. -/
theorem C114_gmx_to_gmx_partial (F : F32) (fs : FS Bytes) (dir : Dir) (base output ext : Text) (outext : Option Text) (b : ℤ) (e : Option ℤ)
    (hslash : '/' ∉ outext.getD ext) (hdir : ∀ n, fileName base ext n ∈ dir → fs.get? (splitPath (fileName base ext n)) ≠ none)
    (hcross : ∀ m n, m < n → splitPath (fileName output (outext.getD ext) m) ≠ splitPath (fileName base ext n))
    (hall : ∀ n, fileName base ext n ∈ yieldSingles dir base ext b e → ∀ c, fs.get? (splitPath (fileName base ext n)) = some c →
      Gmx.isGmx c = true ∧ ∃ m, readDataFile F c = .ok m ∧ EnoughMass m.1 (m.2.1.shape.1 * m.2.1.shape.2) ∧ SixDecimals m.2.1) :
    (convertFiles F "gmx" fs dir base output ext outext b e).2 = .ok () ∧
    ∀ n, fileName base ext n ∈ yieldSingles dir base ext b e → ∃ c m c' m', fs.get? (splitPath (fileName base ext n)) = some c ∧ readDataFile F c = .ok m ∧
      (convertFiles F "gmx" fs dir base output ext outext b e).1.get? (splitPath (fileName output (outext.getD ext) n)) = some c' ∧ readDataFile F c' = .ok m' ∧
      m'.2 = m.2 ∧ names m'.1 = names m.1 ∧ (∀ c ∈ m'.1, c.2.length = m.2.1.shape.1 * m.2.1.shape.2) ∧
      ∀ t, t < m.2.1.shape.1 * m.2.1.shape.2 → val m'.1 "X" t = val m.1 "X" t ∧ val m'.1 "Y" t = val m.1 "Y" t ∧
        ∀ l ∈ ["N", "T", "M", "U", "V"], val m'.1 l t = if val m.1 "M" t ≠ 0 then F.rnd (val m.1 l t) else 0 := by
  have key : ∀ c m, Gmx.isGmx c = true → readDataFile F c = .ok m → EnoughMass m.1 (m.2.1.shape.1 * m.2.1.shape.2) → SixDecimals m.2.1 →
      ∃ c' m', Simple.write F m.1 (some (ginfo m.2.1)) (some "gmx") = .ok c' ∧ readDataFile F c' = .ok m' ∧
      m'.2 = m.2 ∧ names m'.1 = names m.1 ∧ (∀ c ∈ m'.1, c.2.length = m.2.1.shape.1 * m.2.1.shape.2) ∧
      ∀ t, t < m.2.1.shape.1 * m.2.1.shape.2 → val m'.1 "X" t = val m.1 "X" t ∧ val m'.1 "Y" t = val m.1 "Y" t ∧
        ∀ l ∈ ["N", "T", "M", "U", "V"], val m'.1 l t = if val m.1 "M" t ≠ 0 then F.rnd (val m.1 l t) else 0 := by
    intro c m hg hm he hs
    obtain ⟨nx, ny, dx, dy, x0, y0, hG, hmod, -⟩ := readDataFile_gmx hg hm
    have hsh : m.2.1.shape.1 * m.2.1.shape.2 = nx * ny := by rw [hG.info]
    rw [hsh] at he ⊢
    obtain ⟨c', m', h1, -, h3, h4, h5, h6⟩ := gmx_file (F := F) hG he hs
    refine ⟨c', m', h1, h3, ?_, ?_, h4.sizes, ?_⟩
    · exact Prod.ext (by rw [h4.info, hG.info]) (by rw [h5, hmod])
    · rw [h4.labels, hG.labels]
    · intro t ht
      obtain ⟨a1, a2⟩ := h4.pos t ht
      obtain ⟨b1, b2⟩ := hG.pos t ht
      exact ⟨by rw [a1, b1], by rw [a2, b2], h6 t ht⟩
  obtain ⟨h1, h2, -⟩ := C114_series F "gmx" (by simp) fs dir base output ext outext b e hslash hdir hcross (.inr (by simp)) (by
    intro n hn c hc
    obtain ⟨hg, m, hm, he, hs⟩ := hall n hn c hc
    obtain ⟨c', m', h1, -⟩ := key c m hg hm he hs
    exact ⟨m, c', hm, h1⟩)
  refine ⟨h1, fun n hn => ?_⟩
  obtain ⟨c, m, bytes, hc, hm, hw, ho⟩ := h2 n hn
  obtain ⟨hg, m0, hm0, he, hs⟩ := hall n hn c hc
  rw [hm] at hm0
  have := Except.ok.inj hm0
  subst this
  obtain ⟨c', m', h1, h3⟩ := key c m hg hm he hs
  rw [hw] at h1
  have := Except.ok.inj h1
  subst this
  exact ⟨c, m, bytes, m', hc, hm, ho, h3⟩

theorem record_eq {r s : Record} {ls : List Label} {n : ℕ} (hr : names r = ls) (hs : names s = ls) (hnd : ls.Nodup) (hrl : ∀ c ∈ r, c.2.length = n)
    (hsl : ∀ c ∈ s, c.2.length = n) (hv : ∀ l ∈ ls, ∀ t, t < n → val r l t = val s l t) : r = s := by
  have hmem : ∀ (r : Record), (names r).Nodup → ∀ c ∈ r, col? r c.1 = some c.2 := by
    intro r
    induction r with
    | nil => simp
    | cons a r ih =>
      intro hn c hc
      unfold names at hn ih
      rw [List.map_cons, List.nodup_cons] at hn
      unfold col?
      rw [List.lookup_cons]
      rcases List.mem_cons.mp hc with rfl | hc
      · simp
      · have hne : c.1 ≠ a.1 := by
          intro h
          exact hn.1 (List.mem_map.mpr ⟨c, hc, h⟩)
        rw [beq_false_of_ne hne]
        exact ih hn.2 c hc
  have hlen : r.length = s.length := by
    have h1 := congrArg List.length hr
    have h2 := congrArg List.length hs
    unfold names at h1 h2
    rw [List.length_map] at h1 h2
    omega
  refine List.ext_getElem hlen fun k h1 h2 => ?_
  have hname : r[k].1 = s[k].1 := by
    have : (names r)[k]'(by unfold names; rw [List.length_map]; exact h1) = (names s)[k]'(by unfold names; rw [List.length_map]; exact h2) := by
      simp only [hr, hs]
    simpa [names] using this
  have hlab : r[k].1 ∈ ls := by rw [← hr]; exact List.mem_map.mpr ⟨_, List.getElem_mem _, rfl⟩
  refine Prod.ext hname ?_
  have e1 := hmem r (by rw [hr]; exact hnd) _ (List.getElem_mem h1)
  have e2 := hmem s (by rw [hs]; exact hnd) _ (List.getElem_mem h2)
  have l1 := hrl _ (List.getElem_mem h1)
  have l2 := hsl _ (List.getElem_mem h2)
  refine List.ext_getElem (by rw [l1, l2]) fun t g1 g2 => ?_
  have := hv _ hlab t (by omega)
  rw [val_of_col e1, hname, val_of_col e2, List.getD_eq_getElem?_getD, List.getD_eq_getElem?_getD, List.getElem?_eq_getElem g1, List.getElem?_eq_getElem g2,
    Option.getD_some, Option.getD_some] at this
  exact this

/-- **C114, nothing is lost from gmx to gmx.** In IEEE single precision, if no value is infinite and bins without mass are empty, each output is read as
exactly the map of its input. -/
theorem C114_gmx_to_gmx_identical_partial (fs : FS Bytes) (dir : Dir) (base output ext : Text) (outext : Option Text) (b : ℤ) (e : Option ℤ)
    (hslash : '/' ∉ outext.getD ext) (hdir : ∀ n, fileName base ext n ∈ dir → fs.get? (splitPath (fileName base ext n)) ≠ none)
    (hcross : ∀ m n, m < n → splitPath (fileName output (outext.getD ext) m) ≠ splitPath (fileName base ext n))
    (hall : ∀ n, fileName base ext n ∈ yieldSingles dir base ext b e → ∀ c, fs.get? (splitPath (fileName base ext n)) = some c →
      Gmx.isGmx c = true ∧ ∃ m, readDataFile ieee32 c = .ok m ∧ EnoughMass m.1 (m.2.1.shape.1 * m.2.1.shape.2) ∧ SixDecimals m.2.1 ∧
        (∀ t, t < m.2.1.shape.1 * m.2.1.shape.2 → ∀ l ∈ ["N", "T", "M", "U", "V"], |val m.1 l t| ≤ (2 ^ 24 - 1) * 2 ^ 104 ∧ (val m.1 "M" t = 0 → val m.1 l t = 0))) :
    ∀ n, fileName base ext n ∈ yieldSingles dir base ext b e → ∃ c c', fs.get? (splitPath (fileName base ext n)) = some c ∧
      (convertFiles ieee32 "gmx" fs dir base output ext outext b e).1.get? (splitPath (fileName output (outext.getD ext) n)) = some c' ∧
      (readDataFile ieee32 c).toOption.isSome = true ∧ readDataFile ieee32 c' = readDataFile ieee32 c := by
  intro n hn
  obtain ⟨-, h2⟩ := C114_gmx_to_gmx_partial ieee32 fs dir base output ext outext b e hslash hdir hcross (fun n hn c hc => by
    obtain ⟨hg, m, hm, he, hs, -⟩ := hall n hn c hc
    exact ⟨hg, m, hm, he, hs⟩)
  obtain ⟨c, m, c', m', hc, hm, ho, hm', e2, e3, e4, e5⟩ := h2 n hn
  obtain ⟨hg, m0, hm0, -, -, hv⟩ := hall n hn c hc
  rw [hm] at hm0
  have := Except.ok.inj hm0
  subst this
  refine ⟨c, c', hc, ho, by rw [hm]; rfl, ?_⟩
  obtain ⟨nx, ny, dx, dy, x0, y0, hG, hmod, hdec⟩ := readDataFile_gmx hg hm
  have hsh : m.2.1.shape.1 * m.2.1.shape.2 = nx * ny := by rw [hG.info]
  rw [hm, hm']
  refine congrArg Except.ok (Prod.ext ?_ e2)
  rw [hsh] at e4 e5 hv
  refine record_eq (e3.trans hG.labels) hG.labels (by decide) e4 hG.sizes ?_
  intro l hl t ht
  obtain ⟨a1, a2, a3⟩ := e5 t ht
  have key : l ∈ ["N", "T", "M", "U", "V"] → val m'.1 l t = val m.1 l t := by
    intro hl
    rw [a3 l hl]
    obtain ⟨hmax, hz⟩ := hv t ht l hl
    by_cases hM : val m.1 "M" t = 0
    · rw [if_neg (by simpa using hM), hz hM]
    · rw [if_pos hM]
      rcases hdec l hl t ht with h0 | ⟨b, hb⟩
      · rw [h0, ieee32_zero]
      · rw [hb] at hmax ⊢
        exact ieee32_dec b hmax
  simp only [List.mem_cons, List.not_mem_nil, or_false] at hl
  rcases hl with rfl | rfl | rfl | rfl | rfl | rfl | rfl
  · exact a1
  · exact a2
  all_goals exact key (by simp)

/-- **C114 is false from the simple formats to gmx.** Every map of a file in a simple format is moved by half a bin in both directions: that is how each output is
read. -/
theorem C114_simple_to_gmx_moves (F : F32) (fs : FS Bytes) (dir : Dir) (base output ext : Text) (outext : Option Text) (b : ℤ) (e : Option ℤ)
    (hslash : '/' ∉ outext.getD ext) (hdir : ∀ n, fileName base ext n ∈ dir → fs.get? (splitPath (fileName base ext n)) ≠ none)
    (hcross : ∀ m n, m < n → splitPath (fileName output (outext.getD ext) m) ≠ splitPath (fileName base ext n))
    (hall : ∀ n, fileName base ext n ∈ yieldSingles dir base ext b e → ∀ c, fs.get? (splitPath (fileName base ext n)) = some c →
      Gmx.isGmx c = false ∧ ∃ m, readDataFile F c = .ok m ∧ names m.1 = ["X", "Y", "N", "T", "M", "U", "V"] ∧
        (∀ c ∈ m.1, c.2.length = m.2.1.shape.1 * m.2.1.shape.2) ∧ EnoughMass m.1 (m.2.1.shape.1 * m.2.1.shape.2) ∧ SixDecimals m.2.1) :
    ∀ n, fileName base ext n ∈ yieldSingles dir base ext b e → ∃ c m c' m' dx dy, fs.get? (splitPath (fileName base ext n)) = some c ∧
      readDataFile F c = .ok m ∧ m.2.1.spacing = (some dx, some dy) ∧
      (convertFiles F "gmx" fs dir base output ext outext b e).1.get? (splitPath (fileName output (outext.getD ext) n)) = some c' ∧ readDataFile F c' = .ok m' ∧
      ∀ t, t < m.2.1.shape.1 * m.2.1.shape.2 → val m'.1 "X" t = val m.1 "X" t + dx / 2 ∧ val m'.1 "Y" t = val m.1 "Y" t + dy / 2 ∧
        ∀ l ∈ ["N", "T", "M", "U", "V"], val m'.1 l t = if val m.1 "M" t ≠ 0 then F.rnd (val m.1 l t) else 0 := by
  have key : ∀ c m, Gmx.isGmx c = false → readDataFile F c = .ok m → names m.1 = ["X", "Y", "N", "T", "M", "U", "V"] →
      (∀ c ∈ m.1, c.2.length = m.2.1.shape.1 * m.2.1.shape.2) → EnoughMass m.1 (m.2.1.shape.1 * m.2.1.shape.2) → SixDecimals m.2.1 →
      ∃ c' m' dx dy, m.2.1.spacing = (some dx, some dy) ∧ Simple.write F m.1 (some (ginfo m.2.1)) (some "gmx") = .ok c' ∧ readDataFile F c' = .ok m' ∧
      ∀ t, t < m.2.1.shape.1 * m.2.1.shape.2 → val m'.1 "X" t = val m.1 "X" t + dx / 2 ∧ val m'.1 "Y" t = val m.1 "Y" t + dy / 2 ∧
        ∀ l ∈ ["N", "T", "M", "U", "V"], val m'.1 l t = if val m.1 "M" t ≠ 0 then F.rnd (val m.1 l t) else 0 := by
    intro c m hg hm hn hl he hs
    obtain ⟨nx, ny, dx, dy, x0, y0, hi, -, hpos⟩ := readDataFile_simple hg hm
    have hsh : m.2.1.shape.1 * m.2.1.shape.2 = nx * ny := by rw [hi]
    rw [hsh] at he hl ⊢
    have hG : OnGrid m nx ny dx dy x0 y0 (x0, y0) := ⟨by rw [hi], hn, hl, hpos⟩
    obtain ⟨c', m', h1, -, h3, h4, h5, h6⟩ := gmx_file (F := F) hG he hs
    refine ⟨c', m', dx, dy, by rw [hi], h1, h3, ?_⟩
    intro t ht
    obtain ⟨a1, a2⟩ := h4.pos t ht
    obtain ⟨b1, b2⟩ := hpos t ht
    exact ⟨by rw [a1, b1]; ring, by rw [a2, b2]; ring, h6 t ht⟩
  obtain ⟨-, h2, -⟩ := C114_series F "gmx" (by simp) fs dir base output ext outext b e hslash hdir hcross (.inr (by simp)) (by
    intro n hn c hc
    obtain ⟨hg, m, hm, h1, h2, h3, h4⟩ := hall n hn c hc
    obtain ⟨c', m', dx, dy, -, h5, -⟩ := key c m hg hm h1 h2 h3 h4
    exact ⟨m, c', hm, h5⟩)
  intro n hn
  obtain ⟨c, m, bytes, hc, hm, hw, ho⟩ := h2 n hn
  obtain ⟨hg, m0, hm0, g1, g2, g3, g4⟩ := hall n hn c hc
  rw [hm] at hm0
  have := Except.ok.inj hm0
  subst this
  obtain ⟨c', m', dx, dy, h0, h1, h3⟩ := key c m hg hm g1 g2 g3 g4
  rw [hw] at h1
  have := Except.ok.inj h1
  subst this
  exact ⟨c, m, bytes, m', dx, dy, hc, hm, h0, ho, h3⟩

theorem mapM_id_some : ∀ (l : List (Option ℚ)), (∀ o ∈ l, ∃ x, o = some x) → ∃ xs : List ℚ, l.mapM id = some xs ∧ xs.length = l.length ∧
    ∀ t, t < l.length → l.getD t none = some (xs.getD t 0) := by
  intro l
  induction l with
  | nil => intro _; exact ⟨[], rfl, rfl, fun t ht => absurd ht (by simp)⟩
  | cons o l ih =>
    intro h
    obtain ⟨x, rfl⟩ := h o (by simp)
    obtain ⟨xs, h1, h2, h3⟩ := ih fun o ho => h o (by simp [ho])
    refine ⟨x :: xs, by rw [List.mapM_cons, h1]; rfl, by simp [h2], fun t ht => ?_⟩
    cases t with
    | zero => rfl
    | succ t => simpa using h3 t (by simpa using ht)

/-- What a simple file is read as, from the output of the simple reader. -/
theorem readDataFile_of_simple {F : F32} {c : Bytes} {out : Simple.Out} {info : Simple.SInfo} {nx ny : ℕ} (hg : Gmx.isGmx c = false)
    (hr : Simple.readData F c = .ok (out, info)) (hs : info.shape = (nx, ny)) (hnum : info.numBins = nx * ny) (hx : out.x.length = nx * ny) (hy : out.y.length = nx * ny)
    (hnames : names out.rest = ["N", "T", "M", "U", "V"]) (hsz : ∀ c ∈ out.rest, c.2.length = nx * ny)
    (hxs : ∀ t, t < nx * ny → ∃ x, out.x.getD t none = some x) (hys : ∀ t, t < nx * ny → ∃ y, out.y.getD t none = some y) :
    ∃ m, readDataFile F c = .ok m ∧ m.2 = (⟨(nx, ny), info.spacing, some info.origin, nx * ny⟩, 1) ∧ names m.1 = ["X", "Y", "N", "T", "M", "U", "V"] ∧
      (∀ c ∈ m.1, c.2.length = nx * ny) ∧ ∀ t, t < nx * ny → some (val m.1 "X" t) = out.x.getD t none ∧ some (val m.1 "Y" t) = out.y.getD t none ∧
        ∀ l ∈ ["N", "T", "M", "U", "V"], val m.1 l t = val out.rest l t := by
  have hmem : ∀ (l : List (Option ℚ)) (n : ℕ), l.length = n → (∀ t, t < n → ∃ x, l.getD t none = some x) → ∀ o ∈ l, ∃ x, o = some x := by
    intro l n hl h o ho
    obtain ⟨t, ht, rfl⟩ := List.getElem_of_mem ho
    obtain ⟨x, hx⟩ := h t (by omega)
    rw [List.getD_eq_getElem?_getD, List.getElem?_eq_getElem ht, Option.getD_some] at hx
    exact ⟨x, hx⟩
  obtain ⟨xs, a1, a2, a3⟩ := mapM_id_some out.x (hmem _ _ hx hxs)
  obtain ⟨ys, b1, b2, b3⟩ := mapM_id_some out.y (hmem _ _ hy hys)
  refine ⟨([("X", xs), ("Y", ys)] ++ out.rest, ⟨(nx, ny), info.spacing, some info.origin, nx * ny⟩, 1), ?_, rfl, ?_, ?_, ?_⟩
  · unfold readDataFile
    rw [if_neg (by simp [hg]), hr, Gmx.ok_bind]
    simp only [a1, b1, hs, hnum]
  · unfold names at hnames ⊢
    rw [List.map_append, hnames]
    rfl
  · intro c hc
    simp only [List.cons_append, List.nil_append, List.mem_cons] at hc
    rcases hc with rfl | rfl | hc
    · rw [a2, hx]
    · rw [b2, hy]
    · exact hsz c hc
  · intro t ht
    refine ⟨?_, ?_, ?_⟩
    · rw [a3 t (by omega), val_of_col (c := xs) rfl]
    · rw [b3 t (by omega), val_of_col (c := ys) rfl]
    · intro l hl
      have hX : l ≠ "X" := by rintro rfl; simp at hl
      have hY : l ≠ "Y" := by rintro rfl; simp at hl
      unfold val
      simp only [List.cons_append, List.nil_append, col?, List.lookup_cons, beq_false_of_ne hX, beq_false_of_ne hY]

theorem OnGrid.xMajor {m : Map} {nx ny : ℕ} {dx dy x1 y1 : ℚ} {or : ℚ × ℚ} (h : OnGrid m nx ny dx dy x1 y1 or) : Simple.XMajor m.1 (dx, dy) x1 y1 nx ny :=
  ⟨h.hasFields, fun t ht => (h.pos t ht).1, fun t ht => (h.pos t ht).2⟩

/-- **C114, to the simple formats.** Converting a series of files with maps on grids to one of the simple formats: each output is read as a map of the same shape, with its
positions within `ε` of those of the input, and with the values in the precision of the format, provided that this precision can tell the columns and rows apart and
the binary file is not taken for text or for a gmx file. -/
theorem C114_to_simple_partial (F : F32) (ftype : String) (g : ℚ → ℚ) (hft : (ftype = "simple" ∧ g = F.rnd) ∨ (ftype = "simple_plain" ∧ g = fun v => PyText.round6 (F.rnd v)))
    (fs : FS Bytes) (dir : Dir) (base output ext : Text) (b : ℤ) (e : Option ℤ)
    (hslash : '/' ∉ ext) (hdir : ∀ n, fileName base ext n ∈ dir → fs.get? (splitPath (fileName base ext n)) ≠ none)
    (hcross : ∀ m n, m < n → splitPath (fileName output ext m) ≠ splitPath (fileName base ext n)) (ε : ℚ)
    (hall : ∀ n, fileName base ext n ∈ yieldSingles dir base ext b e → ∀ c, fs.get? (splitPath (fileName base ext n)) = some c →
      ∃ m nx ny dx dy x1 y1 or, readDataFile F c = .ok m ∧ OnGrid m nx ny dx dy x1 y1 or ∧ 2 ≤ nx ∧ 2 ≤ ny ∧
        (∀ i : ℕ, i < nx → |Simple.round5 (g (x1 + dx * (i : ℚ))) - (x1 + dx * (i : ℚ))| ≤ ε) ∧
        (∀ j : ℕ, j < ny → |Simple.round5 (g (y1 + dy * (j : ℚ))) - (y1 + dy * (j : ℚ))| ≤ ε) ∧ 2 * ε ≤ dx ∧ 2 * ε + 1 / 10000 ≤ dy ∧
        (ftype = "simple" → F.enc x1 ≠ ascii "FORM".toList ∧ ∀ bytes, Simple.writeBinary F (.dict m.1) = .ok bytes → Simple.isBinary bytes = true)) :
    (convertFiles F ftype fs dir base output ext none b e).2 = .ok () ∧
    ∀ n, fileName base ext n ∈ yieldSingles dir base ext b e → ∃ c m c' m', fs.get? (splitPath (fileName base ext n)) = some c ∧ readDataFile F c = .ok m ∧
      (convertFiles F ftype fs dir base output ext none b e).1.get? (splitPath (fileName output ext n)) = some c' ∧ readDataFile F c' = .ok m' ∧
      m'.2.1.shape = m.2.1.shape ∧ m'.2.1.numBins = m.2.1.numBins ∧ m'.2.2 = 1 ∧ names m'.1 = names m.1 ∧ (∀ c ∈ m'.1, c.2.length = m.2.1.shape.1 * m.2.1.shape.2) ∧
      ∀ t, t < m.2.1.shape.1 * m.2.1.shape.2 → |val m'.1 "X" t - val m.1 "X" t| ≤ ε ∧ |val m'.1 "Y" t - val m.1 "Y" t| ≤ ε ∧
        ∀ l ∈ ["N", "T", "M", "U", "V"], val m'.1 l t = g (val m.1 l t) := by
  have key : ∀ c m nx ny dx dy x1 y1 or, readDataFile F c = .ok m → OnGrid m nx ny dx dy x1 y1 or → 2 ≤ nx → 2 ≤ ny →
      (∀ i : ℕ, i < nx → |Simple.round5 (g (x1 + dx * (i : ℚ))) - (x1 + dx * (i : ℚ))| ≤ ε) →
      (∀ j : ℕ, j < ny → |Simple.round5 (g (y1 + dy * (j : ℚ))) - (y1 + dy * (j : ℚ))| ≤ ε) → 2 * ε ≤ dx → 2 * ε + 1 / 10000 ≤ dy →
      (ftype = "simple" → F.enc x1 ≠ ascii "FORM".toList ∧ ∀ bytes, Simple.writeBinary F (.dict m.1) = .ok bytes → Simple.isBinary bytes = true) →
      ∃ c' m', Simple.write F m.1 (some (ginfo m.2.1)) (some ftype) = .ok c' ∧ readDataFile F c' = .ok m' ∧
      m'.2.1.shape = m.2.1.shape ∧ m'.2.1.numBins = m.2.1.numBins ∧ m'.2.2 = 1 ∧ names m'.1 = names m.1 ∧ (∀ c ∈ m'.1, c.2.length = m.2.1.shape.1 * m.2.1.shape.2) ∧
      ∀ t, t < m.2.1.shape.1 * m.2.1.shape.2 → |val m'.1 "X" t - val m.1 "X" t| ≤ ε ∧ |val m'.1 "Y" t - val m.1 "Y" t| ≤ ε ∧
        ∀ l ∈ ["N", "T", "M", "U", "V"], val m'.1 l t = g (val m.1 l t) := by
    intro c m nx ny dx dy x1 y1 or hm hG hnx hny hx hy hdx hdy hbin
    have hsh : m.2.1.shape.1 * m.2.1.shape.2 = nx * ny := by rw [hG.info]
    have hread : ∃ bytes out info, Simple.write F m.1 (some (ginfo m.2.1)) (some ftype) = .ok bytes ∧ Gmx.isGmx bytes = false ∧ Simple.readData F bytes = .ok (out, info) ∧
      info.shape = (nx, ny) ∧ info.numBins = nx * ny ∧ out.x.length = nx * ny ∧ out.y.length = nx * ny ∧
      names out.rest = ["N", "T", "M", "U", "V"] ∧ (∀ c ∈ out.rest, c.2.length = nx * ny) ∧
      ∀ t, t < nx * ny → (∃ x, out.x.getD t none = some x ∧ |x - val m.1 "X" t| ≤ ε) ∧ (∃ y, out.y.getD t none = some y ∧ |y - val m.1 "Y" t| ≤ ε) ∧
        ∀ l ∈ ["N", "T", "M", "U", "V"], val out.rest l t = g (val m.1 l t) := by
      rcases hft with ⟨rfl, rfl⟩ | ⟨rfl, rfl⟩
      · obtain ⟨bytes, out, info, h1, h2, h3⟩ := Simple.C50_round_trip_partial F m.1 (dx, dy) x1 y1 nx ny hG.xMajor hnx hny ε hx hy hdx hdy (hbin rfl).2
        have hX0 : val m.1 "X" 0 = x1 := by
          have := (hG.pos 0 (Nat.mul_pos (by omega) (by omega))).1
          rw [this, Nat.zero_div]
          simp
        exact ⟨bytes, out, info, h1, Simple.C53_binary_is_simple_partial F m.1 none bytes h1 (by rw [hX0]; exact (hbin rfl).1), h2, h3⟩
      · obtain ⟨bytes, out, info, h1, h2, h3⟩ := Simple.C51_text_round_trip_partial F m.1 (dx, dy) x1 y1 nx ny hG.xMajor hnx hny ε hx hy hdx hdy
        exact ⟨bytes, out, info, h1, Simple.C53_text_is_simple F m.1 none bytes h1, h2, h3⟩
    obtain ⟨bytes, out, info, h1, h2, h3, h4, h5, h6, h7, h8, h9, h10⟩ := hread
    obtain ⟨m', g1, g2, g3, g4, g5⟩ := readDataFile_of_simple h2 h3 h4 h5 h6 h7 h8 h9 (fun t ht => ⟨_, (h10 t ht).1.choose_spec.1⟩)
      (fun t ht => ⟨_, (h10 t ht).2.1.choose_spec.1⟩)
    refine ⟨bytes, m', h1, g1, by rw [g2, hG.info], by rw [g2, hG.info], by rw [g2], by rw [g3, hG.labels], by rw [hsh]; exact g4, ?_⟩
    rw [hsh]
    intro t ht
    obtain ⟨e1, e2, e3⟩ := g5 t ht
    obtain ⟨⟨x, k1, k2⟩, ⟨y, k3, k4⟩, k5⟩ := h10 t ht
    rw [k1] at e1
    rw [k3] at e2
    refine ⟨by rw [Option.some.inj e1]; exact k2, by rw [Option.some.inj e2]; exact k4, fun l hl => by rw [e3 l hl, k5 l hl]⟩
  obtain ⟨h1, h2, -⟩ := C114_series F ftype (by rcases hft with ⟨rfl, -⟩ | ⟨rfl, -⟩ <;> simp) fs dir base output ext none b e hslash hdir hcross (.inl rfl) (by
    intro n hn c hc
    obtain ⟨m, nx, ny, dx, dy, x1, y1, or, hm, k1, k2, k3, k4, k5, k6, k7, k8⟩ := hall n hn c hc
    obtain ⟨c', m', h5, -⟩ := key c m nx ny dx dy x1 y1 or hm k1 k2 k3 k4 k5 k6 k7 k8
    exact ⟨m, c', hm, h5⟩)
  refine ⟨h1, fun n hn => ?_⟩
  obtain ⟨c, m, bytes, hc, hm, hw, ho⟩ := h2 n hn
  obtain ⟨m0, nx, ny, dx, dy, x1, y1, or, hm0, k1, k2, k3, k4, k5, k6, k7, k8⟩ := hall n hn c hc
  rw [hm] at hm0
  have := Except.ok.inj hm0
  subst this
  obtain ⟨c', m', h5, h6⟩ := key c m nx ny dx dy x1 y1 or hm k1 k2 k3 k4 k5 k6 k7 k8
  rw [hw] at h5
  have := Except.ok.inj h5
  subst this
  exact ⟨c, m, bytes, m', hc, hm, ho, h6⟩

/-- **C114, with another extension the simple formats cannot be written.** Whatever the files are, a call with `outext` fails at its first file: nothing is written, while a
file that was at the place of the first output has been moved. -/
theorem C114_outext_simple_fails (F : F32) (ftype : String) (hf : ftype ∈ ["simple", "simple_plain"]) (fs : FS Bytes) (dir : Dir)
    (base output ext oext : Text) (b : ℤ) (e : Option ℤ) (h0 : fileName base ext b ∈ yieldSingles dir base ext b e) (c : Bytes) (m : Map)
    (hc : fs.get? (splitPath (fileName base ext b)) = some c) (hm : readDataFile F c = .ok m) :
    (convertFiles F ftype fs dir base output ext (some oext) b e).2 = .error .typeError ∧
    (convertFiles F ftype fs dir base output ext (some oext) b e).1.get? (splitPath (fileName output oext b)) = none := by
  obtain ⟨k, hfound, hpairs⟩ := C04_pairs dir base output ext (some oext) b e
  have hk : 0 < k := by
    rcases Nat.eq_zero_or_pos k with rfl | hk
    · rw [hfound] at h0; simp at h0
    · exact hk
  obtain ⟨k', rfl⟩ : ∃ k', k = k' + 1 := ⟨k - 1, by omega⟩
  unfold convertFiles
  rw [hpairs, List.range_succ_eq_map, List.map_cons, List.map_cons, convertBytes]
  simp only [Nat.cast_zero, add_zero, Option.getD_some, Option.isSome_some]
  unfold readPath
  rw [hc, Option.elim_some, hm]
  simp only
  rw [if_neg (by simp only [List.mem_cons, List.not_mem_nil, or_false] at hf ⊢; tauto)]
  obtain ⟨fs', hp, hnone, -⟩ := C06_prepare_path_safe fs (splitPath (fileName output oext b))
  rw [hp]
  have hw : convertWrite F ftype true m = .error .typeError := by
    unfold convertWrite
    rw [if_pos ⟨rfl, hf⟩]
  simp only [hw]
  exact ⟨trivial, hnone⟩

/-! ## C116 -/

/-- **C116.** The files are read in the order given, one map for each, until the first that cannot be read. -/
theorem C116_in_order (F : F32) (fs : FS Bytes) (ps : List Path) :
    ∃ k, k ≤ ps.length ∧ List.Forall₂ (fun p m => ∃ c, fs.get? p = some c ∧ readDataFile F c = .ok m) (ps.take k) (readFromFiles F fs ps).1 ∧
      ((k = ps.length ∧ (readFromFiles F fs ps).2 = .ok ()) ∨
        ∃ p err, ps[k]? = some p ∧ (readFromFiles F fs ps).2 = .error err ∧ (fs.get? p = none → err = .osError) ∧ ∀ c, fs.get? p = some c → readDataFile F c = .error err) := by
  induction ps with
  | nil => exact ⟨0, le_rfl, .nil, .inl ⟨rfl, rfl⟩⟩
  | cons p ps ih =>
    rw [readFromFiles]
    unfold readPath
    cases hc : fs.get? p with
    | none =>
      refine ⟨0, by simp, .nil, .inr ⟨p, .osError, rfl, rfl, fun _ => rfl, ?_⟩⟩
      intro c h
      rw [hc] at h
      cases h
    | some c =>
      simp only [Option.elim_some]
      cases hm : readDataFile F c with
      | error err =>
        refine ⟨0, by simp, .nil, .inr ⟨p, err, rfl, rfl, fun h => absurd (hc.symm.trans h) (by simp), ?_⟩⟩
        intro c' h
        rw [hc] at h
        cases h
        exact hm
      | ok m =>
        obtain ⟨k, h1, h2, h3⟩ := ih
        refine ⟨k + 1, by simpa using h1, ?_, ?_⟩
        · rw [List.take_succ_cons]
          exact .cons ⟨c, hc, hm⟩ h2
        · rcases h3 with ⟨rfl, h3⟩ | ⟨q, err, h3, h4, h5⟩
          · exact .inl ⟨rfl, h3⟩
          · exact .inr ⟨q, err, by simpa using h3, h4, h5⟩

/-- **C116, other files do not matter.** What is read depends on nothing but the contents of the files named. -/
theorem C116_local (F : F32) (fs fs' : FS Bytes) (ps : List Path) (h : ∀ p ∈ ps, fs.get? p = fs'.get? p) : readFromFiles F fs ps = readFromFiles F fs' ps := by
  induction ps with
  | nil => rfl
  | cons p ps ih =>
    rw [readFromFiles, readFromFiles]
    unfold readPath
    rw [h p (by simp), ih fun q hq => h q (by simp [hq])]

/-! ## Examples -/

/-- A map of 2 × 15 bins, all with mass. -/
def exRec : Record := [("X", (List.range 30).map fun t : ℕ => ((t / 15 : ℕ) : ℚ) / 2 + 1 / 4), ("Y", (List.range 30).map fun t : ℕ => ((t % 15 : ℕ) : ℚ) / 2 + 1 / 4),
  ("N", List.replicate 30 1), ("T", List.replicate 30 300), ("M", List.replicate 30 2), ("U", (List.range 30).map fun t : ℕ => (t : ℚ) / 4), ("V", List.replicate 30 0)]

/-- Its text in the simple format, and what that is read as. -/
def exText : Bytes := (Simple.writePlain ieee32 (.dict exRec)).toOption.getD []
def exMap : Map := (exRec, ⟨(2, 15), (some (1 / 2), some (1 / 2)), some (1 / 4, 1 / 4), 30⟩, 1)

theorem exText_read : readDataFile ieee32 exText = .ok exMap := by decide +kernel

/-- Its file in the gmx format, and what that is read as. -/
def exGmx : Bytes := (Gmx.writeData ieee32 exRec ⟨(2, 15), (1 / 2, 1 / 2), (0, 0)⟩).toOption.getD []
def exMapG : Map := (exRec, ⟨(2, 15), (some (1 / 2), some (1 / 2)), some (0, 0), 30⟩, 0)

theorem exGmx_read : readDataFile ieee32 exGmx = .ok exMapG := by decide +kernel

theorem exRec_mass : EnoughMass exRec (2 * 15) := .inr (by decide +kernel)

theorem exMapG_grid : OnGrid exMapG 2 15 (1 / 2) (1 / 2) (1 / 4) (1 / 4) (0, 0) := ⟨rfl, rfl, by decide +kernel, by decide +kernel⟩

theorem exMap_decimals : SixDecimals exMap.2.1 ∧ SixDecimals exMapG.2.1 := by
  refine ⟨⟨by decide +kernel, by decide +kernel, ?_⟩, ⟨by decide +kernel, by decide +kernel, ?_⟩⟩
  · intro x hx
    simp only [exMap, Option.map_some, Option.some.injEq, or_self_left] at hx
    rcases hx with rfl | rfl | rfl
    · exact ⟨500000, by norm_num⟩
    all_goals exact ⟨250000, by norm_num⟩
  · intro x hx
    simp only [exMapG, Option.map_some, Option.some.injEq, or_self_left] at hx
    rcases hx with rfl | rfl | rfl
    · exact ⟨500000, by norm_num⟩
    all_goals exact ⟨0, by norm_num⟩

/-- One file `a00001` with the given content. -/
def exFs1 (c : Bytes) : FS Bytes := [((".".toList, "a00001".toList), c)]

/-- The files found, and what holds of all of them. -/
theorem exFs1_found (c : Bytes) (P : Bytes → Prop) (hP : P c) : fileName "a".toList [] 1 ∈ yieldSingles ["a00001".toList] "a".toList [] 1 none ∧
    (∀ n, fileName "a".toList [] n ∈ ["a00001".toList] → (exFs1 c).get? (splitPath (fileName "a".toList [] n)) ≠ none) ∧
    ∀ n, fileName "a".toList [] n ∈ yieldSingles ["a00001".toList] "a".toList [] 1 none → ∀ c', (exFs1 c).get? (splitPath (fileName "a".toList [] n)) = some c' → P c' := by
  have hy : yieldSingles ["a00001".toList] "a".toList [] 1 none = ["a00001".toList] := by decide +kernel
  have hs : splitPath "a00001".toList = (".".toList, "a00001".toList) := by decide +kernel
  have hg : (exFs1 c).get? (".".toList, "a00001".toList) = some c := by
    unfold exFs1 FS.get?
    rw [List.find?_cons_of_pos (by simp)]
    rfl
  rw [hy]
  refine ⟨by decide +kernel, ?_, ?_⟩
  · intro n hn
    rw [List.mem_singleton.mp hn, hs, hg]
    simp
  · intro n hn c' hc'
    rw [List.mem_singleton.mp hn, hs, hg] at hc'
    rw [← Option.some.inj hc']
    exact hP

/-- The gmx file meets the hypotheses of the two theorems on gmx files. -/
example : ∀ n, fileName "a".toList [] n ∈ yieldSingles ["a00001".toList] "a".toList [] 1 none → ∀ c, (exFs1 exGmx).get? (splitPath (fileName "a".toList [] n)) = some c →
      Gmx.isGmx c = true ∧ ∃ m, readDataFile ieee32 c = .ok m ∧ EnoughMass m.1 (m.2.1.shape.1 * m.2.1.shape.2) ∧ SixDecimals m.2.1 ∧
        (∀ t, t < m.2.1.shape.1 * m.2.1.shape.2 → ∀ l ∈ ["N", "T", "M", "U", "V"], |val m.1 l t| ≤ (2 ^ 24 - 1) * 2 ^ 104 ∧ (val m.1 "M" t = 0 → val m.1 l t = 0)) :=
  (exFs1_found exGmx _ ⟨by decide +kernel, exMapG, exGmx_read, exRec_mass, exMap_decimals.2, by decide +kernel⟩).2.2

/-- The text file meets the hypotheses of `C114_simple_to_gmx_moves`. -/
example : ∀ n, fileName "a".toList [] n ∈ yieldSingles ["a00001".toList] "a".toList [] 1 none → ∀ c, (exFs1 exText).get? (splitPath (fileName "a".toList [] n)) = some c →
      Gmx.isGmx c = false ∧ ∃ m, readDataFile ieee32 c = .ok m ∧ names m.1 = ["X", "Y", "N", "T", "M", "U", "V"] ∧
        (∀ c ∈ m.1, c.2.length = m.2.1.shape.1 * m.2.1.shape.2) ∧ EnoughMass m.1 (m.2.1.shape.1 * m.2.1.shape.2) ∧ SixDecimals m.2.1 :=
  (exFs1_found exText _ ⟨by decide +kernel, exMap, exText_read, rfl, by decide +kernel, exRec_mass, exMap_decimals.1⟩).2.2

/-- The gmx file meets the hypotheses of `C114_to_simple_partial` with `ε = 0` for both formats. -/
example : ∀ n, fileName "a".toList [] n ∈ yieldSingles ["a00001".toList] "a".toList [] 1 none → ∀ c, (exFs1 exGmx).get? (splitPath (fileName "a".toList [] n)) = some c →
      ∃ m nx ny dx dy x1 y1 or, readDataFile ieee32 c = .ok m ∧ OnGrid m nx ny dx dy x1 y1 or ∧ 2 ≤ nx ∧ 2 ≤ ny ∧
        (∀ i : ℕ, i < nx → |Simple.round5 (ieee32.rnd (x1 + dx * (i : ℚ))) - (x1 + dx * (i : ℚ))| ≤ 0) ∧
        (∀ j : ℕ, j < ny → |Simple.round5 (ieee32.rnd (y1 + dy * (j : ℚ))) - (y1 + dy * (j : ℚ))| ≤ 0) ∧ 2 * 0 ≤ dx ∧ 2 * 0 + 1 / 10000 ≤ dy ∧
        ("simple" = "simple" → ieee32.enc x1 ≠ ascii "FORM".toList ∧ ∀ bytes, Simple.writeBinary ieee32 (.dict m.1) = .ok bytes → Simple.isBinary bytes = true) :=
  (exFs1_found exGmx _ ⟨exMapG, 2, 15, 1 / 2, 1 / 2, 1 / 4, 1 / 4, (0, 0), exGmx_read, exMapG_grid, by norm_num, by norm_num, by decide +kernel, by decide +kernel,
    by norm_num, by norm_num, fun _ => ⟨by decide +kernel, Simple.isBinary_of_eq (by decide +kernel)⟩⟩).2.2

example : ∀ n, fileName "a".toList [] n ∈ yieldSingles ["a00001".toList] "a".toList [] 1 none → ∀ c, (exFs1 exGmx).get? (splitPath (fileName "a".toList [] n)) = some c →
      ∃ m nx ny dx dy x1 y1 or, readDataFile ieee32 c = .ok m ∧ OnGrid m nx ny dx dy x1 y1 or ∧ 2 ≤ nx ∧ 2 ≤ ny ∧
        (∀ i : ℕ, i < nx → |Simple.round5 (PyText.round6 (ieee32.rnd (x1 + dx * (i : ℚ)))) - (x1 + dx * (i : ℚ))| ≤ 0) ∧
        (∀ j : ℕ, j < ny → |Simple.round5 (PyText.round6 (ieee32.rnd (y1 + dy * (j : ℚ)))) - (y1 + dy * (j : ℚ))| ≤ 0) ∧ 2 * 0 ≤ dx ∧ 2 * 0 + 1 / 10000 ≤ dy :=
  (exFs1_found exGmx _ ⟨exMapG, 2, 15, 1 / 2, 1 / 2, 1 / 4, 1 / 4, (0, 0), exGmx_read, exMapG_grid, by norm_num, by norm_num, by decide +kernel, by decide +kernel,
    by norm_num, by norm_num⟩).2.2

/-- The file to convert is found and readable (`C114_outext_simple_fails`), and what happens to it and to an output that is there already. -/
example : fileName "a".toList [] 1 ∈ yieldSingles ["a00001".toList] "a".toList [] 1 none ∧
    convertFiles ieee32 "simple_plain" (((".".toList, "b00001x".toList), [1]) :: exFs1 exGmx) ["a00001".toList] "a".toList "b".toList [] (some "x".toList) 1 none =
      (((".".toList, "#b00001x.1#".toList), [1]) :: exFs1 exGmx, .error .typeError) := by
  refine ⟨by decide +kernel, by decide +kernel⟩

/-- Reading: a file that is not there ends it. -/
example : readFromFiles ieee32 (exFs1 exGmx) [(".".toList, "a00001".toList), (".".toList, "a00002".toList), (".".toList, "a00001".toList)] =
    ([exMapG], .error .osError) := by decide +kernel

end Strata.Driver
