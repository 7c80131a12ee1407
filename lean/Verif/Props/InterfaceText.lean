import Verif.Proofs.InterfaceText
import Verif.Props.Files
import Verif.Props.InterfaceShape
import Verif.Props.InterfaceAngles
/-!
# C106–C108: interface files and the files of their samples
-/
namespace Strata.InterfaceText
open Strata Strata.Files Strata.PyText Strata.Flow Strata.Interface Strata.InterfaceFiles Strata.Cli Strata.SpreadingText Strata.Spec

/-! ## C106 -/

/-- **C106, one file.** An interface of at least two points that was written is read back point by point with three decimals. -/
theorem C106_read_back (h : Head) (hh : h.OneLine) (pts : List Point) (hl : 2 ≤ pts.length) :
    readPoints (interfaceFile h pts) = .ok (pts.map fun p => ⟨written p.x, written p.y⟩) ∧ ∀ x : ℚ, |written x - x| ≤ 1 / 2000 := by
  refine ⟨readPoints_interface h hh pts hl, fun x => ?_⟩
  rw [← rounded_eq_written]
  have := rounded_near 3 x
  norm_num at this ⊢
  exact this

/-- A header. -/
def exHead (input : Text) : Head := ⟨"Mon".toList, "1.0".toList, "/w".toList, [input], "None".toList, some ("None".toList, "None".toList, "1".toList)⟩

theorem exHead_oneLine (n : Text) (h : '\n' ∉ n) : (exHead n).OneLine :=
  ⟨by simp [exHead], by simp [exHead], by simp [exHead], by simpa [exHead] using h, by simp [exHead], by intro o ho; cases ho; decide⟩

example : readPoints (interfaceFile (exHead "a".toList) [⟨-1 / 3, 0⟩, ⟨1 / 2000, 1⟩]) = .ok [⟨-333 / 1000, 0⟩, ⟨0, 1⟩] := by decide +kernel

/-- **C106, short files.** Files with less than two points are refused. -/
theorem C106_short (h : Head) (hh : h.OneLine) (p : Point) :
    readPoints (interfaceFile h []) = .error .valueError ∧ readPoints (interfaceFile h [p]) = .error .typeError := by
  unfold readPoints readCoords
  rw [tableWords_interface h hh, tableWords_interface h hh]
  exact ⟨rfl, rfl⟩

section Files
variable {γ : Type}

theorem slash_fmt05 (n : ℤ) : '/' ∉ fmt05 n := by
  have hd : ∀ (s : Text) (a r : ℕ), readDigits a s = some r → '/' ∉ s := by
    intro s
    induction s with
    | nil => simp
    | cons c cs ih =>
      intro a r hr
      simp only [readDigits] at hr
      rcases hc : digitValue c with _ | d
      · simp [hc] at hr
      · rw [hc] at hr
        simp only [List.mem_cons, not_or]
        exact ⟨by rintro rfl; simp [digitValue] at hc, ih _ _ hr⟩
  have hp : ∀ w n, '/' ∉ padded w n := by
    intro w n
    have h := readNumeral_padded w n
    unfold readNumeral at h
    split at h
    · simp at h
    · exact hd _ _ _ h
  unfold fmt05
  split
  · exact hp _ _
  · simp [hp]

theorem splitPath_injective (base ext : Text) (hs : '/' ∉ ext) {m n : ℤ} (h : splitPath (Files.fileName base ext m) = splitPath (Files.fileName base ext n)) : m = n := by
  unfold Files.fileName at h
  rw [List.append_assoc, List.append_assoc, splitPath_append _ _ (by simp [slash_fmt05, hs]), splitPath_append _ _ (by simp [slash_fmt05, hs])] at h
  simp only [Prod.mk.injEq, true_and] at h
  exact fmt05_injective (List.append_cancel_right (List.append_cancel_left h))

theorem readSeries_of (text : γ → Text) (fs : FS γ) : ∀ (names : List Text) (files : List (List Point)),
    List.Forall₂ (fun n rows => ∃ c, fs.get? (splitPath n) = some c ∧ readPoints (text c) = .ok rows) names files → readSeries text fs names = .ok files := by
  intro names files h
  unfold readSeries
  induction h with
  | nil => rfl
  | @cons n rows _ _ h1 _ ih =>
    obtain ⟨c, hc, hr⟩ := h1
    rw [List.mapM_cons, ih]
    have : ((contentOf fs n).bind fun c => readPoints (text c)) = .ok rows := by
      unfold contentOf
      rw [hc]
      exact hr
    rw [this]
    rfl

/-- What a call of `collect_interfaces` leaves behind: the common part of the following theorems. -/
theorem collectSeries_spec (read : γ → Except Err Flow) (write : Text → γ) (head : Text → Head) (c : Centre) (o : Interface.Opts) (fs : FS γ) (dir : Dir)
    (base output ext : Text) (outext : Option Text) (b : ℤ) (e : Option ℤ) (maps : List Flow)
    (hmaps : List.Forall₂ (fun n f => (contentOf fs n).bind read = .ok f) (yieldSingles dir base ext b e) maps)
    (hslash : '/' ∉ outext.getD ".xvg".toList)
    (hcross : ∀ m n, m < n → splitPath (Files.fileName output (outext.getD ".xvg".toList) m) ≠ splitPath (Files.fileName base ext n)) :
    let fs' := (collectSeries read write head c o fs dir base output ext outext b e).1
    (collectSeries read write head c o fs dir base output ext outext b e).2 = (collectInterfaces c o none maps).2 ∧
    (collectInterfaces c o none maps).1.length ≤ maps.length ∧
    List.Forall₂ (fun n rows => ∃ pts, fileRows pts = rows ∧ 2 ≤ pts.length ∧ fs'.get? (splitPath n) = some (write (interfaceFile (head n) pts)))
      ((List.range (collectInterfaces c o none maps).1.length).map fun i : ℕ => Files.fileName output (outext.getD ".xvg".toList) (b + i)) (collectInterfaces c o none maps).1 ∧
    ∀ r, fs.get? r ≠ none → (∀ i : ℕ, i < maps.length → splitPath (Files.fileName output (outext.getD ".xvg".toList) (b + i)) ≠ r) → fs'.get? r = fs.get? r := by
  intro fs'
  obtain ⟨k, hfound, hpairs⟩ := C04_pairs dir base output ext (some (outext.getD ".xvg".toList)) b e
  rw [Option.getD_some] at hpairs
  have hk : k = maps.length := by
    have := hmaps.length_eq
    rw [hfound] at this
    simpa using this
  have hlen : (collectInterfaces c o none maps).1.length ≤ maps.length := by
    have : ∀ (maps : List Flow) (m : Memory), (collectInterfaces c o m maps).1.length ≤ maps.length := by
      intro maps
      induction maps with
      | nil => intro m; simp [collectInterfaces]
      | cons f fs ih =>
        intro m
        rw [collectInterfaces]
        split
        · simp
        · simpa using ih _
    exact this maps none
  have key := collectFiles_spec read write head c o (findSinglesToSingles dir base output ext (some (outext.getD ".xvg".toList)) b e) maps none fs ?_ ?_ ?_
  · obtain ⟨k1, k2, k3⟩ := key
    refine ⟨k1, hlen, ?_, ?_⟩
    · have hgood := collect_good c o maps none (by simp [Good])
      have hfs : (collectFiles read write head c o none fs (findSinglesToSingles dir base output ext (some (outext.getD ".xvg".toList)) b e)).1 = fs' := rfl
      rw [hfs, hpairs, ← List.map_take, List.take_range, min_eq_left (by omega), List.forall₂_map_left_iff] at k2
      rw [List.forall₂_map_left_iff]
      have k2' : List.Forall₂ (fun (i : ℕ) (rows : List Point) => rows ∈ (collectInterfaces c o none maps).1 ∧ ∃ pts, fileRows pts = rows ∧
          fs'.get? (splitPath (Files.fileName output (outext.getD ".xvg".toList) (b + i))) =
            some (write (interfaceFile (head (Files.fileName output (outext.getD ".xvg".toList) (b + i))) pts)))
          (List.range (collectInterfaces c o none maps).1.length) (collectInterfaces c o none maps).1 := by
        have := List.forall₂_iff_get.mp k2
        refine List.forall₂_iff_get.mpr ⟨this.1, fun i h1 h2 => ⟨List.get_mem _ _, this.2 i h1 h2⟩⟩
      refine k2'.imp ?_
      rintro i rows ⟨hm, pts, h1, h2⟩
      refine ⟨pts, h1, ?_, h2⟩
      obtain ⟨ys, g1, -, -, g2⟩ := hgood rows hm
      have := congrArg List.length g2
      rw [← h1] at this
      simp [fileRows] at this
      omega
    · intro r hr1 hr2
      refine k3 r hr1 ?_
      intro io hio
      rw [hpairs] at hio
      obtain ⟨i, hi, rfl⟩ := List.mem_map.mp hio
      exact hr2 i (by rw [← hk]; exact List.mem_range.mp hi)
  · rw [hpairs, List.forall₂_map_left_iff]
    rw [hfound, List.forall₂_map_left_iff] at hmaps
    exact hmaps
  · rw [hpairs, List.map_map]
    refine List.nodup_range.map (fun x y hxy => ?_)
    have := splitPath_injective _ _ hslash hxy
    omega
  · rw [hpairs, List.pairwise_map]
    refine List.pairwise_lt_range.imp ?_
    intro x y hxy
    exact hcross _ _ (by omega)

/-- **C106, the series (partial: the last number is given).** The maps of a series are collected and the interfaces are read again under the same numbers: whether or not the call
failed, the interfaces computed before are read back, in order and with three decimals, and nothing else.  `hcross`: no output
is at the same time the input of a later map. -/
theorem C106_series_partial (read : γ → Except Err Flow) (write : Text → γ) (text : γ → Text) (hcodec : ∀ t, text (write t) = t) (head : Text → Head)
    (hhead : ∀ n, (head n).OneLine) (c : Centre) (o : Interface.Opts) (fs : FS γ) (dir : Dir) (base output ext : Text) (outext : Option Text) (b : ℤ) (e : Option ℤ) (maps : List Flow)
    (hmaps : List.Forall₂ (fun n f => (contentOf fs n).bind read = .ok f) (yieldSingles dir base ext b e) maps)
    (hslash : '/' ∉ outext.getD ".xvg".toList)
    (hcross : ∀ m n, m < n → splitPath (Files.fileName output (outext.getD ".xvg".toList) m) ≠ splitPath (Files.fileName base ext n))
    (dir' : Dir) (hdir : Lists dir' (collectSeries read write head c o fs dir base output ext outext b e).1 output (outext.getD ".xvg".toList)) :
    (collectSeries read write head c o fs dir base output ext outext b e).2 = (collectInterfaces c o none maps).2 ∧
    readSeries text (collectSeries read write head c o fs dir base output ext outext b e).1
      (yieldSingles dir' output (outext.getD ".xvg".toList) b (some (b + ((collectInterfaces c o none maps).1.length : ℤ) - 1))) = .ok (collectInterfaces c o none maps).1 := by
  obtain ⟨h1, hlen, h2, -⟩ := collectSeries_spec read write head c o fs dir base output ext outext b e maps hmaps hslash hcross
  refine ⟨h1, ?_⟩
  obtain ⟨k, g1, g2, g3⟩ := C02_discovery_maximal_prefix dir' output (outext.getD ".xvg".toList) b (some (b + ((collectInterfaces c o none maps).1.length : ℤ) - 1))
  have hk : k = (collectInterfaces c o none maps).1.length := by
    rcases lt_trichotomy k (collectInterfaces c o none maps).1.length with h | h | h
    · have hex : Files.fileName output (outext.getD ".xvg".toList) (b + k) ∈ dir' := by
        rw [hdir]
        rw [List.forall₂_map_left_iff] at h2
        have := (List.forall₂_iff_get.mp h2).2 k (by simpa using h) h
        obtain ⟨pts, -, -, hp⟩ := this
        simp only [List.get_eq_getElem, List.getElem_range] at hp
        rw [hp]
        rfl
      obtain ⟨m, hm1, hm2⟩ := g3 hex
      simp only [Option.some.injEq] at hm1
      omega
    · exact h
    · have := (g2 (collectInterfaces c o none maps).1.length h).2 _ rfl
      omega
  rw [g1, hk]
  apply readSeries_of
  refine h2.imp ?_
  rintro n rows ⟨pts, p1, p2, p3⟩
  refine ⟨_, p3, ?_⟩
  rw [hcodec, ← p1]
  exact readPoints_interface _ (hhead n) pts p2

/-- **C106, counterexample: old files.** Without a last number a file left from an earlier run under the next number is taken for a part of the series. -/
theorem C106_old_files_counterexample (read : γ → Except Err Flow) (write : Text → γ) (head : Text → Head) (c : Centre) (o : Interface.Opts) (fs : FS γ) (dir : Dir)
    (base output ext : Text) (outext : Option Text) (b : ℤ) (e : Option ℤ) (maps : List Flow)
    (hmaps : List.Forall₂ (fun n f => (contentOf fs n).bind read = .ok f) (yieldSingles dir base ext b e) maps)
    (hslash : '/' ∉ outext.getD ".xvg".toList)
    (hcross : ∀ m n, m < n → splitPath (Files.fileName output (outext.getD ".xvg".toList) m) ≠ splitPath (Files.fileName base ext n))
    (hok : (collectInterfaces c o none maps).1.length = maps.length)
    (hold : (fs.get? (splitPath (Files.fileName output (outext.getD ".xvg".toList) (b + maps.length)))).isSome)
    (dir' : Dir) (hdir : Lists dir' (collectSeries read write head c o fs dir base output ext outext b e).1 output (outext.getD ".xvg".toList)) :
    Files.fileName output (outext.getD ".xvg".toList) (b + maps.length) ∈ yieldSingles dir' output (outext.getD ".xvg".toList) b none ∧
    (collectSeries read write head c o fs dir base output ext outext b e).1.get? (splitPath (Files.fileName output (outext.getD ".xvg".toList) (b + maps.length))) =
      fs.get? (splitPath (Files.fileName output (outext.getD ".xvg".toList) (b + maps.length))) := by
  obtain ⟨h1, hlen, h2, h3⟩ := collectSeries_spec read write head c o fs dir base output ext outext b e maps hmaps hslash hcross
  have hsame := h3 (splitPath (Files.fileName output (outext.getD ".xvg".toList) (b + maps.length))) (by
    intro h; rw [h] at hold; simp at hold) (by
    intro i hi h
    have := splitPath_injective _ _ hslash h
    omega)
  refine ⟨?_, hsame⟩
  rw [C02_discovery_mem_iff]
  refine ⟨by omega, by simp, ?_⟩
  intro j hj1 hj2
  rw [hdir]
  rcases lt_or_eq_of_le hj2 with hj | rfl
  · rw [List.forall₂_map_left_iff, hok] at h2
    have := (List.forall₂_iff_get.mp h2).2 (j - b).toNat (by simp; omega) (by omega)
    obtain ⟨pts, -, -, hp⟩ := this
    simp only [List.get_eq_getElem, List.getElem_range] at hp
    rw [show b + (((j - b).toNat : ℕ) : ℤ) = j by omega] at hp
    rw [hp]
    rfl
  · rw [hsame]
    exact hold

end Files

/-- There is a listing for every file system. -/
theorem lists_exists {γ : Type} (fs : FS γ) (base ext : Text) (hs : '/' ∉ ext) : ∃ dir, Lists dir fs base ext := by
  classical
  refine ⟨fs.filterMap fun e => if h : ∃ n : ℤ, splitPath (Files.fileName base ext n) = e.1 then some (Files.fileName base ext h.choose) else none, fun n => ?_⟩
  rw [List.mem_filterMap]
  have hex : (fs.get? (splitPath (Files.fileName base ext n))).isSome ↔ ∃ e ∈ fs, e.1 = splitPath (Files.fileName base ext n) := by
    rw [Option.isSome_iff_ne_none, ← exists?_iff, exists?_iff_mem, List.mem_map]
  rw [hex]
  constructor
  · rintro ⟨e, he, h⟩
    refine ⟨e, he, ?_⟩
    by_cases hx : ∃ n : ℤ, splitPath (Files.fileName base ext n) = e.1
    · rw [dif_pos hx, Option.some.injEq] at h
      rw [← h, hx.choose_spec]
    · rw [dif_neg hx] at h
      cases h
  · rintro ⟨e, he, h⟩
    refine ⟨e, he, ?_⟩
    have hx : ∃ n : ℤ, splitPath (Files.fileName base ext n) = e.1 := ⟨n, h.symm⟩
    rw [dif_pos hx, Option.some.injEq]
    congr 1
    exact splitPath_injective base ext hs (hx.choose_spec.trans h)

/-- Contents of files: texts or maps. -/
def exRead : Text ⊕ Flow → Except Err Flow
  | .inr f => .ok f
  | .inl _ => .error .valueError

/-- The text of a file. -/
def exText : Text ⊕ Flow → Text
  | .inl t => t
  | .inr _ => []

/-- Two maps, and two interfaces from an earlier run. -/
def exFs : FS (Text ⊕ Flow) :=
  [((".".toList, "a00001.dat".toList), .inr (crossingMap [1, 1, 0, 0, 0, 0, 1, 1, 1, 1])), ((".".toList, "a00002.dat".toList), .inr (crossingMap [1, 1, 1, 1, 0, 0, 0, 0, 1, 1])),
    ((".".toList, "o00001.xvg".toList), .inl "old".toList), ((".".toList, "o00003.xvg".toList), .inl "old".toList)]

/-- Their names. -/
def exDir : Dir := ["a00001.dat".toList, "a00002.dat".toList, "o00001.xvg".toList, "o00003.xvg".toList]

theorem exMaps : List.Forall₂ (fun n f => (contentOf exFs n).bind exRead = .ok f) (yieldSingles exDir "a".toList ".dat".toList 1 none)
    [crossingMap [1, 1, 0, 0, 0, 0, 1, 1, 1, 1], crossingMap [1, 1, 1, 1, 0, 0, 0, 0, 1, 1]] := by
  have h : yieldSingles exDir "a".toList ".dat".toList 1 none = ["a00001.dat".toList, "a00002.dat".toList] := by decide +kernel
  rw [h]
  exact .cons rfl (.cons rfl .nil)

theorem exCross (m n : ℤ) : splitPath (Files.fileName "o".toList ".xvg".toList m) ≠ splitPath (Files.fileName "a".toList ".dat".toList n) := by
  intro h
  unfold Files.fileName at h
  rw [List.append_assoc, List.append_assoc, splitPath_append _ _ (by simp [slash_fmt05]), splitPath_append _ _ (by simp [slash_fmt05])] at h
  have := congrArg (fun p : Files.Path => p.2.head?) h
  simp [splitPath] at this

/-- The hypotheses of `C106_series_partial` and of `C106_old_files_counterexample` are met. -/
example : ∃ dir', Lists dir' (collectSeries exRead Sum.inl (fun _ => exHead []) .zero crossingOpts exFs exDir "a".toList "o".toList ".dat".toList none 1 none).1 "o".toList ".xvg".toList ∧
    readSeries exText (collectSeries exRead Sum.inl (fun _ => exHead []) .zero crossingOpts exFs exDir "a".toList "o".toList ".dat".toList none 1 none).1
      (yieldSingles dir' "o".toList ".xvg".toList 1 (some 2)) = .ok [[⟨-1, 0⟩, ⟨-1, 1⟩, ⟨1, 1⟩, ⟨1, 0⟩], [⟨-1, 0⟩, ⟨-1, 1⟩, ⟨1, 1⟩, ⟨1, 0⟩]] ∧
    "o00003.xvg".toList ∈ yieldSingles dir' "o".toList ".xvg".toList 1 none := by
  obtain ⟨dir', hd⟩ := lists_exists (collectSeries exRead Sum.inl (fun _ => exHead []) .zero crossingOpts exFs exDir "a".toList "o".toList ".dat".toList none 1 none).1 "o".toList ".xvg".toList (by decide)
  have hc : (collectInterfaces .zero crossingOpts none [crossingMap [1, 1, 0, 0, 0, 0, 1, 1, 1, 1], crossingMap [1, 1, 1, 1, 0, 0, 0, 0, 1, 1]]).1 =
      [[⟨-1, 0⟩, ⟨-1, 1⟩, ⟨1, 1⟩, ⟨1, 0⟩], [⟨-1, 0⟩, ⟨-1, 1⟩, ⟨1, 1⟩, ⟨1, 0⟩]] := by decide +kernel
  refine ⟨dir', hd, ?_, ?_⟩
  · have := (C106_series_partial exRead Sum.inl exText (fun _ => rfl) (fun _ => exHead []) (fun _ => exHead_oneLine [] (by simp)) .zero crossingOpts exFs exDir "a".toList "o".toList ".dat".toList none 1 none _ exMaps (by decide)
      (fun m n _ => exCross m n) dir' hd).2
    rw [hc] at this
    exact this
  · have := (C106_old_files_counterexample exRead Sum.inl (fun _ => exHead []) .zero crossingOpts exFs exDir "a".toList "o".toList ".dat".toList none 1 none _ exMaps (by decide)
      (fun m n _ => exCross m n) (by rw [hc]; rfl) (by decide +kernel) dir' hd).1
    exact this

/-! ## C107 -/

/-- Lines of a header: comments. -/
def Comments (head : List Text) : Prop := ∀ l ∈ head, IsComment l ∧ '\n' ∉ l

theorem sampleHead_comments (date version base kind begin_ end_ dt : Text) (h1 : '\n' ∉ date) (h2 : '\n' ∉ version) (h3 : '\n' ∉ base) (h4 : '\n' ∉ kind) (h5 : '\n' ∉ begin_)
    (h6 : '\n' ∉ end_) (h7 : '\n' ∉ dt) : Comments (sampleHead date version base kind begin_ end_ dt) := by
  have app : ∀ s t : Text, '\n' ∉ s → '\n' ∉ t → '\n' ∉ s ++ t := by
    intro s t h1 h2 hc
    rcases List.mem_append.mp hc with h | h
    · exact h1 h
    · exact h2 h
  intro l hl
  unfold sampleHead at hl
  simp only [List.mem_cons, List.not_mem_nil, or_false] at hl
  rcases hl with rfl | rfl | rfl | rfl | rfl | rfl | rfl | rfl | rfl | rfl | rfl | rfl | rfl
  · exact ⟨rfl, by decide⟩
  · exact ⟨rfl, by decide⟩
  · exact ⟨rfl, by decide⟩
  · exact ⟨rfl, app _ _ (by decide) h1⟩
  · exact ⟨rfl, app _ _ (by decide) h2⟩
  · exact ⟨rfl, by decide⟩
  · exact ⟨rfl, by decide⟩
  · exact ⟨rfl, app _ _ (by decide) h3⟩
  · exact ⟨rfl, app _ _ (by decide) h4⟩
  · exact ⟨rfl, app _ _ (app _ _ (app _ _ (by decide) h5) (by decide)) h6⟩
  · exact ⟨rfl, app _ _ (by decide) h7⟩
  · exact ⟨rfl, by decide⟩
  · refine ⟨rfl, app _ _ (by decide) ?_⟩
    split_ifs <;> decide

/-- **C107.** The file of samples is a table with one row per sample: time and sample, with three decimals, in the order of the files; these are the values returned.  This also
holds for the file left behind if the call fails at some file. -/
theorem C107_sample_file (head : List Text) (hh : Comments head) (v : Variable) (dt : ℚ) (files : List (List Point)) :
    ∃ rows, IsTable (sampleFile head v dt files) rows ∧
      List.Forall₂ (fun (s : ℚ × ℝ) row => ∃ a b, row = [a, b] ∧ Shown (some (s.1 : ℝ)) a ∧ Shown (some s.2) b) (sampleLoop (sampleOf v) dt 0 files).1 rows := by
  unfold sampleFile IsTable
  generalize (sampleLoop (sampleOf v) dt 0 files).1 = samples
  have e : samples.map sampleLine = (samples.map fun s => [fixed 3 s.1, fixedReal 3 s.2]).map spaced := by
    rw [List.map_map]; rfl
  rw [e, tableWords_file _ _ hh]
  · induction samples with
    | nil => exact ⟨[], .nil, .nil⟩
    | cons s samples ih =>
      obtain ⟨rows, h1, h2⟩ := ih (by rw [List.map_map]; rfl)
      obtain ⟨a, ha1, ha2⟩ := shown_fixed s.1
      obtain ⟨b, hb1, hb2⟩ := shown_fixedReal s.2
      exact ⟨[a, b] :: rows, .cons (.cons ha1 (.cons hb1 .nil)) h1, .cons ⟨a, b, rfl, ha2, hb2⟩ h2⟩
  · intro r hr
    obtain ⟨s, -, rfl⟩ := List.mem_map.mp hr
    refine ⟨by simp, fun w hw => ?_⟩
    simp only [List.mem_cons, List.not_mem_nil, or_false] at hw
    rcases hw with rfl | rfl
    · exact word_fixed _ _
    · exact word_fixedReal _

/-- **C107, collected interfaces.** From collect to the file of samples: the row of map `i` has the time `i * delta_t` and the area enclosed by (or the length of) its interface. -/
theorem C107_collected (head : List Text) (hh : Comments head) (v : Variable) (hv : v ≠ .other) (dt : ℚ) (c : Centre) (o : Interface.Opts) (maps : List Flow) :
    (sampleLoop (sampleOf v) dt 0 (collectInterfaces c o none maps).1).2 = .ok () ∧
    ∃ rows, IsTable (sampleFile head v dt (collectInterfaces c o none maps).1) rows ∧ rows.length = (collectInterfaces c o none maps).1.length ∧
      ∀ (i : ℕ) (pts : List Point), (collectInterfaces c o none maps).1[i]? = some pts → ∃ a b, rows[i]? = some [a, b] ∧ Shown (some ((i : ℝ) * (dt : ℝ))) a ∧
        Shown (some (if v = .area then (polygonArea pts : ℝ) else pathLength pts)) b := by
  have hs : ∀ pts ∈ (collectInterfaces c o none maps).1, sampleOf v pts = .ok (if v = .area then (polygonArea pts : ℝ) else pathLength pts) := by
    intro pts hp
    cases v with
    | other => exact absurd rfl hv
    | length =>
      simp only [sampleOf, C68_length_is_path]
      rfl
    | area =>
      simp only [sampleOf, C68_collected c o maps pts hp]
      rfl
  have ht := C88_times (sampleOf v) dt (collectInterfaces c o none maps).1 (fun f hf e he => by rw [hs f hf] at he; cases he)
  have hm : (sampleLoop (sampleOf v) dt 0 (collectInterfaces c o none maps).1).1 =
      (collectInterfaces c o none maps).1.zipIdx.map fun fk => (((fk.2 : ℕ) : ℚ) * dt, if v = .area then (polygonArea fk.1 : ℝ) else pathLength fk.1) := by
    rw [ht]
    simp only
    rw [← congrFun (List.filterMap_eq_map (f := fun fk : List Point × ℕ => (((fk.2 : ℕ) : ℚ) * dt, if v = .area then (polygonArea fk.1 : ℝ) else pathLength fk.1))) _]
    apply List.filterMap_congr
    rintro ⟨f, k⟩ hfk
    have hf : f ∈ (collectInterfaces c o none maps).1 := by
      have h := (List.mem_zipIdx hfk).2.2
      rw [h]
      exact List.getElem_mem _
    simp only [hs f hf, Function.comp]
  refine ⟨by rw [ht], ?_⟩
  obtain ⟨rows, h1, h2⟩ := C107_sample_file head hh v dt (collectInterfaces c o none maps).1
  rw [hm, List.forall₂_map_left_iff] at h2
  refine ⟨rows, h1, by simpa using h2.length_eq.symm, fun i pts hi => ?_⟩
  have hl := h2.length_eq
  rw [List.length_zipIdx] at hl
  obtain ⟨hi', hpt⟩ := List.getElem?_eq_some_iff.mp hi
  obtain ⟨a, b, g1, g2, g3⟩ := (List.forall₂_iff_get.mp h2).2 i (by simpa using hi') (by omega)
  simp only [List.get_eq_getElem, List.getElem_zipIdx, Nat.zero_add, hpt] at g1 g2 g3
  refine ⟨a, b, ?_, ?_, g3⟩
  · rw [← g1]
    exact List.getElem?_eq_getElem _
  · push_cast at g2
    exact g2

/-- A header and a file of areas. -/
example : Comments (sampleHead "Mon".toList "1.0".toList "'/w/o'".toList "'area'".toList "1".toList "inf".toList "1.0".toList) ∧
    (sampleLoop (sampleOf .area) (1 / 3) 0 [[⟨0, 0⟩, ⟨1, 5⟩], [⟨-1, 0⟩, ⟨-1, 1⟩, ⟨1, 1⟩, ⟨1, 0⟩]]).1 = [(1 / 3, 2)] := by
  refine ⟨sampleHead_comments _ _ _ _ _ _ _ (by decide) (by decide) (by decide) (by decide) (by decide) (by decide) (by decide), ?_⟩
  have h1 : area [0, 1] [0, 5] = .error .typeError := by decide +kernel
  have h2 : area [-1, -1, 1, 1] [0, 1, 1, 0] = .ok 2 := by decide +kernel
  simp [sampleLoop, sampleOf, h1, h2, Except.map]

/-! ## C108 -/

theorem contactAngles_none (fit : Bool) (height : Option ℚ) (dt : ℚ) (files : List (List Point)) (times : List ℚ) (A : Angles)
    (hok : contactAngles fit height dt files = .ok (times, A)) : (height = none → A.measured = []) ∧ (fit = false → A.fit = []) ∧ (height = none → fit = false → times = []) := by
  unfold contactAngles at hok
  obtain ⟨rows, hrows, hok⟩ := Simple.bind_eq_ok hok
  have hF := contactAngles_rows hrows
  simp only [Except.ok.injEq, Prod.mk.injEq] at hok
  obtain ⟨ht, rfl⟩ := hok
  refine ⟨?_, ?_, ?_⟩
  · rintro rfl
    have : rows.filterMap Prod.snd = [] := by
      rw [List.filterMap_eq_nil_iff]
      intro r hr
      obtain ⟨n, hn, rfl⟩ := List.mem_iff_getElem.mp hr
      have := (List.forall₂_iff_get.mp hF).2 n (by rw [hF.length_eq]; exact hn) hn
      unfold angleRow at this
      obtain ⟨f', -, h⟩ := Simple.bind_eq_ok this
      have h := Except.ok.inj h
      rw [List.get_eq_getElem] at h
      rw [← h]
    simp [this]
  · rintro rfl
    rw [List.filterMap_eq_nil_iff]
    intro r hr
    obtain ⟨n, hn, rfl⟩ := List.mem_iff_getElem.mp hr
    have := (List.forall₂_iff_get.mp hF).2 n (by rw [hF.length_eq]; exact hn) hn
    unfold angleRow fitIf at this
    simp only [Bool.false_eq_true, if_false] at this
    obtain ⟨f', hf', h⟩ := Simple.bind_eq_ok this
    cases hf'
    rw [List.get_eq_getElem] at h
    split at h
    · exact (congrArg Prod.fst (Except.ok.inj h)).symm
    · obtain ⟨a, -, h⟩ := Simple.bind_eq_ok h
      obtain ⟨b, -, h⟩ := Simple.bind_eq_ok h
      exact (congrArg Prod.fst (Except.ok.inj h)).symm
  · rintro rfl rfl
    simpa using ht.symm

/-- The columns of row `i`. -/
noncomputable def angleCells (fit : Bool) (height : Option ℚ) (times : List ℚ) (A : Angles) (i : ℕ) : List (Option ℝ) :=
  [(times[i]?).map fun t : ℚ => (t : ℝ)] ++ (if height.isSome then [(A.measured[i]?).join, (A.left[i]?).join, (A.right[i]?).join] else []) ++ (if fit then [A.fit[i]?] else [])

/-- **C108.** The file of contact angles is a table with one row per time returned: the time, the mean and the angles of the left and right edge if a height was given, and the
fitted angle if the fit was asked for, in this order and with three decimals (`nan` where undefined). -/
theorem C108_angle_file (head : List Text) (hh : Comments head) (fit : Bool) (height : Option ℚ) (dt : ℚ) (files : List (List Point)) (times : List ℚ) (A : Angles)
    (hok : contactAngles fit height dt files = .ok (times, A)) :
    ∃ rows, IsTable (angleFile head times A) rows ∧ rows.length = times.length ∧
      ∀ i row, rows[i]? = some row → List.Forall₂ Shown (angleCells fit height times A i) row := by
  have hlegend : Comments (head ++ [angleLegend A]) := by
    intro l hl
    rcases List.mem_append.mp hl with hl | hl
    · exact hh l hl
    · rw [List.mem_singleton] at hl
      subst hl
      refine ⟨rfl, ?_⟩
      unfold angleLegend
      split_ifs <;> decide
  have hcells : ∀ i < times.length, ((angleColumns times A).map fun col => (col[i]?).getD none) = angleCells fit height times A i := by
    intro i hi
    obtain ⟨n1, n2, n3⟩ := contactAngles_none fit height dt files times A hok
    have hm : height.isSome → A.measured.isEmpty = false := by
      intro h
      obtain ⟨x, rfl⟩ := Option.isSome_iff_exists.mp h
      obtain ⟨ht, -, -, hm⟩ := C88_measured_angles fit x dt files times A hok
      rw [ht] at hi
      rw [List.isEmpty_eq_false_iff, ← List.length_pos_iff, ← hm.length_eq]
      simp at hi
      omega
    have hf : fit = true → A.fit.isEmpty = false := by
      rintro rfl
      obtain ⟨hf, ht⟩ := C88_fitted_angles height dt files times A hok
      rw [ht] at hi
      rw [List.isEmpty_eq_false_iff, ← List.length_pos_iff, ← hf.length_eq]
      simp at hi
      omega
    have hj : ∀ l : List (Option ℝ), (l[i]?).getD none = (l[i]?).join := by
      intro l
      cases l[i]? <;> rfl
    unfold angleColumns angleCells
    rw [List.map_append, List.map_append]
    congr 1
    · congr 1
      · simp only [List.map_cons, List.map_nil, List.getElem?_map]
        congr 1
        cases times[i]? <;> rfl
      · cases height with
        | none => simp [n1 rfl]
        | some x => simp [hm rfl, hj]
    · cases fit with
      | false => simp [n2 rfl]
      | true =>
        simp only [hf rfl, Bool.false_eq_true, if_false, if_true, List.map_cons, List.map_nil, List.getElem?_map]
        congr 1
        cases A.fit[i]? <;> rfl
  unfold angleFile IsTable
  have e : ((angleRows times A).map fun r => spaced (r.map (fixedOption 3))) = ((angleRows times A).map fun r => r.map (fixedOption 3)).map spaced := by
    rw [List.map_map]; rfl
  rw [e, tableWords_file _ _ hlegend]
  · have hshown : ∀ l : List (Option ℝ), ∃ row, List.Forall₂ FloatText (l.map (fixedOption 3)) row ∧ List.Forall₂ Shown l row := by
      intro l
      induction l with
      | nil => exact ⟨[], .nil, .nil⟩
      | cons a l ih =>
        obtain ⟨row, h1, h2⟩ := ih
        obtain ⟨v, h3, h4⟩ := shown_fixedOption a
        exact ⟨v :: row, .cons h3 h1, .cons h4 h2⟩
    have hall : ∀ l : List (List (Option ℝ)), ∃ rows, List.Forall₂ (List.Forall₂ FloatText) (l.map fun r => r.map (fixedOption 3)) rows ∧ List.Forall₂ (List.Forall₂ Shown) l rows := by
      intro l
      induction l with
      | nil => exact ⟨[], .nil, .nil⟩
      | cons a l ih =>
        obtain ⟨rows, h1, h2⟩ := ih
        obtain ⟨v, h3, h4⟩ := hshown a
        exact ⟨v :: rows, .cons h3 h1, .cons h4 h2⟩
    obtain ⟨rows, h1, h2⟩ := hall (angleRows times A)
    have hl : rows.length = times.length := by
      rw [← h2.length_eq]
      simp [angleRows]
    refine ⟨rows, h1, hl, fun i row hi => ?_⟩
    obtain ⟨hi', hr⟩ := List.getElem?_eq_some_iff.mp hi
    have := (List.forall₂_iff_get.mp h2).2 i (by rw [h2.length_eq]; exact hi') hi'
    simp only [List.get_eq_getElem] at this
    rw [hr] at this
    simp only [angleRows, List.getElem_map, List.getElem_range] at this
    rw [hcells i (by omega)] at this
    exact this
  · intro r hr
    obtain ⟨s, hs, rfl⟩ := List.mem_map.mp hr
    refine ⟨?_, fun w hw => ?_⟩
    · obtain ⟨i, -, rfl⟩ := List.mem_map.mp hs
      simp [angleColumns]
    · obtain ⟨x, -, rfl⟩ := List.mem_map.mp hw
      exact word_fixedOption x

/-- Two droplets, height and fit: the file has two rows. -/
example : ∃ times A rows, contactAngles true (some 1) 10 [fromLayers [(0, 6, 0), (1, 5, 1), (2, 4, 2)], fromLayers [(0, 6, 0), (0, 6, 1)]] = .ok (times, A) ∧
    IsTable (angleFile [] times A) rows ∧ rows.length = 2 := by
  obtain ⟨⟨times, A⟩, h⟩ := exAngles_ok
  obtain ⟨rows, h1, h2, -⟩ := C108_angle_file [] (by intro l hl; cases hl) true (some 1) 10 _ times A h
  refine ⟨times, A, rows, h, h1, ?_⟩
  rw [h2, (C88_measured_angles true 1 10 _ times A h).1]
  rfl

/-- **C108.** The line with the names of the columns names the columns that are there. -/
theorem C108_legend (fit : Bool) (height : Option ℚ) (dt : ℚ) (files : List (List Point)) (times : List ℚ) (A : Angles) (hne : files ≠ [])
    (hok : contactAngles fit height dt files = .ok (times, A)) :
    angleLegend A = "# t (ps)".toList ++ (if height.isSome then " Mean (deg.) Left (deg.) Right (deg.)".toList else []) ++ (if fit then " Fit (deg.)".toList else []) := by
  obtain ⟨n1, n2, -⟩ := contactAngles_none fit height dt files times A hok
  unfold angleLegend
  congr 1
  · congr 1
    cases height with
    | none => simp [n1 rfl]
    | some x =>
      obtain ⟨-, -, -, hm⟩ := C88_measured_angles fit x dt files times A hok
      have : A.measured.isEmpty = false := by
        rw [List.isEmpty_eq_false_iff, ← List.length_pos_iff, ← hm.length_eq]
        exact List.length_pos_iff.mpr hne
      simp [this]
  · cases fit with
    | false => simp [n2 rfl]
    | true =>
      obtain ⟨hf, -⟩ := C88_fitted_angles height dt files times A hok
      have : A.fit.isEmpty = false := by
        rw [List.isEmpty_eq_false_iff, ← List.length_pos_iff, ← hf.length_eq]
        exact List.length_pos_iff.mpr hne
      simp [this]

/-- **C107.** A file of the series that is missing when its turn comes ends the reading with `OSError`, if those before it can be read. -/
theorem C107_missing (text : γ → Text) (fs : FS γ) (before : List Text) (n : Text) (after : List Text) (files : List (List Point))
    (h : List.Forall₂ (fun n rows => ∃ c, fs.get? (splitPath n) = some c ∧ readPoints (text c) = .ok rows) before files) (hn : fs.get? (splitPath n) = none) :
    readSeries text fs (before ++ n :: after) = .error .osError := by
  unfold readSeries
  induction h with
  | nil =>
    rw [List.nil_append, List.mapM_cons]
    have : ((contentOf fs n).bind fun c => readPoints (text c)) = .error .osError := by
      unfold contentOf
      rw [hn]
      rfl
    rw [this]
    rfl
  | @cons m rows _ _ h1 _ ih =>
    obtain ⟨c, hc, hr⟩ := h1
    rw [List.cons_append, List.mapM_cons, ih]
    have : ((contentOf fs m).bind fun c => readPoints (text c)) = .ok rows := by
      unfold contentOf
      rw [hc]
      exact hr
    rw [this]
    rfl

example : readSeries (γ := Text) id [] ([] ++ "a00001.xvg".toList :: []) = .error .osError := C107_missing id [] [] _ [] [] .nil rfl

/-- **C108.** Values that are rational are written like all other numbers: the decimal nearest to the value, and of two the one with the even last digit. -/
theorem C108_ties (k : ℕ) (q : ℚ) : fixedReal k (q : ℝ) = fixed k q := by
  have hr : ∀ x : ℚ, roundReal (x : ℝ) = Average.pyRound x := by
    intro x
    unfold roundReal Average.pyRound
    simp only [Rat.floor_cast]
    have e : ((x : ℝ) - (⌊x⌋ : ℝ)) = ((x - (⌊x⌋ : ℚ) : ℚ) : ℝ) := by push_cast; rfl
    have h1 : (x : ℝ) - (⌊x⌋ : ℝ) < 1 / 2 ↔ x - (⌊x⌋ : ℚ) < 1 / 2 := by
      rw [e, show (1 / 2 : ℝ) = ((1 / 2 : ℚ) : ℝ) by norm_num, Rat.cast_lt]
    have h2 : (1 / 2 : ℝ) < (x : ℝ) - (⌊x⌋ : ℝ) ↔ 1 / 2 < x - (⌊x⌋ : ℚ) := by
      rw [e, show (1 / 2 : ℝ) = ((1 / 2 : ℚ) : ℝ) by norm_num, Rat.cast_lt]
    simp only [h1, h2]
  unfold fixedReal fixed
  have e : |(q : ℝ)| * 10 ^ k = ((|q| * 10 ^ k : ℚ) : ℝ) := by push_cast; rfl
  have h0 : (q : ℝ) < 0 ↔ q < 0 := by exact_mod_cast Iff.rfl
  rw [e, hr]
  simp only [h0]

example : fixedReal 3 ((5 / 10000 : ℚ) : ℝ) = "0.000".toList ∧ fixedReal 3 ((15 / 10000 : ℚ) : ℝ) = "0.002".toList ∧ fixedReal 3 ((25 / 10000 : ℚ) : ℝ) = "0.002".toList := by
  refine ⟨?_, ?_, ?_⟩ <;> rw [C108_ties] <;> decide +kernel

/-- **C108.** The header of a file of angles is made of comments. -/
theorem C108_head (date version base begin_ end_ height dt : Text) (h1 : '\n' ∉ date) (h2 : '\n' ∉ version) (h3 : '\n' ∉ base) (h4 : '\n' ∉ begin_)
    (h5 : '\n' ∉ end_) (h6 : '\n' ∉ height) (h7 : '\n' ∉ dt) : Comments (angleHead date version base begin_ end_ height dt) := by
  have app : ∀ s t : Text, '\n' ∉ s → '\n' ∉ t → '\n' ∉ s ++ t := by
    intro s t h1 h2 hc
    rcases List.mem_append.mp hc with h | h
    · exact h1 h
    · exact h2 h
  intro l hl
  unfold angleHead at hl
  simp only [List.mem_cons, List.not_mem_nil, or_false] at hl
  rcases hl with rfl | rfl | rfl | rfl | rfl | rfl | rfl | rfl | rfl | rfl | rfl | rfl | rfl
  · exact ⟨rfl, by decide⟩
  · exact ⟨rfl, by decide⟩
  · exact ⟨rfl, by decide⟩
  · exact ⟨rfl, app _ _ (by decide) h1⟩
  · exact ⟨rfl, app _ _ (by decide) h2⟩
  · exact ⟨rfl, by decide⟩
  · exact ⟨rfl, by decide⟩
  · exact ⟨rfl, app _ _ (by decide) h3⟩
  · exact ⟨rfl, app _ _ (app _ _ (app _ _ (by decide) h4) (by decide)) h5⟩
  · exact ⟨rfl, app _ _ (by decide) h6⟩
  · exact ⟨rfl, app _ _ (by decide) h7⟩
  · exact ⟨rfl, by decide⟩
  · exact ⟨rfl, by decide⟩

example : Comments (angleHead "Mon".toList "1.0".toList "'/w/o'".toList "1".toList "inf".toList "2.0".toList "1.0".toList) :=
  C108_head _ _ _ _ _ _ _ (by decide) (by decide) (by decide) (by decide) (by decide) (by decide) (by decide)

end Strata.InterfaceText
