import Verif.Proofs.Killed
import Verif.Props.Driver
import Verif.Props.ReadFiles
/-!
# C127: series that are interrupted
-/
namespace Strata.Killed
open Strata Strata.Files Strata.Driver Strata.Flow Strata.Bytes

/-- The listing `dir` has the numbered files that exist. -/
def Lists (dir : Dir) (fs : FS Bytes) (base ext : Text) : Prop :=
  ∀ n, fileName base ext n ∈ dir ↔ fs.get? (splitPath (fileName base ext n)) ≠ none

/-- What is left of the old file of an output and the new one, `b`, when the write is interrupted: the old state, no file, or a file with the first bytes of `b`. -/
def HalfWritten (old new : Option Bytes) (b : Bytes) : Prop := new = old ∨ new = none ∨ ∃ x, x <+: b ∧ new = some x

theorem fmt05_nohash (n : ℤ) : '#' ∉ fmt05 n := by
  intro hmem
  have key : ∀ (s : Text) (a r : ℕ), Spec.readDigits a s = some r → '#' ∉ s := by
    intro s
    induction s with
    | nil => simp
    | cons c cs ih =>
      intro a r hr
      simp only [Spec.readDigits] at hr
      rcases hc : Spec.digitValue c with _ | d
      · simp [hc] at hr
      · rw [hc] at hr
        simp only [List.mem_cons, not_or]
        exact ⟨by rintro rfl; simp [Spec.digitValue] at hc, ih _ _ hr⟩
  have hp : ∀ w n, '#' ∉ padded w n := by
    intro w n
    have h := readNumeral_padded w n
    unfold Spec.readNumeral at h
    split at h
    · simp at h
    · exact key _ _ _ h
  unfold fmt05 at hmem
  split at hmem
  · exact hp _ _ hmem
  · simp [hp] at hmem

theorem fmt05_ne_nil (n : ℤ) : fmt05 n ≠ [] := by
  unfold fmt05 padded
  split
  · simp [decimal_ne_nil]
  · simp

/-- Numbered files are not copies of other files, unless the extension looks like one. -/
theorem not_backup (base ext : Text) (n : ℤ) (hs : '/' ∉ ext) (hh : ext.getLast? ≠ some '#') (q : Path) (i : ℕ) :
    splitPath (fileName base ext n) ≠ backupPath q i := by
  intro h
  unfold fileName at h
  rw [List.append_assoc, splitPath_append _ _ (by simp [fmt05_noslash, hs])] at h
  have h2 := congrArg (fun p : Path => p.2.getLast?) h
  simp only [backupPath] at h2
  rw [List.getLast?_append, List.getLast?_append] at h2
  simp only [List.getLast?_append, List.getLast?_singleton, Option.some_or] at h2
  cases he : ext.getLast? with
  | some c =>
    rw [he] at h2
    simp only [Option.some_or, Option.some.injEq] at h2
    rw [he, h2] at hh
    exact hh rfl
  | none =>
    rw [he] at h2
    cases hf : (fmt05 n).getLast? with
    | none => exact fmt05_ne_nil n (List.getLast?_eq_none_iff.mp hf)
    | some c =>
      rw [hf] at h2
      simp only [Option.none_or, Option.some_or, Option.some.injEq] at h2
      rw [h2] at hf
      exact fmt05_nohash n (List.mem_of_getLast? hf)

theorem start_unique {b s t : ℤ} {g : ℕ} (hs : b ≤ s * g ∧ (s - 1) * g < b) (ht : b ≤ t * g ∧ (t - 1) * g < b) : s = t := by
  have h1 : (s - 1) * g < t * g := by omega
  have h2 : (t - 1) * g < s * g := by omega
  have hg : (0 : ℤ) ≤ g := by positivity
  have h3 := lt_of_mul_lt_mul_right h1 hg
  have h4 := lt_of_mul_lt_mul_right h2 hg
  omega

/-- The rounds of `average`. -/
theorem averageJobs_eq {dir : Dir} {base output ext : Text} {outext : Option Text} {g : ℕ} (hg : 1 ≤ g) {rolling : Bool} {b : ℤ} {e : Option ℤ} {start : ℤ}
    (h1 : rolling = true → start = b) (h2 : rolling = false → b ≤ start * g ∧ (start - 1) * g < b)
    {k : ℕ} (hk : ∀ i, i < k → Complete dir base ext b e g rolling i) (hk' : ¬ Complete dir base ext b e g rolling k) :
    averageJobs dir base output ext outext g rolling b e =
      (List.range k).map fun i : ℕ => ((groupFiles base ext b g rolling i).map splitPath, splitPath (fileName output (outext.getD ext) (start + i))) := by
  obtain ⟨s, h3, h4, hfound⟩ := groups_found dir base output ext outext g hg rolling b e k hk hk'
  obtain rfl : s = start := by
    cases rolling with
    | true => rw [h1 rfl, h3 rfl]
    | false => exact start_unique (h4 rfl) (h2 rfl)
  unfold averageJobs
  rw [hfound, List.map_map]
  rfl

section
variable (read : Bytes → Except Err Map) (write : Record → DInfo → Option Bytes × Except Err Unit)
  (edges : Flow → Except Err (Option ℚ × Option ℚ)) (o : Opts)

/-- A series of `k` groups that `average` can read, average and write, with the contents of the outputs. -/
structure CanAverage (fs : FS Bytes) (dir : Dir) (base ext : Text) (b : ℤ) (e : Option ℤ) (g : ℕ) (rolling : Bool) (k : ℕ) (content : ℕ → Bytes) : Prop where
  complete : ∀ i, i < k → Complete dir base ext b e g rolling i
  ends : ¬ Complete dir base ext b e g rolling k
  works : ∀ i, i < k → ∃ maps avg info, ReadsAs read fs (groupFiles base ext b g rolling i) maps ∧ averageGroup edges o maps = .ok (avg, info) ∧
    write avg info = (some (content i), .ok ())

variable {read write edges o}

theorem CanAverage.writes {fs : FS Bytes} {dir : Dir} {base ext : Text} {b : ℤ} {e : Option ℤ} {g : ℕ} {rolling : Bool} {k : ℕ} {content : ℕ → Bytes}
    (h : CanAverage read write edges o fs dir base ext b e g rolling k content) (out : ℕ → Path) :
    Writes (averageContent read write edges o) fs ((List.range k).map fun i : ℕ => ((groupFiles base ext b g rolling i).map splitPath, out i))
      ((List.range k).map content) := by
  unfold Writes
  rw [List.forall₂_map_left_iff, List.forall₂_map_right_iff, List.forall₂_same]
  intro i hi
  obtain ⟨maps, avg, info, h1, h2, h3⟩ := h.works i (List.mem_range.mp hi)
  refine ⟨?_, ?_⟩
  · rw [averageContent_eq]
    exact ⟨avg, info, by rw [readGroup_of h1, Gmx.ok_bind, h2], h3⟩
  · exact readGroup_present (readGroup_of h1)

theorem outs_apart (output oext : Text) (start : ℤ) (hs : '/' ∉ oext) (hh : oext.getLast? ≠ some '#') (k : ℕ) (f : ℕ → List Path) :
    Apart (((List.range k).map fun i : ℕ => (f i, splitPath (fileName output oext (start + i)))).map Prod.snd) := by
  rw [List.map_map]
  refine ⟨List.nodup_range.map fun x y hxy => ?_, ?_⟩
  · have := splitPath_fileName_injective _ _ hs hxy
    omega
  · intro p hp q _ i
    obtain ⟨j, -, rfl⟩ := List.mem_map.mp hp
    exact not_backup _ _ _ hs hh q i

/-- **C127, interrupted averages.** The process averaging `k` groups ends at any time: while output `n` is prepared or written, after any number of steps and bytes.
All outputs before it are complete, all after it are as they were; its own output is as it was, missing, or a beginning of the
new file; every other file is unchanged; and all contents that existed still do (a replaced output under another name), with those of the
outputs that are complete and at most one incomplete file. -/
theorem C127_average_killed (chunks : Bytes → List Bytes) (hch : ∀ b, (chunks b).flatten = b) (fs : FS Bytes) (hw : (fs.map Prod.fst).Nodup)
    (dir : Dir) (base output ext : Text) (outext : Option Text) (g : ℕ) (hg : 1 ≤ g) (rolling : Bool) (b : ℤ) (e : Option ℤ) (start : ℤ)
    (h1 : rolling = true → start = b) (h2 : rolling = false → b ≤ start * g ∧ (start - 1) * g < b)
    (hslash : '/' ∉ outext.getD ext) (hhash : (outext.getD ext).getLast? ≠ some '#') (k : ℕ) (content : ℕ → Bytes)
    (hcan : CanAverage read write edges o fs dir base ext b e g rolling k content)
    (hcross : ∀ i i', i < i' → i' < k → splitPath (fileName output (outext.getD ext) (start + i)) ∉ (groupFiles base ext b g rolling i').map splitPath)
    (n steps bytes : ℕ) (fs' : FS Bytes) (hfs' : fs' = killedAverage read write chunks edges o fs dir base output ext outext g rolling b e n steps bytes) :
    (∀ i : ℕ, i < k → i < n → fs'.get? (splitPath (fileName output (outext.getD ext) (start + i))) = some (content i)) ∧
    (∀ i : ℕ, i < k → n < i → fs'.get? (splitPath (fileName output (outext.getD ext) (start + i))) = fs.get? (splitPath (fileName output (outext.getD ext) (start + i)))) ∧
    (n < k → HalfWritten (fs.get? (splitPath (fileName output (outext.getD ext) (start + n))))
      (fs'.get? (splitPath (fileName output (outext.getD ext) (start + n)))) (content n)) ∧
    (∀ p, fs.get? p ≠ none → (∀ i : ℕ, i < k → splitPath (fileName output (outext.getD ext) (start + i)) ≠ p) → fs'.get? p = fs.get? p) ∧
    ∃ extra : List Bytes, extra.length ≤ 1 ∧ (∀ x ∈ extra, n < k ∧ x <+: content n) ∧
      (fs'.map Prod.snd).Perm (extra ++ (List.range (min n k)).map content ++ fs.map Prod.snd) := by
  unfold killedAverage at hfs'
  rw [averageJobs_eq hg h1 h2 hcan.complete hcan.ends] at hfs'
  obtain ⟨-, ⟨extra, e1, e2, e3⟩, s3, s4⟩ := killed_spec hch _ _ fs n steps bytes hw (hcan.writes fun i => splitPath (fileName output (outext.getD ext) (start + i)))
    (outs_apart output _ start hslash hhash k _) (by
      rw [List.pairwise_map]
      refine List.Pairwise.imp_of_mem ?_ List.pairwise_lt_range
      intro x y _ hy hxy
      exact hcross x y hxy (List.mem_range.mp hy))
  rw [← hfs'] at e3 s3 s4
  have hget : ∀ i, i < k → (List.range k)[i]? = some i := fun i hi => by rw [List.getElem?_range hi]
  refine ⟨?_, ?_, ?_, ?_, extra, e1, ?_, ?_⟩
  · intro i hi hin
    exact (s3 i _ (content i) (by rw [List.getElem?_map, hget i hi, Option.map_some]) (by rw [List.getElem?_map, hget i hi, Option.map_some])).1 hin
  · intro i hi hin
    exact (s3 i _ (content i) (by rw [List.getElem?_map, hget i hi, Option.map_some]) (by rw [List.getElem?_map, hget i hi, Option.map_some])).2.1 hin
  · intro hi
    exact (s3 n _ (content n) (by rw [List.getElem?_map, hget n hi, Option.map_some]) (by rw [List.getElem?_map, hget n hi, Option.map_some])).2.2 rfl
  · intro p hp hne
    refine s4 p ?_ (.inl hp)
    rw [List.map_map, List.mem_map]
    rintro ⟨i, hi, rfl⟩
    exact hne i (List.mem_range.mp hi) rfl
  · intro x hx
    obtain ⟨c, hc, hxc⟩ := e2 x hx
    rw [List.getElem?_map, Option.map_eq_some_iff] at hc
    obtain ⟨i, hi, rfl⟩ := hc
    rw [List.getElem?_eq_some_iff] at hi
    obtain ⟨hlt, hi⟩ := hi
    rw [List.length_range] at hlt
    rw [List.getElem_range] at hi
    subst hi
    exact ⟨hlt, hxc⟩
  · rw [← List.map_take, List.take_range] at e3
    exact e3

/-- **C127, averaging again.** Calling `average` again after it was interrupted at any time gives all outputs of an undisturbed run, if no output has the name of an input. -/
theorem C127_average_again (chunks : Bytes → List Bytes) (hch : ∀ b, (chunks b).flatten = b) (fs : FS Bytes) (hw : (fs.map Prod.fst).Nodup)
    (dir : Dir) (base output ext : Text) (outext : Option Text) (g : ℕ) (hg : 1 ≤ g) (rolling : Bool) (b : ℤ) (e : Option ℤ) (start : ℤ)
    (h1 : rolling = true → start = b) (h2 : rolling = false → b ≤ start * g ∧ (start - 1) * g < b)
    (hslash : '/' ∉ outext.getD ext) (hhash : (outext.getD ext).getLast? ≠ some '#') (hslash' : '/' ∉ ext) (hhash' : ext.getLast? ≠ some '#')
    (k : ℕ) (content : ℕ → Bytes)
    (hcan : CanAverage read write edges o fs dir base ext b e g rolling k content) (hdir : Lists dir fs base ext)
    (hsep : ∀ m n, splitPath (fileName output (outext.getD ext) m) ≠ splitPath (fileName base ext n))
    (n steps bytes : ℕ) (fs' : FS Bytes) (hfs' : fs' = killedAverage read write chunks edges o fs dir base output ext outext g rolling b e n steps bytes)
    (dir' : Dir) (hdir' : Lists dir' fs' base ext) :
    (o.quiet = false → (average read write edges o fs' dir' base output ext outext g rolling b e).2 = .ok ()) ∧
    (∀ i : ℕ, i < k → (average read write edges o fs' dir' base output ext outext g rolling b e).1.get? (splitPath (fileName output (outext.getD ext) (start + i))) =
      some (content i)) ∧
    (∀ p, fs.get? p ≠ none → (∀ i : ℕ, i < k → splitPath (fileName output (outext.getD ext) (start + i)) ≠ p) →
      (average read write edges o fs' dir' base output ext outext g rolling b e).1.get? p = fs.get? p) ∧
    ∃ extra : List Bytes, ((average read write edges o fs' dir' base output ext outext g rolling b e).1.map Prod.snd).Perm (extra ++ fs.map Prod.snd) := by
  have hcross : ∀ i i', i < i' → i' < k →
      splitPath (fileName output (outext.getD ext) (start + (i : ℕ))) ∉ (groupFiles base ext b g rolling i').map splitPath := by
    intro i i' _ _ hmem
    unfold groupFiles at hmem
    rw [List.map_map] at hmem
    obtain ⟨j, -, hj⟩ := List.mem_map.mp hmem
    exact hsep _ _ hj.symm
  have hpair : ((List.range k).map fun i : ℕ => ((groupFiles base ext b g rolling i).map splitPath, splitPath (fileName output (outext.getD ext) (start + i)))).Pairwise
      (fun a b => a.2 ∉ b.1) := by
    rw [List.pairwise_map]
    refine List.Pairwise.imp_of_mem ?_ List.pairwise_lt_range
    intro x y _ hy hxy
    exact hcross x y hxy (List.mem_range.mp hy)
  have hap := outs_apart output (outext.getD ext) start hslash hhash k fun i => (groupFiles base ext b g rolling i).map splitPath
  unfold killedAverage at hfs'
  rw [averageJobs_eq hg h1 h2 hcan.complete hcan.ends] at hfs'
  have hW := hcan.writes fun i => splitPath (fileName output (outext.getD ext) (start + i))
  obtain ⟨w1, ⟨extra, e1, e2, e3⟩, s3, s4⟩ := killed_spec hch _ _ fs n steps bytes hw hW hap hpair
  rw [← hfs'] at w1 e3 s3 s4
  -- the inputs are as before
  have hin : ∀ m, fs'.get? (splitPath (fileName base ext m)) = fs.get? (splitPath (fileName base ext m)) := by
    intro m
    refine s4 _ ?_ (.inr fun q _ i => not_backup _ _ _ hslash' hhash' q i)
    rw [List.map_map, List.mem_map]
    rintro ⟨i, -, hi⟩
    exact hsep _ _ hi
  have hd : ∀ m, fileName base ext m ∈ dir' ↔ fileName base ext m ∈ dir := by
    intro m
    rw [hdir' m, hdir m, hin m]
  have hc : ∀ i, Complete dir' base ext b e g rolling i ↔ Complete dir base ext b e g rolling i := by
    intro i
    unfold Complete
    simp only [hd]
  have hcan' : CanAverage read write edges o fs' dir' base ext b e g rolling k content := by
    refine ⟨fun i hi => (hc i).mpr (hcan.complete i hi), fun h => hcan.ends ((hc k).mp h), ?_⟩
    intro i hi
    obtain ⟨maps, avg, info, r1, r2, r3⟩ := hcan.works i hi
    refine ⟨maps, avg, info, ?_, r2, r3⟩
    unfold ReadsAs groupFiles at r1 ⊢
    rw [List.forall₂_map_left_iff] at r1 ⊢
    refine r1.imp ?_
    intro j m hjm
    rw [hin]
    exact hjm
  have hW' := hcan'.writes fun i => splitPath (fileName output (outext.getD ext) (start + i))
  have hrun := averageLoop_jobs (chunks := chunks) read write edges o hch _ _ fs' w1 hW' hpair
  obtain ⟨-, r2, r3, r4⟩ := runJobs_spec hch _ _ fs' w1 hW' hap.1 hpair
  have hav : average read write edges o fs' dir' base output ext outext g rolling b e = averageLoop read write edges o fs'
      ((List.range k).map fun i : ℕ => ((groupFiles base ext b g rolling i).map splitPath, splitPath (fileName output (outext.getD ext) (start + i)))) := by
    rw [← averageJobs_eq hg h1 h2 hcan'.complete hcan'.ends]
    rfl
  rw [hav, hrun]
  refine ⟨?_, ?_, ?_, ?_⟩
  · intro hq
    rw [hq]
    rfl
  · intro i hi
    rw [List.forall₂_map_left_iff, List.forall₂_map_right_iff, List.forall₂_same] at r3
    exact r3 i (List.mem_range.mpr hi)
  · intro p hp hne
    have hp' : p ∉ List.map Prod.snd ((List.range k).map fun i : ℕ => ((groupFiles base ext b g rolling i).map splitPath,
        splitPath (fileName output (outext.getD ext) (start + i)))) := by
      rw [List.map_map, List.mem_map]
      rintro ⟨i, hi, rfl⟩
      exact hne i (List.mem_range.mp hi) rfl
    have h5 := s4 p hp' (.inl hp)
    show (runJobs _ chunks fs' _).get? p = _
    rw [r4 p hp' (.inl (by rw [h5]; exact hp)), h5]
  · refine ⟨(List.range k).map content ++ (extra ++ ((List.range k).map content).take n), ?_⟩
    rw [List.append_assoc]
    exact r2.trans (e3.append_left _)

end

/-! ### A series of one-bin maps, each in a file of one byte -/

/-- A reader for files of one byte, the mass of the only bin. -/
def exRead : Bytes → Except Err Map
  | [b] => .ok ([("X", [0]), ("Y", [0]), ("N", [1]), ("T", [0]), ("M", [(b.toNat : ℚ)]), ("U", [0]), ("V", [0])], ⟨(1, 1), (some 1, some 1), some (0, 0), 1⟩, 0)
  | _ => .error .valueError

/-- A writer of such files. -/
def exWrite (d : Record) (_ : DInfo) : Option Bytes × Except Err Unit := (some [UInt8.ofNat ⌊Average.val d "M" 0⌋.toNat], .ok ())

/-- Files `a00001` to `a00004` with masses 2, 6, 10 and 20, and an old `b00001`. -/
def exFs : FS Bytes := [(splitPath "a00001".toList, [2]), (splitPath "a00002".toList, [6]), (splitPath "a00003".toList, [10]), (splitPath "a00004".toList, [20]),
  (splitPath "b00001".toList, [99])]

/-- Its files. -/
def exDir : Dir := ["a00001".toList, "a00002".toList, "a00003".toList, "a00004".toList, "b00001".toList]

/-- Interrupted when the new `b00001` exists but is empty, and then called again. -/
example : let fs' := killedAverage exRead exWrite (fun b => [b]) (fun _ => .ok (none, none)) {} exFs exDir "a".toList "b".toList [] none 2 false 1 none 0 2 0
    fs'.get? (splitPath "b00001".toList) = some [] ∧ fs'.get? (splitPath "#b00001.1#".toList) = some [99] ∧ fs'.get? (splitPath "b00002".toList) = none ∧
    (average exRead exWrite (fun _ => .ok (none, none)) {} fs' exDir "a".toList "b".toList [] none 2 false 1 none).1.get? (splitPath "b00001".toList) = some [4] ∧
    (average exRead exWrite (fun _ => .ok (none, none)) {} fs' exDir "a".toList "b".toList [] none 2 false 1 none).1.get? (splitPath "b00002".toList) = some [15] := by
  refine ⟨?_, ?_, ?_, ?_, ?_⟩ <;> decide +kernel

/-- This series meets the hypotheses of the theorems above. -/
example : CanAverage exRead exWrite (fun _ => .ok (none, none)) {} exFs exDir "a".toList [] 1 none 2 false 2 (fun i => if i = 0 then [4] else [15]) := by
  refine ⟨?_, ?_, ?_⟩
  · intro i hi j hj
    refine ⟨?_, by simp⟩
    interval_cases i <;> interval_cases j <;> decide +kernel
  · intro h
    exact absurd (h 0 (by omega)).1 (by decide +kernel)
  · intro i hi
    have hr : ∀ c : UInt8, exRead [c] = .ok ([("X", [0]), ("Y", [0]), ("N", [1]), ("T", [0]), ("M", [(c.toNat : ℚ)]), ("U", [0]), ("V", [0])],
        ⟨(1, 1), (some 1, some 1), some (0, 0), 1⟩, 0) := fun c => rfl
    interval_cases i
    · refine ⟨_, [("X", [0]), ("Y", [0]), ("M", [4]), ("N", [1]), ("U", [0]), ("V", [0]), ("T", [0])], ⟨(1, 1), (some 1, some 1), some (0, 0), 1⟩,
        List.Forall₂.cons ⟨[2], ?_, hr 2⟩ (List.Forall₂.cons ⟨[6], ?_, hr 6⟩ List.Forall₂.nil), ?_, ?_⟩ <;> decide +kernel
    · refine ⟨_, [("X", [0]), ("Y", [0]), ("M", [15]), ("N", [1]), ("U", [0]), ("V", [0]), ("T", [0])], ⟨(1, 1), (some 1, some 1), some (0, 0), 1⟩,
        List.Forall₂.cons ⟨[10], ?_, hr 10⟩ (List.Forall₂.cons ⟨[20], ?_, hr 20⟩ List.Forall₂.nil), ?_, ?_⟩ <;> decide +kernel

/-- … as do its names. -/
example : Lists exDir exFs "a".toList [] ∧ ∀ m n, splitPath (fileName "b".toList (Option.getD none []) m) ≠ splitPath (fileName "a".toList [] n) := by
  have hsp : ∀ (base : Text) (n : ℤ), splitPath (fileName base [] n) = ((splitPath base).1, (splitPath base).2 ++ fmt05 n) := by
    intro base n
    unfold fileName
    rw [List.append_nil, splitPath_append _ _ (fmt05_noslash n)]
  have ha : splitPath "a".toList = (".".toList, "a".toList) := by decide +kernel
  have hb : splitPath "b".toList = (".".toList, "b".toList) := by decide +kernel
  refine ⟨?_, ?_⟩
  · intro n
    have key : ∀ t : Text, "a".toList ++ t ∈ exDir ↔ exFs.get? (".".toList, "a".toList ++ t) ≠ none := by
      intro t
      rw [← exists?_iff, exists?_iff_mem]
      have h : exFs.map Prod.fst = exDir.map fun n => (".".toList, n) := by decide +kernel
      rw [h, List.mem_map]
      constructor
      · intro h; exact ⟨_, h, rfl⟩
      · rintro ⟨x, hx, he⟩
        rw [Prod.mk.injEq] at he
        rwa [← he.2]
    rw [hsp, ha, ← key]
    unfold fileName
    rw [List.append_nil]
  · intro m n h
    have h' : splitPath (fileName "b".toList [] m) = splitPath (fileName "a".toList [] n) := h
    rw [hsp, hsp, ha, hb, Prod.mk.injEq] at h'
    have := h'.2
    rw [show "a".toList = ['a'] by decide +kernel, show "b".toList = ['b'] by decide +kernel, List.singleton_append, List.singleton_append, List.cons.injEq] at this
    exact absurd this.1 (by decide)

/-- **C127, counterexample: in place.** When the outputs replace inputs, calling `average` again after an interruption averages outputs: interrupted after the
first of two groups of the files with masses 2, 6, 10 and 20, the second call writes 5 for the first group instead of 4.  The listing
of inputs is the same before and after. -/
theorem C127_in_place_counterexample :
    let fs := exFs
    let fs' := killedAverage exRead exWrite (fun b => [b]) (fun _ => .ok (none, none)) {} fs exDir "a".toList "a".toList [] none 2 false 1 none 1 0 0
    fs'.get? (splitPath "a00001".toList) = some [4] ∧ fs'.get? (splitPath "#a00001.1#".toList) = some [2] ∧
    (average exRead exWrite (fun _ => .ok (none, none)) {} fs exDir "a".toList "a".toList [] none 2 false 1 none).1.get? (splitPath "a00001".toList) = some [4] ∧
    (average exRead exWrite (fun _ => .ok (none, none)) {} fs' exDir "a".toList "a".toList [] none 2 false 1 none).1.get? (splitPath "a00001".toList) = some [5] := by
  refine ⟨?_, ?_, ?_, ?_⟩ <;> decide +kernel

/-! ## `convert` -/

/-- A series of `k` files that `convert` can read and write, with the contents of the outputs. -/
structure CanConvert (F : F32) (ftype : String) (fs : FS Bytes) (dir : Dir) (base ext : Text) (outext : Option Text) (b : ℤ) (e : Option ℤ) (k : ℕ)
    (content : ℕ → Bytes) : Prop where
  found : yieldSingles dir base ext b e = (List.range k).map fun i : ℕ => fileName base ext (b + i)
  type : ftype ∈ ["default", "gmx", "simple", "simple_plain"]
  works : ∀ i : ℕ, i < k → ∃ c m, fs.get? (splitPath (fileName base ext (b + i))) = some c ∧ readDataFile F c = .ok m ∧
    convertWrite F ftype outext.isSome m = .ok (content i)

theorem convertJobs_eq {dir : Dir} {base output ext : Text} {outext : Option Text} {b : ℤ} {e : Option ℤ} {k : ℕ}
    (h : yieldSingles dir base ext b e = (List.range k).map fun i : ℕ => fileName base ext (b + i)) :
    convertJobs dir base output ext outext b e = (List.range k).map fun i : ℕ =>
      ([splitPath (fileName base ext (b + i))], splitPath (fileName output (outext.getD ext) (b + i))) := by
  obtain ⟨k', h1, h2⟩ := C04_pairs dir base output ext outext b e
  have : k' = k := by
    have := congrArg List.length (h1.symm.trans h)
    simpa using this
  subst this
  unfold convertJobs
  rw [h2, List.map_map]
  rfl

theorem CanConvert.writes {F : F32} {ftype : String} {fs : FS Bytes} {dir : Dir} {base ext : Text} {outext : Option Text} {b : ℤ} {e : Option ℤ} {k : ℕ}
    {content : ℕ → Bytes} (h : CanConvert F ftype fs dir base ext outext b e k content) (out : ℕ → Path) :
    Writes (convertContent F ftype outext.isSome) fs ((List.range k).map fun i : ℕ => ([splitPath (fileName base ext (b + i))], out i))
      ((List.range k).map content) := by
  unfold Writes
  rw [List.forall₂_map_left_iff, List.forall₂_map_right_iff, List.forall₂_same]
  intro i hi
  obtain ⟨c, m, h1, h2, h3⟩ := h.works i (List.mem_range.mp hi)
  refine ⟨?_, ?_⟩
  · simp only [List.map_cons, List.map_nil, h1, convertContent, h2, Gmx.ok_bind]
    rw [if_neg (not_not.mpr h.type), h3]
  · intro p hp
    rw [List.mem_singleton.mp hp, h1]
    simp

/-- **C127, interrupted conversions.** As for averages. -/
theorem C127_convert_killed (F : F32) (ftype : String) (chunks : Bytes → List Bytes) (hch : ∀ b, (chunks b).flatten = b) (fs : FS Bytes)
    (hw : (fs.map Prod.fst).Nodup) (dir : Dir) (base output ext : Text) (outext : Option Text) (b : ℤ) (e : Option ℤ)
    (hslash : '/' ∉ outext.getD ext) (hhash : (outext.getD ext).getLast? ≠ some '#') (k : ℕ) (content : ℕ → Bytes)
    (hcan : CanConvert F ftype fs dir base ext outext b e k content)
    (hcross : ∀ m n, m < n → splitPath (fileName output (outext.getD ext) m) ≠ splitPath (fileName base ext n))
    (n steps bytes : ℕ) (fs' : FS Bytes) (hfs' : fs' = killedConvert F ftype chunks fs dir base output ext outext b e n steps bytes) :
    (∀ i : ℕ, i < k → i < n → fs'.get? (splitPath (fileName output (outext.getD ext) (b + i))) = some (content i)) ∧
    (∀ i : ℕ, i < k → n < i → fs'.get? (splitPath (fileName output (outext.getD ext) (b + i))) = fs.get? (splitPath (fileName output (outext.getD ext) (b + i)))) ∧
    (n < k → HalfWritten (fs.get? (splitPath (fileName output (outext.getD ext) (b + n))))
      (fs'.get? (splitPath (fileName output (outext.getD ext) (b + n)))) (content n)) ∧
    (∀ p, fs.get? p ≠ none → (∀ i : ℕ, i < k → splitPath (fileName output (outext.getD ext) (b + i)) ≠ p) → fs'.get? p = fs.get? p) ∧
    ∃ extra : List Bytes, extra.length ≤ 1 ∧ (∀ x ∈ extra, n < k ∧ x <+: content n) ∧
      (fs'.map Prod.snd).Perm (extra ++ (List.range (min n k)).map content ++ fs.map Prod.snd) := by
  unfold killedConvert at hfs'
  rw [convertJobs_eq hcan.found] at hfs'
  obtain ⟨-, ⟨extra, e1, e2, e3⟩, s3, s4⟩ := killed_spec hch _ _ fs n steps bytes hw (hcan.writes fun i => splitPath (fileName output (outext.getD ext) (b + i)))
    (outs_apart output _ b hslash hhash k _) (by
      rw [List.pairwise_map]
      refine List.Pairwise.imp_of_mem ?_ List.pairwise_lt_range
      intro x y _ hy hxy
      rw [List.mem_singleton]
      exact hcross _ _ (by omega))
  rw [← hfs'] at e3 s3 s4
  have hget : ∀ i, i < k → (List.range k)[i]? = some i := fun i hi => by rw [List.getElem?_range hi]
  refine ⟨?_, ?_, ?_, ?_, extra, e1, ?_, ?_⟩
  · intro i hi hin
    exact (s3 i _ (content i) (by rw [List.getElem?_map, hget i hi, Option.map_some]) (by rw [List.getElem?_map, hget i hi, Option.map_some])).1 hin
  · intro i hi hin
    exact (s3 i _ (content i) (by rw [List.getElem?_map, hget i hi, Option.map_some]) (by rw [List.getElem?_map, hget i hi, Option.map_some])).2.1 hin
  · intro hi
    exact (s3 n _ (content n) (by rw [List.getElem?_map, hget n hi, Option.map_some]) (by rw [List.getElem?_map, hget n hi, Option.map_some])).2.2 rfl
  · intro p hp hne
    refine s4 p ?_ (.inl hp)
    rw [List.map_map, List.mem_map]
    rintro ⟨i, hi, rfl⟩
    exact hne i (List.mem_range.mp hi) rfl
  · intro x hx
    obtain ⟨c, hc, hxc⟩ := e2 x hx
    rw [List.getElem?_map, Option.map_eq_some_iff] at hc
    obtain ⟨i, hi, rfl⟩ := hc
    rw [List.getElem?_eq_some_iff] at hi
    obtain ⟨hlt, hi⟩ := hi
    rw [List.length_range] at hlt
    rw [List.getElem_range] at hi
    subst hi
    exact ⟨hlt, hxc⟩
  · rw [← List.map_take, List.take_range] at e3
    exact e3

/-- **C127, converting again.** Calling `convert` again after it was interrupted at any time gives all outputs of an undisturbed run, if no output has the name of an input. -/
theorem C127_convert_again (F : F32) (ftype : String) (chunks : Bytes → List Bytes) (hch : ∀ b, (chunks b).flatten = b) (fs : FS Bytes)
    (hw : (fs.map Prod.fst).Nodup) (dir : Dir) (base output ext : Text) (outext : Option Text) (b : ℤ) (e : Option ℤ)
    (hslash : '/' ∉ outext.getD ext) (hhash : (outext.getD ext).getLast? ≠ some '#') (hslash' : '/' ∉ ext) (hhash' : ext.getLast? ≠ some '#')
    (k : ℕ) (content : ℕ → Bytes) (hcan : CanConvert F ftype fs dir base ext outext b e k content) (hdir : Lists dir fs base ext)
    (hsep : ∀ m n, splitPath (fileName output (outext.getD ext) m) ≠ splitPath (fileName base ext n))
    (n steps bytes : ℕ) (fs' : FS Bytes) (hfs' : fs' = killedConvert F ftype chunks fs dir base output ext outext b e n steps bytes)
    (dir' : Dir) (hdir' : Lists dir' fs' base ext) :
    (convertFiles F ftype fs' dir' base output ext outext b e).2 = .ok () ∧
    (∀ i : ℕ, i < k → (convertFiles F ftype fs' dir' base output ext outext b e).1.get? (splitPath (fileName output (outext.getD ext) (b + i))) = some (content i)) ∧
    (∀ p, fs.get? p ≠ none → (∀ i : ℕ, i < k → splitPath (fileName output (outext.getD ext) (b + i)) ≠ p) →
      (convertFiles F ftype fs' dir' base output ext outext b e).1.get? p = fs.get? p) ∧
    ∃ extra : List Bytes, ((convertFiles F ftype fs' dir' base output ext outext b e).1.map Prod.snd).Perm (extra ++ fs.map Prod.snd) := by
  have hpair : ((List.range k).map fun i : ℕ => (([splitPath (fileName base ext (b + i))], splitPath (fileName output (outext.getD ext) (b + i))) : Job)).Pairwise
      (fun a b => a.2 ∉ b.1) := by
    rw [List.pairwise_map]
    refine List.Pairwise.imp_of_mem ?_ List.pairwise_lt_range
    intro x y _ hy hxy
    rw [List.mem_singleton]
    exact hsep _ _
  have hap := outs_apart output (outext.getD ext) b hslash hhash k fun i => [splitPath (fileName base ext (b + i))]
  unfold killedConvert at hfs'
  rw [convertJobs_eq hcan.found] at hfs'
  have hW := hcan.writes fun i => splitPath (fileName output (outext.getD ext) (b + i))
  obtain ⟨w1, ⟨extra, e1, e2, e3⟩, s3, s4⟩ := killed_spec hch _ _ fs n steps bytes hw hW hap hpair
  rw [← hfs'] at w1 e3 s3 s4
  have hin : ∀ m, fs'.get? (splitPath (fileName base ext m)) = fs.get? (splitPath (fileName base ext m)) := by
    intro m
    refine s4 _ ?_ (.inr fun q _ i => not_backup _ _ _ hslash' hhash' q i)
    rw [List.map_map, List.mem_map]
    rintro ⟨i, -, hi⟩
    exact hsep _ _ hi
  have hd : ∀ m, fileName base ext m ∈ dir' ↔ fileName base ext m ∈ dir := by
    intro m
    rw [hdir' m, hdir m, hin m]
  have hfound : yieldSingles dir' base ext b e = (List.range k).map fun i : ℕ => fileName base ext (b + i) := by
    obtain ⟨k1, a1, a2, a3⟩ := C02_discovery_maximal_prefix dir base ext b e
    obtain ⟨k2, b1, b2, b3⟩ := C02_discovery_maximal_prefix dir' base ext b e
    have : k1 = k := by
      have := congrArg List.length (a1.symm.trans hcan.found)
      simpa using this
    subst this
    have hkk : k2 = k1 := by
      rcases Nat.lt_trichotomy k2 k1 with h | h | h
      · obtain ⟨m, rfl, hm⟩ := b3 ((hd _).mpr (a2 k2 h).1)
        have := (a2 k2 h).2 m rfl
        omega
      · exact h
      · obtain ⟨m, rfl, hm⟩ := a3 ((hd _).mp (b2 k1 h).1)
        have := (b2 k1 h).2 m rfl
        omega
    rw [b1, hkk]
  have hcan' : CanConvert F ftype fs' dir' base ext outext b e k content := by
    refine ⟨hfound, hcan.type, ?_⟩
    intro i hi
    rw [hin]
    exact hcan.works i hi
  have hW' := hcan'.writes fun i => splitPath (fileName output (outext.getD ext) (b + i))
  obtain ⟨-, r2, r3, r4⟩ := runJobs_spec hch _ _ fs' w1 hW' hap.1 hpair
  have hav : convertFiles F ftype fs' dir' base output ext outext b e = (runJobs (convertContent F ftype outext.isSome) chunks fs'
      ((List.range k).map fun i : ℕ => ([splitPath (fileName base ext (b + i))], splitPath (fileName output (outext.getD ext) (b + i)))), .ok ()) := by
    obtain ⟨k', c1, c2⟩ := C04_pairs dir' base output ext outext b e
    have : k' = k := by
      have := congrArg List.length (c1.symm.trans hfound)
      simpa using this
    subst this
    unfold convertFiles
    rw [c2, List.map_map]
    have := convertBytes_jobs (chunks := chunks) F ftype outext.isSome hch ((List.range k').map fun i : ℕ =>
      (splitPath (fileName base ext (b + i)), splitPath (fileName output (outext.getD ext) (b + i)))) _ fs' w1 (by
        rw [List.map_map]
        exact hW') (by
        rw [List.pairwise_map]
        refine List.Pairwise.imp_of_mem ?_ List.pairwise_lt_range
        intro x y _ hy hxy
        exact hsep _ _)
    rw [List.map_map] at this
    exact this
  rw [hav]
  refine ⟨rfl, ?_, ?_, ?_⟩
  · intro i hi
    rw [List.forall₂_map_left_iff, List.forall₂_map_right_iff, List.forall₂_same] at r3
    exact r3 i (List.mem_range.mpr hi)
  · intro p hp hne
    have hp' : p ∉ List.map Prod.snd ((List.range k).map fun i : ℕ => (([splitPath (fileName base ext (b + i))],
        splitPath (fileName output (outext.getD ext) (b + i))) : Job)) := by
      rw [List.map_map, List.mem_map]
      rintro ⟨i, hi, rfl⟩
      exact hne i (List.mem_range.mp hi) rfl
    have h5 := s4 p hp' (.inl hp)
    show (runJobs _ chunks fs' _).get? p = _
    rw [r4 p hp' (.inl (by rw [h5]; exact hp)), h5]
  · refine ⟨(List.range k).map content ++ (extra ++ ((List.range k).map content).take n), ?_⟩
    rw [List.append_assoc]
    exact r2.trans (e3.append_left _)

/-- A series of one gmx file meets the hypotheses. -/
example : ∃ content, CanConvert ieee32 "gmx" (exFs1 exGmx) ["a00001".toList] "a".toList [] none 1 none 1 content := by
  have h : (convertWrite ieee32 "gmx" false exMapG).isOk = true := by decide +kernel
  cases hw : convertWrite ieee32 "gmx" false exMapG with
  | error e => rw [hw] at h; cases h
  | ok b =>
    refine ⟨fun _ => b, ⟨by decide +kernel, by decide, ?_⟩⟩
    intro i hi
    interval_cases i
    refine ⟨exGmx, exMapG, ?_, exGmx_read, hw⟩
    have hs : splitPath (fileName "a".toList [] (1 + ((0 : ℕ) : ℤ))) = (".".toList, "a00001".toList) := by decide +kernel
    rw [hs]
    unfold exFs1 FS.get?
    rw [List.find?_cons_of_pos (by simp)]
    rfl

end Strata.Killed
