import Verif.Model.Driver
import Verif.Proofs.FilesFS
import Verif.Proofs.SimpleAverage
/-!
# Lemmas about the averaging of a series
-/
namespace Strata.Driver
open Strata Strata.Flow Strata.Average Strata.SimpleAverage Strata.Files Strata.Bytes Strata.Simple

variable {γ : Type}

theorem readGroup_congr (read : γ → Except Err Map) {fs fs' : FS γ} {ps : List Path} (h : ∀ p ∈ ps, fs'.get? p = fs.get? p) :
    readGroup read fs' ps = readGroup read fs ps := by
  unfold readGroup
  refine mapM_congr' _ _ _ ?_
  intro p hp
  rw [h p hp]

theorem readGroup_present {read : γ → Except Err Map} {fs : FS γ} : ∀ {ps : List Path} {ms : List Map}, readGroup read fs ps = .ok ms →
    ∀ p ∈ ps, fs.get? p ≠ none
  | [], _, _, p, hp => by simp at hp
  | q :: ps, ms, h, p, hp => by
    unfold readGroup at h
    rw [List.mapM_cons] at h
    obtain ⟨m, hm, h⟩ := bind_eq_ok h
    obtain ⟨ms', hms, h⟩ := bind_eq_ok h
    rcases List.mem_cons.mp hp with rfl | hp
    · intro hn
      rw [hn] at hm
      cases hm
    · exact readGroup_present (ps := ps) hms p hp

/-- One successful round of the loop. -/
theorem averageLoop_cons {read : γ → Except Err Map} {write : Record → DInfo → Option γ × Except Err Unit}
    {edges : Flow → Except Err (Option ℚ × Option ℚ)} {o : Opts} {fs : FS γ} {ps : List Path} {out : Path} {rest : List (List Path × Path)}
    {d : Record} {i : DInfo} {c : γ} (h1 : (readGroup read fs ps >>= averageGroup edges o) = .ok (d, i)) (h2 : write d i = (some c, .ok ())) :
    ∃ fs1, preparePath fs out = .ok fs1 ∧ averageLoop read write edges o fs ((ps, out) :: rest) = averageLoop read write edges o (fs1.put out c) rest ∧
      (fs1.put out c).get? out = some c ∧ ∀ r, r ≠ out → fs.get? r ≠ none → (fs1.put out c).get? r = fs.get? r := by
  obtain ⟨fs1, hp, -, hkeep⟩ := preparePath_spec fs out
  refine ⟨fs1, hp, ?_, ?_, ?_⟩
  · rw [averageLoop]
    simp only [h1, hp, h2]
  · rw [get?_put, if_pos rfl]
  · intro r hr hr'
    rw [get?_put, if_neg hr, hkeep r hr hr']

/-- What the loop never touches: files that exist and are not outputs. -/
theorem averageLoop_keeps (read : γ → Except Err Map) (write : Record → DInfo → Option γ × Except Err Unit)
    (edges : Flow → Except Err (Option ℚ × Option ℚ)) (o : Opts) : ∀ (pairs : List (List Path × Path)) (fs : FS γ) (r : Path),
    fs.get? r ≠ none → (∀ io ∈ pairs, io.2 ≠ r) → (averageLoop read write edges o fs pairs).1.get? r = fs.get? r
  | [], fs, r, _, _ => by rw [averageLoop]
  | (ps, out) :: rest, fs, r, hr, hout => by
    have hne : r ≠ out := fun e => hout (ps, out) (by simp) e.symm
    have hrest : ∀ io ∈ rest, io.2 ≠ r := fun io hio => hout io (by simp [hio])
    obtain ⟨fs1, hp, -, hkeep⟩ := preparePath_spec fs out
    have hk := hkeep r hne hr
    rw [averageLoop]
    cases hg : (readGroup read fs ps >>= averageGroup edges o) with
    | error e => rfl
    | ok di =>
      obtain ⟨d, i⟩ := di
      simp only [hp]
      rcases hw : write d i with ⟨c, res⟩
      cases res with
      | error e =>
        cases c with
        | none => exact hk
        | some c => simp only [Option.elim]; rw [get?_put, if_neg hne, hk]
      | ok u =>
        cases c with
        | none =>
          simp only
          rw [averageLoop_keeps read write edges o rest fs1 r (by rw [hk]; exact hr) hrest, hk]
        | some c =>
          have h1 : (fs1.put out c).get? r = fs.get? r := by rw [get?_put, if_neg hne, hk]
          simp only
          rw [averageLoop_keeps read write edges o rest _ r (by rw [h1]; exact hr) hrest, h1]

theorem averageLoop_spec (read : γ → Except Err Map) (write : Record → DInfo → Option γ × Except Err Unit)
    (edges : Flow → Except Err (Option ℚ × Option ℚ)) (o : Opts) : ∀ (pairs : List (List Path × Path)) (fs : FS γ),
    (∀ io ∈ pairs, ∃ d i c, (readGroup read fs io.1 >>= averageGroup edges o) = .ok (d, i) ∧ write d i = (some c, .ok ())) →
    (pairs.map Prod.snd).Nodup → pairs.Pairwise (fun a b => a.2 ∉ b.1) →
    (averageLoop read write edges o fs pairs).2 = (if o.quiet then .error .unboundLocalError else .ok ()) ∧
      ∀ io ∈ pairs, ∀ d i c, (readGroup read fs io.1 >>= averageGroup edges o) = .ok (d, i) → write d i = (some c, .ok ()) →
        (averageLoop read write edges o fs pairs).1.get? io.2 = some c
  | [], fs, _, _, _ => ⟨by rw [averageLoop], by simp⟩
  | (ps, out) :: rest, fs, hread, hout, hcross => by
    obtain ⟨d, i, c, h1, h2⟩ := hread (ps, out) (by simp)
    simp only [List.map_cons, List.nodup_cons] at hout
    rw [List.pairwise_cons] at hcross
    obtain ⟨fs1, hp, heq, hput, hkeep⟩ := averageLoop_cons (out := out) (rest := rest) h1 h2
    have hsame : ∀ io ∈ rest, readGroup read (fs1.put out c) io.1 = readGroup read fs io.1 := by
      intro io hio
      obtain ⟨d', i', c', h1', -⟩ := hread io (by simp [hio])
      obtain ⟨ms, hms, -⟩ := bind_eq_ok h1'
      refine readGroup_congr read fun p hpp => hkeep p ?_ (readGroup_present hms p hpp)
      rintro rfl
      exact hcross.1 io hio hpp
    obtain ⟨hres, hall⟩ := averageLoop_spec read write edges o rest (fs1.put out c)
      (fun io hio => by rw [hsame io hio]; exact hread io (by simp [hio])) hout.2 hcross.2
    rw [heq]
    refine ⟨hres, ?_⟩
    intro io hio d' i' c' h1' h2'
    rcases List.mem_cons.mp hio with rfl | hio
    · rw [h1] at h1'
      cases h1'
      rw [h2] at h2'
      cases h2'
      rw [averageLoop_keeps read write edges o rest _ _ (by rw [hput]; simp) ?_, hput]
      intro io hio e
      exact hout.1 (List.mem_map.mpr ⟨io, hio, e⟩)
    · exact hall io hio d' i' c' (by rw [hsame io hio]; exact h1') h2'

end Strata.Driver
