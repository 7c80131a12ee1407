import Verif.Proofs.FloatGrid
import Verif.Proofs.InterfaceText
/-!
# Grid arithmetic in floating point: C130, C131, C132
-/
namespace Strata.FloatGrid
open Strata Strata.Flow Strata.Average Strata.SimpleAverage Strata.Driver Strata.FloatAverage Strata.Simple Strata.Resample

/-! ## Specification -/

/-- The x positions `x` lie in `nx` columns, `col t` being the column of bin `t`, up to an eighth of the spacing: `o` is the least of them and `h` the
mean distance between neighbouring positions, as computed. -/
structure InColumns (fl : ℚ → ℚ) (sum : List ℚ → ℚ) (x : List ℚ) (o h : ℚ) (nx : ℕ) (col : ℕ → ℕ) : Prop where
  least : o ∈ x ∧ ∀ v ∈ x, o ≤ v
  spacing : spacingOf fl sum x = some h
  near : ∀ t, t < x.length → col t < nx ∧ |x.getD t 0 - (o + h * col t)| ≤ 1 / 8 * h
  full : ∀ i, i < nx → ∃ t, t < x.length ∧ col t = i

/-- A map, the position of its centre, and the column nearest to the centre. -/
structure Centred where
  d : Record
  c : ℚ
  s : ℤ

/-- The maps have the x positions `x`; their centres are near columns at most `K` columns from the origin. -/
def OnColumns (x : List ℚ) (o h : ℚ) (K : ℚ) (ms : List Centred) : Prop :=
  ∀ p ∈ ms, Wf p.d ∧ col? p.d "X" = some x ∧ "Y" ∈ names p.d ∧ |p.c - (o + h * p.s)| ≤ 3 / 8 * h ∧ |(p.s : ℚ)| ≤ K

/-- The first and last columns, relative to the centres, that all maps have. -/
def Common (nx : ℕ) (ms : List Centred) (a b : ℤ) : Prop :=
  (∃ p ∈ ms, a = -p.s) ∧ (∀ p ∈ ms, -p.s ≤ a) ∧ (∃ p ∈ ms, b = (nx : ℤ) - 1 - p.s) ∧ ∀ p ∈ ms, b ≤ (nx : ℤ) - 1 - p.s

/-- The bins of a map whose columns, relative to its centre, are in the common range. -/
def kept (n : ℕ) (col : ℕ → ℕ) (a b : ℤ) (p : Centred) : List ℕ :=
  (List.range n).filter fun t => decide (a ≤ (col t : ℤ) - p.s ∧ (col t : ℤ) - p.s ≤ b)

/-- `r` consists of the bins `rows` of the map, moved by its centre. -/
def Recentred (fl : ℚ → ℚ) (o h : ℚ) (col : ℕ → ℕ) (rows : List ℕ) (p : Centred) (r : Record) : Prop :=
  Wf r ∧ (∀ l, l ∈ names r ↔ l ∈ names p.d) ∧ Flow.size r = rows.length ∧
    ∀ k, (hk : k < rows.length) → val r "X" k = place fl o h ((col rows[k] : ℤ) - p.s) ∧ ∀ l, l ≠ "X" → l ∈ names p.d → val r l k = val p.d l rows[k]

/-- Every column has `ny` bins. -/
def Even (n : ℕ) (col : ℕ → ℕ) (nx ny : ℕ) : Prop := ∀ i, i < nx → ((List.range n).filter fun t => decide (col t = i)).length = ny

/-! ## C130 -/

theorem InColumns.pos {fl : ℚ → ℚ} {sum : List ℚ → ℚ} {x : List ℚ} {o h : ℚ} {nx : ℕ} {col : ℕ → ℕ} (hx : InColumns fl sum x o h nx col) : 0 < nx := by
  have : 0 < x.length := List.length_pos_of_mem hx.least.1
  exact lt_of_le_of_lt (Nat.zero_le _) (hx.near 0 this).1

theorem npDiff_id : ∀ l : List ℚ, npDiff id l = Strata.npDiff l
  | [] => rfl
  | [_] => rfl
  | a :: b :: l => by
    unfold npDiff Strata.npDiff
    rw [npDiff_id (b :: l)]
    rfl

theorem spacingOf_id (l : List ℚ) : spacingOf id List.sum l = Driver.spacingOf l := by
  unfold spacingOf Driver.spacingOf
  rw [npDiff_id]
  rfl

theorem translated_id (x : List ℚ) (c : Option ℚ) : translated id List.sum x c = Driver.translated x c := by
  unfold translated Driver.translated
  rw [spacingOf_id]
  congr 1
  funext o
  cases c with
  | none => rfl
  | some c =>
    simp only [place, column, id]
    push_cast
    rfl

theorem recentredInfo_id (xmin xmax : ℚ) (h : Option ℚ) (last : Record) : recentredInfo id List.sum xmin xmax h last = Driver.recentredInfo xmin xmax h last := by
  unfold recentredInfo Driver.recentredInfo
  simp only [spacingOf_id, numColumns, id]
  rfl

/-- Without rounding this is the function of Model/Driver.lean. -/
theorem C130_exact (maps : List Record) (centres : List (Option ℚ)) :
    recenterMaps id List.sum maps centres = Driver.recenterMaps maps centres := by
  unfold recenterMaps Driver.recenterMaps
  simp only [translated_id, recentredInfo_id]
  have : spacingOf id List.sum = Driver.spacingOf := funext spacingOf_id
  rw [this]
  rfl

theorem abs_le_of {j : ℤ} {K : ℚ} {n : ℕ} {s : ℤ} {c : ℕ} (hj : j = (c : ℤ) - s) (hc : c < n) (hs : |(s : ℚ)| ≤ K) : |(j : ℚ)| ≤ (n : ℚ) + K := by
  have h1 : (c : ℚ) + 1 ≤ n := by exact_mod_cast hc
  have h2 : (0 : ℚ) ≤ c := by positivity
  have h3 := abs_le.mp hs
  rw [hj, abs_le]
  push_cast
  constructor <;> linarith

/-- The positions of a map after the move. -/
def movedRow (fl : ℚ → ℚ) (o h : ℚ) (n : ℕ) (col : ℕ → ℕ) (p : Centred) : List ℚ :=
  (List.range n).map fun t => place fl o h ((col t : ℤ) - p.s)

theorem movedRow_getD {fl : ℚ → ℚ} {o h : ℚ} {n : ℕ} {col : ℕ → ℕ} {p : Centred} {t : ℕ} (ht : t < n) :
    (movedRow fl o h n col p).getD t 0 = place fl o h ((col t : ℤ) - p.s) := by
  unfold movedRow
  rw [getD_map_range _ _ _ ht]

theorem translated_columns {u : ℚ} {fl : ℚ → ℚ} (hfl : Rounds u fl) {sum : List ℚ → ℚ} {x : List ℚ} {o h : ℚ} {nx : ℕ} {col : ℕ → ℕ} {K : ℚ}
    (hx : InColumns fl sum x o h nx col) (hf : Fine u o h (nx + K)) {ms : List Centred} (hm : OnColumns x o h K ms) {p : Centred} (hp : p ∈ ms) :
    translated fl sum x (some p.c) = .ok (some (movedRow fl o h x.length col p)) := by
  obtain ⟨-, -, -, hc, hs⟩ := hm p hp
  have hh := hf.2.2.1
  have hn : (0 : ℚ) ≤ nx := by positivity
  have hK : 0 ≤ K := le_trans (abs_nonneg _) hs
  unfold translated
  rw [mem_npMin hx.least.1 hx.least.2, Gmx.ok_bind]
  simp only
  rw [hx.spacing, Option.map_some]
  congr 2
  have hcs : column fl o h p.c = p.s := hf.column_eq hfl (by linarith) hc
  rw [hcs]
  unfold movedRow
  refine List.ext_getElem (by simp) fun t ht ht' => ?_
  rw [List.length_map] at ht
  rw [List.getElem_map, List.getElem_map, List.getElem_range]
  obtain ⟨h1, h2⟩ := hx.near t ht
  rw [List.getD_eq_getElem?_getD, List.getElem?_eq_getElem ht, Option.getD_some] at h2
  have : column fl o h x[t] = (col t : ℤ) := hf.column_eq hfl (by
    have : (col t : ℚ) + 1 ≤ nx := by exact_mod_cast h1
    rw [abs_of_nonneg (by positivity)]
    push_cast
    linarith) (by push_cast; linarith)
  rw [this]

theorem moved_first {u : ℚ} {fl : ℚ → ℚ} (hfl : Rounds u fl) {sum : List ℚ → ℚ} {x : List ℚ} {o h : ℚ} {nx : ℕ} {col : ℕ → ℕ} {K : ℚ}
    (hx : InColumns fl sum x o h nx col) (hf : Fine u o h (nx + K)) {p : Centred} (hs : |(p.s : ℚ)| ≤ K) :
    npMin (movedRow fl o h x.length col p) = .ok (place fl o h (-p.s)) := by
  obtain ⟨t, ht, e⟩ := hx.full 0 hx.pos
  have hpos := (hx.near t ht).1
  refine mem_npMin (List.mem_map.mpr ⟨t, List.mem_range.mpr ht, by rw [e]; simp⟩) fun v hv => ?_
  obtain ⟨t', ht', rfl⟩ := List.mem_map.mp hv
  have h1 := hx.near t' (List.mem_range.mp ht')
  exact (hf.place_le_iff hfl (abs_le_of (c := 0) (s := p.s) (n := nx) (by simp) (by omega) hs) (abs_le_of rfl h1.1 hs)).mpr (by omega)

theorem moved_last {u : ℚ} {fl : ℚ → ℚ} (hfl : Rounds u fl) {sum : List ℚ → ℚ} {x : List ℚ} {o h : ℚ} {nx : ℕ} {col : ℕ → ℕ} {K : ℚ}
    (hx : InColumns fl sum x o h nx col) (hf : Fine u o h (nx + K)) {p : Centred} (hs : |(p.s : ℚ)| ≤ K) :
    npMax (movedRow fl o h x.length col p) = .ok (place fl o h ((nx : ℤ) - 1 - p.s)) := by
  obtain ⟨t, ht, e⟩ := hx.full (nx - 1) (by have := hx.pos; omega)
  have hnx := hx.pos
  have e' : (nx : ℤ) - 1 - p.s = (col t : ℤ) - p.s := by omega
  rw [e']
  have hpos := (hx.near t ht).1
  refine mem_npMax (List.mem_map.mpr ⟨t, List.mem_range.mpr ht, rfl⟩) fun v hv => ?_
  obtain ⟨t', ht', rfl⟩ := List.mem_map.mp hv
  have h1 := hx.near t' (List.mem_range.mp ht')
  exact (hf.place_le_iff hfl (abs_le_of rfl h1.1 hs) (abs_le_of rfl hpos hs)).mpr (by omega)

theorem recenterMaps_columns {u : ℚ} {fl : ℚ → ℚ} (hfl : Rounds u fl) {sum : List ℚ → ℚ} {x : List ℚ} {o h : ℚ} {nx : ℕ} {col : ℕ → ℕ} {K : ℚ}
    (hx : InColumns fl sum x o h nx col) (hf : Fine u o h (nx + K)) {ms : List Centred} (hne : ms ≠ []) (hm : OnColumns x o h K ms) {a b : ℤ}
    (hab : Common nx ms a b) :
    recenterMaps fl sum (ms.map Centred.d) (ms.map fun p => some p.c) =
      ((ms.mapM fun p => subset (place fl o h a) (place fl o h b) (movedRow fl o h x.length col p) p.d) >>= fun out =>
        recentredInfo fl sum (place fl o h a) (place fl o h b) (some h) (out.getLastD []) >>= fun info => .ok (out, info)) := by
  obtain ⟨p0, rest, rfl⟩ := List.exists_cons_of_ne_nil hne
  set ms := p0 :: rest with hms
  have hnx := hx.pos
  have bound : ∀ p ∈ ms, |((-p.s : ℤ) : ℚ)| ≤ (nx : ℚ) + K := fun p hp => abs_le_of (c := 0) (s := p.s) (n := nx) (by simp) hnx (hm p hp).2.2.2.2
  have bound' : ∀ p ∈ ms, |(((nx : ℤ) - 1 - p.s : ℤ) : ℚ)| ≤ (nx : ℚ) + K := fun p hp =>
    abs_le_of (c := nx - 1) (s := p.s) (n := nx) (by omega) (by omega) (hm p hp).2.2.2.2
  obtain ⟨⟨pa, hpa, ea⟩, ha, ⟨pb, hpb, eb⟩, hb⟩ := hab
  unfold recenterMaps
  rw [if_neg (by simp)]
  have e1 : rowLength (ms.map Centred.d) = .ok x.length := by
    rw [hms, List.map_cons]
    unfold rowLength
    simp only
    rw [key_some (hm p0 (by simp [hms])).2.1]
    rfl
  rw [e1, Gmx.ok_bind, zip_map_map, mapM_map']
  rw [mapM_ok' _ (fun p => some (movedRow fl o h x.length col p)) ms (by
    intro p hp
    simp only
    rw [key_some (hm p hp).2.1, Gmx.ok_bind, translated_columns hfl hx hf hm hp, Gmx.ok_bind, if_pos rfl])]
  rw [Gmx.ok_bind, omapM_some]
  simp only
  rw [mapM_map', mapM_ok' _ (fun p : Centred => place fl o h (-p.s)) ms (fun p hp => moved_first hfl hx hf (hm p hp).2.2.2.2), Gmx.ok_bind,
    mem_npMax (m := place fl o h a) (by
      exact List.mem_map.mpr ⟨pa, hpa, by rw [ea]⟩) (by
      intro v hv
      obtain ⟨p, hp, rfl⟩ := List.mem_map.mp hv
      exact (hf.place_le_iff hfl (bound p hp) (by rw [ea]; exact bound pa hpa)).mpr (ha p hp)), Gmx.ok_bind,
    mapM_map', mapM_ok' _ (fun p : Centred => place fl o h ((nx : ℤ) - 1 - p.s)) ms (fun p hp => moved_last hfl hx hf (hm p hp).2.2.2.2), Gmx.ok_bind,
    mem_npMin (m := place fl o h b) (by
      exact List.mem_map.mpr ⟨pb, hpb, by rw [eb]⟩) (by
      intro v hv
      obtain ⟨p, hp, rfl⟩ := List.mem_map.mp hv
      exact (hf.place_le_iff hfl (by rw [eb]; exact bound' pb hpb) (bound' p hp)).mpr (hb p hp)), Gmx.ok_bind, zip_map_map, mapM_map']
  have hlast : (((ms.map Centred.d).getLast?.bind fun d => col? d "X").map (spacingOf fl sum)).getD none = some h := by
    have hne : ms ≠ [] := by simp [hms]
    rw [List.getLast?_map, List.getLast?_eq_getLast_of_ne_nil hne]
    simp only [Option.map_some, Option.bind_some]
    rw [(hm _ (List.getLast_mem hne)).2.1]
    simp only [Option.map_some, Option.getD_some]
    exact hx.spacing
  rw [hlast]

/-- The bins selected for one map. -/
theorem subset_columns {u : ℚ} {fl : ℚ → ℚ} (hfl : Rounds u fl) {sum : List ℚ → ℚ} {x : List ℚ} {o h : ℚ} {nx : ℕ} {col : ℕ → ℕ} {K : ℚ}
    (hx : InColumns fl sum x o h nx col) (hf : Fine u o h (nx + K)) {a b : ℤ} (ha : |(a : ℚ)| ≤ nx + K) (hb : |(b : ℚ)| ≤ nx + K) {p : Centred}
    (hw : Wf p.d) (hX : col? p.d "X" = some x) (hs : |(p.s : ℚ)| ≤ K) :
    ∃ r, subset (place fl o h a) (place fl o h b) (movedRow fl o h x.length col p) p.d = .ok r ∧ Recentred fl o h col (kept x.length col a b p) p r := by
  have hsz : x.length = Flow.size p.d := col?_length hw hX
  have hlen : (movedRow fl o h x.length col p).length = Flow.size p.d := by simp [movedRow, hsz]
  obtain ⟨hwm, hsm⟩ := wf_moved hw _ hlen
  have hne : moved p.d (movedRow fl o h x.length col p) ≠ [] := by simp [moved]
  have hidx : ((List.range (movedRow fl o h x.length col p).length).filter fun t => decide (place fl o h a ≤ (movedRow fl o h x.length col p).getD t 0 ∧
      (movedRow fl o h x.length col p).getD t 0 ≤ place fl o h b)) = kept x.length col a b p := by
    unfold kept
    rw [hlen, ← hsz]
    refine List.filter_congr fun t ht => ?_
    have ht' := List.mem_range.mp ht
    rw [movedRow_getD ht', decide_eq_decide]
    have h1 := abs_le_of (K := K) (rfl : (col t : ℤ) - p.s = (col t : ℤ) - p.s) (hx.near t ht').1 hs
    rw [hf.place_le_iff hfl ha h1, hf.place_le_iff hfl h1 hb]
  refine ⟨gather (kept x.length col a b p) (moved p.d (movedRow fl o h x.length col p)), ?_, wf_gather _ hwm, ?_, size_gather _ _ hne, ?_⟩
  · unfold subset
    simp only
    rw [if_pos]
    · rw [hidx]; rfl
    · rw [List.all_eq_true]
      intro c hc
      rw [List.mem_filter] at hc
      rw [hlen, hw.2 c hc.1]
      simp
  · intro l
    rw [names_gather, mem_names_moved]
    constructor
    · rintro (rfl | h)
      · exact (col?_isSome_iff p.d "X").mp ⟨x, hX⟩
      · exact h
    · exact Or.inr
  · intro k hk
    have hk' : (kept x.length col a b p)[k] < x.length := List.mem_range.mp (List.mem_of_mem_filter (List.getElem_mem hk))
    refine ⟨?_, ?_⟩
    · rw [val_gather hwm _ _ _ hk, val_moved, if_pos rfl, movedRow_getD hk']
    · intro l hl _
      rw [val_gather hwm _ _ _ hk, val_moved, if_neg hl]

/-- What recentring gives in floating-point arithmetic, for maps with the same x positions: the bins of each map in the common columns, in order, with
their other fields unchanged, at positions that depend only on the column relative to the centre and are near the exact ones.  The number of columns in
the information is right if the computed quotient of the width and the spacing is not below it, and otherwise one too small. -/
theorem C130_as_coded_partial {u : ℚ} {fl : ℚ → ℚ} (hfl : Rounds u fl) {sum : List ℚ → ℚ} {x : List ℚ} {o h : ℚ} {nx : ℕ} {col : ℕ → ℕ} {K : ℚ}
    (hx : InColumns fl sum x o h nx col) (hf : Fine u o h (nx + K)) {ms : List Centred} (hne : ms ≠ []) (hm : OnColumns x o h K ms) {a b : ℤ}
    (hab : Common nx ms a b) (hle : a ≤ b) :
    ∃ out info, recenterMaps fl sum (ms.map Centred.d) (ms.map fun p => some p.c) = .ok (out, info) ∧
      List.Forall₂ (fun p r => Recentred fl o h col (kept x.length col a b p) p r) ms out ∧
      (∀ j, a ≤ j → j ≤ b → |place fl o h j - (o + h * j)| ≤ 3 / 32 * h) ∧
      info.numBins = (kept x.length col a b (ms.getLast hne)).length ∧
      (info.shape.1 : ℤ) = (if (b : ℚ) - a ≤ fl (fl (place fl o h b - place fl o h a) / h) then b - a + 1 else b - a) ∧
      info.shape.2 = info.numBins / info.shape.1 ∧ info.spacing.1 = some h ∧ (info.origin.map Prod.fst) = some (place fl o h a) := by
  have hnx := hx.pos
  have hba : |(a : ℚ)| ≤ nx + K := by
    obtain ⟨p, hp, rfl⟩ := hab.1
    exact abs_le_of (c := 0) (s := p.s) (n := nx) (by simp) hnx (hm p hp).2.2.2.2
  have hbb : |(b : ℚ)| ≤ nx + K := by
    obtain ⟨p, hp, rfl⟩ := hab.2.2.1
    exact abs_le_of (c := nx - 1) (s := p.s) (n := nx) (by omega) (by omega) (hm p hp).2.2.2.2
  rw [recenterMaps_columns hfl hx hf hne hm hab]
  obtain ⟨outs, ho, hrec⟩ := mapM_forall₂ (R := fun p r => Recentred fl o h col (kept x.length col a b p) p r) ms
    (f := fun p => subset (place fl o h a) (place fl o h b) (movedRow fl o h x.length col p) p.d)
    (fun p hp => subset_columns hfl hx hf hba hbb (hm p hp).1 (hm p hp).2.1 (hm p hp).2.2.2.2)
  have hlast := forall₂_last hrec hne []
  set pl := ms.getLast hne with hpl
  have hpm : pl ∈ ms := List.getLast_mem hne
  have hkne : kept x.length col a b pl ≠ [] := by
    have h1 := hab.2.1 pl hpm
    have h2 := hab.2.2.2 pl hpm
    obtain ⟨t, ht, e⟩ := hx.full (a + pl.s).toNat (by omega)
    refine List.ne_nil_of_mem (a := t) (List.mem_filter.mpr ⟨List.mem_range.mpr ht, ?_⟩)
    rw [decide_eq_true_iff, e]
    omega
  obtain ⟨ys, hys⟩ := (col?_isSome_iff (outs.getLastD []) "Y").mpr ((hlast.2.1 "Y").mpr (hm _ hpm).2.2.1)
  have hysl : ys ≠ [] := by
    have : ys.length = (kept x.length col a b pl).length := by rw [col?_length hlast.1 hys, hlast.2.2.1]
    intro e
    rw [e] at this
    exact hkne (List.length_eq_zero_iff.mp this.symm)
  obtain ⟨ymin, hymin⟩ := npMin_exists hysl
  obtain ⟨xs, hxs⟩ := (col?_isSome_iff (outs.getLastD []) "X").mpr ((hlast.2.1 "X").mpr ((col?_isSome_iff _ "X").mp ⟨x, (hm _ hpm).2.1⟩))
  refine ⟨outs, ⟨(numColumns fl (place fl o h a) (place fl o h b) h, xs.length / numColumns fl (place fl o h a) (place fl o h b) h),
    (some h, spacingOf fl sum ys), some (place fl o h a, ymin), xs.length⟩, ?_, hrec, ?_, ?_, ?_, rfl, rfl, rfl⟩
  · rw [ho, Gmx.ok_bind]
    unfold recentredInfo
    rw [key_some hys, Gmx.ok_bind, hymin, Gmx.ok_bind]
    simp only
    rw [hxs, Option.getD_some, Gmx.ok_bind]
  · intro j h1 h2
    have h1' : (a : ℚ) ≤ j := by exact_mod_cast h1
    have h2' : (j : ℚ) ≤ b := by exact_mod_cast h2
    have hj : |(j : ℚ)| ≤ nx + K := abs_le.mpr ⟨by have := (abs_le.mp hba).1; linarith, by have := (abs_le.mp hbb).2; linarith⟩
    have := hf.place_near hfl hj
    have e : o + h * (j : ℚ) = (j : ℚ) * h + o := by ring
    rw [e]
    exact this.trans hf.small
  · simp only
    rw [col?_length hlast.1 hxs, hlast.2.2.1]
  · simp only
    rw [hf.columns_eq hfl hba hbb hle]
    split_ifs <;> push_cast <;> omega

theorem filter_columns (l : List ℕ) (col : ℕ → ℕ) (ny A : ℕ) : ∀ m, (∀ i, A ≤ i → i < A + m → (l.filter fun t => decide (col t = i)).length = ny) →
    (l.filter fun t => decide (A ≤ col t ∧ col t < A + m)).length = m * ny
  | 0, _ => by
    rw [List.filter_eq_nil_iff.mpr]
    · simp
    · intro t _; simp
  | m + 1, h => by
    have ih := filter_columns l col ny A m fun i h1 h2 => h i h1 (by omega)
    have h1 := h (A + m) (by omega) (by omega)
    have : ∀ l : List ℕ, (l.filter fun t => decide (A ≤ col t ∧ col t < A + (m + 1))).length =
        (l.filter fun t => decide (A ≤ col t ∧ col t < A + m)).length + (l.filter fun t => decide (col t = A + m)).length := by
      intro l
      induction l with
      | nil => rfl
      | cons a l ih =>
        rw [List.filter_cons, List.filter_cons, List.filter_cons]
        by_cases c1 : A ≤ col a ∧ col a < A + m
        · rw [if_pos (by simp; omega), if_pos (by simp; omega), if_neg (by simp; omega), List.length_cons, List.length_cons, ih]; omega
        · by_cases c2 : col a = A + m
          · rw [if_pos (by simp; omega), if_neg (by simp; omega), if_pos (by simp; omega), List.length_cons, List.length_cons, ih]; omega
          · rw [if_neg (by simp; omega), if_neg (by simp; omega), if_neg (by simp; omega), ih]
    rw [this, ih, h1]
    ring

/-- The number of bins kept of a map with `ny` bins in every column. -/
theorem kept_length {n nx ny : ℕ} {col : ℕ → ℕ} (he : Even n col nx ny) {ms : List Centred} {a b : ℤ} (hab : Common nx ms a b) (hle : a ≤ b) {p : Centred}
    (hp : p ∈ ms) : ((kept n col a b p).length : ℤ) = (b - a + 1) * ny := by
  have h1 := hab.2.1 p hp
  have h2 := hab.2.2.2 p hp
  obtain ⟨A, hA⟩ := Int.eq_ofNat_of_zero_le (show 0 ≤ a + p.s by omega)
  obtain ⟨m, hm⟩ := Int.eq_ofNat_of_zero_le (show 0 ≤ b - a + 1 by omega)
  have := filter_columns (List.range n) col ny A m fun i hi hj => he i (by omega)
  have e : kept n col a b p = (List.range n).filter fun t => decide (A ≤ col t ∧ col t < A + m) := by
    unfold kept
    refine List.filter_congr fun t _ => ?_
    rw [decide_eq_decide]
    omega
  rw [e, this, hm]
  push_cast
  rfl

/-- The shape in the information is that of the recentred maps exactly if the computed quotient of the width and the spacing is not below the number of
steps between the first and the last column. -/
theorem C130_shape_iff {u : ℚ} {fl : ℚ → ℚ} (hfl : Rounds u fl) {sum : List ℚ → ℚ} {x : List ℚ} {o h : ℚ} {nx ny : ℕ} {col : ℕ → ℕ} {K : ℚ}
    (hx : InColumns fl sum x o h nx col) (hn : Even x.length col nx ny) (hf : Fine u o h (nx + K)) {ms : List Centred} (hne : ms ≠ [])
    (hm : OnColumns x o h K ms) {a b : ℤ} (hab : Common nx ms a b) (hle : a ≤ b) :
    ∃ out info, recenterMaps fl sum (ms.map Centred.d) (ms.map fun p => some p.c) = .ok (out, info) ∧ (info.numBins : ℤ) = (b - a + 1) * ny ∧
      (((info.shape.1 : ℤ) = b - a + 1 ∧ info.shape.2 = ny) ↔ (b : ℚ) - a ≤ fl (fl (place fl o h b - place fl o h a) / h)) := by
  obtain ⟨out, info, e, -, -, h1, h2, h3, -, -⟩ := C130_as_coded_partial hfl hx hf hne hm hab hle
  have h4 : (info.numBins : ℤ) = (b - a + 1) * ny := by
    rw [h1]
    exact kept_length hn hab hle (List.getLast_mem hne)
  refine ⟨out, info, e, h4, ?_⟩
  constructor
  · rintro ⟨h5, -⟩
    by_contra hc
    rw [if_neg hc] at h2
    omega
  · intro hc
    rw [if_pos hc] at h2
    refine ⟨h2, ?_⟩
    have h6 : 0 < info.shape.1 := by omega
    have h7 : info.numBins = info.shape.1 * ny := by
      have : (info.numBins : ℤ) = (info.shape.1 * ny : ℕ) := by rw [h4, ← h2]; push_cast; rfl
      exact_mod_cast this
    rw [h3, h7, Nat.mul_div_cancel_left _ h6]

/-- For spacings and origins that are multiples of one power of two, not too large, recentring in double precision is right: positions are exact and the
shape is that of the maps. -/
theorem C130_binary_grids {bits : ℕ} (hbits : 1 ≤ bits) {sum : List ℚ → ℚ} {x : List ℚ} {nx ny : ℕ} {col : ℕ → ℕ} {K : ℚ} {O H e : ℤ}
    (hx : InColumns (roundBits bits) sum x (O * 2 ^ e) (H * 2 ^ e) nx col) (hn : Even x.length col nx ny)
    (hf : Fine (1 / 2 ^ bits) (O * 2 ^ e) (H * 2 ^ e) (nx + K)) {ms : List Centred} (hne : ms ≠ []) (hm : OnColumns x (O * 2 ^ e) (H * 2 ^ e) K ms) {a b : ℤ}
    (hab : Common nx ms a b) (hle : a ≤ b) (hsize : (|a| + |b|) * H + |O| ≤ 2 ^ bits) :
    ∃ out info, recenterMaps (roundBits bits) sum (ms.map Centred.d) (ms.map fun p => some p.c) = .ok (out, info) ∧
      List.Forall₂ (fun p r => ∀ k, (hk : k < (kept x.length col a b p).length) →
        val r "X" k = (O * 2 ^ e) + (H * 2 ^ e) * (((col (kept x.length col a b p)[k] : ℤ) - p.s : ℤ) : ℚ)) ms out ∧
      (info.shape.1 : ℤ) = b - a + 1 ∧ info.shape.2 = ny := by
  have hpow : (0 : ℚ) < 2 ^ e := by positivity
  have hH : 0 < H := by
    have h1 : (0 : ℚ) < H * 2 ^ e := hf.2.2.1
    have h2 : (0 : ℚ) < H := by
      by_contra hc
      nlinarith
    exact_mod_cast h2
  have hab0 : 0 ≤ |a| := abs_nonneg a
  have hbb0 : 0 ≤ |b| := abs_nonneg b
  have hO0 : 0 ≤ |O| := abs_nonneg O
  have two : (2 : ℚ) ≠ 0 := by norm_num
  have hplace : ∀ j : ℤ, a ≤ j → j ≤ b → place (roundBits bits) (O * 2 ^ e) (H * 2 ^ e) j = O * 2 ^ e + H * 2 ^ e * (j : ℚ) := by
    intro j h1 h2
    have hj : |j| ≤ |a| + |b| := by
      have := abs_le.mp (le_refl |a|)
      have := abs_le.mp (le_refl |b|)
      exact abs_le.mpr ⟨by omega, by omega⟩
    have hjH : |j * H| ≤ (|a| + |b|) * H := by
      rw [abs_mul, abs_of_pos hH]
      exact mul_le_mul_of_nonneg_right hj hH.le
    unfold place
    have e1 : (j : ℚ) * (H * 2 ^ e) = ((j * H : ℤ) : ℚ) * 2 ^ e := by push_cast; ring
    rw [e1, roundBits_of_digits hbits _ _ (by linarith)]
    have e2 : ((j * H : ℤ) : ℚ) * 2 ^ e + O * 2 ^ e = ((j * H + O : ℤ) : ℚ) * 2 ^ e := by push_cast; ring
    rw [e2, roundBits_of_digits hbits _ _ (by have := abs_add_le (j * H) O; linarith)]
    push_cast; ring
  have hdiff : |b - a| ≤ |a| + |b| := by have := abs_sub b a; linarith
  have hdH : |(b - a) * H| ≤ (|a| + |b|) * H := by
    rw [abs_mul, abs_of_pos hH]
    exact mul_le_mul_of_nonneg_right hdiff hH.le
  have hq : roundBits bits (roundBits bits (place (roundBits bits) (O * 2 ^ e) (H * 2 ^ e) b - place (roundBits bits) (O * 2 ^ e) (H * 2 ^ e) a) / (H * 2 ^ e)) =
      (b : ℚ) - a := by
    rw [hplace b hle le_rfl, hplace a le_rfl hle]
    have e1 : (O : ℚ) * 2 ^ e + H * 2 ^ e * (b : ℚ) - (O * 2 ^ e + H * 2 ^ e * (a : ℚ)) = (((b - a) * H : ℤ) : ℚ) * 2 ^ e := by push_cast; ring
    rw [e1, roundBits_of_digits hbits _ _ (by linarith)]
    have hHne : (H : ℚ) ≠ 0 := by exact_mod_cast hH.ne'
    have e2 : (((b - a) * H : ℤ) : ℚ) * 2 ^ e / (H * 2 ^ e) = ((b - a : ℤ) : ℚ) * 2 ^ (0 : ℤ) := by
      push_cast
      field_simp
    have : |b - a| ≤ |(b - a) * H| := by
      rw [abs_mul, abs_of_pos hH]
      exact le_mul_of_one_le_right (abs_nonneg _) (by omega)
    rw [e2, roundBits_of_digits hbits _ _ (by linarith)]
    push_cast; simp
  obtain ⟨out, info, h0, hr, -⟩ := C130_as_coded_partial (rounds_roundBits bits) hx hf hne hm hab hle
  obtain ⟨out', info', h0', -, h5⟩ := C130_shape_iff (rounds_roundBits bits) hx hn hf hne hm hab hle
  rw [h0] at h0'
  have h0'' := Except.ok.inj h0'
  rw [Prod.mk.injEq] at h0''
  obtain ⟨rfl, rfl⟩ := h0''
  refine ⟨out, info, h0, ?_, h5.mpr hq.symm.le⟩
  refine hr.imp ?_
  intro p r hpr k hk
  have hk' := List.of_mem_filter (List.getElem_mem hk)
  rw [decide_eq_true_iff] at hk'
  rw [(hpr.2.2.2 k hk).1, hplace _ hk'.1 hk'.2]

/-! ### A recentred map with the wrong shape -/

/-- Double precision. -/
def f64 : ℚ → ℚ := roundBits 53

/-- Positions at the centres of bins 0.1 wide, as read from a gmx_flow file. -/
def tenth (i : ℕ) : ℚ := gmxColumn f64 0 (f64 (1 / 10)) i

/-- Four columns of `ny` bins; the masses are the numbers from 1. -/
def exMap (ny : ℕ) : Record :=
  [("X", (List.range (4 * ny)).map fun t : ℕ => tenth (t / ny)), ("Y", (List.range (4 * ny)).map fun t : ℕ => tenth (t % ny)),
    ("M", (List.range (4 * ny)).map fun t : ℕ => ((t : ℕ) : ℚ) + 1)]

/-- In double precision two maps of four columns of two bins, centred on their third and fourth columns, give maps of three columns of two bins whose
information says two columns of three bins, where exact arithmetic says three of two. -/
theorem C130_counterexample :
    ((recenterMaps f64 (inOrder f64) [exMap 2, exMap 2] [some (tenth 2), some (tenth 3)]).toOption.map fun r => (r.2.shape, r.2.numBins)) = some ((2, 3), 6) ∧
    ((recenterMaps f64 (inOrder f64) [exMap 2, exMap 2] [some (tenth 2), some (tenth 3)]).toOption.map fun r => r.1.map fun d => (col? d "M").getD []) =
      some [[1, 2, 3, 4, 5, 6], [3, 4, 5, 6, 7, 8]] ∧
    ((recenterMaps f64 (inOrder f64) [exMap 2, exMap 2] [some (tenth 2), some (tenth 3)]).toOption.map fun r =>
      r.1.map fun d => (npUnique ((col? d "X").getD [])).length) = some [3, 3] ∧
    ((Driver.recenterMaps [exMap 2, exMap 2] [some (tenth 2), some (tenth 3)]).toOption.map fun r => r.2.shape) = some (3, 2) := by
  refine ⟨?_, ?_, ?_, ?_⟩ <;> decide +kernel

/-- With three bins in every column the shape does not even fit the number of bins. -/
theorem C130_shape_counterexample :
    ((recenterMaps f64 (inOrder f64) [exMap 3, exMap 3] [some (tenth 2), some (tenth 3)]).toOption.map fun r => (r.2.shape, r.2.numBins)) =
      some ((2, 4), 9) := by
  decide +kernel

/-- The spacing as computed from the positions. -/
def exSpacing : ℚ := (spacingOf f64 (inOrder f64) ((col? (exMap 2) "X").getD [])).getD 0

/-- The hypotheses of `C130_as_coded_partial` hold for these maps. -/
example : Rounds (1 / 2 ^ 53) f64 ∧ InColumns f64 (inOrder f64) ((col? (exMap 2) "X").getD []) (tenth 0) exSpacing 4 (fun t => t / 2) ∧
    Fine (1 / 2 ^ 53) (tenth 0) exSpacing ((4 : ℕ) + 3) ∧
    OnColumns ((col? (exMap 2) "X").getD []) (tenth 0) exSpacing 3 [⟨exMap 2, tenth 2, 2⟩, ⟨exMap 2, tenth 3, 3⟩] ∧
    Common 4 [⟨exMap 2, tenth 2, 2⟩, ⟨exMap 2, tenth 3, 3⟩] (-2) 0 := by
  refine ⟨rounds_roundBits 53, ⟨by decide +kernel, by decide +kernel, by decide +kernel, ?_⟩, ?_, ?_, ?_⟩
  · intro i hi
    have : ∀ i : ℕ, i < 4 → ∃ t, t < 8 ∧ (fun t => t / 2) t = i := fun i hi => ⟨2 * i, by omega, by simp only; omega⟩
    have e : ((col? (exMap 2) "X").getD []).length = 8 := by decide +kernel
    rw [e]
    exact this i hi
  · unfold Fine; decide +kernel
  · intro p hp
    simp only [List.mem_cons, List.not_mem_nil, or_false] at hp
    rcases hp with rfl | rfl
    · exact ⟨by unfold Wf; decide +kernel, by decide +kernel, by decide +kernel, by decide +kernel, by decide +kernel⟩
    · exact ⟨by unfold Wf; decide +kernel, by decide +kernel, by decide +kernel, by decide +kernel, by decide +kernel⟩
  · refine ⟨⟨⟨exMap 2, tenth 2, 2⟩, by simp, rfl⟩, ?_, ⟨⟨exMap 2, tenth 3, 3⟩, by simp, rfl⟩, ?_⟩
    · intro p hp
      simp only [List.mem_cons, List.not_mem_nil, or_false] at hp
      rcases hp with rfl | rfl <;> decide
    · intro p hp
      simp only [List.mem_cons, List.not_mem_nil, or_false] at hp
      rcases hp with rfl | rfl <;> decide

/-- Positions at the centres of bins 1/4 wide. -/
def quarter (i : ℕ) : ℚ := gmxColumn f64 0 (1 / 4) i

def exBinary : Record :=
  [("X", (List.range 8).map fun t : ℕ => quarter (t / 2)), ("Y", (List.range 8).map fun t : ℕ => quarter (t % 2)),
    ("M", (List.range 8).map fun t : ℕ => ((t : ℕ) : ℚ) + 1)]

/-- The hypotheses of `C130_binary_grids` hold for the same maps on bins 1/4 wide. -/
example : InColumns (roundBits 53) (inOrder f64) ((col? exBinary "X").getD []) ((1 : ℤ) * 2 ^ (-3 : ℤ)) ((2 : ℤ) * 2 ^ (-3 : ℤ)) 4 (fun t => t / 2) ∧
    Even ((col? exBinary "X").getD []).length (fun t => t / 2) 4 2 ∧ Fine (1 / 2 ^ 53) ((1 : ℤ) * 2 ^ (-3 : ℤ)) ((2 : ℤ) * 2 ^ (-3 : ℤ)) ((4 : ℕ) + 3) ∧
    OnColumns ((col? exBinary "X").getD []) ((1 : ℤ) * 2 ^ (-3 : ℤ)) ((2 : ℤ) * 2 ^ (-3 : ℤ)) 3 [⟨exBinary, quarter 2, 2⟩, ⟨exBinary, quarter 3, 3⟩] ∧
    (|(-2 : ℤ)| + |(0 : ℤ)|) * 2 + |(1 : ℤ)| ≤ 2 ^ 53 := by
  have e : ((col? exBinary "X").getD []).length = 8 := by decide +kernel
  refine ⟨⟨by decide +kernel, by decide +kernel, by decide +kernel, ?_⟩, ?_, ?_, ?_, by decide⟩
  · intro i hi
    rw [e]
    exact ⟨2 * i, by omega, Nat.mul_div_cancel_left i (by norm_num)⟩
  · rw [e]; unfold Even; decide +kernel
  · unfold Fine; decide +kernel
  · intro p hp
    simp only [List.mem_cons, List.not_mem_nil, or_false] at hp
    rcases hp with rfl | rfl
    · exact ⟨by unfold Wf; decide +kernel, by decide +kernel, by decide +kernel, by decide +kernel, by decide +kernel⟩
    · exact ⟨by unfold Wf; decide +kernel, by decide +kernel, by decide +kernel, by decide +kernel, by decide +kernel⟩

/-! ## C131 -/

/-- The first and last position of a map along an axis, and their places on a lattice. -/
structure Span where
  lo : ℚ
  hi : ℚ
  i : ℤ
  j : ℤ

/-- The positions are those of the lattice with the spacing `d`, up to an eighth of it. -/
def OnLattice (c d : ℚ) (p : Span) : Prop := |p.lo - (c + d * p.i)| ≤ 1 / 8 * d ∧ |p.hi - (c + d * p.j)| ≤ 1 / 8 * d ∧ p.i ≤ p.j

theorem lattice_le {c d v w : ℚ} (hd : 0 < d) {k l : ℤ} (hv : |v - (c + d * k)| ≤ 1 / 8 * d) (hw : |w - (c + d * l)| ≤ 1 / 8 * d) (h : v ≤ w) : k ≤ l := by
  by_contra hc
  have h1 : (l : ℚ) + 1 ≤ k := by exact_mod_cast not_le.mp hc
  have h2 := abs_le.mp hv
  have h3 := abs_le.mp hw
  nlinarith

theorem steps_between {u : ℚ} (hu : 0 ≤ u) (hu1 : u ≤ 1) {fl : ℚ → ℚ} (hfl : Rounds u fl) {c d v w : ℚ} (hd : 0 < d) {k l : ℤ} (hv : |v - (c + d * k)| ≤ 1 / 8 * d)
    (hw : |w - (c + d * l)| ≤ 1 / 8 * d) {N : ℚ} (hN : |((l : ℚ) - k)| ≤ N) (hs : 24 * u * (N + 1) ≤ 1) : pyRound (fl (fl (w - v) / d)) = l - k := by
  refine pyRound_of_near ?_
  have h2 := abs_le.mp hv
  have h3 := abs_le.mp hw
  have e1 : |(w - v) / d - ((l : ℚ) - k)| ≤ 1 / 4 := by
    have : (w - v) / d - ((l : ℚ) - k) = ((w - v) - d * ((l : ℚ) - k)) / d := by field_simp
    rw [this, abs_div, abs_of_pos hd, div_le_iff₀ hd, abs_le]
    constructor <;> linarith
  have e2 := quotient_near hu hu1 hfl (w - v) d
  have e3 : |(w - v) / d| ≤ N + 1 / 4 := by
    have : (w - v) / d = ((w - v) / d - ((l : ℚ) - k)) + ((l : ℚ) - k) := by ring
    rw [this]
    exact (abs_add_le _ _).trans (by linarith)
  have e5 : 3 * u * |(w - v) / d| ≤ 3 * u * (N + 1 / 4) := mul_le_mul_of_nonneg_left e3 (by positivity)
  have e7 : fl (fl (w - v) / d) - ((l - k : ℤ) : ℚ) = (fl (fl (w - v) / d) - (w - v) / d) + ((w - v) / d - ((l : ℚ) - k)) := by push_cast; ring
  rw [e7]
  refine lt_of_le_of_lt (abs_add_le _ _) ?_
  nlinarith

/-- The combined grid of maps on one lattice, computed with rounding: it reaches from the first to the last position of any of them, every map is put at
its own place, and it fits into the grid. -/
theorem C131_combined_grid {u : ℚ} (hu : 0 ≤ u) (hu1 : u ≤ 1) {fl : ℚ → ℚ} (hfl : Rounds u fl) (hneg : ∀ x, fl (-x) = -fl x) {c d : ℚ} (hd : 0 < d)
    {ps : List Span} (hne : ps ≠ []) (hp : ∀ p ∈ ps, OnLattice c d p) {N : ℚ} (hN : ∀ p ∈ ps, ∀ q ∈ ps, |((q.j : ℚ) - p.i)| ≤ N) (hs : 24 * u * (N + 1) ≤ 1) :
    ∃ xmin xmax i0 j0, npMin (ps.map Span.lo) = .ok xmin ∧ npMax (ps.map Span.hi) = .ok xmax ∧
      ((∃ p ∈ ps, p.i = i0) ∧ ∀ p ∈ ps, i0 ≤ p.i) ∧ ((∃ p ∈ ps, p.j = j0) ∧ ∀ p ∈ ps, p.j ≤ j0) ∧ numBins fl xmin xmax d = j0 - i0 + 1 ∧
      ∀ p ∈ ps, firstBin fl xmin p.lo d = p.i - i0 ∧ firstBin fl xmin p.lo d + (p.j - p.i + 1) ≤ numBins fl xmin xmax d := by
  obtain ⟨xmin, h1⟩ := npMin_exists (l := ps.map Span.lo) (by simpa using hne)
  obtain ⟨xmax, h2⟩ := npMax_exists (l := ps.map Span.hi) (by simpa using hne)
  obtain ⟨m1, l1⟩ := (npMin_ok_iff _ _).mp h1
  obtain ⟨m2, l2⟩ := (npMax_ok_iff _ _).mp h2
  obtain ⟨p, hpm, rfl⟩ := List.mem_map.mp m1
  obtain ⟨q, hqm, rfl⟩ := List.mem_map.mp m2
  have hi0 : ∀ r ∈ ps, p.i ≤ r.i := fun r hr => lattice_le hd (hp p hpm).1 (hp r hr).1 (l1 _ (List.mem_map.mpr ⟨r, hr, rfl⟩))
  have hj0 : ∀ r ∈ ps, r.j ≤ q.j := fun r hr => lattice_le hd (hp r hr).2.1 (hp q hqm).2.1 (l2 _ (List.mem_map.mpr ⟨r, hr, rfl⟩))
  have hbins : numBins fl p.lo q.hi d = q.j - p.i + 1 := by
    unfold numBins
    rw [steps_between hu hu1 hfl hd (hp p hpm).1 (hp q hqm).2.1 (hN p hpm q hqm) hs]
  refine ⟨p.lo, q.hi, p.i, q.j, h1, h2, ⟨⟨p, hpm, rfl⟩, hi0⟩, ⟨⟨q, hqm, rfl⟩, hj0⟩, hbins, ?_⟩
  intro r hr
  have hf : firstBin fl p.lo r.lo d = r.i - p.i := by
    unfold firstBin
    have : -fl (p.lo - r.lo) = fl (r.lo - p.lo) := by rw [← hneg]; congr 1; ring
    have h3 : |((r.i : ℚ) - p.i)| ≤ N := by
      refine le_trans ?_ (hN p hpm r hr)
      have a1 : (p.i : ℚ) ≤ r.i := by exact_mod_cast hi0 r hr
      have a2 : (r.i : ℚ) ≤ r.j := by exact_mod_cast (hp r hr).2.2
      rw [abs_of_nonneg (by linarith), abs_of_nonneg (by linarith)]
      linarith
    rw [this, steps_between hu hu1 hfl hd (hp p hpm).1 (hp r hr).1 h3 hs]
    exact max_eq_left (by have := hi0 r hr; omega)
  refine ⟨hf, ?_⟩
  rw [hf, hbins]
  have := hj0 r hr
  omega

/-- Rounding to the nearest, ties to even, is symmetric. -/
theorem roundBits_neg (p : ℕ) (x : ℚ) : roundBits p (-x) = -roundBits p x := by
  unfold roundBits
  by_cases hx : x = 0
  · simp [hx]
  · rw [if_neg (by simpa using hx), if_neg hx, abs_neg, neg_div, InterfaceText.pyRound_neg]
    push_cast
    ring

/-- Three maps with bins 0.1 wide, as read from gmx_flow files, meet the hypotheses of `C131_combined_grid`. -/
example : (∀ p ∈ [Span.mk (tenth 3) (tenth 12) 3 12, ⟨tenth 0, tenth 9, 0, 9⟩, ⟨tenth 7, tenth 31, 7, 31⟩], OnLattice (1 / 20) (f64 (1 / 10)) p) ∧
    24 * (1 / 2 ^ 53 : ℚ) * (31 + 1) ≤ 1 ∧ numBins f64 (tenth 0) (tenth 31) (f64 (1 / 10)) = 32 ∧ firstBin f64 (tenth 0) (tenth 7) (f64 (1 / 10)) = 7 := by
  refine ⟨?_, by norm_num, by decide +kernel, by decide +kernel⟩
  unfold OnLattice
  decide +kernel

/-! ## C132 -/

theorem yindexOf_id (y : ℚ) (d : InterfaceFiles.YIndex) : yindexOf id y d = InterfaceFiles.yindexOf y d := rfl

/-- Without rounding this is the function of Model/InterfaceFiles.lean. -/
theorem C132_exact {α : Type} (old : Option (List α × InterfaceFiles.YIndex)) (new : InterfaceFiles.YIndex) :
    transferValues id old new = InterfaceFiles.transferValues old new := rfl

/-- The index computed for layer `k` is `k` if the computed quotient is not below `k`, and otherwise `k - 1`. -/
theorem C132_index_iff {u : ℚ} (hu : 0 ≤ u) (hu1 : u ≤ 1) {fl : ℚ → ℚ} (hfl : Rounds u fl) {d : InterfaceFiles.YIndex} (hd : 0 < d.dy) {y : ℚ} {k : ℕ}
    (h1 : d.ymin ≤ y) (h2 : y ≤ d.ymax) (hy : |y - (d.ymin + d.dy * k)| ≤ 1 / 8 * d.dy) (hs : 24 * u * ((k : ℚ) + 1) ≤ 1) :
    yindexOf fl y d = (if (k : ℚ) ≤ fl (fl (y - d.ymin) / d.dy) then k else k - 1) ∧ (k = 0 → yindexOf fl y d = 0) := by
  have hclip : min (max y d.ymin) d.ymax = y := by rw [max_eq_left h1, min_eq_left h2]
  have e1 : |(y - d.ymin) / d.dy - k| ≤ 1 / 8 := by
    have : (y - d.ymin) / d.dy - k = (y - (d.ymin + d.dy * k)) / d.dy := by field_simp; ring
    rw [this, abs_div, abs_of_pos hd, div_le_iff₀ hd]
    exact hy
  have e2 := quotient_near hu hu1 hfl (y - d.ymin) d.dy
  have hk0 : (0 : ℚ) ≤ k := by positivity
  have e3 : |(y - d.ymin) / d.dy| ≤ k + 1 / 8 := by
    have : (y - d.ymin) / d.dy = ((y - d.ymin) / d.dy - k) + k := by ring
    rw [this]
    refine (abs_add_le _ _).trans ?_
    rw [abs_of_nonneg hk0]
    linarith
  have e5 : 3 * u * |(y - d.ymin) / d.dy| ≤ 3 * u * (k + 1 / 8) := mul_le_mul_of_nonneg_left e3 (by positivity)
  have near : |fl (fl (y - d.ymin) / d.dy) - k| < 1 / 2 := by
    have e7 : fl (fl (y - d.ymin) / d.dy) - (k : ℚ) = (fl (fl (y - d.ymin) / d.dy) - (y - d.ymin) / d.dy) + ((y - d.ymin) / d.dy - k) := by ring
    rw [e7]
    refine lt_of_le_of_lt (abs_add_le _ _) ?_
    nlinarith
  have hn := abs_lt.mp near
  unfold yindexOf
  rw [hclip]
  set q := fl (fl (y - d.ymin) / d.dy)
  have main : (Flow.pyInt q).toNat = if (k : ℚ) ≤ q then k else k - 1 := by
    unfold Flow.pyInt
    split_ifs with c1 c2 c2
    · have : ⌊q⌋ = (k : ℤ) := by
        rw [Int.floor_eq_iff]; push_cast; exact ⟨c2, by linarith⟩
      rw [this]; simp
    · have hk : k ≠ 0 := by rintro rfl; exact c2 (by simpa using c1)
      have : ⌊q⌋ = (k : ℤ) - 1 := by
        rw [Int.floor_eq_iff]; push_cast; exact ⟨by linarith, by linarith⟩
      rw [this]; omega
    · exact absurd (hk0.trans c2) c1
    · have hk : k = 0 := by
        by_contra hc
        have : (1 : ℚ) ≤ k := by exact_mod_cast Nat.one_le_iff_ne_zero.mpr hc
        linarith
      have : ⌈q⌉ = 0 := by
        rw [Int.ceil_eq_zero_iff]
        subst hk
        constructor
        · push_cast at hn; linarith
        · push Not at c1; linarith
      rw [this, hk]; rfl
  refine ⟨main, ?_⟩
  rintro rfl
  rw [main]
  split_ifs <;> rfl

/-- The hypotheses of `C132_index_iff` hold for the layers below. -/
example : ∀ k : ℕ, k < 4 → |gmxColumn f64 (f64 (-12 / 1000)) (f64 (13 / 1000)) k - (gmxColumn f64 (f64 (-12 / 1000)) (f64 (13 / 1000)) 0 +
    f64 (13 / 1000) * k)| ≤ 1 / 8 * f64 (13 / 1000) := by decide +kernel

/-- Heights of the bins of a gmx_flow file with the origin -0.012 and the spacing 0.013. -/
def height (i : ℕ) : ℚ := gmxColumn f64 (f64 (-12 / 1000)) (f64 (13 / 1000)) i

/-- The index data of the layers from `a` on, `n` of them. -/
def layers (a n : ℕ) : Except Err InterfaceFiles.YIndex := yindexData f64 ((List.range n).map fun i : ℕ => height (a + i))

/-- The same layers in exact arithmetic. -/
def exactLayers (a n : ℕ) : Except Err InterfaceFiles.YIndex :=
  InterfaceFiles.yindexData ((List.range n).map fun i : ℕ => (-12 / 1000 : ℚ) + 13 / 1000 * (((a + i : ℕ) : ℚ) + 1 / 2))

/-- In double precision the fourth of four layers gets the index of the third. -/
theorem C132_index_counterexample : ((layers 0 4).map fun d => (List.range 4).map fun i : ℕ => yindexOf f64 (height i) d) = .ok [0, 1, 2, 2] := by
  decide +kernel

/-- If the next interface has only the last three of four layers, transferring the values raises `ValueError`; if it has the last two, the last layer gets
the value of the one below it.  Exact arithmetic gives every layer its own value. -/
theorem C132_counterexample :
    (layers 0 4 >>= fun old => layers 1 3 >>= fun new => transferValues f64 (some ([10, 20, 30, 40], old)) new) = (.error .valueError : Except Err (List (Option ℕ))) ∧
    (layers 0 4 >>= fun old => layers 2 2 >>= fun new => transferValues f64 (some ([10, 20, 30, 40], old)) new) = (.ok [some 30, some 30] : Except Err (List (Option ℕ))) ∧
    (exactLayers 0 4 >>= fun old => exactLayers 1 3 >>= fun new => InterfaceFiles.transferValues (some ([10, 20, 30, 40], old)) new) =
      (.ok [some 20, some 30, some 40] : Except Err (List (Option ℕ))) := by
  refine ⟨?_, ?_, ?_⟩ <;> decide +kernel

end Strata.FloatGrid
