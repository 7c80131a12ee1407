import Verif.Proofs.Recenter
import Verif.Proofs.Ieee
import Verif.Props.Driver
import Verif.Props.Sample
/-!
# C58: recentred maps share a grid
-/
namespace Strata.Driver
open Strata Strata.Flow Strata.Average Strata.Resample Strata.SimpleAverage Strata.Simple

theorem omapM_some {α β : Type} (f : α → β) : ∀ (l : List α), (l.map fun a => some (f a)).mapM id = some (l.map f)
  | [] => rfl
  | a :: l => by
    rw [List.map_cons, List.mapM_cons, omapM_some f l]; rfl

theorem zip_map_map {α β γ : Type} (f : α → β) (g : α → γ) : ∀ (l : List α), (l.map f).zip (l.map g) = l.map fun a => (f a, g a)
  | [] => rfl
  | a :: l => by rw [List.map_cons, List.map_cons, List.zip_cons_cons, zip_map_map f g l]; rfl

theorem key_some {d : Record} {l : Label} {c : List ℚ} (h : col? d l = some c) : key d l = .ok c := by
  unfold key; rw [h]; rfl

theorem mem_npMax {l : List ℚ} {m : ℚ} (h1 : m ∈ l) (h2 : ∀ x ∈ l, x ≤ m) : npMax l = .ok m := (npMax_ok_iff l m).mpr ⟨h1, h2⟩
theorem mem_npMin {l : List ℚ} {m : ℚ} (h1 : m ∈ l) (h2 : ∀ x ∈ l, m ≤ x) : npMin l = .ok m := (npMin_ok_iff l m).mpr ⟨h1, h2⟩

/-- The x positions of a map. -/
def Placed.x (p : Placed) : List ℚ := (col? p.d "X").getD []

theorem Placed.x_eq {h hy : ℚ} {p : Placed} (hg : FullGrid p.d (h, hy) p.o p.y0 p.nx p.ny) : col? p.d "X" = some p.x := by
  have := (col?_isSome_iff p.d "X").mpr hg.hasX
  unfold Placed.x
  cases hc : col? p.d "X" with
  | none => rw [hc] at this; simp at this
  | some c => rfl

/-- The moved x positions. -/
def Placed.row (h : ℚ) (p : Placed) : List ℚ := p.x.map fun v => v - h * (p.shift h : ℚ)

theorem Placed.row_iff {h hy : ℚ} {p : Placed} (hg : FullGrid p.d (h, hy) p.o p.y0 p.nx p.ny) (v : ℚ) :
    v ∈ p.row h ↔ ∃ i : ℕ, i < p.nx ∧ p.lo h + h * (i : ℚ) = v := by
  unfold Placed.row Placed.lo
  rw [List.mem_map]
  constructor
  · rintro ⟨w, hw, rfl⟩
    obtain ⟨i, hi, rfl⟩ := (hg.col_x (Placed.x_eq hg) w).mp hw
    exact ⟨i, hi, by simp only; ring⟩
  · rintro ⟨i, hi, rfl⟩
    exact ⟨p.o + h * i, (hg.col_x (Placed.x_eq hg) _).mpr ⟨i, hi, rfl⟩, by ring⟩

/-- What `recenter_maps` computes for aligned maps, up to the selection. -/
theorem recenterMaps_eq {h hy x00 : ℚ} {n : ℕ} (hh : 0 < h) {ms : List Placed} (hm : ms ≠ []) (ha : Aligned h hy x00 n ms) {a b : ℚ}
    (hfa : FirstCommon h ms a) (hlb : LastCommon h ms b) :
    recenterMaps (ms.map Placed.d) (ms.map fun p => some p.c) =
      ((ms.mapM fun p => subset a b (p.row h) p.d) >>= fun out => recentredInfo a b (some h) (out.getLastD []) >>= fun info => .ok (out, info)) := by
  obtain ⟨p0, rest, rfl⟩ := List.exists_cons_of_ne_nil hm
  set ms := p0 :: rest with hms
  unfold recenterMaps
  rw [if_neg (by simp)]
  have h0 := ha p0 (by simp [hms])
  have hn : p0.x.length = n := by rw [col?_length h0.1.wf (Placed.x_eq h0.1), h0.2.2.1]
  have e1 : rowLength (ms.map Placed.d) = .ok n := by
    rw [hms, List.map_cons]
    unfold rowLength
    simp only
    rw [key_some (Placed.x_eq h0.1)]
    show Except.ok p0.x.length = _
    rw [hn]
  rw [e1, Gmx.ok_bind, zip_map_map, mapM_map']
  rw [mapM_ok' _ (fun p => some (p.row h)) ms (by
    intro p hp
    obtain ⟨hg, h2, hs, -⟩ := ha p hp
    simp only
    rw [key_some (Placed.x_eq hg), Gmx.ok_bind, translated_grid hg hh h2 (Placed.x_eq hg), Gmx.ok_bind, if_pos (by
      rw [col?_length hg.wf (Placed.x_eq hg), hs])]
    rfl)]
  rw [Gmx.ok_bind, omapM_some]
  simp only
  rw [mapM_map', mapM_ok' _ (fun p : Placed => p.lo h) ms (by
    intro p hp
    obtain ⟨hg, h2, hs, -⟩ := ha p hp
    exact npMin_of_iff _ p.nx hg.nxpos _ h hh (Placed.row_iff hg)), Gmx.ok_bind,
    mem_npMax (m := a) (by
      obtain ⟨p, hp, e⟩ := hfa.1
      exact List.mem_map.mpr ⟨p, hp, e⟩) (by
      intro x hx
      obtain ⟨p, hp, rfl⟩ := List.mem_map.mp hx
      exact hfa.2 p hp), Gmx.ok_bind,
    mapM_map', mapM_ok' _ (fun p : Placed => p.hi h) ms (by
    intro p hp
    obtain ⟨hg, h2, hs, -⟩ := ha p hp
    exact npMax_of_iff _ p.nx hg.nxpos _ h hh (Placed.row_iff hg)), Gmx.ok_bind,
    mem_npMin (m := b) (by
      obtain ⟨p, hp, e⟩ := hlb.1
      exact List.mem_map.mpr ⟨p, hp, e⟩) (by
      intro x hx
      obtain ⟨p, hp, rfl⟩ := List.mem_map.mp hx
      exact hlb.2 p hp), Gmx.ok_bind, zip_map_map, mapM_map']
  have hlast : (((ms.map Placed.d).getLast?.bind fun d => col? d "X").map spacingOf).getD none = some h := by
    have hne : ms ≠ [] := by simp [hms]
    rw [List.getLast?_map, List.getLast?_eq_getLast_of_ne_nil hne]
    obtain ⟨hg, h2, -⟩ := ha _ (List.getLast_mem hne)
    simp only [Option.map_some, Option.bind_some]
    rw [Placed.x_eq hg]
    simp only [Option.map_some, Option.getD_some]
    exact spacingOf_grid _ _ h2 _ h hh (hg.col_x (Placed.x_eq hg))
  rw [hlast]

theorem lattice_lo {h hy x00 : ℚ} {n : ℕ} {ms : List Placed} (ha : Aligned h hy x00 n ms) {p : Placed} (hp : p ∈ ms) :
    ∃ k : ℤ, p.lo h = x00 + h * k := by
  obtain ⟨-, -, -, k, hk⟩ := ha p hp
  exact ⟨k - p.shift h, by unfold Placed.lo; rw [hk]; push_cast; ring⟩

theorem steps {h a b x00 : ℚ} (hh : 0 < h) {k l : ℤ} (ha : a = x00 + h * k) (hb : b = x00 + h * l) (hab : a ≤ b) : ∃ m : ℕ, b = a + h * m := by
  have : k ≤ l := by
    rw [ha, hb] at hab
    have : (k : ℚ) ≤ l := by
      by_contra hc
      push Not at hc
      nlinarith
    exact_mod_cast this
  obtain ⟨m, hm⟩ := Int.eq_ofNat_of_zero_le (sub_nonneg.mpr this)
  have hm' : (l : ℚ) = k + m := by
    have : l = k + m := by omega
    rw [this]; push_cast; ring
  exact ⟨m, by rw [hb, ha, hm']; ring⟩

theorem mapM_forall₂ {α β : Type} {f : α → Except Err β} {R : α → β → Prop} : ∀ (l : List α), (∀ a ∈ l, ∃ b, f a = .ok b ∧ R a b) →
    ∃ bs, l.mapM f = .ok bs ∧ List.Forall₂ R l bs := by
  intro l h
  induction l with
  | nil => exact ⟨[], rfl, .nil⟩
  | cons a l ih =>
    obtain ⟨b, hb, hr⟩ := h a (by simp)
    obtain ⟨bs, hbs, hrs⟩ := ih fun c hc => h c (by simp [hc])
    exact ⟨b :: bs, by rw [List.mapM_cons, hb, Gmx.ok_bind, hbs, Gmx.ok_bind]; rfl, .cons hr hrs⟩

theorem forall₂_last {α β : Type} {R : α → β → Prop} {l : List α} {bs : List β} (h : List.Forall₂ R l bs) (hne : l ≠ []) (d : β) :
    R (l.getLast hne) (bs.getLastD d) := by
  induction h with
  | nil => exact absurd rfl hne
  | @cons a b l bs hr hrs ih =>
    cases hrs with
    | nil => simpa using hr
    | @cons a' b' l' bs' hr' hrs' =>
      have := ih (by simp)
      simpa using this

/-- **C58** (maps whose columns coincide).  Let `a` be the greatest first column of the moved maps and `b` the least last
one, `a ≤ b`.  Then every recentred map is on the grid of the columns `a, a + h, …, b` - the intersection of all moved
ranges - with all of its own rows, the value at column `a + h i` is that of the original map at `a + h i + h·shift`, and the information
describes the grid of the last map.  Missing: maps whose columns do not coincide, for which the claim fails
(`C58_columns_apart`). -/
theorem C58_common_grid_partial {h hy x00 : ℚ} {n : ℕ} (hh : 0 < h) (hhy : 0 < hy) {ms : List Placed} (hm : ms ≠ []) (ha : Aligned h hy x00 n ms)
    {a b : ℚ} (hfa : FirstCommon h ms a) (hlb : LastCommon h ms b) (hab : a ≤ b) :
    ∃ (N : ℕ) (out : List Record) (info : DInfo), b = a + h * ((N : ℚ) - 1) ∧
      recenterMaps (ms.map Placed.d) (ms.map fun p => some p.c) = .ok (out, info) ∧
      List.Forall₂ (fun p r => FullGrid r (h, hy) a p.y0 N p.ny ∧
        (∀ l, l ∈ names r ↔ l ∈ names p.d) ∧
        ∀ l, l ≠ "X" → ∀ i j : ℕ, i < N → j < p.ny →
          valueAt r l (a + h * i) (p.y0 + hy * j) = valueAt p.d l (a + h * i + h * p.shift h) (p.y0 + hy * j)) ms out ∧
      info.shape = (N, (ms.getLast hm).ny) ∧ info.numBins = N * (ms.getLast hm).ny ∧ info.origin = some (a, (ms.getLast hm).y0) ∧
      info.spacing.1 = some h ∧ (2 ≤ (ms.getLast hm).ny → info.spacing.2 = some hy) := by
  obtain ⟨pa, hpa, ea⟩ := hfa.1
  obtain ⟨pb, hpb, eb⟩ := hlb.1
  obtain ⟨ka, hka⟩ := lattice_lo ha hpa
  obtain ⟨kb, hkb⟩ := lattice_lo ha hpb
  have hnb := (ha pb hpb).1.nxpos
  have hb' : b = x00 + h * ((kb + (pb.nx - 1 : ℕ) : ℤ) : ℚ) := by
    rw [← eb]; unfold Placed.hi; rw [hkb]; push_cast [Nat.cast_sub hnb]; ring
  obtain ⟨m, hm'⟩ := steps hh (ea ▸ hka) hb' hab
  rw [recenterMaps_eq hh hm ha hfa hlb]
  have key1 : ∀ p ∈ ms, ∃ r, subset a b (p.row h) p.d = .ok r ∧ (FullGrid r (h, hy) a p.y0 (m + 1) p.ny ∧
        (∀ l, l ∈ names r ↔ l ∈ names p.d) ∧
        ∀ l, l ≠ "X" → ∀ i j : ℕ, i < m + 1 → j < p.ny →
          valueAt r l (a + h * i) (p.y0 + hy * j) = valueAt p.d l (a + h * i + h * p.shift h) (p.y0 + hy * j)) := by
    intro p hp
    obtain ⟨hg, h2, hs, -⟩ := ha p hp
    obtain ⟨k, hk⟩ := lattice_lo ha hp
    obtain ⟨A, hA⟩ := steps hh hk (ea ▸ hka) (hfa.2 p hp)
    have hAN : A + (m + 1) ≤ p.nx := by
      have h1 := hlb.2 p hp
      unfold Placed.hi at h1
      rw [hm', hA] at h1
      have h2 : h * ((A : ℚ) + m) ≤ h * ((p.nx : ℚ) - 1) := by linarith
      have h3 := le_of_mul_le_mul_left h2 hh
      have : (A : ℚ) + (m + 1) ≤ p.nx := by linarith
      exact_mod_cast this
    have hlo : p.o - h * (p.shift h : ℚ) = p.lo h := rfl
    obtain ⟨r, h1, hr, h2', h3⟩ := subset_grid (s := h * (p.shift h : ℚ)) hg hh hhy (Placed.x_eq hg) A (m + 1) (by omega) hAN
    rw [hlo] at h1 h2' h3
    have eb1 : p.lo h + h * ((A : ℚ) + ((m + 1 : ℕ) : ℚ) - 1) = b := by rw [hm', hA]; push_cast; ring
    rw [eb1, ← hA] at h1
    rw [← hA] at h2' h3
    refine ⟨r, h1, h2', ?_, ?_⟩
    · intro l
      rw [hr]
      have : names (gather ((List.range (Flow.size p.d)).filter fun t => decide (p.o - h * (p.shift h : ℚ) + h * (A : ℚ) ≤ val p.d "X" t - h * (p.shift h : ℚ) ∧
          val p.d "X" t - h * (p.shift h : ℚ) ≤ p.o - h * (p.shift h : ℚ) + h * ((A : ℚ) + ((m + 1 : ℕ) : ℚ) - 1))) (moved p.d (p.x.map fun v => v - h * (p.shift h : ℚ)))) =
          names (moved p.d (p.x.map fun v => v - h * (p.shift h : ℚ))) := by
        simp [names, gather]
      rw [this, mem_names_moved]
      constructor
      · rintro (rfl | hl)
        · exact hg.hasX
        · exact hl
      · exact Or.inr
    · intro l hl i j hi hj
      rw [h3 l hl i j hi hj, hA, ← hlo]
      congr 1
      ring
  obtain ⟨out, ho, hf⟩ := mapM_forall₂ ms key1
  have hlast := forall₂_last hf hm []
  set q := ms.getLast hm with hq
  set r := out.getLastD [] with hr
  obtain ⟨hgr, -, -⟩ := hlast
  have hyc : ∃ c, col? r "Y" = some c := by simpa using (col?_isSome_iff r "Y").mpr hgr.hasY
  obtain ⟨cy, hcy⟩ := hyc
  have hxc : ∃ c, col? r "X" = some c := by simpa using (col?_isSome_iff r "X").mpr hgr.hasX
  obtain ⟨cx, hcx⟩ := hxc
  have hsz : Flow.size r = (m + 1) * q.ny := hgr.size_eq hh hhy
  have hnx : (Flow.pyInt ((b - a) / h) + 1).toNat = m + 1 := by
    have : (b - a) / h = ((m : ℤ) : ℚ) := by rw [hm']; field_simp; push_cast; ring
    rw [this, pyInt_intCast]
    omega
  rw [ho, Gmx.ok_bind]
  refine ⟨m + 1, out, ⟨(m + 1, (m + 1) * q.ny / (m + 1)), (some h, spacingOf cy), some (a, q.y0), (m + 1) * q.ny⟩, ?_, ?_, hf, ?_, rfl, rfl, rfl, ?_⟩
  · rw [hm']; push_cast; ring
  · unfold recentredInfo
    rw [key_some hcy, Gmx.ok_bind, npMin_of_iff _ _ hgr.nypos _ _ hhy (hgr.col_y hcy), Gmx.ok_bind]
    simp only
    rw [hnx, hcx, Option.getD_some, col?_length hgr.wf hcx, hsz, Gmx.ok_bind]
  · simp only
    rw [Nat.mul_div_cancel_left _ (by omega)]
  · intro h2
    exact spacingOf_grid _ _ h2 _ _ hhy (hgr.col_y hcy)

/-- **C58**: the number of columns a map is moved by brings the position as near to the first column as whole columns
allow. -/
theorem C58_shift_is_nearest {h : ℚ} (hh : 0 < h) (p : Placed) : |h * p.shift h - (p.c - p.o)| ≤ h / 2 := by
  have := Bytes.pyRound_near' ((p.c - p.o) / h)
  have e : h * (p.shift h : ℚ) - (p.c - p.o) = h * ((pyRound ((p.c - p.o) / h) : ℚ) - (p.c - p.o) / h) := by
    unfold Placed.shift
    field_simp
  rw [e, abs_mul, abs_of_pos hh]
  nlinarith

/-- **C58**: if the moved maps have no column in common, recentring raises `ValueError`. -/
theorem C58_no_overlap {h hy x00 : ℚ} {n : ℕ} (hh : 0 < h) {ms : List Placed} (hm : ms ≠ []) (ha : Aligned h hy x00 n ms)
    {a b : ℚ} (hfa : FirstCommon h ms a) (hlb : LastCommon h ms b) (hab : b < a) :
    recenterMaps (ms.map Placed.d) (ms.map fun p => some p.c) = .error .valueError := by
  rw [recenterMaps_eq hh hm ha hfa hlb]
  have key1 : ∀ p ∈ ms, ∃ r, subset a b (p.row h) p.d = .ok r ∧ col? r "Y" = some [] := by
    intro p hp
    obtain ⟨hg, -⟩ := ha p hp
    have hlen : (p.row h).length = Flow.size p.d := by
      unfold Placed.row; rw [List.length_map]; exact col?_length hg.wf (Placed.x_eq hg)
    refine ⟨gather [] (moved p.d (p.row h)), ?_, ?_⟩
    · unfold subset
      simp only
      rw [if_pos]
      · congr 1
        have : ((List.range (p.row h).length).filter fun t => decide (a ≤ (p.row h).getD t 0 ∧ (p.row h).getD t 0 ≤ b)) = [] := by
          rw [List.filter_eq_nil_iff]
          intro t _
          simp only [decide_eq_true_eq, not_and, not_le]
          intro h1
          linarith
        rw [this]
        rfl
      · rw [List.all_eq_true]
        intro c hc
        rw [List.mem_filter] at hc
        rw [beq_iff_eq, hlen]
        exact hg.wf.2 c hc.1
    · have hy' : ∃ c, col? (moved p.d (p.row h)) "Y" = some c := by
        rw [col?_moved, if_neg (by decide)]
        simpa using (col?_isSome_iff p.d "Y").mpr hg.hasY
      obtain ⟨c, hc⟩ := hy'
      rw [col?_gather, hc]
      rfl
  obtain ⟨out, ho, hf⟩ := mapM_forall₂ ms key1
  have hlast := forall₂_last hf hm []
  rw [ho, Gmx.ok_bind]
  unfold recentredInfo
  rw [key_some hlast, Gmx.ok_bind]
  rfl

theorem forall₂_of_mapM {α β : Type} {f : α → Except Err β} : ∀ {l : List α} {bs : List β}, l.mapM f = .ok bs → List.Forall₂ (fun a b => f a = .ok b) l bs
  | [], bs, h => by cases h; exact .nil
  | a :: l, bs, h => by
    rw [List.mapM_cons] at h
    obtain ⟨b, hb, h⟩ := bind_eq_ok h
    obtain ⟨bs', hbs, h⟩ := bind_eq_ok h
    cases h
    exact .cons hb (forall₂_of_mapM hbs)

theorem eq_of_omapM {β : Type} : ∀ {l : List (Option β)} {bs : List β}, l.mapM id = some bs → l = bs.map some
  | [], bs, h => by cases h; rfl
  | a :: l, bs, h => by
    rw [List.mapM_cons] at h
    cases a with
    | none => cases h
    | some a =>
      cases hl : l.mapM id with
      | none => rw [hl] at h; cases h
      | some cs =>
        rw [hl] at h
        cases h
        rw [List.map_cons, ← eq_of_omapM hl]

theorem mem_left {α β : Type} {R : α → β → Prop} {l : List α} {bs : List β} (h : List.Forall₂ R l bs) {a : α} (ha : a ∈ l) : ∃ b ∈ bs, R a b := by
  induction h with
  | nil => simp at ha
  | @cons a' b l bs hr hrs ih =>
    rcases List.mem_cons.mp ha with rfl | h
    · exact ⟨b, by simp, hr⟩
    · obtain ⟨b', hb, hr'⟩ := ih h
      exact ⟨b', by simp [hb], hr'⟩

theorem mem_right {α β : Type} {R : α → β → Prop} {l : List α} {bs : List β} (h : List.Forall₂ R l bs) {b : β} (hb : b ∈ bs) : ∃ a ∈ l, R a b :=
  mem_left h.flip hb

/-- **C58** (any maps): no recentred map has a bin outside of the range of any of the moved maps. -/
theorem C58_within_every_range {maps : List Record} {centres : List (Option ℚ)} {out : List Record} {info : DInfo}
    (he : recenterMaps maps centres = .ok (out, info)) {r : Record} (hr : r ∈ out) {c : List ℚ} (hc : col? r "X" = some c) {x : ℚ} (hx : x ∈ c)
    {p : Record × Option ℚ} (hp : p ∈ maps.zip centres) :
    ∃ xs row, col? p.1 "X" = some xs ∧ translated xs p.2 = .ok (some row) ∧ (∃ u ∈ row, u ≤ x) ∧ ∃ v ∈ row, x ≤ v := by
  unfold recenterMaps at he
  split at he
  · cases he
  · obtain ⟨n, hn, he⟩ := bind_eq_ok he
    obtain ⟨rows, hrows, he⟩ := bind_eq_ok he
    split at he
    · cases he
    · rename_i rws hrw
      obtain ⟨los, hlos, he⟩ := bind_eq_ok he
      obtain ⟨xmin, hmin, he⟩ := bind_eq_ok he
      obtain ⟨his, hhis, he⟩ := bind_eq_ok he
      obtain ⟨xmax, hmax, he⟩ := bind_eq_ok he
      obtain ⟨out', hout, he⟩ := bind_eq_ok he
      obtain ⟨info', hinfo, he⟩ := bind_eq_ok he
      cases he
      rw [eq_of_omapM hrw] at hrows
      obtain ⟨orow, ho, hrow⟩ := mem_left (forall₂_of_mapM hrows) hp
      obtain ⟨row, hrowm, rfl⟩ := List.mem_map.mp ho
      obtain ⟨xs, hxs, hrow⟩ := bind_eq_ok hrow
      obtain ⟨row', htr, hrow⟩ := bind_eq_ok hrow
      have hxs' : col? p.1 "X" = some xs := by
        unfold key at hxs
        cases hcx : col? p.1 "X" with
        | none => rw [hcx] at hxs; cases hxs
        | some c => rw [hcx] at hxs; cases hxs; rfl
      have hr' : row' = some row := by
        split at hrow
        · cases hrow; rfl
        · cases hrow
      subst hr'
      obtain ⟨lo, hlo, hlo'⟩ := mem_left (forall₂_of_mapM hlos) hrowm
      obtain ⟨hi, hhi, hhi'⟩ := mem_left (forall₂_of_mapM hhis) hrowm
      obtain ⟨q, hq, hsub⟩ := mem_right (forall₂_of_mapM hout) hr
      have hxlim : xmin ≤ x ∧ x ≤ xmax := by
        unfold subset at hsub
        simp only at hsub
        split at hsub
        · cases hsub
          have e : col? (moved q.2 q.1) "X" = some q.1 := by rw [col?_moved, if_pos rfl]
          unfold moved at e
          rw [col?_gather, e] at hc
          cases hc
          unfold pick at hx
          obtain ⟨t, ht, rfl⟩ := List.mem_map.mp hx
          rw [List.mem_filter] at ht
          simpa using ht.2
        · cases hsub
      refine ⟨xs, row, hxs', htr, ⟨lo, ((npMin_ok_iff _ _).mp hlo').1, ?_⟩, hi, ((npMax_ok_iff _ _).mp hhi').1, ?_⟩
      · exact (((npMax_ok_iff _ _).mp hmin).2 lo hlo).trans hxlim.1
      · exact hxlim.2.trans (((npMin_ok_iff _ _).mp hmax).2 hi hhi)

/-- **C58**: as many positions as maps are needed. -/
theorem C58_lengths_differ {maps : List Record} {centres : List (Option ℚ)} (h : maps.length ≠ centres.length) :
    recenterMaps maps centres = .error .indexError := by
  unfold recenterMaps
  rw [if_pos h]

/-! ## Examples -/

/-- Three columns from 0, two columns at 1/2. -/
def apartA : Record := [("X", [0, 1, 2]), ("Y", [0, 0, 0]), ("M", [1, 2, 3])]
/-- The same columns moved by half of a column. -/
def apartB : Record := [("X", [1 / 2, 3 / 2, 5 / 2]), ("Y", [0, 0, 0]), ("M", [4, 5, 6])]

/-- **C58 fails** for maps whose columns do not coincide: after recentring, the two maps have no x position in common. -/
theorem C58_columns_apart : ∃ r s info, recenterMaps [apartA, apartB] [some 0, some (1 / 2)] = .ok ([r, s], info) ∧
    col? r "X" = some [1, 2] ∧ col? s "X" = some [1 / 2, 3 / 2] := by
  refine ⟨[("Y", [0, 0]), ("M", [2, 3]), ("X", [1, 2])], [("Y", [0, 0]), ("M", [4, 5]), ("X", [1 / 2, 3 / 2])],
    ⟨(2, 1), (some 1, none), some (1 / 2, 0), 2⟩, ?_, ?_, ?_⟩ <;> decide +kernel



/-- Two maps of four columns; the first is moved by one column to the left, the second is not moved: column 2 is common. -/
def exP : Placed := ⟨[("X", [0, 1, 2, 3]), ("Y", [0, 0, 0, 0]), ("M", [1, 2, 3, 4])], 1, 0, 0, 4, 1⟩
/-- The second one; its position is a quarter of a column from its first column. -/
def exQ : Placed := ⟨[("X", [2, 3, 4, 5]), ("Y", [0, 0, 0, 0]), ("M", [5, 6, 7, 8])], 9 / 4, 2, 0, 4, 1⟩

theorem exP_grid : FullGrid exP.d (1, 1) exP.o exP.y0 exP.nx exP.ny :=
  Sample.fullGrid_of_rows exP.d (1, 1) exP.o exP.y0 exP.nx exP.ny ("X", "Y") 4 rfl ⟨by decide, by decide⟩ (by decide) (by decide) (by decide) (by decide)
    (by decide +kernel) (by decide +kernel)
theorem exQ_grid : FullGrid exQ.d (1, 1) exQ.o exQ.y0 exQ.nx exQ.ny :=
  Sample.fullGrid_of_rows exQ.d (1, 1) exQ.o exQ.y0 exQ.nx exQ.ny ("X", "Y") 4 rfl ⟨by decide, by decide⟩ (by decide) (by decide) (by decide) (by decide)
    (by decide +kernel) (by decide +kernel)

/-- They meet the hypotheses of `C58_common_grid_partial` with the common column 2, and the result is as computed. -/
example : Aligned 1 1 0 4 [exP, exQ] ∧ FirstCommon 1 [exP, exQ] 2 ∧ LastCommon 1 [exP, exQ] 2 ∧
    recenterMaps [exP.d, exQ.d] [some 1, some (9 / 4)] = .ok ([[("Y", [0]), ("M", [4]), ("X", [2])], [("Y", [0]), ("M", [5]), ("X", [2])]],
      ⟨(1, 1), (some 1, none), some (2, 0), 1⟩) := by
  refine ⟨?_, by constructor <;> decide +kernel, by constructor <;> decide +kernel, by decide +kernel⟩
  intro p hp
  simp only [List.mem_cons, List.not_mem_nil, or_false] at hp
  rcases hp with rfl | rfl
  · exact ⟨exP_grid, by decide, rfl, 0, by decide +kernel⟩
  · exact ⟨exQ_grid, by decide, rfl, 2, by decide +kernel⟩

/-- Without common columns (`C58_no_overlap`). -/
example : Aligned 1 1 0 4 [exP, { exQ with c := -8 }] ∧ FirstCommon 1 [exP, { exQ with c := -8 }] 12 ∧ LastCommon 1 [exP, { exQ with c := -8 }] 2 ∧
    recenterMaps [exP.d, exQ.d] [some 1, some (-8)] = .error .valueError := by
  refine ⟨?_, by constructor <;> decide +kernel, by constructor <;> decide +kernel, by decide +kernel⟩
  intro p hp
  simp only [List.mem_cons, List.not_mem_nil, or_false] at hp
  rcases hp with rfl | rfl
  · exact ⟨exP_grid, by decide, rfl, 0, by decide +kernel⟩
  · exact ⟨exQ_grid, by decide, rfl, 2, by decide +kernel⟩

/-! ## C58: which positions -/

/-- What "the right edge", "the left edge" and "the centre of mass" of a map are: the second and first position the edge search finds for the map, and
the mass weighted mean of the x positions. -/
def IsPosition (edges : Flow → Except Err (Option ℚ × Option ℚ)) (c : Centre) (d : Record) (x : Option ℚ) : Prop :=
  match c with
  | .right => ∃ l, edges ⟨d, {}⟩ = .ok (l, x)
  | .left => ∃ r, edges ⟨d, {}⟩ = .ok (x, r)
  | .com => ∑ t ∈ Finset.range (Flow.size d), val d "M" t ≠ 0 ∧
      x = some ((∑ t ∈ Finset.range (Flow.size d), val d "X" t * val d "M" t) / ∑ t ∈ Finset.range (Flow.size d), val d "M" t)
  | .other => False

theorem mk_dict {d : Record} (hne : d ≠ []) (hw : Wf d) : Flow.mk [.dict d] [] = .ok ⟨d, {}⟩ := by
  have hc : collate [.dict d] = .ok d := by
    show (Except.ok (d ++ []) : Except Err Record) = .ok d
    rw [List.append_nil]
  unfold Flow.mk
  rw [setData_of_wf _ d hc hne hw]
  rfl

theorem position_eq (edges : Flow → Except Err (Option ℚ × Option ℚ)) (c : Centre) (d : Record) (hw : Wf d)
    (hl : ∀ l ∈ ["X", "Y", "M"], l ∈ names d) {x : Option ℚ} (h : IsPosition edges c d x) : position edges c d = .ok x := by
  have hne : d ≠ [] := by rintro rfl; have := hl "X" (by simp); simp [names] at this
  unfold position
  rw [mk_dict hne hw, Gmx.ok_bind]
  cases c with
  | right => obtain ⟨l, h⟩ := h; simp only; rw [h]; rfl
  | left => obtain ⟨l, h⟩ := h; simp only; rw [h]; rfl
  | com =>
    obtain ⟨h0, rfl⟩ := h
    simp only
    rw [(Sample.C40_mass_weighted_mean ⟨d, {}⟩ "M" "X" "Y" hw (hl _ (by simp)) (hl _ (by simp)) (hl _ (by simp))).1 h0]
    rfl
  | other => exact h.elim

/-- **C58** (which positions).  Recentring a group about the right edge, the left edge or the centre of mass moves map `k` by the position of map `k`:
the centres given to `recenter_maps` are the right edges, the left edges or the mass weighted mean x positions of the maps, in their order. -/
theorem C58_positions (edges : Flow → Except Err (Option ℚ × Option ℚ)) (o : Opts) (c : Centre) (maps : List Record) (info : DInfo)
    (centres : List (Option ℚ)) (ho : o.recenter = some c) (hw : ∀ d ∈ maps, Wf d ∧ ∀ l ∈ ["X", "Y", "M"], l ∈ names d)
    (hp : List.Forall₂ (IsPosition edges c) maps centres) : recenterGroup edges o maps info = recenterMaps maps centres := by
  unfold recenterGroup
  rw [ho]
  simp only
  have : maps.mapM (position edges c) = .ok centres := by
    clear ho
    induction hp with
    | nil => rfl
    | cons h _ ih =>
      rw [List.mapM_cons, position_eq edges c _ (hw _ (by simp)).1 (hw _ (by simp)).2 h, Gmx.ok_bind, ih (fun d hd => hw d (by simp [hd]))]
      rfl
  rw [this]
  rfl

/-- **C58** (no recentring, and an unknown word).  Without the option the maps are unchanged; with any other word the call fails for any maps. -/
theorem C58_other (edges : Flow → Except Err (Option ℚ × Option ℚ)) (o : Opts) (maps : List Record) (info : DInfo) :
    (o.recenter = none → recenterGroup edges o maps info = .ok (maps, info)) ∧
    (o.recenter = some .other → ∀ d rest, maps = d :: rest → Wf d → d ≠ [] → recenterGroup edges o maps info = .error .valueError) := by
  refine ⟨fun h => by unfold recenterGroup; rw [h], ?_⟩
  rintro h d rest rfl hw hne
  unfold recenterGroup
  rw [h]
  simp only
  have : position edges .other d = .error .valueError := by
    unfold position
    rw [mk_dict hne hw]; rfl
  rw [List.mapM_cons, this]
  rfl

/-- Two maps with different edges and centres of mass. -/
example : (∀ d ∈ [exP.d, exQ.d], Wf d ∧ ∀ l ∈ ["X", "Y", "M"], l ∈ names d) ∧
    List.Forall₂ (IsPosition (fun f => .ok (npMin ((col? f.data "X").getD []) |>.toOption, npMax ((col? f.data "X").getD []) |>.toOption)) .right) [exP.d, exQ.d] [some 3, some 5] ∧
    List.Forall₂ (IsPosition (fun _ => .error .valueError) .com) [exP.d, exQ.d] [some 2, some (48 / 13)] := by
  refine ⟨?_, .cons ⟨some 0, by decide +kernel⟩ (.cons ⟨some 2, by decide +kernel⟩ .nil), .cons ⟨by decide +kernel, by decide +kernel⟩ (.cons ⟨by decide +kernel, by decide +kernel⟩ .nil)⟩
  intro d hd
  simp only [List.mem_cons, List.not_mem_nil, or_false] at hd
  rcases hd with rfl | rfl
  · exact ⟨exP_grid.wf, by decide⟩
  · exact ⟨exQ_grid.wf, by decide⟩

/-! ## C83: positions of written maps -/

/-- **C83** (information as the gmx_flow reader gives it: the origin is the corner of the first bin).  If the bins of the map are at
`origin + spacing (i + 1/2)`, x major, and origin and spacing have at most six decimals, the file written is read back with every bin at its position.
Missing: information whose origin is the first bin, for which the claim fails (`C83_first_bin_origin`); the remaining hypotheses are those of `C47_round_trip_partial`. -/
theorem C83_corner_origin_partial (F : Bytes.F32) (d : Record) (nx ny num : ℕ) (h hy a b : ℚ) (hW : Gmx.Writable d ⟨(nx, ny), (h, hy), (a, b)⟩)
    (hs : nx ≤ 2 ^ 64 ∧ ny ≤ 2 ^ 64) (hn : 29 ≤ (Gmx.massRows d ⟨(nx, ny), (h, hy), (a, b)⟩).length)
    (hr : PyText.round6 h = h ∧ PyText.round6 hy = hy ∧ PyText.round6 a = a ∧ PyText.round6 b = b)
    (hx : ∀ t, t < nx * ny → val d "X" t = a + h * (((t / ny : ℕ) : ℚ) + 1 / 2) ∧ val d "Y" t = b + hy * (((t % ny : ℕ) : ℚ) + 1 / 2)) :
    ∃ bytes out info, gmxWrite F d ⟨(nx, ny), (some h, some hy), some (a, b), num⟩ = (some bytes, .ok ()) ∧ Gmx.readData F bytes = .ok (out, info) ∧
      ∀ t, t < nx * ny → val out "X" t = val d "X" t ∧ val out "Y" t = val d "Y" t := by
  obtain ⟨bytes, out, info, h1, h2, -, -, -, -, -, -, h3⟩ := Gmx.C47_round_trip_partial F d ⟨(nx, ny), (h, hy), (a, b)⟩ hW hs (.inr (.inl hn))
  refine ⟨bytes, out, info, ?_, h2, ?_⟩
  · unfold gmxWrite
    simp only [Option.getD_some]
    rw [h1]
    rfl
  · intro t ht
    obtain ⟨e1, e2, -⟩ := h3 t ht
    obtain ⟨hx1, hx2⟩ := hx t ht
    simp only [hr.1, hr.2.1, hr.2.2.1, hr.2.2.2] at e1 e2
    exact ⟨by rw [e1, hx1], by rw [e2, hx2]⟩

/-- **C83 fails** for information whose origin is the position of the first bin, as it is after recentring
(`C58_common_grid_partial`) and for plain files: every bin is read back half a bin off. -/
theorem C83_first_bin_origin (F : Bytes.F32) (d : Record) (nx ny num : ℕ) (h hy a b : ℚ) (hW : Gmx.Writable d ⟨(nx, ny), (h, hy), (a, b)⟩)
    (hs : nx ≤ 2 ^ 64 ∧ ny ≤ 2 ^ 64) (hn : 29 ≤ (Gmx.massRows d ⟨(nx, ny), (h, hy), (a, b)⟩).length)
    (hr : PyText.round6 h = h ∧ PyText.round6 hy = hy ∧ PyText.round6 a = a ∧ PyText.round6 b = b)
    (hx : ∀ t, t < nx * ny → val d "X" t = a + h * ((t / ny : ℕ) : ℚ) ∧ val d "Y" t = b + hy * ((t % ny : ℕ) : ℚ)) :
    ∃ bytes out info, gmxWrite F d ⟨(nx, ny), (some h, some hy), some (a, b), num⟩ = (some bytes, .ok ()) ∧ Gmx.readData F bytes = .ok (out, info) ∧
      ∀ t, t < nx * ny → val out "X" t = val d "X" t + h / 2 ∧ val out "Y" t = val d "Y" t + hy / 2 := by
  obtain ⟨bytes, out, info, h1, h2, -, -, -, -, -, -, h3⟩ := Gmx.C47_round_trip_partial F d ⟨(nx, ny), (h, hy), (a, b)⟩ hW hs (.inr (.inl hn))
  refine ⟨bytes, out, info, ?_, h2, ?_⟩
  · unfold gmxWrite
    simp only [Option.getD_some]
    rw [h1]
    rfl
  · intro t ht
    obtain ⟨e1, e2, -⟩ := h3 t ht
    obtain ⟨hx1, hx2⟩ := hx t ht
    simp only [hr.1, hr.2.1, hr.2.2.1, hr.2.2.2] at e1 e2
    exact ⟨by rw [e1, hx1]; ring, by rw [e2, hx2]; ring⟩

/-- The map of 29 columns of `C56` meets the hypotheses of `C83_first_bin_origin`, and moved by half a bin those of `C83_corner_origin_partial`. -/
example : Gmx.Writable exBig.1 ⟨(29, 1), (1, 1), (0, 0)⟩ ∧ 29 ≤ (Gmx.massRows exBig.1 ⟨(29, 1), (1, 1), (0, 0)⟩).length ∧
    (PyText.round6 1 = 1 ∧ PyText.round6 0 = 0) ∧
    ∀ t : ℕ, t < 29 * 1 → val exBig.1 "X" t = 0 + 1 * ((t / 1 : ℕ) : ℚ) ∧ val exBig.1 "Y" t = 0 + 1 * ((t % 1 : ℕ) : ℚ) := by
  refine ⟨?_, by decide +kernel, by decide +kernel, by decide +kernel⟩
  intro l hl
  simp only [List.mem_cons, List.not_mem_nil, or_false] at hl
  rcases hl with rfl | rfl | rfl | rfl | rfl <;> exact ⟨_, rfl, by decide +kernel⟩

end Strata.Driver
