import Verif.Spec.InterfaceStrict
import Verif.Props.Interface
/-! # C148: stricter settings find less -/
namespace Strata.Interface
open Strata Strata.Flow

theorem liquid_mono {s s' : System} (hs : NoLess s s') {k k' : Criterion} (hk : k'.Looser k) (h0 : 0 ≤ k.radius)
    (i : ℕ) (h : Liquid s k.radius k.cutoff k.bins i) : Liquid s' k'.radius k'.cutoff k'.bins i := by
  have hi := h.1
  rw [← cellIsDroplet_iff i s hi] at h
  rw [← cellIsDroplet_iff i s' (by rw [hs.1]; exact hi)]
  exact C31_monotone s s' i hi _ _ _ _ _ _ hs.1 hs.2 h0 hk.radius hk.cutoff hk.bins h

/-- **C148.** The default search with stricter settings (a higher cut-off, a smaller radius, more bins, narrower
limits), or in a map with less of the quantity, finds nothing new: every layer it reports is also reported with the
looser settings, and lies between the edges reported there. -/
theorem C148_nested (s s' : System) (hs : NoLess s s') (box : Option (ℚ × ℚ)) (k k' : Criterion) (hk : k'.Looser k)
    (h0 : 0 ≤ k.radius) (lims lims' : Option ℚ × Option ℚ)
    (hlims : ∀ y, Within lims.1 lims.2 y → Within lims'.1 lims'.2 y) :
    ∃ out out', getInterface s box (k.opts false lims) = .ok out ∧
      getInterface s' box (k'.opts false lims') = .ok out' ∧ out.length ≤ out'.length ∧
      ∀ p ∈ out, ∃ p' ∈ out', (row s' p'.1).y = (row s p.1).y ∧
        (row s' p'.1).x ≤ (row s p.1).x ∧ (row s p.2).x ≤ (row s' p'.2).x := by
  obtain ⟨out, e1, a1, b1, _⟩ := C32_outside_in s box (k.opts false lims) rfl k.radius k.cutoff rfl rfl
  obtain ⟨out', e2, a2, b2, c2⟩ := C32_outside_in s' box (k'.opts false lims') rfl k'.radius k'.cutoff rfl rfl
  have key : ∀ p ∈ out, ∃ p' ∈ out', (row s' p'.1).y = (row s p.1).y ∧
      (row s' p'.1).x ≤ (row s p.1).x ∧ (row s p.2).x ≤ (row s' p'.2).x := by
    intro p hp
    obtain ⟨q1, q2, q3, q4, _⟩ := b1 p hp
    have l1 := liquid_mono hs hk h0 p.1 q3
    have l2 := liquid_mono hs hk h0 p.2 q4
    obtain ⟨x1, y1, _⟩ := hs.2 p.1 q3.1
    obtain ⟨x2, y2, _⟩ := hs.2 p.2 q4.1
    obtain ⟨p', hp', hy⟩ := c2 p.1 l1 (by rw [y1]; exact hlims _ q2)
    obtain ⟨_, _, _, _, m⟩ := b2 p' hp'
    refine ⟨p', hp', by rw [hy, y1], ?_, ?_⟩
    · rw [← x1]; exact (m p.1 l1 hy.symm).1
    · rw [← x2]; exact (m p.2 l2 (by rw [y2, q1, hy, y1])).2
  refine ⟨out, out', e1, e2, ?_, key⟩
  -- the heights of `out` are heights of `out'`
  have n1 : (out.map fun p => (row s p.1).y).Nodup := a1.imp fun h => h.ne
  have n2 : (out'.map fun p => (row s' p.1).y).Nodup := a2.imp fun h => h.ne
  have hsub : (out.map fun p => (row s p.1).y) ⊆ (out'.map fun p => (row s' p.1).y) := by
    intro y hy
    obtain ⟨p, hp, rfl⟩ := List.mem_map.mp hy
    obtain ⟨p', hp', hy', _⟩ := key p hp
    exact List.mem_map.mpr ⟨p', hp', hy'⟩
  have := (n1.subperm hsub).length_le
  simpa using this

/-- A drop with a halo of lower density. -/
def exHalo : System :=
  [⟨0, 0, 5, []⟩, ⟨1, 0, 9, []⟩, ⟨2, 0, 9, []⟩, ⟨3, 0, 5, []⟩,
   ⟨0, 1, 0, []⟩, ⟨1, 1, 5, []⟩, ⟨2, 1, 5, []⟩, ⟨3, 1, 0, []⟩]

example : NoLess exHalo exHalo ∧ (⟨4, 1, 1⟩ : Criterion).Looser ⟨6, 1, 1⟩ ∧
    getInterface exHalo none ((⟨6, 1, 1⟩ : Criterion).opts false (none, none)) = .ok [(1, 2)] ∧
    getInterface exHalo none ((⟨4, 1, 1⟩ : Criterion).opts false (none, none)) = .ok [(0, 3), (5, 6)] := by
  refine ⟨⟨rfl, fun j _ => ⟨rfl, rfl, le_refl _⟩⟩, ⟨?_, ?_, ?_⟩, ?_, ?_⟩ <;> decide +kernel

/-! ## The periodic search -/

theorem periodic_mono (s : System) (box : ℚ) (hx : ∀ d ∈ s, 0 ≤ d.x ∧ d.x ≤ box) {k k' : Criterion}
    (hk : k'.Looser k) (h0 : 0 ≤ k.radius) (hb : k'.radius < box) (i : ℕ)
    (h : PeriodicLiquid s box k.radius k.cutoff k.bins i) : PeriodicLiquid s box k'.radius k'.cutoff k'.bins i := by
  have hi := h.1
  have hr := hk.radius
  rw [periodicLiquid_iff s box _ _ _ h0 (by linarith) hx i hi] at h
  rw [periodicLiquid_iff s box _ _ _ (by linarith) hb hx i hi]
  obtain ⟨h1, h2⟩ := h
  refine ⟨le_trans hk.cutoff h1, ?_⟩
  have hsub : (ySlice s k.radius box (row s i).y).Sublist (ySlice s k'.radius box (row s i).y) := by
    unfold ySlice
    have hy : ∀ d : Cell, decide (d.y ≤ (row s i).y + k.radius ∧ d.y ≥ (row s i).y - k.radius) = true →
        decide (d.y ≤ (row s i).y + k'.radius ∧ d.y ≥ (row s i).y - k'.radius) = true := by
      intro d hd
      rw [decide_eq_true_iff] at hd ⊢
      exact ⟨by linarith [hd.1], by linarith [hd.2]⟩
    refine List.Sublist.append (List.monotone_filter_right _ hy) ?_
    refine List.Sublist.trans (List.Sublist.filter _ ?_) (List.monotone_filter_right _ hy)
    unfold pbcCopies
    refine List.Sublist.append ?_ ?_
    · refine List.Sublist.map _ (List.monotone_filter_right _ ?_)
      intro d hd
      rw [decide_eq_true_iff] at hd ⊢
      linarith
    · refine List.Sublist.map _ (List.monotone_filter_right _ ?_)
      intro d hd
      rw [decide_eq_true_iff] at hd ⊢
      linarith
  have hle1 := hsub.countP_le (p := counts k.radius k.cutoff (row s i))
  have hle2 : (ySlice s k'.radius box (row s i).y).countP (counts k.radius k.cutoff (row s i)) ≤
      (ySlice s k'.radius box (row s i).y).countP (counts k'.radius k'.cutoff (row s i)) := by
    refine List.countP_mono_left fun d _ hd => ?_
    unfold counts at hd ⊢
    rw [decide_eq_true_iff] at hd ⊢
    refine ⟨le_trans hk.cutoff hd.1, le_trans hd.2 ?_⟩
    nlinarith
  have hb := hk.bins
  omega

/-- **C148.** The periodic search with stricter settings reports no new layers either, and no longer a stretch in any
of them (for maps stored by ascending x, within the box).  The stretch need not lie within the one found with
looser settings: `C148_stretch_elsewhere`. -/
theorem C148_periodic (s : System) (box : ℚ × ℚ) (hx : ∀ d ∈ s, 0 ≤ d.x ∧ d.x ≤ box.1)
    (hsort : ∀ i j, i < j → j < s.length → (row s i).y = (row s j).y → (row s i).x < (row s j).x)
    (k k' : Criterion) (hk : k'.Looser k) (h0 : 0 ≤ k.radius) (hb : k'.radius < box.1) (lims lims' : Option ℚ × Option ℚ)
    (hlims : ∀ y, Within lims.1 lims.2 y → Within lims'.1 lims'.2 y) :
    ∃ out out', getInterface s (some box) (k.opts true lims) = .ok out ∧
      getInterface s (some box) (k'.opts true lims') = .ok out' ∧
      ∀ p ∈ out, ∃ p' ∈ out', ∃ y start len start' len', len ≤ len' ∧
        LongestRun (PeriodicLiquid s box.1 k.radius k.cutoff k.bins) (layerRows s y) start len ∧
        (layerRows s y)[start]? = some p.1 ∧
        (layerRows s y)[(start + len - 1) % (layerRows s y).length]? = some p.2 ∧
        LongestRun (PeriodicLiquid s box.1 k'.radius k'.cutoff k'.bins) (layerRows s y) start' len' ∧
        (layerRows s y)[start']? = some p'.1 ∧
        (layerRows s y)[(start' + len' - 1) % (layerRows s y).length]? = some p'.2 := by
  have hperm : ∀ y, (layerRows s y).Perm (layerRows s y) := fun y => List.Perm.refl _
  have hord : ∀ y, (layerRows s y).Pairwise fun i j => (row s i).x < (row s j).x := by
    intro y
    have h1 : (layerRows s y).Pairwise (· < ·) := by
      unfold layerRows; exact List.pairwise_lt_range.filter _
    refine h1.imp_of_mem ?_
    intro i j hi hj hlt
    obtain ⟨i1, i2⟩ := (mem_layerRows s y i).mp hi
    obtain ⟨j1, j2⟩ := (mem_layerRows s y j).mp hj
    exact hsort i j hlt j1 (by rw [i2, j2])
  have hr := hk.radius
  obtain ⟨out, e1, _, b1, _⟩ := C33_periodic_search s box (k.opts true lims) rfl k.radius k.cutoff rfl rfl h0
    (by linarith) hx (layerRows s) hperm hord
  obtain ⟨out', e2, _, b2, c2⟩ := C33_periodic_search s box (k'.opts true lims') rfl k'.radius k'.cutoff rfl rfl
    (by linarith) hb hx (layerRows s) hperm hord
  refine ⟨out, out', e1, e2, ?_⟩
  intro p hp
  obtain ⟨y, start, len, hw, hrun, g1, g2, _⟩ := b1 p hp
  have hmono : ∀ i, PeriodicLiquid s box.1 k.radius k.cutoff k.bins i →
      PeriodicLiquid s box.1 k'.radius k'.cutoff k'.bins i := periodic_mono s box.1 hx hk h0 hb
  -- the first bin of the stretch is liquid
  obtain ⟨i, hi, hP⟩ := hrun.2.2.2.1 0 (by have := hrun.1; omega)
  have him := (mem_layerRows s y i).mp (List.mem_of_getElem? hi)
  obtain ⟨p', hp', hy'⟩ := c2 i (hmono i hP) (by rw [him.2]; exact hlims y hw)
  obtain ⟨y', start', len', _, hrun', g1', g2', _⟩ := b2 p' hp'
  have hyy : y' = y := by
    have := (mem_layerRows s y' p'.1).mp (List.mem_of_getElem? g1')
    rw [← this.2, hy', him.2]
  subst hyy
  refine ⟨p', hp', y', start, len, start', len', ?_, hrun, g1, g2, hrun', g1', g2'⟩
  refine hrun'.2.2.2.2 start len hrun.2.1 fun t ht => ?_
  obtain ⟨a, ha, hPa⟩ := hrun.2.2.2.1 t ht
  exact ⟨a, ha, hmono a hPa⟩

/-- A stretch of three bins with a weak one in the middle, and a stretch of two. -/
def exWeak : System :=
  [⟨1 / 2, 0, 9, []⟩, ⟨3 / 2, 0, 5, []⟩, ⟨5 / 2, 0, 9, []⟩, ⟨7 / 2, 0, 0, []⟩, ⟨9 / 2, 0, 7, []⟩, ⟨11 / 2, 0, 7, []⟩,
   ⟨13 / 2, 0, 0, []⟩]

/-- **C148.** With a higher cut-off the periodic search can report a stretch that has no bin in common with the one
it reports for a lower cut-off: the longest stretch falls apart and another one wins. -/
theorem C148_stretch_elsewhere :
    getInterface exWeak (some (7, 1)) ((⟨4, 1, 0⟩ : Criterion).opts true (none, none)) = .ok [(0, 2)] ∧
    getInterface exWeak (some (7, 1)) ((⟨6, 1, 0⟩ : Criterion).opts true (none, none)) = .ok [(4, 5)] := by
  decide +kernel

example : (∀ d ∈ exWeak, 0 ≤ d.x ∧ d.x ≤ 7) ∧
    (∀ j : ℕ, j < 7 → ∀ i : ℕ, i < j → (row exWeak i).x < (row exWeak j).x) ∧
    (⟨4, 1, 0⟩ : Criterion).Looser ⟨6, 1, 0⟩ := by
  refine ⟨?_, ?_, ?_, ?_, ?_⟩ <;> decide +kernel

end Strata.Interface
