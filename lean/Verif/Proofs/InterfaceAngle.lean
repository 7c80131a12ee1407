import Verif.Proofs.InterfaceRun
/-! # Contact angle, mirror images and the default radius -/
namespace Strata.Interface
open Strata Strata.Flow

/-! ## Smallest gap -/

theorem npDiff_pos : ∀ l : List ℚ, l.Pairwise (· < ·) → ∀ d ∈ npDiff l, ∃ a ∈ l, ∃ b ∈ l, a < b ∧ b - a = d
  | [], _, d, h => by simp [npDiff] at h
  | [a], _, d, h => by simp [npDiff] at h
  | a :: b :: l, hp, d, h => by
    rw [npDiff, List.mem_cons] at h
    rcases h with rfl | h
    · exact ⟨a, by simp, b, by simp, (List.pairwise_cons.mp hp).1 b (by simp), rfl⟩
    · obtain ⟨x, hx, y, hy, h1, h2⟩ := npDiff_pos (b :: l) (List.pairwise_cons.mp hp).2 d h
      exact ⟨x, List.mem_cons_of_mem _ hx, y, List.mem_cons_of_mem _ hy, h1, h2⟩

theorem npDiff_le : ∀ l : List ℚ, l.Pairwise (· < ·) → ∀ a ∈ l, ∀ b ∈ l, a < b → ∃ d ∈ npDiff l, d ≤ b - a
  | [], _, a, h, _, _, _ => by simp at h
  | [c], _, a, h, b, h', hlt => by simp at h h'; subst h; subst h'; exact absurd hlt (lt_irrefl _)
  | c :: e :: l, hp, a, ha, b, hb, hlt => by
    obtain ⟨p1, p2⟩ := List.pairwise_cons.mp hp
    rw [npDiff]
    rcases List.mem_cons.mp ha with rfl | ha
    · rcases List.mem_cons.mp hb with rfl | hb
      · exact absurd hlt (lt_irrefl _)
      · refine ⟨e - a, by simp, ?_⟩
        have : e ≤ b := by
          rcases List.mem_cons.mp hb with rfl | hb
          · exact le_refl _
          · exact ((List.pairwise_cons.mp p2).1 b hb).le
        linarith
    · rcases List.mem_cons.mp hb with rfl | hb
      · exact absurd (hlt.trans (p1 a ‹_›)) (lt_irrefl _)
      · obtain ⟨d, hd, hle⟩ := npDiff_le (e :: l) p2 a ha b hb hlt
        exact ⟨d, by simp [hd], hle⟩

theorem minGap_iff (l : List ℚ) (m : ℚ) : npMin (npDiff (npUnique l)) = .ok m ↔ MinGap l m := by
  have hp := pairwise_npUnique l
  rw [npMin_ok_iff]
  unfold MinGap
  constructor
  · rintro ⟨h1, h2⟩
    constructor
    · obtain ⟨a, ha, b, hb, hlt, he⟩ := npDiff_pos _ hp m h1
      exact ⟨a, (mem_npUnique l a).mp ha, b, (mem_npUnique l b).mp hb, hlt, he⟩
    · intro a ha b hb hlt
      obtain ⟨d, hd, hle⟩ := npDiff_le _ hp a ((mem_npUnique l a).mpr ha) b ((mem_npUnique l b).mpr hb) hlt
      exact (h2 d hd).trans hle
  · rintro ⟨⟨a, ha, b, hb, hlt, he⟩, h2⟩
    have h2' : ∀ d ∈ npDiff (npUnique l), m ≤ d := by
      intro d hd
      obtain ⟨a, ha, b, hb, hlt, rfl⟩ := npDiff_pos _ hp d hd
      exact h2 a ((mem_npUnique l a).mp ha) b ((mem_npUnique l b).mp hb) hlt
    refine ⟨?_, h2'⟩
    obtain ⟨d, hd, hle⟩ := npDiff_le _ hp a ((mem_npUnique l a).mpr ha) b ((mem_npUnique l b).mpr hb) hlt
    have : d = m := le_antisymm (by linarith) (h2' d hd)
    rw [← this]; exact hd

theorem npMin_eq_of_iff {l l' : List ℚ} (h : ∀ m, npMin l = .ok m ↔ npMin l' = .ok m) : npMin l = npMin l' := by
  cases l with
  | nil =>
    cases l' with
    | nil => rfl
    | cons a l' => have := (h _).mpr (rfl : npMin (a :: l') = .ok _); simp [npMin] at this
  | cons a l =>
    exact ((h _).mp (rfl : npMin (a :: l) = .ok _)).symm ▸ rfl

theorem minGap_neg (l : List ℚ) (m : ℚ) (h : MinGap l m) : MinGap (l.map fun x => -x) m := by
  obtain ⟨⟨a, ha, b, hb, hlt, he⟩, h2⟩ := h
  refine ⟨⟨-b, List.mem_map_of_mem hb, -a, List.mem_map_of_mem ha, by linarith, by linarith⟩, ?_⟩
  intro x hx y hy hxy
  obtain ⟨x, hx', rfl⟩ := List.mem_map.mp hx
  obtain ⟨y, hy', rfl⟩ := List.mem_map.mp hy
  have := h2 y hy' x hx' (by linarith)
  linarith

theorem getRadius_mirror (o : Option ℚ) (s : System) : getRadius o (mirror s) = getRadius o s := by
  unfold getRadius
  cases o with
  | some r => rfl
  | none =>
    simp only
    have hm : (mirror s).map (·.x) = (s.map (·.x)).map fun x => -x := by simp [mirror]
    rw [hm]
    apply npMin_eq_of_iff
    intro m
    rw [minGap_iff, minGap_iff]
    constructor
    · intro h
      have := minGap_neg _ _ h
      simpa [List.map_map, Function.comp_def] using this
    · exact minGap_neg _ _

theorem getCutoff_mirror (o : Option ℚ) (s : System) : getCutoff o (mirror s) = getCutoff o s := by
  have : (mirror s).map (·.v) = s.map (·.v) := by simp [mirror]
  unfold getCutoff
  rw [this]

/-! ## Mirror images of the liquid -/

theorem length_mirror (s : System) : (mirror s).length = s.length := by simp [mirror]

theorem row_mirror (s : System) (i : ℕ) (h : i < s.length) : row (mirror s) i = { row s i with x := -(row s i).x } := by
  rw [row_eq_getElem _ _ (by rw [length_mirror]; exact h), row_eq_getElem _ _ h]
  simp [mirror]

theorem liquid_mirror (s : System) (r c : ℚ) (b : ℤ) (i : ℕ) : Liquid (mirror s) r c b i ↔ Liquid s r c b i := by
  unfold Liquid
  rw [length_mirror]
  refine and_congr_right fun hi => ?_
  rw [row_mirror s i hi]
  refine and_congr_right fun _ => ?_
  have : ((Finset.range s.length).filter fun j => j ≠ i ∧ c ≤ (row (mirror s) j).v ∧
      Near r { row s i with x := -(row s i).x } (row (mirror s) j)) =
      (Finset.range s.length).filter fun j => j ≠ i ∧ c ≤ (row s j).v ∧ Near r (row s i) (row s j) := by
    apply Finset.filter_congr
    intro j hj
    rw [Finset.mem_range] at hj
    rw [row_mirror s j hj]
    have : Near r { row s i with x := -(row s i).x } { row s j with x := -(row s j).x } ↔ Near r (row s i) (row s j) := by
      unfold Near
      simp only
      rw [show (-(row s j).x - -(row s i).x) ^ 2 = ((row s j).x - (row s i).x) ^ 2 by ring]
    rw [this]
  rw [this]

theorem liquidLayer_mirror (s : System) (r c : ℚ) (b : ℤ) (y xl xr : ℚ) (h : LiquidLayer s r c b y xl xr) :
    LiquidLayer (mirror s) r c b y (-xr) (-xl) := by
  obtain ⟨⟨i, hi, hy, hx⟩, ⟨j, hj, hy', hx'⟩, h3⟩ := h
  refine ⟨⟨j, (liquid_mirror ..).mpr hj, ?_, ?_⟩, ⟨i, (liquid_mirror ..).mpr hi, ?_, ?_⟩, ?_⟩
  · rw [row_mirror s j hj.1]; exact hy'
  · rw [row_mirror s j hj.1]; simp [hx']
  · rw [row_mirror s i hi.1]; exact hy
  · rw [row_mirror s i hi.1]; simp [hx]
  · intro k hk hky
    rw [liquid_mirror] at hk
    rw [row_mirror s k hk.1] at hky ⊢
    obtain ⟨g1, g2⟩ := h3 k hk hky
    simp only
    constructor <;> linarith

theorem liquidLayer_unique {s : System} {r c : ℚ} {b : ℤ} {y xl xr xl' xr' : ℚ} (h : LiquidLayer s r c b y xl xr)
    (h' : LiquidLayer s r c b y xl' xr') : xl = xl' ∧ xr = xr' := by
  obtain ⟨⟨i, hi, hy, rfl⟩, ⟨j, hj, hy', rfl⟩, h3⟩ := h
  obtain ⟨⟨k, hk, hyk, rfl⟩, ⟨l, hl, hyl, rfl⟩, g3⟩ := h'
  exact ⟨le_antisymm (h3 k hk hyk).1 (g3 i hi hy).1, le_antisymm (g3 j hj hy').2 (h3 l hl hyl).2⟩

/-! ## The layers as triples -/

/-- Height and x positions of the yielded pair. -/
def triple (s : System) (p : ℕ × ℕ) : ℚ × ℚ × ℚ := ((row s p.1).y, (row s p.1).x, (row s p.2).x)

/-- The triples of a search are the liquid layers within the limits, ascending. -/
structure IsLayers (s : System) (r c : ℚ) (b : ℤ) (lo hi : Option ℚ) (ts : List (ℚ × ℚ × ℚ)) : Prop where
  sorted : ts.Pairwise fun t u => t.1 < u.1
  layer : ∀ t ∈ ts, LiquidLayer s r c b t.1 t.2.1 t.2.2 ∧ Within lo hi t.1
  complete : ∀ y xl xr, LiquidLayer s r c b y xl xr → Within lo hi y → (y, xl, xr) ∈ ts

theorem isLayers_outsideIn (s : System) (r c : ℚ) (b : ℤ) (lo hi : Option ℚ) :
    IsLayers s r c b lo hi ((outsideIn s r c b (lo, hi)).map (triple s)) := by
  obtain ⟨h1, h2, h3⟩ := outsideIn_spec s r c b lo hi
  have hl : ∀ p ∈ outsideIn s r c b (lo, hi), LiquidLayer s r c b (row s p.1).y (row s p.1).x (row s p.2).x := by
    intro p hp
    obtain ⟨a, _, l1, l2, l3⟩ := h2 p hp
    exact ⟨⟨p.1, l1, rfl, rfl⟩, ⟨p.2, l2, a, rfl⟩, l3⟩
  refine ⟨?_, ?_, ?_⟩
  · rw [List.pairwise_map] at h1 ⊢; exact h1
  · intro t ht
    obtain ⟨p, hp, rfl⟩ := List.mem_map.mp ht
    exact ⟨hl p hp, (h2 p hp).2.1⟩
  · intro y xl xr hL hw
    obtain ⟨⟨i, hi, hy, hx⟩, _⟩ := id hL
    obtain ⟨p, hp, hpy⟩ := h3 i hi (by rw [hy]; exact hw)
    have hL' := hl p hp
    rw [hpy, hy] at hL'
    obtain ⟨e1, e2⟩ := liquidLayer_unique hL hL'
    rw [List.mem_map]
    refine ⟨p, hp, ?_⟩
    simp only [triple, hpy, hy, e1, e2]

theorem isLayers_unique {s : System} {r c : ℚ} {b : ℤ} {lo hi : Option ℚ} {ts us : List (ℚ × ℚ × ℚ)}
    (h : IsLayers s r c b lo hi ts) (h' : IsLayers s r c b lo hi us) : ts = us := by
  have nd : ∀ {l : List (ℚ × ℚ × ℚ)}, l.Pairwise (fun t u => t.1 < u.1) → l.Nodup := by
    intro l hl
    exact hl.imp (fun {a b} hab he => by rw [he] at hab; exact lt_irrefl _ hab)
  refine List.Perm.eq_of_pairwise (le := fun t u => t.1 < u.1) ?_ h.sorted h'.sorted ?_
  · intro a b _ _ h1 h2; exact absurd (h1.trans h2) (lt_irrefl _)
  · rw [List.perm_ext_iff_of_nodup (nd h.sorted) (nd h'.sorted)]
    intro t
    constructor
    · intro ht; obtain ⟨a, b⟩ := h.layer t ht; exact h'.complete _ _ _ a b
    · intro ht; obtain ⟨a, b⟩ := h'.layer t ht; exact h.complete _ _ _ a b

theorem isLayers_mirror {s : System} {r c : ℚ} {b : ℤ} {lo hi : Option ℚ} {ts : List (ℚ × ℚ × ℚ)}
    (h : IsLayers s r c b lo hi ts) :
    IsLayers (mirror s) r c b lo hi (ts.map fun t => (t.1, -t.2.2, -t.2.1)) := by
  refine ⟨?_, ?_, ?_⟩
  · rw [List.pairwise_map]; exact h.sorted
  · intro t ht
    obtain ⟨u, hu, rfl⟩ := List.mem_map.mp ht
    obtain ⟨a, b⟩ := h.layer u hu
    exact ⟨liquidLayer_mirror _ _ _ _ _ _ _ a, b⟩
  · intro y xl xr hL hw
    have := liquidLayer_mirror _ _ _ _ _ _ _ hL
    have hmm : mirror (mirror s) = s := by simp [mirror, Function.comp_def]
    rw [hmm] at this
    rw [List.mem_map]
    exact ⟨_, h.complete _ _ _ this hw, by simp⟩

/-! ## The loop over layers -/

/-- The loop on triples. -/
def angleLoopT (height ymin : ℚ) : Option ((ℚ × ℚ) × ℚ) → List (ℚ × ℚ × ℚ) → Except Err ((ℚ × ℚ) × ℚ)
  | some a, [] => .ok a
  | none, [] => .error .unboundLocalError
  | a, t :: rest =>
    let dy := t.1 - ymin
    if dy ≤ height then angleLoopT height ymin (some (t.2, dy)) rest
    else match a with
      | some a => .ok a
      | none => .error .unboundLocalError

theorem angleLoop_eq (s : System) (height ymin : ℚ) (a : Option ((ℚ × ℚ) × ℚ)) (l : List (ℕ × ℕ)) :
    angleLoop s height ymin a l = angleLoopT height ymin a (l.map (triple s)) := by
  induction l generalizing a with
  | nil => cases a <;> rfl
  | cons p l ih =>
    obtain ⟨i, j⟩ := p
    simp only [List.map_cons]
    cases a <;> simp only [angleLoop, angleLoopT, triple, ih] <;> rfl

theorem angleLoopT_none {height ymin : ℚ} {l : List (ℚ × ℚ × ℚ)} (h : ∀ t ∈ l, ¬ t.1 - ymin ≤ height) :
    angleLoopT height ymin none l = .error .unboundLocalError := by
  cases l with
  | nil => rfl
  | cons t l => simp only [angleLoopT, if_neg (h t (by simp))]

theorem angleLoopT_some {height ymin : ℚ} {l : List (ℚ × ℚ × ℚ)} (hs : l.Pairwise fun t u => t.1 < u.1)
    (a : Option ((ℚ × ℚ) × ℚ)) (t : ℚ × ℚ × ℚ) (ht : t ∈ l) (hle : t.1 - ymin ≤ height)
    (hmax : ∀ u ∈ l, u.1 - ymin ≤ height → u.1 ≤ t.1) :
    angleLoopT height ymin a l = .ok (t.2, t.1 - ymin) := by
  induction l generalizing a with
  | nil => simp at ht
  | cons u l ih =>
    obtain ⟨h1, h2⟩ := List.pairwise_cons.mp hs
    have hu : u.1 ≤ t.1 := by
      rcases List.mem_cons.mp ht with rfl | ht
      · exact le_refl _
      · exact (h1 t ht).le
    have hstep : angleLoopT height ymin a (u :: l) = angleLoopT height ymin (some (u.2, u.1 - ymin)) l := by
      cases a <;> simp only [angleLoopT] <;> rw [if_pos (by linarith)]
    rw [hstep]
    rcases List.mem_cons.mp ht with rfl | ht
    · -- the last one: everything after exceeds
      cases l with
      | nil => rfl
      | cons w l =>
        simp only [angleLoopT]
        rw [if_neg]
        intro hw
        have := hmax w (by simp) hw
        exact absurd (h1 w (by simp)) (not_lt.mpr this)
    · exact ih h2 _ ht fun w hw => hmax w (by simp [hw])

theorem angleLoopT_mirror (height ymin : ℚ) (a : Option ((ℚ × ℚ) × ℚ)) (l : List (ℚ × ℚ × ℚ)) :
    angleLoopT height ymin (a.map fun z => ((-z.1.2, -z.1.1), z.2)) (l.map fun t => (t.1, -t.2.2, -t.2.1)) =
      (angleLoopT height ymin a l).map fun z => ((-z.1.2, -z.1.1), z.2) := by
  induction l generalizing a with
  | nil => cases a <;> rfl
  | cons t l ih =>
    simp only [List.map_cons]
    have := ih (some (t.2, t.1 - ymin))
    simp only [Option.map_some] at this
    cases a with
    | none =>
      simp only [Option.map_none, angleLoopT]
      split
      · exact this
      · rfl
    | some a =>
      simp only [Option.map_some, angleLoopT]
      split
      · exact this
      · rfl

/-- The result as a function of the triples. -/
noncomputable def angleOf (height : ℚ) (floorSet : Bool) (yfloor : Option ℚ) : List (ℚ × ℚ × ℚ) →
    Except Err (Option (ℝ × ℝ))
  | [] => .error .stopIteration
  | t :: rest =>
    if floorSet ∧ yfloor ≠ some t.1 then .ok none
    else (angleLoopT height t.1 none rest).map fun z => some (getAngles z.1 t.2 z.2)

theorem angleOf_mirror (height : ℚ) (fs : Bool) (yf : Option ℚ) (ts : List (ℚ × ℚ × ℚ)) :
    angleOf height fs yf (ts.map fun t => (t.1, -t.2.2, -t.2.1)) =
      (angleOf height fs yf ts).map fun o => o.map Prod.swap := by
  cases ts with
  | nil => rfl
  | cons t ts =>
    simp only [List.map_cons, angleOf]
    split
    · rfl
    · have := angleLoopT_mirror height t.1 none ts
      simp only [Option.map_none] at this
      rw [this]
      cases angleLoopT height t.1 none ts with
      | error e => rfl
      | ok z =>
        simp only [Except.map, Option.map_some, getAngles, Prod.swap]
        congr 4
        · ring_nf
        · ring_nf

theorem contactAngle_eq (s : System) (box : Option (ℚ × ℚ)) (height : ℚ) (floor : Option ℚ) (o : Opts)
    (yf : Option ℚ) (hyf : floorOf floor s = .ok yf) (out : List (ℕ × ℕ))
    (hout : getInterface s box { o with ylims := (yf, none) } = .ok out) :
    contactAngle s box height floor o = angleOf height floor.isSome yf (out.map (triple s)) := by
  unfold contactAngle
  rw [hyf]
  simp only [bind, Except.bind]
  rw [hout]
  simp only
  cases out with
  | nil => rfl
  | cons p rest =>
    obtain ⟨l, r⟩ := p
    simp only [List.map_cons, angleOf, triple, angleLoop_eq]
    split
    · rfl
    · cases angleLoopT height (row s l).y none (List.map (triple s) rest) with
      | error e => rfl
      | ok z => rfl

theorem closest_spec (f : ℚ) (ys : List ℚ) (y : ℚ) (h : closest f ys = .ok y) :
    y ∈ ys ∧ ∀ z ∈ ys, |y - f| ≤ |z - f| := by
  cases ys with
  | nil => simp [closest] at h
  | cons a ys =>
    simp only [closest, Except.ok.injEq] at h
    subst h
    induction ys generalizing a with
    | nil => simp
    | cons b ys ih =>
      simp only [List.foldl_cons]
      obtain ⟨h1, h2⟩ := ih (if |b - f| < |a - f| then b else a)
      refine ⟨?_, ?_⟩
      · rcases List.mem_cons.mp h1 with h | h
        · rw [h]; split <;> simp
        · simp [h]
      · have h0 := h2 (if |b - f| < |a - f| then b else a) (by simp)
        intro z hz
        rcases List.mem_cons.mp hz with rfl | hz
        · refine h0.trans ?_
          split
          · rename_i h; exact h.le
          · exact le_refl _
        · rcases List.mem_cons.mp hz with rfl | hz
          · refine h0.trans ?_
            split
            · exact le_refl _
            · rename_i h; exact not_lt.mp h
          · exact h2 z (by simp [hz])

theorem closest_exists (f : ℚ) {ys : List ℚ} (h : ys ≠ []) : ∃ y, closest f ys = .ok y := by
  cases ys with
  | nil => exact absurd rfl h
  | cons a ys => exact ⟨_, rfl⟩

theorem row_shift (a : ℚ) (s : System) (i : ℕ) (h : i < s.length) :
    row (shiftX a s) i = { row s i with x := (row s i).x + a } := by
  have : i < (shiftX a s).length := by simpa [shiftX] using h
  rw [row_eq_getElem _ _ this, row_eq_getElem _ _ h]
  simp [shiftX]

theorem Setting.angle {s : System} {o : Opts} {floor : Option ℚ} {r c : ℚ} {yf : Option ℚ} (h : Setting s o floor r c yf)
    (box : Option (ℚ × ℚ)) (height : ℚ) :
    contactAngle s box height floor o = angleOf height floor.isSome yf
      ((outsideIn s r c o.bins (yf, none)).map (triple s)) := by
  apply contactAngle_eq s box height floor o yf h.floorLayer
  unfold getInterface
  simp only [h.cutoff, bind, Except.bind, h.radius, h.method, Bool.false_eq_true, if_false]

end Strata.Interface
