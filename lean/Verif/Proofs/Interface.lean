import Verif.Spec.Interface
import Verif.Proofs.Numeric
import Verif.Proofs.Flow
import Mathlib.Tactic.Positivity
/-! # Lemmas about the liquid criterion and the outside-in search -/
namespace Strata.Interface
open Strata Strata.Flow

theorem row_eq_getElem (s : System) (i : ℕ) (h : i < s.length) : row s i = s[i] := by
  simp [row, List.getD_eq_getElem?_getD, h]

theorem map_row_range (s : System) : (List.range s.length).map (row s) = s := by
  apply List.ext_getElem
  · simp
  · intro i h1 h2
    simp [row_eq_getElem s i h2]

theorem mem_indicesInRadius (i : ℕ) (s : System) (r : ℚ) (j : ℕ) :
    j ∈ indicesInRadius i s r ↔ j < s.length ∧ j ≠ i ∧ Near r (row s i) (row s j) := by
  unfold indicesInRadius Near
  simp only [List.mem_filter, List.mem_range, decide_eq_true_eq]
  constructor
  · rintro ⟨⟨⟨h1, _⟩, h3⟩, h4⟩; exact ⟨h1, h4, h3⟩
  · rintro ⟨h1, h2, h3⟩
    refine ⟨⟨⟨h1, ?_⟩, h3⟩, h2⟩
    have := sq_nonneg ((row s j).y - (row s i).y)
    linarith

theorem indicesInRadius_sorted (i : ℕ) (s : System) (r : ℚ) : (indicesInRadius i s r).Pairwise (· < ·) := by
  unfold indicesInRadius
  exact ((List.pairwise_lt_range.filter _).filter _).filter _

theorem length_filter_eq_card (l : List ℕ) (hl : l.Nodup) (n : ℕ) (P : ℕ → Prop) [DecidablePred P]
    (h : ∀ j, j ∈ l ↔ j < n ∧ P j) : l.length = ((Finset.range n).filter P).card := by
  rw [← List.toFinset_card_of_nodup hl]
  congr 1
  ext j
  simp [h]

/-- The count of the code is the count of the specification. -/
theorem cellIsDroplet_iff (i : ℕ) (s : System) (hi : i < s.length) (r c : ℚ) (b : ℤ) :
    cellIsDroplet i s r c b = true ↔ Liquid s r c b i := by
  unfold cellIsDroplet Liquid
  simp only [Bool.and_eq_true, decide_eq_true_eq, ge_iff_le, hi, true_and]
  rw [length_filter_eq_card _ (((indicesInRadius_sorted i s r).imp (fun h => h.ne)).filter _) s.length
    (fun j => j ≠ i ∧ c ≤ (row s j).v ∧ Near r (row s i) (row s j))]
  intro j
  rw [List.mem_filter, mem_indicesInRadius]
  simp only [decide_eq_true_eq]
  tauto

theorem near_self (r : ℚ) (a : Cell) : Near r a a := by
  unfold Near; simp; positivity

/-- Cells that count for cell `a`. -/
def counts (r c : ℚ) (a : Cell) (b : Cell) : Bool := decide (c ≤ b.v ∧ Near r a b)

theorem card_filter_range (s : System) (P : Cell → Bool) :
    ((Finset.range s.length).filter fun j => P (row s j) = true).card = s.countP P := by
  have h : ((List.range s.length).filter fun j => P (row s j)).length = s.countP P := by
    conv_rhs => rw [← map_row_range s]
    rw [List.countP_map, List.countP_eq_length_filter]
    rfl
  rw [← h, ← length_filter_eq_card _ (List.nodup_range.filter _) s.length (fun j => P (row s j) = true)]
  intro j
  simp

theorem liquid_iff_countP (s : System) (r c : ℚ) (b : ℤ) (i : ℕ) (hi : i < s.length) :
    Liquid s r c b i ↔ c ≤ (row s i).v ∧ b + 1 ≤ (s.countP (counts r c (row s i)) : ℤ) := by
  unfold Liquid
  simp only [hi, true_and]
  refine and_congr_right fun hv => ?_
  have h : ((Finset.range s.length).filter fun j => j ≠ i ∧ c ≤ (row s j).v ∧ Near r (row s i) (row s j)) =
      ((Finset.range s.length).filter fun j => counts r c (row s i) (row s j) = true).erase i := by
    ext j
    simp only [Finset.mem_filter, Finset.mem_erase, Finset.mem_range, counts, decide_eq_true_eq]
    tauto
  have hmem : i ∈ (Finset.range s.length).filter fun j => counts r c (row s i) (row s j) = true := by
    simp [hi, counts, hv, near_self]
  have hpos := Finset.card_pos.mpr ⟨i, hmem⟩
  rw [h, Finset.card_erase_of_mem hmem, ← card_filter_range]
  omega

/-- The criterion in terms of the cell's content. -/
def LiquidCell (s : System) (r c : ℚ) (b : ℤ) (a : Cell) : Prop :=
  c ≤ a.v ∧ b + 1 ≤ (s.countP (counts r c a) : ℤ)

instance (s : System) (r c : ℚ) (b : ℤ) (a : Cell) : Decidable (LiquidCell s r c b a) := by
  unfold LiquidCell; infer_instance

theorem liquid_iff_cell (s : System) (r c : ℚ) (b : ℤ) (i : ℕ) (hi : i < s.length) :
    Liquid s r c b i ↔ LiquidCell s r c b (row s i) := liquid_iff_countP s r c b i hi

theorem cellIsDroplet_eq (i : ℕ) (s : System) (hi : i < s.length) (r c : ℚ) (b : ℤ) :
    cellIsDroplet i s r c b = decide (LiquidCell s r c b (row s i)) := by
  rw [Bool.eq_iff_iff, decide_eq_true_iff, cellIsDroplet_iff i s hi, liquid_iff_cell s r c b i hi]

theorem liquidCell_filter (s : System) (r c : ℚ) (b : ℤ) (a : Cell) :
    LiquidCell (s.filter fun d => decide (d.v ≥ c)) r c b a ↔ LiquidCell s r c b a := by
  unfold LiquidCell
  rw [List.countP_filter]
  have : (fun d => counts r c a d && decide (d.v ≥ c)) = counts r c a := by
    funext d
    rw [Bool.eq_iff_iff, Bool.and_eq_true]
    simp only [counts, decide_eq_true_iff]
    constructor
    · exact fun h => h.1
    · exact fun h => ⟨h, h.1⟩
  rw [this]

theorem row_indexOf {c : Cell} {s : System} (h : c ∈ s) : row s (indexOf c s) = c := by
  have hl := List.idxOf_lt_length_of_mem h
  unfold indexOf
  rw [row_eq_getElem s _ hl]
  exact List.getElem_idxOf hl

theorem map_row_filter (s : System) (p : Cell → Bool) :
    ((List.range s.length).filter fun i => p (row s i)).map (row s) = s.filter p := by
  conv_rhs => rw [← map_row_range s]
  rw [List.filter_map]
  rfl

theorem row_map (s : System) (idx : List ℕ) (k : ℕ) (h : k < idx.length) :
    row (idx.map (row s)) k = row s (idx.getD k 0) := by
  rw [row_eq_getElem _ _ (by simpa using h)]
  simp [List.getD_eq_getElem?_getD, h]

/-- The sorted layer: same cells, ascending x. -/
theorem mem_sortLayer (l : System) (c : Cell) : c ∈ sortLayer l ↔ c ∈ l :=
  (List.perm_insertionSort _ _).mem_iff

theorem sortLayer_pairwise (l : System) : (sortLayer l).Pairwise fun a b => a.x ≤ b.x := by
  have : (sortLayer l).Pairwise (fun a b => lexLE (a.x :: a.fields) (b.x :: b.fields) = true) := by
    have : Std.Total (fun a b : Cell => lexLE (a.x :: a.fields) (b.x :: b.fields) = true) := ⟨fun a b => lexLE_total _ _⟩
    have : IsTrans Cell (fun a b : Cell => lexLE (a.x :: a.fields) (b.x :: b.fields) = true) := ⟨fun a b c => lexLE_trans _ _ _⟩
    exact List.pairwise_insertionSort _ _
  refine this.imp ?_
  intro a b h
  by_contra hc
  rw [not_le] at hc
  simp [lexLE, hc, hc.not_gt] at h

theorem traverse_spec (layer data : System) (hsub : ∀ c ∈ layer, c ∈ data) (r c : ℚ) (b : ℤ) :
    traverseLayer layer data r c b =
      (layer.find? fun a => decide (LiquidCell data r c b a)).map fun a => indexOf a data := by
  unfold traverseLayer
  rw [List.find?_map]
  congr 1
  induction layer with
  | nil => rfl
  | cons a l ih =>
    have ha := hsub a (by simp)
    simp only [List.find?_cons, Function.comp]
    rw [cellIsDroplet_eq (indexOf a data) _ (List.idxOf_lt_length_of_mem ha), row_indexOf ha]
    split
    · rfl
    · exact ih fun c hc => hsub c (by simp [hc])

theorem find?_sorted {l : System} (hs : l.Pairwise fun a b => a.x ≤ b.x) {p : Cell → Bool} {a : Cell}
    (h : l.find? p = some a) : ∀ b ∈ l, p b = true → a.x ≤ b.x := by
  induction l with
  | nil => simp at h
  | cons c l ih =>
    rw [List.pairwise_cons] at hs
    rw [List.find?_cons] at h
    intro b hb hp
    split at h
    · simp only [Option.some.injEq] at h
      subst h
      rcases List.mem_cons.mp hb with rfl | hb
      · exact le_refl _
      · exact hs.1 b hb
    · rename_i hc
      rcases List.mem_cons.mp hb with rfl | hb
      · rw [hp] at hc; simp at hc
      · exact ih hs.2 h b hb hp

theorem find?_sorted_rev {l : System} (hs : l.Pairwise fun a b => a.x ≤ b.x) {p : Cell → Bool} {a : Cell}
    (h : l.reverse.find? p = some a) : ∀ b ∈ l, p b = true → b.x ≤ a.x := by
  intro b hb hp
  have hs' : l.reverse.Pairwise fun a b => b.x ≤ a.x := List.pairwise_reverse.mpr hs
  have hb' : b ∈ l.reverse := by simpa using hb
  generalize l.reverse = m at *
  clear hs hb
  induction m with
  | nil => simp at h
  | cons c l ih =>
    rw [List.pairwise_cons] at hs'
    rw [List.find?_cons] at h
    split at h
    · simp only [Option.some.injEq] at h
      subst h
      rcases List.mem_cons.mp hb' with rfl | hb
      · exact le_refl _
      · exact hs'.1 b hb
    · rename_i hc
      rcases List.mem_cons.mp hb' with rfl | hb
      · rw [hp] at hc; simp at hc
      · exact ih h hs'.2 hb

/-- The cells that reach the cut-off. -/
def above (s : System) (c : ℚ) : System := s.filter fun d => decide (d.v ≥ c)

/-- One layer of the outside-in search, in terms of cells. -/
def layerCells (s : System) (r c : ℚ) (b : ℤ) (y : ℚ) : Option (Cell × Cell) :=
  let sorted := sortLayer ((above s c).filter fun d => d.y = y)
  match sorted.find? fun a => decide (LiquidCell s r c b a) with
  | none => none
  | some l =>
    match sorted.reverse.find? fun a => decide (LiquidCell s r c b a) with
    | none => none
    | some r => some (l, r)

/-- Row numbers reaching the cut-off. -/
def aboveRows (s : System) (c : ℚ) : List ℕ := (List.range s.length).filter fun i => decide ((row s i).v ≥ c)

/-- The row number the search reports for a cell. -/
def rowOf (s : System) (c : ℚ) (a : Cell) : ℕ := (aboveRows s c).getD (indexOf a (above s c)) 0

theorem aboveRows_map (s : System) (c : ℚ) : (aboveRows s c).map (row s) = above s c :=
  map_row_filter s fun d => decide (d.v ≥ c)

theorem row_rowOf {s : System} {c : ℚ} {a : Cell} (h : a ∈ above s c) :
    row s (rowOf s c a) = a ∧ rowOf s c a < s.length := by
  have hl : indexOf a (above s c) < (above s c).length := List.idxOf_lt_length_of_mem h
  have hl' : indexOf a (above s c) < (aboveRows s c).length := by
    rw [← aboveRows_map] at hl ⊢; simpa using hl
  constructor
  · unfold rowOf
    rw [← row_map s _ _ hl', aboveRows_map, row_indexOf h]
  · unfold rowOf
    have : (aboveRows s c).getD (indexOf a (above s c)) 0 ∈ aboveRows s c := by
      rw [List.getD_eq_getElem?_getD, List.getElem?_eq_getElem hl']
      exact List.getElem_mem hl'
    unfold aboveRows at this
    rw [List.mem_filter, List.mem_range] at this
    exact this.1

theorem outsideIn_eq (s : System) (r c : ℚ) (b : ℤ) (lims : Option ℚ × Option ℚ) :
    outsideIn s r c b lims =
      (yValues ((above s c).map (·.y)) lims.1 lims.2).filterMap fun y =>
        (layerCells s r c b y).map fun p => (rowOf s c p.1, rowOf s c p.2) := by
  have hfilt : ∀ a, decide (LiquidCell (above s c) r c b a) = decide (LiquidCell s r c b a) := fun a =>
    decide_eq_decide.mpr (liquidCell_filter s r c b a)
  have hd : List.map (row s) ((List.range s.length).filter fun i => decide ((row s i).v ≥ c)) = above s c :=
    aboveRows_map s c
  unfold outsideIn
  simp only [hd]
  congr 1
  funext y
  have hsub : ∀ a ∈ sortLayer ((above s c).filter fun d => d.y = y), a ∈ above s c := by
    intro a ha
    rw [mem_sortLayer, List.mem_filter] at ha
    exact ha.1
  rw [traverse_spec _ _ hsub, traverse_spec _ _ (by simpa using hsub)]
  simp only [hfilt]
  unfold layerCells
  simp only
  cases (sortLayer ((above s c).filter fun d => d.y = y)).find? fun a => decide (LiquidCell s r c b a) with
  | none => rfl
  | some l =>
    cases (sortLayer ((above s c).filter fun d => d.y = y)).reverse.find? fun a => decide (LiquidCell s r c b a) with
    | none => rfl
    | some r => rfl

theorem layerCells_some {s : System} {r c : ℚ} {b : ℤ} {y : ℚ} {p : Cell × Cell} (h : layerCells s r c b y = some p) :
    (∀ a, a = p.1 ∨ a = p.2 → a ∈ above s c ∧ a.y = y ∧ LiquidCell s r c b a) ∧
    ∀ d ∈ s, d.y = y → LiquidCell s r c b d → p.1.x ≤ d.x ∧ d.x ≤ p.2.x := by
  unfold layerCells at h
  simp only at h
  split at h
  · simp at h
  · rename_i l hl
    split at h
    · simp at h
    · rename_i q hq
      simp only [Option.some.injEq] at h
      subst h
      have hm : ∀ a, a ∈ sortLayer ((above s c).filter fun d => d.y = y) ↔ a ∈ above s c ∧ a.y = y := by
        intro a; rw [mem_sortLayer, List.mem_filter]; simp
      constructor
      · rintro a (rfl | rfl)
        · have := (hm _).mp (List.mem_of_find?_eq_some hl)
          exact ⟨this.1, this.2, by simpa using List.find?_some hl⟩
        · have := (hm _).mp (by simpa using List.mem_of_find?_eq_some hq)
          exact ⟨this.1, this.2, by simpa using List.find?_some hq⟩
      · intro d hd hy hL
        have hin : d ∈ sortLayer ((above s c).filter fun d => d.y = y) := by
          rw [hm]; refine ⟨?_, hy⟩; unfold above; rw [List.mem_filter]; exact ⟨hd, by simpa using hL.1⟩
        exact ⟨find?_sorted (sortLayer_pairwise _) hl d hin (by simpa using hL),
          find?_sorted_rev (sortLayer_pairwise _) hq d hin (by simpa using hL)⟩

theorem layerCells_isSome {s : System} {r c : ℚ} {b : ℤ} {y : ℚ} {d : Cell} (hd : d ∈ s) (hy : d.y = y)
    (hL : LiquidCell s r c b d) : ∃ p, layerCells s r c b y = some p := by
  have hin : d ∈ sortLayer ((above s c).filter fun d => d.y = y) := by
    rw [mem_sortLayer, List.mem_filter]; refine ⟨?_, by simpa using hy⟩
    unfold above; rw [List.mem_filter]; exact ⟨hd, by simpa using hL.1⟩
  unfold layerCells
  simp only
  have h1 : ((sortLayer ((above s c).filter fun d => d.y = y)).find? fun a => decide (LiquidCell s r c b a)).isSome := by
    rw [List.find?_isSome]; exact ⟨d, hin, by simpa using hL⟩
  have h2 : ((sortLayer ((above s c).filter fun d => d.y = y)).reverse.find? fun a => decide (LiquidCell s r c b a)).isSome := by
    rw [List.find?_isSome]; exact ⟨d, by simpa using hin, by simpa using hL⟩
  obtain ⟨l, hl⟩ := Option.isSome_iff_exists.mp h1
  obtain ⟨q, hq⟩ := Option.isSome_iff_exists.mp h2
  exact ⟨(l, q), by rw [hl]; simp only; rw [hq]⟩

theorem mem_yValues (Y : List ℚ) (lo hi : Option ℚ) (y : ℚ) : y ∈ yValues Y lo hi ↔ y ∈ Y ∧ Within lo hi y := by
  unfold yValues
  rw [List.mem_filter, mem_npUnique, within_iff]

theorem yValues_pairwise (Y : List ℚ) (lo hi : Option ℚ) : (yValues Y lo hi).Pairwise (· < ·) :=
  (pairwise_npUnique Y).filter _

/-- What the outside-in search yields. -/
theorem outsideIn_spec (s : System) (r c : ℚ) (b : ℤ) (lo hi : Option ℚ) :
    ((outsideIn s r c b (lo, hi)).map fun p => (row s p.1).y).Pairwise (· < ·) ∧
    (∀ p ∈ outsideIn s r c b (lo, hi),
      (row s p.2).y = (row s p.1).y ∧ Within lo hi (row s p.1).y ∧ Liquid s r c b p.1 ∧ Liquid s r c b p.2 ∧
      ∀ j, Liquid s r c b j → (row s j).y = (row s p.1).y → (row s p.1).x ≤ (row s j).x ∧ (row s j).x ≤ (row s p.2).x) ∧
    (∀ j, Liquid s r c b j → Within lo hi (row s j).y →
      ∃ p ∈ outsideIn s r c b (lo, hi), (row s p.1).y = (row s j).y) := by
  rw [outsideIn_eq]
  have hy : ∀ y p, layerCells s r c b y = some p → (row s (rowOf s c p.1)).y = y := by
    intro y p hp
    have := (layerCells_some hp).1 p.1 (Or.inl rfl)
    rw [(row_rowOf this.1).1]; exact this.2.1
  refine ⟨?_, ?_, ?_⟩
  · rw [List.map_filterMap]
    rw [List.pairwise_filterMap]
    refine (yValues_pairwise _ _ _).imp ?_
    intro y y' hlt z hz z' hz'
    simp only [Option.map_map, Option.map_eq_some_iff, Function.comp] at hz hz'
    obtain ⟨p, hp, rfl⟩ := hz
    obtain ⟨p', hp', rfl⟩ := hz'
    rw [hy y p hp, hy y' p' hp']; exact hlt
  · intro q hq
    rw [List.mem_filterMap] at hq
    obtain ⟨y, hyv, hq⟩ := hq
    rw [Option.map_eq_some_iff] at hq
    obtain ⟨p, hp, rfl⟩ := hq
    obtain ⟨h1, h2⟩ := layerCells_some hp
    obtain ⟨m1, y1, L1⟩ := h1 p.1 (Or.inl rfl)
    obtain ⟨m2, y2, L2⟩ := h1 p.2 (Or.inr rfl)
    obtain ⟨r1, i1⟩ := row_rowOf m1
    obtain ⟨r2, i2⟩ := row_rowOf m2
    simp only [r1, r2]
    refine ⟨by rw [y1, y2], by rw [y1]; exact ((mem_yValues _ _ _ _).mp hyv).2, ?_, ?_, ?_⟩
    · rw [liquid_iff_cell _ _ _ _ _ i1, r1]; exact L1
    · rw [liquid_iff_cell _ _ _ _ _ i2, r2]; exact L2
    · intro j hj hjy
      have hjl := hj.1
      refine h2 (row s j) ?_ (by rw [hjy, y1]) ((liquid_iff_cell _ _ _ _ _ hjl).mp hj)
      rw [row_eq_getElem s j hjl]; exact List.getElem_mem hjl
  · intro j hj hw
    have hjl := hj.1
    have hmem : row s j ∈ s := by rw [row_eq_getElem s j hjl]; exact List.getElem_mem hjl
    have hL := (liquid_iff_cell _ _ _ _ _ hjl).mp hj
    obtain ⟨p, hp⟩ := layerCells_isSome hmem rfl hL
    refine ⟨(rowOf s c p.1, rowOf s c p.2), ?_, hy _ p hp⟩
    rw [List.mem_filterMap]
    refine ⟨(row s j).y, ?_, by rw [hp]; rfl⟩
    rw [mem_yValues]
    refine ⟨?_, hw⟩
    rw [List.mem_map]
    refine ⟨row s j, ?_, rfl⟩
    unfold above; rw [List.mem_filter]; exact ⟨hmem, by simpa using hL.1⟩

end Strata.Interface
