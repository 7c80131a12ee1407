import Verif.Props.SampleSeriesUnits
import Verif.Props.Stored
/-!
# C171: sums over parts of a map
-/
namespace Strata.SampleSeries
open Strata Strata.Flow Strata.Average Strata.Sample

/-- The output file and the result of sampling one label of one map: `v` at time zero. -/
def OneRow (v : Value) (r : List (ℚ × List Value) × Except Err (Option (List ℚ × List (List Value)))) : Prop :=
  r = ([(0, [v])], .ok (some ([0], [[v]])))

theorem oneRow {o : Opts} {dt : ℚ} {l : Label} {file : Record × InfoDict} {v : Value} (h : (frame o file >>= fun f => sampleLabels o f [l]) = .ok [v]) :
    OneRow v (sampleAverage o dt [l] [file]) := by
  unfold OneRow sampleAverage
  rw [loop_ok o dt [l] [file] [[v]] 0 (.cons h .nil)]
  simp [Except.bind]

/-- The sum that is sampled, from the pieces of the computation. -/
theorem sampled_of {o : Opts} (ho : o.sum = true) (dt : ℚ) {l : Label} (h1 : l ≠ "flow_angle") (h2 : l ≠ "slip_length") {file : Record × InfoDict} {v : Option ℚ}
    (h : ((frame o file).bind fun f => (sampleData o f l).bind fun r => (rows o r.1).map fun idx => sum (idx.map fun t => r.2.getD t none)) = .ok v) :
    OneRow (.number v none) (sampleAverage o dt [l] [file]) := by
  refine oneRow ?_
  cases hf : frame o file with
  | error e => rw [hf] at h; cases h
  | ok f =>
    rw [hf] at h
    rw [Gmx.ok_bind, sampleLabels_cons]
    unfold sampleLabel sampleValue
    rw [if_neg h2, if_neg h1]
    simp only [Except.bind] at h
    cases hd : sampleData o f l with
    | error e => rw [hd] at h; cases h
    | ok r =>
      obtain ⟨g, vs⟩ := r
      rw [hd] at h
      simp only at h
      rw [Gmx.ok_bind]
      simp only
      cases hr : rows o g with
      | error e => rw [hr] at h; cases h
      | ok idx =>
        rw [hr] at h
        simp only [Except.map] at h
        injection h with h
        rw [Gmx.ok_bind, Gmx.ok_bind]
        unfold statistics
        simp only [ho, if_true]
        rw [h]
        rfl

/-- What is summed in a bin. -/
def quantity (l : Label) (b : Bin) : ℚ :=
  if l = "inertial_energy" then valueOf "M" b * (valueOf "U" b ^ 2 + valueOf "V" b ^ 2) / 2 else valueOf l b

/-- A bin is selected by the cutoff. -/
def Selected (o : Opts) (b : Bin) : Prop := ∀ c, o.cutoffLabel = some c → ∀ x, o.cutoff = some x → x ≤ valueOf c b

theorem val_valueOf {r : Record} {l : Label} (hl : l ∈ names r) (t : ℕ) : val r l t = valueOf l (binAt r t) := by
  obtain ⟨c, hc, -⟩ := Sample.field_ok hl
  rw [val_of_col hc, getD_valueOf hc]

open Classical in
theorem sum_bins (o : Opts) (r : Record) (cl : Option Label) (hcl : ∀ c, cl = some c → c ∈ names r) (x : ℚ) (q : ℕ → ℚ) (p : Bin → ℚ)
    (hq : ∀ t, q t = p (binAt r t)) (info : Info) :
    ∑ t ∈ atOrAbove ⟨r, info⟩ cl x, q t = ((bins r).map fun b => if ∀ c, cl = some c → x ≤ valueOf c b then p b else 0).sum := by
  unfold atOrAbove bins
  rw [Finset.sum_filter, List.map_map, ← list_sum_range]
  congr 1
  refine List.map_congr_left fun t _ => ?_
  simp only [Function.comp, hq]
  have : (∀ c ∈ cl, x ≤ val r c t) ↔ ∀ c, cl = some c → x ≤ valueOf c (binAt r t) := by
    refine forall_congr' fun c => ?_
    constructor
    · intro h hc; rw [← val_valueOf (hcl c hc)]; exact h hc
    · intro h hc; rw [val_valueOf (hcl c hc)]; exact h hc
  simp only [this]

open Classical in
theorem sampleLabel_sum (o : Opts) (ho : o.sum = true) (f : Flow) (hw : Wf f.data) (hF : names f.data = fields) (hc : ∀ c, o.cutoffLabel = some c → c ∈ fields ∧ o.cutoff ≠ none)
    (l : Label) (hl : l ∈ fields ∨ l = "inertial_energy") :
    sampleLabel o f l = .ok (f, .number (some ((bins f.data).map fun b => if Selected o b then quantity l b else 0).sum) none) := by
  have hF' : ∀ l ∈ fields, l ∈ names f.data := fun l h => by rw [hF]; exact h
  obtain ⟨x, hx, hsel⟩ : ∃ x, IsCutoff o f x ∧ ∀ b, (∀ c, o.cutoffLabel = some c → x ≤ valueOf c b) ↔ Selected o b := by
    cases hcl : o.cutoffLabel with
    | none => exact ⟨0, fun c h => (by rw [hcl] at h; cases h), fun b => by unfold Selected; rw [hcl]; simp⟩
    | some c =>
      obtain ⟨h1, h2⟩ := hc c hcl
      obtain ⟨x, hx⟩ := Option.ne_none_iff_exists'.mp h2
      obtain ⟨col, hcol, -⟩ := Sample.field_ok (hF' c h1)
      refine ⟨x, fun c' h => ?_, fun b => ?_⟩
      · rw [hcl] at h; cases h
        exact ⟨col, hcol, Or.inl hx⟩
      · unfold Selected; rw [hcl, hx]; simp
  have hcl : ∀ c, o.cutoffLabel = some c → c ∈ names f.data := fun c h => hF' c (hc c h).1
  by_cases he : l = "inertial_energy"
  · subst he
    rw [C60_statistics_of_inertial_energy o f hw hF' x hx, ho]
    unfold stats
    rw [if_pos rfl, sum_bins o f.data o.cutoffLabel hcl x _ (quantity "inertial_energy") (fun t => by
      rw [val_valueOf (hF' "M" (by decide)), val_valueOf (hF' "U" (by decide)), val_valueOf (hF' "V" (by decide))]; rfl) f.info]
    simp only [hsel]
  · have hl' := hl.resolve_right he
    rw [C60_statistics_of_field o f hw l (hF' l hl') (by
      intro hm; simp only [fields, List.mem_cons, List.not_mem_nil, or_false] at hl' hm
      rcases hl' with rfl | rfl | rfl | rfl | rfl | rfl | rfl <;> revert hm <;> decide) x hx, ho]
    unfold stats
    rw [if_pos rfl, sum_bins o f.data o.cutoffLabel hcl x _ (quantity l) (fun t => by rw [val_valueOf (hF' l hl')]; unfold quantity; rw [if_neg he]) f.info]
    simp only [hsel]

/-- The sum of a quantity over the bins in a rectangle. -/
noncomputable def windowSum (x0 x1 y0 y1 : ℚ) (q : Bin → ℚ) (bs : List Bin) : ℚ :=
  (bs.map fun b => if BinWithin "X" (some x0) (some x1) b ∧ BinWithin "Y" (some y0) (some y1) b then q b else 0).sum

open Classical in
/-- What is summed in a bin that is selected by the cutoff, zero in others. -/
noncomputable def selected (o : Opts) (l : Label) (b : Bin) : ℚ := if Selected o b then quantity l b else 0

/-- The sum sampled in a window, over the bins of the file. -/
theorem window (o : Opts) (ho : o.sum = true) (dt : ℚ) (d : Record) (dict : InfoDict) (info : Info) (hn : names d = fields) (hw : Wf d) (hi : setInfo dict = .ok info)
    (or s : ℚ × ℚ) (n : ℤ × ℤ) (h1 : info.origin = some or) (h2 : info.spacing = some s) (h3 : info.shape = some n)
    (hc : ∀ c, o.cutoffLabel = some c → c ∈ fields ∧ o.cutoff ≠ none) (l : Label) (hl : l ∈ fields ∨ l = "inertial_energy") (hwin : o.xlim ≠ (none, none) ∨ o.ylim ≠ (none, none)) :
    OneRow (.number (some (windowSum (o.xlim.1.getD or.1) (o.xlim.2.getD (or.1 + n.1 * s.1)) (o.ylim.1.getD or.2) (o.ylim.2.getD (or.2 + n.2 * s.2)) (selected o l) (bins d))) none) (sampleAverage o dt [l] [(d, dict)]) := by
  obtain ⟨g, hg, hgn, hgb⟩ := (C60_limits o d dict info hn hw hi).2 or s n h1 h2 h3 hwin
  have hgw : Wf g.data := by
    rw [frame_eq o d dict info hn hw hi, if_pos hwin] at hg
    exact (wf_cut (f := ⟨d, info⟩) hw hg).1
  refine oneRow ?_
  rw [hg, Gmx.ok_bind, sampleLabels_cons, sampleLabel_sum o ho g hgw hgn hc l hl, Gmx.ok_bind]
  show Except.ok [Value.number (some ((bins g.data).map _).sum) none] = _
  have key : ∀ (W : Bin → Prop) [DecidablePred W] (q : Bin → ℚ) (bs : List Bin), ((bs.filter fun b => decide (W b)).map q).sum = (bs.map fun b => if W b then q b else 0).sum := by
    intro W _ q bs
    induction bs with
    | nil => rfl
    | cons b bs ih =>
      rw [List.filter_cons, List.map_cons, List.sum_cons, ← ih]
      by_cases hb : W b
      · rw [if_pos (by simpa using hb), if_pos hb, List.map_cons, List.sum_cons]
      · rw [if_neg (by simpa using hb), if_neg hb, zero_add]
  rw [hgb, key]
  rfl

theorem binWithin_val {l : Label} {b : Bin} {v : ℚ} (hv : b.val l = some v) (p q : ℚ) : BinWithin l (some p) (some q) b ↔ p ≤ v ∧ v ≤ q := by
  unfold BinWithin Within
  rw [hv]
  simp

theorem split_at (P Q R S : Bin → Prop) [DecidablePred P] [DecidablePred Q] [DecidablePred R] [DecidablePred S] (q : Bin → ℚ) (bs : List Bin) (h : ∀ b ∈ bs, (P b ∨ Q b ↔ R b) ∧ (P b ∧ Q b ↔ S b)) :
    (bs.map fun b => if P b then q b else 0).sum + (bs.map fun b => if Q b then q b else 0).sum = (bs.map fun b => if R b then q b else 0).sum + (bs.map fun b => if S b then q b else 0).sum := by
  induction bs with
  | nil => simp
  | cons b bs ih =>
    have := ih fun c hc => h c (List.mem_cons_of_mem _ hc)
    obtain ⟨h1, h2⟩ := h b (List.mem_cons_self ..)
    simp only [List.map_cons, List.sum_cons, ← h1, ← h2]
    by_cases hp : P b <;> by_cases hq : Q b <;> simp only [hp, hq, if_true, if_false, and_self, and_true, and_false, true_and, false_and, or_self, or_true, true_or, or_false, false_or] <;> linarith

/-- Sampled sum in the window between `p` and `q` along x. -/
def SumX (o : Opts) (dt : ℚ) (l : Label) (file : Record × InfoDict) (p q v : ℚ) : Prop :=
  OneRow (.number (some v) none) (sampleAverage { o with xlim := (some p, some q) } dt [l] [file])

/-- Sampled sum in the window between `p` and `q` along y. -/
def SumY (o : Opts) (dt : ℚ) (l : Label) (file : Record × InfoDict) (p q v : ℚ) : Prop :=
  OneRow (.number (some v) none) (sampleAverage { o with ylim := (some p, some q) } dt [l] [file])

theorem split_window {a b c v : ℚ} (hab : a ≤ b) (hbc : b ≤ c) : ((a ≤ v ∧ v ≤ b) ∨ (b ≤ v ∧ v ≤ c) ↔ a ≤ v ∧ v ≤ c) ∧ ((a ≤ v ∧ v ≤ b) ∧ (b ≤ v ∧ v ≤ c) ↔ b ≤ v ∧ v ≤ b) := by
  constructor
  · constructor
    · rintro (⟨h1, h2⟩ | ⟨h1, h2⟩)
      · exact ⟨h1, h2.trans hbc⟩
      · exact ⟨hab.trans h1, h2⟩
    · rintro ⟨h1, h2⟩
      rcases le_total v b with h | h
      · exact Or.inl ⟨h1, h⟩
      · exact Or.inr ⟨h, h2⟩
  · constructor
    · rintro ⟨⟨_, h2⟩, ⟨h3, _⟩⟩; exact ⟨h3, h2⟩
    · rintro ⟨h3, h2⟩; exact ⟨⟨hab.trans h3, h2⟩, ⟨h3, h2.trans hbc⟩⟩

theorem split_x {a b c : ℚ} (hab : a ≤ b) (hbc : b ≤ c) (p q : ℚ) (r : Bin → ℚ) (bs : List Bin) (hv : ∀ x ∈ bs, ∃ v, x.val "X" = some v) :
    windowSum a b p q r bs + windowSum b c p q r bs = windowSum a c p q r bs + windowSum b b p q r bs := by
  unfold windowSum
  refine split_at _ _ _ _ r bs fun x hx => ?_
  obtain ⟨v, hv⟩ := hv x hx
  simp only [binWithin_val hv]
  have := @split_window a b c v hab hbc
  tauto

theorem split_x_zero (b p q : ℚ) (r : Bin → ℚ) (bs : List Bin) (hv : ∀ x ∈ bs, ∃ v, x.val "X" = some v) (hne : ∀ x ∈ bs, x.val "X" ≠ some b) : windowSum b b p q r bs = 0 := by
  unfold windowSum
  refine List.sum_eq_zero fun y hy => ?_
  obtain ⟨x, hx, rfl⟩ := List.mem_map.mp hy
  obtain ⟨v, hv⟩ := hv x hx
  simp only [binWithin_val hv]
  rw [if_neg]
  rintro ⟨h1, h2⟩
  exact hne x hx (by rw [hv, le_antisymm h1.2 h1.1])

theorem split_y {a b c : ℚ} (hab : a ≤ b) (hbc : b ≤ c) (p q : ℚ) (r : Bin → ℚ) (bs : List Bin) (hv : ∀ x ∈ bs, ∃ v, x.val "Y" = some v) :
    windowSum p q a b r bs + windowSum p q b c r bs = windowSum p q a c r bs + windowSum p q b b r bs := by
  unfold windowSum
  refine split_at _ _ _ _ r bs fun x hx => ?_
  obtain ⟨v, hv⟩ := hv x hx
  simp only [binWithin_val hv]
  have := @split_window a b c v hab hbc
  tauto

theorem split_y_zero (b p q : ℚ) (r : Bin → ℚ) (bs : List Bin) (hv : ∀ x ∈ bs, ∃ v, x.val "Y" = some v) (hne : ∀ x ∈ bs, x.val "Y" ≠ some b) : windowSum p q b b r bs = 0 := by
  unfold windowSum
  refine List.sum_eq_zero fun y hy => ?_
  obtain ⟨x, hx, rfl⟩ := List.mem_map.mp hy
  obtain ⟨v, hv⟩ := hv x hx
  simp only [binWithin_val hv]
  rw [if_neg]
  rintro ⟨h1, h2⟩
  exact hne x hx (by rw [hv, le_antisymm h2.2 h2.1])

theorem val_bins {d : Record} {l : Label} (hl : l ∈ names d) : ∀ b ∈ bins d, ∃ v, b.val l = some v := by
  intro b hb
  obtain ⟨t, -, rfl⟩ := List.mem_map.mp hb
  obtain ⟨c, hc, -⟩ := Sample.field_ok hl
  exact ⟨c.getD t 0, by rw [val_binAt, hc]; rfl⟩

/-- **C171, parts along x.** -/
theorem C171_parts_x_partial (o : Opts) (ho : o.sum = true) (dt : ℚ) (d : Record) (dict : InfoDict) (info : Info) (hn : names d = fields) (hw : Wf d) (hi : setInfo dict = .ok info)
    (h1 : info.origin ≠ none) (h2 : info.spacing ≠ none) (h3 : info.shape ≠ none)
    (hc : ∀ c, o.cutoffLabel = some c → c ∈ fields ∧ o.cutoff ≠ none) (l : Label) (hl : l ∈ fields ∨ l = "inertial_energy") (a b c : ℚ) (hab : a ≤ b) (hbc : b ≤ c) :
    ∃ left right whole border, SumX o dt l (d, dict) a b left ∧ SumX o dt l (d, dict) b c right ∧ SumX o dt l (d, dict) a c whole ∧ SumX o dt l (d, dict) b b border ∧
      left + right = whole + border ∧ ((∀ x ∈ bins d, x.val "X" ≠ some b) → border = 0) := by
  classical
  obtain ⟨or, h1⟩ := Option.ne_none_iff_exists'.mp h1
  obtain ⟨s, h2⟩ := Option.ne_none_iff_exists'.mp h2
  obtain ⟨n, h3⟩ := Option.ne_none_iff_exists'.mp h3
  have W : ∀ p q : ℚ, SumX o dt l (d, dict) p q (windowSum p q (o.ylim.1.getD or.2) (o.ylim.2.getD (or.2 + n.2 * s.2)) (selected o l) (bins d)) := fun p q =>
    window { o with xlim := (some p, some q) } ho dt d dict info hn hw hi or s n h1 h2 h3 hc l hl (Or.inl (by simp))
  exact ⟨_, _, _, _, W a b, W b c, W a c, W b b, split_x hab hbc _ _ _ _ (fun x hx => val_bins (by rw [hn]; decide) x hx), fun hne => split_x_zero _ _ _ _ _ (fun x hx => val_bins (by rw [hn]; decide) x hx) hne⟩

/-- **C171, parts along y.** -/
theorem C171_parts_y_partial (o : Opts) (ho : o.sum = true) (dt : ℚ) (d : Record) (dict : InfoDict) (info : Info) (hn : names d = fields) (hw : Wf d) (hi : setInfo dict = .ok info)
    (h1 : info.origin ≠ none) (h2 : info.spacing ≠ none) (h3 : info.shape ≠ none)
    (hc : ∀ c, o.cutoffLabel = some c → c ∈ fields ∧ o.cutoff ≠ none) (l : Label) (hl : l ∈ fields ∨ l = "inertial_energy") (a b c : ℚ) (hab : a ≤ b) (hbc : b ≤ c) :
    ∃ lower upper whole border, SumY o dt l (d, dict) a b lower ∧ SumY o dt l (d, dict) b c upper ∧ SumY o dt l (d, dict) a c whole ∧ SumY o dt l (d, dict) b b border ∧
      lower + upper = whole + border ∧ ((∀ x ∈ bins d, x.val "Y" ≠ some b) → border = 0) := by
  classical
  obtain ⟨or, h1⟩ := Option.ne_none_iff_exists'.mp h1
  obtain ⟨s, h2⟩ := Option.ne_none_iff_exists'.mp h2
  obtain ⟨n, h3⟩ := Option.ne_none_iff_exists'.mp h3
  have W : ∀ p q : ℚ, SumY o dt l (d, dict) p q (windowSum (o.xlim.1.getD or.1) (o.xlim.2.getD (or.1 + n.1 * s.1)) p q (selected o l) (bins d)) := fun p q =>
    window { o with ylim := (some p, some q) } ho dt d dict info hn hw hi or s n h1 h2 h3 hc l hl (Or.inr (by simp))
  exact ⟨_, _, _, _, W a b, W b c, W a c, W b b, split_y hab hbc _ _ _ _ (fun x hx => val_bins (by rw [hn]; decide) x hx), fun hne => split_y_zero _ _ _ _ _ (fun x hx => val_bins (by rw [hn]; decide) x hx) hne⟩

/-! ### Cases, and what does not add up -/

/-- A map of six by three bins: on the left half nothing flows and the bins are light, on the right half they are heavier. -/
def stepFile : Record × InfoDict :=
  ([("X", [0, 0, 0, 1, 1, 1, 2, 2, 2, 3, 3, 3, 4, 4, 4, 5, 5, 5]), ("Y", [0, 1, 2, 0, 1, 2, 0, 1, 2, 0, 1, 2, 0, 1, 2, 0, 1, 2]), ("U", [0, 0, 0, 0, 0, 0, 0, 0, 0, 1, 1, 1, 1, 1, 1, 1, 1, 1]), ("V", [0, 0, 0, 0, 0, 0, 0, 0, 0, 0, 0, 0, 0, 0, 0, 0, 0, 0]), ("M", [1, 1, 1, 1, 1, 1, 1, 1, 1, 13, 13, 13, 14, 14, 14, 15, 15, 15]),
    ("N", [1, 1, 1, 1, 1, 1, 1, 1, 1, 1, 1, 1, 1, 1, 1, 1, 1, 1]), ("T", [1, 1, 1, 1, 1, 1, 1, 1, 1, 1, 1, 1, 1, 1, 1, 1, 1, 1])],
   [("shape", pairVal (some (6, 3))), ("origin", pairVal (some (0, 0))), ("spacing", pairVal (some (1, 1)))])

example : names stepFile.1 = fields ∧ Wf stepFile.1 ∧ setInfo stepFile.2 = .ok ⟨some (6, 3), some (0, 0), some (1, 1), none⟩ ∧ (∀ x ∈ bins stepFile.1, x.val "X" ≠ some (5 / 2)) := by
  refine ⟨by decide +kernel, ⟨by decide +kernel, by decide +kernel⟩, by decide +kernel, by decide +kernel⟩

/-- The masses 9 and 126 of both halves add up to the mass 135 of the map. -/
example (dt : ℚ) : SumX { sum := true } dt "M" stepFile 0 (5 / 2) 9 ∧ SumX { sum := true } dt "M" stepFile (5 / 2) 5 126 ∧ SumX { sum := true } dt "M" stepFile 0 5 135 :=
  ⟨sampled_of rfl dt (by decide) (by decide) (by decide +kernel), sampled_of rfl dt (by decide) (by decide) (by decide +kernel), sampled_of rfl dt (by decide) (by decide) (by decide +kernel)⟩

/-- With the border at the third column of bins, this column (of mass 3) belongs to both parts. -/
example (dt : ℚ) : SumX { sum := true } dt "M" stepFile 0 2 9 ∧ SumX { sum := true } dt "M" stepFile 2 5 129 ∧ SumX { sum := true } dt "M" stepFile 2 2 3 :=
  ⟨sampled_of rfl dt (by decide) (by decide) (by decide +kernel), sampled_of rfl dt (by decide) (by decide) (by decide +kernel), sampled_of rfl dt (by decide) (by decide) (by decide +kernel)⟩

/-- **C171, dissipation.** The dissipation of the parts does not add up to that of the map, although no bin lies at the border: the gradients across the border are lost. -/
theorem C171_dissipation_does_not_add_up (dt : ℚ) :
    ∃ left right whole, SumX { sum := true, viscosity := 1 } dt "visc_diss" stepFile 0 (5 / 2) left ∧ SumX { sum := true, viscosity := 1 } dt "visc_diss" stepFile (5 / 2) 5 right ∧
      SumX { sum := true, viscosity := 1 } dt "visc_diss" stepFile 0 5 whole ∧ left + right < whole ∧ ∀ x ∈ bins stepFile.1, x.val "X" ≠ some (5 / 2) :=
  ⟨0, 0, 2, sampled_of rfl dt (by decide) (by decide) (by decide +kernel), sampled_of rfl dt (by decide) (by decide) (by decide +kernel), sampled_of rfl dt (by decide) (by decide) (by decide +kernel),
    by norm_num, by decide +kernel⟩

/-- **C171, cutoffs that are not given.** Without a cutoff the midpoint of the values in the window is used, which differs between the parts: the light bins count in the left part, but not in
the map. -/
theorem C171_midpoints_do_not_add_up (dt : ℚ) :
    ∃ left right whole, SumX { sum := true, cutoffLabel := some "M" } dt "N" stepFile 0 (5 / 2) left ∧ SumX { sum := true, cutoffLabel := some "M" } dt "N" stepFile (5 / 2) 5 right ∧
      SumX { sum := true, cutoffLabel := some "M" } dt "N" stepFile 0 5 whole ∧ left + right ≠ whole ∧ ∀ x ∈ bins stepFile.1, x.val "X" ≠ some (5 / 2) :=
  ⟨9, 6, 9, sampled_of rfl dt (by decide) (by decide) (by decide +kernel), sampled_of rfl dt (by decide) (by decide) (by decide +kernel), sampled_of rfl dt (by decide) (by decide) (by decide +kernel),
    by norm_num, by decide +kernel⟩

end Strata.SampleSeries
