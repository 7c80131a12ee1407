import Verif.Props.Flow
import Verif.Proofs.SampleSeries
/-!
# C60, C61: sampling a series of files
-/
namespace Strata.SampleSeries
open Strata Strata.Flow Strata.Average Strata.Sample Finset

/-! ## C60 -/

theorem loop_ok (o : Opts) (dt : ℚ) (labels : List Label) : ∀ (files : List (Record × InfoDict)) (rows : List (List Value)) (k : ℕ),
    List.Forall₂ (fun file vs => (frame o file >>= fun f => sampleLabels o f labels) = .ok vs) files rows →
    loop o dt labels k files = ⟨(rows.zipIdx k).map fun r => ((r.2 : ℚ) * dt, r.1), .ok (some rows)⟩ := by
  intro files
  induction files with
  | nil => intro rows k h; cases h; rfl
  | cons file files ih =>
    intro rows k h
    cases h with
    | @cons _ vs _ rows h1 h2 =>
      obtain ⟨f, hf, hv⟩ := Simple.bind_eq_ok h1
      unfold loop
      rw [hf]
      simp only
      rw [hv]
      simp only
      rw [ih rows (k + 1) h2]
      rfl

theorem sampleLabels_length (o : Opts) : ∀ (ls : List Label) (f : Flow) (vs : List Value), sampleLabels o f ls = .ok vs → vs.length = ls.length := by
  intro ls
  induction ls with
  | nil => intro f vs h; cases h; rfl
  | cons l ls ih =>
    intro f vs h
    rw [sampleLabels_cons] at h
    obtain ⟨r, _, h⟩ := Simple.bind_eq_ok h
    obtain ⟨ws, hw, h⟩ := Simple.bind_eq_ok h
    cases h
    rw [List.length_cons, List.length_cons, ih _ _ hw]

/-- **C60, frames.** If `rows[k]` are the samples of file `k` alone, the line of frame `k` in the output file, the time `k dt` and the
returned values of all labels at position `k` are exactly these: no frame depends on another file. -/
theorem C60_each_frame_from_its_file (o : Opts) (dt : ℚ) (labels : List Label) (hl : labels ≠ []) (files : List (Record × InfoDict)) (rows : List (List Value))
    (h : List.Forall₂ (fun file vs => (frame o file >>= fun f => sampleLabels o f labels) = .ok vs) files rows) :
    ∃ lines times values, sampleAverage o dt labels files = (lines, .ok (some (times, values))) ∧
      lines.length = files.length ∧ times.length = files.length ∧ values.length = labels.length ∧
      ∀ (k : ℕ) (row : List Value), rows[k]? = some row →
        lines[k]? = some ((k : ℚ) * dt, row) ∧ times[k]? = some ((k : ℚ) * dt) ∧
        ∀ (j : ℕ) (v : Value), row[j]? = some v → ∃ c, values[j]? = some c ∧ c.length = files.length ∧ c[k]? = some v := by
  have hlen : rows.length = files.length := h.length_eq.symm
  have hrow : ∀ row ∈ rows, row.length = labels.length := by
    intro row hr
    have : ∃ file, (frame o file >>= fun f => sampleLabels o f labels) = .ok row := by
      clear hlen
      induction h with
      | nil => simp at hr
      | cons h1 _ ih =>
        rcases List.mem_cons.mp hr with rfl | hr
        · exact ⟨_, h1⟩
        · exact ih hr
    obtain ⟨file, hf⟩ := this
    obtain ⟨f, _, hv⟩ := Simple.bind_eq_ok hf
    exact sampleLabels_length o _ _ _ hv
  refine ⟨rows.zipIdx.map fun r => ((r.2 : ℚ) * dt, r.1), (List.range rows.length).map fun k : ℕ => (k : ℚ) * dt,
    labels.zipIdx.map fun l => rows.filterMap fun vs => vs[l.2]?, ?_, ?_, ?_, ?_, ?_⟩
  · unfold sampleAverage
    rw [loop_ok o dt labels files rows 0 h]
    simp only [Except.bind]
    rw [if_neg hl]
  · simp [hlen]
  · simp [hlen]
  · simp
  · intro k row hk
    have hk' : k < rows.length := (List.getElem?_eq_some_iff.mp hk).1
    refine ⟨?_, ?_, ?_⟩
    · rw [List.getElem?_map, List.getElem?_zipIdx, hk]; simp
    · rw [List.getElem?_map, List.getElem?_range hk']; rfl
    · intro j v hv
      have hj : j < labels.length := by
        have := (List.getElem?_eq_some_iff.mp hv).1
        rwa [hrow row (List.mem_of_getElem? hk)] at this
      have hfm : (rows.filterMap fun vs => vs[j]?) = rows.map fun vs => (vs[j]?).getD v := by
        have : ∀ rs : List (List Value), (∀ r ∈ rs, r.length = labels.length) → (rs.filterMap fun vs => vs[j]?) = rs.map fun vs => (vs[j]?).getD v := by
          intro rs
          induction rs with
          | nil => intro _; rfl
          | cons r rs ih =>
            intro hr
            have hjr : j < r.length := by rw [hr r (by simp)]; exact hj
            rw [List.filterMap_cons, List.getElem?_eq_getElem hjr]
            simp only [List.map_cons]
            rw [ih fun r' hr' => hr r' (by simp [hr']), List.getElem?_eq_getElem hjr, Option.getD_some]
        exact this rows hrow
      refine ⟨rows.map fun vs => (vs[j]?).getD v, ?_, by simp [hlen], ?_⟩
      · rw [List.getElem?_map, List.getElem?_zipIdx, List.getElem?_eq_getElem hj]
        simp [hfm]
      · rw [List.getElem?_map, hk, Option.map_some, hv, Option.getD_some]

/-- **C60, failure.** If a label cannot be sampled in a frame, nothing is returned - not even the frames before it -, and the
lines of exactly the frames before it have been written. -/
theorem C60_failing_frame (o : Opts) (dt : ℚ) (labels : List Label) (files rest : List (Record × InfoDict)) (rows : List (List Value))
    (h : List.Forall₂ (fun file vs => (frame o file >>= fun f => sampleLabels o f labels) = .ok vs) files rows)
    (bad : Record × InfoDict) (f : Flow) (e : Err) (hf : frame o bad = .ok f) (hs : sampleLabels o f labels = .error e) :
    sampleAverage o dt labels (files ++ bad :: rest) = (rows.zipIdx.map fun r => ((r.2 : ℚ) * dt, r.1), .ok none) := by
  have key : ∀ k, loop o dt labels k (files ++ bad :: rest) = ⟨(rows.zipIdx k).map fun r => ((r.2 : ℚ) * dt, r.1), .ok none⟩ := by
    induction h with
    | nil =>
      intro k
      rw [List.nil_append]
      unfold loop
      rw [hf]
      simp only
      rw [hs]
      rfl
    | cons h1 _ ih =>
      intro k
      obtain ⟨g, hg, hv⟩ := Simple.bind_eq_ok h1
      rw [List.cons_append]
      unfold loop
      rw [hg]
      simp only
      rw [hv]
      simp only
      rw [ih (k + 1)]
      rfl
  unfold sampleAverage
  rw [key 0]
  rfl

/-- **C60, labels** (the slip length not sampled after the viscous dissipation).  The samples of a frame are what each label gives
when it is sampled alone.  Missing: `slip_length` after `visc_diss`, for which the claim fails (`C60_slip_length_after_dissipation`). -/
theorem C60_labels_are_independent_partial (o : Opts) (f : Flow) (hw : Wf f.data) (hF : ∀ l ∈ fields, l ∈ names f.data) (ls : List Label)
    (hs : ∀ a b, ls = a ++ "visc_diss" :: b → "slip_length" ∉ b) :
    sampleLabels o f ls = ls.mapM fun l => (sampleLabel o f l).map Prod.snd := by
  have hX := hF "X" (by decide)
  have hY := hF "Y" (by decide)
  induction ls with
  | nil => rfl
  | cons l ls ih =>
    rw [sampleLabels_cons, List.mapM_cons]
    cases hr : sampleLabel o f l with
    | error e => rfl
    | ok r =>
      obtain ⟨g, v⟩ := r
      rw [Gmx.ok_bind]
      simp only
      have : sampleLabels o g ls = ls.mapM fun l => (sampleLabel o f l).map Prod.snd := by
        rcases sampleLabel_flow o hr with rfl | ⟨rfl, hsg⟩
        · exact ih fun a b e => hs (l :: a) b (by rw [e]; rfl)
        · rw [sort_reordered hX hY] at hsg
          cases hsg
          exact sampleLabels_reordered o hw hF ls _ (argsort_perm _ _) (hs [] ls rfl)
      rw [this]
      rfl

/-- **C60, order of the bins.** No sample except the slip length depends on the order of the bins in the file. -/
theorem C60_order_of_bins (o : Opts) (f : Flow) (hw : Wf f.data) (hF : ∀ l ∈ fields, l ∈ names f.data) (idx : List ℕ)
    (h : idx.Perm (List.range (Flow.size f.data))) (l : Label) (hl : l ≠ "slip_length") :
    (sampleLabel o ⟨gather idx f.data, f.info⟩ l).map Prod.snd = (sampleLabel o f l).map Prod.snd :=
  sampleLabel_reordered o hw hF h l hl

/-- Fields of a record in order of the record. -/
theorem mapM_columns : ∀ (pre d : Record), (names (pre ++ d)).Nodup →
    (names d).mapM (fun l => (col? (pre ++ d) l).elim (.error .keyError) fun c => (.ok (Arg.tuple l c) : Except Err Arg)) = .ok (asArgs d) := by
  intro pre d
  induction d generalizing pre with
  | nil => intro _; rfl
  | cons c d ih =>
    intro h
    have hc : col? (pre ++ c :: d) c.1 = some c.2 := by
      unfold col?
      rw [List.lookup_append]
      have : pre.lookup c.1 = none := by
        rw [List.lookup_eq_none_iff]
        intro p hp
        simp only [names, List.map_append, List.map_cons, List.nodup_append, List.mem_map, List.mem_cons] at h
        have := h.2.2 p.1 ⟨p, hp, rfl⟩ c.1 (Or.inl rfl)
        rw [bne_iff_ne]
        exact fun e => this e.symm
      rw [this, Option.none_or]
      exact List.lookup_cons_self
    have := ih (pre ++ [c]) (by simpa using h)
    rw [List.append_assoc, List.singleton_append] at this
    rw [names, List.map_cons, List.mapM_cons, hc]
    rw [names] at this
    rw [this]
    rfl

/-- **C60, limits.** Without limits all bins of the file are sampled, with limits exactly those inside the closed rectangle (a missing
bound is the end of the system). -/
theorem C60_limits (o : Opts) (d : Record) (dict : InfoDict) (info : Info) (hn : names d = fields) (hw : Wf d) (hi : setInfo dict = .ok info) :
    (o.xlim = (none, none) → o.ylim = (none, none) → frame o (d, dict) = .ok ⟨d, info⟩) ∧
    (∀ (or s : ℚ × ℚ) (n : ℤ × ℤ), info.origin = some or → info.spacing = some s → info.shape = some n →
      (o.xlim ≠ (none, none) ∨ o.ylim ≠ (none, none)) →
      ∃ g, frame o (d, dict) = .ok g ∧ names g.data = fields ∧
        bins g.data = (bins d).filter fun b => decide
          (BinWithin "X" (some (o.xlim.1.getD or.1)) (some (o.xlim.2.getD (or.1 + n.1 * s.1))) b ∧
           BinWithin "Y" (some (o.ylim.1.getD or.2)) (some (o.ylim.2.getD (or.2 + n.2 * s.2))) b)) := by
  have hne : d ≠ [] := by rintro rfl; simp [names, fields] at hn
  have e : fields.mapM (fun l => (col? d l).elim (.error .keyError) fun c => (.ok (Arg.tuple l c) : Except Err Arg)) = .ok (asArgs d) := by
    rw [← hn]
    exact mapM_columns [] d (by simpa using hw.1)
  have hmk : Flow.mk (asArgs d) dict = .ok ⟨d, info⟩ := by
    unfold Flow.mk
    rw [setData_of_wf _ _ (collate_asArgs _) hne hw, hi]; rfl
  have hX : "X" ∈ names d := by rw [hn]; decide
  have hY : "Y" ∈ names d := by rw [hn]; decide
  constructor
  · intro h1 h2
    unfold frame
    simp only
    rw [e, Gmx.ok_bind, hmk, Gmx.ok_bind, if_neg (by simp [h1, h2])]
  · intro or s n ho hs hsh hl
    obtain ⟨g, xs, ys, hg, h1, -, h2, -⟩ := C14_cut ⟨d, info⟩ hw hX hY or s n ho hs hsh o.xlim o.ylim
    refine ⟨g, ?_, by rw [h1, hn], h2⟩
    unfold frame
    simp only
    rw [e, Gmx.ok_bind, hmk, Gmx.ok_bind, if_pos hl, hg]

example : (frame { ylim := (some (1 / 2), none) } ([("X", [0, 0]), ("Y", [0, 1]), ("U", [1, 2]), ("V", [3, 4]), ("M", [5, 6]), ("N", [7, 8]), ("T", [9, 10])],
    [("shape", pairVal (some (1, 2))), ("origin", pairVal (some (0, 0))), ("spacing", pairVal (some (1, 1)))])).toOption.map (fun g => bins g.data) =
    some [[("X", 0), ("Y", 1), ("U", 2), ("V", 4), ("M", 6), ("N", 8), ("T", 10)]] := by decide +kernel

theorem rows_eq (o : Opts) (f : Flow) (hw : Wf f.data) (x : ℚ) (hc : ∀ c, o.cutoffLabel = some c → ∃ col, col? f.data c = some col ∧ cutoffOf col o.cutoff = .ok x) :
    ∃ p : ℕ → Bool, rows o f = .ok ((List.range (Flow.size f.data)).filter p) ∧ (range (Flow.size f.data)).filter (fun t => p t = true) = atOrAbove f o.cutoffLabel x := by
  unfold rows atOrAbove
  cases hcl : o.cutoffLabel with
  | none => exact ⟨fun _ => true, by simp, by simp⟩
  | some c =>
    obtain ⟨col, h1, h2⟩ := hc c hcl
    refine ⟨fun t => decide (x ≤ col.getD t 0), ?_, ?_⟩
    · simp only
      unfold field
      rw [h1]
      simp only
      rw [Gmx.ok_bind, h2, Gmx.ok_bind]
      unfold whereIdx
      rw [col?_length hw h1]
    · refine filter_congr fun t _ => ?_
      simp [val_of_col h1]

/-- The cutoff used: the given one, or the midpoint between the least and the greatest value. -/
def IsCutoff (o : Opts) (f : Flow) (x : ℚ) : Prop :=
  ∀ c, o.cutoffLabel = some c → ∃ col, col? f.data c = some col ∧
    (o.cutoff = some x ∨ o.cutoff = none ∧ ∃ lo ∈ col, ∃ hi ∈ col, (∀ v ∈ col, lo ≤ v ∧ v ≤ hi) ∧ x = (lo + hi) / 2)

theorem cutoff_of (o : Opts) (f : Flow) (x : ℚ) (h : IsCutoff o f x) (c : Label) (hc : o.cutoffLabel = some c) :
    ∃ col, col? f.data c = some col ∧ cutoffOf col o.cutoff = .ok x := by
  obtain ⟨col, h1, h2⟩ := h c hc
  refine ⟨col, h1, ?_⟩
  rcases h2 with h2 | ⟨h2, lo, hlo, hi, hhi, hall, rfl⟩
  · rw [h2]; rfl
  · rw [h2]
    unfold cutoffOf
    rw [(npMax_ok_iff col hi).mpr ⟨hhi, fun v hv => (hall v hv).2⟩, (npMin_ok_iff col lo).mpr ⟨hlo, fun v hv => (hall v hv).1⟩]
    show Except.ok (1 / 2 * (hi + lo)) = _
    congr 1
    ring

theorem getD_map_some (c : List ℚ) (s : ℕ) (hs : s < c.length) : (c.map some).getD s none = some (c.getD s 0) := by
  rw [List.getD_eq_getElem?_getD, List.getElem?_eq_getElem (by rw [List.length_map]; exact hs), Option.getD_some, List.getElem_map,
    List.getD_eq_getElem?_getD, List.getElem?_eq_getElem hs, Option.getD_some]

/-- **C60, statistics of a field.** Sum, or mean and standard deviation, are taken over exactly the bins at or above the cutoff. -/
theorem C60_statistics_of_field (o : Opts) (f : Flow) (hw : Wf f.data) (l : Label) (hl : l ∈ names f.data)
    (hn : l ∉ ["inertial_energy", "visc_diss", "flow_angle", "slip_length"]) (x : ℚ) (hx : IsCutoff o f x) :
    sampleLabel o f l = .ok (f, stats o.sum (atOrAbove f o.cutoffLabel x) (val f.data l)) := by
  simp only [List.mem_cons, List.not_mem_nil, or_false, not_or] at hn
  obtain ⟨c, hc, hc'⟩ := Sample.field_ok hl
  obtain ⟨p, hp1, hp2⟩ := rows_eq o f hw x (cutoff_of o f x hx)
  unfold sampleLabel sampleValue sampleData
  rw [if_neg hn.2.2.2, if_neg hn.2.2.1, if_neg hn.1, if_neg hn.2.1, hc', Gmx.ok_bind, Gmx.ok_bind]
  simp only
  rw [hp1, Gmx.ok_bind, statistics_eq o _ p _ (val f.data l) (fun t ht => by
    rw [getD_map_some _ _ (by rw [col?_length hw hc]; exact ht), val_of_col hc]), hp2]

/-- **C60, statistics of the inertial energy.** -/
theorem C60_statistics_of_inertial_energy (o : Opts) (f : Flow) (hw : Wf f.data) (hF : ∀ l ∈ fields, l ∈ names f.data) (x : ℚ) (hx : IsCutoff o f x) :
    sampleLabel o f "inertial_energy" = .ok (f, stats o.sum (atOrAbove f o.cutoffLabel x) fun t =>
      val f.data "M" t * (val f.data "U" t ^ 2 + val f.data "V" t ^ 2) / 2) := by
  obtain ⟨p, hp1, hp2⟩ := rows_eq o f hw x (cutoff_of o f x hx)
  obtain ⟨e, h1, h2, h3⟩ := C41_inertial_energy f "M" "U" "V" hw (hF _ (by decide)) (hF _ (by decide)) (hF _ (by decide))
  unfold sampleLabel sampleValue sampleData
  rw [if_neg (by decide), if_neg (by decide), if_pos rfl, h1, Gmx.ok_bind, Gmx.ok_bind]
  simp only
  rw [hp1, Gmx.ok_bind, statistics_eq o _ p _ (fun t => val f.data "M" t * (val f.data "U" t ^ 2 + val f.data "V" t ^ 2) / 2) (fun t ht => by
    rw [getD_map_some _ _ (by rw [h2]; exact ht), (h3 t ht).1]), hp2]

/-- **C60, flow angle.** The angle of the summed momentum of the bins at or above the cutoff; the sum of angles is refused. -/
theorem C60_flow_angle (o : Opts) (f : Flow) (hw : Wf f.data) (hF : ∀ l ∈ fields, l ∈ names f.data) (x : ℚ) (hx : IsCutoff o f x) (U V : ℚ)
    (hU : U = ∑ t ∈ atOrAbove f o.cutoffLabel x, val f.data "U" t * val f.data "M" t)
    (hV : V = ∑ t ∈ atOrAbove f o.cutoffLabel x, val f.data "V" t * val f.data "M" t) :
    (o.sum = true → sampleLabel o f "flow_angle" = .error .valueError) ∧
    (o.sum = false → ∃ θ, sampleLabel o f "flow_angle" = .ok (f, .angle θ) ∧ (U ≠ 0 ∨ V ≠ 0 → IsAngle U V θ) ∧ (U = 0 → V = 0 → θ = 0)) := by
  obtain ⟨p, hp1, hp2⟩ := rows_eq o f hw x (cutoff_of o f x hx)
  unfold sampleLabel sampleValue
  rw [if_neg (by decide), if_pos rfl, hp1, Gmx.ok_bind]
  constructor
  · intro h; rw [h]; rfl
  · intro h
    rw [h]
    simp only [Bool.false_eq_true, if_false]
    rw [angleOf_eq hw (hF _ (by decide)) (hF _ (by decide)) (hF _ (by decide)), filter_sum, filter_sum, hp2, ← hU, ← hV]
    refine ⟨_, rfl, fun hne => isAngle_arctan2 _ _ hne, ?_⟩
    rintro rfl rfl
    rw [arctan2_zero]
    simp [degrees]

/-- **C60**: a cutoff without a cutoff label has no effect. -/
theorem C60_cutoff_needs_label (o : Opts) (h : o.cutoffLabel = none) (x : Option ℚ) (f : Flow) (ls : List Label) :
    sampleLabels { o with cutoff := x } f ls = sampleLabels o f ls := by
  have hr : ∀ g, rows { o with cutoff := x } g = rows o g := by intro g; unfold rows; simp only [h]
  have hl : ∀ g l, sampleLabel { o with cutoff := x } g l = sampleLabel o g l := by
    intro g l
    unfold sampleLabel sampleValue
    simp only [hr]
    rfl
  induction ls generalizing f with
  | nil => rfl
  | cons l ls ih =>
    rw [sampleLabels_cons, sampleLabels_cons, hl]
    simp only [ih]

/-! ## C61 -/

theorem avg_range (n : ℕ) (f : ℕ → ℚ) : avg ((List.range n).map f) = (∑ j ∈ range n, f j) / (n : ℚ) := by
  unfold avg
  rw [list_sum_range, List.length_map, List.length_range]

theorem deviations_ne (n : ℕ) (y : ℕ → ℚ) (m : ℚ) (h : ∃ j k, j < n ∧ k < n ∧ y j ≠ y k) : ∑ j ∈ range n, (y j - m) ^ 2 ≠ 0 := by
  obtain ⟨j, k, hj, hk, hne⟩ := h
  intro e
  have := (sum_eq_zero_iff_of_nonneg (fun i _ => sq_nonneg (y i - m))).mp e
  have h1 := this j (mem_range.mpr hj)
  have h2 := this k (mem_range.mpr hk)
  rw [sq_eq_zero_iff] at h1 h2
  apply hne
  linarith

theorem linregress_linear (n : ℕ) (y : ℕ → ℚ) (a z : ℚ) (ha : a ≠ 0) (h : ∃ j k, j < n ∧ k < n ∧ y j ≠ y k) :
    linregress ((List.range n).map fun j => a * (y j - z)) ((List.range n).map y) = .ok (1 / a, z) := by
  have hn : (n : ℚ) ≠ 0 := by
    obtain ⟨j, k, hj, -⟩ := h
    exact_mod_cast (by omega : n ≠ 0)
  have hD := deviations_ne n y (avg ((List.range n).map y)) h
  have hu : avg ((List.range n).map fun j => a * (y j - z)) = a * (avg ((List.range n).map y) - z) := by
    rw [avg_range, avg_range, ← mul_sum, sum_sub_distrib, sum_const, card_range, nsmul_eq_mul]
    field_simp
  unfold linregress
  rw [hu]
  set m := avg ((List.range n).map y)
  have e1 : (((List.range n).map fun j => a * (y j - z)).map fun u => (u - a * (m - z)) ^ 2).sum = a ^ 2 * ∑ j ∈ range n, (y j - m) ^ 2 := by
    rw [List.map_map, list_sum_range, mul_sum]
    refine sum_congr rfl fun j _ => ?_
    simp only [Function.comp]
    ring
  have e2 : (List.zipWith (fun u y => (u - a * (m - z)) * (y - m)) ((List.range n).map fun j => a * (y j - z)) ((List.range n).map y)).sum =
      a * ∑ j ∈ range n, (y j - m) ^ 2 := by
    rw [SimpleAverage.zipWith_map_range, list_sum_range, mul_sum]
    refine sum_congr rfl fun j _ => ?_
    ring
  simp only
  rw [e1, e2, if_neg (mul_ne_zero (pow_ne_zero 2 ha) hD)]
  have hs : a * (∑ j ∈ range n, (y j - m) ^ 2) / (a ^ 2 * ∑ j ∈ range n, (y j - m) ^ 2) = 1 / a := by field_simp
  rw [hs]
  congr 2
  field_simp
  ring

theorem column_eq {f : Flow} (l : Label) {c : List ℚ} (hc : col? f.data l = some c) (ny i : ℕ) :
    column ny c i = (List.range ny).map fun j => val f.data l (i * ny + j) := by
  unfold column
  refine List.map_congr_left fun j _ => ?_
  rw [val_of_col hc]

/-- **C61.** If in every column, of at least two different heights, the flow is linear in the height and vanishes at `z i`, the slip length of column `i`
is the distance of `z i` below the floor, and their mean is returned together with their standard deviation. -/
theorem C61_linear_profiles (f : Flow) (floor : ℚ) (nx ny : ℕ) (hs : f.info.shape = some ((nx : ℤ), (ny : ℤ))) (hn : Flow.size f.data = nx * ny)
    (hY : "Y" ∈ names f.data) (hU : "U" ∈ names f.data) (a z : ℕ → ℚ)
    (h : ∀ i, i < nx → LinearColumn f ny i (a i) (z i) ∧ a i ≠ 0 ∧ ∃ j k, j < ny ∧ k < ny ∧ val f.data "Y" (i * ny + j) ≠ val f.data "Y" (i * ny + k)) :
    slipLengths floor f = .ok ((List.range nx).map fun i => floor - z i) ∧
    slipLength floor f = .ok (stats false (range nx) fun i => floor - z i) := by
  obtain ⟨ys, hy1, hy2⟩ := Sample.field_ok hY
  obtain ⟨us, hu1, hu2⟩ := Sample.field_ok hU
  have e : slipLengths floor f = .ok ((List.range nx).map fun i => floor - z i) := by
    unfold slipLengths
    rw [hs]
    simp only
    rw [if_neg (by push Not; exact ⟨by omega, by omega, by rw [hn]; push_cast; ring⟩), hy2, Gmx.ok_bind, hu2, Gmx.ok_bind]
    simp only [Int.toNat_natCast]
    refine mapM_ok' _ _ _ ?_
    intro i hi
    obtain ⟨hl, ha, hne⟩ := h i (List.mem_range.mp hi)
    rw [column_eq "U" hu1, column_eq "Y" hy1]
    have : ((List.range ny).map fun j => val f.data "U" (i * ny + j)) = (List.range ny).map fun j => a i * (val f.data "Y" (i * ny + j) - z i) :=
      List.map_congr_left fun j hj => hl j (List.mem_range.mp hj)
    rw [this, linregress_linear ny (fun j => val f.data "Y" (i * ny + j)) (a i) (z i) ha hne, Gmx.ok_bind]
    simp only
    congr 1
    ring
  refine ⟨e, ?_⟩
  unfold slipLength
  rw [e, Gmx.ok_bind]
  have := statistics_eq {} nx (fun _ => true) (((List.range nx).map fun i => floor - z i).map some) (fun i => floor - z i) (fun t ht => by
    rw [getD_map_some _ _ (by simpa using ht), List.getD_eq_getElem?_getD, List.getElem?_eq_getElem (by simpa using ht)]
    simp)
  simp only [filter_true, List.filter_true] at this
  rw [← this]
  unfold statistics
  simp only [Bool.false_eq_true, if_false]
  have e3 : ((List.range nx).map fun t => (((List.range nx).map fun i => floor - z i).map some).getD t none) = ((List.range nx).map fun i => floor - z i).map some := by
    rw [List.map_map]
    refine List.map_congr_left fun t ht => ?_
    have ht := List.mem_range.mp ht
    rw [List.getD_eq_getElem?_getD, List.getElem?_eq_getElem (by simpa using ht)]
    simp
  rw [e3]

theorem avg_scale (c : ℚ) (l : List ℚ) : avg (l.map fun u => c * u) = c * avg l := by
  unfold avg
  rw [List.sum_map_mul_left, List.length_map]
  simp only [List.map_id']
  ring

theorem linregress_scale (c : ℚ) (hc : c ≠ 0) (us ys : List ℚ) :
    linregress (us.map fun u => c * u) ys = (linregress us ys).map fun r => (r.1 / c, r.2) := by
  unfold linregress
  rw [avg_scale]
  simp only
  have e1 : ((us.map fun u => c * u).map fun u => (u - c * avg us) ^ 2).sum = c ^ 2 * (us.map fun u => (u - avg us) ^ 2).sum := by
    rw [List.map_map, ← List.sum_map_mul_left]
    congr 1
    refine List.map_congr_left fun u _ => ?_
    simp only [Function.comp]
    ring
  have e2 : (List.zipWith (fun u y => (u - c * avg us) * (y - avg ys)) (us.map fun u => c * u) ys).sum =
      c * (List.zipWith (fun u y => (u - avg us) * (y - avg ys)) us ys).sum := by
    have : ∀ (a b : List ℚ) (p q : ℚ), (List.zipWith (fun u y => (u - c * p) * (y - q)) (a.map fun u => c * u) b).sum =
        c * (List.zipWith (fun u y => (u - p) * (y - q)) a b).sum := by
      intro a
      induction a with
      | nil => intros; simp
      | cons u a ih =>
        intro b p q
        cases b with
        | nil => simp
        | cons y b =>
          simp only [List.map_cons, List.zipWith_cons_cons, List.sum_cons]
          rw [ih]
          ring
    exact this us ys _ _
  rw [e1, e2]
  by_cases hd : (us.map fun u => (u - avg us) ^ 2).sum = 0
  · rw [if_pos hd, if_pos (by rw [hd, mul_zero])]; rfl
  · rw [if_neg hd, if_neg (mul_ne_zero (pow_ne_zero 2 hc) hd)]
    simp only [Except.map]
    have : c * (List.zipWith (fun u y => (u - avg us) * (y - avg ys)) us ys).sum / (c ^ 2 * (us.map fun u => (u - avg us) ^ 2).sum) =
        (List.zipWith (fun u y => (u - avg us) * (y - avg ys)) us ys).sum / (us.map fun u => (u - avg us) ^ 2).sum / c := by
      field_simp
    rw [this]
    congr 2
    field_simp

/-- **C61, units of the flow.** Multiplying the flow of all bins by a number other than 0 does not change the slip lengths of
any map. -/
theorem C61_scaling (f g : Flow) (floor c : ℚ) (hc : c ≠ 0) (hi : g.info = f.info) (hs : Flow.size g.data = Flow.size f.data) (ys us : List ℚ)
    (h1 : col? f.data "Y" = some ys) (h2 : col? f.data "U" = some us) (h3 : col? g.data "Y" = some ys) (h4 : col? g.data "U" = some (us.map fun u => c * u)) :
    slipLengths floor g = slipLengths floor f := by
  unfold slipLengths field
  rw [hi, hs, h1, h2, h3, h4]
  cases f.info.shape with
  | none => rfl
  | some sh =>
    simp only [Gmx.ok_bind]
    congr 1
    refine Simple.mapM_congr' _ _ _ fun i _ => ?_
    have : column sh.2.toNat (us.map fun u => c * u) i = (column sh.2.toNat us i).map fun u => c * u := by
      unfold column
      rw [List.map_map]
      refine List.map_congr_left fun j _ => ?_
      simp only [Function.comp, List.getD_eq_getElem?_getD, List.getElem?_map]
      cases us[i * sh.2.toNat + j]? <;> simp
    rw [this, linregress_scale c hc]
    cases linregress (column sh.2.toNat us i) (column sh.2.toNat ys i) <;> rfl

/-! ## Examples -/

/-- Three columns of three bins; the flow vanishes at height -1. -/
def exS : Flow := ⟨[("X", [0, 0, 0, 1, 1, 1, 2, 2, 2]), ("Y", [0, 1, 2, 0, 1, 2, 0, 1, 2]), ("U", [1, 2, 3, 2, 4, 6, 3, 6, 9]),
  ("V", [0, 0, 0, 0, 0, 0, 0, 0, 0]), ("M", [1, 1, 1, 1, 2, 1, 1, 1, 1]), ("N", [1, 1, 1, 1, 1, 1, 1, 1, 1]), ("T", [1, 1, 1, 1, 1, 1, 1, 1, 1])],
  { shape := some (3, 3), spacing := some (1, 1) }⟩

/-- It meets the hypotheses of `C61_linear_profiles`, `C60_labels_are_independent_partial` and the statistics theorems (cutoff 3/2 by mass). -/
example : (∀ i : ℕ, i < 3 → LinearColumn exS 3 i (i + 1) (-1) ∧ ((i : ℚ) + 1) ≠ 0 ∧ ∃ j k, j < 3 ∧ k < 3 ∧ val exS.data "Y" (i * 3 + j) ≠ val exS.data "Y" (i * 3 + k)) ∧
    Wf exS.data ∧ (∀ l ∈ fields, l ∈ names exS.data) ∧ slipLengths 0 exS = .ok [1, 1, 1] ∧ IsCutoff { cutoffLabel := some "M" } exS (3 / 2) := by
  refine ⟨?_, ⟨by decide, by decide⟩, by decide, by decide +kernel, ?_⟩
  · intro i hi
    have h1 : ∀ i : ℕ, i < 3 → ∀ j : ℕ, j < 3 → val exS.data "U" (i * 3 + j) = (i + 1) * (val exS.data "Y" (i * 3 + j) - -1) := by decide +kernel
    have h2 : ∀ i : ℕ, i < 3 → val exS.data "Y" (i * 3 + 0) ≠ val exS.data "Y" (i * 3 + 1) := by decide +kernel
    exact ⟨fun j hj => h1 i hi j hj, by positivity, 0, 1, by omega, by omega, h2 i hi⟩
  · intro c hc
    cases hc
    exact ⟨_, rfl, .inr ⟨rfl, 1, by decide, 2, by decide, by decide +kernel, by norm_num⟩⟩

/-- **C60 fails** for the slip length after the viscous dissipation: sampled alone the slip length of the map is 1, after the
dissipation, which sorts the bins in place, it is -1. -/
theorem C60_slip_length_after_dissipation :
    sampleLabels {} exS ["slip_length"] = .ok [.number (some 1) (some (some 0))] ∧
    ∃ v, sampleLabels {} exS ["visc_diss", "slip_length"] = .ok [v, .number (some (-1)) (some (some (2 / 3)))] := by
  have slip : ∀ (g : Flow) (ls : List ℚ) (m v : ℚ), slipLengths 0 g = .ok ls → mean (ls.map some) = some m → var (ls.map some) = some v →
      sampleLabel {} g "slip_length" = .ok (g, .number (some m) (some (some v))) := by
    intro g ls m v h1 h2 h3
    unfold sampleLabel slipLength
    rw [if_pos rfl]
    show (slipLengths 0 g >>= fun ls => .ok (Value.number (mean (ls.map some)) (some (var (ls.map some))))) >>= (fun w => Except.ok (g, w)) = _
    rw [h1, Gmx.ok_bind, h2, h3]
    rfl
  constructor
  · rw [sampleLabels_cons, slip exS [1, 1, 1] 1 0 (by decide +kernel) (by decide +kernel) (by decide +kernel)]
    rfl
  · have hv : ∃ v, sampleLabel {} exS "visc_diss" = .ok (reordered (argsort exS.data ["Y", "X"]) exS, v) := by
      have h1 : (viscousDissipation exS (877 / 1000000)).map Prod.fst = .ok (reordered (argsort exS.data ["Y", "X"]) exS) := by decide +kernel
      cases hd : viscousDissipation exS (877 / 1000000) with
      | error e => rw [hd] at h1; cases h1
      | ok r =>
        obtain ⟨g, d⟩ := r
        rw [hd] at h1
        have hg : g = reordered (argsort exS.data ["Y", "X"]) exS := by
          simp only [Except.map, Except.ok.injEq] at h1
          exact h1
        refine ⟨statistics {} (List.range (Flow.size g.data)) d, ?_⟩
        unfold sampleLabel sampleValue sampleData
        rw [if_neg (by decide), if_neg (by decide), if_neg (by decide), if_pos rfl]
        show (viscousDissipation exS (877 / 1000000) >>= _) = _
        rw [hd, Gmx.ok_bind, hg]
        rfl
    obtain ⟨v, hv⟩ := hv
    refine ⟨v, ?_⟩
    rw [sampleLabels_cons, hv, Gmx.ok_bind, sampleLabels_cons,
      slip (reordered (argsort exS.data ["Y", "X"]) exS) [0, -1, -2] (-1) (2 / 3) (by decide +kernel) (by decide +kernel) (by decide +kernel)]
    rfl

/-- Two files, the second of which has no shape: the first line is written, nothing is returned (`C60_failing_frame`). -/
example : ∃ f g, frame {} (exS.data, [("shape", .tuple [some 3, some 3])]) = .ok f ∧ frame {} (exS.data, []) = .ok g ∧
    slipLengths 0 f = .ok [1, 1, 1] ∧ slipLengths 0 g = .error .typeError :=
  ⟨⟨exS.data, { shape := some (3, 3) }⟩, ⟨exS.data, {}⟩, by decide +kernel, by decide +kernel, by decide +kernel, by decide +kernel⟩

end Strata.SampleSeries
