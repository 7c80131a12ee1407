import Verif.Proofs.ViewMap
/-!
# Height maps and contour maps: C94, C95, C96
-/
namespace Strata.View
open Strata Strata.Flow Strata.Average Strata.Resample Strata.Sample

/-! ## C94 -/

/-- Labels other than 'visc_diss' are drawn under their own name. -/
theorem addFields_label {label : Label} (h : label ≠ "visc_diss") {f : Flow} {l : Label} {s : Shown} (hs : addFields label f = .ok (l, s)) : l = label := by
  unfold addFields at hs
  split_ifs at hs with h1 h3 h4
  · obtain ⟨c, -, hs⟩ := Simple.bind_eq_ok hs
    cases hs
    exact h1.symm
  · obtain ⟨c, -, hs⟩ := Simple.bind_eq_ok hs
    cases hs
    exact h3.symm
  · obtain ⟨c, -, hs⟩ := Simple.bind_eq_ok hs
    cases hs
    rfl
  · cases hs
    rfl

theorem viewOne_label {k : Kind} {o : MapOpts} {label : Label} (h : label ≠ "visc_diss") {f : Flow} {l : Label} {d : Drawing}
    (hd : viewOne k o label f = .ok (l, d)) : l = label := by
  unfold viewOne at hd
  obtain ⟨⟨l', s⟩, h1, hd⟩ := Simple.bind_eq_ok hd
  simp only at hd
  obtain ⟨s', -, hd⟩ := Simple.bind_eq_ok hd
  have hl := addFields_label h h1
  cases k
  · simp only at hd
    obtain ⟨d', -, hd⟩ := Simple.bind_eq_ok hd
    cases hd
    exact hl
  · simp only at hd
    obtain ⟨d', -, hd⟩ := Simple.bind_eq_ok hd
    cases hd
    exact hl

/-- **C94, all quantities but one.** For every label other than 'visc_diss' each map is drawn as if it was the only one: the call
draws all maps up to the first that cannot be drawn alone, and ends with the error of that one.
(Missing: the label 'visc_diss', for which this is false, `C94_dissipation_counterexample`.) -/
theorem C94_each_map_partial (label : Label) (hl : label ≠ "visc_diss") (type : String) (o : MapOpts) (maps : List Flow) (drawings : List Drawing) :
    (List.Forall₂ (fun f d => viewMaps [f] label type o = ([d], .ok ())) maps drawings → (maps ≠ [] ∨ type = "height" ∨ type = "contour") →
      viewMaps maps label type o = (drawings, .ok ())) ∧
    (∀ f after e, List.Forall₂ (fun f d => viewMaps [f] label type o = ([d], .ok ())) maps drawings → viewMaps [f] label type o = ([], .error e) →
      viewMaps (maps ++ f :: after) label type o = (drawings, .error e)) := by
  unfold viewMaps
  cases hk : kindOf type with
  | error e0 =>
    simp only
    constructor
    · intro h hne
      cases h with
      | nil =>
        unfold kindOf at hk
        rcases hne with h | h | h
        · exact absurd rfl h
        · simp [h] at hk
        · simp [h] at hk
      | cons h _ => simp at h
    · intro f after e h he
      cases h with
      | nil => exact he
      | cons h _ => simp at h
  | ok k =>
    simp only
    have one : ∀ f d, viewLoop k o label [f] = ([d], .ok ()) → viewOne k o label f = .ok (label, d) := by
      intro f d h
      rw [viewLoop] at h
      cases hv : viewOne k o label f with
      | error e => rw [hv] at h; simp at h
      | ok p =>
        obtain ⟨l, d'⟩ := p
        rw [hv] at h
        simp only [viewLoop, Prod.mk.injEq, List.cons.injEq, and_true] at h
        rw [h, viewOne_label hl hv]
    have bad : ∀ f e, viewLoop k o label [f] = ([], .error e) → viewOne k o label f = .error e := by
      intro f e h
      rw [viewLoop] at h
      cases hv : viewOne k o label f with
      | error e' => rw [hv] at h; simp at h; rw [h]
      | ok p => rw [hv] at h; simp at h
    constructor
    · intro h hne
      clear hne
      induction h with
      | nil => rfl
      | cons h _ ih => rw [viewLoop, one _ _ h]; simp only [ih]
    · intro f after e h he
      induction h with
      | nil => rw [List.nil_append, viewLoop, bad f e he]
      | cons h _ ih => rw [List.cons_append, viewLoop, one _ _ h]; simp only [ih]

/-- **C94, the viscous dissipation.** With the label 'visc_diss' the second map is never drawn: whatever the maps are (without a
field named 'visc' already), the call draws at most the first one and ends with an error. -/
theorem C94_dissipation_counterexample (type : String) (o : MapOpts) (hc : o.cutoff = none ∨ o.cutoffLabel = none) (f g : Flow) (after : List Flow)
    (hg : "visc" ∉ names g.data) :
    (viewMaps (f :: g :: after) "visc_diss" type o).1.length ≤ 1 ∧ ∃ e, (viewMaps (f :: g :: after) "visc_diss" type o).2 = .error e := by
  unfold viewMaps
  cases hk : kindOf type with
  | error e => exact ⟨by simp, e, rfl⟩
  | ok k =>
    simp only
    rw [viewLoop]
    cases hv : viewOne k o "visc_diss" f with
    | error e => exact ⟨by simp, e, rfl⟩
    | ok p =>
      obtain ⟨l, d⟩ := p
      have hl : l = "visc" := by
        unfold viewOne at hv
        obtain ⟨⟨l', s⟩, h1, hd⟩ := Simple.bind_eq_ok hv
        simp only at hd
        obtain ⟨s', -, hd⟩ := Simple.bind_eq_ok hd
        have hl' : l' = "visc" := by
          unfold addFields at h1
          rw [if_neg (by decide), if_pos rfl] at h1
          obtain ⟨⟨g', c⟩, -, h1⟩ := Simple.bind_eq_ok h1
          simp only at h1
          obtain ⟨-, -, h1⟩ := Simple.bind_eq_ok h1
          cases h1
          rfl
        cases k
        · simp only at hd
          obtain ⟨d', -, hd⟩ := Simple.bind_eq_ok hd
          cases hd
          exact hl'
        · simp only at hd
          obtain ⟨d', -, hd⟩ := Simple.bind_eq_ok hd
          cases hd
          exact hl'
      subst hl
      simp only
      have hval : Shown.values ⟨g.data, []⟩ "visc" = .error .valueError := by
        unfold Shown.values
        have : col? g.data "visc" = none := by
          cases h : col? g.data "visc" with
          | none => rfl
          | some c => exact absurd ((col?_isSome_iff _ _).mp ⟨c, h⟩) hg
        rw [this]
        rfl
      have hcut : applyCutoff o.cutoffLabel o.cutoff ⟨g.data, []⟩ = .ok ⟨g.data, []⟩ := by
        unfold applyCutoff
        rcases hc with h | h
        · rw [h]; cases o.cutoffLabel <;> rfl
        · rw [h]
      have hadd : addFields "visc" g = .ok ("visc", ⟨g.data, []⟩) := by
        unfold addFields
        rw [if_neg (by decide), if_neg (by decide), if_neg (by decide), if_neg (by decide)]
      have herr : ∃ e, viewOne k o "visc" g = .error e := by
        unfold viewOne
        rw [hadd, Gmx.ok_bind]
        simp only
        rw [hcut, Gmx.ok_bind]
        cases k
        · simp only
          unfold drawHeight
          cases field g.data o.coords.1 with
          | error e => exact ⟨e, rfl⟩
          | ok xs =>
            cases field g.data o.coords.2 with
            | error e => exact ⟨e, rfl⟩
            | ok ys => exact ⟨.valueError, by rw [Gmx.ok_bind, Gmx.ok_bind, hval]; rfl⟩
        · simp only
          unfold drawContour
          exact ⟨.valueError, by rw [hval]; rfl⟩
      obtain ⟨e, he⟩ := herr
      rw [viewLoop, he]
      exact ⟨by simp, e, rfl⟩

/-- **C94, the default type.** Without the argument `type`, and with every other type than 'height' and 'contour', nothing is drawn and
`TypeError` is raised, even for no maps. -/
theorem C94_default_type (maps : List Flow) (label : Label) (o : MapOpts) :
    viewMaps maps label (o := o) = ([], .error .typeError) ∧
    ∀ type, type ≠ "height" → type ≠ "contour" → viewMaps maps label type o = ([], .error .typeError) := by
  have h : ∀ type, type ≠ "height" → type ≠ "contour" → viewMaps maps label type o = ([], .error .typeError) := by
    intro type h1 h2
    unfold viewMaps kindOf
    rw [if_neg h1, if_neg h2]
  exact ⟨h "heightmap" (by decide) (by decide), h⟩

/-! ## C95 -/

theorem entry_map_range {V : Type} (d : V) (nx ny : ℕ) (F : ℕ → ℕ → V) {i j : ℕ} (hi : i < nx) (hj : j < ny) :
    entry d ((List.range nx).map fun i : ℕ => (List.range ny).map fun j : ℕ => F i j) i j = F i j := by
  unfold entry
  simp [List.getD_eq_getElem?_getD, hi, hj]

/-- Height maps of some of the rows of a full grid that include bins of its outermost lines. -/
theorem drawHeight_rows (o : MapOpts) (info : Info) (s : Shown) (label : Label) (r : Record) (w : ℕ → Option ℝ) (idx : List ℕ) {sp : ℚ × ℚ} {x0 y0 : ℚ} {nx ny : ℕ}
    (hg : FullGrid r sp x0 y0 nx ny o.coords) (hx : 0 < sp.1) (hy : 0 < sp.2) (hsh : info.shape = some ((nx : ℤ), (ny : ℤ)))
    (hxs : field s.base o.coords.1 = .ok (idx.map (val r o.coords.1))) (hys : field s.base o.coords.2 = .ok (idx.map (val r o.coords.2)))
    (hws : s.values label = .ok (idx.map w)) (hnd : idx.Nodup) (hlt : ∀ t ∈ idx, t < Flow.size r)
    (hl : ∃ t ∈ idx, val r o.coords.1 t = x0) (hr : ∃ t ∈ idx, val r o.coords.1 t = x0 + sp.1 * ((nx - 1 : ℕ) : ℚ))
    (hb : ∃ t ∈ idx, val r o.coords.2 t = y0) (ht : ∃ t ∈ idx, val r o.coords.2 t = y0 + sp.2 * ((ny - 1 : ℕ) : ℚ)) :
    ∃ cells, drawHeight o info s label = .ok (.height cells) ∧ cells.length = nx ∧ (∀ c ∈ cells, c.length = ny) ∧
      ∀ i j t, i < nx → j < ny → t < Flow.size r → val r o.coords.1 t = x0 + sp.1 * (i : ℚ) → val r o.coords.2 t = y0 + sp.2 * (j : ℚ) →
        entry none cells i j = blank o.clim (if t ∈ idx then w t else some 0) := by
  have hgrid : OnGrid sp x0 y0 nx ny (idx.map (val r o.coords.1)) (idx.map (val r o.coords.2)) := by
    refine ⟨hx, hy, hg.nxpos, hg.nypos, by simp, ?_, ?_, ?_, ?_, ?_, ?_⟩
    · intro x hxm
      obtain ⟨t, h1, rfl⟩ := List.mem_map.mp hxm
      obtain ⟨i, j, hi, -, e, -⟩ := hg.row t (hlt t h1)
      exact ⟨i, hi, e⟩
    · intro y hym
      obtain ⟨t, h1, rfl⟩ := List.mem_map.mp hym
      obtain ⟨i, j, -, hj, -, e⟩ := hg.row t (hlt t h1)
      exact ⟨j, hj, e⟩
    · exact List.mem_map.mpr hl
    · exact List.mem_map.mpr hr
    · exact List.mem_map.mpr hb
    · exact List.mem_map.mpr ht
  have hnx := hg.nxpos
  have hny := hg.nypos
  refine ⟨_, by
    unfold drawHeight
    rw [hxs, Gmx.ok_bind, hys, Gmx.ok_bind, hws, Gmx.ok_bind, hsh]
    simp only
    rw [if_neg (by omega)], by simp, ?_, ?_⟩
  · intro c hc
    obtain ⟨i, -, rfl⟩ := List.mem_map.mp hc
    simp
  · intro i j t hi hj htl ex ey
    simp only [Int.toNat_natCast]
    rw [entry_map_range none nx ny _ hi hj]
    congr 1
    have huniq : ∀ u, u < Flow.size r → val r o.coords.1 u = x0 + sp.1 * (i : ℚ) → val r o.coords.2 u = y0 + sp.2 * (j : ℚ) → u = t := by
      intro u hu h1 h2
      obtain ⟨v, -, hv⟩ := hg.node i j hi hj
      rw [hv u ⟨hu, h1, h2⟩, hv t ⟨htl, ex, ey⟩]
    have hget : ∀ (F : ℕ → ℚ) k (hk : k < idx.length), (idx.map F).getD k 0 = F idx[k] := by
      intro F k hk
      simp [List.getD_eq_getElem?_getD, hk]
    by_cases hm : t ∈ idx
    · rw [if_pos hm]
      obtain ⟨k, hk, rfl⟩ := List.mem_iff_getElem.mp hm
      rw [cellSum_at hgrid _ i j k (by simpa using hk)]
      · simp [List.getD_eq_getElem?_getD, hk]
      · intro m hm'
        rw [List.length_map] at hm'
        rw [hget _ m hm', hget _ m hm']
        constructor
        · rintro ⟨h1, h2⟩
          have := huniq _ (hlt _ (List.getElem_mem hm')) h1 h2
          exact (List.Nodup.getElem_inj_iff hnd).mp this
        · rintro rfl
          exact ⟨ex, ey⟩
    · rw [if_neg hm, cellSum_empty hgrid]
      intro m hm'
      rw [List.length_map] at hm'
      rw [hget _ m hm', hget _ m hm']
      rintro ⟨h1, h2⟩
      apply hm
      rw [← huniq _ (hlt _ (List.getElem_mem hm')) h1 h2]
      exact List.getElem_mem _

theorem col_eq_map_val {r : Record} (hw : Wf r) {l : Label} {c : List ℚ} (h : col? r l = some c) : c = (List.range (Flow.size r)).map (val r l) := by
  have hlen := col?_length hw h
  apply List.ext_getElem
  · simp [hlen]
  · intro k h1 h2
    simp [val_of_col h, h1]

theorem field_eq_map_val {r : Record} (hw : Wf r) {l : Label} (h : l ∈ names r) : field r l = .ok ((List.range (Flow.size r)).map (val r l)) := by
  obtain ⟨c, h1, h2⟩ := Sample.field_ok h
  rw [h2, col_eq_map_val hw h1]

theorem values_field {s : Shown} (hw : Wf s.base) {l : Label} (h : l ∈ names s.base) :
    s.values l = .ok ((List.range (Flow.size s.base)).map fun t => some ((val s.base l t : ℚ) : ℝ)) := by
  obtain ⟨c, h1, h2⟩ := Sample.field_ok h
  unfold Shown.values
  rw [h1]
  simp only
  conv_lhs => rw [col_eq_map_val hw h1]
  rw [List.map_map]
  rfl

/-- A height map of all rows. -/
theorem drawHeight_full (o : MapOpts) (info : Info) (s : Shown) (label : Label) (w : ℕ → Option ℝ) {sp : ℚ × ℚ} {x0 y0 : ℚ} {nx ny : ℕ}
    (hg : FullGrid s.base sp x0 y0 nx ny o.coords) (hx : 0 < sp.1) (hy : 0 < sp.2) (hsh : info.shape = some ((nx : ℤ), (ny : ℤ)))
    (hws : s.values label = .ok ((List.range (Flow.size s.base)).map w)) :
    ∃ cells, drawHeight o info s label = .ok (.height cells) ∧ cells.length = nx ∧ (∀ c ∈ cells, c.length = ny) ∧
      ∀ i j t, i < nx → j < ny → t < Flow.size s.base → val s.base o.coords.1 t = x0 + sp.1 * (i : ℚ) → val s.base o.coords.2 t = y0 + sp.2 * (j : ℚ) →
        entry none cells i j = blank o.clim (w t) := by
  have hnx := hg.nxpos
  have hny := hg.nypos
  have node : ∀ i j, i < nx → j < ny → ∃ t ∈ List.range (Flow.size s.base), val s.base o.coords.1 t = x0 + sp.1 * (i : ℚ) ∧ val s.base o.coords.2 t = y0 + sp.2 * (j : ℚ) := by
    intro i j hi hj
    obtain ⟨t, ⟨h1, h2, h3⟩, -⟩ := hg.node i j hi hj
    exact ⟨t, List.mem_range.mpr h1, h2, h3⟩
  obtain ⟨cells, h1, h2, h3, h4⟩ := drawHeight_rows o info s label s.base w (List.range (Flow.size s.base)) hg hx hy hsh
    (field_eq_map_val hg.wf hg.hasX) (field_eq_map_val hg.wf hg.hasY) hws List.nodup_range (fun t ht => List.mem_range.mp ht)
    (by obtain ⟨t, a, b, -⟩ := node 0 0 hnx hny; exact ⟨t, a, by simpa using b⟩)
    (by obtain ⟨t, a, b, -⟩ := node (nx - 1) 0 (by omega) hny; exact ⟨t, a, b⟩)
    (by obtain ⟨t, a, -, b⟩ := node 0 0 hnx hny; exact ⟨t, a, by simpa using b⟩)
    (by obtain ⟨t, a, -, b⟩ := node 0 (ny - 1) hnx (by omega); exact ⟨t, a, b⟩)
  refine ⟨cells, h1, h2, h3, fun i j t hi hj ht ex ey => ?_⟩
  rw [h4 i j t hi hj ht ex ey, if_pos (List.mem_range.mpr ht)]

theorem applyCutoff_off {cl : Option Label} {co : Option ℚ} (h : co = none ∨ cl = none) (s : Shown) : applyCutoff cl co s = .ok s := by
  unfold applyCutoff
  rcases h with h | h
  · rw [h]; cases cl <;> rfl
  · rw [h]

theorem addFields_plain {label : Label} (h : label ∉ special) (f : Flow) : addFields label f = .ok (label, ⟨f.data, []⟩) := by
  unfold special at h
  simp only [List.mem_cons, List.not_mem_nil, or_false, not_or] at h
  unfold addFields
  rw [if_neg h.1, if_neg h.2.1, if_neg h.2.2.1, if_neg (by tauto)]

/-- **C95, fields.** The height map of a field of a map on a full grid, its bins in any order, has one cell per bin, and the cell in
column `i` and row `j` shows the value of the bin in column `i` and row `j`, or nothing if that is outside the limits. -/
theorem C95_field (o : MapOpts) (hc : o.cutoff = none ∨ o.cutoffLabel = none) (f : Flow) (sp : ℚ × ℚ) (x0 y0 : ℚ) (nx ny : ℕ)
    (h : FullMap f sp x0 y0 nx ny o.coords) (hx : 0 < sp.1) (hy : 0 < sp.2) (label : Label) (hl : label ∈ names f.data) (hs : label ∉ special) :
    ∃ cells, viewMaps [f] label "height" o = ([.height cells], .ok ()) ∧ cells.length = nx ∧ (∀ c ∈ cells, c.length = ny) ∧
      ∀ i j, i < nx → j < ny → entry none cells i j = shownValue o.clim ((atNode f.data label sp x0 y0 o.coords i j : ℚ) : ℝ) := by
  obtain ⟨hg, hsh, -⟩ := h
  obtain ⟨cells, h1, h2, h3, h4⟩ := drawHeight_full o f.info ⟨f.data, []⟩ label _ hg hx hy hsh (values_field hg.wf hl)
  refine ⟨cells, ?_, h2, h3, fun i j hi hj => ?_⟩
  · unfold viewMaps kindOf
    rw [if_pos rfl]
    simp only [viewLoop, viewOne]
    rw [addFields_plain hs, Gmx.ok_bind]
    simp only
    rw [applyCutoff_off hc, Gmx.ok_bind, h1]
    rfl
  · obtain ⟨t, ht, ex, ey, hv⟩ := hg.atNode_row hi hj
    rw [h4 i j t hi hj ht ex ey, blank_some, hv label]

/-- Height maps of one quantity without cutoff, from the fields added for it. -/
theorem height_of_shown (o : MapOpts) (hc : o.cutoff = none ∨ o.cutoffLabel = none) (f : Flow) (label l : Label) (s : Shown) (w : ℕ → Option ℝ)
    (hadd : addFields label f = .ok (l, s)) {sp : ℚ × ℚ} {x0 y0 : ℚ} {nx ny : ℕ} (hg : FullGrid s.base sp x0 y0 nx ny o.coords) (hx : 0 < sp.1) (hy : 0 < sp.2)
    (hsh : f.info.shape = some ((nx : ℤ), (ny : ℤ))) (hws : s.values l = .ok ((List.range (Flow.size s.base)).map w)) :
    ∃ cells, viewMaps [f] label "height" o = ([.height cells], .ok ()) ∧ cells.length = nx ∧ (∀ c ∈ cells, c.length = ny) ∧
      ∀ i j t, i < nx → j < ny → t < Flow.size s.base → val s.base o.coords.1 t = x0 + sp.1 * (i : ℚ) → val s.base o.coords.2 t = y0 + sp.2 * (j : ℚ) →
        entry none cells i j = blank o.clim (w t) := by
  obtain ⟨cells, h1, h2, h3, h4⟩ := drawHeight_full o f.info s l w hg hx hy hsh hws
  refine ⟨cells, ?_, h2, h3, h4⟩
  unfold viewMaps kindOf
  rw [if_pos rfl]
  simp only [viewLoop, viewOne]
  rw [hadd, Gmx.ok_bind]
  simp only
  rw [applyCutoff_off hc, Gmx.ok_bind, h1]
  rfl

/-- The values of an added field. -/
theorem values_extra {r : Record} {l : Label} (h : l ∉ names r) (c : List (Option ℝ)) (rest : List (Label × List (Option ℝ))) :
    Shown.values ⟨r, (l, c) :: rest⟩ l = .ok c := by
  unfold Shown.values
  have : col? r l = none := by
    cases h0 : col? r l with
    | none => rfl
    | some c => exact absurd ((col?_isSome_iff _ _).mp ⟨c, h0⟩) h
  rw [this]
  simp [List.lookup]

/-- **C95, the flow.** With the label 'flow' the cell in column `i` and row `j` shows the magnitude `√(U² + V²)` of the flow of that bin. -/
theorem C95_flow (o : MapOpts) (hc : o.cutoff = none ∨ o.cutoffLabel = none) (f : Flow) (sp : ℚ × ℚ) (x0 y0 : ℚ) (nx ny : ℕ)
    (h : FullMap f sp x0 y0 nx ny o.coords) (hx : 0 < sp.1) (hy : 0 < sp.2) (hu : "U" ∈ names f.data) (hv : "V" ∈ names f.data) (hf : "flow" ∉ names f.data) :
    ∃ cells, viewMaps [f] "flow" "height" o = ([.height cells], .ok ()) ∧ cells.length = nx ∧ (∀ c ∈ cells, c.length = ny) ∧
      ∀ i j, i < nx → j < ny → entry none cells i j = shownValue o.clim
        (Real.sqrt ((atNode f.data "U" sp x0 y0 o.coords i j : ℝ) ^ 2 + (atNode f.data "V" sp x0 y0 o.coords i j : ℝ) ^ 2)) := by
  obtain ⟨hg, hsh, -⟩ := h
  have habs : absoluteFlow f.data = .ok ((List.range (Flow.size f.data)).map fun t => Real.sqrt ((val f.data "U" t : ℝ) ^ 2 + (val f.data "V" t : ℝ) ^ 2)) := by
    unfold absoluteFlow
    rw [field_eq_map_val hg.wf hu, Gmx.ok_bind, field_eq_map_val hg.wf hv, Gmx.ok_bind, newName_ok hf, Gmx.ok_bind]
    rw [List.zipWith_map, List.zipWith_self]
  obtain ⟨cells, h1, h2, h3, h4⟩ := height_of_shown o hc f "flow" "flow" ⟨f.data, [("flow", ((List.range (Flow.size f.data)).map fun t => Real.sqrt ((val f.data "U" t : ℝ) ^ 2 + (val f.data "V" t : ℝ) ^ 2)).map some)]⟩
    (fun t => some (Real.sqrt ((val f.data "U" t : ℝ) ^ 2 + (val f.data "V" t : ℝ) ^ 2)))
    (by unfold addFields; rw [if_pos rfl, habs]; rfl) hg hx hy hsh (by rw [values_extra hf, List.map_map]; rfl)
  refine ⟨cells, h1, h2, h3, fun i j hi hj => ?_⟩
  obtain ⟨t, ht, ex, ey, hval⟩ := hg.atNode_row hi hj
  rw [h4 i j t hi hj ht ex ey, blank_some, hval "U", hval "V"]

/-- A list of a known length as the values of a function. -/
theorem map_getD_range {V W : Type} (d : V) (F : V → W) {n : ℕ} (c : List V) (h : c.length = n) : c.map F = (List.range n).map fun t => F (c.getD t d) := by
  apply List.ext_getElem
  · simp [h]
  · intro k h1 h2
    simp at h1
    simp [List.getD_eq_getElem?_getD, h1]

/-- **C95, derived quantities.** The cells of the height maps of the evaporation and of the density gradients show, in column `i` and
row `j`, the value these functions give for that bin (C71). -/
theorem C95_derived (o : MapOpts) (ho : o.coords = ("X", "Y")) (hc : o.cutoff = none ∨ o.cutoffLabel = none) (f : Flow) (sp : ℚ × ℚ) (x0 y0 : ℚ) (nx ny : ℕ)
    (h : FullMap f sp x0 y0 nx ny) (hx : 0 < sp.1) (hy : 0 < sp.2) (hnx : 2 ≤ nx) (hny : 2 ≤ ny) (hm : "M" ∈ names f.data) :
    (("evaporation" ∉ names f.data ∧ "U" ∈ names f.data ∧ "V" ∈ names f.data) → ∃ g ev cells, evaporation f = .ok (g, ev) ∧
      viewMaps [f] "evaporation" "height" o = ([.height cells], .ok ()) ∧ cells.length = nx ∧ (∀ c ∈ cells, c.length = ny) ∧ ∀ i j, i < nx → j < ny →
        ∃ t v, t < nx * ny ∧ (val g.data "X" t = x0 + sp.1 * (i : ℚ) ∧ val g.data "Y" t = y0 + sp.2 * (j : ℚ)) ∧ ev.getD t none = some v ∧
          entry none cells i j = shownValue o.clim (v : ℝ)) ∧
    (("grad_rho_x" ∉ names f.data ∧ "grad_rho_y" ∉ names f.data) → ∃ g gx gy cells cells', densityGradient f = .ok (g, gx, gy) ∧
      viewMaps [f] "grad_rho_x" "height" o = ([.height cells], .ok ()) ∧ cells.length = nx ∧ (∀ c ∈ cells, c.length = ny) ∧
      viewMaps [f] "grad_rho_y" "height" o = ([.height cells'], .ok ()) ∧ cells'.length = nx ∧ (∀ c ∈ cells', c.length = ny) ∧ ∀ i j, i < nx → j < ny →
        ∃ t v v', t < nx * ny ∧ (val g.data "X" t = x0 + sp.1 * (i : ℚ) ∧ val g.data "Y" t = y0 + sp.2 * (j : ℚ)) ∧
          gx.getD t none = some v ∧ gy.getD t none = some v' ∧
          entry none cells i j = shownValue o.clim (v : ℝ) ∧ entry none cells' i j = shownValue o.clim (v' : ℝ)) := by
  obtain ⟨s, m, e, hlat, hn, hval, hmc⟩ := massOnGrid_eq f sp x0 y0 nx ny h hx hy hnx hny hm
  obtain ⟨hgr, hev⟩ := C71_as_coded f sp x0 y0 nx ny h hx hy hnx hny hm
  have hgrid : FullGrid s sp x0 y0 nx ny o.coords := by rw [ho]; exact Lattice.fullGrid hlat hx hy
  have hsize : Flow.size s = nx * ny := hlat.size
  constructor
  · intro hh
    obtain ⟨g, ev, h1, -, h3, h4⟩ := hev hh
    have hgs : g = ⟨s, f.info⟩ := by
      unfold evaporation at h1
      rw [e, Gmx.ok_bind] at h1
      simp only at h1
      obtain ⟨us, -, h1⟩ := Simple.bind_eq_ok h1
      obtain ⟨vs, -, h1⟩ := Simple.bind_eq_ok h1
      obtain ⟨u, -, h1⟩ := Simple.bind_eq_ok h1
      cases h1
      rfl
    subst hgs
    obtain ⟨cells, c1, c2, c3, c4⟩ := height_of_shown o hc f "evaporation" "evaporation" ⟨s, [("evaporation", ev.map fun v => v.map fun q : ℚ => (q : ℝ))]⟩
      (fun t => (ev.getD t none).map fun q : ℚ => (q : ℝ))
      (by unfold addFields; rw [if_neg (by decide), if_neg (by decide), if_pos rfl, h1]; rfl) hgrid hx hy h.2.1
      (by rw [values_extra (by rw [hn]; exact hh.1), map_getD_range none _ ev (h3.trans hsize.symm)])
    refine ⟨⟨s, f.info⟩, ev, cells, h1, c1, c2, c3, fun i j hi hj => ?_⟩
    obtain ⟨hp, hv⟩ := h4 i j hi hj
    refine ⟨j * nx + i, _, grid_lt hi hj, hp, hv, ?_⟩
    rw [c4 i j (j * nx + i) hi hj (by rw [hsize]; exact grid_lt hi hj) (by rw [ho]; exact hp.1) (by rw [ho]; exact hp.2), hv, Option.map_some, blank_some]
  · intro hh
    obtain ⟨g, gx, gy, h1, -, h3, h3', h4⟩ := hgr hh
    have hgs : g = ⟨s, f.info⟩ := by
      unfold densityGradient at h1
      rw [e, Gmx.ok_bind] at h1
      simp only at h1
      obtain ⟨us, -, h1⟩ := Simple.bind_eq_ok h1
      obtain ⟨vs, -, h1⟩ := Simple.bind_eq_ok h1
      cases h1
      rfl
    subst hgs
    have hadd : ∀ l, l = "grad_rho_x" ∨ l = "grad_rho_y" → addFields l f = .ok (l, ⟨s, [("grad_rho_x", gx.map fun v => v.map fun q : ℚ => (q : ℝ)), ("grad_rho_y", gy.map fun v => v.map fun q : ℚ => (q : ℝ))]⟩) := by
      intro l hl
      unfold addFields
      rw [if_neg (by rcases hl with rfl | rfl <;> decide), if_neg (by rcases hl with rfl | rfl <;> decide), if_neg (by rcases hl with rfl | rfl <;> decide), if_pos hl, h1]
      rfl
    obtain ⟨cells, c1, c2, c3, c4⟩ := height_of_shown o hc f "grad_rho_x" "grad_rho_x" _
      (fun t => (gx.getD t none).map fun q : ℚ => (q : ℝ)) (hadd _ (.inl rfl)) hgrid hx hy h.2.1
      (by rw [values_extra (by rw [hn]; exact hh.1), map_getD_range none _ gx (h3.trans hsize.symm)])
    obtain ⟨cells', d1, d2, d3, d4⟩ := height_of_shown o hc f "grad_rho_y" "grad_rho_y" _
      (fun t => (gy.getD t none).map fun q : ℚ => (q : ℝ)) (hadd _ (.inr rfl)) hgrid hx hy h.2.1
      (by
        unfold Shown.values
        have : col? s "grad_rho_y" = none := by
          cases h0 : col? s "grad_rho_y" with
          | none => rfl
          | some c => exact absurd ((col?_isSome_iff _ _).mp ⟨c, h0⟩) (by rw [hn]; exact hh.2)
        simp only
        rw [this, map_getD_range none _ gy (h3'.trans hsize.symm)]
        rfl)
    refine ⟨⟨s, f.info⟩, gx, gy, cells, cells', h1, c1, c2, c3, d1, d2, d3, fun i j hi hj => ?_⟩
    obtain ⟨hp, hv, hv'⟩ := h4 i j hi hj
    refine ⟨j * nx + i, _, _, grid_lt hi hj, hp, hv, hv', ?_, ?_⟩
    · rw [c4 i j (j * nx + i) hi hj (by rw [hsize]; exact grid_lt hi hj) (by rw [ho]; exact hp.1) (by rw [ho]; exact hp.2), hv, Option.map_some, blank_some]
    · rw [d4 i j (j * nx + i) hi hj (by rw [hsize]; exact grid_lt hi hj) (by rw [ho]; exact hp.1) (by rw [ho]; exact hp.2), hv', Option.map_some, blank_some]

/-- **C95, dissipation.** The cells of the height map of the viscous dissipation show, in column `i` and row `j`, the mass weighted dissipation of that bin (C42, C43), which is not negative; bins
without mass are blank. -/
theorem C95_dissipation (o : MapOpts) (ho : o.coords = ("X", "Y")) (hc : o.cutoff = none ∨ o.cutoffLabel = none) (f : Flow) (sp : ℚ × ℚ) (x0 y0 : ℚ) (nx ny : ℕ)
    (h : FullMap f sp x0 y0 nx ny) (hx : 0 < sp.1) (hy : 0 < sp.2) (hnx : 3 ≤ nx) (hny : 3 ≤ ny) (hm : "M" ∈ names f.data) (hu : "U" ∈ names f.data) (hv : "V" ∈ names f.data)
    (hn : "visc" ∉ names f.data) :
    ∃ g d cells, viscousDissipation f (877 / 1000000) ("X", "Y") ("U", "V") (some "M") = .ok (g, d) ∧
      viewMaps [f] "visc_diss" "height" o = ([.height cells], .ok ()) ∧ cells.length = nx ∧ (∀ c ∈ cells, c.length = ny) ∧ ∀ i j, i < nx → j < ny →
        ∃ t, t < nx * ny ∧ (val g.data "X" t = x0 + sp.1 * (i : ℚ) ∧ val g.data "Y" t = y0 + sp.2 * (j : ℚ)) ∧
          (atNode f.data "M" sp x0 y0 ("X", "Y") i j = 0 → entry none cells i j = none) ∧
          (atNode f.data "M" sp x0 y0 ("X", "Y") i j ≠ 0 → ∃ v, 0 ≤ v ∧ d.getD t none = some v ∧ entry none cells i j = shownValue o.clim (v : ℝ)) := by
  obtain ⟨g, d, h1, -, hns, hlat, -, hlen, hd⟩ := viscous_eq f (877 / 1000000) sp x0 y0 nx ny ("X", "Y") ("U", "V") (some "M") h hx hy hnx hny hu hv
    (by intro w hw; cases hw; exact hm)
  have hgrid : FullGrid g.data sp x0 y0 nx ny o.coords := by rw [ho]; exact Lattice.fullGrid hlat hx hy
  have hsize : Flow.size g.data = nx * ny := hlat.size
  obtain ⟨cells, c1, c2, c3, c4⟩ := height_of_shown o hc f "visc_diss" "visc" ⟨g.data, [("visc", d.map fun v => v.map fun q : ℚ => (q : ℝ))]⟩
    (fun t => (d.getD t none).map fun q : ℚ => (q : ℝ))
    (by unfold addFields viscosity; rw [if_neg (by decide), if_pos rfl, h1, Gmx.ok_bind]; simp only; rw [newName_ok (by rw [hns]; exact hn)]; rfl) hgrid hx hy h.2.1
    (by rw [values_extra (by rw [hns]; exact hn), map_getD_range none _ d (hlen.trans hsize.symm)])
  refine ⟨g, d, cells, h1, c1, c2, c3, fun i j hi hj => ?_⟩
  have p1 := hlat.x _ (grid_lt hi hj)
  have p2 := hlat.y _ (grid_lt hi hj)
  rw [grid_mod hi] at p1
  rw [grid_div hi] at p2
  have hent := c4 i j (j * nx + i) hi hj (by rw [hsize]; exact grid_lt hi hj) (by rw [ho]; exact p1) (by rw [ho]; exact p2)
  have hv := hd i j hi hj
  refine ⟨j * nx + i, grid_lt hi hj, ⟨p1, p2⟩, fun h0 => ?_, fun h0 => ?_⟩
  · rw [if_pos (show (((some "M" : Option Label).elim 1 fun w => atNode f.data w sp x0 y0 ("X", "Y") i j) : ℚ) = 0 from h0)] at hv
    rw [hent, hv]
    rfl
  · rw [if_neg (show ¬ (((some "M" : Option Label).elim 1 fun w => atNode f.data w sp x0 y0 ("X", "Y") i j) : ℚ) = 0 from h0)] at hv
    obtain ⟨v, v0, hv⟩ : ∃ v, 0 ≤ v ∧ d.getD (j * nx + i) none = some v := ⟨_, div_nonneg (formula_nonneg (by norm_num) _ _ _ _) (sq_nonneg _), hv⟩
    refine ⟨v, v0, hv, ?_⟩
    rw [hent, hv, Option.map_some, blank_some]

/-- The rows kept by a cutoff on a field of the file. -/
theorem applyCutoff_field {r : Record} (hw : Wf r) {l : Label} (hl : l ∈ names r) (c : ℚ) :
    applyCutoff (some l) (some c) ⟨r, []⟩ = .ok (Shown.rows ⟨r, []⟩ ((List.range (Flow.size r)).filter fun t => decide (c ≤ val r l t))) := by
  unfold applyCutoff
  simp only
  rw [values_field (s := ⟨r, []⟩) hw hl]
  simp only
  congr 2
  rw [List.length_map, List.length_range]
  refine List.filter_congr fun t ht => ?_
  have ht' := List.mem_range.mp ht
  simp [List.getD_eq_getElem?_getD, ht']

/-- Fields of selected rows. -/
theorem field_gather {r : Record} {l : Label} (hl : l ∈ names r) (idx : List ℕ) : field (gather idx r) l = .ok (idx.map (val r l)) := by
  obtain ⟨c, h1, -⟩ := Sample.field_ok hl
  unfold field
  rw [col?_gather, h1]
  simp [val_of_col h1, pick]

/-- **C95, with a cutoff.** If some bin of each of the four outermost rows and columns is kept by the cutoff, the cell in column `i` and
row `j` shows the value of that bin, if it is kept, and is that of an empty bin otherwise.
(Missing: cutoffs which remove a whole outer row or column, for which the cells no longer are the bins, `C95_cutoff_counterexample`.) -/
theorem C95_cutoff_partial (o : MapOpts) (cl : Label) (c : ℚ) (hcl : o.cutoffLabel = some cl) (hc : o.cutoff = some c) (f : Flow) (sp : ℚ × ℚ) (x0 y0 : ℚ) (nx ny : ℕ)
    (h : FullMap f sp x0 y0 nx ny o.coords) (hx : 0 < sp.1) (hy : 0 < sp.2) (label : Label) (hl : label ∈ names f.data) (hs : label ∉ special) (hcn : cl ∈ names f.data)
    (hleft : ∃ j, j < ny ∧ c ≤ atNode f.data cl sp x0 y0 o.coords 0 j) (hright : ∃ j, j < ny ∧ c ≤ atNode f.data cl sp x0 y0 o.coords (nx - 1) j)
    (hbottom : ∃ i, i < nx ∧ c ≤ atNode f.data cl sp x0 y0 o.coords i 0) (htop : ∃ i, i < nx ∧ c ≤ atNode f.data cl sp x0 y0 o.coords i (ny - 1)) :
    ∃ cells, viewMaps [f] label "height" o = ([.height cells], .ok ()) ∧ cells.length = nx ∧ (∀ c ∈ cells, c.length = ny) ∧
      ∀ i j, i < nx → j < ny → entry none cells i j = shownValue o.clim
        (if c ≤ atNode f.data cl sp x0 y0 o.coords i j then ((atNode f.data label sp x0 y0 o.coords i j : ℚ) : ℝ) else 0) := by
  obtain ⟨hg, hsh, -⟩ := h
  have hnx := hg.nxpos
  have hny := hg.nypos
  set idx := (List.range (Flow.size f.data)).filter fun t => decide (c ≤ val f.data cl t) with hidx
  have hmem : ∀ t, t ∈ idx ↔ t < Flow.size f.data ∧ c ≤ val f.data cl t := by intro t; simp [hidx]
  have node : ∀ i j, i < nx → j < ny → c ≤ atNode f.data cl sp x0 y0 o.coords i j → ∃ t ∈ idx, val f.data o.coords.1 t = x0 + sp.1 * (i : ℚ) ∧ val f.data o.coords.2 t = y0 + sp.2 * (j : ℚ) := by
    intro i j hi hj hle
    obtain ⟨t, ht, ex, ey, hv⟩ := hg.atNode_row hi hj
    exact ⟨t, (hmem t).mpr ⟨ht, by rw [← hv cl]; exact hle⟩, ex, ey⟩
  obtain ⟨cells, h1, h2, h3, h4⟩ := drawHeight_rows o f.info (Shown.rows ⟨f.data, []⟩ idx) label f.data (fun t => some ((val f.data label t : ℚ) : ℝ)) idx hg hx hy hsh
    (field_gather hg.hasX idx) (field_gather hg.hasY idx)
    (by
      unfold Shown.values Shown.rows
      obtain ⟨cc, h1, -⟩ := Sample.field_ok hl
      simp only
      rw [col?_gather, h1]
      simp [val_of_col h1, pick])
    (List.Nodup.filter _ List.nodup_range) (fun t ht => ((hmem t).mp ht).1)
    (by obtain ⟨j, hj, hle⟩ := hleft; obtain ⟨t, a, b, -⟩ := node 0 j hnx hj hle; exact ⟨t, a, by simpa using b⟩)
    (by obtain ⟨j, hj, hle⟩ := hright; obtain ⟨t, a, b, -⟩ := node (nx - 1) j (by omega) hj hle; exact ⟨t, a, b⟩)
    (by obtain ⟨i, hi, hle⟩ := hbottom; obtain ⟨t, a, -, b⟩ := node i 0 hi hny hle; exact ⟨t, a, by simpa using b⟩)
    (by obtain ⟨i, hi, hle⟩ := htop; obtain ⟨t, a, -, b⟩ := node i (ny - 1) hi (by omega) hle; exact ⟨t, a, b⟩)
  refine ⟨cells, ?_, h2, h3, fun i j hi hj => ?_⟩
  · unfold viewMaps kindOf
    rw [if_pos rfl]
    simp only [viewLoop, viewOne]
    rw [addFields_plain hs, Gmx.ok_bind]
    simp only
    rw [hcl, hc, applyCutoff_field hg.wf hcn, Gmx.ok_bind, h1]
    rfl
  · obtain ⟨t, ht, ex, ey, hv⟩ := hg.atNode_row hi hj
    rw [h4 i j t hi hj ht ex ey, hv label, hv cl]
    by_cases hle : c ≤ val f.data cl t
    · rw [if_pos ((hmem t).mpr ⟨ht, hle⟩), if_pos hle, blank_some]
    · rw [if_neg (fun hm => hle ((hmem t).mp hm).2), if_neg hle, blank_some]

/-- A row of three bins with the masses 0, 5 and 6. -/
def exRow : Flow := ⟨[("X", [0, 1, 2]), ("Y", [0, 0, 0]), ("M", [0, 5, 6])], { shape := some (3, 1), spacing := some (1, 1) }⟩

theorem exRow_full : FullMap exRow (1, 1) 0 0 3 1 :=
  ⟨fullGrid_of_rows _ _ _ _ _ _ _ 3 rfl ⟨by decide, by decide⟩ (by decide) (by decide) (by decide) (by decide) (by decide +kernel) (by decide +kernel), rfl, rfl⟩

theorem cellSum_of_filter {V : Type} [Add V] [Zero V] {nx ny : ℕ} {xs ys : List ℚ} {ws : List (Option V)} {i j : ℕ} (ts : List ℕ)
    (h : ((List.range xs.length).filter fun t : ℕ => decide (cellOf nx (cellRange xs) (xs.getD t 0) = i) && decide (cellOf ny (cellRange ys) (ys.getD t 0) = j)) = ts) :
    cellSum nx ny xs ys ws i j = (ts.mapM fun t : ℕ => ws.getD t none).map List.sum := by
  unfold cellSum; rw [h]

/-- **C95, counterexample.** With the cutoff 1 the empty left bin of this row of bins is removed; the middle one, 5, is then drawn in the left cell, and
the middle cell is empty. -/
theorem C95_cutoff_counterexample : FullMap exRow (1, 1) 0 0 3 1 ∧
    viewMaps [exRow] "M" "height" { cutoff := some 1 } = ([.height [[some 5], [some 0], [some 6]]], .ok ()) := by
  refine ⟨exRow_full, ?_⟩
  unfold viewMaps kindOf
  rw [if_pos rfl]
  simp only [viewLoop, viewOne]
  rw [addFields_plain (by decide), Gmx.ok_bind]
  simp only
  rw [applyCutoff_field exRow_full.1.wf (by decide), Gmx.ok_bind]
  have hi : ((List.range (Flow.size exRow.data)).filter fun t => decide (1 ≤ val exRow.data "M" t)) = [1, 2] := by decide +kernel
  rw [hi]
  have hd : drawHeight { cutoff := some 1 } exRow.info (Shown.rows ⟨exRow.data, []⟩ [1, 2]) "M" = .ok (.height [[some 5], [some 0], [some 6]]) := by
    unfold drawHeight
    rw [show field (Shown.rows ⟨exRow.data, []⟩ [1, 2]).base "X" = .ok [1, 2] by decide +kernel, Gmx.ok_bind,
      show field (Shown.rows ⟨exRow.data, []⟩ [1, 2]).base "Y" = .ok [0, 0] by decide +kernel, Gmx.ok_bind]
    have hv : (Shown.rows ⟨exRow.data, []⟩ [1, 2]).values "M" = .ok [some 5, some 6] := by
      unfold Shown.values
      rw [show col? (Shown.rows ⟨exRow.data, []⟩ [1, 2]).base "M" = some [5, 6] by decide +kernel]
      simp
    rw [hv, Gmx.ok_bind]
    simp only [exRow]
    rw [if_neg (by decide)]
    simp only [show ((3 : ℤ).toNat) = 3 from rfl, show ((1 : ℤ).toNat) = 1 from rfl, List.range_succ, List.range_zero, List.nil_append, List.cons_append, List.map_cons, List.map_nil]
    rw [cellSum_of_filter [0] (by decide +kernel), cellSum_of_filter [] (by decide +kernel), cellSum_of_filter [1] (by decide +kernel)]
    simp [blank]
  rw [hd]
  rfl

/-- The hypotheses of `C95_field`, `C95_flow`, `C95_derived` hold for the map `exG` of 2 × 3 bins, and those of `C95_cutoff_partial` with the cutoff 3,
which removes its bottom left bin only. -/
example : FullMap exG (1, 2) 0 0 2 3 ∧ (∀ l ∈ ["X", "Y", "M", "U", "V"], l ∈ names exG.data ∧ l ∉ special) ∧
    (∀ l ∈ special, l ∉ names exG.data) ∧
    (∃ j : ℕ, j < 3 ∧ 3 ≤ atNode exG.data "M" (1, 2) 0 0 ("X", "Y") 0 j) ∧ (∃ j : ℕ, j < 3 ∧ 3 ≤ atNode exG.data "M" (1, 2) 0 0 ("X", "Y") (2 - 1) j) ∧
    (∃ i : ℕ, i < 2 ∧ 3 ≤ atNode exG.data "M" (1, 2) 0 0 ("X", "Y") i 0) ∧ (∃ i : ℕ, i < 2 ∧ 3 ≤ atNode exG.data "M" (1, 2) 0 0 ("X", "Y") i (3 - 1)) ∧
    ¬ 3 ≤ atNode exG.data "M" (1, 2) 0 0 ("X", "Y") 0 0 := by
  refine ⟨exG_full, by decide, by decide, ⟨1, by decide, ?_⟩, ⟨0, by decide, ?_⟩, ⟨1, by decide, ?_⟩, ⟨0, by decide, ?_⟩, ?_⟩ <;> decide +kernel

/-- A map of 3 × 3 bins meets the hypotheses of `C95_dissipation`. -/
def exDiss : Flow := ⟨[("X", [0, 0, 0, 2, 2, 2, 4, 4, 4]), ("Y", [1, 3, 5, 1, 3, 5, 1, 3, 5]), ("U", [1, 2, 0, 3, 1, 1, 2, 2, 1]),
  ("V", [2, 1, 0, 1, 1, 2, 1, 1, 1]), ("M", [1, 1, 0, 2, 1, 1, 1, 3, 1])], { shape := some (3, 3), spacing := some (2, 2) }⟩

example : FullMap exDiss (2, 2) 0 1 3 3 ∧ "M" ∈ names exDiss.data ∧ "U" ∈ names exDiss.data ∧ "V" ∈ names exDiss.data ∧ "visc" ∉ names exDiss.data ∧
    atNode exDiss.data "M" (2, 2) 0 1 ("X", "Y") 0 2 = 0 ∧ atNode exDiss.data "M" (2, 2) 0 1 ("X", "Y") 2 1 = 3 := by
  refine ⟨⟨fullGrid_of_rows exDiss.data (2, 2) 0 1 3 3 ("X", "Y") 9 rfl ⟨by decide, by decide⟩ (by decide) (by decide) (by decide) (by decide)
    (by decide +kernel) (by decide +kernel), rfl, rfl⟩, by decide, by decide, by decide, by decide, ?_, ?_⟩ <;> decide +kernel

/-! ## C96 -/

theorem contour_of_shown (o : MapOpts) (hc : o.cutoff = none ∨ o.cutoffLabel = none) (f : Flow) (label l : Label) (s : Shown) (ws : List (Option ℝ)) (xs ys : List ℚ)
    (hadd : addFields label f = .ok (l, s)) {nx ny : ℕ} (hsz : Flow.size s.base = nx * ny) (hsh : f.info.shape = some ((nx : ℤ), (ny : ℤ)))
    (hxs : field s.base o.coords.1 = .ok xs) (hys : field s.base o.coords.2 = .ok ys) (hws : s.values l = .ok ws) :
    viewMaps [f] label "contour" o = ([.contour (reshape nx ny 0 xs) (reshape nx ny 0 ys) (reshape nx ny none (contourValues o ws))], .ok ()) := by
  unfold viewMaps kindOf
  rw [if_neg (by decide), if_pos rfl]
  simp only [viewLoop, viewOne]
  rw [hadd, Gmx.ok_bind]
  simp only
  rw [applyCutoff_off hc, Gmx.ok_bind]
  unfold drawContour
  rw [hws, Gmx.ok_bind, hxs, Gmx.ok_bind, hys, Gmx.ok_bind, hsh]
  simp only
  rw [if_neg]
  · rfl
  · rw [hsz]
    push_cast
    rintro (h | h | h)
    · omega
    · omega
    · exact h rfl

theorem entry_reshape {V : Type} (d : V) {nx ny i j : ℕ} (hi : i < nx) (hj : j < ny) (c : List V) : entry d (reshape nx ny d c) i j = c.getD (i * ny + j) d := by
  unfold reshape
  rw [entry_map_range d nx ny _ hi hj]

theorem getD_map_val (r : Record) (l : Label) {n t : ℕ} (ht : t < n) : ((List.range n).map (val r l)).getD t 0 = val r l t := by
  simp [List.getD_eq_getElem?_getD, ht]

/-- What a contour map shows of a value: limited to the range of values, unless levels are given. -/
noncomputable def contourValue (o : MapOpts) (v : ℝ) : ℝ := if o.levels then v else clip o.vlim v

/-- **C96, limits.** With limits in order, values within them are unchanged and all others are moved to the nearest limit; with explicit levels no value changes. -/
theorem C96_limits (o : MapOpts) (h : ∀ a b, o.vlim = (some a, some b) → a ≤ b) (v : ℝ) :
    (o.levels = true → contourValue o v = v) ∧
    (o.levels = false → ((∀ a, o.vlim.1 = some a → a ≤ v) → (∀ b, o.vlim.2 = some b → v ≤ b) → contourValue o v = v) ∧
      (∀ a, o.vlim.1 = some a → v < a → contourValue o v = a) ∧ (∀ b, o.vlim.2 = some b → b < v → contourValue o v = b)) := by
  refine ⟨fun hl => by unfold contourValue; rw [if_pos hl], fun hl => ?_⟩
  have e : contourValue o v = clip o.vlim v := by unfold contourValue; rw [hl]; simp
  rw [e]
  rcases hv : o.vlim with ⟨_ | a, _ | b⟩
  · simp [clip]
  · simp [clip]
    intro h; exact h.le
  · simp [clip]
    intro h; exact h.le
  · have hab := h a b hv
    simp [clip]
    refine ⟨fun h1 h2 => ?_, fun h1 => ?_, fun h1 => ?_⟩
    · rw [max_eq_left h1, min_eq_left h2]
    · rw [max_eq_right h1.le, min_eq_left hab]
    · exact .inl h1.le

/-- Limits 0 and 2: the value 5 is drawn as 2. -/
example : contourValue { vlim := (some 0, some 2) } 5 = 2 :=
  ((C96_limits { vlim := (some 0, some 2) } (by simp) 5).2 rfl).2.2 2 rfl (by norm_num)

/-- **C96, fields.** For maps whose bins come column by column, the order of the files, the contour map of a field is drawn from arrays whose entry `(i, j)` has the
position and the (limited) value of the bin in column `i` and row `j`, so that entries next to each other are bins next to each other.
(Missing: quantities for which the bins are sorted first, false for grids that are not square, `C96_sorted_counterexample`, and cutoffs, `C96_cutoff_counterexample`.) -/
theorem C96_field_partial (o : MapOpts) (ho : o.coords = ("X", "Y")) (hc : o.cutoff = none ∨ o.cutoffLabel = none) (f : Flow) (sp : ℚ × ℚ) (x0 y0 : ℚ) (nx ny : ℕ)
    (h : XMajor f.data sp x0 y0 nx ny) (hsh : f.info.shape = some ((nx : ℤ), (ny : ℤ))) (hx : 0 < sp.1) (hy : 0 < sp.2)
    (label : Label) (hl : label ∈ names f.data) (hs : label ∉ special) :
    ∃ xs ys vs, viewMaps [f] label "contour" o = ([.contour xs ys vs], .ok ()) ∧ GridArrays sp nx ny xs ys ∧ ∀ i j, i < nx → j < ny →
      entry 0 xs i j = x0 + sp.1 * (i : ℚ) ∧ entry 0 ys i j = y0 + sp.2 * (j : ℚ) ∧
      ∃ t, t < Flow.size f.data ∧ val f.data "X" t = x0 + sp.1 * (i : ℚ) ∧ val f.data "Y" t = y0 + sp.2 * (j : ℚ) ∧
        entry none vs i j = some (contourValue o (val f.data label t : ℝ)) := by
  have hbd : ∀ i j, i < nx → j < ny → i * ny + j < nx * ny := by
    intro i j hi hj
    calc i * ny + j < i * ny + ny := by omega
      _ = (i + 1) * ny := by ring
      _ ≤ nx * ny := Nat.mul_le_mul_right _ hi
  have hex : ∀ i j, i < nx → j < ny → entry 0 (reshape nx ny 0 ((List.range (Flow.size f.data)).map (val f.data "X"))) i j = x0 + sp.1 * (i : ℚ) := by
    intro i j hi hj
    rw [entry_reshape _ hi hj, getD_map_val _ _ (by rw [h.size]; exact hbd i j hi hj), h.x i j hi hj]
  have hey : ∀ i j, i < nx → j < ny → entry 0 (reshape nx ny 0 ((List.range (Flow.size f.data)).map (val f.data "Y"))) i j = y0 + sp.2 * (j : ℚ) := by
    intro i j hi hj
    rw [entry_reshape _ hi hj, getD_map_val _ _ (by rw [h.size]; exact hbd i j hi hj), h.y i j hi hj]
  refine ⟨_, _, _, contour_of_shown o hc f label label ⟨f.data, []⟩ _ _ _ (addFields_plain hs f) h.size hsh
    (by rw [ho]; exact field_eq_map_val h.wf h.hasX) (by rw [ho]; exact field_eq_map_val h.wf h.hasY) (values_field h.wf hl), ?_, ?_⟩
  · intro i j hi hj
    constructor
    · intro hi1
      refine .inl ⟨by rw [hey i j hi hj, hey (i + 1) j hi1 hj], ?_⟩
      simp only
      rw [hex i j hi hj, hex (i + 1) j hi1 hj]
      push_cast
      rw [show x0 + sp.1 * (i : ℚ) - (x0 + sp.1 * ((i : ℚ) + 1)) = -sp.1 by ring, abs_neg, abs_of_pos hx]
    · intro hj1
      refine .inr ⟨by rw [hex i j hi hj, hex i (j + 1) hi hj1], ?_⟩
      simp only
      rw [hey i j hi hj, hey i (j + 1) hi hj1]
      push_cast
      rw [show y0 + sp.2 * (j : ℚ) - (y0 + sp.2 * ((j : ℚ) + 1)) = -sp.2 by ring, abs_neg, abs_of_pos hy]
  · intro i j hi hj
    refine ⟨hex i j hi hj, hey i j hi hj, i * ny + j, by rw [h.size]; exact hbd i j hi hj, h.x i j hi hj, h.y i j hi hj, ?_⟩
    rw [entry_reshape _ hi hj]
    have hlt : i * ny + j < Flow.size f.data := by rw [h.size]; exact hbd i j hi hj
    unfold contourValues contourValue
    cases o.levels <;> simp [List.getD_eq_getElem?_getD, hlt]

/-- **C96, sorted quantities.** On every full grid of at least 2 × 2 bins, the arrays of the contour map of the evaporation are those of a grid exactly if the
grid has as many columns as rows. -/
theorem C96_sorted_counterexample (o : MapOpts) (ho : o.coords = ("X", "Y")) (hc : o.cutoff = none ∨ o.cutoffLabel = none) (f : Flow) (sp : ℚ × ℚ) (x0 y0 : ℚ) (nx ny : ℕ)
    (h : FullMap f sp x0 y0 nx ny) (hx : 0 < sp.1) (hy : 0 < sp.2) (hnx : 2 ≤ nx) (hny : 2 ≤ ny) (hm : "M" ∈ names f.data)
    (hn : "evaporation" ∉ names f.data) (hu : "U" ∈ names f.data) (hv : "V" ∈ names f.data) :
    ∃ xs ys vs, viewMaps [f] "evaporation" "contour" o = ([.contour xs ys vs], .ok ()) ∧ (GridArrays sp nx ny xs ys ↔ nx = ny) := by
  obtain ⟨s, m, e, hlat, hnm, hval, hmc⟩ := massOnGrid_eq f sp x0 y0 nx ny h hx hy hnx hny hm
  obtain ⟨-, hev⟩ := C71_as_coded f sp x0 y0 nx ny h hx hy hnx hny hm
  obtain ⟨g, ev, h1, -, h3, h4⟩ := hev ⟨hn, hu, hv⟩
  have hgs : g = ⟨s, f.info⟩ := by
    unfold evaporation at h1
    rw [e, Gmx.ok_bind] at h1
    simp only at h1
    obtain ⟨us, -, h1⟩ := Simple.bind_eq_ok h1
    obtain ⟨vs, -, h1⟩ := Simple.bind_eq_ok h1
    obtain ⟨u, -, h1⟩ := Simple.bind_eq_ok h1
    cases h1
    rfl
  subst hgs
  have hbd : ∀ i j, i < nx → j < ny → i * ny + j < nx * ny := by
    intro i j hi hj
    calc i * ny + j < i * ny + ny := by omega
      _ = (i + 1) * ny := by ring
      _ ≤ nx * ny := Nat.mul_le_mul_right _ hi
  have hex : ∀ i j, i < nx → j < ny → entry 0 (reshape nx ny 0 ((List.range (Flow.size s)).map (val s "X"))) i j = x0 + sp.1 * (((i * ny + j) % nx : ℕ) : ℚ) := by
    intro i j hi hj
    rw [entry_reshape _ hi hj, getD_map_val _ _ (by rw [hlat.size]; exact hbd i j hi hj)]
    exact hlat.x _ (hbd i j hi hj)
  have hey : ∀ i j, i < nx → j < ny → entry 0 (reshape nx ny 0 ((List.range (Flow.size s)).map (val s "Y"))) i j = y0 + sp.2 * (((i * ny + j) / nx : ℕ) : ℚ) := by
    intro i j hi hj
    rw [entry_reshape _ hi hj, getD_map_val _ _ (by rw [hlat.size]; exact hbd i j hi hj)]
    exact hlat.y _ (hbd i j hi hj)
  refine ⟨_, _, _, contour_of_shown o hc f "evaporation" "evaporation" ⟨s, [("evaporation", ev.map fun v => v.map fun q : ℚ => (q : ℝ))]⟩ _ _ _
    (by unfold addFields; rw [if_neg (by decide), if_neg (by decide), if_pos rfl, h1]; rfl) hlat.size h.2.1
    (by rw [ho]; exact field_eq_map_val hlat.wf hlat.hasX) (by rw [ho]; exact field_eq_map_val hlat.wf hlat.hasY)
    (values_extra (by rw [hnm]; exact hn) _ _), ?_⟩
  constructor
  · intro hG
    by_contra hne
    rcases Nat.lt_or_gt_of_ne hne with hlt | hgt
    · -- more rows than columns: the first line of the array runs over the end of the first row
      obtain ⟨-, hN⟩ := hG 0 (nx - 1) (by omega) (by omega)
      have hN := hN (by omega)
      rw [hex 0 (nx - 1) (by omega) (by omega), hey 0 (nx - 1) (by omega) (by omega), hex 0 (nx - 1 + 1) (by omega) (by omega), hey 0 (nx - 1 + 1) (by omega) (by omega)] at hN
      rw [show nx - 1 + 1 = nx by omega, Nat.zero_mul, Nat.zero_add, Nat.zero_add, Nat.mod_eq_of_lt (by omega : nx - 1 < nx), Nat.div_eq_of_lt (by omega : nx - 1 < nx), Nat.mod_self, Nat.div_self (by omega)] at hN
      rcases hN with ⟨h1, -⟩ | ⟨h1, -⟩
      · simp only at h1
        push_cast at h1
        linarith
      · simp only at h1
        push_cast at h1
        have h2 : ((nx - 1 : ℕ) : ℚ) ≥ 1 := by exact_mod_cast (by omega : 1 ≤ nx - 1)
        nlinarith
    · obtain ⟨hN, -⟩ := hG 0 0 (by omega) (by omega)
      have hN := hN (by omega)
      rw [hex 0 0 (by omega) (by omega), hey 0 0 (by omega) (by omega), hex (0 + 1) 0 (by omega) (by omega), hey (0 + 1) 0 (by omega) (by omega)] at hN
      rw [Nat.zero_mul, Nat.zero_add, Nat.zero_add, Nat.one_mul, Nat.add_zero, Nat.zero_mod, Nat.zero_div, Nat.mod_eq_of_lt hgt, Nat.div_eq_of_lt hgt] at hN
      have h2 : (ny : ℚ) ≥ 2 := by exact_mod_cast hny
      rcases hN with ⟨-, h1⟩ | ⟨h1, -⟩
      · simp only at h1
        push_cast at h1
        rw [show x0 + sp.1 * 0 - (x0 + sp.1 * (ny : ℚ)) = -(sp.1 * ny) by ring, abs_neg, abs_of_nonneg (by positivity)] at h1
        nlinarith
      · simp only at h1
        push_cast at h1
        nlinarith
  · rintro rfl
    intro i j hi hj
    have hm1 : ∀ i j, j < nx → (i * nx + j) % nx = j := by intro i j hj; rw [Nat.mul_comm, Nat.mul_add_mod]; exact Nat.mod_eq_of_lt hj
    have hd1 : ∀ i j, j < nx → (i * nx + j) / nx = i := by intro i j hj; rw [Nat.mul_comm, Nat.mul_add_div (by omega), Nat.div_eq_of_lt hj, Nat.add_zero]
    constructor
    · intro hi1
      rw [hex i j hi hj, hey i j hi hj, hex (i + 1) j hi1 hj, hey (i + 1) j hi1 hj, hm1 _ _ hj, hm1 _ _ hj, hd1 _ _ hj, hd1 _ _ hj]
      refine .inr ⟨rfl, ?_⟩
      simp only
      push_cast
      rw [show y0 + sp.2 * (i : ℚ) - (y0 + sp.2 * ((i : ℚ) + 1)) = -sp.2 by ring, abs_neg, abs_of_pos hy]
    · intro hj1
      rw [hex i j hi hj, hey i j hi hj, hex i (j + 1) hi hj1, hey i (j + 1) hi hj1, hm1 _ _ hj, hm1 _ _ hj1, hd1 _ _ hj, hd1 _ _ hj1]
      refine .inl ⟨rfl, ?_⟩
      simp only
      push_cast
      rw [show x0 + sp.1 * (j : ℚ) - (x0 + sp.1 * ((j : ℚ) + 1)) = -sp.1 by ring, abs_neg, abs_of_pos hx]

/-- **C96, cutoffs.** A contour map with a cutoff that removes any bin at all is refused. -/
theorem C96_cutoff_counterexample (o : MapOpts) (cl : Label) (c : ℚ) (hcl : o.cutoffLabel = some cl) (hc : o.cutoff = some c) (f : Flow) (nx ny : ℕ)
    (hw : Wf f.data) (hX : o.coords.1 ∈ names f.data) (hY : o.coords.2 ∈ names f.data) (hsz : Flow.size f.data = nx * ny)
    (hsh : f.info.shape = some ((nx : ℤ), (ny : ℤ))) (label : Label) (hl : label ∈ names f.data) (hs : label ∉ special) (hcn : cl ∈ names f.data)
    (hcut : ∃ t, t < Flow.size f.data ∧ val f.data cl t < c) :
    viewMaps [f] label "contour" o = ([], .error .valueError) := by
  obtain ⟨cc, hcc, -⟩ := Sample.field_ok hl
  unfold viewMaps kindOf
  rw [if_neg (by decide), if_pos rfl]
  simp only [viewLoop, viewOne]
  rw [addFields_plain hs, Gmx.ok_bind]
  simp only
  rw [hcl, hc, applyCutoff_field hw hcn, Gmx.ok_bind]
  set idx := (List.range (Flow.size f.data)).filter fun t => decide (c ≤ val f.data cl t) with hidx
  have hlen : idx.length < Flow.size f.data := by
    obtain ⟨t, ht, hlt⟩ := hcut
    have hle : idx.length ≤ (List.range (Flow.size f.data)).length := List.length_filter_le _ _
    rw [List.length_range] at hle
    refine lt_of_le_of_ne hle fun heq => ?_
    have hall : ∀ t ∈ List.range (Flow.size f.data), decide (c ≤ val f.data cl t) = true := by
      rw [← List.length_filter_eq_length_iff, ← hidx, heq, List.length_range]
    have := hall t (List.mem_range.mpr ht)
    rw [decide_eq_true_iff] at this
    linarith
  have hd : drawContour o f.info (Shown.rows ⟨f.data, []⟩ idx) label = .error .valueError := by
    unfold drawContour
    have hv : (Shown.rows ⟨f.data, []⟩ idx).values label = .ok (idx.map fun t => some ((val f.data label t : ℚ) : ℝ)) := by
      unfold Shown.values Shown.rows
      simp only
      rw [col?_gather, hcc]
      simp [val_of_col hcc, pick]
    rw [hv, Gmx.ok_bind]
    rw [show field (Shown.rows ⟨f.data, []⟩ idx).base o.coords.1 = _ from field_gather hX idx, Gmx.ok_bind,
      show field (Shown.rows ⟨f.data, []⟩ idx).base o.coords.2 = _ from field_gather hY idx, Gmx.ok_bind, hsh]
    simp only
    rw [if_pos]
    refine .inr (.inr ?_)
    unfold Shown.rows
    simp only
    have hne : f.data ≠ [] := by intro h0; rw [h0] at hl; simp [names] at hl
    rw [size_gather _ _ hne]
    have : (idx.length : ℤ) < (nx : ℤ) * (ny : ℤ) := by
      have h1 := hlen
      rw [hsz] at h1
      exact_mod_cast h1
    exact this.ne
  rw [hd]
  rfl

/-- `exG` meets the hypotheses of the three theorems, as a grid that is not square, with the cutoff 3 removing one bin. -/
example : XMajor exG.data (1, 2) 0 0 2 3 ∧ (∃ t : ℕ, t < Flow.size exG.data ∧ val exG.data "M" t < 3) ∧
    reshape 2 3 (0 : ℚ) [0, 1, 0, 1, 0, 1] = [[0, 1, 0], [1, 0, 1]] := by
  have hx : ∀ i : ℕ, i < 2 → ∀ j : ℕ, j < 3 → val exG.data "X" (i * 3 + j) = 0 + 1 * (i : ℚ) ∧ val exG.data "Y" (i * 3 + j) = 0 + 2 * (j : ℚ) := by decide +kernel
  exact ⟨⟨exG_full.1.wf, by decide, by decide, by decide, fun i j hi hj => (hx i hi j hj).1, fun i j hi hj => (hx i hi j hj).2⟩, ⟨0, by decide, by decide +kernel⟩, by decide +kernel⟩

end Strata.View
