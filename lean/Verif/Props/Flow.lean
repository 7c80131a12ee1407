import Verif.Proofs.Flow
/-!
# Properties C08–C17: the `FlowData` container
-/
namespace Strata.Flow
open Strata

/-- Example map used below: a 2 × 2 grid stored in a scrambled order. -/
def demo : Flow :=
  ⟨[("X", [1, 0, 1, 0]), ("Y", [0, 0, 2, 2]), ("M", [5, 6, 7, 8])],
   { shape := some (2, 2), origin := some (0, 0), spacing := some (1, 2), numBins := some 4 }⟩

theorem demo_wf : Wf demo.data := by
  constructor
  · show (names demo.data).Nodup; decide +kernel
  · show ∀ c ∈ demo.data, c.2.length = 4; decide +kernel

/-! ## C08, C09 -/

/-- **C08.** Labelled columns of equal length, given as tuples and dicts in any mixture (no label twice),
are stored unchanged in the given order: the columns are the concatenation of the arguments' items, and looking
one up gives it back; a label that was not given is absent. -/
theorem C08_stores_columns (args : List Arg) (cols : List (Label × List ℚ)) (n : ℕ)
    (hargs : args.flatMap Arg.items = cols)
    (hother : Arg.other ∉ args) (hne : cols ≠ []) (hlab : (cols.map Prod.fst).Nodup)
    (hlen : ∀ c ∈ cols, c.2.length = n) (d : InfoDict) (i : Info) (hi : setInfo d = .ok i) :
    ∃ f, mk args d = .ok f ∧ f.data = cols ∧ f.info = i ∧
      (∀ l c, (l, c) ∈ cols → getData f l = some c) ∧
      (∀ l, l ∉ cols.map Prod.fst → getData f l = none) := by
  have hcol : ∀ (args : List Arg), Arg.other ∉ args → collate args = .ok (args.flatMap Arg.items) := by
    intro args
    induction args with
    | nil => intro _; rfl
    | cons a args ih =>
      intro h
      have ih' := ih (fun hm => h (List.mem_cons_of_mem _ hm))
      cases a with
      | tuple l c => simp only [collate, ih', List.flatMap_cons, Arg.items]; rfl
      | dict cs => simp only [collate, ih', List.flatMap_cons, Arg.items]; rfl
      | other => exact absurd (by simp) h
  have hc := hcol args hother
  rw [hargs] at hc
  have hwf : Wf cols := by
    refine ⟨hlab, ?_⟩
    intro c hc
    cases cols with
    | nil => exact absurd rfl hne
    | cons c0 cs => rw [hlen c hc]; exact (hlen c0 (by simp)).symm
  refine ⟨⟨cols, i⟩, ?_, rfl, rfl, ?_, ?_⟩
  · unfold mk; rw [setData_of_wf _ _ hc hne hwf, hi]; rfl
  · intro l c h; exact lookup_of_mem hlab h
  · intro l h; exact (col?_none_iff cols l).mpr h

example : mk [.tuple "X" [1, 2], .dict [("Y", [3, 4]), ("M", [5, 6])]] [] =
    .ok ⟨[("X", [1, 2]), ("Y", [3, 4]), ("M", [5, 6])], {}⟩ := by decide +kernel

/-- **C08.** Whatever is accepted is a well-formed record: all columns equally long, labels distinct. -/
theorem C08_constructed_is_wellformed (args : List Arg) (r : Record) (h : setData args = .ok r) :
    Wf r ∧ r ≠ [] := by
  unfold setData at h
  cases hc : collate args with
  | error e => rw [hc] at h; simp [bind, Except.bind] at h
  | ok cols =>
    rw [hc] at h
    simp only [bind, Except.bind] at h
    cases cols with
    | nil => simp at h
    | cons c cs =>
      simp only at h
      split at h
      · rename_i hn
        have key : ∀ (l : List (Label × List ℚ)) (r : Record),
            l.mapM (fun lc => do .ok (lc.1, ← assign c.2.length lc.2)) = Except.ok (ε := Err) r →
            r.map Prod.fst = l.map Prod.fst ∧ ∀ x ∈ r, x.2.length = c.2.length := by
          intro l
          induction l with
          | nil => intro r h; simp only [List.mapM_nil] at h; cases h; simp
          | cons a l ih =>
            intro r h
            rw [List.mapM_cons] at h
            cases ha : assign c.2.length a.2 with
            | error e => rw [ha] at h; simp [bind, Except.bind] at h
            | ok v =>
              rw [ha] at h
              simp only [bind, Except.bind] at h
              cases hr : l.mapM (fun lc => do .ok (lc.1, ← assign c.2.length lc.2)) with
              | error e => simp only [bind, Except.bind] at hr; rw [hr] at h; simp at h
              | ok r' =>
                have h' := hr
                simp only [bind, Except.bind] at hr; rw [hr] at h
                simp only [pure, Except.pure, Except.ok.injEq] at h
                subst h
                obtain ⟨e1, e2⟩ := ih r' h'
                refine ⟨by simp [e1], ?_⟩
                intro x hx
                rcases List.mem_cons.mp hx with rfl | hx
                · unfold assign at ha
                  split at ha
                  · rename_i hlen; simp at ha; rw [← ha]; exact hlen
                  · split at ha
                    · simp at ha; rw [← ha]; simp
                    · simp at ha
                · exact e2 x hx
        obtain ⟨e1, e2⟩ := key _ _ h
        have hne : r ≠ [] := by
          rintro rfl; simp at e1
        have hs : size r = c.2.length := by
          cases r with
          | nil => exact absurd rfl hne
          | cons a r => exact e2 a (by simp)
        refine ⟨⟨by unfold names; rw [e1]; exact hn, ?_⟩, hne⟩
        intro x hx; rw [hs]; exact e2 x hx
      · simp at h

/-- **C08 / C09, partial.** A column whose length is neither that of the first column nor 1 raises
`ValueError`.  Missing from C09: length-1 columns are accepted, `C09_length_one_counterexample`. -/
theorem C09_mismatch_rejected_partial (args : List Arg) (c0 : Label × List ℚ) (cs : List (Label × List ℚ))
    (hc : collate args = .ok (c0 :: cs)) (bad : Label × List ℚ) (hb : bad ∈ cs)
    (h1 : bad.2.length ≠ c0.2.length) (h2 : bad.2.length ≠ 1) :
    setData args = .error .valueError := by
  unfold setData
  rw [hc]
  show (if _ then _ else _) = _
  split
  · refine mapM_error _ .valueError _ bad (List.mem_cons_of_mem _ hb) ?_ ?_
    · have : assign c0.2.length bad.2 = .error .valueError := by
        unfold assign
        rw [if_neg h1]
        split
        · rename_i heq; rw [heq] at h2; simp at h2
        · rfl
      rw [this]; rfl
    · intro b _ e' he
      unfold assign at he
      split at he
      · simp [bind, Except.bind] at he
      · split at he
        · simp [bind, Except.bind] at he
        · simp only [bind, Except.bind] at he; cases he; rfl
  · rfl

example : collate [.tuple "X" [1, 2, 3], .tuple "Y" [1, 2]] = .ok [("X", [1, 2, 3]), ("Y", [1, 2])] ∧
    setData [.tuple "X" [1, 2, 3], .tuple "Y" [1, 2]] = .error .valueError := by decide +kernel

/-- **C09, counterexample.** Columns of lengths 2 and 1 are accepted: the single value is repeated. -/
theorem C09_length_one_counterexample :
    setData [.tuple "X" [1, 2], .tuple "M" [7]] = .ok [("X", [1, 2]), ("M", [7, 7])] := by decide +kernel

/-- **C08.** Anything that is neither a tuple nor a dict raises `TypeError`. -/
theorem C08_bad_argument (pre post : List Arg) (h : Arg.other ∉ pre) :
    setData (pre ++ .other :: post) = .error .typeError := by
  have : collate (pre ++ .other :: post) = .error .typeError := by
    induction pre with
    | nil => rfl
    | cons a pre ih =>
      have ih' := ih (fun hm => h (List.mem_cons_of_mem _ hm))
      cases a with
      | tuple l c => simp only [List.cons_append, collate, ih']; rfl
      | dict cs => simp only [List.cons_append, collate, ih']; rfl
      | other => exact absurd (by simp) h
  unfold setData; rw [this]; rfl

/-! ## C10 -/

/-- **C10.** Given properties are stored (whole numbers for shape and `num_bins`), the others are unset;
in particular nothing of an earlier state survives. -/
theorem C10_set_info (shape : Option (ℤ × ℤ)) (origin spacing : Option (ℚ × ℚ)) (nb : Option ℤ) (d : InfoDict)
    (hkeys : ∀ kv ∈ d, kv.1 ∈ ["shape", "origin", "spacing", "num_bins"])
    (h1 : d.lookup "shape" = shape.map fun p => .tuple [some (p.1 : ℚ), some (p.2 : ℚ)])
    (h2 : d.lookup "origin" = origin.map fun p => .tuple [some p.1, some p.2])
    (h3 : d.lookup "spacing" = spacing.map fun p => .tuple [some p.1, some p.2])
    (h4 : d.lookup "num_bins" = nb.map fun n => .num n) :
    setInfo d = .ok ⟨shape, origin, spacing, nb⟩ := by
  unfold setInfo
  rw [h1, h2, h3, h4]
  have : d.all (fun kv => kv.1 ∈ ["shape", "origin", "spacing", "num_bins"]) = true := by
    rw [List.all_eq_true]; intro kv hkv; simpa using hkeys kv hkv
  rcases shape with _ | ⟨a, b⟩ <;> rcases origin with _ | ⟨a, b⟩ <;> rcases spacing with _ | ⟨a, b⟩ <;>
    rcases nb with _ | n <;>
    simp only [Option.map_some, Option.map_none, setPair, setNum, bind, Except.bind, this, if_true,
      pyInt_intCast, id]

example : setInfo [("spacing", .tuple [some (1 / 2), some 2]), ("num_bins", .num 6)] =
    .ok { spacing := some (1 / 2, 2), numBins := some 6 } := by decide +kernel

/-- **C10.** An unknown key never goes through: the call fails, with `KeyError` when the known values are
acceptable. -/
theorem C10_unknown_key (d : InfoDict) (h : ∃ kv ∈ d, kv.1 ∉ ["shape", "origin", "spacing", "num_bins"]) :
    (∃ e, setInfo d = .error e) ∧
      ((∃ i, setInfo (d.filter fun kv => kv.1 ∈ ["shape", "origin", "spacing", "num_bins"]) = .ok i) →
        setInfo d = .error .keyError) := by
  have hall : d.all (fun kv => kv.1 ∈ ["shape", "origin", "spacing", "num_bins"]) = false := by
    rw [List.all_eq_false]; obtain ⟨kv, hkv, hn⟩ := h; exact ⟨kv, hkv, by simpa using hn⟩
  have hlook : ∀ k ∈ ["shape", "origin", "spacing", "num_bins"],
      (d.filter fun kv => kv.1 ∈ ["shape", "origin", "spacing", "num_bins"]).lookup k = d.lookup k := by
    intro k hk
    clear h hall
    induction d with
    | nil => rfl
    | cons p d ih =>
      obtain ⟨a, b⟩ := p
      by_cases ha : a ∈ ["shape", "origin", "spacing", "num_bins"]
      · rw [List.filter_cons_of_pos (by simpa using ha), List.lookup_cons, List.lookup_cons, ih]
      · rw [List.filter_cons_of_neg (by simpa using ha), List.lookup_cons, ih]
        have : (k == a) = false := by rw [beq_eq_false_iff_ne]; rintro rfl; exact ha hk
        rw [this]
  constructor
  · unfold setInfo
    simp only [hall, bind, Except.bind]
    repeat' split
    all_goals first | exact ⟨_, rfl⟩ | (rename_i hh; simp at hh)
  · rintro ⟨i, hi⟩
    unfold setInfo at hi ⊢
    rw [hlook _ (by simp), hlook _ (by simp), hlook _ (by simp), hlook _ (by simp)] at hi
    simp only [hall, bind, Except.bind] at hi ⊢
    cases h1 : setPair pyInt (d.lookup "shape") with
    | error e => rw [h1] at hi; simp at hi
    | ok v1 =>
      cases h2 : setPair (id : ℚ → ℚ) (d.lookup "origin") with
      | error e => rw [h1, h2] at hi; simp at hi
      | ok v2 =>
        cases h3 : setPair (id : ℚ → ℚ) (d.lookup "spacing") with
        | error e => rw [h1, h2, h3] at hi; simp at hi
        | ok v3 =>
          cases h4 : setNum (d.lookup "num_bins") with
          | error e => rw [h1, h2, h3, h4] at hi; simp at hi
          | ok v4 => simp

example : setInfo [("size", .num 1), ("num_bins", .num 3)] = .error .keyError := by decide +kernel

/-- What a pair property becomes: unset when nothing, `None` or `(None, None)` is given, else the first two
numbers of the tuple, read as `conv` does. -/
def PairGiven {α : Type} (conv : ℚ → α) (v : Option InfoVal) (r : Option (α × α)) : Prop :=
  ((v = none ∨ v = some .none ∨ v = some (.tuple [none, none])) ∧ r = none) ∨
    ∃ a b rest, v = some (.tuple (some a :: some b :: rest)) ∧ r = some (conv a, conv b)

/-- What `num_bins` becomes: unset when nothing or `None` is given, else the whole part of the number. -/
def NumGiven (v : Option InfoVal) (r : Option ℤ) : Prop :=
  ((v = none ∨ v = some .none) ∧ r = none) ∨ ∃ a, v = some (.num a) ∧ r = some (pyInt a)

theorem setPair_iff {α : Type} (conv : ℚ → α) (v : Option InfoVal) (r : Option (α × α)) :
    setPair conv v = .ok r ↔ PairGiven conv v r := by
  unfold PairGiven
  match v with
  | none => simp [setPair, eq_comm]
  | some .none => simp [setPair, eq_comm]
  | some (.num v) => simp [setPair]
  | some (.tuple []) => simp [setPair]
  | some (.tuple [x]) => cases x <;> simp [setPair]
  | some (.tuple [none, none]) => simp [setPair, eq_comm]
  | some (.tuple (none :: none :: z :: l)) => simp [setPair]
  | some (.tuple (none :: some y :: l)) => simp [setPair]
  | some (.tuple (some x :: none :: l)) => simp [setPair]
  | some (.tuple (some x :: some y :: l)) =>
    simp only [setPair, Except.ok.injEq]
    constructor
    · rintro rfl; exact Or.inr ⟨x, y, l, rfl, rfl⟩
    · rintro (⟨h | h | h, -⟩ | ⟨a, b, rest, h, rfl⟩)
      · cases h
      · cases h
      · simp at h
      · simp only [Option.some.injEq, InfoVal.tuple.injEq, List.cons.injEq] at h
        obtain ⟨rfl, rfl, -⟩ := h; rfl

theorem setNum_iff (v : Option InfoVal) (r : Option ℤ) : setNum v = .ok r ↔ NumGiven v r := by
  unfold NumGiven
  match v with
  | none => simp [setNum, eq_comm]
  | some .none => simp [setNum, eq_comm]
  | some (.num v) => simp [setNum, eq_comm]
  | some (.tuple l) => simp [setNum]

/-- **C10.** Exactly which dictionaries are accepted, and what they set: nothing but the four keys, pairs
of numbers (or `None`, or a pair of `None`s) for shape, origin and spacing and a number (or `None`) for
`num_bins`. -/
theorem C10_set_info_iff (d : InfoDict) (i : Info) :
    setInfo d = .ok i ↔ (∀ kv ∈ d, kv.1 ∈ ["shape", "origin", "spacing", "num_bins"]) ∧
      PairGiven pyInt (d.lookup "shape") i.shape ∧ PairGiven id (d.lookup "origin") i.origin ∧
      PairGiven id (d.lookup "spacing") i.spacing ∧ NumGiven (d.lookup "num_bins") i.numBins := by
  have hall : (∀ kv ∈ d, kv.1 ∈ ["shape", "origin", "spacing", "num_bins"]) ↔
      d.all (fun kv => kv.1 ∈ ["shape", "origin", "spacing", "num_bins"]) = true := by
    rw [List.all_eq_true]; simp only [decide_eq_true_eq]
  rw [hall, ← setPair_iff, ← setPair_iff, ← setPair_iff, ← setNum_iff]
  unfold setInfo
  cases h1 : setPair pyInt (d.lookup "shape") with
  | error e => simp [bind, Except.bind]
  | ok v1 =>
    cases h2 : setPair (id : ℚ → ℚ) (d.lookup "origin") with
    | error e => simp [bind, Except.bind]
    | ok v2 =>
      cases h3 : setPair (id : ℚ → ℚ) (d.lookup "spacing") with
      | error e => simp [bind, Except.bind]
      | ok v3 =>
        cases h4 : setNum (d.lookup "num_bins") with
        | error e => simp [bind, Except.bind]
        | ok v4 =>
          simp only [bind, Except.bind, Except.ok.injEq]
          by_cases hd : d.all (fun kv => kv.1 ∈ ["shape", "origin", "spacing", "num_bins"]) = true
          · rw [if_pos hd]
            obtain ⟨i1, i2, i3, i4⟩ := i
            simp only [Except.ok.injEq, Info.mk.injEq, hd, true_and]
          · rw [if_neg hd]
            simp only [reduceCtorEq, false_iff]
            exact fun h => hd h.1

example : (∃ i, setInfo [("shape", .tuple [some (7 / 2), some (-3 / 2), some 9]), ("num_bins", .num (9 / 2))] = .ok i ∧
      i.shape = some (3, -1) ∧ i.numBins = some 4) ∧
    setInfo [("num_bins", .tuple [some 1])] = .error .valueError ∧
    setInfo [("shape", .tuple [some 1, none])] = .error .valueError ∧
    setInfo [("shape", .tuple [none, none])] = .ok {} := by
  refine ⟨⟨⟨some (3, -1), none, none, some 4⟩, by decide +kernel, rfl, rfl⟩, ?_, ?_, ?_⟩ <;> decide +kernel

/-- **C10.** The size of the system is the number of bins times their spacing along each axis, and is
known exactly when both the shape and the spacing are. -/
theorem C10_size (f : Flow) :
    (∀ w h, boxSize f = some (w, h) ↔ ∃ nx ny dx dy, f.info.shape = some (nx, ny) ∧ f.info.spacing = some (dx, dy) ∧
      w = nx * dx ∧ h = ny * dy) ∧
      (boxSize f = none ↔ f.info.shape = none ∨ f.info.spacing = none) := by
  unfold boxSize
  rcases f.info.shape with _ | ⟨nx, ny⟩ <;> rcases f.info.spacing with _ | ⟨dx, dy⟩ <;> simp [eq_comm]

example : boxSize ⟨[], { shape := some (3, 5), spacing := some (1 / 2, 2) }⟩ = some (3 / 2, 10) := by decide +kernel

/-! ## C11 -/

/-- **C11.** A copy has the same columns and information. -/
theorem C11_copy_faithful (f : Flow) (h : Wf f.data) (hne : f.data ≠ []) : copy f = .ok f :=
  copy_eq f h hne

example : copy demo = .ok demo := C11_copy_faithful demo demo_wf (by decide)

/-- **C11.** Independence.  In any program that obtains its objects from the constructor and the methods
(`create`), after any history, no sequence of operations that does not name object `o` changes what is
seen of `o`; in particular updates of a copy do not reach the original and vice versa. -/
theorem C11_independent (history later : List Op) (o : ℕ)
    (ho : ((history.foldl Store.exec ⟨[], []⟩).objs.length) > o)
    (ht : ∀ op ∈ later, op.target ≠ some o) :
    ((history ++ later).foldl Store.exec ⟨[], []⟩).view o = (history.foldl Store.exec ⟨[], []⟩).view o := by
  have hsep : ∀ (ops : List Op) (s : Store), Separate s → Separate (ops.foldl Store.exec s) := by
    intro ops
    induction ops with
    | nil => intro s h; exact h
    | cons op ops ih => intro s h; exact ih _ (separate_exec s op h)
  have h0 : Separate ⟨[], []⟩ := ⟨by simp, by simp⟩
  have hs := hsep history _ h0
  rw [List.foldl_append]
  generalize history.foldl Store.exec ⟨[], []⟩ = s at *
  have hlen : ∀ (s : Store) (op : Op), s.objs.length ≤ (s.exec op).objs.length := by
    intro s op
    cases op with
    | update p f => simp only [Store.exec]; split <;> simp
    | setInfo p i => simp [Store.exec]
    | setData p r => simp [Store.exec]
    | create f => simp only [Store.exec]; split <;> simp
  induction later generalizing s with
  | nil => rfl
  | cons op later ih =>
    simp only [List.foldl_cons]
    rw [ih (fun x hx => ht x (by simp [hx])) (s.exec op) (lt_of_lt_of_le ho (hlen s op)) (separate_exec s op hs),
      view_exec s op hs o ho (ht op (by simp))]

/-- The hypotheses of `C11_independent` are met by: build a map, copy it, double the copy's masses. -/
example : let build : Op := .create fun _ => some demo
    let cp : Op := .create fun v => (v 0).bind fun f => (copy f).toOption
    let upd : Op := .update 1 fun r => r.map fun c => (c.1, c.2.map (· * 2))
    (([build, cp] ++ [upd]).foldl Store.exec ⟨[], []⟩).view 0 = some demo ∧
    (([build, cp] ++ [upd]).foldl Store.exec ⟨[], []⟩).view 1 ≠ some demo ∧ upd.target ≠ some 0 := by
  refine ⟨by decide +kernel, by decide +kernel, by decide⟩

/-! ## C12, C13 -/

/-- **C12.** `lims` keeps exactly the bins whose value lies in the closed interval, in their order and with
all their fields; `num_bins` is their number, the spacing is kept, shape and origin are unset. -/
theorem C12_lims (f : Flow) (h : Wf f.data) (l : Label) (lo hi : Option ℚ) (hl : l ∈ names f.data) :
    ∃ g, lims f l lo hi = .ok g ∧ names g.data = names f.data ∧ Wf g.data ∧
      bins g.data = (bins f.data).filter (fun b => decide (BinWithin l lo hi b)) ∧
      g.info = { shape := none, origin := none, spacing := f.info.spacing,
                 numBins := some ((bins g.data).length : ℤ) } := by
  obtain ⟨c, hc⟩ := (col?_isSome_iff f.data l).mpr hl
  refine ⟨_, lims_eq f h l lo hi hc, by simp, wf_gather _ h, bins_lims h l lo hi hc, ?_⟩
  simp only; rw [length_bins, size_gather _ _ (ne_nil_of_col hc)]

/-- **C12.** An unknown label raises `KeyError`. -/
theorem C12_unknown_label (f : Flow) (l : Label) (lo hi : Option ℚ) (hl : l ∉ names f.data) :
    lims f l lo hi = .error .keyError := by
  unfold lims; rw [(col?_none_iff f.data l).mpr hl]

example : lims demo "X" (some 1) none =
    .ok ⟨[("X", [1, 1]), ("Y", [0, 2]), ("M", [5, 7])], { spacing := some (1, 2), numBins := some 2 }⟩ := by
  decide +kernel

/-- **C13.** Two limits in either order give the same object, and it holds exactly the bins that satisfy
both conditions. -/
theorem C13_lims_commute (f : Flow) (h : Wf f.data) (l l' : Label) (lo hi lo' hi' : Option ℚ)
    (hl : l ∈ names f.data) (hl' : l' ∈ names f.data) :
    ∃ g, (lims f l lo hi >>= fun x => lims x l' lo' hi') = .ok g ∧
      (lims f l' lo' hi' >>= fun x => lims x l lo hi) = .ok g ∧
      bins g.data = (bins f.data).filter (fun b => decide (BinWithin l lo hi b ∧ BinWithin l' lo' hi' b)) := by
  have two : ∀ (l l' : Label) (lo hi lo' hi' : Option ℚ), l ∈ names f.data → l' ∈ names f.data →
      ∃ g, (lims f l lo hi >>= fun x => lims x l' lo' hi') = .ok g ∧ Wf g.data ∧ names g.data = names f.data ∧
        bins g.data = (bins f.data).filter (fun b => decide (BinWithin l lo hi b ∧ BinWithin l' lo' hi' b)) ∧
        g.info = { spacing := f.info.spacing, numBins := some ((bins g.data).length : ℤ) } := by
    intro l l' lo hi lo' hi' hl hl'
    obtain ⟨g, e1, n1, w1, b1, i1⟩ := C12_lims f h l lo hi hl
    obtain ⟨g', e2, n2, w2, b2, i2⟩ := C12_lims g w1 l' lo' hi' (by rw [n1]; exact hl')
    refine ⟨g', by rw [e1]; exact e2, w2, by rw [n2, n1], ?_, by rw [i2, i1]⟩
    rw [b2, b1, List.filter_filter]
    apply List.filter_congr
    intro b _
    by_cases h1 : BinWithin l lo hi b <;> by_cases h2 : BinWithin l' lo' hi' b <;> simp [h1, h2]
  obtain ⟨g, e, w, n, b, i⟩ := two l l' lo hi lo' hi' hl hl'
  obtain ⟨g', e', w', n', b', i'⟩ := two l' l lo' hi' lo hi hl' hl
  have hbb : bins g.data = bins g'.data := by
    rw [b, b']; apply List.filter_congr; intro b _; simp [and_comm]
  have hgg : g = g' := by
    have hd : g.data = g'.data := record_ext w w' (by rw [n, n']) hbb
    have hi : g.info = g'.info := by rw [i, i', hbb]
    cases g; cases g'
    simp only [Flow.mk.injEq] at *
    exact ⟨hd, hi⟩
  exact ⟨g, e, by rw [hgg]; exact e', b⟩

/-- **C13.** Applying the same limit twice changes nothing more. -/
theorem C13_lims_idempotent (f : Flow) (h : Wf f.data) (l : Label) (lo hi : Option ℚ)
    (hl : l ∈ names f.data) :
    (lims f l lo hi >>= fun x => lims x l lo hi) = lims f l lo hi := by
  obtain ⟨g, e1, n1, w1, b1, i1⟩ := C12_lims f h l lo hi hl
  obtain ⟨g', e2, n2, w2, b2, i2⟩ := C12_lims g w1 l lo hi (by rw [n1]; exact hl)
  rw [e1]
  show lims g l lo hi = .ok g
  rw [e2]
  have hbb : bins g'.data = bins g.data := by
    rw [b2, b1, List.filter_filter]; simp
  have hd : g'.data = g.data := record_ext w2 w1 n2 hbb
  have hi : g'.info = g.info := by rw [i2, i1, hbb]
  cases g; cases g'
  simp only [Flow.mk.injEq, Except.ok.injEq] at *
  exact ⟨hd, hi⟩

example : (lims demo "X" (some 1) none >>= fun x => lims x "M" none (some 6)) =
    .ok ⟨[("X", [1]), ("Y", [0]), ("M", [5])], { spacing := some (1, 2), numBins := some 1 }⟩ := by decide +kernel

/-! ## C14 -/

/-- **C14.** `cut` keeps exactly the bins inside the closed rectangle; a missing bound is the system's own
edge (`origin`, or `origin + shape·spacing`).  The information of the result: the corner of the rectangle
as origin, the old spacing, the numbers of distinct coordinates as shape and their product as `num_bins`. -/
theorem C14_cut (f : Flow) (h : Wf f.data) (hX : "X" ∈ names f.data) (hY : "Y" ∈ names f.data)
    (o s : ℚ × ℚ) (n : ℤ × ℤ) (ho : f.info.origin = some o) (hs : f.info.spacing = some s)
    (hn : f.info.shape = some n) (xlim ylim : Option ℚ × Option ℚ) :
    let xmin := xlim.1.getD o.1
    let xmax := xlim.2.getD (o.1 + n.1 * s.1)
    let ymin := ylim.1.getD o.2
    let ymax := ylim.2.getD (o.2 + n.2 * s.2)
    ∃ g xs ys, cut f xlim ylim = .ok g ∧ names g.data = names f.data ∧ Wf g.data ∧
      bins g.data = (bins f.data).filter (fun b => decide
        (BinWithin "X" (some xmin) (some xmax) b ∧ BinWithin "Y" (some ymin) (some ymax) b)) ∧
      getData g "X" = some xs ∧ getData g "Y" = some ys ∧
      g.info = { shape := some (xs.dedup.length, ys.dedup.length), origin := some (xmin, ymin),
                 spacing := some s, numBins := some (xs.dedup.length * ys.dedup.length) } := by
  intro xmin xmax ymin ymax
  obtain ⟨g, e1, n1, w1, b1, i1⟩ := C12_lims f h "X" (some xmin) (some xmax) hX
  obtain ⟨g', e2, n2, w2, b2, i2⟩ := C12_lims g w1 "Y" (some ymin) (some ymax) (by rw [n1]; exact hY)
  obtain ⟨xs, hxs⟩ := (col?_isSome_iff g'.data "X").mpr (by rw [n2, n1]; exact hX)
  obtain ⟨ys, hys⟩ := (col?_isSome_iff g'.data "Y").mpr (by rw [n2, n1]; exact hY)
  refine ⟨⟨g'.data, ⟨some (xs.dedup.length, ys.dedup.length), some (xmin, ymin), some s,
    some (xs.dedup.length * ys.dedup.length)⟩⟩, xs, ys, ?_, by simp only; rw [n2, n1], w2, ?_, hxs, hys, rfl⟩
  · obtain ⟨ox, oy⟩ := o
    obtain ⟨dx, dy⟩ := s
    obtain ⟨nx, ny⟩ := n
    unfold cut
    rw [ho, hs, hn]
    simp only [bind, Except.bind, e1]
    simp only [bind, Except.bind, xmin, xmax, ymin, ymax] at e1 e2
    rw [e1]
    simp only
    rw [e2]
    simp only [hxs, hys]
    have hd : setInfo [("spacing", pairVal (some (dx, dy))), ("origin", pairVal (some (xlim.1.getD ox, ylim.1.getD oy))),
        ("shape", pairVal (some ((xs.dedup.length : ℚ), (ys.dedup.length : ℚ)))),
        ("num_bins", .num (xs.dedup.length * ys.dedup.length : ℕ))] =
        .ok ⟨some (xs.dedup.length, ys.dedup.length), some (xlim.1.getD ox, ylim.1.getD oy), some (dx, dy),
          some (xs.dedup.length * ys.dedup.length)⟩ := by
      apply C10_set_info
      · simp
      · simp [List.lookup_cons, pairVal]
      · simp [List.lookup_cons, pairVal]
      · simp [List.lookup_cons, pairVal]
      · simp [List.lookup_cons]
    rw [hd]
  · simp only
    rw [b2, b1, List.filter_filter]
    apply List.filter_congr
    intro b _
    by_cases h1 : BinWithin "X" (some xmin) (some xmax) b <;>
      by_cases h2 : BinWithin "Y" (some ymin) (some ymax) b <;> simp [h1, h2]

/-- **C14.** On a full grid (stored in any order) the product of the new shape is the number of remaining
bins, as is `num_bins`; what remains is again a full grid. -/
theorem C14_cut_grid (f : Flow) (h : Wf f.data) (hX : "X" ∈ names f.data) (hY : "Y" ∈ names f.data)
    (o s : ℚ × ℚ) (n : ℤ × ℤ) (ho : f.info.origin = some o) (hs : f.info.spacing = some s)
    (hn : f.info.shape = some n) (xlim ylim : Option ℚ × Option ℚ) (xs ys : List ℚ)
    (hg : IsGrid f.data xs ys) :
    ∃ g nx ny, cut f xlim ylim = .ok g ∧ g.info.shape = some (nx, ny) ∧
      nx * ny = (bins g.data).length ∧ g.info.numBins = some ((bins g.data).length : ℤ) ∧
      ∃ xs' ys', IsGrid g.data xs' ys' ∧ xs'.Sublist xs ∧ ys'.Sublist ys ∧
        (bins g.data ≠ [] → nx = xs'.length ∧ ny = ys'.length) := by
  obtain ⟨g, cx, cy, e, hnm, w, hb, hcx, hcy, hi⟩ := C14_cut f h hX hY o s n ho hs hn xlim ylim
  have hg' := isGrid_filter hg _ _ _ _ hb
  obtain ⟨p1, p2, hlen⟩ := grid_cols w hg' hcx hcy
  generalize hxs' : (xs.filter fun x => decide (Within (some (xlim.1.getD o.1))
    (some (xlim.2.getD (o.1 + n.1 * s.1))) x)) = xs' at *
  generalize hys' : (ys.filter fun y => decide (Within (some (ylim.1.getD o.2))
    (some (ylim.2.getD (o.2 + n.2 * s.2))) y)) = ys' at *
  have hprod : cx.dedup.length * cy.dedup.length = (bins g.data).length ∧
      (bins g.data ≠ [] → cx.dedup.length = xs'.length ∧ cy.dedup.length = ys'.length) := by
    by_cases hx : xs' = []
    · subst hx
      have : cx = [] := by simpa using p1
      rw [hlen, this]
      refine ⟨by simp, fun hne => absurd (List.eq_nil_of_length_eq_zero (by rw [hlen]; simp)) hne⟩
    · by_cases hy : ys' = []
      · subst hy
        have : cy = [] := by
          have := p2.length_eq; simp at this; exact this
        rw [hlen, this]
        refine ⟨by simp, fun hne => absurd (List.eq_nil_of_length_eq_zero (by rw [hlen]; simp)) hne⟩
      · rw [dedup_length_of hg'.1 hy p1, dedup_length_of' hg'.2.1 hx p2, hlen]
        exact ⟨rfl, fun _ => ⟨rfl, rfl⟩⟩
  refine ⟨g, cx.dedup.length, cy.dedup.length, e, by rw [hi], ?_, ?_, xs', ys', hg', ?_, ?_, ?_⟩
  · exact_mod_cast hprod.1
  · rw [hi]; simp only [Option.some.injEq]; exact_mod_cast hprod.1
  · rw [← hxs']; exact List.filter_sublist
  · rw [← hys']; exact List.filter_sublist
  · intro hne
    obtain ⟨a, b⟩ := hprod.2 hne
    exact ⟨by exact_mod_cast a, by exact_mod_cast b⟩

example : IsGrid demo.data [0, 1] [0, 2] ∧ cut demo (some (1 / 2), none) (none, none) =
    .ok ⟨[("X", [1, 1]), ("Y", [0, 2]), ("M", [5, 7])],
      { shape := some (1, 2), origin := some (1 / 2, 0), spacing := some (1, 2), numBins := some 2 }⟩ := by
  refine ⟨⟨by decide +kernel, by decide +kernel, ?_⟩, by decide +kernel⟩
  decide +kernel

/-! ## C15 -/

/-- **C15.** Sorting is a reordering of whole bins, ascending in y and, for equal y, in x; labels and
information stay. -/
theorem C15_sort (f : Flow) (h : Wf f.data) (hX : "X" ∈ names f.data) (hY : "Y" ∈ names f.data) :
    ∃ g, sort f = .ok g ∧ g.info = f.info ∧ names g.data = names f.data ∧ Wf g.data ∧
      (bins g.data).Perm (bins f.data) ∧
      (bins g.data).Pairwise (fun a b => ∃ xa ya xb yb, a.val "X" = some xa ∧ a.val "Y" = some ya ∧
        b.val "X" = some xb ∧ b.val "Y" = some yb ∧ (ya < yb ∨ (ya = yb ∧ xa ≤ xb))) := by
  obtain ⟨cx, hcx⟩ := (col?_isSome_iff f.data "X").mpr hX
  obtain ⟨cy, hcy⟩ := (col?_isSome_iff f.data "Y").mpr hY
  have hne := ne_nil_of_col hcx
  refine ⟨⟨gather (argsort f.data ["Y", "X"]) f.data, f.info⟩, ?_, rfl, by simp, wf_gather _ h, ?_, ?_⟩
  · unfold sort sortRecord
    rw [if_pos (by simp [hX, hY])]; rfl
  · simp only
    rw [bins_gather _ hne]
    exact (argsort_perm _ _).map _
  · simp only
    rw [bins_gather _ hne, List.pairwise_map]
    refine (argsort_sorted f.data ["Y", "X"]).imp ?_
    intro i j hij
    refine ⟨cx.getD i 0, cy.getD i 0, cx.getD j 0, cy.getD j 0, by simp [val_binAt, hcx], by simp [val_binAt, hcy],
      by simp [val_binAt, hcx], by simp [val_binAt, hcy], ?_⟩
    simp only [keyAt, sortKeys, List.map_append, List.map_cons, List.cons_append, hcx, hcy, Option.getD_some,
      lexLE] at hij
    rcases lt_trichotomy (cy.getD i 0) (cy.getD j 0) with hlt | heq | hgt
    · exact Or.inl hlt
    · right
      refine ⟨heq, ?_⟩
      rw [heq] at hij
      simp only [lt_irrefl, if_false] at hij
      by_contra hc
      rw [not_le] at hc
      simp only [hc, hc.not_gt, if_false, if_true, Bool.false_eq_true] at hij
    · simp only [hgt, hgt.not_gt, if_false, if_true, Bool.false_eq_true] at hij

/-- **C15.** Sorting twice is sorting once, and the result does not depend on the initial order (bins with
all fields equal being indistinguishable). -/
theorem C15_sort_canonical (f g : Flow) (hf : Wf f.data) (hg : Wf g.data) (hn : names f.data = names g.data)
    (hi : f.info = g.info) (hX : "X" ∈ names f.data) (hY : "Y" ∈ names f.data)
    (hp : (bins f.data).Perm (bins g.data)) : sort f = sort g := by
  have hne : f.data ≠ [] := by rintro h; rw [h] at hX; simp [names] at hX
  unfold sort sortRecord
  rw [if_pos (by simp [hX, hY]), if_pos (by simp [← hn, hX, hY]),
    sortRecord_canonical hf hg hn hne hp ["Y", "X"] (by simp [hX, hY]), hi]

example : sort demo = .ok ⟨[("X", [0, 1, 0, 1]), ("Y", [0, 0, 2, 2]), ("M", [6, 5, 8, 7])], demo.info⟩ := by
  decide +kernel

/-! ## C16 -/

/-- **C16.** Translating by a number adds it to one column; every other column, the order of the bins and
the information are unchanged. -/
theorem C16_translate (f : Flow) (h : Wf f.data) (l : Label) (c : List ℚ) (hc : getData f l = some c) (v : ℚ) :
    ∃ g, translate f l (.scalar v) = .ok g ∧ g.info = f.info ∧ names g.data = names f.data ∧ Wf g.data ∧
      getData g l = some (c.map (· + v)) ∧ ∀ l' ≠ l, getData g l' = getData f l' := by
  have hc' : col? f.data l = some c := hc
  have hl : l ∈ names f.data := (col?_isSome_iff _ _).mp ⟨c, hc'⟩
  refine ⟨_, translate_eq f h l c hc' v, rfl, by simp [names_setCol], wf_setCol h l _ ?_, ?_, ?_⟩
  · simpa using col?_length h hc'
  · unfold getData; simp only; rw [col?_setCol _ _ _ _ hl]; simp
  · intro l' hne; unfold getData; simp only; rw [col?_setCol _ _ _ _ hl, if_neg hne]

/-- **C16.** Translating back restores the object. -/
theorem C16_translate_back (f : Flow) (h : Wf f.data) (l : Label) (hl : l ∈ names f.data) (v : ℚ) :
    (translate f l (.scalar v) >>= fun g => translate g l (.scalar (-v))) = .ok f := by
  obtain ⟨c, hc⟩ := (col?_isSome_iff _ _).mpr hl
  rw [translate_eq f h l c hc v]
  show translate _ _ _ = _
  rw [translate_eq _ (wf_setCol h l _ (by simpa using col?_length h hc)) l (c.map (· + v))
    (by rw [col?_setCol _ _ _ _ hl]; simp), setCol_setCol]
  have : (c.map (· + v)).map (· + -v) = c := by
    rw [List.map_map]; conv_rhs => rw [← List.map_id c]
    apply List.map_congr_left; intro x _; simp
  rw [this, setCol_same h l c hc]

/-- **C16.** Translating by an array adds element by element. -/
theorem C16_translate_array (f : Flow) (h : Wf f.data) (l : Label) (c vs : List ℚ) (hc : getData f l = some c)
    (hv : vs.length = c.length) :
    ∃ g, translate f l (.array vs) = .ok g ∧ g.info = f.info ∧ names g.data = names f.data ∧ Wf g.data ∧
      getData g l = some (List.zipWith (· + ·) c vs) ∧ ∀ l' ≠ l, getData g l' = getData f l' := by
  have hc' : col? f.data l = some c := hc
  have hl : l ∈ names f.data := (col?_isSome_iff _ _).mp ⟨c, hc'⟩
  refine ⟨⟨setCol f.data l (List.zipWith (· + ·) c vs), f.info⟩, ?_, rfl, by simp [names_setCol], wf_setCol h l _ ?_, ?_, ?_⟩
  · unfold translate
    rw [copy_eq f h (ne_nil_of_col hc')]
    simp only [bind, Except.bind, hc', addTo, hv, if_true]
  · simpa [hv] using col?_length h hc'
  · unfold getData; simp only; rw [col?_setCol _ _ _ _ hl]; simp
  · intro l' hne; unfold getData; simp only; rw [col?_setCol _ _ _ _ hl, if_neg hne]

/-- **C16.** An array of one value is added to every bin, and an array of any other length than the number
of bins raises `ValueError`. -/
theorem C16_translate_broadcast (f : Flow) (h : Wf f.data) (l : Label) (c vs : List ℚ) (hc : getData f l = some c) :
    (∀ v, vs = [v] → translate f l (.array vs) = translate f l (.scalar v)) ∧
      (vs.length ≠ c.length → vs.length ≠ 1 → translate f l (.array vs) = .error .valueError) := by
  have hc' : col? f.data l = some c := hc
  unfold translate
  rw [copy_eq f h (ne_nil_of_col hc')]
  simp only [bind, Except.bind, hc', addTo]
  constructor
  · rintro v rfl
    by_cases hl : [v].length = c.length
    · rw [if_pos hl]
      match c, hl with
      | [x], _ => rfl
    · rw [if_neg hl]
  · intro hl h1
    rw [if_neg hl]
    match vs, h1 with
    | [], _ => rfl
    | [v], h1 => exact absurd rfl h1
    | a :: b :: l, _ => rfl

example : translate demo "Y" (.array [-2]) = translate demo "Y" (.scalar (-2)) ∧
    translate demo "Y" (.array [1, 2]) = .error .valueError := by decide +kernel

/-- **C16.** An unknown label raises `KeyError`. -/
theorem C16_unknown_label (f : Flow) (h : Wf f.data) (hne : f.data ≠ []) (l : Label) (hl : l ∉ names f.data)
    (v : Shift) : translate f l v = .error .keyError := by
  unfold translate
  rw [copy_eq f h hne]
  show (match col? f.data l with | none => _ | some c => _) = _
  rw [(col?_none_iff f.data l).mpr hl]

example : translate demo "Y" (.scalar (-2)) = .ok ⟨[("X", [1, 0, 1, 0]), ("Y", [-2, -2, 0, 0]), ("M", [5, 6, 7, 8])],
    demo.info⟩ := by decide +kernel

/-! ## C17 -/

/-- **C17.** The indices are exactly the positions of the bins that satisfy every limit, ascending; without
limits all positions. -/
theorem C17_lim_indices (r : Record) (h : Wf r) (ls : List (Label × Option ℚ × Option ℚ))
    (hn : ∀ l ∈ ls, l.1 ∈ names r) :
    getLimIndices r ls = .ok ((List.range (size r)).filter fun i =>
      ls.all fun l => decide (BinWithin l.1 l.2.1 l.2.2 (binAt r i))) := by
  cases ls with
  | nil => simp [getLimIndices]
  | cons l ls =>
    obtain ⟨c, hc⟩ := (col?_isSome_iff r l.1).mpr (hn l (by simp))
    obtain ⟨out, h1, h2, h3⟩ := limLoop_spec r ls (whereIdx (inLims l.2.1 l.2.2) c)
      (fun x hx => hn x (by simp [hx])) (whereIdx_sorted _ _)
    have : getLimIndices r (l :: ls) = .ok out := by
      obtain ⟨l, lo, hi⟩ := l
      simp only [getLimIndices, hc]; exact h1
    rw [this]
    congr 1
    refine List.Perm.eq_of_pairwise (le := (· < ·)) (fun a b _ _ x y => absurd x (by omega)) h2
      (List.Pairwise.sublist List.filter_sublist List.pairwise_lt_range) ?_
    rw [List.perm_ext_iff_of_nodup (h2.imp (fun h => by omega)) (List.nodup_range.filter _)]
    intro i
    rw [h3, mem_whereIdx, within_iff, List.mem_filter, List.mem_range, List.all_eq_true]
    simp only [List.mem_cons, forall_eq_or_imp, decide_eq_true_eq, BinWithin, val_binAt, hc, Option.map_some,
      Option.some.injEq, exists_eq_left', col?_length h hc]
    constructor
    · rintro ⟨⟨a, b⟩, d⟩
      refine ⟨a, b, ?_⟩
      intro x hx
      obtain ⟨cx, e1, _, e3⟩ := d x hx
      exact ⟨_, by rw [e1]; rfl, e3⟩
    · rintro ⟨a, b, d⟩
      refine ⟨⟨a, b⟩, ?_⟩
      intro x hx
      obtain ⟨cx, e1⟩ := (col?_isSome_iff r x.1).mpr (hn x (by simp [hx]))
      obtain ⟨v, e2, e3⟩ := d x hx
      rw [e1] at e2
      simp only [Option.map_some, Option.some.injEq] at e2
      exact ⟨cx, e1, by rw [col?_length h e1]; exact a, by rw [e2]; exact e3⟩

/-- **C17.** A limit on an unknown field raises. -/
theorem C17_unknown_label (r : Record) (ls : List (Label × Option ℚ × Option ℚ))
    (hn : ∃ l ∈ ls, l.1 ∉ names r) : getLimIndices r ls = .error .valueError := by
  have key : ∀ (ls : List (Label × Option ℚ × Option ℚ)) (idx : List ℕ), (∃ l ∈ ls, l.1 ∉ names r) →
      limLoop r idx ls = .error .valueError := by
    intro ls
    induction ls with
    | nil => intro idx h; simp at h
    | cons l ls ih =>
      intro idx h
      obtain ⟨l, lo, hi⟩ := l
      by_cases hl : l ∈ names r
      · obtain ⟨c, hc⟩ := (col?_isSome_iff r l).mpr hl
        simp only [limLoop, hc]
        apply ih
        obtain ⟨x, hx, hx'⟩ := h
        rcases List.mem_cons.mp hx with rfl | hx
        · exact absurd hl hx'
        · exact ⟨x, hx, hx'⟩
      · simp only [limLoop, (col?_none_iff r l).mpr hl]
  cases ls with
  | nil => simp at hn
  | cons l ls =>
    obtain ⟨l, lo, hi⟩ := l
    by_cases hl : l ∈ names r
    · obtain ⟨c, hc⟩ := (col?_isSome_iff r l).mpr hl
      simp only [getLimIndices, hc]
      apply key
      obtain ⟨x, hx, hx'⟩ := hn
      rcases List.mem_cons.mp hx with rfl | hx
      · exact absurd hl hx'
      · exact ⟨x, hx, hx'⟩
    · simp only [getLimIndices, (col?_none_iff r l).mpr hl]

example : getLimIndices demo.data [("X", some 1, none), ("M", some 6, some 8)] = .ok [2] ∧
    getLimIndices demo.data [] = .ok [0, 1, 2, 3] := by decide +kernel

end Strata.Flow
