import Verif.Props.CommandRuns
import Verif.Props.SavedRuns
import Verif.Props.SpreadingMaps
import Verif.Spec.CommandSeries
import Verif.Model.CommandSeries
/-!
# C142: the interface commands and `sample` do to files what their options say
-/
namespace Strata.CommandSeries
open Strata Strata.Files Strata.Spec Strata.Commands Strata.CommandRuns Strata.SpreadingFiles Strata.SavedRuns Strata.InterfaceFiles Strata.InterfaceText Strata.Bytes

theorem saveTo_text (t : String) : saveTo (.text t) = .ok (if t = "" then none else some t.toList) := by
  unfold saveTo
  by_cases h : t = ""
  · subst h; rfl
  · have : truthy (.text t) = true := by simp [truthy, h]
    rw [if_pos this, if_neg h]; rfl

theorem saveTo_opt (t : Option String) : saveTo (t.elim .none .text) = .ok (if t = some "" then none else t.map String.toList) := by
  cases t with
  | none => rfl
  | some t =>
    show saveTo (.text t) = _
    rw [saveTo_text]
    by_cases h : t = ""
    · subst h; rfl
    · rw [if_neg h, if_neg (by simpa using h)]; rfl

theorem optText_eq (t : Option String) : optText (t.elim .none .text) = .ok (t.map String.toList) := by cases t <;> rfl

/-- **C142, `strata interface collect` (partial: without its exit status).** The command leaves the files that collecting the interfaces with the options asked for leaves, as files with the
extension '.xvg', and fails as it does; if nothing fails, the command still ends with a `TypeError` (see C110 and C111). -/
theorem C142_interface_collect_partial (F : F32) (head : Call → Text → Head) (fs : FS Bytes) (dir : Dir) (base output : String) (given : Kw) (c : InterfaceChoice) (h : c.Asked given) :
    ∃ call r, call.function = "collect_interfaces" ∧
      r = collectSeries (readFlow F) byteStore.encode (head call) (c.recenter.getD .other)
        { cutoff := c.cutoff, radius := some c.radius, bins := c.bins, longest := true, ylims := c.ylims } fs dir base.toList output.toList c.ext.toList none c.first c.last ∧
      (interfaceCollectCommand F head fs dir (.text base) (.text output) given).1 = r.1 ∧
      (∀ e, r.2 = .error e → (interfaceCollectCommand F head fs dir (.text base) (.text output) given).2 = .error e) ∧
      (r.2 = .ok () → (interfaceCollectCommand F head fs dir (.text base) (.text output) given).2 = .error .typeError) := by
  obtain ⟨call, h1, h2, h3, hg⟩ := C110_interface_collect (.text base) (.text output) given
  have hr : centreOf (get call.kwargs "recenter" .none) = c.recenter.getD .other := by
    rw [get_eq ((hg "recenter").trans rfl)]
    rcases h.recenter with ⟨a, b⟩ | ⟨a, b⟩ | ⟨a, b⟩ <;> rw [a, b] <;> decide
  have ho : get call.kwargs "outext" (.text ".xvg") = .text ".xvg" := get_none ((hg "outext").trans rfl)
  have hrun : runInterfaces F head dir call fs = collectSeries (readFlow F) byteStore.encode (head call) (c.recenter.getD .other)
        { cutoff := c.cutoff, radius := some c.radius, bins := c.bins, longest := true, ylims := c.ylims } fs dir base.toList output.toList c.ext.toList none c.first c.last := by
    unfold runInterfaces
    rw [h3]
    simp only
    rw [hr, ho, get_eq ((hg "begin").trans rfl), get_eq ((hg "end").trans rfl), get_eq ((hg "ext").trans rfl), get_eq ((hg "cutoff").trans rfl), get_eq ((hg "cutoff_radius").trans rfl),
      get_eq ((hg "cutoff_bins").trans rfl), get_eq ((hg "ylims").trans rfl), h.first, h.last, h.ext, h.cutoff, h.radius, h.bins, h.ylims, whole_int, whole_int, lastOf_eq, optNumber_eq]
    rfl
  refine ⟨call, _, h2, rfl, ?_⟩
  unfold interfaceCollectCommand interfaceCollectCli
  rw [h1]
  simp only
  rw [hrun]
  generalize collectSeries (readFlow F) byteStore.encode (head call) (c.recenter.getD .other)
        { cutoff := c.cutoff, radius := some c.radius, bins := c.bins, longest := true, ylims := c.ylims } fs dir base.toList output.toList c.ext.toList none c.first c.last = r
  obtain ⟨r1, r2⟩ := r
  cases r2 with
  | error e => exact ⟨rfl, fun e' he => he, fun he => by cases he⟩
  | ok u => exact ⟨rfl, fun e' he => (by cases he), fun _ => rfl⟩

/-- **C142, `strata interface sample`.** -/
theorem C142_interface_sample (text : Bytes → Text) (head : Call → List Text) (fs : FS Bytes) (dir : Dir) (base kind : String) (given : Kw) (c : AreaChoice) (h : c.Asked given) :
    ∃ call, call.function = "sample_interfaces" ∧
      interfaceSampleCommand text head fs dir (.text base) (.text kind) given =
        run (interfaceItem text (if kind = "area" then .area else if kind = "length" then .length else .other) c.dt) sampleLine byteStore (head call)
          (if c.output = "" then none else some c.output.toList) fs dir base.toList c.ext.toList c.first c.last := by
  obtain ⟨call, h1, h2, -, hg⟩ := C110_interface_sample (.text base) (.text kind) given
  have hv : variableOf (.text kind) = if kind = "area" then .area else if kind = "length" then .length else .other := by
    unfold variableOf
    simp only [Commands.Arg.text.injEq]
  refine ⟨call, h2, ?_⟩
  unfold interfaceSampleCommand
  rw [h1, Commands.ok_bind, get_eq ((hg "save_xvg").trans rfl), get_eq ((hg "delta_t").trans rfl), get_eq ((hg "begin").trans rfl), get_eq ((hg "end").trans rfl),
    get_eq ((hg "ext").trans rfl), h.output, h.dt, h.first, h.last, h.ext, whole_int, lastOf_eq, saveTo_text, hv]
  rfl

/-- **C142, `strata interface angle` (partial: a height of 0 needs the fit as well).** -/
theorem C142_interface_angle_partial (text : Bytes → Text) (head : Call → List Text) (fs : FS Bytes) (dir : Dir) (base : String) (given : Kw) (c : AngleChoice) (h : c.Asked given) :
    ((c.fit = true ∨ ∃ q, c.height = some q ∧ q ≠ 0) → ∃ call, call.function = "interface_contact_angle" ∧
      interfaceAngleCommand text head fs dir (.text base) given =
        ((angleRun text byteStore.encode (head call) (if c.output = some "" then none else c.output.map String.toList) c.fit c.height c.dt fs dir base.toList c.ext.toList c.first c.last).1,
          (angleRun text byteStore.encode (head call) (if c.output = some "" then none else c.output.map String.toList) c.fit c.height c.dt fs dir base.toList c.ext.toList c.first c.last).2.map
            some)) ∧
    (c.fit = false → c.height = none → interfaceAngleCommand text head fs dir (.text base) given = (fs, .ok none)) := by
  obtain ⟨a1, a2⟩ := C110_interface_angle_partial (.text base) given
  constructor
  · intro hc
    obtain ⟨call, h1, h2, -, hg⟩ := a1 (by
      rw [h.fit, h.height]
      rcases hc with hc | ⟨q, hc, hq⟩
      · left; rw [hc]; rfl
      · right; rw [hc]; simp [optNum, truthy, hq])
    refine ⟨call, h2, ?_⟩
    unfold interfaceAngleCommand
    rw [h1]
    simp only
    rw [get_eq ((hg "fit").trans rfl), get_eq ((hg "height").trans rfl), get_eq ((hg "delta_t").trans rfl), get_eq ((hg "save_xvg").trans rfl), get_eq ((hg "begin").trans rfl),
      get_eq ((hg "end").trans rfl), get_eq ((hg "ext").trans rfl), h.fit, h.height, h.dt, h.output, h.first, h.last, h.ext, whole_int, lastOf_eq, saveTo_opt, optNumber_eq]
    rfl
  · intro hf hh
    unfold interfaceAngleCommand
    rw [a2 (by rw [h.fit, hf]; rfl) (by rw [h.height, hh]; rfl)]

/-- **C142, counterexample.** `strata interface angle BASE -h 0 -x OUT`, the angle at the substrate, measures and writes nothing, whatever the files. -/
theorem C142_height_zero_counterexample (text : Bytes → Text) (head : Call → List Text) (fs : FS Bytes) (dir : Dir) (base out : String) :
    interfaceAngleCommand text head fs dir (.text base) [("height", .num 0), ("save_xvg", .text out)] = (fs, .ok none) := by
  rfl

/-- **C142, `strata sample`.** -/
theorem C142_sample (F : F32) (line : ℚ × List SampleSeries.Value → Text) (head : Call → List Text) (fs : FS Bytes) (dir : Dir) (base : String) (labels : List String) (given : Kw)
    (c : SampleChoice) (h : c.Asked given) :
    ∃ call, call.function = "sample_average_files" ∧
      sampleCommand F line head fs dir (.text base) labels given =
        run (averageItem (readMap F) { sum := c.sum, cutoffLabel := c.cutoffLabel, cutoff := c.cutoff, floor := c.floor, xlim := c.xlim, ylim := c.ylim } c.dt labels) line byteStore (head call)
          (if c.output = "" then none else some c.output.toList) fs dir base.toList c.ext.toList c.first c.last := by
  obtain ⟨call, h1, h2, -, hg⟩ := C110_sample (.text base) labels given
  have hs : switch (get call.kwargs "sum" (.bool false)) = .ok c.sum := by
    rw [get_eq ((hg "sum").trans rfl)]
    unfold asksSum
    rw [h.sum]
    cases c.sum <;> rfl
  have hl : (c.cutoffLabel.map String.toList).map String.ofList = c.cutoffLabel := by
    cases c.cutoffLabel with
    | none => rfl
    | some t => simp
  refine ⟨call, h2, ?_⟩
  unfold sampleCommand
  rw [h1, Commands.ok_bind, hs, get_eq ((hg "output").trans rfl), get_eq ((hg "dt").trans rfl), get_eq ((hg "cutoff_label").trans rfl), get_eq ((hg "cutoff").trans rfl),
    get_eq ((hg "slip_floor").trans rfl), get_eq ((hg "xlim").trans rfl), get_eq ((hg "ylim").trans rfl), get_eq ((hg "begin").trans rfl), get_eq ((hg "end").trans rfl),
    get_eq ((hg "ext").trans rfl), h.output, h.dt, h.cutoff, h.cutoffLabel, h.floor, h.xlim, h.ylim, h.first, h.last, h.ext, whole_int, lastOf_eq, saveTo_text, optText_eq, optNumber_eq]
  show run (averageItem (readMap F) { sum := c.sum, cutoffLabel := (c.cutoffLabel.map String.toList).map String.ofList, cutoff := c.cutoff, floor := c.floor, xlim := c.xlim, ylim := c.ylim } c.dt
    labels) line byteStore (head call) (if c.output = "" then none else some c.output.toList) fs dir base.toList c.ext.toList c.first c.last = _
  rw [hl]

/-! ## Two commands after each other -/

/-- The interface files of a collection are found again under their numbers and hold the interfaces. -/
theorem collected_found {γ : Type} (read : γ → Except Err Flow.Flow) (write : Text → γ) (text : γ → Text) (head : Text → Head) (hhead : ∀ n, (head n).OneLine)
    (hcodec : ∀ n pts, text (write (interfaceFile (head n) pts)) = interfaceFile (head n) pts) (c : InterfaceFiles.Centre) (o : Interface.Opts) (fs : FS γ) (dir : Dir) (base output ext : Text)
    (b : ℤ) (e : Option ℤ) (maps : List Flow.Flow) (hmaps : List.Forall₂ (fun n f => (contentOf fs n).bind read = .ok f) (yieldSingles dir base ext b e) maps)
    (hcross : ∀ m n, m < n → splitPath (Files.fileName output ".xvg".toList m) ≠ splitPath (Files.fileName base ext n))
    (dir' : Dir) (hdir : Lists dir' (collectSeries read write head c o fs dir base output ext none b e).1 output ".xvg".toList) :
    (collectSeries read write head c o fs dir base output ext none b e).2 = (collectInterfaces c o none maps).2 ∧
    List.Forall₂ (HoldsInterface text (collectSeries read write head c o fs dir base output ext none b e).1)
      (yieldSingles dir' output ".xvg".toList b (some (b + ((collectInterfaces c o none maps).1.length : ℤ) - 1))) (collectInterfaces c o none maps).1 := by
  obtain ⟨h1, hlen, h2, -⟩ := collectSeries_spec read write head c o fs dir base output ext none b e maps hmaps (by decide) hcross
  have hx : (none : Option Text).getD ".xvg".toList = ".xvg".toList := rfl
  rw [hx] at h2
  refine ⟨h1, ?_⟩
  obtain ⟨k, g1, g2, g3⟩ := C02_discovery_maximal_prefix dir' output ".xvg".toList b (some (b + ((collectInterfaces c o none maps).1.length : ℤ) - 1))
  have hk : k = (collectInterfaces c o none maps).1.length := by
    rcases lt_trichotomy k (collectInterfaces c o none maps).1.length with h | h | h
    · have hex : Files.fileName output ".xvg".toList (b + k) ∈ dir' := by
        rw [hdir]
        rw [List.forall₂_map_left_iff] at h2
        have := (List.forall₂_iff_get.mp h2).2 k (by simpa using h) h
        obtain ⟨pts, -, -, hp⟩ := this
        simp only [List.get_eq_getElem, List.getElem_range] at hp
        rw [hp]
        rfl
      obtain ⟨m, hm1, hm2⟩ := g3 hex
      simp only [Option.some.injEq] at hm1
      omega
    · exact h
    · have := (g2 (collectInterfaces c o none maps).1.length h).2 _ rfl
      omega
  rw [g1, hk]
  refine h2.imp ?_
  rintro n rows ⟨pts, p1, p2, p3⟩
  refine ⟨_, p3, ?_⟩
  rw [hcodec, ← p1]
  exact readPoints_interface _ (hhead n) pts p2

/-- **C142, `strata interface collect` and `strata interface sample`.** The files at the base hold maps. The interfaces are collected with any options, and then sampled with the last number of the
collection: the second command succeeds, and its output, written without loss of files, is a table with one row for each interface: the time and the area between the interface, as it was written
with three decimals, and the substrate, or the length of the interface. -/
theorem C142_collect_and_sample (F : F32) (text : Bytes → Text) (head : Call → Text → Head) (head' : Call → List Text) (hhead : ∀ call n, (head call n).OneLine)
    (hhead' : ∀ call, Comments (head' call)) (hcodec : ∀ call n pts, text (byteStore.encode (interfaceFile (head call n) pts)) = interfaceFile (head call n) pts)
    (fs : FS Bytes) (dir : Dir) (base output out kind : String) (hkind : kind = "area" ∨ kind = "length") (hne : out ≠ "") (given given' : Kw) (c : InterfaceChoice) (h : c.Asked given) (maps : List Flow.Flow)
    (hmaps : List.Forall₂ (fun n f => (contentOf fs n).bind (readFlow F) = .ok f) (yieldSingles dir base.toList c.ext.toList c.first c.last) maps)
    (hcross : ∀ m n, m < n → splitPath (Files.fileName output.toList ".xvg".toList m) ≠ splitPath (Files.fileName base.toList c.ext.toList n))
    (dt : ℚ) (dir' : Dir) (hdir : Lists dir' (interfaceCollectCommand F head fs dir (.text base) (.text output) given).1 output.toList ".xvg".toList)
    (interfaces : List (List Point)) (hi : interfaces = (collectInterfaces (c.recenter.getD .other)
      { cutoff := c.cutoff, radius := some c.radius, bins := c.bins, longest := true, ylims := c.ylims } none maps).1)
    (hout : ∀ i : ℕ, i < interfaces.length → splitPath (Files.fileName output.toList ".xvg".toList (c.first + i)) ≠ splitPath out.toList)
    (h' : AreaChoice.Asked ⟨out, dt, c.first, some (c.first + (interfaces.length : ℤ) - 1), ".xvg"⟩ given') :
    ∃ fs' t rows samples, interfaceSampleCommand text head' (interfaceCollectCommand F head fs dir (.text base) (.text output) given).1 dir' (.text output) (.text kind) given' = (fs', samples, .ok ()) ∧
      WrittenSafely (interfaceCollectCommand F head fs dir (.text base) (.text output) given).1 fs' (splitPath out.toList) (byteStore.encode t) ∧ IsTable t rows ∧
      rows.length = interfaces.length ∧
      ∀ (i : ℕ) (pts : List Point), interfaces[i]? = some pts → ∃ a b, rows[i]? = some [a, b] ∧ Shown (some ((i : ℝ) * (dt : ℝ))) a ∧
        Shown (some (if kind = "area" then (polygonArea pts : ℝ) else pathLength pts)) b := by
  obtain ⟨call, r, -, hr, e1, -, -⟩ := C142_interface_collect_partial F head fs dir base output given c h
  rw [e1, hr] at hdir ⊢
  obtain ⟨-, hf⟩ := collected_found (readFlow F) byteStore.encode text (head call) (hhead call) (hcodec call) _ _ fs dir base.toList output.toList c.ext.toList c.first c.last maps hmaps hcross dir'
    hdir
  obtain ⟨call', -, e2⟩ := C142_interface_sample text head' r.1 dir' output kind given' _ h'
  rw [hr] at e2
  simp only at e2
  rw [if_neg hne] at e2
  rw [← hi] at hf
  have hv : (if kind = "area" then Variable.area else if kind = "length" then .length else .other) ≠ .other := by
    rcases hkind with rfl | rfl <;> decide
  have hv' : (if kind = "area" then Variable.area else if kind = "length" then .length else .other) = .area ↔ kind = "area" := by
    rcases hkind with rfl | rfl <;> decide
  generalize (if kind = "area" then Variable.area else if kind = "length" then .length else .other) = v at e2 hv hv'
  obtain ⟨k, g1, g2, -⟩ := C02_discovery_maximal_prefix dir' output.toList ".xvg".toList c.first (some (c.first + (interfaces.length : ℤ) - 1))
  have hnames : ∀ n ∈ yieldSingles dir' output.toList ".xvg".toList c.first (some (c.first + (interfaces.length : ℤ) - 1)), splitPath n ≠ splitPath out.toList := by
    rw [g1]
    intro n hn
    obtain ⟨i, hi', rfl⟩ := List.mem_map.mp hn
    have := (g2 i (List.mem_range.mp hi')).2 _ rfl
    exact hout i (by omega)
  have hex : ∀ n ∈ yieldSingles dir' output.toList ".xvg".toList c.first (some (c.first + (interfaces.length : ℤ) - 1)),
      (collectSeries (readFlow F) byteStore.encode (head call) (c.recenter.getD .other)
        { cutoff := c.cutoff, radius := some c.radius, bins := c.bins, longest := true, ylims := c.ylims } fs dir base.toList output.toList c.ext.toList none c.first c.last).1.get? (splitPath n) ≠ none := by
    intro n hn
    obtain ⟨pts, c, hc, -⟩ := holds_left hf n hn
    rw [hc]
    exact fun hc => by cases hc
  obtain ⟨fs', rs, o, s1, s2, s3⟩ := C123_saved (interfaceItem text v dt) sampleLine byteStore byteStore_lawful (head' call') out.toList _ dir' output.toList ".xvg".toList c.first _
    fun n hn => ⟨hnames n hn, hex n hn⟩
  obtain ⟨rfl, rfl⟩ := s2.unique (rows_interfaces text v dt _ hf 0)
  obtain ⟨t1, rows, t2, t3, t4⟩ := C107_collected (head' call') (hhead' call') v hv dt (c.recenter.getD .other)
    { cutoff := c.cutoff, radius := some c.radius, bins := c.bins, longest := true, ylims := c.ylims } maps
  rw [← hi] at t1 t2 t3 t4
  rw [t1] at s1
  refine ⟨fs', _, rows, _, e2.trans s1, s3, t2, t3, fun i pts hp => ?_⟩
  obtain ⟨a, b, u1, u2, u3⟩ := t4 i pts hp
  simp only [hv'] at u3
  exact ⟨a, b, u1, u2, u3⟩

theorem holds_left_mem {α β : Type} {R : α → β → Prop} {l : List α} {bs : List β} (h : List.Forall₂ R l bs) : ∀ a ∈ l, ∃ b ∈ bs, R a b := by
  induction h with
  | nil => intro a ha; cases ha
  | cons h1 _ ih =>
    intro a ha
    rcases List.mem_cons.mp ha with rfl | ha
    · exact ⟨_, List.mem_cons_self, h1⟩
    · obtain ⟨b, hb, hr⟩ := ih a ha
      exact ⟨b, List.mem_cons_of_mem _ hb, hr⟩

theorem holds_right_mem {α β : Type} {R : α → β → Prop} {l : List α} {bs : List β} (h : List.Forall₂ R l bs) : ∀ b ∈ bs, ∃ a ∈ l, R a b := by
  induction h with
  | nil => intro a ha; cases ha
  | cons h1 _ ih =>
    intro b hb
    rcases List.mem_cons.mp hb with rfl | hb
    · exact ⟨_, List.mem_cons_self, h1⟩
    · obtain ⟨a, ha, hr⟩ := ih b hb
      exact ⟨a, List.mem_cons_of_mem _ ha, hr⟩

/-- **C142, `strata interface collect` and `strata interface angle`.** The files at the base hold maps. The interfaces are collected with any options, and their contact angles measured or fitted with
the last number of the collection: the second command returns the angles of the interfaces (as they were written, with three decimals), one for each map, and its output, written without loss of
files, is a table with one row for each interface. It fails exactly if one of these has no angle, and then leaves every file alone. -/
theorem C142_collect_and_angle (F : F32) (text : Bytes → Text) (head : Call → Text → Head) (head' : Call → List Text) (hhead : ∀ call n, (head call n).OneLine)
    (hhead' : ∀ call, Comments (head' call)) (hcodec : ∀ call n pts, text (byteStore.encode (interfaceFile (head call n) pts)) = interfaceFile (head call n) pts)
    (fs : FS Bytes) (dir : Dir) (base output out : String) (hne : out ≠ "") (given given' : Kw) (c : InterfaceChoice) (h : c.Asked given) (maps : List Flow.Flow)
    (hmaps : List.Forall₂ (fun n f => (contentOf fs n).bind (readFlow F) = .ok f) (yieldSingles dir base.toList c.ext.toList c.first c.last) maps)
    (hcross : ∀ m n, m < n → splitPath (Files.fileName output.toList ".xvg".toList m) ≠ splitPath (Files.fileName base.toList c.ext.toList n))
    (dir' : Dir) (hdir : Lists dir' (interfaceCollectCommand F head fs dir (.text base) (.text output) given).1 output.toList ".xvg".toList)
    (interfaces : List (List Point)) (hi : interfaces = (collectInterfaces (c.recenter.getD .other)
      { cutoff := c.cutoff, radius := some c.radius, bins := c.bins, longest := true, ylims := c.ylims } none maps).1)
    (fit : Bool) (height : Option ℚ) (hsome : fit = true ∨ ∃ q, height = some q ∧ q ≠ 0) (dt : ℚ)
    (h' : AngleChoice.Asked ⟨fit, height, some out, dt, c.first, some (c.first + (interfaces.length : ℤ) - 1), ".xvg"⟩ given') :
    (∀ times A, contactAngles fit height dt interfaces = .ok (times, A) →
      ∃ fs' t rows, interfaceAngleCommand text head' (interfaceCollectCommand F head fs dir (.text base) (.text output) given).1 dir' (.text output) given' = (fs', .ok (some (times, A))) ∧
        WrittenSafely (interfaceCollectCommand F head fs dir (.text base) (.text output) given).1 fs' (splitPath out.toList) (byteStore.encode t) ∧ IsTable t rows ∧
        rows.length = times.length ∧ ∀ i row, rows[i]? = some row → List.Forall₂ Shown (angleCells fit height times A i) row) ∧
    ((∃ err, interfaceAngleCommand text head' (interfaceCollectCommand F head fs dir (.text base) (.text output) given).1 dir' (.text output) given' =
        ((interfaceCollectCommand F head fs dir (.text base) (.text output) given).1, .error err)) ↔ ∃ pts ∈ interfaces, ∀ row, angleRow fit height pts ≠ .ok row) := by
  obtain ⟨call, r, -, hr, e1, -, -⟩ := C142_interface_collect_partial F head fs dir base output given c h
  rw [e1, hr] at hdir ⊢
  obtain ⟨-, hf⟩ := collected_found (readFlow F) byteStore.encode text (head call) (hhead call) (hcodec call) _ _ fs dir base.toList output.toList c.ext.toList c.first c.last maps hmaps hcross dir'
    hdir
  rw [← hi] at hf
  rw [← hr] at hf ⊢
  obtain ⟨call', -, e2⟩ := (C142_interface_angle_partial text head' r.1 dir' output given' _ h').1 hsome
  have hs : (if (some out : Option String) = some "" then (none : Option Text) else (some out).map String.toList) = some out.toList := by
    rw [if_neg (by simpa using hne)]; rfl
  simp only [hs] at e2
  rw [e2]
  constructor
  · intro times A hok
    obtain ⟨-, fs', t, rows, a1, a2, a3, a4, a5⟩ := C124_angles text byteStore.encode (head' call') (hhead' call') fit height dt out.toList r.1 dir' output.toList ".xvg".toList c.first _
      interfaces hf times A hok
    refine ⟨fs', t, rows, ?_, a2, a3, a4, a5⟩
    rw [a1]
    rfl
  · have hfail := C124_failure text byteStore.encode (head' call') fit height dt (some out.toList) r.1 dir' output.toList ".xvg".toList c.first
      (some (c.first + (interfaces.length : ℤ) - 1))
    have hmid : (∃ err, ((angleRun text byteStore.encode (head' call') (some out.toList) fit height dt r.1 dir' output.toList ".xvg".toList c.first
          (some (c.first + (interfaces.length : ℤ) - 1))).1,
        Except.map some (angleRun text byteStore.encode (head' call') (some out.toList) fit height dt r.1 dir' output.toList ".xvg".toList c.first
          (some (c.first + (interfaces.length : ℤ) - 1))).2) = (r.1, Except.error err)) ↔
        ∃ err, angleRun text byteStore.encode (head' call') (some out.toList) fit height dt r.1 dir' output.toList ".xvg".toList c.first
          (some (c.first + (interfaces.length : ℤ) - 1)) = (r.1, .error err) := by
      generalize angleRun text byteStore.encode (head' call') (some out.toList) fit height dt r.1 dir' output.toList ".xvg".toList c.first
          (some (c.first + (interfaces.length : ℤ) - 1)) = x
      obtain ⟨x1, x2⟩ := x
      cases x2 <;> simp [Except.map]
    refine hmid.trans (hfail.trans ?_)
    constructor
    · rintro ⟨n, hn, hno⟩
      obtain ⟨pts, hp, hh⟩ := holds_left_mem hf n hn
      refine ⟨pts, hp, fun row hrow => hno ⟨pts, row, hh, hrow⟩⟩
    · rintro ⟨pts, hp, hno⟩
      obtain ⟨n, hn, hh⟩ := holds_right_mem hf pts hp
      refine ⟨n, hn, ?_⟩
      rintro ⟨pts', row, hh', hrow⟩
      obtain ⟨x, hx, hx2⟩ := hh
      obtain ⟨x', hx', hx2'⟩ := hh'
      rw [hx, Option.some.injEq] at hx'
      subst hx'
      rw [hx2, Except.ok.injEq] at hx2'
      subst hx2'
      exact hno row hrow

/-! ## Examples -/

/-- `strata interface collect a o --ext '' -cr 0.5 -b 2 -e 3`. -/
def exGiven : Kw := [("ext", .text ""), ("cutoff_radius", .num (1 / 2)), ("begin", .num 2), ("end", .num 3)]

def exChoice : InterfaceChoice := ⟨some .zero, none, 1 / 2, 1, (none, none), 2, some 3, ""⟩

theorem exChoice_asked : exChoice.Asked exGiven := by
  constructor <;> decide +kernel

/-- `strata interface sample o area -x s.xvg -b 2 -e 3`. -/
theorem exArea_asked : AreaChoice.Asked ⟨"s.xvg", 1, 2, some 3, ".xvg"⟩ [("save_xvg", .text "s.xvg"), ("begin", .num 2), ("end", .num 3)] := by
  constructor <;> decide +kernel

/-- `strata interface angle o -h 0.5`. -/
example : AngleChoice.Asked ⟨false, some (1 / 2), none, 1, 1, none, ".xvg"⟩ [("height", .num (1 / 2))] := by
  constructor <;> decide +kernel

/-- `strata sample a M --process sum -cl M -co 5 --xlim 1 none`. -/
example : SampleChoice.Asked ⟨"sample.xvg", 1, true, some 5, some "M", 0, (some 1, none), (none, none), 1, none, ".dat"⟩
    [("process", .text "sum"), ("cutoff_label", .text "M"), ("cutoff", .num 5), ("xlim", .pair (some 1) none)] := by
  constructor <;> decide +kernel

/-- Bytes as characters. -/
def latin (c : Bytes) : Text := c.map fun b => Char.ofNat b.toNat

theorem latin_encode (t : Text) (h : ∀ ch ∈ t, ch.toNat < 128) : latin (byteStore.encode t) = t := by
  unfold latin
  show (t.map fun c => UInt8.ofNat c.toNat).map (fun b => Char.ofNat b.toNat) = t
  rw [List.map_map]
  conv_rhs => rw [← List.map_id t]
  refine List.map_congr_left fun ch hc => ?_
  have h1 : (UInt8.ofNat ch.toNat).toNat = ch.toNat := by
    rw [UInt8.toNat_ofNat']
    exact Nat.mod_eq_of_lt (by have := h ch hc; omega)
  show Char.ofNat (UInt8.ofNat ch.toNat).toNat = ch
  rw [h1, Char.ofNat_toNat]

theorem exCodec (pts : List Point) : latin (byteStore.encode (interfaceFile (exHead []) pts)) = interfaceFile (exHead []) pts := by
  refine latin_encode _ fun ch hc => ?_
  rcases SpreadingText.mem_joinLines hc with rfl | ⟨l, hl, hc⟩
  · decide
  · rcases List.mem_append.mp hl with hl | hl
    · have : ∀ l ∈ headLines (exHead []), ∀ ch ∈ l, ch.toNat < 128 := by decide +kernel
      exact this l hl ch hc
    · obtain ⟨p, -, rfl⟩ := List.mem_map.mp hl
      unfold pointLine at hc
      rcases List.mem_append.mp hc with hc | hc
      · have := (SpreadingText.fixed_chars 3 p.x ch hc).2; omega
      · rcases List.mem_cons.mp hc with rfl | hc
        · decide
        · have := (SpreadingText.fixed_chars 3 p.y ch hc).2; omega

/-- The maps of the second and third file of the example of C122. -/
def exFlow (wet : List (ℕ × ℕ)) : Flow.Flow := (flowOf (exMapOf wet)).toOption.getD (crossingMap [])

theorem exFlow_read : (contentOf exFiles "a00002".toList).bind (readFlow Bytes.ieee32) = .ok (exFlow exWet) ∧
    (contentOf exFiles "a00003".toList).bind (readFlow Bytes.ieee32) = .ok (exFlow exWet') := by
  have h1 : Driver.readDataFile Bytes.ieee32 (exBytes exWet) = .ok (exMapOf exWet) := by decide +kernel
  have h2 : Driver.readDataFile Bytes.ieee32 (exBytes exWet') = .ok (exMapOf exWet') := by decide +kernel
  have g1 : contentOf exFiles "a00002".toList = .ok (exBytes exWet) := by rfl
  have g2 : contentOf exFiles "a00003".toList = .ok (exBytes exWet') := by rfl
  rw [g1, g2]
  show readFlow Bytes.ieee32 (exBytes exWet) = _ ∧ readFlow Bytes.ieee32 (exBytes exWet') = _
  unfold readFlow
  rw [h1, h2]
  exact ⟨rfl, rfl⟩

theorem exInterfaces : (collectInterfaces .zero { radius := some (1 / 2), longest := true } none [exFlow exWet, exFlow exWet']).1 =
    [[⟨-1 / 4, 0⟩, ⟨-1 / 4, 1 / 2⟩, ⟨-1 / 4, 1 / 2⟩, ⟨1 / 4, 0⟩], [⟨-1 / 2, 0⟩, ⟨0, 1 / 2⟩, ⟨0, 1 / 2⟩, ⟨1 / 2, 0⟩]] := by
  decide +kernel

/-- The commands above, on two droplets of the example of C122, the second one at the edge of the box: the table has two rows, the areas are those of the two interfaces. -/
example : ∃ fs' t samples, ∃ rows : List (List Cli.Value), ∃ dir',
    interfaceSampleCommand latin (fun _ => [])
      (interfaceCollectCommand Bytes.ieee32 (fun _ _ => exHead []) exFiles SpreadingFiles.exDir (.text "a") (.text "o") exGiven).1 dir' (.text "o") (.text "area")
      [("save_xvg", .text "s.xvg"), ("begin", .num 2), ("end", .num 3)] = (fs', samples, .ok ()) ∧
    fs'.get? (".".toList, "s.xvg".toList) = some (byteStore.encode t) ∧ IsTable t rows ∧ rows.length = 2 := by
  obtain ⟨dir', hd⟩ := lists_exists (interfaceCollectCommand Bytes.ieee32 (fun _ _ => exHead []) exFiles SpreadingFiles.exDir (.text "a") (.text "o") exGiven).1 "o".toList ".xvg".toList (by decide)
  have hn : yieldSingles SpreadingFiles.exDir "a".toList [] 2 (some 3) = ["a00002".toList, "a00003".toList] := by decide +kernel
  have hcross : ∀ m n : ℤ, m < n → splitPath (Files.fileName "o".toList ".xvg".toList m) ≠ splitPath (Files.fileName "a".toList "".toList n) := by
    intro m n _ h
    unfold Files.fileName at h
    rw [List.append_assoc, List.append_assoc, splitPath_append _ _ (by simp [slash_fmt05]), splitPath_append _ _ (by simp [slash_fmt05])] at h
    have := congrArg (fun p : Files.Path => p.2.head?) h
    simp [splitPath] at this
  obtain ⟨fs', t, rows, samples, h1, h2, h3, h4, -⟩ := C142_collect_and_sample Bytes.ieee32 latin (fun _ _ => exHead []) (fun _ => []) (fun _ _ => exHead_oneLine [] (by simp)) (fun _ l hl => by cases hl)
    (fun _ _ pts => exCodec pts) exFiles SpreadingFiles.exDir "a" "o" "s.xvg" "area" (.inl rfl) (by decide) exGiven [("save_xvg", .text "s.xvg"), ("begin", .num 2), ("end", .num 3)] exChoice
    exChoice_asked [exFlow exWet, exFlow exWet'] (by
      show List.Forall₂ _ (yieldSingles SpreadingFiles.exDir "a".toList [] 2 (some 3)) _
      rw [hn]
      exact .cons exFlow_read.1 (.cons exFlow_read.2 .nil)) hcross 1 dir' hd _ exInterfaces.symm (by
      have : ∀ i : ℕ, i < 2 → splitPath (Files.fileName "o".toList ".xvg".toList (2 + i)) ≠ splitPath "s.xvg".toList := by decide +kernel
      exact this) exArea_asked
  exact ⟨fs', t, samples, rows, dir', h1, h2.1, h3, h4⟩

/-- `strata interface angle o -h 0.5 -x s.xvg -b 2 -e 3` after the collection: the angles are returned, and the table has two rows. -/
example : ∃ fs' t times A, ∃ rows : List (List Cli.Value), ∃ dir',
    interfaceAngleCommand latin (fun _ => [])
      (interfaceCollectCommand Bytes.ieee32 (fun _ _ => exHead []) exFiles SpreadingFiles.exDir (.text "a") (.text "o") exGiven).1 dir' (.text "o")
      [("height", .num (1 / 2)), ("save_xvg", .text "s.xvg"), ("begin", .num 2), ("end", .num 3)] = (fs', .ok (some (times, A))) ∧
    fs'.get? (".".toList, "s.xvg".toList) = some (byteStore.encode t) ∧ IsTable t rows ∧ rows.length = 2 := by
  obtain ⟨dir', hd⟩ := lists_exists (interfaceCollectCommand Bytes.ieee32 (fun _ _ => exHead []) exFiles SpreadingFiles.exDir (.text "a") (.text "o") exGiven).1 "o".toList ".xvg".toList (by decide)
  have hn : yieldSingles SpreadingFiles.exDir "a".toList [] 2 (some 3) = ["a00002".toList, "a00003".toList] := by decide +kernel
  have hcross : ∀ m n : ℤ, m < n → splitPath (Files.fileName "o".toList ".xvg".toList m) ≠ splitPath (Files.fileName "a".toList "".toList n) := by
    intro m n _ h
    unfold Files.fileName at h
    rw [List.append_assoc, List.append_assoc, splitPath_append _ _ (by simp [slash_fmt05]), splitPath_append _ _ (by simp [slash_fmt05])] at h
    have := congrArg (fun p : Files.Path => p.2.head?) h
    simp [splitPath] at this
  obtain ⟨times, A, hok⟩ : ∃ times A, contactAngles false (some (1 / 2)) 1 ([[⟨-1 / 4, 0⟩, ⟨-1 / 4, 1 / 2⟩, ⟨-1 / 4, 1 / 2⟩, ⟨1 / 4, 0⟩],
      [⟨-1 / 2, 0⟩, ⟨0, 1 / 2⟩, ⟨0, 1 / 2⟩, ⟨1 / 2, 0⟩]] : List (List Point)) = .ok (times, A) := by
    have e1 : ∀ pts ∈ ([[⟨-1 / 4, 0⟩, ⟨-1 / 4, 1 / 2⟩, ⟨-1 / 4, 1 / 2⟩, ⟨1 / 4, 0⟩], [⟨-1 / 2, 0⟩, ⟨0, 1 / 2⟩, ⟨0, 1 / 2⟩, ⟨1 / 2, 0⟩]] : List (List Point)), ∃ r,
        angleRow false (some (1 / 2)) pts = .ok r := by
      intro pts hp
      have hne : (edgesOf pts).1 ≠ [] ∧ (edgesOf pts).2 ≠ [] := by
        revert pts
        decide +kernel
      obtain ⟨h1, h2⟩ := hne
      unfold angleRow fitIf
      generalize (edgesOf pts).1 = l at *
      generalize (edgesOf pts).2 = r at *
      obtain ⟨a, l, rfl⟩ := List.exists_cons_of_ne_nil h1
      obtain ⟨b, r, rfl⟩ := List.exists_cons_of_ne_nil h2
      have hm : ∀ (p : Point) (e : List Point) (right : Bool), ∃ v, measureAngle (p :: e) right (1 / 2) = .ok v := by
        intro p e right
        unfold measureAngle
        dsimp only
        split_ifs <;> exact ⟨_, rfl⟩
      obtain ⟨v, hv⟩ := hm a l false
      obtain ⟨w, hw⟩ := hm b r true
      refine ⟨(none, some (v, w)), ?_⟩
      simp only [hv, hw]
      rfl
    obtain ⟨r1, h1⟩ := e1 _ List.mem_cons_self
    obtain ⟨r2, h2⟩ := e1 _ (List.mem_cons_of_mem _ List.mem_cons_self)
    unfold contactAngles
    rw [List.mapM_cons, h1, List.mapM_cons, h2]
    exact ⟨_, _, rfl⟩
  obtain ⟨fs', t, rows, h1, h2, h3, h4, -⟩ := (C142_collect_and_angle Bytes.ieee32 latin (fun _ _ => exHead []) (fun _ => []) (fun _ _ => exHead_oneLine [] (by simp)) (fun _ l hl => by cases hl)
    (fun _ _ pts => exCodec pts) exFiles SpreadingFiles.exDir "a" "o" "s.xvg" (by decide) exGiven
    [("height", .num (1 / 2)), ("save_xvg", .text "s.xvg"), ("begin", .num 2), ("end", .num 3)] exChoice exChoice_asked [exFlow exWet, exFlow exWet'] (by
      show List.Forall₂ _ (yieldSingles SpreadingFiles.exDir "a".toList [] 2 (some 3)) _
      rw [hn]
      exact .cons exFlow_read.1 (.cons exFlow_read.2 .nil)) hcross dir' hd _ exInterfaces.symm false (some (1 / 2)) (.inr ⟨_, rfl, by norm_num⟩) 1 (by
      constructor <;> decide +kernel)).1 times A hok
  refine ⟨fs', t, times, A, rows, dir', h1, h2.1, h3, ?_⟩
  rw [h4, (InterfaceFiles.C88_measured_angles false (1 / 2) 1 _ times A hok).1]
  rfl

end Strata.CommandSeries
