import Verif.Model.Basic
import Mathlib.Data.Rat.Floor
import Mathlib.Data.List.Sort
import Mathlib.Data.List.Dedup
/-!
# Model of `droplets/flow.py` and `droplets/data_utils.py`

A record array is a list of labelled columns; in a well-formed record all columns have the same length.
Simplifications: values are exact rationals (dtypes are not represented, so the `dtype` keyword and the
truncation of floats stored in integer columns are left out); column data is given flat (`ravel`).
-/
namespace Strata.Flow
open Strata

/-- Field labels. -/
abbrev Label := String

/-- A Numpy record array: labelled columns in dtype order. -/
abbrev Record := List (Label × List ℚ)

/-- `data.dtype.names` (droplets/flow.py:126-129). -/
def names (r : Record) : List Label := r.map Prod.fst

/-- `data[label]`, absent if there is no such field (droplets/flow.py:139-142). -/
def col? (r : Record) (l : Label) : Option (List ℚ) := r.lookup l

/-- `data.size` (droplets/flow.py:209; fixed by the first column, droplets/flow.py:291). -/
def size : Record → ℕ
  | [] => 0
  | c :: _ => c.2.length

/-- Fancy indexing of one column, `column[idx]`, for indices in range. -/
def pick (idx : List ℕ) (c : List ℚ) : List ℚ := idx.map fun i => c.getD i 0

/-- Fancy indexing of a record, `data[idx]` (every field is indexed alike; used at
droplets/flow.py:206, droplets/contact_line.py:115). -/
def gather (idx : List ℕ) (r : Record) : Record := r.map fun c => (c.1, pick idx c.2)

/-- System information: `(None, None)` and `None` are `none` (droplets/flow.py:54-123). -/
structure Info where
  shape : Option (ℤ × ℤ) := none
  origin : Option (ℚ × ℚ) := none
  spacing : Option (ℚ × ℚ) := none
  numBins : Option ℤ := none
  deriving DecidableEq, Repr

/-- A `FlowData` object. -/
structure Flow where
  data : Record
  info : Info
  deriving DecidableEq, Repr

/-! ## `set_data` -/

/-- One positional argument of `FlowData(...)`: a 2-tuple, a dict or anything else
(droplets/flow.py:246-253). -/
inductive Arg where
  | tuple (l : Label) (c : List ℚ)
  | dict (cs : List (Label × List ℚ))
  | other

/-- `collate_input_data` (droplets/flow.py:237-255). -/
def collate : List Arg → Except Err (List (Label × List ℚ))
  | [] => .ok []
  | .tuple l c :: rest => do .ok ((l, c) :: (← collate rest))
  | .dict cs :: rest => do .ok (cs ++ (← collate rest))
  | .other :: _ => .error .typeError

/-- Assignment `self.data[label] = column` with Numpy's broadcasting into `n` rows
(droplets/flow.py:297-301). -/
def assign (n : ℕ) (c : List ℚ) : Except Err (List ℚ) :=
  if c.length = n then .ok c
  else match c with
    | [v] => .ok (List.replicate n v)
    | _ => .error .valueError

/-- `set_data` (droplets/flow.py:220-301).  No argument at all: `data_list[0]` raises `IndexError`;
a repeated label is refused by `np.dtype` with `ValueError`. -/
def setData (args : List Arg) : Except Err Record := do
  let cols ← collate args
  match cols with
  | [] => .error .indexError
  | c :: _ =>
    if (cols.map Prod.fst).Nodup then
      cols.mapM fun lc => do .ok (lc.1, ← assign c.2.length lc.2)
    else .error .valueError

/-! ## `set_info` -/

/-- A value in an information dictionary: `None`, a number or a tuple. -/
inductive InfoVal where
  | none
  | num (v : ℚ)
  | tuple (vs : List (Option ℚ))
  deriving DecidableEq, Repr

/-- `int(x)` on a number: truncation towards zero (droplets/flow.py:65, :101). -/
def pyInt (x : ℚ) : ℤ := if 0 ≤ x then ⌊x⌋ else ⌈x⌉

/-- The pair setters (droplets/flow.py:79-123): `None` and `(None, None)` unset the property, otherwise
the first two elements must be numbers. -/
def setPair {α : Type} (conv : ℚ → α) : Option InfoVal → Except Err (Option (α × α))
  | .none => .ok Option.none
  | some .none => .ok Option.none
  | some (.tuple [.none, .none]) => .ok Option.none
  | some (.tuple (some a :: some b :: _)) => .ok (some (conv a, conv b))
  | some _ => .error .valueError

/-- The `num_bins` setter (droplets/flow.py:61-69). -/
def setNum : Option InfoVal → Except Err (Option ℤ)
  | .none => .ok Option.none
  | some .none => .ok Option.none
  | some (.num v) => .ok (some (pyInt v))
  | some (.tuple _) => .error .valueError

/-- An information dictionary. -/
abbrev InfoDict := List (String × InfoVal)

/-- `set_info` (droplets/flow.py:304-328); returns the new properties.  (In Python an unknown key is
detected after the known ones have been assigned.) -/
def setInfo (d : InfoDict) : Except Err Info := do
  let shape ← setPair pyInt (d.lookup "shape")
  let origin ← setPair id (d.lookup "origin")
  let spacing ← setPair id (d.lookup "spacing")
  let numBins ← setNum (d.lookup "num_bins")
  if d.all (fun kv => kv.1 ∈ ["shape", "origin", "spacing", "num_bins"]) then
    .ok ⟨shape, origin, spacing, numBins⟩
  else .error .keyError

/-- `FlowData(*args, info=d)` (droplets/flow.py:48-51). -/
def mk (args : List Arg) (d : InfoDict) : Except Err Flow := do
  .ok ⟨← setData args, ← setInfo d⟩

/-- A stored pair as a dictionary value. -/
def pairVal (p : Option (ℚ × ℚ)) : InfoVal :=
  match p with
  | none => .tuple [none, none]
  | some (a, b) => .tuple [some a, some b]

/-- `_info` (droplets/flow.py:394-403). -/
def infoDict (i : Info) : InfoDict :=
  [("num_bins", match i.numBins with | none => .none | some n => .num n),
   ("origin", pairVal i.origin),
   ("shape", pairVal (i.shape.map fun p => ((p.1 : ℚ), (p.2 : ℚ)))),
   ("spacing", pairVal i.spacing)]

/-- The columns of a record as 2-tuples (droplets/flow.py:135, :215). -/
def asArgs (r : Record) : List Arg := r.map fun c => .tuple c.1 c.2

/-- `copy` (droplets/flow.py:132-136). -/
def copy (f : Flow) : Except Err Flow := mk (asArgs f.data) (infoDict f.info)

/-- `get_data` (droplets/flow.py:139-142). -/
def getData (f : Flow) (l : Label) : Option (List ℚ) := col? f.data l

/-! ## Selections -/

/-- `(v >= vmin) & (v <= vmax)` with `None` meaning no limit (droplets/flow.py:196-200,
droplets/data_utils.py:24-27). -/
def inLims (lo hi : Option ℚ) (v : ℚ) : Bool :=
  (match lo with | none => true | some a => decide (a ≤ v)) &&
  (match hi with | none => true | some b => decide (v ≤ b))

/-- Positions at which a mask holds (`np.where`, boolean indexing). -/
def whereIdx (p : ℚ → Bool) (c : List ℚ) : List ℕ :=
  (List.range c.length).filter fun i => p (c.getD i 0)

/-- `lims` (droplets/flow.py:172-217). -/
def lims (f : Flow) (l : Label) (lo hi : Option ℚ) : Except Err Flow :=
  match col? f.data l with
  | none => .error .keyError
  | some c =>
    let data := gather (whereIdx (inLims lo hi) c) f.data
    let d : InfoDict := ("num_bins", InfoVal.num (size data)) ::
      (match f.info.spacing with
       | none => []
       | some s => [("spacing", pairVal (some s))])
    mk (asArgs data) d

/-- `cut` (droplets/flow.py:145-169).  Unset origin, shape or spacing make the arithmetic with `None`
raise `TypeError`. -/
def cut (f : Flow) (xlim ylim : Option ℚ × Option ℚ) : Except Err Flow :=
  match f.info.origin, f.info.shape, f.info.spacing with
  | some (ox, oy), some (nx, ny), some (dx, dy) => do
    let xmin := xlim.1.getD ox
    let xmax := xlim.2.getD (ox + nx * dx)
    let g ← lims f "X" (some xmin) (some xmax)
    let ymin := ylim.1.getD oy
    let ymax := ylim.2.getD (oy + ny * dy)
    let g ← lims g "Y" (some ymin) (some ymax)
    match col? g.data "X", col? g.data "Y" with
    | some xs, some ys =>
      let sx := xs.dedup.length
      let sy := ys.dedup.length
      let info ← setInfo [("spacing", pairVal (some (dx, dy))), ("origin", pairVal (some (xmin, ymin))),
        ("shape", pairVal (some ((sx : ℚ), (sy : ℚ)))), ("num_bins", .num (sx * sy : ℕ))]
      .ok ⟨g.data, info⟩
    | _, _ => .error .keyError
  | _, _, _ => .error .typeError

/-- `size()` (droplets/flow.py:331-352). -/
def boxSize (f : Flow) : Option (ℚ × ℚ) :=
  match f.info.shape, f.info.spacing with
  | some (nx, ny), some (dx, dy) => some (nx * dx, ny * dy)
  | _, _ => none

/-! ## Sorting -/

/-- Lexicographic comparison of key tuples. -/
def lexLE : List ℚ → List ℚ → Bool
  | [], _ => true
  | _ :: _, [] => false
  | a :: as, b :: bs => if a < b then true else if b < a then false else lexLE as bs

/-- The keys Numpy uses for `sort(order=order)`: the given fields first, then the remaining ones in
dtype order to break ties. -/
def sortKeys (r : Record) (order : List Label) : List Label :=
  order ++ (names r).filter (· ∉ order)

/-- Key tuple of row `i`. -/
def keyAt (r : Record) (keys : List Label) (i : ℕ) : List ℚ :=
  keys.map fun l => ((col? r l).getD []).getD i 0

/-- Sorting permutation. -/
def argsort (r : Record) (order : List Label) : List ℕ :=
  (List.range (size r)).insertionSort fun i j => lexLE (keyAt r (sortKeys r order) i) (keyAt r (sortKeys r order) j)

/-- `data.sort(order=order)`; an unknown field raises (droplets/flow.py:363-364). -/
def sortRecord (r : Record) (order : List Label) : Except Err Record :=
  if order.all (· ∈ names r) then .ok (gather (argsort r order) r) else .error .valueError

/-- `sort` (droplets/flow.py:355-364): the order is the reversed pair of coordinate labels. -/
def sort (f : Flow) (coord : Label × Label := ("X", "Y")) : Except Err Flow := do
  .ok ⟨← sortRecord f.data [coord.2, coord.1], f.info⟩

/-! ## Translation -/

/-- A value to translate by: a number or an array (droplets/flow.py:367-379). -/
inductive Shift where
  | scalar (v : ℚ)
  | array (vs : List ℚ)

/-- `column += value` (droplets/flow.py:384). -/
def addTo (c : List ℚ) : Shift → Except Err (List ℚ)
  | .scalar v => .ok (c.map (· + v))
  | .array vs =>
    if vs.length = c.length then .ok (List.zipWith (· + ·) c vs)
    else match vs with
      | [v] => .ok (c.map (· + v))
      | _ => .error .valueError

/-- Replace one column. -/
def setCol (r : Record) (l : Label) (c : List ℚ) : Record :=
  r.map fun lc => if lc.1 = l then (lc.1, c) else lc

/-- `translate` (droplets/flow.py:367-391). -/
def translate (f : Flow) (l : Label) (v : Shift) : Except Err Flow := do
  let g ← copy f
  match col? g.data l with
  | none => .error .keyError
  | some c => do
    let c' ← addTo c v
    .ok ⟨setCol g.data l c', g.info⟩

/-! ## `droplets/data_utils.py` -/

/-- `np.intersect1d` of index arrays: sorted unique common elements (droplets/data_utils.py:38). -/
def intersect1d (a b : List ℕ) : List ℕ :=
  ((a.filter (· ∈ b)).dedup).insertionSort (· ≤ ·)

/-- The loop of `get_lim_indices` after the first limit (droplets/data_utils.py:33-38). -/
def limLoop (r : Record) : List ℕ → List (Label × Option ℚ × Option ℚ) → Except Err (List ℕ)
  | idx, [] => .ok idx
  | idx, (l, lo, hi) :: rest =>
    match col? r l with
    | none => .error .valueError
    | some c => limLoop r (intersect1d idx (whereIdx (inLims lo hi) c)) rest

/-- `get_lim_indices` (droplets/data_utils.py:3-40); the limits are the items of a dict. -/
def getLimIndices (r : Record) : List (Label × Option ℚ × Option ℚ) → Except Err (List ℕ)
  | [] => .ok (List.range (size r))
  | (l, lo, hi) :: rest =>
    match col? r l with
    | none => .error .valueError
    | some c => limLoop r (whereIdx (inLims lo hi) c) rest

/-! ## Objects and references (for aliasing) -/

/-- A store: arrays and the `FlowData` objects that refer to them by index.  Information tuples are
immutable in Python and stored by value. -/
structure Store where
  arrays : List Record
  objs : List (ℕ × Info)

/-- What a user sees of object `o`. -/
def Store.view (s : Store) (o : ℕ) : Option Flow :=
  match s.objs[o]? with
  | none => none
  | some (a, i) => (s.arrays[a]?).map fun r => ⟨r, i⟩

/-- Operations of a program using the API. `update` is any in-place change of an object's record array
(`flow.data[l] += v`, `flow.data[l][i] = v`, `flow.sort()`, ...); `create` stands for the methods
that build a new object out of freshly allocated arrays (`FlowData(...)`, `copy`, `lims`, `cut`,
`translate`: each ends in `np.zeros` followed by assignment, droplets/flow.py:295-299). -/
inductive Op where
  | update (o : ℕ) (f : Record → Record)
  | setInfo (o : ℕ) (i : Info)
  | setData (o : ℕ) (r : Record)
  | create (f : (ℕ → Option Flow) → Option Flow)

/-- Execute one operation.  `set_data` rebinds `self.data` to a new array (droplets/flow.py:295). -/
def Store.exec (s : Store) : Op → Store
  | .update o f =>
    match s.objs[o]? with
    | none => s
    | some (a, _) => { s with arrays := s.arrays.modify a f }
  | .setInfo o i => { s with objs := s.objs.modify o fun x => (x.1, i) }
  | .setData o r =>
    { arrays := s.arrays ++ [r], objs := s.objs.modify o fun x => (s.arrays.length, x.2) }
  | .create f =>
    match f s.view with
    | none => s
    | some g => { arrays := s.arrays ++ [g.data], objs := s.objs ++ [(s.arrays.length, g.info)] }

/-- The object an operation writes to (none for `create`). -/
def Op.target : Op → Option ℕ
  | .update o _ => some o
  | .setInfo o _ => some o
  | .setData o _ => some o
  | .create _ => none

end Strata.Flow
