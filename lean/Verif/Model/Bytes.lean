import Verif.Model.PyText
/-!
# Bytes, binary numbers and file reading

Files are lists of bytes; an open file is its content with a position.
-/
namespace Strata.Bytes
open Strata

/-- The content of a file. -/
abbrev Bytes := List UInt8

/-- `str.encode()` of ASCII text (strata/dataformats/gmx_flow_version_1/write.py:51-75). -/
def ascii (s : Text) : Bytes := s.map fun c => UInt8.ofNat c.toNat

/-- `bytes.decode("ascii")` (strata/dataformats/gmx_flow_version_1/read.py:81, :86): `UnicodeDecodeError` is a
`ValueError`. -/
def decodeAscii (b : Bytes) : Except Err Text :=
  if b.all (fun x => decide (x.toNat < 128)) then .ok (b.map fun x => Char.ofNat x.toNat) else .error .valueError

/-- `np.uint64` in memory, little endian (strata/dataformats/gmx_flow_version_1/write.py:33-34, :48). -/
def u64 (n : ℕ) : Bytes := (List.range 8).map fun i => UInt8.ofNat (n / 256 ^ i % 256)

/-- The unsigned number with the given little endian bytes (strata/dataformats/gmx_flow_version_1/read.py:42-43). -/
def ofBytes : Bytes → ℕ
  | [] => 0
  | b :: bs => b.toNat + 256 * ofBytes bs

/-- Single precision numbers in memory: four bytes each.  What a value becomes when stored is `rnd`.  The theorems
hold for any such codec; `ieee32` is the IEEE one.  (Infinities and NaN are not represented.) -/
structure F32 where
  enc : ℚ → Bytes
  dec : Bytes → ℚ
  len : ∀ x, (enc x).length = 4

/-- The value read back for a stored value. -/
def F32.rnd (F : F32) (x : ℚ) : ℚ := F.dec (F.enc x)

/-- `⌊log₂ q⌋` for positive `q`. -/
def log2Rat (q : ℚ) : ℤ :=
  let e : ℤ := (Nat.log2 q.num.toNat : ℤ) - (Nat.log2 q.den : ℤ)
  if (2 : ℚ) ^ e ≤ q then e else e - 1

/-- The bits of `|x|` in IEEE single precision, rounded to nearest, ties to even; beyond the range: infinity. -/
def ieeeBits (x : ℚ) : ℕ :=
  if x = 0 then 0
  else
    let e := max (-126) (log2Rat |x|)
    min (255 * 2 ^ 23) ((e + 126) * 2 ^ 23 + Average.pyRound (|x| / 2 ^ (e - 23))).toNat

/-- IEEE single precision, little endian. -/
def ieee32 : F32 where
  enc x :=
    let b := ieeeBits x + if x < 0 then 2 ^ 31 else 0
    (List.range 4).map fun i => UInt8.ofNat (b / 256 ^ i % 256)
  dec b :=
    let n := ofBytes b
    let e : ℕ := n / 2 ^ 23 % 256
    let m : ℕ := n % 2 ^ 23
    (if n / 2 ^ 31 = 1 then -1 else 1) * (if e = 0 then (m : ℚ) * 2 ^ (-149 : ℤ) else (2 ^ 23 + m : ℚ) * 2 ^ ((e : ℤ) - 150))
  len x := by simp

/-- An open file. -/
structure File where
  content : Bytes
  pos : ℕ

/-- `fp.read(n)`: at most `n` bytes from the position on, and the file after it
(strata/dataformats/gmx_flow_version_1/read.py:76). -/
def File.read (f : File) (n : ℕ) : Bytes × File :=
  let b := (f.content.drop f.pos).take n
  (b, { f with pos := f.pos + b.length })

/-- `fp.seek(-offset, 1)`: a negative target raises `OSError` (strata/dataformats/gmx_flow_version_1/read.py:83). -/
def File.back (f : File) (offset : ℕ) : Except Err File :=
  if offset ≤ f.pos then .ok { f with pos := f.pos - offset } else .error .osError

/-- Consecutive pieces of `w` bytes. -/
def pieces (w : ℕ) : ℕ → Bytes → List Bytes
  | 0, _ => []
  | k + 1, b => b.take w :: pieces w k (b.drop w)

/-- `np.fromfile(fp, dtype, count)` for a dtype of `w` bytes: as many complete items as there are, at most `count`; an
incomplete rest is consumed (strata/dataformats/gmx_flow_version_1/read.py:52). -/
def fromFile (w count : ℕ) (f : File) : List Bytes × File :=
  let rest := f.content.length - f.pos
  if count * w ≤ rest then (pieces w count (f.content.drop f.pos), { f with pos := f.pos + count * w })
  else (pieces w (rest / w) (f.content.drop f.pos), { f with pos := f.content.length })

end Strata.Bytes
