import Verif.Model.Spreading
import Verif.Model.FloatAverage
/-!
# Spreading curves in floating point

The functions of Model/Spreading.lean with every arithmetic result rounded by `fl` (see Model/FloatAverage.lean; `roundBits 53` is double precision).  Comparisons, `abs` and the sign
of a number are exact.  Simplifications: no overflow or underflow, and boxes are not empty.
-/
namespace Strata.FloatSpreading
open Strata Strata.Spreading

/-- The remainder of the C function `fmod`, which is exact; it has the sign of `x`
(strata/spreading/collect.py:269). -/
def cMod (x b : ℚ) : ℚ := x - b * (if 0 ≤ x / b then ⌊x / b⌋ else ⌈x / b⌉)

/-- `%` of floats (strata/spreading/collect.py:269): a remainder with the wrong sign gets the divisor added. -/
def pyMod (fl : ℚ → ℚ) (x b : ℚ) : ℚ := if cMod x b < 0 then fl (cMod x b + b) else cMod x b

/-- `get_pbc_edge_multiplier_addition` (strata/spreading/collect.py:266-272). -/
def multAddition (fl : ℚ → ℚ) (x box : ℚ) : ℤ := if pyMod fl x box > |fl (box - pyMod fl x box)| then -1 else 1

/-- A position in the box with its multiples of the box (strata/spreading/collect.py:287-288, :326-327). -/
def absolute (fl : ℚ → ℚ) (x : ℚ) (mult : ℤ) (box : ℚ) : ℚ := fl (x + fl (mult * box))

/-- `check_and_update_periodic_info` (strata/spreading/collect.py:231-320). -/
def updateInfo (fl : ℚ → ℚ) (info : PeriodicInfo) (box l r : ℚ) : PeriodicInfo :=
  let (ml, mr) :=
    match info.leftPrev, info.rightPrev with
    | some lp, some rp =>
      if crossing l r lp rp then
        if |fl (l - lp)| > |fl (r - rp)| then (info.multLeft + multAddition fl (absolute fl l info.multLeft box) box, info.multRight)
        else (info.multLeft, info.multRight + multAddition fl (absolute fl r info.multRight box) box)
      else (info.multLeft, info.multRight)
    | _, _ => if l > r then (info.multLeft, info.multRight + 1) else (info.multLeft, info.multRight)
  ⟨some l, some r, ml, mr⟩

/-- One iteration of the loop (strata/spreading/collect.py:113-145). -/
def step (fl : ℚ → ℚ) (dt : ℚ) (save : Bool) (s : State) (i : ℕ) (f : Frame) : State :=
  match f.edges with
  | none => s
  | some (l, r) =>
    let info := updateInfo fl s.info f.box l r
    let la := absolute fl l info.multLeft f.box
    let ra := absolute fl r info.multRight f.box
    let row : Row := ⟨s.time, |fl ((1 / 2) * fl (ra - la))|, la, ra⟩
    let (flag, lines) :=
      if save then (true, s.lines ++ (if s.flag then [] else [Line.impact (fl (i * dt)) f.path]) ++ [Line.row row])
      else (s.flag, s.lines)
    ⟨info, fl (s.time + dt), s.rows ++ [row], flag, lines⟩

/-- The loop (strata/spreading/collect.py:113-148). -/
def loop (fl : ℚ → ℚ) (dt : ℚ) (save : Bool) : State → ℕ → List Frame → State
  | s, _, [] => s
  | s, i, f :: fs => loop fl dt save (step fl dt save s i f) (i + 1) fs

/-- `collect` (strata/spreading/collect.py:19-153). -/
def collect (fl : ℚ → ℚ) (dt t0 : ℚ) (save flag : Bool) (frames : List Frame) : State :=
  loop fl dt save ⟨initPeriodicInfo, t0, [], flag, []⟩ 0 frames

end Strata.FloatSpreading
