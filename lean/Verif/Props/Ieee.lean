import Verif.Props.Gmx
import Verif.Proofs.Ieee
/-!
# Accuracy of stored values: C78
-/
namespace Strata.Bytes
open Strata Strata.Gmx Strata.Flow Strata.Average

/-- **C78.** A value stored in single precision is read back as a nearest single precision number: within its range, its
error is at most 2⁻²⁴ of the value (or half of the smallest positive number), no number `k · 2ᵖ` with at most 24
significant bits is closer, such numbers are stored exactly, and storing what was read changes nothing. -/
theorem C78_single_precision {x : ℚ} (hx : |x| ≤ (2 ^ 24 - 1) * 2 ^ 104) :
    |ieee32.rnd x - x| ≤ max (|x| / 2 ^ 24) (1 / 2 ^ 150) ∧
    (∀ k p : ℤ, |k| ≤ 2 ^ 24 → -149 ≤ p → |ieee32.rnd x - x| ≤ |(k : ℚ) * 2 ^ p - x|) ∧
    (∀ k p : ℤ, |k| ≤ 2 ^ 24 → -149 ≤ p → x = k * 2 ^ p → ieee32.rnd x = x) ∧
    ieee32.rnd (ieee32.rnd x) = ieee32.rnd x := by
  refine ⟨ieee32_accurate hx, fun k p => ieee32_nearest hx k p, ?_, ieee32_idem hx⟩
  intro k p hk hp e
  subst e
  exact ieee32_exact k p hk hp hx

/-- 1/10 is no single precision number, 1/3 · 2⁻¹⁴⁰ is below the normal range, 2²⁴ + 1 lies between two numbers. -/
example : ieee32.rnd (1 / 10) = 13421773 / 134217728 ∧ ieee32.rnd (1 / 3 * 2 ^ (-140 : ℤ)) = 171 * 2 ^ (-149 : ℤ) ∧
    ieee32.rnd (2 ^ 24 + 1) = 2 ^ 24 ∧ ieee32.rnd (-(2 ^ 24 + 3)) = -(2 ^ 24 + 4) := by decide +kernel

/-- **C78 for gmx_flow_1 maps (partial, see C47).** Every value of every bin with mass is read back with a relative error
of at most 2⁻²⁴. -/
theorem C78_gmx_values_partial (data : Record) (i : GInfo) (h : Writable data i)
    (hs : i.shape.1 ≤ 2 ^ 64 ∧ i.shape.2 ≤ 2 ^ 64)
    (hn : massRows data i = [] ∨ 29 ≤ (massRows data i).length ∨ ∀ bytes, writeData ieee32 data i = .ok bytes → BlockComplete bytes bytes.length)
    (hrange : ∀ t < i.shape.1 * i.shape.2, ∀ l ∈ ["N", "T", "M", "U", "V"], |val data l t| ≤ (2 ^ 24 - 1) * 2 ^ 104) :
    ∃ bytes out info, writeData ieee32 data i = .ok bytes ∧ readData ieee32 bytes = .ok (out, info) ∧
      ∀ t < i.shape.1 * i.shape.2, val data "M" t ≠ 0 → ∀ l ∈ ["N", "T", "M", "U", "V"],
        |val out l t - val data l t| ≤ max (|val data l t| / 2 ^ 24) (1 / 2 ^ 150) := by
  obtain ⟨bytes, out, info, hw, hr, -, -, -, -, -, -, hv⟩ := C47_round_trip_partial ieee32 data i h hs hn
  refine ⟨bytes, out, info, hw, hr, ?_⟩
  intro t ht hM l hl
  rw [(hv t ht).2.2 l hl, if_pos hM]
  exact (C78_single_precision (hrange t ht l hl)).1

/-- A map that meets the hypotheses. -/
example : Writable demo demoInfo ∧ (∀ t < demoInfo.shape.1 * demoInfo.shape.2, ∀ l ∈ ["N", "T", "M", "U", "V"], |val demo l t| ≤ (2 ^ 24 - 1) * 2 ^ 104) ∧
    ∀ t < demoInfo.shape.1 * demoInfo.shape.2, val demo "M" t ≠ 0 := ⟨demo_writable, by decide +kernel, by decide +kernel⟩

end Strata.Bytes
