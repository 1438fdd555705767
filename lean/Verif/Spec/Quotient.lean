import Verif.Spec.Rounding
import Mathlib.Data.Nat.Log
/-!
# Specification: quotients

Only the mantissas and digit counts of the operands are used, none of the model's functions.
-/

namespace Fxd.Spec

/-- `x / y` cut towards zero after `s` decimal digits. -/
def truncQuot (x y : ℚ) (s : Nat) : ℚ := (truncZ (x / y * 10 ^ s) : ℚ) / 10 ^ s

/-- Index of the leading nine-digit unit of the mantissa. -/
def topUnit (d : FixedDecimal) : Nat := Nat.log 1000000000 (mant d).toNat

/-- Number of decimal digits of the mantissa. -/
def digitCount (d : FixedDecimal) : Nat := Nat.log 10 (mant d).toNat + 1

/-- Read as fractions `0.xxx`, the units of `a` are at least those of `b`. -/
def LeadGe (a b : FixedDecimal) : Prop := mant b * 1000000000 ^ topUnit a ≤ mant a * 1000000000 ^ topUnit b
instance (a b : FixedDecimal) : Decidable (LeadGe a b) := by unfold LeadGe; infer_instance

/-- Integral digits planned for the quotient (zero or negative for small quotients). -/
def quoIntg (a b : FixedDecimal) : Int :=
  ((digitCount a : Int) - 9 * fu a) - ((digitCount b : Int) - 9 * fu b) + if LeadGe a b then 1 else 0

/-- Its integral units. -/
def quoIU (a b : FixedDecimal) : Nat := unitsFor (quoIntg a b).toNat

/-- Fractional digits wanted: the fractional units of both operands, plus what `incr` asks for beyond their padding. -/
def quoWant (a b : FixedDecimal) (incr : Nat) : Nat :=
  9 * fu a + 9 * fu b + (incr - ((9 * fu a - fracDigits a) + (9 * fu b - fracDigits b)))

/-- The same after the code has cut it to a signed eight-bit number. -/
def quoFrac (a b : FixedDecimal) (incr : Nat) : Int := Int.bmod (quoWant a b incr) 256

/-- Fractional units of the quotient: at most 4 and at most what the integral units leave of 9. -/
def quoFU (a b : FixedDecimal) (incr : Nat) : Nat := min (min (unitsFor (quoFrac a b incr).toNat) 4) (9 - quoIU a b)

/-- The digit counts can be handled at all. -/
def QuoRange (a b : FixedDecimal) (incr : Nat) : Prop :=
  -8 ≤ quoFrac a b incr ∧ quoFrac a b incr ≤ 119 ∧ -118 ≤ quoIntg a b ∧ quoIntg a b ≤ 119
instance (a b : FixedDecimal) (incr : Nat) : Decidable (QuoRange a b incr) := by unfold QuoRange; infer_instance

/-- The dividend does not fit the scratch buffer: nine units of dividend, a divisor of several units, nine units of
result and no shift. -/
def QuoSpill (a b : FixedDecimal) (incr : Nat) : Prop :=
  topUnit b ≠ 0 ∧ topUnit a = 8 ∧ LeadGe a b ∧ quoIU a b + quoFU a b incr = 9
instance (a b : FixedDecimal) (incr : Nat) : Decidable (QuoSpill a b incr) := by unfold QuoSpill; infer_instance

/-- The divisor has at most two significant units (trailing zero units do not count). -/
def TwoUnits (b : FixedDecimal) : Prop := (1000000000 : Int) ^ (topUnit b - 1) ∣ mant b
instance (b : FixedDecimal) : Decidable (TwoUnits b) := by unfold TwoUnits; infer_instance

end Fxd.Spec
