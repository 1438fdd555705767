import Verif.Model.Decimal
import Mathlib.Tactic.Ring
import Mathlib.Tactic.Linarith
import Mathlib.Tactic.FieldSimp
import Mathlib.Tactic.NormNum
import Mathlib.Tactic.Positivity
import Mathlib.Algebra.Order.Field.Rat
import Mathlib.Data.Rat.Floor
/-!
# Specification: what a decimal denotes

Only the fields of the struct are used here, none of the model's functions.
-/

namespace Fxd.Spec
open Fxd

/-- Number in base 10^9 written by a list of units, least significant first. -/
def unitsVal : List Int → Int
  | [] => 0
  | u :: us => u + 1000000000 * unitsVal us

/-- Number of nine-digit units needed for `n` digits: `⌈n / 9⌉`. -/
def unitsFor (n : Nat) : Nat := (n + 8) / 9

/-- Is the sign flag (top bit of `intg`) set? -/
def neg (d : FixedDecimal) : Bool := d.intg.msb

/-- Number of integral digits: `intg` without the sign flag. -/
def intgDigits (d : FixedDecimal) : Nat := d.intg.toNat % 128

/-- Number of fractional digits. -/
def fracDigits (d : FixedDecimal) : Nat := d.frac.toNat

/-- Integral units. -/
def iu (d : FixedDecimal) : Nat := unitsFor (intgDigits d)

/-- Fractional units. -/
def fu (d : FixedDecimal) : Nat := unitsFor (fracDigits d)

/-- The mantissa: the used units read as one integer. -/
def mant (d : FixedDecimal) : Int := unitsVal (d.lsu.take (iu d + fu d))

/-- The absolute value denoted. -/
def absVal (d : FixedDecimal) : ℚ := (mant d : ℚ) / 10 ^ (9 * fu d)

/-- The value denoted. -/
def val (d : FixedDecimal) : ℚ := if neg d then - absVal d else absVal d

/-- Well-formed: nine units, each in `[0, 10^9)`, the digit counts fit in them, and the units beyond the
digit counts are zero. -/
structure WF (d : FixedDecimal) : Prop where
  len : d.lsu.length = 9
  units : ∀ u ∈ d.lsu, 0 ≤ u ∧ u < 1000000000
  frac_nonneg : 0 ≤ d.frac
  fits : iu d + fu d ≤ 9
  high : ∀ u ∈ d.lsu.drop (iu d + fu d), u = 0

/-- The digit counts tell the truth: the integral part has at most `intg` digits, and digits beyond `frac`
are zero. -/
structure Tight (d : FixedDecimal) : Prop extends WF d where
  intg_ok : mant d < 10 ^ (intgDigits d + 9 * fu d)
  frac_ok : (10 ^ (9 * fu d - fracDigits d) : Int) ∣ mant d

instance (d : FixedDecimal) : Decidable (WF d) :=
  decidable_of_iff (d.lsu.length = 9 ∧ (∀ u ∈ d.lsu, 0 ≤ u ∧ u < 1000000000) ∧ 0 ≤ d.frac ∧
      iu d + fu d ≤ 9 ∧ ∀ u ∈ d.lsu.drop (iu d + fu d), u = 0)
    ⟨fun ⟨a, b, c, e, f⟩ => ⟨a, b, c, e, f⟩, fun ⟨a, b, c, e, f⟩ => ⟨a, b, c, e, f⟩⟩

instance (d : FixedDecimal) : Decidable (Tight d) :=
  decidable_of_iff (WF d ∧ mant d < 10 ^ (intgDigits d + 9 * fu d) ∧
      (10 ^ (9 * fu d - fracDigits d) : Int) ∣ mant d)
    ⟨fun ⟨a, b, c⟩ => ⟨a, b, c⟩, fun h => ⟨h.toWF, h.intg_ok, h.frac_ok⟩⟩

/-- A zero with the sign flag set. -/
def NegZero (d : FixedDecimal) : Prop := neg d = true ∧ mant d = 0

end Fxd.Spec
