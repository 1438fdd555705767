import Verif.Spec.Value
/-!
# Specification: the shape of a product

A product needs `intg(a) + intg(b)` integral digits and `frac(a) + frac(b)` fractional digits; of the fractional
units it keeps at most 4, and at most what the integral units leave of 9.
-/

namespace Fxd.Spec

/-- Integral units of a product. -/
def mulIU (a b : FixedDecimal) : Nat := unitsFor (intgDigits a + intgDigits b)
/-- Fractional units kept in a product. -/
def mulFU (a b : FixedDecimal) : Nat := min (min (unitsFor (fracDigits a + fracDigits b)) (9 - mulIU a b)) 4
/-- Nothing is cut off. -/
def MulFull (a b : FixedDecimal) : Prop := mulFU a b = unitsFor (fracDigits a + fracDigits b)
instance (a b : FixedDecimal) : Decidable (MulFull a b) := by unfold MulFull; infer_instance

/-- Fractional units cut off at the low end of a product. -/
def mulShift (a b : FixedDecimal) : Nat := fu a + fu b - mulFU a b

/-- What the row of the schoolbook scheme for the unit `v` at position `j` adds to the product of the mantissa `A`, when
`S` low units are cut off: the part of the row below the last kept unit is cut one unit early, then once more. -/
def mulRow (A v : Int) (S j : Nat) : Int :=
  if S ≤ j then v * A * 1000000000 ^ (j - S) else v * (A / 1000000000 ^ (S - 1 - j)) / 1000000000

/-- The rows for a list of units that starts at position `j`. -/
def mulRows (A : Int) (S : Nat) : List Int → Nat → Int
  | [], _ => 0
  | v :: vs, j => mulRow A v S j + mulRows A S vs (j + 1)

/-- The integer the code returns as product, at the scale of the result. -/
def codeMul (a b : FixedDecimal) : Int := mulRows (mant a) (mulShift a b) (b.lsu.take (iu b + fu b)) 0

/-- Operands whose digit counts the multiplication can handle: at most 81 integral digits in total, fewer than 120
fractional ones, and the lowest row of the schoolbook scheme must reach the kept part of the result
(in debug builds strictly). -/
def MulFits (m : Mode) (a b : FixedDecimal) : Prop :=
  intgDigits a + intgDigits b ≤ 81 ∧ fracDigits a + fracDigits b < 120 ∧
    (fu b < iu a + mulFU a b ∨ m = .release ∧ fu b = iu a + mulFU a b)
instance (m : Mode) (a b : FixedDecimal) : Decidable (MulFits m a b) := by unfold MulFits; infer_instance

end Fxd.Spec
