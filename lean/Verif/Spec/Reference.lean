import Verif.Spec.Product
import Verif.Spec.Rounding
import Mathlib.Data.Nat.Log
/-!
# Specification: a reference implementation

A second, much shorter implementation of the operations, on plain integers: a decimal is read as a sign, two digit counts
and one integer (its mantissa), the operation is carried out on those integers, and the result is written back by `dec`.
No loop over units, no carries, no indices.  `Props/Reference.lean` shows the code computes exactly these results, every
field of the struct included.
-/

namespace Fxd.Spec
open Fxd

/-- The lowest `n` base-`10^9` digits of `M`, least significant first. -/
def unitsOf : Nat → Int → List Int
  | 0, _ => []
  | n + 1, M => M % 1000000000 :: unitsOf n (M / 1000000000)

/-- The decimal with the given sign flag, digit counts and mantissa. -/
def dec (sign : Bool) (intg frac : Nat) (M : Int) : FixedDecimal where
  intg := BitVec.ofNat 8 (if sign then 128 + intg else intg)
  frac := frac
  lsu := unitsOf 9 M

/-- Number of base-`10^9` digits of `M ≥ 0`. -/
def unitCount (M : Int) : Nat := if M = 0 then 0 else Nat.log 1000000000 M.toNat + 1

/-- The mantissa with its sign. -/
def signedMant (d : FixedDecimal) : Int := if neg d then - mant d else mant d

/-- What a caller can observe of an outcome, apart from the text of a panic and the state an error leaves behind: `none` for
a panic, the error, or the value. -/
def seen {σ α : Type} : Out σ α → Option (Except Error α)
  | .ok a => some (.ok a)
  | .err e _ => some (.error e)
  | .panic _ => none

/-- The signed mantissa, at scale `F` units. -/
def alignTo (F : Nat) (d : FixedDecimal) : Int := signedMant d * 1000000000 ^ (F - fu d)

/-- Write an integer `S` at scale `f`: trimmed to whole units, zero never negative. -/
def trimmed (f : Nat) (S : Int) : FixedDecimal :=
  dec (decide (S < 0)) (9 * (unitCount |S| - unitsFor f)) f |S|

/-- The sum or difference `S` of two non-zero operands, if the nine units have room: eight for the operands lined up at the
decimal point, and the result must not need a ninth. -/
def refSum (a b : FixedDecimal) (S : Int) : Option FixedDecimal :=
  if max (iu a) (iu b) + max (fu a) (fu b) ≤ 8 ∧ |S| < 1000000000 ^ 8 then
    some (trimmed (max (fracDigits a) (fracDigits b)) S)
  else none

/-- Addition. -/
def refAdd (a b : FixedDecimal) : Option FixedDecimal :=
  if mant a = 0 then some b
  else if mant b = 0 then some a
  else refSum a b (alignTo (max (fu a) (fu b)) a + alignTo (max (fu a) (fu b)) b)

/-- Subtraction. -/
def refSub (a b : FixedDecimal) : Option FixedDecimal :=
  if mant a = 0 then some (dec (!neg b && mant b ≠ 0) (intgDigits b) (fracDigits b) (mant b))
  else if mant b = 0 then some a
  else refSum a b (alignTo (max (fu a) (fu b)) a - alignTo (max (fu a) (fu b)) b)

/-- Multiplication: the integer is `codeMul`, the schoolbook rows cut off below the last kept unit. -/
def refMul (m : Mode) (a b : FixedDecimal) : Option (Except Error FixedDecimal) :=
  if mant a = 0 ∨ mant b = 0 then some (.ok (dec false 1 0 0))
  else if 82 ≤ intgDigits a + intgDigits b ∧ intgDigits a + intgDigits b ≤ 119 then some (.error .overflow)
  else if MulFits m a b then
    if codeMul a b < 1000000000 ^ 9 then
      some (.ok (dec (neg a != neg b && codeMul a b ≠ 0) (9 * mulIU a b) (min (fracDigits a + fracDigits b) (9 * mulFU a b))
        (codeMul a b)))
    else some (.error .overflow)
  else none

/-- What an `Err` of a multiplication leaves in the output: zero if the digit counts are too large, but the low nine units of the
product, with the digit counts of zero, if it is the product itself that needs a tenth unit. -/
def mulLeft (a b : FixedDecimal) : FixedDecimal :=
  if 82 ≤ intgDigits a + intgDigits b then dec false 1 0 0 else dec false 1 0 (codeMul a b)

/-- From an integer: whole units, except that the smallest `i64` is a constant with 19 digits. -/
def refInt (n : Int) : FixedDecimal :=
  if n = -2 ^ 63 then dec true 19 0 |n| else trimmed 0 n

/-- `⌊M / D + 1/2⌋`. -/
def halfUp (M D : Int) : Int := (2 * M + D) / (2 * D)

/-- Write a rounded magnitude `W` at scale `f`: as many integral units as `d` has, one more if `W` needs it; `none` when that
is more than nine units in all. -/
def refRounded (d : FixedDecimal) (f : Nat) (W : Int) : Option FixedDecimal :=
  if iu d + unitsFor f ≤ 8 ∨ W < 1000000000 ^ 9 then
    some (dec (neg d) (9 * if W < 1000000000 ^ (iu d + unitsFor f) then iu d else iu d + 1) f W)
  else none

/-- Rounding to `k` places when that drops digits: half away from zero for `k ≥ 0`; for `k = -j < 0` zero if there are not
more than `j` integral digits, otherwise half away from zero, except that multiples of nine cut. -/
def refShorten (d : FixedDecimal) (k : Int) : Option FixedDecimal :=
  if 0 ≤ k then
    refRounded d k.toNat
      (halfUp (mant d) (10 ^ (9 * fu d - k.toNat)) * 10 ^ (9 * unitsFor k.toNat - k.toNat))
  else if (intgDigits d : Int) ≤ -k then some (dec false 1 0 0)
  else
    refRounded d 0
      ((if 9 ∣ k then mant d / 10 ^ (9 * fu d + (-k).toNat) else halfUp (mant d) (10 ^ (9 * fu d + (-k).toNat)))
        * 10 ^ (-k).toNat)

/-- `round_to`: an extension keeps the digit count and multiplies the mantissa. -/
def refRoundTo (d : FixedDecimal) (k : Int) : Option FixedDecimal :=
  if d.frac ≤ k then
    if ExtFits d k then
      some { d with frac := castI8 k, lsu := unitsOf 9 (mant d * 1000000000 ^ extUnits d k) }
    else none
  else refShorten d k

/-- `round` in place: the units freed by an extension keep their old contents. -/
def refRound (d : FixedDecimal) (k : Int) : Option FixedDecimal :=
  if d.frac ≤ k then
    if ExtFits d k then
      some { d with
        frac := castI8 k
        lsu := unitsOf 9 (mant d * 1000000000 ^ extUnits d k + mant d % 1000000000 ^ extUnits d k) }
    else none
  else refShorten d k

end Fxd.Spec
