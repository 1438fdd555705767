import Verif.Spec.ReferenceDiv
/-!
# Specification: the reference implementation at the ends of the argument types

`incr_frac : usize` is cast to `isize`, and the precision of `round` is an `isize` that is negated.  Here is what happens for
every value of these types.
-/

namespace Fxd.Spec
open Fxd

/-- Digits by which the fractions of `a` and `b` fall short of whole units. -/
def fracPad (a b : FixedDecimal) : Nat := (9 * fu a - fracDigits a) + (9 * fu b - fracDigits b)

/-- The number of extra digits that `div_to` effectively uses when asked for `incr`: values of 2^63 and more are negative
after the cast and count as 0, only the low eight bits of the resulting scale matter; `none` if 64-bit arithmetic overflows in
a debug build. -/
def effIncr (m : Mode) (a b : FixedDecimal) (incr : Nat) : Option Nat :=
  let x := Int.bmod incr (2 ^ 64) - fracPad a b
  let y := Int.bmod x (2 ^ 64)
  if m = .debug ∧ (x < -2 ^ 63 ∨ 2 ^ 63 ≤ 9 * (fu a + fu b : Int) + x) then none
  else if y < 0 then some 0
  else some (fracPad a b + (y % 256).toNat)

/-- Division for every `incr : usize`. -/
def refDivFull (m : Mode) (a b : FixedDecimal) (incr : Nat) : Option (Except Error FixedDecimal) :=
  if mant b = 0 ∨ mant a = 0 then refDiv m a b 0
  else match effIncr m a b incr with
    | none => none
    | some j => refDiv m a b j

/-- `isize::MIN`: overflow in a debug build; in a release build the fraction is cut off (the 8-bit cast of the count is 0).
`isize::MIN + 1`: overflow in a debug build, an index out of range in a release build. -/
def refLowest (m : Mode) (d : FixedDecimal) (k : Int) (f : Option FixedDecimal) : Option FixedDecimal :=
  if k = -2 ^ 63 then if m = .debug then none else refRounded d 0 (mant d / 10 ^ (9 * fu d))
  else if k = -2 ^ 63 + 1 then none
  else f

/-- `round` for every `isize`. -/
def refRoundFull (m : Mode) (d : FixedDecimal) (k : Int) : Option FixedDecimal := refLowest m d k (refRound d k)
/-- `round_to` for every `isize`. -/
def refRoundToFull (m : Mode) (d : FixedDecimal) (k : Int) : Option FixedDecimal := refLowest m d k (refRoundTo d k)

end Fxd.Spec
