import Verif.Spec.Reference
import Verif.Spec.LongDivision
/-!
# Specification: the reference implementation of division and remainder

As `Spec/Reference.lean`.  The integers are those of `Spec/LongDivision.lean`, which say in arithmetic what the code's long
division does, its wrong correction step included.
-/

namespace Fxd.Spec
open Fxd

/-- The nine units of a quotient: by a one-unit divisor those of the truncated quotient; otherwise the quotients of the
windows, of which one can exceed a unit after a wrong correction. -/
def quoUnits (a b : FixedDecimal) (incr : Nat) : List Int :=
  if topUnit b = 0 then unitsOf 9 (codeQuo a b incr)
  else ((quoWindows a b incr).map (· / (normFac b * mant b))).reverse ++ List.replicate (9 - quoSteps a b incr) 0

/-- Division with `incr` more fractional digits wanted. -/
def refDiv (m : Mode) (a b : FixedDecimal) (incr : Nat) : Option (Except Error FixedDecimal) :=
  if mant b = 0 then some (.error .divisionByZero)
  else if mant a = 0 then some (.ok (dec false 1 0 0))
  else if ¬ QuoRange a b incr then none
  else if 82 ≤ quoIntg a b then some (.error .overflow)
  else if QuoSpill a b incr ∨ m = .debug ∧ QuoGuessWide a b incr then none
  else some (.ok
    { intg := BitVec.ofNat 8
        (if neg a ≠ neg b ∧ ∃ u ∈ quoUnits a b incr, u ≠ 0 then 128 + (quoIntg a b).toNat else (quoIntg a b).toNat)
      frac := 9 * quoFU a b incr
      lsu := quoUnits a b incr })

/-- Number of decimal digits of `M ≥ 0`. -/
def decDigits (M : Int) : Nat := if M = 0 then 0 else Nat.log 10 M.toNat + 1

/-- Remainder. -/
def refRem (m : Mode) (a b : FixedDecimal) : Option (Except Error FixedDecimal) :=
  if mant b = 0 then some (.error .divisionByZero)
  else if mant a = 0 ∨ remA a b = remB a b then some (.ok (dec false 1 0 0))
  else if remA a b < remB a b then
    if RemNoRoom a b then none
    else some (.ok (dec (neg a) (intgDigits a) (max (fracDigits a) (fracDigits b)) (remA a b)))
  else if RemFull a b ∧ LeadGe a b ∨ m = .debug ∧ (RemAssert a b ∨ RemFull a b) then none
  else some (.ok (dec (neg a && codeRem a b ≠ 0) (decDigits (codeRem a b) - 9 * max (fu a) (fu b))
    (max (fracDigits a) (fracDigits b)) (codeRem a b)))

end Fxd.Spec
