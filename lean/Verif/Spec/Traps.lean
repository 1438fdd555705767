import Verif.Spec.ReferenceEdges
import Verif.Spec.ReferenceParse
/-!
# Specification: which panic

The reference implementations say `none` where the code panics.  Here is which panic that is: a failed bounds check (in both
builds), or, in a debug build, an overflow check or a `debug_assert!`.
-/

namespace Fxd.Spec
open Fxd

/-- Everything a caller can observe of an outcome apart from the state an error leaves behind: the kind of the panic, the error,
or the value. -/
def fate {σ α : Type} : Out σ α → Except Panic (Except Error α)
  | .ok a => .ok (.ok a)
  | .err e _ => .ok (.error e)
  | .panic p => .error p

/-- A reference result, with the panic meant by `none`. -/
def withTrap {β : Type} (r : Option β) (p : Panic) : Except Panic β :=
  match r with
  | some x => .ok x
  | none => .error p

/-- Multiplication: in a debug build an overflow check if the integral or the fractional digit counts add up to 120 or more,
otherwise the assertion that a row of the product starts inside the result. -/
def mulTrap (m : Mode) (a b : FixedDecimal) : Panic :=
  match m with
  | .release => .index
  | .debug =>
    if 120 ≤ intgDigits a + intgDigits b ∨ 120 ≤ fracDigits a + fracDigits b then .overflow else .assert

/-- The eight-bit digit counts of the quotient that cannot be rounded up to whole units without overflow. -/
def QuoOverflows (a b : FixedDecimal) (incr : Nat) : Prop :=
  120 ≤ quoFrac a b incr ∨
    -8 ≤ quoFrac a b incr ∧ (120 ≤ quoIntg a b ∧ quoIntg a b ≤ 127 ∨ -126 ≤ quoIntg a b ∧ quoIntg a b ≤ -119)
instance (a b : FixedDecimal) (incr : Nat) : Decidable (QuoOverflows a b incr) := by unfold QuoOverflows; infer_instance

/-- Division in a debug build, with the effective number of extra digits (`none`: it overflowed): an overflow check on the digit
counts; else the bounds checks of a release build (digit counts or scratch buffer); else the assertion that a first guess is a
single unit. -/
def divTrapAt (a b : FixedDecimal) : Option Nat → Panic
  | none => .overflow
  | some j =>
    if QuoOverflows a b j then .overflow
    else if ¬ QuoRange a b j ∨ QuoSpill a b j then .index
    else .assert

/-- Division. -/
def divTrap (m : Mode) (a b : FixedDecimal) (incr : Nat) : Panic :=
  if m = .debug then divTrapAt a b (effIncr .debug a b incr) else .index

/-- Remainder: a bounds check, unless a debug build gets as far as a guess that is not a single unit, or as the last check. -/
def remTrap (m : Mode) (a b : FixedDecimal) : Panic :=
  match m with
  | .release => .index
  | .debug =>
    if remB a b < remA a b ∧ ¬ (RemFull a b ∧ LeadGe a b) ∧ (RemGuessWide a b ∨ ¬ RemFull a b) then .assert else .index

/-- The precision as the rounding functions see it: its last eight bits, as a signed number. -/
def narrow (k : Int) : Int := Int.bmod k 256

/-- When rounding `d` to `k` fractional digits overflows an intermediate integer. -/
def RoundOverflows (d : FixedDecimal) (k : Int) : Prop :=
  k ≤ -(2 ^ 63 - 1) ∨ d.frac ≤ k ∧ (120 ≤ narrow k ∨ -8 ≤ narrow k ∧ unitsFor (narrow k).toNat < fu d)
instance (d : FixedDecimal) (k : Int) : Decidable (RoundOverflows d k) := by unfold RoundOverflows; infer_instance

/-- Rounding. -/
def roundTrap (m : Mode) (d : FixedDecimal) (k : Int) : Panic :=
  if m = .debug ∧ RoundOverflows d k then .overflow else .index

/-- Parsing: debug builds never get to a bad index. -/
def parseTrap (m : Mode) : Panic :=
  match m with
  | .release => .index
  | .debug => .overflow

/-- What an operator does when its function ends this way: the error becomes a panic that carries it. -/
def raised {α : Type} : Except Panic (Except Error α) → Except Panic (Except Error α)
  | .ok (.ok r) => .ok (.ok r)
  | .ok (.error e) => .error (.operator e)
  | .error p => .error p

end Fxd.Spec
