import Verif.Spec.Remainder
/-!
# Specification: what the long division does, in integers

Knuth's algorithm D guesses a quotient unit from the leading two units of the divisor and the leading three of the
window.  The guess can be one too large; a correct implementation then adds the divisor back.  The definitions here say
for which operands this happens, and what the code's wrong correction step leaves for a remainder instead.  Only values,
mantissas and unit counts of the operands are used, none of the model's functions.
-/

namespace Fxd.Spec

/-- The quotient of the leading parts (everything below `P` cut off) is too large. -/
def TooBig (R P W : Int) : Prop := W / R < (W / P) / (R / P)
instance (R P W : Int) : Decidable (TooBig R P W) := by unfold TooBig; infer_instance

/-- The first guess (leading two units by the leading unit) is not a single unit; debug builds assert that it is. -/
def FirstGuessWide (R P W : Int) : Prop := 1000000000 ≤ (W / (P * 1000000000)) / (R / (P * 1000000000))
instance (R P W : Int) : Decidable (FirstGuessWide R P W) := by unfold FirstGuessWide; infer_instance

/-! ## The remainder -/

/-- What is left of a window: its remainder; but if the guess was too large, the code leaves the divisor minus the
remainder. -/
def remStep (R P W : Int) : Int := if TooBig R P W then R - W % R else W % R

/-- The run of a long division of `V` with `n` quotient units: the leading part, above the unit at position `n - 1`, is
replaced by what is left of it, and so on down. The number left at the end. -/
def remRun (R P : Int) : Nat → Int → Int
  | 0, V => V
  | n + 1, V => remRun R P n (V % 1000000000 ^ n + 1000000000 ^ n * remStep R P (V / 1000000000 ^ n))

/-- The windows this run divides. -/
def remWins (R P : Int) : Nat → Int → List Int
  | 0, _ => []
  | n + 1, V => V / 1000000000 ^ n ::
      remWins R P n (V % 1000000000 ^ n + 1000000000 ^ n * remStep R P (V / 1000000000 ^ n))

/-- The factor that makes the leading unit of the divisor large. -/
def normFac (b : FixedDecimal) : Int := 1000000000 / (mant b / 1000000000 ^ topUnit b + 1)

/-- The dividend of `a % b` as an integer, at the larger of the two scales. -/
def remA (a b : FixedDecimal) : Int := mant a * 1000000000 ^ (fu b - fu a)
/-- The divisor likewise. -/
def remB (a b : FixedDecimal) : Int := mant b * 1000000000 ^ (fu a - fu b)

/-- Position of the leading unit of the aligned divisor. -/
def remTop (a b : FixedDecimal) : Nat := topUnit b + (fu a - fu b)

/-- Number of units of the integral quotient `a / b` that the long division computes. -/
def remUnits (a b : FixedDecimal) : Nat :=
  (topUnit a + 1 + (fu b - fu a)) - remTop a b - (if LeadGe a b then 0 else 1)

/-- `a % b` needs the long division: the divisor has several units, and is smaller. -/
def RemLong (a b : FixedDecimal) : Prop := topUnit b ≠ 0 ∧ remB a b < remA a b
instance (a b : FixedDecimal) : Decidable (RemLong a b) := by unfold RemLong; infer_instance

/-- The windows of the remainder. -/
def remWindows (a b : FixedDecimal) : List Int :=
  remWins (normFac b * remB a b) (1000000000 ^ (remTop a b - 1)) (remUnits a b) (normFac b * remA a b)

/-- Computing `a % b` meets a guess that is too large. -/
def RemGuessTooBig (a b : FixedDecimal) : Prop :=
  RemLong a b ∧ ∃ W ∈ remWindows a b, TooBig (normFac b * remB a b) (1000000000 ^ (remTop a b - 1)) W
instance (a b : FixedDecimal) : Decidable (RemGuessTooBig a b) := by unfold RemGuessTooBig; infer_instance

/-- Computing `a % b` meets a first guess that is not a single unit. -/
def RemGuessWide (a b : FixedDecimal) : Prop :=
  RemLong a b ∧ ∃ W ∈ remWindows a b, FirstGuessWide (normFac b * remB a b) (1000000000 ^ (remTop a b - 1)) W
instance (a b : FixedDecimal) : Decidable (RemGuessWide a b) := by unfold RemGuessWide; infer_instance

/-- What the long division of `a` by `b` leaves, still multiplied by `normFac b`. -/
def remLeft (a b : FixedDecimal) : Int :=
  remRun (normFac b * remB a b) (1000000000 ^ (remTop a b - 1)) (remUnits a b) (normFac b * remA a b)

/-- An assertion of the long division of `a % b` fails: a first guess is not a single unit, or what is left cannot be
divided by the normalisation factor. -/
def RemAssert (a b : FixedDecimal) : Prop := RemGuessWide a b ∨ RemLong a b ∧ ¬ normFac b ∣ remLeft a b
instance (a b : FixedDecimal) : Decidable (RemAssert a b) := by unfold RemAssert; infer_instance

/-- The integer the code returns as remainder, at the larger of the two scales. -/
def codeRem (a b : FixedDecimal) : Int :=
  if RemLong a b then remLeft a b / normFac b else remA a b % remB a b

/-! ## The quotient -/

/-- The number standing in `V` from unit position `p` upwards; below position 0 there are only zeros. -/
def fromUnit (V p : Int) : Int :=
  if 0 ≤ p then V / 1000000000 ^ p.toNat else V * 1000000000 ^ (-p).toNat

/-- `V` with that number replaced by `D`; what would stand below position 0 is dropped. -/
def putUnit (V p D : Int) : Int :=
  if 0 ≤ p then V % 1000000000 ^ p.toNat + 1000000000 ^ p.toNat * D else D / 1000000000 ^ (-p).toNat

/-- `V` with its `L` units from position `n` upwards replaced by their complement. -/
def negUnits (V : Int) (n L : Nat) : Int :=
  V - 1000000000 ^ n * (V / 1000000000 ^ n % 1000000000 ^ L) +
    1000000000 ^ n * ((-(V / 1000000000 ^ n % 1000000000 ^ L)) % 1000000000 ^ L)

/-- What the step for the quotient unit at position `n` leaves of `V`: the window, which starts at position `n + c`, is
replaced by its remainder. If the guess was too large the code does not add the divisor (of `k + 1` units) back to the
difference, which has wrapped around, but complements `k` units at the wrong place, or what there is of them. -/
def quoNext (R P : Int) (k : Nat) (c : Int) (n : Nat) (V : Int) : Int :=
  if TooBig R P (fromUnit V (n + c)) then
    negUnits (putUnit V (n + c) (1000000000 ^ (k + 1) - (R - fromUnit V (n + c) % R))) n (min k (k + 1 + c).toNat)
  else putUnit V (n + c) (fromUnit V (n + c) % R)

/-- The windows of a run with `n` quotient units, from the top. -/
def quoWins (R P : Int) (k : Nat) (c : Int) : Nat → Int → List Int
  | 0, _ => []
  | n + 1, V => fromUnit V (n + c) :: quoWins R P k c n (quoNext R P k c n V)

/-- The quotient of the run: every quotient unit is the quotient of its window. -/
def quoRun (R P : Int) (k : Nat) (c : Int) : Nat → Int → Int
  | 0, _ => 0
  | n + 1, V => fromUnit V (n + c) / R * 1000000000 ^ n + quoRun R P k c n (quoNext R P k c n V)

/-- Number of units of the quotient that are computed. -/
def quoSteps (a b : FixedDecimal) (incr : Nat) : Nat :=
  ((quoFU a b incr : Int) + ((topUnit a : Int) - fu a) - ((topUnit b : Int) - fu b) + if LeadGe a b then 1 else 0).toNat

/-- Where the divisor starts below the last quotient unit; if negative the last windows reach below the buffer. -/
def quoLow (a b : FixedDecimal) : Int := (quoIU a b : Int) + fu a - fu b

/-- The windows of `a / b`. -/
def quoWindows (a b : FixedDecimal) (incr : Nat) : List Int :=
  quoWins (normFac b * mant b) (1000000000 ^ (topUnit b - 1)) (topUnit b) (quoLow a b) (quoSteps a b incr)
    (1000000000 ^ (quoIU a b + quoFU a b incr) * (normFac b * mant a))

/-- Computing `a / b` meets a guess that is too large, not counting the last one, whose correction does no harm. -/
def QuoGuessTooBig (a b : FixedDecimal) (incr : Nat) : Prop :=
  topUnit b ≠ 0 ∧ ∃ W ∈ (quoWindows a b incr).dropLast, TooBig (normFac b * mant b) (1000000000 ^ (topUnit b - 1)) W
instance (a b : FixedDecimal) (incr : Nat) : Decidable (QuoGuessTooBig a b incr) := by
  unfold QuoGuessTooBig; infer_instance

/-- Computing `a / b` meets a first guess that is not a single unit. -/
def QuoGuessWide (a b : FixedDecimal) (incr : Nat) : Prop :=
  topUnit b ≠ 0 ∧ ∃ W ∈ quoWindows a b incr, FirstGuessWide (normFac b * mant b) (1000000000 ^ (topUnit b - 1)) W
instance (a b : FixedDecimal) (incr : Nat) : Decidable (QuoGuessWide a b incr) := by
  unfold QuoGuessWide; infer_instance

/-- A unit of the computed quotient `a / b` is not a unit. -/
def QuoUnitWide (a b : FixedDecimal) (incr : Nat) : Prop :=
  topUnit b ≠ 0 ∧ ∃ W ∈ quoWindows a b incr, 1000000000 ≤ W / (normFac b * mant b)
instance (a b : FixedDecimal) (incr : Nat) : Decidable (QuoUnitWide a b incr) := by
  unfold QuoUnitWide; infer_instance

/-- The integer the code returns as quotient, at the scale of the result. -/
def codeQuo (a b : FixedDecimal) (incr : Nat) : Int :=
  if topUnit b = 0 then mant a * 1000000000 ^ (quoFU a b incr + fu b) / (mant b * 1000000000 ^ fu a)
  else quoRun (normFac b * mant b) (1000000000 ^ (topUnit b - 1)) (topUnit b) (quoLow a b) (quoSteps a b incr)
    (1000000000 ^ (quoIU a b + quoFU a b incr) * (normFac b * mant a))

end Fxd.Spec
