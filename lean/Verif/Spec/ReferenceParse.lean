import Verif.Spec.Reference
import Verif.Spec.Numeral
/-!
# Specification: a reference parser

A second parser, in a few lines on lists: cut the text into sign, digits, point, digits and rest; read the rest as exponent;
compute digit counts and mantissa as integers.  It says for every byte string and both builds what parsing does: the wrapped
eight-bit counters of release builds on more than 127 digits and the overflow checks of debug builds included.
-/

namespace Fxd.Spec
open Fxd

/-- ASCII digit. -/
def isDig (c : Nat) : Bool := decide (48 ≤ c ∧ c ≤ 57)

/-- The leading digits of a text, as numbers. -/
def leadDigits (bs : List Nat) : List Nat := (bs.takeWhile isDig).map (· - 48)

/-- A text cut into sign, integral digits, fractional digits and the rest. -/
structure Shape where
  neg : Bool
  ip : List Nat
  fp : List Nat
  rest : List Nat
  deriving DecidableEq, Repr

/-- A leading sign and what follows it. -/
def cutSign (bs : List Nat) : Bool × List Nat :=
  match bs with
  | 45 :: r => (true, r)
  | 43 :: r => (false, r)
  | _ => (false, bs)

/-- The cut. -/
def shapeOf (bs : List Nat) : Shape :=
  let (neg, bs) := cutSign bs
  match bs.dropWhile isDig with
  | 46 :: r => ⟨neg, leadDigits bs, leadDigits r, r.dropWhile isDig⟩
  | rest => ⟨neg, leadDigits bs, [], rest⟩

/-- The exponent: nothing, or `e`/`E`, an optional sign and at least one digit, between -30 and 65. Debug builds panic if the
digits in front, whatever follows them, make a number that (plus 48) is too large for 32 bits. -/
def refExp (m : Mode) (rest : List Nat) : Option (Except Error Int) :=
  match rest with
  | [] => some (.ok 0)
  | c :: cs =>
    if c ≠ 101 ∧ c ≠ 69 then some (.error .conversionSyntax)
    else
      let (neg, ds) := cutSign cs
      let v := digitsVal (leadDigits ds)
      if m = .debug ∧ 2 ^ 31 ≤ v + 48 then none
      else if ds = [] ∨ ds.dropWhile isDig ≠ [] ∨ (if neg then 30 else 65) < v then some (.error .conversionSyntax)
      else some (.ok (if neg then -(v : Int) else v))

/-- A parsed decimal with `I` integral and `F` fractional digits and mantissa `M`; units beyond those needed stay as they were
in `old`. -/
def parsedDec (old : FixedDecimal) (neg : Bool) (I F : Nat) (M : Int) : FixedDecimal where
  intg := BitVec.ofNat 8 (if neg then 128 + I else I)
  frac := F
  lsu := unitsOf (unitsFor I + unitsFor F) M ++ old.lsu.drop (unitsFor I + unitsFor F)

/-- From digits and exponent to the decimal: `F` fractional and `I` integral digits. -/
def refNumber (m : Mode) (old : FixedDecimal) (neg : Bool) (ip fp : List Nat) (e : Int) : Option (Except Error FixedDecimal) :=
  let n := ip.length + fp.length
  let F : Int := fp.length - e
  let I : Int := ip.length + e
  if n ≤ 127 then
    if m = .debug ∧ (128 ≤ F ∨ F ≤ 0 ∧ 128 ≤ I) then none
    else if 65 < n ∨ 65 < F ∨ 65 < I then some (.error .conversionSyntax)
    else some (.ok (parsedDec old neg I.toNat F.toNat (digitsVal (ip ++ fp) * 10 ^ (9 * unitsFor F.toNat - F).toNat)))
  -- more than 127 digits: the counters have wrapped around
  else if Int.bmod F 256 ≤ 0 then
    if 0 ≤ Int.bmod I 256 ∧ Int.bmod I 256 ≤ 65 then
      some (.ok (parsedDec old neg (Int.bmod I 256).toNat 0 (digitsVal ((ip ++ fp).take (Int.bmod I 256).toNat))))
    else some (.error .conversionSyntax)
  else if 65 < max (Int.bmod n 256) (Int.bmod F 256) then some (.error .conversionSyntax)
  else none

/-- Parsing `bs` into `old`. -/
def refParse (m : Mode) (old : FixedDecimal) (bs : List Nat) : Option (Except Error FixedDecimal) :=
  let s := shapeOf bs
  if m = .debug ∧ 127 < s.ip.length + s.fp.length then none
  else if s.ip ++ s.fp = [] then some (.error .conversionSyntax)
  else
    match refExp m s.rest with
    | none => none
    | some (.error e) => some (.error e)
    | some (.ok e) => refNumber m old s.neg s.ip s.fp e

end Fxd.Spec
