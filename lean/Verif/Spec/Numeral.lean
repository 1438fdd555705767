import Verif.Spec.Value
/-!
# Specification: decimal numerals as text

`[+-] digits [. digits] [(e|E) [+-] digits]`, with at least one mantissa digit and at least one exponent digit when
there is an exponent.  Independent of the parser: a syntax tree, the text it stands for, the number it denotes.
-/

namespace Fxd.Spec

/-- An optional sign character. -/
inductive Sign
  | none
  | plus
  | minus
  deriving DecidableEq, Repr

/-- Its text. -/
def Sign.render : Sign → List Nat
  | .none => []
  | .plus => [43]
  | .minus => [45]

/-- ASCII text of decimal digits. -/
def digitChars (ds : List Nat) : List Nat := ds.map (· + 48)

/-- The number written by decimal digits, most significant first. -/
def digitsVal (ds : List Nat) : Nat := ds.foldl (fun n d => 10 * n + d) 0

/-- The exponent part. -/
structure Exponent where
  upper : Bool
  sign : Sign
  ds : List Nat
  deriving DecidableEq, Repr

/-- Its text: `e` or `E`, sign, digits. -/
def Exponent.render (x : Exponent) : List Nat :=
  (if x.upper then 69 else 101) :: (x.sign.render ++ digitChars x.ds)

/-- Its value. -/
def Exponent.value (x : Exponent) : Int := if x.sign = .minus then -(digitsVal x.ds : Int) else digitsVal x.ds

/-- A numeral; `fp = none` means there is no point. -/
structure Numeral where
  sign : Sign
  ip : List Nat
  fp : Option (List Nat)
  exp : Option Exponent
  deriving DecidableEq, Repr

namespace Numeral

/-- Digits after the point. -/
def fracs (t : Numeral) : List Nat := t.fp.getD []
/-- All mantissa digits. -/
def digits (t : Numeral) : List Nat := t.ip ++ t.fracs
/-- The exponent, 0 when absent. -/
def expo (t : Numeral) : Int := (t.exp.map Exponent.value).getD 0

/-- The grammar: digits are digits, at least one in the mantissa, at least one in an exponent. -/
def Valid (t : Numeral) : Prop :=
  (∀ d ∈ t.digits, d < 10) ∧ t.digits ≠ [] ∧ ∀ x ∈ t.exp, x.ds ≠ [] ∧ ∀ d ∈ x.ds, d < 10
instance (t : Numeral) : Decidable t.Valid := by unfold Valid; infer_instance

/-- The text. -/
def render (t : Numeral) : List Nat :=
  t.sign.render ++ digitChars t.ip ++ (match t.fp with | none => [] | some ds => 46 :: digitChars ds) ++
    (match t.exp with | none => [] | some x => x.render)

/-- The number denoted: sign * digits * 10^(exponent - fractional digits). -/
def denote (t : Numeral) : ℚ :=
  (if t.sign = .minus then -1 else 1) * (digitsVal t.digits : ℚ) * (10 : ℚ) ^ (t.expo - t.fracs.length : ℤ)

/-- The documented limits: exponent between -30 and 65, and no more than 65 digits - as written, after the point once
the exponent is applied, and before the point once the exponent is applied. -/
def Limits (t : Numeral) : Prop :=
  -30 ≤ t.expo ∧ t.expo ≤ 65 ∧ t.digits.length ≤ 65 ∧ t.fracs.length - t.expo ≤ 65 ∧
    t.digits.length - t.fracs.length + t.expo ≤ 65
instance (t : Numeral) : Decidable t.Limits := by unfold Limits; infer_instance

end Numeral

/-- Number of digit characters before the first `e` or `E` of an arbitrary byte string. -/
def mantDigits (bs : List Nat) : Nat :=
  ((bs.takeWhile fun c => c != 101 && c != 69).filter fun c => 48 ≤ c && c ≤ 57).length

end Fxd.Spec
