import Verif.Spec.Numeral
import Mathlib.Data.Nat.Digits.Defs
/-!
# Specification: the text of a number

Independent of the formatter: the usual decimal digits of a natural number, and the text of `± N / 10^k` with exactly
`k` digits after the point.
-/

namespace Fxd.Spec

/-- The decimal digits of `n`, most significant first, `[0]` for zero (Mathlib's digits, reversed). -/
def natDigits (n : Nat) : List Nat := if n = 0 then [0] else (Nat.digits 10 n).reverse

/-- The last `k` decimal digits of `n`, zero padded. -/
def padDigits : Nat → Nat → List Nat
  | 0, _ => []
  | k + 1, n => padDigits k (n / 10) ++ [n % 10]

/-- The numeral for `± N / 10^k` with `k` digits after the point, without point when `k = 0`. -/
def decNumeral (neg : Bool) (N k : Nat) : Numeral where
  sign := if neg then .minus else .none
  ip := natDigits (N / 10 ^ k)
  fp := if k = 0 then none else some (padDigits k (N % 10 ^ k))
  exp := none

/-- Its text. -/
def decText (neg : Bool) (N k : Nat) : List Nat := (decNumeral neg N k).render

/-- `|v|` cut (not rounded) after `k` digits, in units of `10^-k`. -/
def cut (v : ℚ) (k : Nat) : Nat := ⌊|v| * 10 ^ k⌋.toNat

/-- `-?(0|[1-9][0-9]*)(\.[0-9]+)?` -/
def Canonical (neg : Bool) (s : List Nat) : Prop :=
  ∃ ip fp : List Nat, s = (if neg then [45] else []) ++ digitChars ip ++ (if fp = [] then [] else 46 :: digitChars fp) ∧
    (∀ d ∈ ip ++ fp, d < 10) ∧ ip ≠ [] ∧ (ip.head? = some 0 → ip = [0])

/-- A byte the formatter may write: `-`, `.`, or an ASCII digit. -/
def TextByte (c : Nat) : Prop := c = 45 ∨ c = 46 ∨ (48 ≤ c ∧ c ≤ 57)

end Fxd.Spec
