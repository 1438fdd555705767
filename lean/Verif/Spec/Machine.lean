import Verif.Spec.Numeral
import Verif.Spec.Rounding
import Verif.Spec.Quotient
import Verif.Spec.Remainder
/-!
# Specification: a calculator for rational numbers

Programs are lists of calls of the API on numbered registers.  Here is what such a program is meant to do: its registers hold
rational numbers, and each call computes what its name says.
-/

namespace Fxd
open Spec

/-- One API call. Registers are numbered; `dst` is the `&mut` parameter. -/
inductive Call
  | parse (dst : Nat) (s : List Nat)
  | fromI64 (dst : Nat) (n : Int)
  | fromU64 (dst : Nat) (n : Int)
  | setZero (dst : Nat)
  | setOne (dst : Nat)
  | setNeg (dst : Nat)
  | setPos (dst : Nat)
  | copy (dst a : Nat)
  | add (dst a b : Nat)
  | sub (dst a b : Nat)
  | mul (dst a b : Nat)
  | div (dst a b incr : Nat)
  | rem (dst a b : Nat)
  | roundTo (dst a : Nat) (k : Int)
  | round (dst : Nat) (k : Int)

namespace Spec

/-- Round `x` to `k` decimal places, half away from zero; negative `k` means tens, hundreds, ... -/
def roundAt (k : Int) (x : ℚ) : ℚ := (halfAway (x * (10 : ℚ) ^ k) : ℚ) / (10 : ℚ) ^ k

/-- Write a register. -/
def setReg (x : Nat → ℚ) (i : Nat) (v : ℚ) : Nat → ℚ := fun j => if j = i then v else x j

/-- What a call means, on numbers: `Means x c v i` says that the call `c` may put `v` into register `i`. Only division leaves a
choice: the number of decimal places at which the quotient is cut. -/
def Means (x : Nat → ℚ) : Call → Nat → ℚ → Prop
  | .parse d s, i, v => i = d ∧ ∃ t : Numeral, t.Valid ∧ t.render = s ∧ v = t.denote
  | .fromI64 d n, i, v => i = d ∧ v = n
  | .fromU64 d n, i, v => i = d ∧ v = n
  | .setZero d, i, v => i = d ∧ v = 0
  | .setOne d, i, v => i = d ∧ v = 1
  | .setNeg d, i, v => i = d ∧ v = -|x d|
  | .setPos d, i, v => i = d ∧ v = |x d|
  | .copy d a, i, v => i = d ∧ v = x a
  | .add d a b, i, v => i = d ∧ v = x a + x b
  | .sub d a b, i, v => i = d ∧ v = x a - x b
  | .mul d a b, i, v => i = d ∧ v = x a * x b
  | .div d a b _, i, v => i = d ∧ x b ≠ 0 ∧ ∃ n, v = truncQuot (x a) (x b) n
  | .rem d a b, i, v => i = d ∧ x b ≠ 0 ∧ v = truncRem (x a) (x b)
  | .roundTo d a k, i, v => i = d ∧ v = roundAt k (x a)
  | .round d k, i, v => i = d ∧ v = roundAt k (x d)

/-- A run of the calculator. -/
inductive Calculates : (Nat → ℚ) → List Call → (Nat → ℚ) → Prop
  | done (x) : Calculates x [] x
  | step {x y c cs i v} : Means x c i v → Calculates (setReg x i v) cs y → Calculates x (c :: cs) y

end Spec
end Fxd
