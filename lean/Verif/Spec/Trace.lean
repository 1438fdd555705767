import Verif.Spec.Machine
import Verif.Spec.Text
import Verif.Spec.ReferenceEdges
import Verif.Spec.ReferenceParse
/-!
# Specification: a reference machine

A whole session with the library: calls that write registers, the operators, and calls that only look.  The reference machine
answers each of them from the reference implementation and from the rational values, and `trace` collects everything a program
sees: one reply per action, up to the first panic.
-/

namespace Fxd
open Spec

/-- The registers. -/
abbrev Regs := Nat → FixedDecimal

/-- Write a register. -/
def Regs.put (s : Regs) (i : Nat) (d : FixedDecimal) : Regs := fun j => if j = i then d else s j

/-- The five operators. -/
inductive BinOp
  | add | sub | mul | div | rem
  deriving DecidableEq, Repr

/-- One action of a program. -/
inductive Action
  /-- a call with an output parameter -/
  | call (c : Call)
  /-- parsing without the reset: `from_bytes_str(bs, false)` -/
  | parseKeep (dst : Nat) (bs : List Nat)
  /-- `dst = a op b` -/
  | op (o : BinOp) (dst a b : Nat)
  /-- `to_string(k)` -/
  | text (a : Nat) (k : Int)
  | cmp (a b : Nat)
  | eq (a b : Nat)
  | hash (a : Nat)
  | asI64 (a : Nat)
  | asU64 (a : Nat)
  | isZero (a : Nat)
  | isNeg (a : Nat)
  | intg (a : Nat)
  | frac (a : Nat)

/-- What the program gets back. -/
inductive Reply
  | done
  | failed (e : Error)
  | text (bs : List Nat)
  | order (o : Ordering)
  | truth (b : Bool)
  | number (n : Int)
  | hashed (w : List FixedDecimal.HashWrite)
  deriving DecidableEq, Repr

/-- Everything a program sees when it runs: the replies up to the first panic, and the registers at the end if there was
none. -/
def trace (step : Regs → Action → Option (Reply × Regs)) : Regs → List Action → List Reply × Option Regs
  | s, [] => ([], some s)
  | s, a :: as =>
    match step s a with
    | none => ([], none)
    | some (r, t) => (r :: (trace step t as).1, (trace step t as).2)

namespace Spec

/-- Register `i` receives the result; an error leaves `left` there; nothing follows a panic. -/
def refWrite (s : Regs) (i : Nat) (left : FixedDecimal) : Option (Except Error FixedDecimal) → Option (Reply × Regs)
  | none => none
  | some (.ok d) => some (.done, s.put i d)
  | some (.error e) => some (.failed e, s.put i left)

/-- Zero. -/
def refZero : FixedDecimal := dec false 1 0 0

/-- The same digits with the given sign flag. -/
def withSign (sign : Bool) (d : FixedDecimal) : FixedDecimal :=
  { d with intg := BitVec.ofNat 8 (if sign then 128 + intgDigits d else intgDigits d) }

/-- The calls with an output parameter. Every error leaves zero, except that of a product that needs a tenth unit (`mulLeft`). -/
def refCall (m : Mode) (s : Regs) : Call → Option (Reply × Regs)
  | .parse i bs => refWrite s i refZero (refParse m refZero bs)
  | .fromI64 i n => refWrite s i refZero (some (.ok (refInt n)))
  | .fromU64 i n => refWrite s i refZero (some (.ok (trimmed 0 n)))
  | .setZero i => refWrite s i refZero (some (.ok refZero))
  | .setOne i => refWrite s i refZero (some (.ok (dec false 1 0 1)))
  | .setNeg i => refWrite s i refZero (some (.ok (withSign true (s i))))
  | .setPos i => refWrite s i refZero (some (.ok (withSign false (s i))))
  | .copy i a => refWrite s i refZero (some (.ok (s a)))
  | .add i a b => refWrite s i refZero ((refAdd (s a) (s b)).map .ok)
  | .sub i a b => refWrite s i refZero ((refSub (s a) (s b)).map .ok)
  | .mul i a b => refWrite s i (mulLeft (s a) (s b)) (refMul m (s a) (s b))
  | .div i a b incr => refWrite s i refZero (refDivFull m (s a) (s b) incr)
  | .rem i a b => refWrite s i refZero (refRem m (s a) (s b))
  | .roundTo i a k => refWrite s i refZero ((refRoundToFull m (s a) k).map .ok)
  | .round i k => refWrite s i refZero ((refRoundFull m (s i) k).map .ok)

/-- The operators; division asks for four more digits. -/
def refOp (m : Mode) (a b : FixedDecimal) : BinOp → Option (Except Error FixedDecimal)
  | .add => (refAdd a b).map .ok
  | .sub => (refSub a b).map .ok
  | .mul => refMul m a b
  | .div => refDivFull m a b 4
  | .rem => refRem m a b

/-- An operator turns an error into a panic. -/
def panicOnError {α : Type} : Option (Except Error α) → Option (Except Error α)
  | some (.ok a) => some (.ok a)
  | _ => none

/-- An answer, or the error that the value is out of range. -/
def inRangeOr (s : Regs) (ok : Prop) [Decidable ok] (n : Int) : Option (Reply × Regs) :=
  some (if ok then .number n else .failed .exceedsConversionTargetRange, s)

/-- One step of the reference machine. -/
def refStep (m : Mode) (s : Regs) : Action → Option (Reply × Regs)
  | .call c => refCall m s c
  | .parseKeep i bs => refWrite s i (s i) (refParse m (s i) bs)
  | .op o i a b => refWrite s i refZero (panicOnError (refOp m (s a) (s b) o))
  | .text a k =>
    let n := if k < 0 then fracDigits (s a) else k.toNat
    some (.text (decText (neg (s a)) (cut (val (s a)) n) n), s)
  | .cmp a b => some (.order ((compare (val (s a)) (val (s b))).then (compare (neg (s b)) (neg (s a)))), s)
  | .eq a b => some (.truth (decide (val (s a) = val (s b) ∧ neg (s a) = neg (s b))), s)
  | .hash a => some (.hashed ([.u8 (if neg (s a) then 1 else 0), .u8 (iu (s a)), .u8 (fu (s a))] ++
      (unitsOf (iu (s a) + fu (s a)) (mant (s a))).map .u32), s)
  | .asI64 a => inRangeOr s (-2 ^ 63 ≤ val (s a) ∧ val (s a) ≤ 2 ^ 63 - 1) (halfAway (val (s a)))
  | .asU64 a => inRangeOr s (neg (s a) = false ∧ val (s a) ≤ 2 ^ 64 - 1) (halfAway (val (s a)))
  | .isZero a => some (.truth (decide (val (s a) = 0)), s)
  | .isNeg a => some (.truth (neg (s a)), s)
  | .intg a => some (.number (intgDigits (s a)), s)
  | .frac a => some (.number (fracDigits (s a)), s)

end Spec

/-- Arguments within the range of their Rust types. -/
def Call.InRange : Call → Prop
  | .fromI64 _ n => -2 ^ 63 ≤ n ∧ n < 2 ^ 63
  | .fromU64 _ n => 0 ≤ n ∧ n < 2 ^ 64
  | .div _ _ _ incr => incr < 2 ^ 64
  | .roundTo _ _ k => -2 ^ 63 ≤ k ∧ k < 2 ^ 63
  | .round _ k => -2 ^ 63 ≤ k ∧ k < 2 ^ 63
  | _ => True

/-- The same for actions. -/
def Action.InRange : Action → Prop
  | .call c => c.InRange
  | .text _ k => -2 ^ 63 ≤ k ∧ k < 2 ^ 63
  | _ => True

/-- Along the run of the reference machine: arguments are in range and registers stay well-formed. -/
def Tame (m : Mode) : Regs → List Action → Prop
  | _, [] => True
  | s, a :: as => a.InRange ∧ ∀ r t, refStep m s a = some (r, t) → (∀ j, WF (t j)) ∧ Tame m t as

end Fxd
