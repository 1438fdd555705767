import Verif.Proofs.HaltsDiv
import Verif.Props.Samples
/-!
# Property C71: every call ends, and panics only by a compiler-inserted check

`Spec.Ordinary` and `Spec.Halts` are in `Verif/Spec/Panics.lean`. The model of a loop without a syntactic bound panics with
`diverges` when its fuel is used up, so that `Halts` excludes running out of fuel; it also excludes division by zero in the
unit arithmetic and `unreachable!`.
-/

namespace Fxd
open Spec

namespace Props

/-- **C71.** Parsing any bytes, into any decimal, with or without reset, ends; if it panics, then by a check the compiler
inserts. -/
theorem C71_parse (m : Mode) (self : FixedDecimal) (bytes : List Nat) (reset : Bool) :
    Halts m (FixedDecimal.fromBytesStr m self bytes reset) ∧ Halts m (FixedDecimal.fromStr m bytes) :=
  ⟨fromBytesStr_halts, fromStr_halts⟩

/-- **C71** for the conversions from integers. -/
theorem C71_from_u64 (m : Mode) {n : Int} (h : 0 ≤ n) : Halts m (FixedDecimal.fromU64 n : Out Unit _) := fromU64_halts h
theorem C71_from_i64 (m : Mode) (n : Int) : Halts m (FixedDecimal.fromI64 m n : Out Unit _) := fromI64_halts

/-- **C71** for division: no unit is divided by zero, and the loop that corrects a guessed unit ends, for all well-formed
operands and every number of extra fractional digits. -/
theorem C71_div (m : Mode) {a b res : FixedDecimal} (ha : WF a) (hb : WF b) (hres : res.lsu.length = 9) (incr : Int) :
    Halts m (FixedDecimal.divTo m a b res incr) := divTo_halts ha hb hres incr

/-- **C71** for the remainder. -/
theorem C71_rem (m : Mode) {a b res : FixedDecimal} (ha : WF a) (hb : WF b) (hres : res.lsu.length = 9) :
    Halts m (FixedDecimal.remTo m a b res) := remTo_halts ha hb hres

/-- **C71** for everything else, on any decimals at all, well-formed or not. -/
theorem C71_rest (m : Mode) (a b res : FixedDecimal) (k : Int) (buf : List Nat) :
    Halts m (FixedDecimal.addTo m a b res) ∧ Halts m (FixedDecimal.subTo m a b res) ∧
    Halts m (FixedDecimal.mulTo m a b res) ∧
    Halts m (FixedDecimal.cmp m a b : Out Unit _) ∧ Halts m (FixedDecimal.eq m a b : Out Unit _) ∧
    Halts m (FixedDecimal.hash m a : Out Unit _) ∧
    Halts m (FixedDecimal.round m a k : Out Unit _) ∧ Halts m (FixedDecimal.roundTo m a res k : Out Unit _) ∧
    Halts m (FixedDecimal.asI64 m a) ∧ Halts m (FixedDecimal.asU64 m a) ∧
    Halts m (FixedDecimal.toStr m a k : Out Unit _) ∧ Halts m (FixedDecimal.appendStrBuf m a buf k : Out Unit _) :=
  ⟨.addTo, .subTo, .mulTo, .cmp, .eq, .hash, .round, .roundTo, .asI64, .asU64, .toStr, .appendStrBuf⟩

/-- Through an operator, an error becomes a deliberate panic. -/
theorem orPanic_halts {m : Mode} {x : Out FixedDecimal FixedDecimal} (h : Halts m x) {p : Panic}
    (hp : FixedDecimal.orPanic x = .panic p) : Ordinary m p ∨ ∃ e, p = .operator e := by
  cases x with
  | ok a => cases hp
  | err e s => cases hp; exact Or.inr ⟨e, rfl⟩
  | panic q => cases hp; exact Or.inl (h _ rfl)

/-- **C71** for the operators `+ - * / %`: the panics are the ordinary ones and the deliberate report of an error. -/
theorem C71_operators (m : Mode) {a b : FixedDecimal} (ha : WF a) (hb : WF b) {p : Panic}
    (h : FixedDecimal.add m a b = .panic p ∨ FixedDecimal.sub m a b = .panic p ∨ FixedDecimal.mul m a b = .panic p ∨
      FixedDecimal.div m a b = .panic p ∨ FixedDecimal.rem m a b = .panic p) :
    Ordinary m p ∨ ∃ e, p = .operator e := by
  rcases h with h | h | h | h | h
  · exact orPanic_halts .addTo h
  · exact orPanic_halts .subTo h
  · exact orPanic_halts .mulTo h
  · exact orPanic_halts (divTo_halts ha hb rfl _) h
  · exact orPanic_halts (remTo_halts ha hb rfl) h

/-- **C71** A release build has no overflow checks and no assertions: the only panic left is a bounds check. -/
theorem C71_release {σ α : Type} {x : Out σ α} (h : Halts .release x) {p : Panic} (hp : x = .panic p) : p = .index := by
  rcases h p hp with h | ⟨h, -⟩
  · exact h
  · cases h

/-- The operands of the examples of C58 and C30 are well formed, and every kind of ordinary panic happens: a bounds check in
a release build, an assertion and an overflow check in a debug build. -/
example : let a : FixedDecimal := ⟨81#8, 0, [0, 0, 0, 0, 0, 0, 0, 0, 900000000]⟩
    let b : FixedDecimal := ⟨10#8, 0, [0, 1, 0, 0, 0, 0, 0, 0, 0]⟩
    let c : FixedDecimal := ⟨27#8, 0, [0, 0, 500000000, 0, 0, 0, 0, 0, 0]⟩
    let d : FixedDecimal := ⟨18#8, 0, [1, 500000000, 0, 0, 0, 0, 0, 0, 0]⟩
    WF a ∧ WF b ∧ WF c ∧ WF d ∧
    FixedDecimal.divTo .release a b FixedDecimal.zero 4 = .panic .index ∧
    FixedDecimal.divTo .debug c d FixedDecimal.zero 4 = .panic .assert ∧
    FixedDecimal.fromStr .debug (List.replicate 128 49) = .panic .overflow ∧
    FixedDecimal.div .release a FixedDecimal.zero = .panic (.operator .divisionByZero) :=
  ⟨⟨by decide, by decide, by decide, by decide, by decide⟩, ⟨by decide, by decide, by decide, by decide, by decide⟩,
    ⟨by decide, by decide, by decide, by decide, by decide⟩, ⟨by decide, by decide, by decide, by decide, by decide⟩,
    by decide +kernel, by decide +kernel, by decide +kernel, by decide +kernel⟩

end Props
end Fxd
