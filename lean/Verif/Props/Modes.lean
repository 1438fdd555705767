import Verif.Proofs.Modes
import Verif.Props.Samples
/-!
# Property C59: debug and release builds

No hypothesis on the operands: they need not be well-formed, and no output parameter needs nine units.
-/

namespace Fxd
namespace Props

/-- The check that debug builds make everywhere. -/
def OverflowCheck (p : Panic) : Prop := p = .overflow
instance : Checks OverflowCheck := ⟨rfl⟩
/-- The two checks that only debug builds make. -/
def DebugCheck (p : Panic) : Prop := p = .overflow ∨ p = .assert
instance : Checks DebugCheck := ⟨Or.inl rfl⟩
instance : Asserts DebugCheck := ⟨Or.inr rfl⟩
/-- The same and a bounds check: the remainder reads an array element inside a `debug_assert!`. -/
def DebugCheckOrIndex (p : Panic) : Prop := p = .overflow ∨ p = .assert ∨ p = .index
instance : Checks DebugCheckOrIndex := ⟨Or.inl rfl⟩
instance : Asserts DebugCheckOrIndex := ⟨Or.inr (Or.inl rfl)⟩

/-- The narrower form, for everything but `*`, `/`, `%` and rounding. -/
theorem agrees_overflow_iff {σ α : Type} {d r : Out σ α} : Agrees OverflowCheck d r ↔ d = .panic .overflow ∨ d = r := by
  constructor
  · rintro (⟨p, rfl, h⟩ | h)
    exacts [Or.inl h, Or.inr h]
  · rintro (h | h)
    exacts [Or.inl ⟨_, rfl, h⟩, Or.inr h]

/-- What "the builds agree unless the debug build fails a check of its own" means: the debug outcome is an overflow or
assertion panic, or the two outcomes are equal: value, error and state left behind, or panic. -/
theorem agrees_iff {σ α : Type} {d r : Out σ α} :
    Agrees DebugCheck d r ↔ d = .panic .overflow ∨ d = .panic .assert ∨ d = r := by
  constructor
  · rintro (⟨p, rfl | rfl, h⟩ | h)
    exacts [Or.inl h, Or.inr (Or.inl h), Or.inr (Or.inr h)]
  · rintro (h | h | h)
    exacts [Or.inl ⟨_, Or.inl rfl, h⟩, Or.inl ⟨_, Or.inr rfl, h⟩, Or.inr h]

/-- **C59** for arithmetic: functions and operators. -/
theorem C59_arith (a b res : FixedDecimal) (incr : Int) :
    Agrees OverflowCheck (FixedDecimal.addTo .debug a b res) (FixedDecimal.addTo .release a b res) ∧
    Agrees OverflowCheck (FixedDecimal.subTo .debug a b res) (FixedDecimal.subTo .release a b res) ∧
    Agrees DebugCheck (FixedDecimal.mulTo .debug a b res) (FixedDecimal.mulTo .release a b res) ∧
    Agrees DebugCheck (FixedDecimal.divTo .debug a b res incr) (FixedDecimal.divTo .release a b res incr) ∧
    Agrees DebugCheckOrIndex (FixedDecimal.remTo .debug a b res) (FixedDecimal.remTo .release a b res) ∧
    Agrees OverflowCheck (FixedDecimal.add .debug a b) (FixedDecimal.add .release a b) ∧
    Agrees OverflowCheck (FixedDecimal.sub .debug a b) (FixedDecimal.sub .release a b) ∧
    Agrees DebugCheck (FixedDecimal.mul .debug a b) (FixedDecimal.mul .release a b) ∧
    Agrees DebugCheck (FixedDecimal.div .debug a b) (FixedDecimal.div .release a b) ∧
    Agrees DebugCheckOrIndex (FixedDecimal.rem .debug a b) (FixedDecimal.rem .release a b) :=
  ⟨.addTo, .subTo, .mulTo, .divTo, .remTo (Or.inr (Or.inr rfl)), .orPanic .addTo, .orPanic .subTo, .orPanic .mulTo, .orPanic .divTo,
    .orPanic (.remTo (Or.inr (Or.inr rfl)))⟩

/-- **C59** for parsing, formatting, comparison, hashing, rounding and conversions. -/
theorem C59_rest {σ : Type} (a b res : FixedDecimal) (bs : List Nat) (reset : Bool) (k n : Int) :
    Agrees OverflowCheck (FixedDecimal.fromBytesStr .debug a bs reset) (FixedDecimal.fromBytesStr .release a bs reset) ∧
    Agrees OverflowCheck (FixedDecimal.fromStr .debug bs) (FixedDecimal.fromStr .release bs) ∧
    Agrees OverflowCheck (FixedDecimal.appendStrBuf .debug a bs k : Out σ _) (FixedDecimal.appendStrBuf .release a bs k) ∧
    Agrees OverflowCheck (FixedDecimal.toStr .debug a k : Out σ _) (FixedDecimal.toStr .release a k) ∧
    Agrees OverflowCheck (FixedDecimal.cmp .debug a b : Out σ _) (FixedDecimal.cmp .release a b) ∧
    Agrees OverflowCheck (FixedDecimal.eq .debug a b : Out σ _) (FixedDecimal.eq .release a b) ∧
    Agrees OverflowCheck (FixedDecimal.lt .debug a b : Out σ _) (FixedDecimal.lt .release a b) ∧
    Agrees OverflowCheck (FixedDecimal.gt .debug a b : Out σ _) (FixedDecimal.gt .release a b) ∧
    Agrees OverflowCheck (FixedDecimal.hash .debug a : Out σ _) (FixedDecimal.hash .release a) ∧
    Agrees DebugCheck (FixedDecimal.round .debug a k : Out σ _) (FixedDecimal.round .release a k) ∧
    Agrees DebugCheck (FixedDecimal.roundTo .debug a res k : Out σ _) (FixedDecimal.roundTo .release a res k) ∧
    Agrees OverflowCheck (FixedDecimal.fromI64 .debug n : Out σ _) (FixedDecimal.fromI64 .release n) ∧
    Agrees DebugCheck (FixedDecimal.asI64 .debug a) (FixedDecimal.asI64 .release a) ∧
    Agrees DebugCheck (FixedDecimal.asU64 .debug a) (FixedDecimal.asU64 .release a) :=
  ⟨.fromBytesStr, .fromStr, .appendStrBuf, .toStr, .cmp, .eq, .lt, .gt, .hash, .round, .roundTo, .fromI64, .asI64, .asU64⟩

/-- Both alternatives occur: a product both builds compute, and one the debug build refuses. -/
example :
    FixedDecimal.mulTo .debug Samples.a Samples.c FixedDecimal.zero = FixedDecimal.mulTo .release Samples.a Samples.c FixedDecimal.zero ∧
    FixedDecimal.mulTo .debug Samples.a Samples.c FixedDecimal.zero = .ok ⟨0x92#8, 5, [587500000, 925917592, 925, 0, 0, 0, 0, 0, 0]⟩ ∧
    (let a : FixedDecimal := ⟨0#8, 1, [500000000, 0, 0, 0, 0, 0, 0, 0, 0]⟩
     let b : FixedDecimal := ⟨1#8, 1, [500000000, 1, 0, 0, 0, 0, 0, 0, 0]⟩
     FixedDecimal.mulTo .debug a b FixedDecimal.zero = .panic .assert ∧
     FixedDecimal.mulTo .release a b FixedDecimal.zero = .ok ⟨9#8, 2, [750000000, 0, 0, 0, 0, 0, 0, 0, 0]⟩) := by
  decide +kernel

end Props
end Fxd
