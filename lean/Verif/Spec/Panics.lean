import Verif.Model.Prim
/-!
# Specification: ordinary panics

Which ways of panicking are checks that the Rust compiler inserts or a `debug_assert!`: index checks in every build,
arithmetic overflow and assertions in debug builds only.  Not ordinary: division by zero, `unreachable!`, a loop that does
not end, and the deliberate panic of an operator.
-/

namespace Fxd.Spec

/-- The panic is a bounds check, or (debug builds only) an overflow check or an assertion. -/
def Ordinary (m : Mode) (p : Panic) : Prop := p = .index ∨ m = .debug ∧ (p = .overflow ∨ p = .assert)

/-- If the computation panics at all, then in an ordinary way. In particular it ends. -/
def Halts {σ α : Type} (m : Mode) (x : Out σ α) : Prop := ∀ p, x = .panic p → Ordinary m p

end Fxd.Spec
