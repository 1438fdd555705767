import Verif.Spec.Trace
/-!
# Specification: stale units

Units beyond the digit counts are zero in a well-formed decimal.  Parsing without the reset and some products leave old contents
there.
-/

namespace Fxd
namespace Spec

/-- Usable: nine units in `[0, 10^9)` and digit counts that fit in them. Units beyond the digit counts may hold anything. -/
structure Usable (d : FixedDecimal) : Prop where
  len : d.lsu.length = 9
  units : ∀ u ∈ d.lsu, 0 ≤ u ∧ u < 1000000000
  frac_nonneg : 0 ≤ d.frac
  fits : iu d + fu d ≤ 9

instance (d : FixedDecimal) : Decidable (Usable d) :=
  decidable_of_iff (d.lsu.length = 9 ∧ (∀ u ∈ d.lsu, 0 ≤ u ∧ u < 1000000000) ∧ 0 ≤ d.frac ∧ iu d + fu d ≤ 9)
    ⟨fun ⟨a, b, c, e⟩ => ⟨a, b, c, e⟩, fun ⟨a, b, c, e⟩ => ⟨a, b, c, e⟩⟩

/-- The same sign, digit counts and units within the digit counts: at most the stale units differ. -/
structure Alike (a b : FixedDecimal) : Prop where
  intg : a.intg = b.intg
  frac : a.frac = b.frac
  digits : a.lsu.take (iu a + fu a) = b.lsu.take (iu b + fu b)

instance (a b : FixedDecimal) : Decidable (Alike a b) :=
  decidable_of_iff (a.intg = b.intg ∧ a.frac = b.frac ∧ a.lsu.take (iu a + fu a) = b.lsu.take (iu b + fu b))
    ⟨fun ⟨a, b, c⟩ => ⟨a, b, c⟩, fun ⟨a, b, c⟩ => ⟨a, b, c⟩⟩

/-- The decimal with its stale units cleared. -/
def cleared (d : FixedDecimal) : FixedDecimal := { d with lsu := unitsOf 9 (mant d) }

/-- A zero has no stale units. -/
def CleanZero (d : FixedDecimal) : Prop := mant d = 0 → WF d

/-- The reference machine that clears stale units after every action. -/
def tidyStep (m : Mode) (s : Regs) (a : Action) : Option (Reply × Regs) :=
  (refStep m s a).map fun x => (x.1, fun j => cleared (x.2 j))

end Spec
open Spec

/-- When stale units in the registers it reads cannot show through a call. The exceptions: the code takes a zero with stale units
for non-zero, it converts the lowest three units of an integer whatever its digit count, and rounding in place to more places may
move the digits across stale units. -/
def Call.Blind (s : Regs) : Call → Prop
  | .add _ a b => CleanZero (s a) ∧ CleanZero (s b)
  | .sub _ a b => CleanZero (s a) ∧ CleanZero (s b)
  | .mul _ a b => CleanZero (s a) ∧ CleanZero (s b)
  | .roundTo _ _ k => k ≤ 127
  | .round i k => k ≤ 127 ∧ (WF (s i) ∨ k < (s i).frac ∨ unitsFor k.toNat ≤ iu (s i) + 2 * fu (s i))
  | _ => True

/-- The same for actions. -/
def Action.Blind (s : Regs) : Action → Prop
  | .call c => c.Blind s
  | .op .add _ a b => CleanZero (s a) ∧ CleanZero (s b)
  | .op .sub _ a b => CleanZero (s a) ∧ CleanZero (s b)
  | .op .mul _ a b => CleanZero (s a) ∧ CleanZero (s b)
  | .asI64 a => WF (s a) ∨ 0 < fracDigits (s a) ∨ 19 ≤ intgDigits (s a)
  | .asU64 a => WF (s a) ∨ 0 < fracDigits (s a) ∨ 19 ≤ intgDigits (s a)
  | .isZero a => CleanZero (s a)
  | _ => True

end Fxd
