import Verif.Model.Decimal
/-!
# Specification: what the fields of the struct can hold

Nothing but the types of `/repo/src/decimal.rs:32-42`: nine `i32` units and an `i8`.  Well-formedness is not asked for.
-/

namespace Fxd.Spec
open Fxd

/-- An `i32`. -/
def I32 (u : Int) : Prop := -2147483648 ≤ u ∧ u < 2147483648

/-- Units are `i32`s. -/
def Units32 (l : List Int) : Prop := ∀ u ∈ l, I32 u

/-- The fields hold what their types allow. (`intg` is eight bits in the model.) -/
structure Stored (d : FixedDecimal) : Prop where
  len : d.lsu.length = 9
  units : Units32 d.lsu
  frac : -128 ≤ d.frac ∧ d.frac < 128

end Fxd.Spec
