import Verif.Spec.Quotient
/-!
# Specification: remainders

Only values, mantissas and digit counts of the operands are used, none of the model's functions.
-/

namespace Fxd.Spec

/-- Truncated remainder: `x - y * trunc(x / y)`, which has the sign of `x` and magnitude below `|y|`. -/
def truncRem (x y : ℚ) : ℚ := x - y * truncZ (x / y)

/-- The smaller dividend cannot be aligned with the divisor inside nine units (its digit count has leading zeros). -/
def RemNoRoom (a b : FixedDecimal) : Prop := fu a < fu b ∧ 9 < iu a + fu b
instance (a b : FixedDecimal) : Decidable (RemNoRoom a b) := by unfold RemNoRoom; infer_instance

/-- The aligned dividend fills all eighteen units of the scratch buffer: nine integral units in the dividend, nine
fractional ones in a divisor of several units. -/
def RemFull (a b : FixedDecimal) : Prop := topUnit b ≠ 0 ∧ topUnit a = 8 ∧ fu a = 0 ∧ fu b = 9
instance (a b : FixedDecimal) : Decidable (RemFull a b) := by unfold RemFull; infer_instance

end Fxd.Spec
