import Verif.Model.Parse
import Verif.Spec.Value
/-!
# Sample decimals for the non-vacuity checks beside the theorems
-/

namespace Fxd.Samples
open Fxd Spec

/-- 123456789012.345 (two integral units, one fractional unit). -/
def a : FixedDecimal := ⟨12#8, 3, [345000000, 456789012, 123, 0, 0, 0, 0, 0, 0]⟩
/-- -0.00000000075 (no integral unit, two fractional units). -/
def b : FixedDecimal := ⟨0x80#8, 11, [750000000, 0, 0, 0, 0, 0, 0, 0, 0]⟩
/-- -7.50 -/
def c : FixedDecimal := ⟨0x81#8, 2, [500000000, 7, 0, 0, 0, 0, 0, 0, 0]⟩
/-- negative zero, as parsed from "-0" -/
def nz : FixedDecimal := ⟨0x81#8, 0, [0, 0, 0, 0, 0, 0, 0, 0, 0]⟩

/-- ASCII bytes of a string literal (only used in samples and witnesses). -/
def bytes (s : String) : List Nat := s.toList.map Char.toNat

theorem a_tight : Tight a := by decide
theorem b_tight : Tight b := by decide
theorem c_tight : Tight c := by decide
theorem nz_tight : Tight nz := by decide
theorem a_parse (m : Mode) : FixedDecimal.fromStr m (bytes "123456789012.345") = .ok a := by
  cases m <;> decide +kernel
theorem b_parse (m : Mode) : FixedDecimal.fromStr m (bytes "-.00000000075") = .ok b := by
  cases m <;> decide +kernel
theorem c_parse (m : Mode) : FixedDecimal.fromStr m (bytes "-7.50") = .ok c := by
  cases m <;> decide +kernel
theorem nz_parse (m : Mode) : FixedDecimal.fromStr m (bytes "-0") = .ok nz := by
  cases m <;> decide +kernel

theorem val_a : val a = 123456789012345 / 1000 := by
  have h : mant a = 123456789012345000000 := by decide
  have h2 : neg a = false := by decide
  have h3 : fu a = 1 := by decide
  simp only [val, absVal, h, h2, h3]; norm_num
theorem val_b : val b = -75 / 10 ^ 11 := by
  have h : mant b = 750000000 := by decide
  have h2 : neg b = true := by decide
  have h3 : fu b = 2 := by decide
  simp only [val, absVal, h, h2, h3]; norm_num
theorem val_c : val c = -15 / 2 := by
  have h : mant c = 7500000000 := by decide
  have h2 : neg c = true := by decide
  have h3 : fu c = 1 := by decide
  simp only [val, absVal, h, h2, h3]; norm_num

end Fxd.Samples
