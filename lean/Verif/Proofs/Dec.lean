import Verif.Proofs.Base
/-!
# Lemmas about the fields of a decimal
-/

namespace Fxd
open Spec

/-! ## Sign flag and digit count: 8-bit facts -/

theorem bv_isNeg : ∀ b : BitVec 8, (b &&& 0x80#8 != 0#8) = b.msb := by decide
theorem bv_digits : ∀ b : BitVec 8, (b &&& 0x7f#8).toInt = ((b.toNat % 128 : Nat) : Int) := by decide
theorem bv_setNeg_msb : ∀ b : BitVec 8, (b ||| 0x80#8).msb = true := by decide
theorem bv_setPos_msb : ∀ b : BitVec 8, (b &&& 0x7f#8).msb = false := by decide
theorem bv_setNeg_dig : ∀ b : BitVec 8, (b ||| 0x80#8).toNat % 128 = b.toNat % 128 := by decide
theorem bv_setPos_dig : ∀ b : BitVec 8, (b &&& 0x7f#8).toNat % 128 = b.toNat % 128 := by decide
theorem bv_setNeg_id : ∀ b : BitVec 8, b.msb = true → b ||| 0x80#8 = b := by decide
theorem bv_setPos_id : ∀ b : BitVec 8, b.msb = false → b &&& 0x7f#8 = b := by decide
theorem bv_setPos_setNeg : ∀ b : BitVec 8, (b ||| 0x80#8) &&& 0x7f#8 = b &&& 0x7f#8 := by decide
theorem bv_ext : ∀ a b : BitVec 8, a.msb = b.msb → a.toNat % 128 = b.toNat % 128 → a = b := by
  intro a b h1 h2
  rw [BitVec.msb_eq_decide, BitVec.msb_eq_decide] at h1
  apply BitVec.eq_of_toNat_eq
  have ha := a.isLt; have hb := b.isLt
  have h3 : (2 ^ (8 - 1) ≤ a.toNat) ↔ (2 ^ (8 - 1) ≤ b.toNat) := by
    simpa only [decide_eq_decide] using h1
  norm_num at h3
  omega

theorem bv_ofNat_msb : ∀ n < 128, (BitVec.ofInt 8 ((n : Nat) : Int)).msb = false := by decide
theorem bv_ofNat_dig : ∀ n < 128, (BitVec.ofInt 8 ((n : Nat) : Int)).toNat % 128 = n := by decide

@[simp] theorem isNeg_eq (d : FixedDecimal) : d.isNeg = neg d := bv_isNeg d.intg
theorem intgDigits_eq (d : FixedDecimal) : d.intgDigits = (intgDigits d : Int) := bv_digits d.intg
theorem intgDigits_lt (d : FixedDecimal) : intgDigits d < 128 := Nat.mod_lt _ (by norm_num)

@[simp] theorem neg_setNeg (d : FixedDecimal) : neg d.setNeg = true := bv_setNeg_msb d.intg
@[simp] theorem neg_setPos (d : FixedDecimal) : neg d.setPos = false := bv_setPos_msb d.intg
@[simp] theorem intgDigits_setNeg (d : FixedDecimal) : intgDigits d.setNeg = intgDigits d :=
  bv_setNeg_dig d.intg
@[simp] theorem intgDigits_setPos (d : FixedDecimal) : intgDigits d.setPos = intgDigits d :=
  bv_setPos_dig d.intg
@[simp] theorem frac_setNeg (d : FixedDecimal) : d.setNeg.frac = d.frac := rfl
@[simp] theorem frac_setPos (d : FixedDecimal) : d.setPos.frac = d.frac := rfl
@[simp] theorem lsu_setNeg (d : FixedDecimal) : d.setNeg.lsu = d.lsu := rfl
@[simp] theorem lsu_setPos (d : FixedDecimal) : d.setPos.lsu = d.lsu := rfl
@[simp] theorem fracDigits_setNeg (d : FixedDecimal) : fracDigits d.setNeg = fracDigits d := rfl
@[simp] theorem fracDigits_setPos (d : FixedDecimal) : fracDigits d.setPos = fracDigits d := rfl
@[simp] theorem iu_setNeg (d : FixedDecimal) : iu d.setNeg = iu d := by simp [iu]
@[simp] theorem iu_setPos (d : FixedDecimal) : iu d.setPos = iu d := by simp [iu]
@[simp] theorem fu_setNeg (d : FixedDecimal) : fu d.setNeg = fu d := rfl
@[simp] theorem fu_setPos (d : FixedDecimal) : fu d.setPos = fu d := rfl
@[simp] theorem mant_setNeg (d : FixedDecimal) : mant d.setNeg = mant d := by simp [mant]
@[simp] theorem mant_setPos (d : FixedDecimal) : mant d.setPos = mant d := by simp [mant]
@[simp] theorem absVal_setNeg (d : FixedDecimal) : absVal d.setNeg = absVal d := by simp [absVal]
@[simp] theorem absVal_setPos (d : FixedDecimal) : absVal d.setPos = absVal d := by simp [absVal]

theorem wf_setNeg {d : FixedDecimal} : WF d.setNeg ↔ WF d := by
  constructor <;> intro h <;>
    exact ⟨by simpa using h.len, by simpa using h.units, by simpa using h.frac_nonneg,
      by simpa using h.fits, by simpa using h.high⟩
theorem wf_setPos {d : FixedDecimal} : WF d.setPos ↔ WF d := by
  constructor <;> intro h <;>
    exact ⟨by simpa using h.len, by simpa using h.units, by simpa using h.frac_nonneg,
      by simpa using h.fits, by simpa using h.high⟩
theorem tight_setNeg {d : FixedDecimal} : Tight d.setNeg ↔ Tight d := by
  constructor <;> intro h
  · exact ⟨wf_setNeg.mp h.toWF, by simpa using h.intg_ok, by simpa using h.frac_ok⟩
  · exact ⟨wf_setNeg.mpr h.toWF, by simpa using h.intg_ok, by simpa using h.frac_ok⟩
theorem tight_setPos {d : FixedDecimal} : Tight d.setPos ↔ Tight d := by
  constructor <;> intro h
  · exact ⟨wf_setPos.mp h.toWF, by simpa using h.intg_ok, by simpa using h.frac_ok⟩
  · exact ⟨wf_setPos.mpr h.toWF, by simpa using h.intg_ok, by simpa using h.frac_ok⟩

theorem val_setNeg (d : FixedDecimal) : val d.setNeg = - absVal d := by simp [val]
theorem val_setPos (d : FixedDecimal) : val d.setPos = absVal d := by simp [val]

/-! ## Well-formed decimals -/

theorem Spec.WF.digL {d : FixedDecimal} (h : WF d) : DigL d.lsu := h.units
theorem Spec.WF.dig {d : FixedDecimal} (h : WF d) : Dig (dg d.lsu) := h.digL.dig

theorem Spec.WF.highDg {d : FixedDecimal} (h : WF d) {i : Nat} (hi : iu d + fu d ≤ i) :
    dg d.lsu i = 0 := by
  by_cases h9 : i < d.lsu.length
  · have hk : i - (iu d + fu d) < (d.lsu.drop (iu d + fu d)).length := by
      rw [List.length_drop]; omega
    have := h.high _ (List.getElem_mem hk)
    rw [List.getElem_drop] at this
    have h2 : iu d + fu d + (i - (iu d + fu d)) = i := by omega
    simp only [h2] at this
    simpa [dg, List.getD_eq_getElem?_getD, h9] using this
  · exact dg_out (by omega)

theorem high_of_dg {l : List Int} {n : Nat} (h : ∀ i, n ≤ i → dg l i = 0) : ∀ u ∈ l.drop n, u = 0 := by
  intro u hu
  obtain ⟨i, hi, rfl⟩ := List.getElem_of_mem hu
  rw [List.getElem_drop]
  have hlt : n + i < l.length := by rw [List.length_drop] at hi; omega
  have := h (n + i) (by omega)
  simpa [dg, List.getD_eq_getElem?_getD, hlt] using this

theorem Spec.WF.mant_eq {d : FixedDecimal} (h : WF d) : mant d = psum (dg d.lsu) (iu d + fu d) :=
  unitsVal_take (by rw [h.len]; exact h.fits)

theorem Spec.WF.mant_eq9 {d : FixedDecimal} (h : WF d) : mant d = psum (dg d.lsu) 9 := by
  rw [h.mant_eq, psum_extend h.fits]
  intro i h1 _; exact h.highDg h1

theorem Spec.WF.mant_nonneg {d : FixedDecimal} (h : WF d) : 0 ≤ mant d := by
  rw [h.mant_eq]; exact psum_nonneg h.dig _

theorem Spec.WF.mant_lt {d : FixedDecimal} (h : WF d) : mant d < 1000000000 ^ (iu d + fu d) := by
  rw [h.mant_eq]; exact psum_lt h.dig _

theorem Spec.WF.intg_le {d : FixedDecimal} (h : WF d) : intgDigits d ≤ 81 := by
  have := h.fits; unfold iu unitsFor at this; omega

theorem Spec.WF.frac_eq {d : FixedDecimal} (h : WF d) : d.frac = (fracDigits d : Int) := by
  unfold fracDigits; have := h.frac_nonneg; omega

theorem Spec.WF.frac_le {d : FixedDecimal} (h : WF d) : fracDigits d ≤ 81 := by
  have := h.fits; unfold fu unitsFor at this; omega

theorem Spec.WF.intgUnits {σ : Type} {m : Mode} {d : FixedDecimal} (h : WF d) :
    (d.intgUnits m : Out σ Int) = .ok (iu d : Int) := by
  unfold FixedDecimal.intgUnits
  rw [intgDigits_eq, getUnits_nat]; rfl
  have := h.intg_le; omega

theorem Spec.WF.fracUnits {σ : Type} {m : Mode} {d : FixedDecimal} (h : WF d) :
    (d.fracUnits m : Out σ Int) = .ok (fu d : Int) := by
  unfold FixedDecimal.fracUnits
  rw [h.frac_eq, getUnits_nat]; rfl
  have := h.frac_le; omega

theorem fracDigits_le_fu (d : FixedDecimal) : fracDigits d ≤ 9 * fu d := by
  unfold fu unitsFor; omega
theorem intgDigits_le_iu (d : FixedDecimal) : intgDigits d ≤ 9 * iu d := by
  unfold iu unitsFor; omega

theorem absVal_nonneg {d : FixedDecimal} (h : WF d) : 0 ≤ absVal d := by
  unfold absVal
  have : (0 : ℚ) ≤ (mant d : ℚ) := by exact_mod_cast h.mant_nonneg
  positivity

theorem absVal_eq_zero {d : FixedDecimal} : absVal d = 0 ↔ mant d = 0 := by
  unfold absVal
  rw [div_eq_zero_iff]
  constructor
  · rintro (h | h)
    · exact_mod_cast h
    · exact absurd h (by positivity)
  · intro h; left; exact_mod_cast h

theorem val_eq_zero {d : FixedDecimal} : val d = 0 ↔ mant d = 0 := by
  unfold val; split_ifs <;> simp [absVal_eq_zero]

theorem abs_val {d : FixedDecimal} (h : WF d) : |val d| = absVal d := by
  unfold val; split_ifs
  · rw [abs_neg, abs_of_nonneg (absVal_nonneg h)]
  · rw [abs_of_nonneg (absVal_nonneg h)]

/-! ## `is_zero` -/

theorem isZero_iff {d : FixedDecimal} (h : WF d) : d.isZero = true ↔ mant d = 0 := by
  rw [h.mant_eq9, psum_eq_zero_iff h.dig]
  unfold FixedDecimal.isZero
  rw [List.all_eq_true]
  constructor
  · intro h1 i hi
    have hl : i < d.lsu.length := by rw [h.len]; exact hi
    have := h1 _ (List.getElem_mem hl)
    simpa [dg, List.getD_eq_getElem?_getD, hl] using this
  · intro h1 u hu
    obtain ⟨i, hi, rfl⟩ := List.getElem_of_mem hu
    have := h1 i (by rw [← h.len]; exact hi)
    simpa [dg, List.getD_eq_getElem?_getD, hi] using this

theorem isZero_false_iff {d : FixedDecimal} (h : WF d) : d.isZero = false ↔ mant d ≠ 0 := by
  rw [← Bool.not_eq_true, isZero_iff h]

theorem setNegAndCheckZero_of_zero {d : FixedDecimal} (h : WF d) (hz : mant d = 0) :
    d.setNegAndCheckZero = d.setPos := by
  unfold FixedDecimal.setNegAndCheckZero
  have : d.setNeg.isZero = true := (isZero_iff (wf_setNeg.mpr h)).mpr (by simpa using hz)
  simp only [this, if_true]
  unfold FixedDecimal.setPos FixedDecimal.setNeg
  simp [bv_setPos_setNeg]

theorem setNegAndCheckZero_of_pos {d : FixedDecimal} (h : WF d) (hz : mant d ≠ 0) :
    d.setNegAndCheckZero = d.setNeg := by
  unfold FixedDecimal.setNegAndCheckZero
  have : d.setNeg.isZero = false := (isZero_false_iff (wf_setNeg.mpr h)).mpr (by simpa using hz)
  simp [this]

theorem wf_setNegAndCheckZero {d : FixedDecimal} (h : WF d) : WF d.setNegAndCheckZero := by
  by_cases hz : mant d = 0
  · rw [setNegAndCheckZero_of_zero h hz]; exact wf_setPos.mpr h
  · rw [setNegAndCheckZero_of_pos h hz]; exact wf_setNeg.mpr h

theorem tight_setNegAndCheckZero {d : FixedDecimal} (h : Tight d) : Tight d.setNegAndCheckZero := by
  by_cases hz : mant d = 0
  · rw [setNegAndCheckZero_of_zero h.toWF hz]; exact tight_setPos.mpr h
  · rw [setNegAndCheckZero_of_pos h.toWF hz]; exact tight_setNeg.mpr h

theorem val_setNegAndCheckZero {d : FixedDecimal} (h : WF d) : val d.setNegAndCheckZero = - absVal d := by
  by_cases hz : mant d = 0
  · rw [setNegAndCheckZero_of_zero h hz, val_setPos, absVal_eq_zero.mpr hz]; simp
  · rw [setNegAndCheckZero_of_pos h hz, val_setNeg]

@[simp] theorem frac_setNegAndCheckZero (d : FixedDecimal) : d.setNegAndCheckZero.frac = d.frac := by
  unfold FixedDecimal.setNegAndCheckZero; dsimp only; split_ifs <;> rfl
@[simp] theorem lsu_setNegAndCheckZero (d : FixedDecimal) : d.setNegAndCheckZero.lsu = d.lsu := by
  unfold FixedDecimal.setNegAndCheckZero; dsimp only; split_ifs <;> rfl

/-! ## `set_zero` -/

theorem setZero_eq {d : FixedDecimal} (h : d.lsu.length = 9) : d.setZero = FixedDecimal.zero := by
  unfold FixedDecimal.setZero FixedDecimal.resetUnits FixedDecimal.zero zeroUnits
  simp [List.map_const', h]

theorem wf_zero : WF FixedDecimal.zero := by
  refine ⟨by decide, by decide, by decide, by decide, by decide⟩
theorem mant_zero : mant FixedDecimal.zero = 0 := by decide
theorem tight_zero : Tight FixedDecimal.zero := ⟨wf_zero, by decide, by decide⟩
theorem val_zero : val FixedDecimal.zero = 0 := val_eq_zero.mpr mant_zero

/-! ## Building decimals -/

/-- Fields of a decimal built with a non-negative digit count. -/
theorem intgDigits_mk {n : Nat} (hn : n < 128) {f : Int} {l : List Int} :
    intgDigits ⟨BitVec.ofInt 8 (n : Int), f, l⟩ = n := bv_ofNat_dig n hn
theorem neg_mk {n : Nat} (hn : n < 128) {f : Int} {l : List Int} :
    neg ⟨BitVec.ofInt 8 (n : Int), f, l⟩ = false := bv_ofNat_msb n hn

theorem unitsFor_mul9 (k : Nat) : unitsFor (9 * k) = k := by unfold unitsFor; omega
theorem unitsFor_mono {a b : Nat} (h : a ≤ b) : unitsFor a ≤ unitsFor b := by unfold unitsFor; omega

theorem pow9 (k : Nat) : (1000000000 : Int) ^ k = 10 ^ (9 * k) := by
  rw [pow_mul]; norm_num
theorem pow9q (k : Nat) : (1000000000 : ℚ) ^ k = 10 ^ (9 * k) := by
  rw [pow_mul]; norm_num

end Fxd
