import Verif.Spec.ReferenceDiv
import Verif.Props.Reference
import Verif.Props.Div
import Verif.Props.Rem
/-!
# Property C72: division and remainder are the reference implementation
-/

namespace Fxd
open Spec

theorem bv_ofInt_nat (n : Nat) : BitVec.ofInt 8 (n : Int) = BitVec.ofNat 8 n := by
  simp

/-- The sign given to a freshly built quotient, on any units. -/
theorem signed_quoMk (s : Bool) (l : List Int) {I rf : Nat} (hI : I ≤ 81) (hrf : rf ≤ 9) :
    signed s (quoMk l I rf) =
      { intg := BitVec.ofNat 8 (if s = true ∧ ∃ u ∈ l, u ≠ 0 then 128 + I else I), frac := 9 * rf, lsu := l } := by
  have hf : (quoMk l I rf).frac = 9 * rf := quoMk_frac hrf
  have hz : ∀ d : FixedDecimal, d.lsu = l → (d.isZero = true ↔ ¬ ∃ u ∈ l, u ≠ 0) := by
    rintro d rfl
    unfold FixedDecimal.isZero
    rw [List.all_eq_true]
    simp
  have hor : ∀ I : Nat, I ≤ 81 → BitVec.ofNat 8 I ||| 128#8 = BitVec.ofNat 8 (128 + I) := by
    decide
  have hand : ∀ I : Nat, I ≤ 81 → (BitVec.ofNat 8 I ||| 128#8) &&& 127#8 = BitVec.ofNat 8 I := by
    decide
  unfold signed
  cases s
  · simp only [Bool.false_eq_true, if_false, false_and]
    rw [← hf]; unfold quoMk; dsimp only; rw [bv_ofInt_nat]
  · simp only [if_true, true_and]
    unfold FixedDecimal.setNegAndCheckZero
    dsimp only
    by_cases h0 : ∃ u ∈ l, u ≠ 0
    · rw [if_neg (fun h => (hz _ rfl).mp h h0), if_pos h0, ← hf]
      unfold quoMk FixedDecimal.setNeg
      dsimp only
      rw [bv_ofInt_nat, hor I hI]
    · rw [if_pos ((hz _ rfl).mpr h0), if_neg h0, ← hf]
      unfold quoMk FixedDecimal.setNeg FixedDecimal.setPos
      dsimp only
      rw [bv_ofInt_nat, hand I hI]

theorem decDigits_le {M : Int} (h0 : 0 ≤ M) (n : Nat) : decDigits M ≤ n ↔ M < 10 ^ n := by
  unfold decDigits
  obtain ⟨k, rfl⟩ := Int.eq_ofNat_of_zero_le h0
  by_cases hk : k = 0
  · subst hk; simp
  · rw [if_neg (by omega), Int.toNat_natCast, Nat.succ_le_iff, Nat.log_lt_iff_lt_pow (by norm_num) hk]
    exact_mod_cast Iff.rfl

theorem RemRes.digits {a b r : FixedDecimal} (h : RemRes a b r) : intgDigits r = decDigits (mant r) - 9 * max (Spec.fu a) (Spec.fu b) := by
  have h0 := h.wf.mant_nonneg
  have h1 := (decDigits_le h0 _).mpr h.tight
  rw [h.fu] at h1
  rcases h.sharp with h2 | h2
  · omega
  · by_cases hi : intgDigits r = 0
    · omega
    have h3 : ¬ decDigits (mant r) ≤ intgDigits r - 1 + 9 * Spec.fu r := by
      rw [decDigits_le h0]; omega
    rw [h.fu] at h3
    omega

namespace Props
open FixedDecimal (addTo subTo mulTo divTo remTo)
variable {m : Mode} {a b r res : FixedDecimal}

theorem zero_signed (s : Bool) : signed s FixedDecimal.zero = FixedDecimal.zero := by
  cases s
  · rfl
  · decide

/-- **C72.** Division is exactly the reference: same errors, same panics, and every field of the quotient, units that are
too large after a wrong correction included. -/
theorem C72_div (m : Mode) (ha : WF a) (hb : WF b) (hres : res.lsu.length = 9) {incr : Nat} (hi : incr < 2 ^ 62) :
    seen (divTo m a b res incr) = refDiv m a b incr := by
  unfold refDiv
  rw [divTo_eq hi]
  by_cases zb : mant b = 0
  · rw [if_pos zb, divAbs_zero ha hb hres zb]; rfl
  rw [if_neg zb]
  by_cases za : mant a = 0
  · rw [if_pos za, divAbs_of_zero ha hb hres zb za, ok_bind, zero_signed, dec_zero]; rfl
  rw [if_neg za]
  by_cases hr : QuoRange a b incr
  swap
  · obtain ⟨p, e⟩ := divAbs_range (m := m) ha hb hres za zb hi hr
    rw [if_pos hr, e]; rfl
  rw [if_neg (not_not.mpr hr)]
  by_cases h82 : 82 ≤ quoIntg a b
  · rw [if_pos h82, divAbs_overflow ha hb hres za zb hi hr h82]; rfl
  rw [if_neg h82]
  have hmain := divAbs_main (m := m) ha hb hres za zb hi hr (by omega)
  by_cases hs : QuoSpill a b incr
  · rw [if_pos (Or.inl hs), hmain.1 hs]; rfl
  rcases hmain.2 hs with ⟨hm, hw, e⟩ | ⟨hno, l, hl, e, hM, hW, hU⟩
  · rw [if_pos (Or.inr ⟨hm, hw⟩), e]; rfl
  have hnot : ¬ (QuoSpill a b incr ∨ m = .debug ∧ QuoGuessWide a b incr) := fun h => h.elim hs hno
  rw [if_neg hnot, e, ok_bind]
  have hF : quoFU a b incr ≤ 9 := by unfold quoFU; omega
  have hlu : l = quoUnits a b incr := by
    unfold quoUnits
    by_cases ht : topUnit b = 0
    · rw [if_pos ht]
      have hwf := hW.mpr (fun h => h.1 ht)
      have h := hwf.eq_dec
      rw [hM] at h
      exact congrArg FixedDecimal.lsu h
    · rw [if_neg ht]; exact hU ht
  rw [signed_quoMk _ _ (by omega) hF, hlu]
  simp only [bne_iff_ne, seen]

/-- **C72.** Remainder is exactly the reference. -/
theorem C72_rem (m : Mode) (ha : WF a) (hb : WF b) (hres : res.lsu.length = 9) :
    seen (remTo m a b res) = refRem m a b := by
  unfold refRem
  rw [remTo_eq]
  by_cases zb : mant b = 0
  · rw [if_pos zb, remAbs_zero ha hb hres zb]; rfl
  rw [if_neg zb]
  by_cases za : mant a = 0
  · rw [if_pos (Or.inl za), remAbs_of_zero ha hb hres zb za, ok_bind, zero_signed, dec_zero]; rfl
  by_cases he : remA a b = remB a b
  · rw [if_pos (Or.inr he), remAbs_eqv ha hb hres za zb (remA_eq_remB.mp he), ok_bind, zero_signed, dec_zero]; rfl
  rw [if_neg (fun h => h.elim za he)]
  by_cases hlt : remA a b < remB a b
  · rw [if_pos hlt, remAbs_lt ha hb hres za zb (remA_lt_remB.mp hlt)]
    by_cases hn : RemNoRoom a b
    · rw [if_pos hn, if_pos hn]; rfl
    rw [if_neg hn, if_neg hn, ok_bind]
    obtain ⟨w1, w2, w3, w4, w5⟩ := remCopy_spec ha hb hn
    rw [signed_eq_dec _ w1.len w1.digL w1.frac_nonneg w2, w1.unitsVal_eq, w3, w4, w5]
    have h0 : remA a b ≠ 0 := by
      unfold remA; exact mul_ne_zero za (by positivity)
    simp [seen, h0]
  rw [if_neg hlt]
  have hgt : absVal b < absVal a := by
    rcases lt_trichotomy (absVal a) (absVal b) with h | h | h
    · exact absurd (remA_lt_remB.mpr h) hlt
    · exact absurd (remA_eq_remB.mpr h) he
    · exact h
  have hmain := remAbs_gt (m := m) ha hb hres za zb hgt
  by_cases hf : RemFull a b ∧ LeadGe a b
  · rw [if_pos (Or.inl hf), hmain.1 hf]; rfl
  rcases hmain.2 hf with ⟨hm, hx, p, e, -⟩ | ⟨hno, r, e, hR, hM⟩
  · rw [if_pos (Or.inr ⟨hm, hx⟩), e]; rfl
  rw [if_neg (fun h => h.elim hf hno), e, ok_bind, signed_eq_dec _ hR.wf.len hR.wf.digL hR.wf.frac_nonneg hR.pos,
    hR.wf.unitsVal_eq, hR.digits, hR.frac, hM]
  rfl

/-- 123456789012.345 / -7.5 and its remainder; division by zero; an overflow; the quotient 10^36 / (10^9 + 1) that debug
builds refuse. -/
example : WF Samples.a ∧ WF Samples.c ∧
    refDiv m Samples.a Samples.c 0 = some (.ok ⟨0x8c#8, 18, [0, 646000000, 460905201, 16, 0, 0, 0, 0, 0]⟩) ∧
    refRem m Samples.a Samples.c = some (.ok ⟨1#8, 3, [845000000, 4, 0, 0, 0, 0, 0, 0, 0]⟩) ∧
    refDiv m Samples.a .zero 0 = some (.error .divisionByZero) ∧
    refDiv .debug ⟨36#8, 0, [0, 0, 0, 1, 0, 0, 0, 0, 0]⟩ ⟨10#8, 0, [1, 1, 0, 0, 0, 0, 0, 0, 0]⟩ 0 = none := by
  cases m <;> decide +kernel

end Props
end Fxd
