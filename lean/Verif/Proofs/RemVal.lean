import Verif.Spec.Remainder
import Verif.Proofs.RemLongRes
import Verif.Proofs.DivVal
/-!
# The remainder as a whole
-/

namespace Fxd
open Spec

variable {σ : Type} {m : Mode}

theorem absVal_remA {a b : FixedDecimal} : absVal a = (remA a b : ℚ) / 10 ^ (9 * max (fu a) (fu b)) := by
  unfold absVal remA
  push_cast
  rw [pow9q, show 9 * max (fu a) (fu b) = 9 * fu a + 9 * (fu b - fu a) by omega, pow_add]
  field_simp

theorem absVal_remB {a b : FixedDecimal} : absVal b = (remB a b : ℚ) / 10 ^ (9 * max (fu a) (fu b)) := by
  unfold absVal remB
  push_cast
  rw [pow9q, show 9 * max (fu a) (fu b) = 9 * fu b + 9 * (fu a - fu b) by omega, pow_add]
  field_simp

theorem remA_lt_remB {a b : FixedDecimal} : remA a b < remB a b ↔ absVal a < absVal b := by
  rw [absVal_remA (b := b), absVal_remB (a := a) (b := b), div_lt_div_iff_of_pos_right (by positivity)]
  exact_mod_cast Iff.rfl

theorem remA_eq_remB {a b : FixedDecimal} : remA a b = remB a b ↔ absVal a = absVal b := by
  rw [absVal_remA (b := b), absVal_remB (a := a) (b := b), div_left_inj' (by positivity)]
  exact_mod_cast Iff.rfl

theorem truncRem_scaled {A B : Int} (hA : 0 ≤ A) (hB : 0 < B) {S : ℚ} (hS : 0 < S) :
    truncRem ((A : ℚ) / S) ((B : ℚ) / S) = ((A % B : Int) : ℚ) / S := by
  have hBq : (0 : ℚ) < B := by exact_mod_cast hB
  have hAq : (0 : ℚ) ≤ A := by exact_mod_cast hA
  have hq : (A : ℚ) / S / ((B : ℚ) / S) = (A : ℚ) / B := by field_simp
  have hfl : ⌊(A : ℚ) / B⌋ = A / B := by
    rw [Int.floor_eq_iff, le_div_iff₀ hBq, div_lt_iff₀ hBq]
    have e1 := Int.ediv_mul_le A hB.ne'
    have e2 := Int.lt_ediv_add_one_mul_self A hB
    constructor
    · exact_mod_cast e1
    · exact_mod_cast e2
  unfold truncRem truncZ
  rw [hq, if_neg (by rw [not_lt]; positivity), hfl]
  have h : A % B = A - B * (A / B) := by have := Int.emod_add_mul_ediv A B; linarith
  rw [h]
  push_cast
  field_simp

theorem truncRem_neg_left (x y : ℚ) : truncRem (-x) y = - truncRem x y := by
  unfold truncRem
  rw [neg_div, truncZ_neg]; push_cast; ring

theorem truncRem_neg_right (x y : ℚ) : truncRem x (-y) = truncRem x y := by
  unfold truncRem
  rw [div_neg, truncZ_neg]; push_cast; ring

theorem truncRem_val (a b : FixedDecimal) : truncRem (val a) (val b) =
    if neg a then - truncRem (absVal a) (absVal b) else truncRem (absVal a) (absVal b) := by
  unfold val
  cases neg a <;> cases neg b <;> simp [truncRem_neg_left, truncRem_neg_right]

/-! ## Smaller dividend -/

/-- The dividend written with the scale of the result. -/
def remCopy (a b : FixedDecimal) : FixedDecimal :=
  { lsu := List.replicate (fu b - fu a) 0 ++ a.lsu.take (fu a + iu a) ++
      List.replicate (9 - (fu b - fu a + (fu a + iu a))) 0,
    frac := max a.frac b.frac, intg := BitVec.ofInt 8 (intgDigits a) }

theorem remCopy_spec {a b : FixedDecimal} (ha : WF a) (hb : WF b) (h : ¬ RemNoRoom a b) :
    WF (remCopy a b) ∧ neg (remCopy a b) = false ∧ fracDigits (remCopy a b) = max (fracDigits a) (fracDigits b) ∧
      mant (remCopy a b) = remA a b ∧ intgDigits (remCopy a b) = intgDigits a := by
  unfold RemNoRoom at h
  have hfa := ha.fits
  have haL := ha.len
  have hfb := hb.fits
  have hil : intgDigits a < 128 := by unfold intgDigits; omega
  have h1 : intgDigits (remCopy a b) = intgDigits a := intgDigits_mk (by omega)
  have h3 : fracDigits (remCopy a b) = max (fracDigits a) (fracDigits b) := by
    unfold fracDigits remCopy
    dsimp only
    rw [maxfrac_eq ha hb, Int.toNat_natCast]; rfl
  have h2 : iu (remCopy a b) = iu a := by unfold iu; rw [h1]
  have h4 : fu (remCopy a b) = max (fu a) (fu b) := by unfold fu; rw [h3, unitsFor_max]
  have hll : (a.lsu.take (fu a + iu a)).length = fu a + iu a := by rw [List.length_take]; omega
  have hlen : (remCopy a b).lsu.length = 9 := by
    unfold remCopy
    simp only [List.length_append, List.length_replicate, hll]; omega
  have hd : DigL (remCopy a b).lsu := (((DigL.replicate _).append (ha.digL.take _)).append (DigL.replicate _))
  have hw : WF (remCopy a b) := by
    refine ⟨hlen, hd, ?_, by rw [h2, h4]; omega, ?_⟩
    · unfold remCopy; dsimp only; have := ha.frac_nonneg; omega
    · rw [h2, h4]
      refine high_of_dg fun p hp => ?_
      unfold remCopy
      dsimp only
      rw [buf_dg, hll, if_neg (by omega)]
  refine ⟨hw, neg_mk (by omega), h3, ?_, h1⟩
  rw [hw.mant_eq9]
  unfold remCopy
  dsimp only
  rw [buf_psum (by rw [hll]; omega)]
  unfold remA mant
  rw [mul_comm, add_comm (fu a)]

theorem remLess_eq {a b : FixedDecimal} (ha : WF a) (hb : WF b) :
    (if (fu b : Int) > fu a then do
        let l ← copyFromSlice zeroUnits ((fu b : Int) - fu a) ((iu a : Int) + fu b) (a.lsu.take (fu a + iu a))
        return { lsu := l, frac := b.frac, intg := BitVec.ofInt 8 a.intgDigits }
      else do
        let l ← copyFromSlice zeroUnits 0 ((fu a : Int) + iu a) (a.lsu.take (fu a + iu a))
        return { lsu := l, frac := max a.frac b.frac, intg := BitVec.ofInt 8 a.intgDigits }
      : Out FixedDecimal FixedDecimal) =
    if RemNoRoom a b then .panic .index else .ok (remCopy a b) := by
  have hR : RemNoRoom a b ↔ fu a < fu b ∧ 9 < iu a + fu b := Iff.rfl
  have hfa := ha.fits
  have haL := ha.len
  have hll : (a.lsu.take (fu a + iu a)).length = fu a + iu a := by rw [List.length_take]; omega
  have hz : zeroUnits = List.replicate 9 0 := rfl
  have hid : (a.intgDigits : Int) = (Spec.intgDigits a : Nat) := intgDigits_eq a
  by_cases h : (fu b : Int) > fu a
  · rw [if_pos h]
    by_cases h9 : 9 < iu a + fu b
    · rw [if_pos (hR.mpr (by omega))]
      unfold copyFromSlice
      rw [if_neg (by rw [show zeroUnits.length = 9 from rfl]; omega)]
      rfl
    · have hfr : b.frac = max a.frac b.frac := by
        have : fracDigits a ≤ fracDigits b := by
          by_contra hc
          have : fu b ≤ fu a := by unfold fu unitsFor; omega
          omega
        rw [maxfrac_eq ha hb, hb.frac_eq]
        congr 1; omega
      rw [if_neg (fun hc => h9 (hR.mp hc).2), hz, show (fu b : Int) - fu a = ((fu b - fu a : Nat) : Int) by omega,
        copy_buf (by omega) _ (by rw [hll]; omega), ok_bind, hll]
      unfold remCopy
      rw [← hfr, ← hid]
      rfl
  · rw [if_neg h, if_neg (fun hc => h (by exact_mod_cast (hR.mp hc).1)), hz]
    have := copy_buf (σ := FixedDecimal) (N := 9) (a := 0) (l := a.lsu.take (fu a + iu a)) (by omega)
      ((fu a : Int) + iu a) (by rw [hll]; push_cast; ring)
    rw [Nat.cast_zero] at this
    rw [this, ok_bind, hll]
    unfold remCopy
    rw [← hid, show fu b - fu a = 0 by omega]
    rfl

/-! ## All cases -/

theorem remA_dvd {a b : FixedDecimal} (ta : Tight a) (tb : Tight b) :
    (10 ^ (9 * max (fu a) (fu b) - max (fracDigits a) (fracDigits b)) : Int) ∣ remA a b := by
  have h1 := fracDigits_le_fu a
  have h2 : 9 * max (fu a) (fu b) - max (fracDigits a) (fracDigits b) ≤
    9 * fu a - fracDigits a + 9 * (fu b - fu a) := by omega
  refine Dvd.dvd.trans (pow_dvd_pow _ h2) ?_
  rw [pow_add, ← pow9]
  exact mul_dvd_mul_right ta.frac_ok _

theorem remB_dvd {a b : FixedDecimal} (ta : Tight a) (tb : Tight b) :
    (10 ^ (9 * max (fu a) (fu b) - max (fracDigits a) (fracDigits b)) : Int) ∣ remB a b := by
  have h1 := fracDigits_le_fu b
  have h2 : 9 * max (fu a) (fu b) - max (fracDigits a) (fracDigits b) ≤
    9 * fu b - fracDigits b + 9 * (fu a - fu b) := by omega
  refine Dvd.dvd.trans (pow_dvd_pow _ h2) ?_
  rw [pow_add, ← pow9]
  exact mul_dvd_mul_right tb.frac_ok _


theorem remAbs_lt {a b res : FixedDecimal} (ha : WF a) (hb : WF b) (hres : res.lsu.length = 9) (za : mant a ≠ 0)
    (zb : mant b ≠ 0) (h : absVal a < absVal b) :
    remAbs m a b res = if RemNoRoom a b then .panic .index else .ok (remCopy a b) := by
  obtain ⟨nl, -, tl, -⟩ := findNonZero_of_ne ha za
  obtain ⟨nr, -, tr, -⟩ := findNonZero_of_ne hb zb
  rw [remAbs_eq ha hb hres tl tr, compare_lt_iff_lt.mpr (remA_lt_remB.mpr h)]
  exact remLess_eq ha hb

theorem remAbs_eqv {a b res : FixedDecimal} (ha : WF a) (hb : WF b) (hres : res.lsu.length = 9) (za : mant a ≠ 0)
    (zb : mant b ≠ 0) (h : absVal a = absVal b) : remAbs m a b res = .ok FixedDecimal.zero := by
  obtain ⟨nl, -, tl, -⟩ := findNonZero_of_ne ha za
  obtain ⟨nr, -, tr, -⟩ := findNonZero_of_ne hb zb
  rw [remAbs_eq ha hb hres tl tr, compare_eq_iff_eq.mpr (remA_eq_remB.mpr h)]

theorem normFac_eq {b : FixedDecimal} (hb : WF b) {nr : Nat} (tr : Top b.lsu nr) :
    1000000000 / (dg b.lsu nr + 1) = normFac b := by
  unfold normFac
  rw [topUnit_eq hb tr, tr.mant hb, psum_top hb.dig]

theorem remUnits_eq {a b : FixedDecimal} (ha : WF a) (hb : WF b) {nl nr : Nat} (tl : Top a.lsu nl) (tr : Top b.lsu nr)
    (h : remB a b < remA a b) :
    (remUnits a b : Int) = (nl : Int) + 1 + divSh a b nl nr + (fu b - fu a : Nat) - (fu a - fu b : Nat) - nr := by
  have hn := rem_n ha hb tl tr h
  have hge := leadGe_iff ha hb tl tr
  unfold remUnits remTop
  rw [topUnit_eq ha tl, topUnit_eq hb tr]
  unfold divSh at hn ⊢
  by_cases hg : divGe a b nl nr
  · rw [if_pos hg] at hn ⊢
    rw [if_pos (hge.mpr hg)]; omega
  · rw [if_neg hg] at hn ⊢
    rw [if_neg (fun hc => hg (hge.mp hc))]; omega

theorem remAbs_gt {a b res : FixedDecimal} (ha : WF a) (hb : WF b) (hres : res.lsu.length = 9) (za : mant a ≠ 0)
    (zb : mant b ≠ 0) (h : absVal b < absVal a) :
    (RemFull a b ∧ LeadGe a b → remAbs m a b res = .panic .index) ∧
    (¬ (RemFull a b ∧ LeadGe a b) →
      (m = .debug ∧ (RemAssert a b ∨ RemFull a b) ∧ ∃ p, remAbs m a b res = .panic p ∧
        (p = .assert ∧ (RemGuessWide a b ∨ ¬ RemFull a b) ∨ p = .index ∧ RemFull a b ∧ ¬ RemGuessWide a b) ∧ topUnit b ≠ 0) ∨
      ¬ (m = .debug ∧ (RemAssert a b ∨ RemFull a b)) ∧ ∃ r, remAbs m a b res = .ok r ∧ RemRes a b r ∧
        mant r = codeRem a b) := by
  obtain ⟨nl, -, tl, -⟩ := findNonZero_of_ne ha za
  obtain ⟨nr, -, tr, -⟩ := findNonZero_of_ne hb zb
  have hgt : remB a b < remA a b := by
    rcases lt_trichotomy (remA a b) (remB a b) with h' | h' | h'
    · exact absurd (remA_lt_remB.mp h') (by linarith [h])
    · exact absurd (remA_eq_remB.mp h') (ne_of_gt h)
    · exact h'
  have e := remAbs_eq (m := m) ha hb hres tl tr
  rw [compare_gt_iff_gt.mpr hgt] at e
  dsimp only at e
  have h1 := tl.lt
  rw [ha.len] at h1
  have hfb := hb.fits
  have hfull : RemFull a b ↔ nr ≠ 0 ∧ nl + 1 + (fu b - fu a) = 18 := by
    unfold RemFull
    rw [topUnit_eq ha tl, topUnit_eq hb tr]
    omega
  have hge := leadGe_iff ha hb tl tr
  have hshg : divGe a b nl nr ↔ divSh a b nl nr = 0 := by
    unfold divSh; split_ifs with hg <;> simp [hg]
  have hlong : RemLong a b ↔ nr ≠ 0 := by
    unfold RemLong; rw [topUnit_eq hb tr]; exact ⟨fun h => h.1, fun h => ⟨h, hgt⟩⟩
  rw [e, topUnit_eq hb tr]
  by_cases h0 : nr = 0
  · have hnl : ¬ RemLong a b := fun hc => hlong.mp hc h0
    have hnf : ¬ RemFull a b := fun hc => (hfull.mp hc).1 h0
    subst h0
    rw [if_pos rfl]
    obtain ⟨r, er, hr, hv⟩ := remShort_spec (m := m) ha hb tl tr hgt
    refine ⟨fun hc => absurd rfl (hfull.mp hc.1).1, fun _ => Or.inr ⟨?_, r, er, hr, ?_⟩⟩
    · rintro ⟨-, (hc | hc) | hc⟩
      · exact hnl hc.1
      · exact hnl hc.1
      · exact hnf hc
    · unfold codeRem; rw [if_neg hnl, hv]
  · have hl := hlong.mpr h0
    have hW : RemGuessWide a b ↔ ∃ W ∈ remWins (normFac b * remB a b) (1000000000 ^ (nr + (fu a - fu b) - 1)) (remUnits a b)
        (normFac b * remA a b), FirstGuessWide (normFac b * remB a b) (1000000000 ^ (nr + (fu a - fu b) - 1)) W := by
      unfold RemGuessWide remWindows remTop; rw [topUnit_eq hb tr]; exact and_iff_right hl
    have hL : remLeft a b = remRun (normFac b * remB a b) (1000000000 ^ (nr + (fu a - fu b) - 1)) (remUnits a b)
        (normFac b * remA a b) := by
      unfold remLeft remTop; rw [topUnit_eq hb tr]
    have hA : (RemAssert a b ∨ RemFull a b) ↔ (RemGuessWide a b ∨ ¬ normFac b ∣ remLeft a b ∨ nl + 1 + (fu b - fu a) = 18) := by
      unfold RemAssert; rw [hfull, or_assoc]
      simp only [hl, true_and, h0, ne_eq, not_false_eq_true]
    rw [if_neg h0]
    refine ⟨fun hc => ?_, fun hc => ?_⟩
    · exact remLong_panic ha hb tl tr (by omega) hgt (hfull.mp hc.1).2 (hshg.mp (hge.mp hc.2))
    · have hs := remLong_spec (m := m) ha hb tl tr (by omega) hgt (normFac_eq hb tr) (remUnits_eq ha hb tl tr hgt) (fun h18 => by
        rcases divSh_cases a b nl nr with hs | hs
        · exact absurd ⟨hfull.mpr ⟨h0, h18⟩, hge.mpr (hshg.mpr hs)⟩ hc
        · exact hs) rfl
      rw [← hW, ← hL, ← hA] at hs
      rcases hs with ⟨hm, hbad, p, ep, hp⟩ | ⟨hno, r, er, hr, hv⟩
      · refine Or.inl ⟨hm, hbad, p, ep, ?_, h0⟩
        rcases hp with hp | hp
        · exact Or.inl ⟨hp.1, hp.2.imp id fun hn hc => hn (hfull.mp hc).2⟩
        · exact Or.inr ⟨hp.1, hfull.mpr ⟨h0, hp.2.1⟩, hp.2.2⟩
      · refine Or.inr ⟨hno, r, er, hr, ?_⟩
        unfold codeRem; rw [if_pos hl, hv]

/-- Two significant units: every guess is right. -/
theorem not_tooBig_two {a b : FixedDecimal} (h : TwoUnits b) : ¬ RemGuessTooBig a b := by
  rintro ⟨hl, W, -, hW⟩
  refine not_tooBig_of_dvd (by positivity) ?_ hW
  have h0 := hl.1
  unfold TwoUnits at h
  unfold remTop remB
  rw [show topUnit b + (fu a - fu b) - 1 = (topUnit b - 1) + (fu a - fu b) by omega, pow_add]
  exact Dvd.dvd.mul_left (mul_dvd_mul_right h _) _

/-- Without a guess that is too large: the remainder. -/
theorem codeRem_eq {a b : FixedDecimal} (hb : WF b) (hB : 0 < remB a b) (h : ¬ RemGuessTooBig a b) (h0 : 0 ≤ codeRem a b)
    (h1 : codeRem a b < remB a b) : codeRem a b = remA a b % remB a b := by
  unfold codeRem at *
  by_cases hl : RemLong a b
  · rw [if_pos hl] at *
    have hbp : 0 < mant b := by
      have hp : (0 : Int) < 1000000000 ^ (fu a - fu b) := by positivity
      unfold remB at hB
      exact pos_of_mul_pos_left hB hp.le
    obtain ⟨nr, -, tr, -⟩ := findNonZero_of_ne hb hbp.ne'
    obtain ⟨f0, -⟩ := norm_div hb tr (normFac_eq hb tr)
    obtain ⟨Q, hQ⟩ := remRun_mod (R := normFac b * remB a b) (P := 1000000000 ^ (remTop a b - 1)) (remUnits a b)
      (normFac b * remA a b) (fun W hW hT => h ⟨hl, W, hW, hT⟩)
    have e : remLeft a b = normFac b * (remA a b - Q * remB a b) := by
      unfold remLeft; linarith [show Q * (normFac b * remB a b) = normFac b * (Q * remB a b) by ring]
    rw [e, Int.mul_ediv_cancel_left _ f0.ne'] at h0 h1 ⊢
    exact (emod_of_bounds (Q := Q) (by ring) h0 h1).symm
  · rw [if_neg hl]

theorem RemRes.code {a b r : FixedDecimal} (hb : WF b) (h : RemRes a b r) (hB : 0 < remB a b) (hv : mant r = codeRem a b)
    (hn : ¬ RemGuessTooBig a b) : mant r = remA a b % remB a b := by
  rw [hv]
  exact codeRem_eq hb hB hn (by rw [← hv]; exact h.wf.mant_nonneg) (by rw [← hv]; exact h.lt)

theorem RemRes.absVal_lt {a b r : FixedDecimal} (h : RemRes a b r) : absVal r < absVal b := by
  rw [absVal_remB (a := a) (b := b)]
  unfold absVal
  rw [h.fu, div_lt_div_iff_of_pos_right (by positivity)]
  exact_mod_cast h.lt

theorem RemRes.truncRem {a b r : FixedDecimal} (ha : WF a) (hb : WF b) (zb : mant b ≠ 0) (h : RemRes a b r)
    (hv : mant r = remA a b % remB a b) : absVal r = truncRem (absVal a) (absVal b) := by
  have hA : 0 ≤ remA a b := by unfold remA; have := ha.mant_nonneg; positivity
  have hB : 0 < remB a b := by
    have : 0 < mant b := lt_of_le_of_ne hb.mant_nonneg (Ne.symm zb)
    unfold remB; positivity
  rw [absVal_remA (a := a) (b := b), absVal_remB (a := a) (b := b), truncRem_scaled hA hB (by positivity), ← hv]
  unfold absVal
  rw [h.fu]

/-- Everything that holds of any successful remainder of magnitudes. -/
theorem remAbs_ok {a b res r : FixedDecimal} (ha : WF a) (hb : WF b) (hres : res.lsu.length = 9)
    (h : remAbs m a b res = .ok r) :
    mant b ≠ 0 ∧ WF r ∧ neg r = false ∧ absVal r < absVal b ∧
      (¬ RemGuessTooBig a b → absVal r = truncRem (absVal a) (absVal b)) ∧
      (mant a ≠ 0 → absVal a ≠ absVal b → fracDigits r = max (fracDigits a) (fracDigits b)) ∧
      (mant a < 10 ^ (intgDigits a + 9 * fu a) → mant r < 10 ^ (intgDigits r + 9 * fu r)) ∧
      (¬ RemGuessTooBig a b → Tight a → Tight b → Tight r) ∧
      absVal r = codeRem a b / 10 ^ (9 * max (fu a) (fu b)) := by
  have zb : mant b ≠ 0 := by
    intro hc; rw [remAbs_zero ha hb hres hc] at h; cases h
  have hbp : 0 < mant b := lt_of_le_of_ne hb.mant_nonneg (Ne.symm zb)
  have hbq : 0 < absVal b := by unfold absVal; have : (0 : ℚ) < mant b := by exact_mod_cast hbp
                                positivity
  have hap : 0 ≤ absVal a := by unfold absVal; have : (0 : ℚ) ≤ mant a := by exact_mod_cast ha.mant_nonneg
                                positivity
  have hzero : absVal FixedDecimal.zero = 0 := by
    unfold absVal; rw [show mant FixedDecimal.zero = 0 by decide]; simp
  have hB : 0 < remB a b := by unfold remB; positivity
  have hA : 0 ≤ remA a b := by unfold remA; have := ha.mant_nonneg; positivity
  have nolong : remA a b ≤ remB a b → ¬ RemLong a b := fun hle hc => absurd hc.2 (not_lt.mpr hle)
  refine ⟨zb, ?_⟩
  by_cases za : mant a = 0
  · rw [remAbs_of_zero ha hb hres zb za] at h
    injection h with h
    subst h
    have hA0 : remA a b = 0 := by unfold remA; rw [za]; simp
    refine ⟨wf_zero, by decide, by rw [hzero]; exact hbq, fun _ => ?_, fun hc => absurd za hc, 
      fun _ => by decide, fun _ _ _ => by decide, by
        unfold codeRem; rw [if_neg (nolong (by omega)), hA0, hzero]; simp⟩
    have : absVal a = 0 := by unfold absVal; rw [za]; simp
    rw [hzero, this]; unfold truncRem truncZ; simp
  rcases lt_trichotomy (absVal a) (absVal b) with hl | he | hg
  · rw [remAbs_lt ha hb hres za zb hl] at h
    by_cases hr : RemNoRoom a b
    · rw [if_pos hr] at h; cases h
    rw [if_neg hr] at h
    injection h with h
    subst h
    obtain ⟨w1, w2, w3, w4, w5⟩ := remCopy_spec ha hb hr
    have hfu : fu (remCopy a b) = max (fu a) (fu b) := by unfold fu; rw [w3, unitsFor_max]
    have hv : absVal (remCopy a b) = absVal a := by
      rw [absVal_remA (a := a) (b := b)]; unfold absVal; rw [hfu, w4]
    have htr : truncRem (absVal a) (absVal b) = absVal a := by
      unfold truncRem truncZ
      rw [if_neg (by rw [not_lt]; positivity)]
      have : ⌊absVal a / absVal b⌋ = 0 := by
        rw [Int.floor_eq_iff, le_div_iff₀ hbq, div_lt_iff₀ hbq]; constructor <;> push_cast <;> linarith
      rw [this]; simp
    have hint : mant a < 10 ^ (intgDigits a + 9 * fu a) →
        mant (remCopy a b) < 10 ^ (intgDigits (remCopy a b) + 9 * fu (remCopy a b)) := by
      intro ht
      rw [w4, w5, hfu, show intgDigits a + 9 * max (fu a) (fu b) = intgDigits a + 9 * fu a + 9 * (fu b - fu a) by omega,
        pow_add _ (intgDigits a + 9 * fu a), ← pow9]
      unfold remA
      exact mul_lt_mul_of_pos_right ht (by positivity)
    refine ⟨w1, w2, by rw [hv]; exact hl, fun _ => by rw [hv, htr], fun _ _ => w3, hint,
      fun _ ta tb => ⟨w1, hint ta.intg_ok, ?_⟩, ?_⟩
    · rw [hfu, w3, w4]
      exact (remA_dvd ta tb)
    · unfold codeRem
      rw [if_neg (nolong (remA_lt_remB.mpr hl).le), Int.emod_eq_of_lt hA (remA_lt_remB.mpr hl), hv]
      exact absVal_remA
  · rw [remAbs_eqv ha hb hres za zb he] at h
    injection h with h
    subst h
    refine ⟨wf_zero, by decide, by rw [hzero]; exact hbq, fun _ => ?_, fun _ hc => absurd he hc, 
      fun _ => by decide, fun _ _ _ => by decide, by
        unfold codeRem; rw [if_neg (nolong (remA_eq_remB.mpr he).le), remA_eq_remB.mpr he, hzero]; simp⟩
    rw [hzero, he]; unfold truncRem truncZ
    rw [div_self hbq.ne']; norm_num
  · obtain ⟨g1, g2⟩ := remAbs_gt (m := m) ha hb hres za zb hg
    by_cases hc : RemFull a b ∧ LeadGe a b
    · rw [g1 hc] at h; cases h
    rcases g2 hc with ⟨-, -, p, ep, -⟩ | ⟨-, r', er, hr, hv⟩
    · rw [ep] at h; cases h
    rw [er] at h
    injection h with h
    subst h
    have hve : ¬ RemGuessTooBig a b → mant r' = remA a b % remB a b := fun hab => hr.code hb hB hv hab
    refine ⟨hr.wf, hr.pos, hr.absVal_lt, fun hab => hr.truncRem ha hb zb (hve hab), fun _ _ => hr.frac,
      fun _ => hr.tight, fun hab ta tb => ⟨hr.wf, hr.tight, ?_⟩, ?_⟩
    · rw [hr.fu, hr.frac, hve hab]
      rw [Int.emod_def]
      exact Int.dvd_sub (remA_dvd ta tb) (Dvd.dvd.mul_right (remB_dvd ta tb) _)
    · unfold absVal; rw [hr.fu, hv]

end Fxd
