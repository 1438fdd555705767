import Verif.Proofs.DivVal
import Verif.Model.Ops
import Verif.Props.Samples
/-!
# Properties C30 and C33-C36, C57, C58: division

The shape of a quotient (`quoIntg`, `quoIU`, `quoFU`, `QuoRange`, `QuoSpill`, `TwoUnits`) and `truncQuot` are in
`Verif/Spec/Quotient.lean`.
-/

namespace Fxd
open Spec

variable {m : Mode}

theorem divTo_ok_iff {a b res r : FixedDecimal} {incr : Nat} (hi : incr < 2 ^ 62) :
    FixedDecimal.divTo m a b res incr = .ok r ↔
      ∃ q, divAbs m a b res incr = .ok q ∧ r = signed (neg a != neg b) q := by
  rw [divTo_eq hi, bind_eq_ok]
  constructor
  · rintro ⟨q, h, e⟩
    injection e with e
    exact ⟨q, h, e.symm⟩
  · rintro ⟨q, h, e⟩
    exact ⟨q, h, by rw [e]⟩

theorem signed_wf_iff {s : Bool} {q : FixedDecimal} : WF (signed s q) ↔ WF q := by
  constructor
  · intro h
    exact ⟨by rw [← signed_lsu s]; exact h.len, by rw [← signed_lsu s]; exact h.units, by rw [← signed_frac s]; exact h.frac_nonneg,
      by have := h.fits; unfold iu at *; rwa [signed_intgDigits, signed_fu] at this,
      by have := h.high; unfold iu at *; rwa [signed_intgDigits, signed_fu, signed_lsu] at this⟩
  · exact signed_wf

/-- Everything about a successful division of non-zero decimals. -/
theorem divTo_all {a b res r : FixedDecimal} (ha : WF a) (hb : WF b) (hres : res.lsu.length = 9)
    (za : val a ≠ 0) (zb : val b ≠ 0) {incr : Nat} (hi : incr < 2 ^ 62)
    (h : FixedDecimal.divTo m a b res incr = .ok r) :
    (QuoRange a b incr ∧ quoIntg a b ≤ 81 ∧ ¬ QuoSpill a b incr ∧ ¬ (m = .debug ∧ QuoGuessWide a b incr)) ∧
      fracDigits r = 9 * quoFU a b incr ∧ fu r = quoFU a b incr ∧ mant r = codeQuo a b incr ∧
      (val r = if neg a != neg b then - absVal r else absVal r) ∧ (WF r ↔ ¬ QuoUnitWide a b incr) := by
  rw [Ne, val_eq_zero] at za zb
  obtain ⟨q, hq, rfl⟩ := (divTo_ok_iff hi).mp h
  obtain ⟨s1, s2, s3, ⟨l, -, rfl⟩, s4, s5, s6⟩ := divAbs_shape ha hb hres za zb hi hq
  have h4 : quoFU a b incr ≤ 4 := by unfold quoFU; omega
  refine ⟨⟨s1, s2, s3, s6⟩, ?_, ?_, by rw [signed_mant]; exact s4, ?_, by rw [signed_wf_iff]; exact s5⟩
  · unfold fracDigits; rw [signed_frac, quoMk_frac (by omega)]; omega
  · rw [signed_fu, quoMk_fu (by omega)]
  · rw [signed_val (quoMk_neg (by omega)), signed_absVal]

/-- Everything about a division without a wrong correction. -/
theorem divTo_right {a b res r : FixedDecimal} (ha : WF a) (hb : WF b) (hres : res.lsu.length = 9)
    (za : val a ≠ 0) (zb : val b ≠ 0) {incr : Nat} (hi : incr < 2 ^ 62) (hn : ¬ QuoGuessTooBig a b incr)
    (h : FixedDecimal.divTo m a b res incr = .ok r) :
    WF r ∧ fracDigits r = 9 * quoFU a b incr ∧ fu r = quoFU a b incr ∧
      (val r = if neg a != neg b then - absVal r else absVal r) ∧ QuoOk a b (quoIU a b) (quoFU a b incr) (mant r) := by
  obtain ⟨⟨-, s2, -⟩, s4, s5, s6, s7, s8⟩ := divTo_all ha hb hres za zb hi h
  rw [Ne, val_eq_zero] at za zb
  obtain ⟨k1, k2⟩ := codeQuo_ok ha hb za zb s2 hn
  exact ⟨s8.mpr k2, s4, s5, s7, by rw [s6]; exact k1⟩

theorem abs_quot {a b : FixedDecimal} (ha : WF a) (hb : WF b) : |val a / val b| = absVal a / absVal b := by
  rw [abs_div, abs_val ha, abs_val hb]

theorem one_unit_top {b : FixedDecimal} (hb : WF b) (h1 : mant b < 1000000000) : topUnit b = 0 := by
  unfold topUnit
  refine Nat.log_of_lt ?_
  have := hb.mant_nonneg
  omega

namespace Props

/-- **C33.** Division by zero is an error, whatever the dividend, and leaves zero in the output parameter. -/
theorem C33_div_zero (m : Mode) {a b res : FixedDecimal} (ha : WF a) (hb : WF b) (hres : res.lsu.length = 9)
    (hz : val b = 0) (incr : Int) :
    FixedDecimal.divTo m a b res incr = .err .divisionByZero FixedDecimal.zero := by
  unfold FixedDecimal.divTo
  rw [divAbs_zero ha hb hres (val_eq_zero.mp hz)]
  rfl

/-- **C33.** And only division by zero is this error. -/
theorem C33_div_zero_only (m : Mode) {a b res s : FixedDecimal} (ha : WF a) (hb : WF b) (hres : res.lsu.length = 9)
    (incr : Int) (h : FixedDecimal.divTo m a b res incr = .err .divisionByZero s) : val b = 0 := by
  by_contra hz
  rw [val_eq_zero] at hz
  unfold FixedDecimal.divTo at h
  by_cases za : mant a = 0
  · rw [divAbs_of_zero ha hb hres hz za] at h
    cases h
  · obtain ⟨nl, nr, tl, tr, e⟩ := divAbs_nz (m := m) ha hb hres za hz (wrap 64 incr)
    rw [e] at h
    cases hf : divFrac m a b (wrap 64 incr) with
    | ok u =>
      rw [hf, ok_bind] at h
      cases hd : divFit m a b nl nr u with
      | ok y => rw [hd] at h; cases h
      | err e s =>
        obtain ⟨rfl, -⟩ := divFit_err_only hd
        rw [hd] at h; cases h
      | panic p => rw [hd] at h; cases h
    | err e s => exact absurd hf (NoErr.divFrac _ _)
    | panic p => rw [hf] at h; cases h

/-- **C34.** Zero divided by anything else is zero. -/
theorem C34_zero_div (m : Mode) {a b res : FixedDecimal} (ha : WF a) (hb : WF b) (hres : res.lsu.length = 9)
    (za : val a = 0) (zb : val b ≠ 0) (incr : Int) :
    FixedDecimal.divTo m a b res incr = .ok FixedDecimal.zero := by
  rw [Ne, val_eq_zero] at zb
  unfold FixedDecimal.divTo
  rw [divAbs_of_zero ha hb hres zb (val_eq_zero.mp za)]
  change Out.ok (if (a.isNeg != b.isNeg) = true then FixedDecimal.zero.setNegAndCheckZero else FixedDecimal.zero) = _
  split_ifs
  · decide
  · rfl

/-- The minus zero in the numerator, a two-unit divisor. -/
example : WF Samples.nz ∧ WF Samples.c ∧ val Samples.nz = 0 ∧ val Samples.c ≠ 0 ∧
    FixedDecimal.divTo m Samples.nz Samples.c Samples.a 4 = .ok FixedDecimal.zero ∧
    FixedDecimal.divTo m Samples.c Samples.nz Samples.a 4 = .err .divisionByZero FixedDecimal.zero := by
  refine ⟨by decide, by decide, ?_, ?_, ?_, ?_⟩
  · rw [val_eq_zero]; decide
  · rw [Ne, val_eq_zero]; decide
  · cases m <;> decide +kernel
  · cases m <;> decide +kernel

/-- **C35.** A divisor of one unit: the quotient is exact, cut towards zero at the scale of the result. -/
theorem C35_short_div (m : Mode) {a b res r : FixedDecimal} (ha : WF a) (hb : WF b) (hres : res.lsu.length = 9)
    (zb : val b ≠ 0) (h1 : mant b < 1000000000) {incr : Nat} (hi : incr < 2 ^ 62)
    (h : FixedDecimal.divTo m a b res incr = .ok r) :
    WF r ∧ val r = truncQuot (val a) (val b) (fracDigits r) := by
  by_cases za : val a = 0
  · rw [C34_zero_div m ha hb hres za zb] at h
    injection h with h; subst h
    refine ⟨wf_zero, ?_⟩
    rw [za, val_zero]; unfold truncQuot truncZ; norm_num
  · have hz := zb
    have hza : ¬ mant a = 0 := by rwa [val_eq_zero] at za
    rw [Ne, val_eq_zero] at hz
    have ht := one_unit_top hb h1
    have hn : ¬ QuoGuessTooBig a b incr := fun hc => hc.1 ht
    obtain ⟨w1, w2, w3, w4, w5, -⟩ := divTo_right ha hb hres za zb hi hn h
    have hm := (divTo_all ha hb hres za zb hi h).2.2.2.1
    refine ⟨w1, ?_⟩
    have hbp : 0 < mant b := lt_of_le_of_ne hb.mant_nonneg (Ne.symm hz)
    have hP : 0 < mant b * 1000000000 ^ fu a := by positivity
    have hlt := Int.lt_ediv_add_one_mul_self (mant a * 1000000000 ^ (quoFU a b incr + fu b)) hP
    unfold codeQuo at hm
    rw [if_pos ht] at hm
    rw [← hm, ← mul_assoc] at hlt
    rw [w4, truncQuot_val, w2, trunc_of_sharp ha hb hz w5 hlt]
    unfold absVal
    rw [w3]

/-- **C35.** And it succeeds whenever the digit counts are in range. -/
theorem C35_short_div_ok (m : Mode) {a b res : FixedDecimal} (ha : WF a) (hb : WF b) (hres : res.lsu.length = 9)
    (za : val a ≠ 0) (zb : val b ≠ 0) (h1 : mant b < 1000000000) {incr : Nat} (hi : incr < 2 ^ 62) :
    (∃ r, FixedDecimal.divTo m a b res incr = .ok r) ↔ QuoRange a b incr ∧ quoIntg a b ≤ 81 := by
  rw [Ne, val_eq_zero] at za zb
  constructor
  · rintro ⟨r, h⟩
    obtain ⟨q, hq, rfl⟩ := (divTo_ok_iff hi).mp h
    obtain ⟨s1, s2, s3, -⟩ := divAbs_shape ha hb hres za zb hi hq
    exact ⟨s1, s2⟩
  · rintro ⟨s1, s2⟩
    have hns : ¬ QuoSpill a b incr := fun hs => hs.1 (one_unit_top hb h1)
    rcases (divAbs_main (m := m) ha hb hres za zb hi s1 s2).2 hns with ⟨-, hw, -⟩ | ⟨-, l, -, hq, -⟩
    · exact absurd (one_unit_top hb h1) hw.1
    · exact ⟨_, (divTo_ok_iff hi).mpr ⟨_, hq, rfl⟩⟩

/-- 123456789012.345 / -0.00000000075 = -164609052016460000000 exactly; 123456789012.345 / 7 is cut. -/
example : mant Samples.b < 1000000000 ∧ QuoRange Samples.a Samples.b 4 ∧ quoIntg Samples.a Samples.b ≤ 81 ∧
    FixedDecimal.divTo m Samples.a Samples.b FixedDecimal.zero 4 =
      .ok ⟨0x95#8, 27, [0, 0, 0, 460000000, 609052016, 164, 0, 0, 0]⟩ ∧
    FixedDecimal.divTo m Samples.a ⟨1#8, 0, [7, 0, 0, 0, 0, 0, 0, 0, 0]⟩ FixedDecimal.zero 4 =
      .ok ⟨12#8, 9, [620714285, 636684144, 17, 0, 0, 0, 0, 0, 0]⟩ := by
  cases m <;> decide +kernel

/-- **C36** (partial: only quotients for which no guess of the long division, other than the last, is too large: the code
that corrects such a guess is wrong). The magnitude of the result never exceeds that of the exact quotient and falls
short of it by less than 1.000000018 units of the last place; it is the exactly truncated quotient when the divisor has
no more fractional units than dividend and integral part of the result together. -/
theorem C36_exact_partial (m : Mode) {a b res r : FixedDecimal} (ha : WF a) (hb : WF b) (hres : res.lsu.length = 9)
    (za : val a ≠ 0) (zb : val b ≠ 0) {incr : Nat} (hi : incr < 2 ^ 62) (hn : ¬ QuoGuessTooBig a b incr)
    (h : FixedDecimal.divTo m a b res incr = .ok r) :
    WF r ∧ |val r| ≤ |val a / val b| ∧
      |val a / val b| < |val r| + (1 + 18 / 10 ^ 9) / 10 ^ fracDigits r ∧
      (fu b ≤ quoIU a b + fu a → val r = truncQuot (val a) (val b) (fracDigits r)) := by
  obtain ⟨w1, w2, w3, w4, q1, q2, q3⟩ := divTo_right ha hb hres za zb hi hn h
  have hz := zb
  rw [Ne, val_eq_zero] at hz
  have hbp : 0 < mant b := lt_of_le_of_ne hb.mant_nonneg (Ne.symm hz)
  have hbq : (0 : ℚ) < mant b := by exact_mod_cast hbp
  have hD : (0 : ℚ) < mant b * 1000000000 ^ fu a := by positivity
  have hs : (0 : ℚ) < 10 ^ (9 * quoFU a b incr) := by positivity
  have hX : absVal a / absVal b = (mant a * 1000000000 ^ (quoFU a b incr + fu b) : ℚ) / (mant b * 1000000000 ^ fu a) /
      10 ^ (9 * quoFU a b incr) := by
    rw [← quot_scaled]; field_simp
  refine ⟨w1, ?_, ?_, fun hc => ?_⟩
  · rw [abs_val w1, abs_quot ha hb, hX]
    unfold absVal
    rw [w3]
    refine div_le_div_of_nonneg_right ?_ hs.le
    rw [le_div_iff₀ hD, ← mul_assoc]
    exact_mod_cast q1
  · rw [abs_val w1, abs_quot ha hb, hX, w2]
    unfold absVal
    rw [w3, ← add_div]
    refine div_lt_div_of_pos_right ?_ hs
    rw [div_lt_iff₀ hD]
    have q2' : (1000000000 : ℚ) * (mant a * 1000000000 ^ (quoFU a b incr + fu b)) <
        (1000000000 * (mant r + 1) + 18) * mant b * 1000000000 ^ fu a := by exact_mod_cast q2
    have e : (1000000000 * ((mant r : ℚ) + 1) + 18) * mant b * 1000000000 ^ fu a =
      1000000000 * (((mant r : ℚ) + (1 + 18 / 10 ^ 9)) * (mant b * 1000000000 ^ fu a)) := by ring
    rw [e] at q2'
    exact lt_of_mul_lt_mul_left q2' (by norm_num)
  · rw [w4, truncQuot_val, w2, trunc_of_sharp ha hb hz q1 (q3 hc)]
    unfold absVal
    rw [w3]

/-- **C36.** The value of every quotient the code returns, right or wrong: `codeQuo` of `Spec/LongDivision.lean`, an
integer recursion on the mantissas; and when its units are units. -/
theorem C36_code (m : Mode) {a b res r : FixedDecimal} (ha : WF a) (hb : WF b) (hres : res.lsu.length = 9)
    (za : val a ≠ 0) (zb : val b ≠ 0) {incr : Nat} (hi : incr < 2 ^ 62)
    (h : FixedDecimal.divTo m a b res incr = .ok r) :
    val r = (if neg a = neg b then 1 else -1) * codeQuo a b incr / 10 ^ (9 * quoFU a b incr) ∧
      (WF r ↔ ¬ QuoUnitWide a b incr) := by
  obtain ⟨-, -, s5, s6, s7, s8⟩ := divTo_all ha hb hres za zb hi h
  refine ⟨?_, s8⟩
  rw [s7]
  unfold absVal
  rw [s5, s6]
  by_cases hs : neg a = neg b
  · rw [if_pos hs]; simp [hs]
  · rw [if_neg hs, if_pos (by simpa using hs)]; ring

/-- **C36.** In terms of the operands: when a guess (other than the last) is too large. Here the normalised dividend is
cut after each unit and compared with the normalised divisor; nothing of the code's run is left in the statement. For
divisors with more fractional units than dividend and integral part of the result together there is no such closed form,
because the code then drops part of the remainder. -/
theorem C36_guess_iff {a b : FixedDecimal} (ha : WF a) (hb : WF b) (za : val a ≠ 0) (zb : val b ≠ 0) {incr : Nat}
    (hc : fu b ≤ quoIU a b + fu a) :
    QuoGuessTooBig a b incr ↔ topUnit b ≠ 0 ∧ ∃ j, 0 < j ∧ j < quoSteps a b incr ∧
      TooBig (normFac b * mant b) (1000000000 ^ (topUnit b - 1))
        (1000000000 ^ (quoIU a b + quoFU a b incr) * (normFac b * mant a) / 1000000000 ^ (j + (quoIU a b + fu a - fu b)) %
          (normFac b * mant b * 1000000000)) := by
  rw [Ne, val_eq_zero] at za zb
  obtain ⟨nl, h1, tl, _⟩ := findNonZero_of_ne ha za
  obtain ⟨nr, h2, tr, _⟩ := findNonZero_of_ne hb zb
  have hu := quoIU_eq ha hb tl tr
  have hst := quoSteps_eq ha hb tl tr incr
  obtain ⟨f0, f1, f2, f3⟩ := norm_div hb tr (normFac_top hb tr)
  change 0 < tailF b nr at f0
  change 500000000 * 1000000000 ^ nr ≤ tailF b nr * mant b at f3
  rw [tailF_eq hb tr] at f0 f3
  have hA := ha.mant_nonneg
  unfold QuoGuessTooBig quoWindows
  refine and_congr_right fun _ => ?_
  by_cases hneg : 0 ≤ (quoFU a b incr : Int) + divPos a b nl nr + 1
  · have hlow : quoLow a b = ((quoIU a b + fu a - fu b : Nat) : Int) := by unfold quoLow; omega
    have hlead := tail_lead ha hb tl tr f0 (rf := quoFU a b incr) (n := quoSteps a b incr) (c := quoLow a b)
      (by rw [hst]; unfold tailN; omega) (by unfold quoLow; rw [hu])
    rw [hlow] at hlead ⊢
    have hlead' : 1000000000 ^ (quoIU a b + quoFU a b incr) * (normFac b * mant a) <
        normFac b * mant b * 1000000000 ^ (quoSteps a b incr + (quoIU a b + fu a - fu b)) := by
      rw [← Nat.cast_add, zpow_natCast] at hlead
      rw [hu]
      rw [hu] at hlead
      exact_mod_cast hlead
    exact quo_windows (lt_of_lt_of_le (by positivity) f3) _ _ (by positivity) hlead'
  · have h0 : quoSteps a b incr = 0 := by rw [hst]; unfold tailN; omega
    rw [h0]
    simp [quoWins]

/-- **C36** for divisors of at most two significant units (up to 18 digits, wherever the point is, and trailing zero
units): no guess is too large, so the bounds hold of every division that returns, and in release builds every division
whose digit counts are in range does return. (In debug builds the assertion on the guessed unit can fail.) -/
theorem C36_two_units_partial (m : Mode) {a b res : FixedDecimal} (ha : WF a) (hb : WF b) (hres : res.lsu.length = 9)
    (za : val a ≠ 0) (zb : val b ≠ 0) (h2 : TwoUnits b) {incr : Nat} (hi : incr < 2 ^ 62) :
    (∀ r, FixedDecimal.divTo m a b res incr = .ok r → WF r ∧ |val r| ≤ |val a / val b| ∧
      |val a / val b| < |val r| + (1 + 18 / 10 ^ 9) / 10 ^ fracDigits r ∧
      (fu b ≤ quoIU a b + fu a → val r = truncQuot (val a) (val b) (fracDigits r))) ∧
    (QuoRange a b incr → quoIntg a b ≤ 81 → ¬ QuoSpill a b incr →
      (∃ r, FixedDecimal.divTo m a b res incr = .ok r) ∨
        m = .debug ∧ FixedDecimal.divTo m a b res incr = .panic .assert) := by
  refine ⟨fun r h => C36_exact_partial m ha hb hres za zb hi (not_tooBig_of_twoUnits h2) h, fun s1 s2 s3 => ?_⟩
  rw [Ne, val_eq_zero] at za zb
  rcases (divAbs_main (m := m) ha hb hres za zb hi s1 s2).2 s3 with ⟨hm, -, hp⟩ | ⟨-, l, -, hq, -⟩
  · refine Or.inr ⟨hm, ?_⟩
    rw [divTo_eq hi, hp]; rfl
  · exact Or.inl ⟨_, (divTo_ok_iff hi).mpr ⟨_, hq, rfl⟩⟩

/-- Up to 18 significant digits is the case of one or two units. -/
theorem twoUnits_of_lt {b : FixedDecimal} (hb : WF b) (h : mant b < 10 ^ 18) : TwoUnits b := by
  unfold TwoUnits
  have : topUnit b ≤ 1 := by
    unfold topUnit
    have h0 := hb.mant_nonneg
    have : Nat.log 1000000000 (mant b).toNat < 2 := Nat.log_lt_of_lt_pow' (by norm_num) (by norm_num at h ⊢; omega)
    omega
  rw [show topUnit b - 1 = 0 by omega]
  simp

/-- 123456789012.345 / -7.50: two units, exact. -/
example : TwoUnits Samples.c ∧ QuoRange Samples.a Samples.c 4 ∧ quoIntg Samples.a Samples.c ≤ 81 ∧
    ¬ QuoSpill Samples.a Samples.c 4 ∧ ¬ QuoGuessTooBig Samples.a Samples.c 4 ∧ ¬ QuoGuessWide Samples.a Samples.c 4 ∧
    fu Samples.c ≤ quoIU Samples.a Samples.c + fu Samples.a ∧
    FixedDecimal.divTo m Samples.a Samples.c FixedDecimal.zero 4 =
      .ok ⟨0x8c#8, 18, [0, 646000000, 460905201, 16, 0, 0, 0, 0, 0]⟩ := by
  refine ⟨by decide +kernel, by decide +kernel, by decide +kernel, by decide +kernel, by decide +kernel, by decide +kernel,
    by decide +kernel, ?_⟩
  cases m <;> decide +kernel

/-- 10^27 -/
def wA : FixedDecimal := ⟨28#8, 0, [0, 0, 0, 1, 0, 0, 0, 0, 0]⟩
/-- 500000000000000000999999999 -/
def wB : FixedDecimal := ⟨27#8, 0, [999999999, 0, 500000000, 0, 0, 0, 0, 0, 0]⟩

/-- **C36** is false of this code: 10^27 / 500000000000000000999999999 is 1.99..., but release builds return a decimal
with an impossible unit (1999999999) whose value is 2.999999999, and debug builds panic. -/
theorem C36_witness_addback :
    FixedDecimal.fromStr .release (Samples.bytes "1000000000000000000000000000") = .ok wA ∧
    FixedDecimal.fromStr .release (Samples.bytes "500000000000000000999999999") = .ok wB ∧
    FixedDecimal.divTo .release wA wB FixedDecimal.zero 4 = .ok ⟨1#8, 9, [1999999999, 1, 0, 0, 0, 0, 0, 0, 0]⟩ ∧
    FixedDecimal.divTo .debug wA wB FixedDecimal.zero 4 = .panic .assert ∧
    ¬ WF ⟨1#8, 9, [1999999999, 1, 0, 0, 0, 0, 0, 0, 0]⟩ ∧
    val ⟨1#8, 9, [1999999999, 1, 0, 0, 0, 0, 0, 0, 0]⟩ = 2999999999 / 10 ^ 9 ∧
    truncQuot (val wA) (val wB) 9 = 1999999999 / 10 ^ 9 := by
  refine ⟨by decide +kernel, by decide +kernel, by decide +kernel, by decide +kernel, by decide, ?_, ?_⟩
  · have h : mant ⟨1#8, 9, [1999999999, 1, 0, 0, 0, 0, 0, 0, 0]⟩ = 2999999999 := by decide
    have h2 : neg ⟨1#8, 9, [1999999999, 1, 0, 0, 0, 0, 0, 0, 0]⟩ = false := by decide
    have h3 : fu ⟨1#8, 9, [1999999999, 1, 0, 0, 0, 0, 0, 0, 0]⟩ = 1 := by decide
    simp only [val, absVal, h, h2, h3]; norm_num
  · have wa : WF wA := by decide
    have wb : WF wB := by decide
    rw [truncQuot_val, show (neg wA != neg wB) = false by decide]
    have hb : mant wB = 500000000000000000999999999 := by decide
    have ha : mant wA = 1000000000000000000000000000 := by decide
    have fa : fu wA = 0 := by decide
    have fb : fu wB = 0 := by decide
    have := trunc_of_sharp (rf := 1) (Q := 1999999999) wa wb (by rw [hb]; norm_num)
      (by rw [ha, hb, fa, fb]; norm_num) (by rw [ha, hb, fa, fb]; norm_num)
    simpa using this

/-- 5^91 / 10^55 = 403896783.4731580443708050254247865495926816947758197784423828125 -/
def wC : FixedDecimal :=
  ⟨9#8, 55, [500000000, 442382812, 775819778, 592681694, 424786549, 370805025, 473158044, 403896783, 0]⟩

/-- **C36** is also false of this code without the correction step: units of the remainder below the end of the scratch
buffer are dropped, so 1 / (5^91 / 10^55), which is exactly 2^91 / 10^36 = ...448 / 10^36, comes out as ...447 / 10^36. -/
theorem C36_witness_last_unit (m : Mode) :
    FixedDecimal.fromStr m (Samples.bytes "403896783.4731580443708050254247865495926816947758197784423828125") = .ok wC ∧
    ¬ QuoGuessTooBig FixedDecimal.one wC 4 ∧
    FixedDecimal.divTo m FixedDecimal.one wC FixedDecimal.zero 4 =
      .ok ⟨0#8, 36, [798248447, 570760549, 475880078, 2, 0, 0, 0, 0, 0]⟩ ∧
    val ⟨0#8, 36, [798248447, 570760549, 475880078, 2, 0, 0, 0, 0, 0]⟩ = (2 ^ 91 - 1) / 10 ^ 36 ∧
    val FixedDecimal.one / val wC = 2 ^ 91 / 10 ^ 36 := by
  refine ⟨by cases m <;> decide +kernel,
    by decide +kernel,
    by cases m <;> decide +kernel, ?_, ?_⟩
  · have h : mant ⟨0#8, 36, [798248447, 570760549, 475880078, 2, 0, 0, 0, 0, 0]⟩ = 2475880078570760549798248447 := by
      decide
    have h2 : neg ⟨0#8, 36, [798248447, 570760549, 475880078, 2, 0, 0, 0, 0, 0]⟩ = false := by decide
    have h3 : fu ⟨0#8, 36, [798248447, 570760549, 475880078, 2, 0, 0, 0, 0, 0]⟩ = 4 := by decide
    simp only [val, absVal, h, h2, h3]; norm_num
  · have h : mant FixedDecimal.one = 1 := by decide
    have h2 : neg FixedDecimal.one = false := by decide
    have h3 : fu FixedDecimal.one = 0 := by decide
    have g : mant wC = 403896783473158044370805025424786549592681694775819778442382812500000000 := by decide +kernel
    have g2 : neg wC = false := by decide
    have g3 : fu wC = 7 := by decide
    simp only [val, absVal, h, h2, h3, g, g2, g3]; norm_num

/-- **C30.** The sign of a quotient: the flag is set exactly when the signs of the operands differ and the result is not
zero.  (All results, also the wrong ones.) -/
theorem C30_div_sign (m : Mode) {a b res r : FixedDecimal} (ha : WF a) (hb : WF b) (hres : res.lsu.length = 9)
    {incr : Nat} (hi : incr < 2 ^ 62) (h : FixedDecimal.divTo m a b res incr = .ok r) :
    neg r = true ↔ neg a ≠ neg b ∧ ∃ u ∈ r.lsu, u ≠ 0 := by
  obtain ⟨q, hq, rfl⟩ := (divTo_ok_iff hi).mp h
  have hn : neg q = false := by
    by_cases zb : mant b = 0
    · rw [divAbs_zero ha hb hres zb] at hq; cases hq
    · by_cases za : mant a = 0
      · rw [divAbs_of_zero ha hb hres zb za] at hq
        injection hq with hq
        rw [← hq]; decide
      · obtain ⟨s1, s2, s3, ⟨l, -, rfl⟩, -⟩ := divAbs_shape ha hb hres za zb hi hq
        exact quoMk_neg (by omega)
  rw [signed_neg hn]
  simp

/-- 123456789012.345 / -7.50 is negative, -7.50 / -0.00000000075 is not -/
example : ∃ q q', FixedDecimal.divTo m Samples.a Samples.c FixedDecimal.zero (4 : Nat) = .ok q ∧ neg q = true ∧ WF q ∧
    FixedDecimal.divTo m Samples.c Samples.b FixedDecimal.zero (4 : Nat) = .ok q' ∧ neg q' = false ∧ WF q' := by
  refine ⟨⟨0x8c#8, 18, [0, 646000000, 460905201, 16, 0, 0, 0, 0, 0]⟩, ⟨10#8, 27, [0, 0, 0, 0, 10, 0, 0, 0, 0]⟩, ?_⟩
  cases m <;> decide +kernel

/-- **C30.** In terms of values, for well-formed results. -/
theorem C30_div_sign_val (m : Mode) {a b res r : FixedDecimal} (ha : WF a) (hb : WF b) (hres : res.lsu.length = 9)
    {incr : Nat} (hi : incr < 2 ^ 62) (h : FixedDecimal.divTo m a b res incr = .ok r) (hr : WF r) :
    (val r ≠ 0 → (neg r = true ↔ neg a ≠ neg b)) ∧ (val r = 0 → neg r = false) := by
  have hs := C30_div_sign m ha hb hres hi h
  have hu : (∃ u ∈ r.lsu, u ≠ 0) ↔ val r ≠ 0 := by
    rw [Ne, ← isZero_val hr]
    unfold FixedDecimal.isZero
    rw [List.all_eq_true]
    simp
  rw [hu] at hs
  constructor
  · intro h0; rw [hs]; simp [h0]
  · intro h0
    rw [← Bool.not_eq_true, hs]; simp [h0]

/-- **C57.** The scale of a quotient: the fractional units of both operands and what `incr_frac` asks for beyond their
padding, rounded up to whole units, at most four units and at most what the integral units leave of nine. -/
theorem C57_scale (m : Mode) {a b res r : FixedDecimal} (ha : WF a) (hb : WF b) (hres : res.lsu.length = 9)
    (za : val a ≠ 0) (zb : val b ≠ 0) {incr : Nat} (hi : incr < 2 ^ 62)
    (h : FixedDecimal.divTo m a b res incr = .ok r) :
    r.frac = 9 * quoFU a b incr ∧ (intgDigits r : Int) = max 0 (quoIntg a b) := by
  rw [Ne, val_eq_zero] at za zb
  obtain ⟨q, hq, rfl⟩ := (divTo_ok_iff hi).mp h
  obtain ⟨s1, s2, s3, ⟨l, -, rfl⟩, -⟩ := divAbs_shape ha hb hres za zb hi hq
  have h4 : quoFU a b incr ≤ 4 := by unfold quoFU; omega
  rw [signed_frac, quoMk_frac (by omega), signed_intgDigits, quoMk_intgDigits (by omega)]
  exact ⟨rfl, by omega⟩

/-- **C57.** With the usual increments nothing is cut to eight bits: the scale is
`9 * min(⌈(9 fu(a) + 9 fu(b) + max(0, incr - padding)) / 9⌉, 4, 9 - integral units)`. -/
theorem C57_scale_small (a b : FixedDecimal) (incr : Nat) (h : quoWant a b incr < 128) :
    quoFU a b incr = min (min (unitsFor (quoWant a b incr)) 4) (9 - quoIU a b) := by
  unfold quoFU quoFrac
  have : Int.bmod (quoWant a b incr : Int) 256 = quoWant a b incr := by
    apply Int.bmod_eq_of_le <;> norm_num <;> omega
  rw [this, Int.toNat_natCast]

/-- **C57** An increment of 256 is cut to 0: 1 / 3 then has no fractional digits. 120 panics. -/
theorem C57_witness_wrap (m : Mode) :
    FixedDecimal.divTo m FixedDecimal.one ⟨1#8, 0, [3, 0, 0, 0, 0, 0, 0, 0, 0]⟩ FixedDecimal.zero 256 =
      .ok ⟨0#8, 0, [0, 0, 0, 0, 0, 0, 0, 0, 0]⟩ ∧
    (∃ p, FixedDecimal.divTo m FixedDecimal.one ⟨1#8, 0, [3, 0, 0, 0, 0, 0, 0, 0, 0]⟩ FixedDecimal.zero 120 = .panic p) ∧
    FixedDecimal.divTo m FixedDecimal.one ⟨1#8, 0, [3, 0, 0, 0, 0, 0, 0, 0, 0]⟩ FixedDecimal.zero 119 =
      .ok ⟨0#8, 36, [333333333, 333333333, 333333333, 333333333, 0, 0, 0, 0, 0]⟩ := by
  cases m
  · exact ⟨by decide +kernel, ⟨.overflow, by decide +kernel⟩, by decide +kernel⟩
  · exact ⟨by decide +kernel, ⟨.index, by decide +kernel⟩, by decide +kernel⟩

/-- **C58.** Exactly which quotients of non-zero decimals a release build computes. -/
theorem C58_release_ok_iff {a b res : FixedDecimal} (ha : WF a) (hb : WF b) (hres : res.lsu.length = 9)
    (za : val a ≠ 0) (zb : val b ≠ 0) {incr : Nat} (hi : incr < 2 ^ 62) :
    (∃ r, FixedDecimal.divTo .release a b res incr = .ok r) ↔
      QuoRange a b incr ∧ quoIntg a b ≤ 81 ∧ ¬ QuoSpill a b incr := by
  rw [Ne, val_eq_zero] at za zb
  constructor
  · rintro ⟨r, h⟩
    obtain ⟨q, hq, rfl⟩ := (divTo_ok_iff hi).mp h
    obtain ⟨s1, s2, s3, -⟩ := divAbs_shape ha hb hres za zb hi hq
    exact ⟨s1, s2, s3⟩
  · rintro ⟨s1, s2, s3⟩
    rcases (divAbs_main (m := .release) ha hb hres za zb hi s1 s2).2 s3 with ⟨hm, -⟩ | ⟨-, l, -, hq, -⟩
    · cases hm
    · exact ⟨_, (divTo_ok_iff hi).mpr ⟨_, hq, rfl⟩⟩

/-- **C58.** And a debug build: all of these but those for which a first guess is not a single unit. -/
theorem C58_debug_ok_iff {a b res : FixedDecimal} (ha : WF a) (hb : WF b) (hres : res.lsu.length = 9)
    (za : val a ≠ 0) (zb : val b ≠ 0) {incr : Nat} (hi : incr < 2 ^ 62) :
    (∃ r, FixedDecimal.divTo .debug a b res incr = .ok r) ↔
      QuoRange a b incr ∧ quoIntg a b ≤ 81 ∧ ¬ QuoSpill a b incr ∧ ¬ QuoGuessWide a b incr := by
  constructor
  · rintro ⟨r, h⟩
    obtain ⟨⟨s1, s2, s3, s4⟩, -⟩ := divTo_all ha hb hres za zb hi h
    exact ⟨s1, s2, s3, fun hw => s4 ⟨rfl, hw⟩⟩
  · rintro ⟨s1, s2, s3, s4⟩
    rw [Ne, val_eq_zero] at za zb
    rcases (divAbs_main (m := .debug) ha hb hres za zb hi s1 s2).2 s3 with ⟨-, hw, -⟩ | ⟨-, l, -, hq, -⟩
    · exact absurd hw s4
    · exact ⟨_, (divTo_ok_iff hi).mpr ⟨_, hq, rfl⟩⟩

/-- **C58.** In both build modes: which divisions report an overflow, and that they leave zero in the output. -/
theorem C58_overflow_iff (m : Mode) {a b res s : FixedDecimal} (ha : WF a) (hb : WF b) (hres : res.lsu.length = 9)
    (za : val a ≠ 0) (zb : val b ≠ 0) {incr : Nat} (hi : incr < 2 ^ 62) {e : Error} :
    FixedDecimal.divTo m a b res incr = .err e s ↔
      QuoRange a b incr ∧ 82 ≤ quoIntg a b ∧ e = .overflow ∧ s = FixedDecimal.zero := by
  rw [Ne, val_eq_zero] at za zb
  rw [divTo_eq hi]
  constructor
  · intro h
    have h1 : divAbs m a b res incr = .err e s := by
      cases hd : divAbs m a b res incr with
      | ok y => rw [hd] at h; cases h
      | err e' s' => rw [hd] at h; injection h with h1 h2; rw [h1, h2]
      | panic p => rw [hd] at h; cases h
    have hr : QuoRange a b incr := by
      by_contra hc
      obtain ⟨p, ep⟩ := divAbs_range (m := m) ha hb hres za zb hi hc
      rw [ep] at h1; cases h1
    by_cases h82 : 82 ≤ quoIntg a b
    · rw [divAbs_overflow ha hb hres za zb hi hr h82] at h1
      injection h1 with h1 h2
      exact ⟨hr, h82, h1.symm, h2.symm⟩
    · exfalso
      obtain ⟨nl, nr, tl, tr, ed⟩ := divAbs_nz (m := m) ha hb hres za zb incr
      unfold QuoRange at hr
      obtain ⟨hRI, efit⟩ := divFit_ok (m := m) ha hb tl tr (min (unitsFor (quoFrac a b incr).toNat) 4) (by omega)
        (by rw [← quoIntg_eq ha hb tl tr]; omega) (by rw [← quoIntg_eq ha hb tl tr]; exact hr.2.2.1)
      rw [ed, divFrac_ok ha hb hi hr.1 hr.2.1, ok_bind, efit] at h1
      exact NoErr.divTail _ _ h1
  · rintro ⟨hr, h82, rfl, rfl⟩
    rw [divAbs_overflow ha hb hres za zb hi hr h82]; rfl

/-- Each of the three classes of C58 is inhabited: the dividend fills nine units, the divisor has two. -/
example : let a : FixedDecimal := ⟨81#8, 0, [0, 0, 0, 0, 0, 0, 0, 0, 900000000]⟩
    let b : FixedDecimal := ⟨10#8, 0, [0, 1, 0, 0, 0, 0, 0, 0, 0]⟩
    let c : FixedDecimal := ⟨0#8, 9, [1, 0, 0, 0, 0, 0, 0, 0, 0]⟩
    QuoRange a b 4 ∧ quoIntg a b ≤ 81 ∧ QuoSpill a b 4 ∧
    FixedDecimal.divTo .release a b FixedDecimal.zero 4 = .panic .index ∧
    ¬ QuoSpill a b 0 ∧ FixedDecimal.divTo .release a b FixedDecimal.zero 0 = .ok ⟨72#8, 0, [0, 0, 0, 0, 0, 0, 0, 900000000, 0]⟩ ∧
    QuoRange a c 4 ∧ 82 ≤ quoIntg a c ∧ FixedDecimal.divTo .release a c FixedDecimal.zero 4 = .err .overflow FixedDecimal.zero := by
  decide +kernel

/-- **C58** Debug builds compute fewer: the assertion on the guessed unit fails on
500000000000000000000000000 / 500000000000000001 (a two-unit divisor), which release builds divide correctly. -/
theorem C58_debug_panic :
    let a : FixedDecimal := ⟨27#8, 0, [0, 0, 500000000, 0, 0, 0, 0, 0, 0]⟩
    let b : FixedDecimal := ⟨18#8, 0, [1, 500000000, 0, 0, 0, 0, 0, 0, 0]⟩
    FixedDecimal.fromStr .debug (Samples.bytes "500000000000000000000000000") = .ok a ∧
    FixedDecimal.fromStr .debug (Samples.bytes "500000000000000001") = .ok b ∧
    FixedDecimal.divTo .debug a b FixedDecimal.zero 4 = .panic .assert ∧
    FixedDecimal.divTo .release a b FixedDecimal.zero 4 = .ok ⟨9#8, 9, [999999998, 999999999, 0, 0, 0, 0, 0, 0, 0]⟩ := by
  decide +kernel

end Props
end Fxd
