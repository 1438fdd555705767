import Verif.Proofs.MulAbs
import Verif.Props.Samples
/-!
# Properties C27-C32: multiplication

The shape of a product (`mulIU`, `mulFU`, `MulFull`, `MulFits`) is in `Verif/Spec/Product.lean`.
-/

namespace Fxd
open Spec

theorem mulTo_zero (m : Mode) {a b res : FixedDecimal} (ha : WF a) (hb : WF b) (hres : res.lsu.length = 9)
    (h : val a = 0 ∨ val b = 0) : FixedDecimal.mulTo m a b res = .ok FixedDecimal.zero := by
  unfold FixedDecimal.mulTo
  rw [if_pos, setZero_eq hres]
  rw [Bool.or_eq_true, isZero_val ha, isZero_val hb]; exact h

theorem mulTo_nz (m : Mode) {a b res : FixedDecimal} (ha : WF a) (hb : WF b) (za : val a ≠ 0) (zb : val b ≠ 0) :
    FixedDecimal.mulTo m a b res = (mulAbs m a b res >>= fun r =>
      .ok (if neg a != neg b then r.setNegAndCheckZero else r)) := by
  unfold FixedDecimal.mulTo
  rw [if_neg]
  · simp only [isNeg_eq]; rfl
  · rw [Bool.or_eq_true, isZero_val ha, isZero_val hb]; push Not; exact ⟨za, zb⟩

theorem mulRes_q {a b : FixedDecimal} :
    (1000000000 ^ mulShift a b * mulRes a b : ℚ) / 10 ^ (9 * (fu a + fu b)) = (mulRes a b : ℚ) / 10 ^ (9 * mulFU a b) := by
  have hle := mulFU_le a b
  rw [pow9q, show 9 * (fu a + fu b) = 9 * mulShift a b + 9 * mulFU a b by unfold mulShift; omega, pow_add]
  have h1 : (10 : ℚ) ^ (9 * mulShift a b) ≠ 0 := by positivity
  field_simp

theorem mant_mul_q {a b : FixedDecimal} :
    ((mant a * mant b : Int) : ℚ) / 10 ^ (9 * (fu a + fu b)) = absVal a * absVal b := by
  unfold absVal
  rw [show 9 * (fu a + fu b) = 9 * fu a + 9 * fu b by ring, pow_add]
  push_cast
  field_simp

theorem mulTo_ok (m : Mode) {a b res : FixedDecimal} (ha : Tight a) (hb : Tight b) (hres : res.lsu.length = 9)
    (za : val a ≠ 0) (zb : val b ≠ 0) (hfit : MulFits m a b) :
    ∃ r, FixedDecimal.mulTo m a b res = .ok r ∧ Tight r ∧ absVal r = (mulRes a b : ℚ) / 10 ^ (9 * mulFU a b) ∧
      r.frac = min (a.frac + b.frac) (9 * mulFU a b : Nat) ∧
      neg r = ((neg a != neg b) && decide (val r ≠ 0)) ∧ fu r = mulFU a b ∧ intgDigits r = 9 * mulIU a b := by
  obtain ⟨f1, f2, f3⟩ := hfit
  have hsh := mul_shape f1
  have hlt := mulRes_lt ha hb
  have h9 : mulRes a b < 1000000000 ^ 9 := lt_of_lt_of_le hlt (pow_le_pow_right₀ (by norm_num) hsh.2)
  obtain ⟨l, e, c1, c2, c3⟩ := (mulAbs_spec m ha.toWF hb.toWF hres f1 f2 (by rwa [ne_eq, ← val_eq_zero])
    (fun hm => by rcases f3 with h | ⟨h, _⟩
                  · exact h
                  · rw [hm] at h; cases h) (by omega)).1 h9
  have hle := mulFU_le a b
  have hF : unitsFor (min (fracDigits a + fracDigits b) (9 * mulFU a b)) = mulFU a b := by
    by_cases h : fracDigits a + fracDigits b ≤ 9 * mulFU a b
    · rw [Nat.min_eq_left h]
      have h1 : unitsFor (fracDigits a + fracDigits b) ≤ mulFU a b := by
        have := unitsFor_mono h; rwa [unitsFor_mul9] at this
      have h2 : mulFU a b ≤ unitsFor (fracDigits a + fracDigits b) := by unfold mulFU; omega
      omega
    · rw [Nat.min_eq_right (by omega), unitsFor_mul9]
  have hz : ∀ p, mulIU a b + mulFU a b ≤ p → dg l p = 0 := by
    intro p hp
    by_contra hne
    have h9p : p < 9 := by
      by_contra hc; exact hne (dg_out (by omega))
    have hpos : 0 < dg l p := by have := (c2.dig p).1; omega
    have h1 := psum_ge_of_pos c2.dig h9p hpos
    rw [c3] at h1
    have h2 : (1000000000 : Int) ^ (mulIU a b + mulFU a b) ≤ 1000000000 ^ p := pow_le_pow_right₀ (by norm_num) hp
    omega
  have b := built_wf (t := mulIU a b) (f := min (fracDigits a + fracDigits b) (9 * mulFU a b)) c1 c2 hF hsh.2 hz
  dsimp only at b
  obtain ⟨b1, b2, b3, b4, b5, b6, b7⟩ := b
  rw [c3] at b4
  rw [mulTo_nz m ha.toWF hb.toWF za zb, e]
  set d : FixedDecimal := ⟨BitVec.ofInt 8 ((9 * mulIU a b : Nat) : Int),
          ((min (fracDigits a + fracDigits b) (9 * mulFU a b) : Nat) : Int), l⟩ with hd
  have htight : Tight d := by
    apply tight_of_full b1 (by rw [b7, b2])
    rw [b3, b6, b4]
    by_cases h : fracDigits a + fracDigits b ≤ 9 * mulFU a b
    · rw [Nat.min_eq_left h]
      have hfull : MulFull a b := by unfold MulFull; rw [← hF, Nat.min_eq_left h]
      have hex := mulRes_exact ha hb hfull
      have da := ha.frac_ok
      have db := hb.frac_ok
      have dd := mul_dvd_mul da db
      rw [← pow_add, ← hex, pow9] at dd
      have e1 := fracDigits_le_fu a
      have e2 := fracDigits_le_fu b
      have : (9 * fu a - fracDigits a) + (9 * fu b - fracDigits b) =
          9 * mulShift a b + (9 * mulFU a b - (fracDigits a + fracDigits b)) := by unfold mulShift; omega
      rw [this, pow_add] at dd
      exact (mul_dvd_mul_iff_left (by positivity)).mp dd
    · rw [Nat.min_eq_right (by omega)]; simp
  have hav : absVal d = (mulRes a b : ℚ) / 10 ^ (9 * mulFU a b) := by unfold absVal; rw [b3, b4]
  have hfr : d.frac = min (a.frac + b.frac) (9 * mulFU a b : Nat) := by
    rw [ha.toWF.frac_eq, hb.toWF.frac_eq]; simp only [hd]; push_cast; rfl
  refine ⟨_, rfl, ?_⟩
  cases hs : (neg a != neg b)
  · simp only [Bool.false_eq_true, if_false, Bool.false_and]
    exact ⟨htight, hav, hfr, b5, b3, b7⟩
  · simp only [if_true, Bool.true_and]
    refine ⟨tight_setNegAndCheckZero htight, ?_, ?_, ?_, ?_, ?_⟩
    · by_cases hz0 : mant d = 0
      · rw [setNegAndCheckZero_of_zero b1 hz0, absVal_setPos, hav]
      · rw [setNegAndCheckZero_of_pos b1 hz0, absVal_setNeg, hav]
    · rw [frac_setNegAndCheckZero, hfr]
    · by_cases hz0 : mant d = 0
      · rw [setNegAndCheckZero_of_zero b1 hz0]; simp [val_eq_zero, hz0]
      · rw [setNegAndCheckZero_of_pos b1 hz0]; simp [val_eq_zero, hz0]
    · by_cases hz0 : mant d = 0
      · rw [setNegAndCheckZero_of_zero b1 hz0]; simp [b3]
      · rw [setNegAndCheckZero_of_pos b1 hz0]; simp [b3]
    · by_cases hz0 : mant d = 0
      · rw [setNegAndCheckZero_of_zero b1 hz0]; simp [b7]
      · rw [setNegAndCheckZero_of_pos b1 hz0]; simp [b7]

theorem mulTo_fail (m : Mode) {a b res : FixedDecimal} (ha : WF a) (hb : WF b) (hres : res.lsu.length = 9)
    (za : val a ≠ 0) (zb : val b ≠ 0) (hfit : ¬ MulFits m a b) :
    (∃ p, FixedDecimal.mulTo m a b res = .panic p) ∨
      (82 ≤ intgDigits a + intgDigits b ∧ intgDigits a + intgDigits b < 120 ∧ fracDigits a + fracDigits b < 120 ∧
        FixedDecimal.mulTo m a b res = .err .overflow FixedDecimal.zero) := by
  have za' : mant a ≠ 0 := by rwa [ne_eq, ← val_eq_zero]
  have zb' : mant b ≠ 0 := by rwa [ne_eq, ← val_eq_zero]
  rw [mulTo_nz m ha hb za zb]
  by_cases h120 : 120 ≤ intgDigits a + intgDigits b ∨ 120 ≤ fracDigits a + fracDigits b
  · left
    obtain ⟨p, hp⟩ := mulAbs_panic m ha hb res h120
    exact ⟨p, by rw [hp]; rfl⟩
  · push Not at h120
    by_cases h82 : 82 ≤ intgDigits a + intgDigits b
    · right
      refine ⟨h82, h120.1, h120.2, ?_⟩
      rw [mulAbs_overflow m ha hb hres h82 h120.1 h120.2]; rfl
    · left
      have hp := mulAbs_lowrow_panic m ha hb hres (by omega) h120.2 za' zb' (by
        unfold MulFits at hfit
        cases m
        · left; refine ⟨rfl, ?_⟩; by_contra hc; exact hfit ⟨by omega, h120.2, Or.inl (by omega)⟩
        · right; by_contra hc
          by_cases he : fu b = iu a + mulFU a b
          · exact hfit ⟨by omega, h120.2, Or.inr ⟨rfl, he⟩⟩
          · exact hfit ⟨by omega, h120.2, Or.inl (by omega)⟩)
      exact ⟨_, by rw [hp]; rfl⟩

theorem val_of_abs {r a b : FixedDecimal} (hw : WF r) (hn : neg r = ((neg a != neg b) && decide (val r ≠ 0))) :
    val r = if neg a != neg b then - absVal r else absVal r := by
  by_cases h0 : val r = 0
  · have : absVal r = 0 := by rw [← abs_val hw, h0, abs_zero]
    rw [h0, this]; simp
  · conv_lhs => unfold val
    rw [hn]; simp [h0]

theorem val_mul {a b : FixedDecimal} : val a * val b = if neg a != neg b then - (absVal a * absVal b) else absVal a * absVal b := by
  unfold val
  cases neg a <;> cases neg b <;> simp

namespace Props

/-- **C27.** When nothing is cut off, a successful multiplication is exact; digit counts stay truthful and the scale is
the sum of the scales. -/
theorem C27_mul_exact (m : Mode) {a b res r : FixedDecimal} (ha : Tight a) (hb : Tight b) (hres : res.lsu.length = 9)
    (hfull : MulFull a b) (h : FixedDecimal.mulTo m a b res = .ok r) :
    val r = val a * val b ∧ Tight r ∧ (val a ≠ 0 → val b ≠ 0 → r.frac = a.frac + b.frac) := by
  by_cases hz : val a = 0 ∨ val b = 0
  · rw [mulTo_zero m ha.toWF hb.toWF hres hz] at h
    injection h with h; subst h
    refine ⟨?_, tight_zero, ?_⟩
    · rw [val_zero]; rcases hz with hz | hz <;> rw [hz] <;> ring
    · intro h1 h2; rcases hz with hz | hz
      · exact absurd hz h1
      · exact absurd hz h2
  · push Not at hz
    by_cases hf : MulFits m a b
    · obtain ⟨r', e, t1, t2, t3, t4, -⟩ := mulTo_ok m ha hb hres hz.1 hz.2 hf
      rw [e] at h; injection h with h; subst h
      refine ⟨?_, t1, ?_⟩
      · rw [val_of_abs t1.toWF t4, val_mul, t2, ← mulRes_q, ← mant_mul_q, ← mulRes_exact ha hb hfull]
        push_cast; rfl
      · intro _ _
        rw [t3, ha.toWF.frac_eq, hb.toWF.frac_eq]
        unfold MulFull at hfull
        have : fracDigits a + fracDigits b ≤ 9 * mulFU a b := by rw [hfull]; unfold unitsFor; omega
        omega
    · rcases mulTo_fail m ha.toWF hb.toWF hres hz.1 hz.2 hf with ⟨p, hp⟩ | ⟨_, _, _, hp⟩ <;> rw [hp] at h <;> simp at h

/-- **C28.** Cut off or not, the magnitude of the result never exceeds that of the exact product and falls short of it by
less than `2 * (units of b)` units in the last kept place; the scale is as documented. -/
theorem C28_mul_trunc (m : Mode) {a b res r : FixedDecimal} (ha : Tight a) (hb : Tight b) (hres : res.lsu.length = 9)
    (za : val a ≠ 0) (zb : val b ≠ 0) (h : FixedDecimal.mulTo m a b res = .ok r) :
    |val r| ≤ |val a * val b| ∧
      |val a * val b| - |val r| < 2 * ((iu b + fu b : Nat) : ℚ) / 10 ^ (9 * mulFU a b) ∧
      r.frac = min (a.frac + b.frac) (9 * mulFU a b : Nat) ∧ Tight r := by
  by_cases hf : MulFits m a b
  · obtain ⟨r', e, t1, t2, t3, t4, -⟩ := mulTo_ok m ha hb hres za zb hf
    rw [e] at h; injection h with h; subst h
    have pa := absVal_nonneg ha.toWF
    have pb := absVal_nonneg hb.toWF
    rw [abs_val t1.toWF, abs_mul, abs_val ha.toWF, abs_val hb.toWF, t2, ← mulRes_q, ← mant_mul_q]
    obtain ⟨h0, h1, h2⟩ := mulRes_bounds ha.toWF hb.toWF
    have h1q : ((1000000000 ^ mulShift a b * mulRes a b : Int) : ℚ) ≤ ((mant a * mant b : Int) : ℚ) := by exact_mod_cast h1
    have h2q : ((mant a * mant b : Int) : ℚ) ≤
        ((1000000000 ^ mulShift a b * mulRes a b + (iu b + fu b : Nat) * (2 * 1000000000 ^ mulShift a b - 1) : Int) : ℚ) := by
      exact_mod_cast h2
    push_cast at h1q h2q
    have hp : (0 : ℚ) < 10 ^ (9 * (fu a + fu b)) := by positivity
    have hn : (0 : ℚ) < ((iu b + fu b : Nat) : ℚ) := by
      have : iu b + fu b ≠ 0 := by
        intro hc
        apply zb; rw [val_eq_zero]; unfold mant; rw [hc]; rfl
      exact_mod_cast Nat.pos_of_ne_zero this
    refine ⟨?_, ?_, t3, t1⟩
    · apply div_le_div_of_nonneg_right _ hp.le
      push_cast; exact h1q
    · rw [← sub_div, div_lt_div_iff₀ hp (by positivity)]
      have hle := mulFU_le a b
      have e9 : (10 : ℚ) ^ (9 * (fu a + fu b)) = 1000000000 ^ mulShift a b * 10 ^ (9 * mulFU a b) := by
        rw [pow9q, ← pow_add]; congr 1; unfold mulShift; omega
      rw [e9, ← mul_assoc]
      apply mul_lt_mul_of_pos_right _ (by positivity)
      push_cast at hn ⊢
      linarith
  · rcases mulTo_fail m ha.toWF hb.toWF hres za zb hf with ⟨p, hp⟩ | ⟨_, _, _, hp⟩ <;> rw [hp] at h <;> simp at h

/-- **C29.** Too many integral digits: `Err(Overflow)`, and the output parameter is left zero. -/
theorem C29_overflow (m : Mode) {a b res : FixedDecimal} (ha : WF a) (hb : WF b) (hres : res.lsu.length = 9)
    (za : val a ≠ 0) (zb : val b ≠ 0) (h : 82 ≤ intgDigits a + intgDigits b) (h' : intgDigits a + intgDigits b ≤ 119) :
    FixedDecimal.mulTo m a b res = .err .overflow FixedDecimal.zero := by
  have hfa := ha.fits
  have hfb := hb.fits
  have e1 := intgDigits_le_iu a
  have e2 := intgDigits_le_iu b
  have e3 := fracDigits_le_fu a
  have e4 := fracDigits_le_fu b
  rw [mulTo_nz m ha hb za zb, mulAbs_overflow m ha hb hres h (by omega) (by omega)]; rfl

/-- **C29.** With truthful digit counts the only error is that one. -/
theorem C29_err_iff (m : Mode) {a b res : FixedDecimal} (ha : Tight a) (hb : Tight b) (hres : res.lsu.length = 9) {e : Error}
    {st : FixedDecimal} : FixedDecimal.mulTo m a b res = .err e st ↔
      (val a ≠ 0 ∧ val b ≠ 0 ∧ 82 ≤ intgDigits a + intgDigits b ∧ intgDigits a + intgDigits b ≤ 119 ∧
        e = .overflow ∧ st = FixedDecimal.zero) := by
  constructor
  · intro h
    by_cases hz : val a = 0 ∨ val b = 0
    · rw [mulTo_zero m ha.toWF hb.toWF hres hz] at h; simp at h
    · push Not at hz
      by_cases hf : MulFits m a b
      · obtain ⟨r', e', -⟩ := mulTo_ok m ha hb hres hz.1 hz.2 hf
        rw [e'] at h; simp at h
      · rcases mulTo_fail m ha.toWF hb.toWF hres hz.1 hz.2 hf with ⟨p, hp⟩ | ⟨h1, h2, _, hp⟩
        · rw [hp] at h; simp at h
        · rw [hp] at h; injection h with h3 h4
          exact ⟨hz.1, hz.2, h1, by omega, h3.symm, h4.symm⟩
  · rintro ⟨h1, h2, h3, h4, rfl, rfl⟩
    exact C29_overflow m ha.toWF hb.toWF hres h1 h2 h3 h4

/-- 10^40 squared, 41 digits each: the error, and zero in the output, which held -7.50. -/
example : let a : FixedDecimal := ⟨41#8, 0, [0, 0, 0, 0, 10000, 0, 0, 0, 0]⟩
    Tight a ∧ val a ≠ 0 ∧ 82 ≤ intgDigits a + intgDigits a ∧ intgDigits a + intgDigits a ≤ 119 ∧
    FixedDecimal.mulTo m a a Samples.c = .err .overflow FixedDecimal.zero := by
  refine ⟨by decide, by rw [Ne, val_eq_zero]; decide, by decide, by decide, ?_⟩
  cases m <;> decide +kernel

/-- **C56.** The exact set of operand pairs a multiplication accepts. -/
theorem C56_mul_ok_iff (m : Mode) {a b res : FixedDecimal} (ha : Tight a) (hb : Tight b) (hres : res.lsu.length = 9) :
    (∃ r, FixedDecimal.mulTo m a b res = .ok r) ↔ val a = 0 ∨ val b = 0 ∨ MulFits m a b := by
  constructor
  · rintro ⟨r, h⟩
    by_contra hc
    push Not at hc
    rcases mulTo_fail m ha.toWF hb.toWF hres hc.1 hc.2.1 hc.2.2 with ⟨p, hp⟩ | ⟨_, _, _, hp⟩ <;> rw [hp] at h <;> simp at h
  · intro h
    by_cases hz : val a = 0 ∨ val b = 0
    · exact ⟨_, mulTo_zero m ha.toWF hb.toWF hres hz⟩
    · push Not at hz
      have hf : MulFits m a b := by
        rcases h with h | h | h
        · exact absurd h hz.1
        · exact absurd h hz.2
        · exact h
      obtain ⟨r, e, -⟩ := mulTo_ok m ha hb hres hz.1 hz.2 hf
      exact ⟨r, e⟩

/-- **C56** Without an integral unit in the left operand a small product can hit `debug_assert!`: `.5 * 1.5` panics in
debug builds and works in release builds. -/
theorem C56_debug_panic :
    let a : FixedDecimal := ⟨0#8, 1, [500000000, 0, 0, 0, 0, 0, 0, 0, 0]⟩
    let b : FixedDecimal := ⟨1#8, 1, [500000000, 1, 0, 0, 0, 0, 0, 0, 0]⟩
    FixedDecimal.fromStr .debug (Samples.bytes ".5") = .ok a ∧ FixedDecimal.fromStr .debug (Samples.bytes "1.5") = .ok b ∧
    FixedDecimal.mulTo .debug a b FixedDecimal.zero = .panic .assert ∧
    FixedDecimal.mulTo .release a b FixedDecimal.zero = .ok ⟨9#8, 2, [750000000, 0, 0, 0, 0, 0, 0, 0, 0]⟩ := by
  decide +kernel

/-- **C30.** The sign of a product, and no negative zero. -/
theorem C30_mul_sign (m : Mode) {a b res r : FixedDecimal} (ha : Tight a) (hb : Tight b) (hres : res.lsu.length = 9)
    (h : FixedDecimal.mulTo m a b res = .ok r) :
    (val r ≠ 0 → (neg r = true ↔ neg a ≠ neg b)) ∧ (val r = 0 → neg r = false) ∧
      ((val a = 0 ∨ val b = 0) → r = FixedDecimal.zero) := by
  by_cases hz : val a = 0 ∨ val b = 0
  · rw [mulTo_zero m ha.toWF hb.toWF hres hz] at h
    injection h with h; subst h
    exact ⟨fun h => absurd val_zero h, fun _ => rfl, fun _ => rfl⟩
  · have hz' := hz
    push Not at hz
    by_cases hf : MulFits m a b
    · obtain ⟨r', e, t1, t2, t3, t4, -⟩ := mulTo_ok m ha hb hres hz.1 hz.2 hf
      rw [e] at h; injection h with h; subst h
      refine ⟨fun h => ?_, fun h => ?_, fun h => absurd h hz'⟩
      · rw [t4]; simp [h]
      · rw [t4]; simp [h]
    · rcases mulTo_fail m ha.toWF hb.toWF hres hz.1 hz.2 hf with ⟨p, hp⟩ | ⟨_, _, _, hp⟩ <;> rw [hp] at h <;> simp at h

/-- 123456789012.345 * -7.50 = -925925917592.58750 -/
example : FixedDecimal.mulTo m Samples.a Samples.c FixedDecimal.zero =
      .ok ⟨0x92#8, 5, [587500000, 925917592, 925, 0, 0, 0, 0, 0, 0]⟩ ∧ MulFull Samples.a Samples.c ∧
      MulFits m Samples.a Samples.c ∧ Tight Samples.a ∧ Tight Samples.c := by
  cases m <;> decide +kernel

/-- A product that is cut off: 0.99999999999999999999 squared needs five fractional units, four are kept. -/
example : let a : FixedDecimal := ⟨1#8, 20, [990000000, 999999999, 999999999, 0, 0, 0, 0, 0, 0]⟩
    Tight a ∧ ¬ MulFull a a ∧ MulFits m a a ∧
    FixedDecimal.mulTo m a a FixedDecimal.zero = .ok ⟨9#8, 36, [999999999, 979999999, 999999999, 999999999, 0, 0, 0, 0, 0]⟩ := by
  cases m <;> decide +kernel

theorem mulFull_comm {a b : FixedDecimal} : MulFull a b ↔ MulFull b a := by
  unfold MulFull mulFU mulIU
  rw [Nat.add_comm (fracDigits b), Nat.add_comm (intgDigits b)]


/-- **C32.** One is neutral on both sides, when the operand has at most four fractional units and one more integral
digit still leaves room for them. -/
theorem C32_mul_one (m : Mode) {x res : FixedDecimal} (hx : Tight x) (hres : res.lsu.length = 9)
    (h4 : fu x ≤ 4) (h9 : unitsFor (intgDigits x + 1) + fu x ≤ 9) :
    (∃ r, FixedDecimal.mulTo m x FixedDecimal.one res = .ok r ∧ val r = val x ∧ Tight r) ∧
    (∃ r, FixedDecimal.mulTo m FixedDecimal.one x res = .ok r ∧ val r = val x ∧ Tight r) := by
  have t1 : Tight FixedDecimal.one := by decide
  have v1 : val FixedDecimal.one = 1 := by
    have h : mant FixedDecimal.one = 1 := by decide
    have h2 : neg FixedDecimal.one = false := by decide
    have h3 : fu FixedDecimal.one = 0 := by decide
    simp only [val, absVal, h, h2, h3]; norm_num
  have i1 : intgDigits FixedDecimal.one = 1 := by decide
  have f1 : fracDigits FixedDecimal.one = 0 := by decide
  have fu1 : fu FixedDecimal.one = 0 := by decide
  have iu1 : iu FixedDecimal.one = 1 := by decide
  have hfu : unitsFor (fracDigits x) = fu x := rfl
  have e1 : mulFU x FixedDecimal.one = fu x := by
    unfold mulFU mulIU; rw [i1, f1, Nat.add_zero, hfu]; omega
  have e2 : mulFU FixedDecimal.one x = fu x := by
    unfold mulFU mulIU; rw [i1, f1, Nat.zero_add, Nat.add_comm 1, hfu]; omega
  have full1 : MulFull x FixedDecimal.one := by unfold MulFull; rw [e1, f1, Nat.add_zero, hfu]
  have hfle := hx.toWF.frac_le
  have hi : intgDigits x + 1 ≤ 81 := by unfold unitsFor at h9; omega
  have ok1 : ∃ r, FixedDecimal.mulTo m x FixedDecimal.one res = .ok r := by
    rw [C56_mul_ok_iff m hx t1 hres]
    by_cases hz : val x = 0
    · exact Or.inl hz
    · right; right
      refine ⟨by rw [i1]; exact hi, by rw [f1]; omega, Or.inl ?_⟩
      rw [fu1, e1]
      by_contra hc
      apply hz; rw [val_eq_zero]; unfold mant
      rw [show iu x + fu x = 0 by omega]; rfl
  have ok2 : ∃ r, FixedDecimal.mulTo m FixedDecimal.one x res = .ok r := by
    rw [C56_mul_ok_iff m t1 hx hres]
    right; right
    refine ⟨by rw [i1]; omega, by rw [f1]; omega, Or.inl ?_⟩
    rw [iu1, e2]; omega
  obtain ⟨r, hr⟩ := ok1
  obtain ⟨r', hr'⟩ := ok2
  obtain ⟨a1, a2, -⟩ := C27_mul_exact m hx t1 hres full1 hr
  obtain ⟨b1, b2, -⟩ := C27_mul_exact m t1 hx hres (mulFull_comm.mp full1) hr'
  exact ⟨⟨r, hr, by rw [a1, v1, mul_one], a2⟩, ⟨r', hr', by rw [b1, v1, one_mul], b2⟩⟩

example : fu Samples.b ≤ 4 ∧ unitsFor (intgDigits Samples.b + 1) + fu Samples.b ≤ 9 ∧
    FixedDecimal.mulTo m Samples.b FixedDecimal.one FixedDecimal.zero =
      .ok ⟨0x89#8, 11, [750000000, 0, 0, 0, 0, 0, 0, 0, 0]⟩ := by
  cases m <;> decide +kernel

end Props
end Fxd
