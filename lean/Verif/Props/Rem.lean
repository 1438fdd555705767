import Verif.Proofs.RemVal
import Verif.Props.Div
/-!
# Properties C33, C34, C37, C38, C60: remainder

`truncRem`, `RemNoRoom` and `RemFull` are in `Verif/Spec/Remainder.lean`; `codeRem`, `RemGuessTooBig` and `RemAssert`, which
describe the long division in integers, in `Verif/Spec/LongDivision.lean`.
-/

namespace Fxd
open Spec

variable {m : Mode}

theorem remTo_eq {a b res : FixedDecimal} :
    FixedDecimal.remTo m a b res = (remAbs m a b res >>= fun y => .ok (signed (neg a) y)) := by
  unfold FixedDecimal.remTo signed
  simp only [isNeg_eq, bind_assoc']
  rfl

theorem remTo_ok_iff {a b res r : FixedDecimal} :
    FixedDecimal.remTo m a b res = .ok r ↔ ∃ q, remAbs m a b res = .ok q ∧ r = signed (neg a) q := by
  rw [remTo_eq, bind_eq_ok]
  constructor
  · rintro ⟨q, h, e⟩
    injection e with e
    exact ⟨q, h, e.symm⟩
  · rintro ⟨q, h, e⟩
    exact ⟨q, h, by rw [e]⟩

theorem remTo_of_panic {a b res : FixedDecimal} {p : Panic} (h : remAbs m a b res = .panic p) :
    FixedDecimal.remTo m a b res = .panic p := by
  rw [remTo_eq, h]; rfl

namespace Props

/-- **C33.** A remainder by zero is an error, whatever the dividend, and leaves zero in the output parameter. -/
theorem C33_rem_zero (m : Mode) {a b res : FixedDecimal} (ha : WF a) (hb : WF b) (hres : res.lsu.length = 9)
    (hz : val b = 0) : FixedDecimal.remTo m a b res = .err .divisionByZero FixedDecimal.zero := by
  rw [remTo_eq, remAbs_zero ha hb hres (val_eq_zero.mp hz)]
  rfl

/-- **C33.** And nothing else makes a remainder return an error. -/
theorem C33_rem_zero_only (m : Mode) {a b res s : FixedDecimal} (ha : WF a) (hb : WF b) (hres : res.lsu.length = 9)
    {e : Error} (h : FixedDecimal.remTo m a b res = .err e s) :
    val b = 0 ∧ e = .divisionByZero ∧ s = FixedDecimal.zero := by
  by_cases hz : val b = 0
  · rw [C33_rem_zero m ha hb hres hz] at h
    injection h with h1 h2
    exact ⟨hz, h1.symm, h2.symm⟩
  exfalso
  have zb := hz
  rw [val_eq_zero] at zb
  rw [remTo_eq] at h
  by_cases za : mant a = 0
  · rw [remAbs_of_zero ha hb hres zb za] at h; cases h
  rcases lt_trichotomy (absVal a) (absVal b) with hl | he | hg
  · rw [remAbs_lt ha hb hres za zb hl] at h
    split_ifs at h <;> cases h
  · rw [remAbs_eqv ha hb hres za zb he] at h; cases h
  · obtain ⟨g1, g2⟩ := remAbs_gt (m := m) ha hb hres za zb hg
    by_cases hc : RemFull a b ∧ LeadGe a b
    · rw [g1 hc] at h; cases h
    rcases g2 hc with ⟨-, -, p, ep, -⟩ | ⟨-, r, er, -⟩
    · rw [ep] at h; cases h
    · rw [er] at h; cases h

/-- **C34.** Zero modulo anything else is zero. -/
theorem C34_zero_rem (m : Mode) {a b res : FixedDecimal} (ha : WF a) (hb : WF b) (hres : res.lsu.length = 9)
    (za : val a = 0) (zb : val b ≠ 0) : FixedDecimal.remTo m a b res = .ok FixedDecimal.zero := by
  rw [Ne, val_eq_zero] at zb
  rw [remTo_eq, remAbs_of_zero ha hb hres zb (val_eq_zero.mp za)]
  cases neg a
  · rfl
  · decide

/-- The minus zero on either side. -/
example : WF Samples.nz ∧ WF Samples.c ∧ val Samples.nz = 0 ∧ val Samples.c ≠ 0 ∧
    FixedDecimal.remTo m Samples.nz Samples.c Samples.a = .ok FixedDecimal.zero ∧
    FixedDecimal.remTo m Samples.c Samples.nz Samples.a = .err .divisionByZero FixedDecimal.zero := by
  refine ⟨by decide, by decide, ?_, ?_, ?_, ?_⟩
  · rw [val_eq_zero]; decide
  · rw [Ne, val_eq_zero]; decide
  · cases m <;> decide +kernel
  · cases m <;> decide +kernel

/-- **C37**, the part that holds of every remainder, correction step or not: well-formed, smaller in magnitude than the
divisor, never a negative zero, otherwise signed like the dividend, and (unless the dividend is zero or equal in magnitude
to the divisor) with the larger of the two scales. -/
theorem C37_bounded (m : Mode) {a b res r : FixedDecimal} (ha : WF a) (hb : WF b) (hres : res.lsu.length = 9)
    (h : FixedDecimal.remTo m a b res = .ok r) :
    WF r ∧ |val r| < |val b| ∧ (neg r = true ↔ neg a = true ∧ val r ≠ 0) ∧
      (val a ≠ 0 → |val a| ≠ |val b| → fracDigits r = max (fracDigits a) (fracDigits b)) := by
  obtain ⟨q, hq, rfl⟩ := remTo_ok_iff.mp h
  obtain ⟨zb, w, hn, hlt, -, hfr, -⟩ := remAbs_ok ha hb hres hq
  have hw : WF (signed (neg a) q) := signed_wf w
  refine ⟨hw, ?_, ?_, fun h1 h2 => ?_⟩
  · rw [abs_val hw, abs_val hb, signed_absVal]; exact hlt
  · rw [signed_neg hn, Ne, ← isZero_val hw]
    unfold FixedDecimal.isZero
    rw [List.all_eq_true]
    simp
  · rw [abs_val ha, abs_val hb] at h2
    rw [Ne, val_eq_zero] at h1
    unfold fracDigits at hfr ⊢
    rw [signed_frac]
    exact hfr h1 h2

/-- **C37**, complete description of the code: the value of *every* remainder that is returned, right or wrong. -/
theorem C37_code (m : Mode) {a b res r : FixedDecimal} (ha : WF a) (hb : WF b) (hres : res.lsu.length = 9)
    (h : FixedDecimal.remTo m a b res = .ok r) :
    val r = (if neg a then -1 else 1) * codeRem a b / 10 ^ (9 * max (fu a) (fu b)) := by
  obtain ⟨q, hq, rfl⟩ := remTo_ok_iff.mp h
  obtain ⟨-, w, hneg, -, -, -, -, -, hc⟩ := remAbs_ok ha hb hres hq
  rw [signed_val hneg, hc]
  cases neg a <;> simp [neg_div]

/-- **C37** (partial: without a guess that is too large, whose correction the code gets wrong). The result is the
truncated remainder, exactly. -/
theorem C37_exact_partial (m : Mode) {a b res r : FixedDecimal} (ha : WF a) (hb : WF b) (hres : res.lsu.length = 9)
    (hn : ¬ RemGuessTooBig a b) (h : FixedDecimal.remTo m a b res = .ok r) : val r = truncRem (val a) (val b) := by
  obtain ⟨q, hq, rfl⟩ := remTo_ok_iff.mp h
  obtain ⟨zb, w, hneg, hlt, hv, -⟩ := remAbs_ok ha hb hres hq
  rw [signed_val hneg, truncRem_val, hv hn]

/-- When that is, in closed form: some place `j` at which the quotient of the leading parts exceeds the quotient. -/
theorem C37_guess_iff {a b : FixedDecimal} (ha : WF a) (hb : WF b) (za : val a ≠ 0) (zb : val b ≠ 0) (h : |val b| < |val a|)
    (ht : topUnit b ≠ 0) :
    RemGuessTooBig a b ↔ ∃ j < remUnits a b, TooBig (normFac b * remB a b) (1000000000 ^ (remTop a b - 1))
      (normFac b * remA a b / 1000000000 ^ j % (normFac b * remB a b * 1000000000)) := by
  rw [abs_val ha, abs_val hb] at h
  rw [Ne, val_eq_zero] at za zb
  have hgt : remB a b < remA a b := by
    rcases lt_trichotomy (remA a b) (remB a b) with h' | h' | h'
    · exact absurd (remA_lt_remB.mp h') (by linarith [h])
    · exact absurd (remA_eq_remB.mp h') (ne_of_gt h)
    · exact h'
  obtain ⟨nl, -, tl, -⟩ := findNonZero_of_ne ha za
  obtain ⟨nr, -, tr, -⟩ := findNonZero_of_ne hb zb
  have hbp : 0 < mant b := tr.mant_pos hb
  obtain ⟨f0, f1, f2, f3⟩ := norm_div hb tr (normFac_eq hb tr)
  have hB : 0 < remB a b := by unfold remB; positivity
  have hA : 0 ≤ remA a b := by unfold remA; have := ha.mant_nonneg; positivity
  have hlead := div_lead ha hb tl tr
  have hn := remUnits_eq ha hb tl tr hgt
  unfold RemGuessTooBig remWindows
  rw [and_iff_right (show RemLong a b from ⟨ht, hgt⟩)]
  refine tooBig_windows (by positivity) _ _ (by positivity) ?_
  unfold remA remB
  refine lt_of_mul_lt_mul_right (a := (1000000000 : Int) ^ nr) ?_ (by positivity)
  have hsplit : (1000000000 : Int) ^ (fu a - fu b) * 1000000000 ^ remUnits a b * 1000000000 ^ nr =
      1000000000 ^ (fu b - fu a) * 1000000000 ^ ((nl : Int) + 1 + divSh a b nl nr).toNat := by
    have := divSh_cases a b nl nr
    rw [← pow_add, ← pow_add, ← pow_add]; congr 1; omega
  calc normFac b * (mant a * 1000000000 ^ (fu b - fu a)) * 1000000000 ^ nr =
        normFac b * 1000000000 ^ (fu b - fu a) * (mant a * 1000000000 ^ nr) := by ring
    _ < normFac b * 1000000000 ^ (fu b - fu a) * (mant b * 1000000000 ^ ((nl : Int) + 1 + divSh a b nl nr).toNat) :=
        mul_lt_mul_of_pos_left hlead (by positivity)
    _ = normFac b * mant b * (1000000000 ^ (fu b - fu a) * 1000000000 ^ ((nl : Int) + 1 + divSh a b nl nr).toNat) := by ring
    _ = _ := by rw [← hsplit]; ring

/-- **C37** for divisors of at most two significant units (in particular mantissas below 10^18, see `twoUnits_of_lt`):
no guess is ever too large, so the remainder is exact whenever it is returned. -/
theorem C37_two_units_partial (m : Mode) {a b res r : FixedDecimal} (ha : WF a) (hb : WF b) (hres : res.lsu.length = 9)
    (h2 : TwoUnits b) (h : FixedDecimal.remTo m a b res = .ok r) : val r = truncRem (val a) (val b) :=
  C37_exact_partial m ha hb hres (not_tooBig_two h2) h

/-- The truncated remainder is what the property asks for: `x` minus a whole multiple of `y`, below `|y|`, signed
like `x`. -/
theorem truncRem_spec (x : ℚ) {y : ℚ} (hy : y ≠ 0) :
    (∃ k : ℤ, x - truncRem x y = k * y) ∧ |truncRem x y| < |y| ∧ 0 ≤ x * truncRem x y := by
  have key : ∀ x y : ℚ, 0 ≤ x → 0 < y → 0 ≤ truncRem x y ∧ truncRem x y < y := by
    intro x y hx hy
    unfold truncRem truncZ
    rw [if_neg (by rw [not_lt]; positivity)]
    have h1 := Int.floor_le (x / y)
    have h2 := Int.lt_floor_add_one (x / y)
    rw [le_div_iff₀ hy] at h1
    rw [div_lt_iff₀ hy] at h2
    constructor <;> linarith
  refine ⟨⟨truncZ (x / y), by unfold truncRem; ring⟩, ?_⟩
  have hy' : ∀ x : ℚ, truncRem x y = truncRem x |y| := by
    intro x
    rcases abs_choice y with h | h <;> rw [h]
    rw [truncRem_neg_right]
  rw [hy' x]
  rcases le_or_gt 0 x with hx | hx
  · obtain ⟨k1, k2⟩ := key x |y| hx (abs_pos.mpr hy)
    rw [abs_of_nonneg k1]
    exact ⟨k2, by positivity⟩
  · obtain ⟨k1, k2⟩ := key (-x) |y| (by linarith) (abs_pos.mpr hy)
    rw [truncRem_neg_left] at k1 k2
    rw [abs_of_nonpos (by linarith)]
    exact ⟨k2, by nlinarith⟩

/-- 123456789012.345 % -7.50 = 4.845 (two units); -7.50 % -0.00000000075 = 0 (one unit). -/
example : TwoUnits Samples.c ∧ ¬ RemGuessTooBig Samples.a Samples.c ∧
    FixedDecimal.remTo m Samples.a Samples.c FixedDecimal.zero = .ok ⟨1#8, 3, [845000000, 4, 0, 0, 0, 0, 0, 0, 0]⟩ ∧
    TwoUnits Samples.b ∧
    FixedDecimal.remTo m Samples.c Samples.b FixedDecimal.zero = .ok ⟨0#8, 11, [0, 0, 0, 0, 0, 0, 0, 0, 0]⟩ := by
  refine ⟨by decide +kernel, by decide +kernel, ?_, by decide +kernel, ?_⟩ <;>
  cases m <;> decide +kernel

/-- A divisor of four units, no guess too large: 999999999500000000000000000000000007 modulo 2000000003000000004.000000123, two steps. -/
example : let a : FixedDecimal := ⟨36#8, 0, [7, 0, 500000000, 999999999, 0, 0, 0, 0, 0]⟩
    let b : FixedDecimal := ⟨19#8, 9, [123, 4, 3, 2, 0, 0, 0, 0, 0]⟩
    RemLong a b ∧ remUnits a b = 2 ∧ ¬ TwoUnits b ∧ ¬ RemGuessTooBig a b := by decide +kernel

/-- **C37** is false of this code: 1500000000000000002999999996 % 500000000000000000999999999 is
500000000000000000999999998, but the code returns 1, in debug and release builds. -/
theorem C37_witness_addback (m : Mode) :
    let a : FixedDecimal := ⟨28#8, 0, [999999996, 2, 500000000, 1, 0, 0, 0, 0, 0]⟩
    FixedDecimal.fromStr m (Samples.bytes "1500000000000000002999999996") = .ok a ∧
    FixedDecimal.fromStr m (Samples.bytes "500000000000000000999999999") = .ok wB ∧
    FixedDecimal.remTo m a wB FixedDecimal.zero = .ok FixedDecimal.one ∧
    truncRem (val a) (val wB) = 500000000000000000999999998 ∧ RemGuessTooBig a wB ∧ codeRem a wB = 1 := by
  refine ⟨?_, ?_, ?_, ?_, by decide +kernel, by decide +kernel⟩
  · cases m <;> decide +kernel
  · cases m <;> decide +kernel
  · cases m <;> decide +kernel
  · rw [truncRem_val]
    have h1 : neg ⟨28#8, 0, [999999996, 2, 500000000, 1, 0, 0, 0, 0, 0]⟩ = false := by decide
    have h2 : remA ⟨28#8, 0, [999999996, 2, 500000000, 1, 0, 0, 0, 0, 0]⟩ wB = 1500000000000000002999999996 := by
      decide +kernel
    have h3 : remB ⟨28#8, 0, [999999996, 2, 500000000, 1, 0, 0, 0, 0, 0]⟩ wB = 500000000000000000999999999 := by
      decide +kernel
    rw [h1, absVal_remA (b := wB), absVal_remB (a := ⟨28#8, 0, [999999996, 2, 500000000, 1, 0, 0, 0, 0, 0]⟩) (b := wB),
      truncRem_scaled (by rw [h2]; norm_num) (by rw [h3]; norm_num) (by positivity), h2, h3]
    have h4 : max (fu ⟨28#8, 0, [999999996, 2, 500000000, 1, 0, 0, 0, 0, 0]⟩) (fu wB) = 0 := by decide
    rw [h4]; norm_num

/-- **C38.** A dividend smaller than the divisor is returned with the same value (and the larger scale); whenever its
digits can be aligned at all, which is always so if its digit count has no leading zeros. -/
theorem C38_smaller (m : Mode) {a b res : FixedDecimal} (ha : WF a) (hb : WF b) (hres : res.lsu.length = 9)
    (za : val a ≠ 0) (h : |val a| < |val b|) (hr : ¬ RemNoRoom a b) :
    ∃ r, FixedDecimal.remTo m a b res = .ok r ∧ WF r ∧ val r = val a ∧
      fracDigits r = max (fracDigits a) (fracDigits b) ∧ intgDigits r = intgDigits a := by
  rw [abs_val ha, abs_val hb] at h
  rw [Ne, val_eq_zero] at za
  have zb : mant b ≠ 0 := by
    intro hc
    have h0 : absVal b = 0 := by unfold absVal; rw [hc]; simp
    rw [h0] at h
    have h1 : (0 : ℚ) ≤ absVal a := by
      unfold absVal; have : (0 : ℚ) ≤ mant a := by exact_mod_cast ha.mant_nonneg
      positivity
    linarith
  have e := remAbs_lt (m := m) ha hb hres za zb h
  rw [if_neg hr] at e
  obtain ⟨w1, w2, w3, w4, w5⟩ := remCopy_spec ha hb hr
  obtain ⟨-, -, -, -, hv, -⟩ := remAbs_ok ha hb hres e
  refine ⟨_, remTo_ok_iff.mpr ⟨_, e, rfl⟩, signed_wf w1, ?_, ?_, ?_⟩
  · rw [signed_val w2]
    have hfu : fu (remCopy a b) = max (fu a) (fu b) := by unfold fu; rw [w3, unitsFor_max]
    have : absVal (remCopy a b) = absVal a := by
      rw [absVal_remA (a := a) (b := b)]; unfold absVal; rw [hfu, w4]
    rw [this]; rfl
  · unfold fracDigits at w3 ⊢; rw [signed_frac]; exact w3
  · rw [signed_intgDigits]; exact w5

/-- **C38.** No leading zeros in the digit count of the dividend: then there is always room. -/
theorem C38_room {a b : FixedDecimal} (ha : WF a) (hb : WF b) (h : |val a| < |val b|)
    (hlead : intgDigits a = 0 ∨ (10 : ℚ) ^ (intgDigits a - 1) ≤ |val a|) : ¬ RemNoRoom a b := by
  rintro ⟨h1, h2⟩
  have hfb := hb.fits
  have hi : iu b < iu a := by omega
  have hia : 9 * (iu a - 1) < intgDigits a := by
    unfold iu unitsFor at hi ⊢; omega
  rcases hlead with h0 | hl
  · omega
  have hb2 : |val b| < 10 ^ (9 * iu b) := by
    rw [abs_val hb]
    unfold absVal
    rw [div_lt_iff₀ (by positivity), ← pow_add, show 9 * iu b + 9 * fu b = 9 * (iu b + fu b) by ring, ← pow9q]
    have := hb.mant_lt
    exact_mod_cast this
  have : (10 : ℚ) ^ (9 * iu b) ≤ 10 ^ (intgDigits a - 1) := pow_le_pow_right₀ (by norm_num) (by omega)
  linarith

/-- **C38.** Equal magnitudes leave zero. -/
theorem C38_equal (m : Mode) {a b res : FixedDecimal} (ha : WF a) (hb : WF b) (hres : res.lsu.length = 9)
    (zb : val b ≠ 0) (h : |val a| = |val b|) : FixedDecimal.remTo m a b res = .ok FixedDecimal.zero := by
  have za : val a ≠ 0 := by
    intro hc; rw [hc, abs_zero] at h; exact zb (abs_eq_zero.mp h.symm)
  rw [abs_val ha, abs_val hb] at h
  rw [Ne, val_eq_zero] at za zb
  rw [remTo_eq, remAbs_eqv ha hb hres za zb h]
  cases neg a
  · rfl
  · decide

/-- -7.50 % 123456789012.345 = -7.500; 123456789012.345 % -123456789012.345 = 0. -/
example : ¬ RemNoRoom Samples.c Samples.a ∧
    FixedDecimal.remTo m Samples.c Samples.a FixedDecimal.zero = .ok ⟨0x81#8, 3, [500000000, 7, 0, 0, 0, 0, 0, 0, 0]⟩ ∧
    FixedDecimal.remTo m Samples.a Samples.a.setNeg FixedDecimal.zero = .ok FixedDecimal.zero := by
  refine ⟨by decide, ?_, ?_⟩ <;> cases m <;> decide +kernel

/-- **C38** needs the room: a value 1 whose digit count says ten integral digits and a divisor with 72 fractional digits
cannot be aligned; the copy goes past the ninth unit and panics. -/
theorem C38_witness_no_room (m : Mode) :
    let a : FixedDecimal := ⟨10#8, 0, [1, 0, 0, 0, 0, 0, 0, 0, 0]⟩
    let b : FixedDecimal := ⟨1#8, 72, [1, 0, 0, 0, 0, 0, 0, 0, 2]⟩
    WF a ∧ WF b ∧ RemNoRoom a b ∧ FixedDecimal.remTo m a b FixedDecimal.zero = .panic .index := by
  cases m <;> decide +kernel

/-- **C60.** Exactly which remainders a release build computes (both operands non-zero). -/
theorem C60_release_ok_iff {a b res : FixedDecimal} (ha : WF a) (hb : WF b) (hres : res.lsu.length = 9)
    (za : val a ≠ 0) (zb : val b ≠ 0) :
    (∃ r, FixedDecimal.remTo .release a b res = .ok r) ↔
      ¬ (|val a| < |val b| ∧ RemNoRoom a b) ∧ ¬ (|val b| < |val a| ∧ RemFull a b ∧ LeadGe a b) := by
  rw [abs_val ha, abs_val hb]
  rw [Ne, val_eq_zero] at za zb
  have conv : (∃ r, FixedDecimal.remTo .release a b res = .ok r) ↔ ∃ y, remAbs .release a b res = .ok y := by
    constructor
    · rintro ⟨r, h⟩
      obtain ⟨q, hq, -⟩ := remTo_ok_iff.mp h
      exact ⟨_, hq⟩
    · rintro ⟨q, h⟩
      exact ⟨_, remTo_ok_iff.mpr ⟨q, h, rfl⟩⟩
  rw [conv]
  rcases lt_trichotomy (absVal a) (absVal b) with hl | he | hg
  · rw [remAbs_lt ha hb hres za zb hl]
    by_cases hr : RemNoRoom a b
    · rw [if_pos hr]; simp [hl, hr]
    · rw [if_neg hr]; simp [hr, hl.le, hl.not_gt]
  · rw [remAbs_eqv ha hb hres za zb he]; simp [he]
  · obtain ⟨g1, g2⟩ := remAbs_gt (m := .release) ha hb hres za zb hg
    by_cases hc : RemFull a b ∧ LeadGe a b
    · rw [g1 hc]; simp [hg, hc]
    · rcases g2 hc with ⟨h, -⟩ | ⟨-, r, er, -⟩
      · cases h
      · rw [er]
        simp only [Out.ok.injEq, exists_eq', true_iff]
        exact ⟨fun h => absurd h.1 hg.not_gt, fun h => hc h.2⟩

/-- **C60.** Exactly which remainders a debug build computes: neither the two cases above, nor the whole of the second one
(the check at the end reads past the buffer), nor a failing assertion of the long division. -/
theorem C60_debug_ok_iff {a b res : FixedDecimal} (ha : WF a) (hb : WF b) (hres : res.lsu.length = 9)
    (za : val a ≠ 0) (zb : val b ≠ 0) :
    (∃ r, FixedDecimal.remTo .debug a b res = .ok r) ↔
      ¬ (|val a| < |val b| ∧ RemNoRoom a b) ∧ ¬ (|val b| < |val a| ∧ (RemAssert a b ∨ RemFull a b)) := by
  rw [abs_val ha, abs_val hb]
  rw [Ne, val_eq_zero] at za zb
  have conv : (∃ r, FixedDecimal.remTo .debug a b res = .ok r) ↔ ∃ y, remAbs .debug a b res = .ok y := by
    constructor
    · rintro ⟨r, h⟩
      obtain ⟨q, hq, -⟩ := remTo_ok_iff.mp h
      exact ⟨_, hq⟩
    · rintro ⟨q, h⟩
      exact ⟨_, remTo_ok_iff.mpr ⟨q, h, rfl⟩⟩
  rw [conv]
  rcases lt_trichotomy (absVal a) (absVal b) with hl | he | hg
  · rw [remAbs_lt ha hb hres za zb hl]
    by_cases hr : RemNoRoom a b
    · rw [if_pos hr]; simp [hl, hr]
    · rw [if_neg hr]; simp [hr, hl.le, hl.not_gt]
  · rw [remAbs_eqv ha hb hres za zb he]; simp [he]
  · obtain ⟨g1, g2⟩ := remAbs_gt (m := .debug) ha hb hres za zb hg
    by_cases hc : RemFull a b ∧ LeadGe a b
    · rw [g1 hc]; simp [hg, hc.1]
    · rcases g2 hc with ⟨-, hbad, p, ep, -⟩ | ⟨hno, r, er, -⟩
      · rw [ep]; simp [hg, hbad]
      · rw [er]
        simp only [Out.ok.injEq, exists_eq', true_iff]
        exact ⟨fun h => absurd h.1 hg.not_gt, fun h => hno ⟨rfl, h.2⟩⟩

/-- Both assertions of C60 do fail: a first guess of 10^9, and a wrong correction whose result cannot be divided by the
normalisation factor. -/
example :
    let a : FixedDecimal := ⟨27#8, 0, [0, 0, 500000000, 0, 0, 0, 0, 0, 0]⟩
    let b : FixedDecimal := ⟨18#8, 0, [1, 500000000, 0, 0, 0, 0, 0, 0, 0]⟩
    let c : FixedDecimal := ⟨36#8, 0, [999999995, 999999996, 2, 750000000, 0, 0, 0, 0, 0]⟩
    let d : FixedDecimal := ⟨27#8, 0, [999999999, 0, 250000000, 0, 0, 0, 0, 0, 0]⟩
    RemGuessWide a b ∧ FixedDecimal.remTo .debug a b FixedDecimal.zero = .panic .assert ∧
    ¬ RemGuessWide c d ∧ RemAssert c d ∧ FixedDecimal.remTo .debug c d FixedDecimal.zero = .panic .assert := by
  decide +kernel

/-- **C60.** In debug builds: one-unit divisors never panic in the division itself. -/
theorem C60_short_ok (m : Mode) {a b res : FixedDecimal} (ha : WF a) (hb : WF b) (hres : res.lsu.length = 9)
    (zb : val b ≠ 0) (h1 : mant b < 1000000000) (hr : ¬ (|val a| < |val b| ∧ RemNoRoom a b)) :
    ∃ r, FixedDecimal.remTo m a b res = .ok r ∧ val r = truncRem (val a) (val b) := by
  have ht : topUnit b = 0 := one_unit_top hb h1
  have h2 : TwoUnits b := by unfold TwoUnits; rw [ht]; simp
  suffices hs : ∃ r, FixedDecimal.remTo m a b res = .ok r by
    obtain ⟨r, e⟩ := hs
    exact ⟨r, e, C37_two_units_partial m ha hb hres h2 e⟩
  rw [abs_val ha, abs_val hb] at hr
  by_cases za : val a = 0
  · exact ⟨_, C34_zero_rem m ha hb hres za zb⟩
  rw [Ne, val_eq_zero] at zb
  rw [val_eq_zero] at za
  suffices hs : ∃ y, remAbs m a b res = .ok y by
    obtain ⟨q, e⟩ := hs
    exact ⟨_, remTo_ok_iff.mpr ⟨q, e, rfl⟩⟩
  rcases lt_trichotomy (absVal a) (absVal b) with hl | he | hg
  · rw [remAbs_lt ha hb hres za zb hl, if_neg (fun hc => hr ⟨hl, hc⟩)]; exact ⟨_, rfl⟩
  · rw [remAbs_eqv ha hb hres za zb he]; exact ⟨_, rfl⟩
  · obtain ⟨g1, g2⟩ := remAbs_gt (m := m) ha hb hres za zb hg
    rcases g2 (fun hc => hc.1.1 ht) with ⟨-, -, p, -, -, hp⟩ | ⟨-, r, er, -⟩
    · exact absurd ht hp
    · exact ⟨_, er⟩

/-- The scratch buffer overrun of C60 and its debug-only variant (line 900 of the code reads one unit past the buffer). -/
example :
    let a : FixedDecimal := ⟨81#8, 0, [0, 0, 0, 0, 0, 0, 0, 0, 100000000]⟩
    let b : FixedDecimal := ⟨0#8, 81, [1, 0, 0, 0, 0, 0, 0, 1, 0]⟩
    let c : FixedDecimal := ⟨0#8, 81, [1, 0, 0, 0, 0, 0, 0, 200000000, 0]⟩
    WF a ∧ WF b ∧ WF c ∧ RemFull a b ∧ LeadGe a b ∧ FixedDecimal.remTo .release a b FixedDecimal.zero = .panic .index ∧
    RemFull a c ∧ ¬ LeadGe a c ∧
    FixedDecimal.remTo .release a c FixedDecimal.zero =
      .ok ⟨0#8, 81, [1, 500000000, 999999997, 999999999, 999999999, 999999999, 999999999, 199999999, 0]⟩ ∧
    FixedDecimal.remTo .debug a c FixedDecimal.zero = .panic .index := by
  decide +kernel

end Props
end Fxd
