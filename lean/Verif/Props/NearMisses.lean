import Verif.Props.DebugQuotients
/-!
# Property C121: which remainders and quotients can be wrong at all

The division goes wrong when a guessed quotient unit is one too large (C36, C37).  That can be read off the exact quotient of the two
operands: at some place of nine digits it must lie just below a whole number, by less than two parts in a thousand million, and by
less the smaller the quotient unit is.
-/

namespace Fxd
open Spec

variable {m : Mode}

namespace Props

/-- `x` lies below a whole number by at most `2 · 10^-18` times one more than the last nine digits of its whole part. -/
def NearMiss (x : ℚ) : Prop := 1 - Int.fract x ≤ 2 * ((⌊x⌋ % 1000000000 : ℤ) + 1) / 10 ^ 18

/-- Never by more than two parts in a thousand million. -/
theorem NearMiss.close {x : ℚ} (h : NearMiss x) : 1 - 2 / 10 ^ 9 ≤ Int.fract x := by
  unfold NearMiss at h
  have h1 : ⌊x⌋ % 1000000000 < 1000000000 := Int.emod_lt_of_pos _ (by norm_num)
  have h2 : ((⌊x⌋ % 1000000000 : ℤ) : ℚ) + 1 ≤ 1000000000 := by exact_mod_cast h1
  have : 2 * (((⌊x⌋ % 1000000000 : ℤ) : ℚ) + 1) / 10 ^ 18 ≤ 2 / 10 ^ 9 := by
    rw [div_le_div_iff₀ (by norm_num) (by norm_num)]; linarith
  linarith

/-- A guess that is too large shows in the exact quotient. -/
theorem tooBig_nearMiss {R P V : Int} {j : Nat} (hP : 0 < P) (hR : 500000000000000000 * P ≤ R)
    (h : TooBig R P (V / 1000000000 ^ j % (R * 1000000000))) : NearMiss ((V : ℚ) / R / 1000000000 ^ j) := by
  have hR0 : 0 < R := by linarith
  have hj : (0 : Int) < 1000000000 ^ j := by positivity
  have hRq : (0 : ℚ) < R := by exact_mod_cast hR0
  have hjq : (0 : ℚ) < 1000000000 ^ j := by positivity
  set N := V / 1000000000 ^ j with hN
  have hfl : ⌊(V : ℚ) / R / 1000000000 ^ j⌋ = N / R := by
    rw [hN, Int.ediv_ediv_of_nonneg hj.le, Int.floor_eq_iff]
    have e := Int.emod_add_mul_ediv V (1000000000 ^ j * R)
    have l1 := Int.emod_nonneg V (mul_pos hj hR0).ne'
    have l2 := Int.emod_lt_of_pos V (mul_pos hj hR0)
    rw [div_div, le_div_iff₀ (by positivity), div_lt_iff₀ (by positivity)]
    constructor
    · have : V / (1000000000 ^ j * R) * (R * 1000000000 ^ j) ≤ V := by nlinarith
      exact_mod_cast this
    · have : V < (V / (1000000000 ^ j * R) + 1) * (R * 1000000000 ^ j) := by nlinarith
      exact_mod_cast this
  have hm : N % (R * 1000000000) % R = N % R := Int.emod_emod_of_dvd _ (Dvd.intro _ rfl)
  have hd : N % (R * 1000000000) / R = N / R % 1000000000 := by
    have l1 := Int.emod_nonneg N (show R * 1000000000 ≠ 0 by positivity)
    have l2 := Int.emod_lt_of_pos N (show 0 < R * 1000000000 by positivity)
    have e : N / R = N % (R * 1000000000) / R + 1000000000 * (N / (R * 1000000000)) := by
      conv_lhs => rw [← Int.emod_add_mul_ediv N (R * 1000000000), mul_assoc]
      rw [Int.add_mul_ediv_left _ _ hR0.ne']
    rw [e, Int.add_mul_emod_self_left, Int.emod_eq_of_lt (Int.ediv_nonneg l1 hR0.le)
      (Int.ediv_lt_of_lt_mul hR0 (by linarith))]
  have hW := Int.lt_ediv_add_one_mul_self (N % (R * 1000000000)) hR0
  have hq0 : 0 ≤ N / R % 1000000000 := Int.emod_nonneg _ (by norm_num)
  obtain ⟨-, d⟩ := miss_distance hP (by linarith) (B := N / R % 1000000000 + 1) (by linarith)
    (by rw [hd] at hW; linarith) h
  rw [hm] at d
  unfold NearMiss Int.fract
  rw [hfl]
  have e := Int.emod_add_mul_ediv N R
  have hNV : N * 1000000000 ^ j ≤ V := Int.ediv_mul_le _ hj.ne'
  have key : (R * 1000000000 ^ j * (N / R + 1) - V) * 500000000000000000 ≤ R * 1000000000 ^ j * (N / R % 1000000000 + 1) := by
    have k1 : R * 1000000000 ^ j * (N / R + 1) - V ≤ 1000000000 ^ j * (R - N % R) := by nlinarith
    have k2 : 1000000000 ^ j * (R - N % R) ≤ 1000000000 ^ j * ((N / R % 1000000000 + 1) * P) :=
      mul_le_mul_of_nonneg_left d hj.le
    have k3 : 1000000000 ^ j * ((N / R % 1000000000 + 1) * (500000000000000000 * P)) ≤
        1000000000 ^ j * ((N / R % 1000000000 + 1) * R) :=
      mul_le_mul_of_nonneg_left (mul_le_mul_of_nonneg_left hR (by linarith)) hj.le
    linarith
  have keyq : ((R : ℚ) * 1000000000 ^ j * ((N / R : ℤ) + 1) - V) * 500000000000000000 ≤
      R * 1000000000 ^ j * ((N / R % 1000000000 : ℤ) + 1) := by exact_mod_cast key
  generalize ((N / R % 1000000000 : ℤ) : ℚ) = u at *
  generalize ((N / R : ℤ) : ℚ) = w at *
  rw [show 1 - ((V : ℚ) / R / 1000000000 ^ j - w) = (R * 1000000000 ^ j * (w + 1) - V) / (R * 1000000000 ^ j) by
    field_simp; ring, div_le_div_iff₀ (by positivity) (by norm_num)]
  linarith

/-- The leading quotient unit of a long division is not zero. -/
theorem lead_pos {a b : FixedDecimal} (ha : WF a) (hb : WF b) (za : mant a ≠ 0) (zb : mant b ≠ 0) :
    mant b * 1000000000 ^ topUnit a ≤ mant a * 1000000000 ^ (topUnit b + if LeadGe a b then 0 else 1) := by
  by_cases hg : LeadGe a b
  · rw [if_pos hg]; exact hg
  · rw [if_neg hg]
    have hA := ha.mant_nonneg
    have hB := hb.mant_nonneg
    have h1 : 1000000000 ^ topUnit a ≤ (mant a).toNat := Nat.pow_log_le_self _ (by omega)
    have h2 : (mant b).toNat < 1000000000 ^ (topUnit b + 1) := Nat.lt_pow_succ_log_self (by norm_num) _
    have h1' : (1000000000 : Int) ^ topUnit a ≤ mant a := by
      have : ((1000000000 ^ topUnit a : Nat) : Int) ≤ ((mant a).toNat : Int) := by exact_mod_cast h1
      rw [Int.toNat_of_nonneg hA] at this; exact_mod_cast this
    have h2' : mant b < (1000000000 : Int) ^ (topUnit b + 1) := by
      have : ((mant b).toNat : Int) < ((1000000000 ^ (topUnit b + 1) : Nat) : Int) := by exact_mod_cast h2
      rw [Int.toNat_of_nonneg hB] at this; exact_mod_cast this
    calc mant b * 1000000000 ^ topUnit a ≤ mant b * mant a := mul_le_mul_of_nonneg_left h1' hB
      _ ≤ 1000000000 ^ (topUnit b + 1) * mant a := mul_le_mul_of_nonneg_right h2'.le hA
      _ = _ := by ring

/-- The normalised divisor is large against the part of it the guess does not look at. -/
theorem norm_wide {b : FixedDecimal} (hb : WF b) (zb : mant b ≠ 0) (ht : topUnit b ≠ 0) :
    0 < normFac b ∧ 500000000000000000 * 1000000000 ^ (topUnit b - 1) ≤ normFac b * mant b := by
  obtain ⟨nr, -, tr, -⟩ := findNonZero_of_ne hb zb
  obtain ⟨f0, -, -, f3⟩ := norm_div hb tr (normFac_eq hb tr)
  refine ⟨f0, le_trans (le_of_eq ?_) f3⟩
  rw [topUnit_eq hb tr] at ht ⊢
  obtain ⟨n, rfl⟩ := Nat.exists_eq_succ_of_ne_zero ht
  simp only [Nat.succ_eq_add_one, Nat.add_sub_cancel]
  rw [pow_succ]; ring

theorem rem_ratio {a b : FixedDecimal} (ha : WF a) (hb : WF b) : |val a / val b| = (remA a b : ℚ) / remB a b := by
  rw [abs_quot ha hb, absVal_remA (b := b), absVal_remB (a := a) (b := b)]
  field_simp

/-- The long division of a remainder has as many steps as the whole quotient has places of nine digits. -/
theorem remUnits_le {a b : FixedDecimal} (ha : WF a) (hb : WF b) (za : mant a ≠ 0) (zb : mant b ≠ 0) {j : Nat}
    (hj : j < remUnits a b) : 1000000000 ^ j * remB a b ≤ remA a b := by
  have h := lead_pos ha hb za zb
  have hA := ha.mant_nonneg
  have hB := hb.mant_nonneg
  unfold remUnits remTop at hj
  unfold remA remB
  have hs : (if LeadGe a b then 0 else 1) = (if LeadGe a b then (0 : Nat) else 1) := rfl
  generalize (if LeadGe a b then (0 : Nat) else 1) = s at *
  refine le_of_mul_le_mul_right ?_ (show (0 : Int) < 1000000000 ^ (topUnit b + s) by positivity)
  have hle : j + (fu a - fu b) + (topUnit b + s) ≤ topUnit a + (fu b - fu a) := by omega
  calc 1000000000 ^ j * (mant b * 1000000000 ^ (fu a - fu b)) * 1000000000 ^ (topUnit b + s)
      = mant b * 1000000000 ^ (j + (fu a - fu b) + (topUnit b + s)) := by rw [pow_add, pow_add]; ring
    _ ≤ mant b * 1000000000 ^ (topUnit a + (fu b - fu a)) :=
        mul_le_mul_of_nonneg_left (pow_le_pow_right₀ (by norm_num) hle) hB
    _ = mant b * 1000000000 ^ topUnit a * 1000000000 ^ (fu b - fu a) := by rw [pow_add]; ring
    _ ≤ mant a * 1000000000 ^ (topUnit b + s) * 1000000000 ^ (fu b - fu a) := mul_le_mul_of_nonneg_right h (by positivity)
    _ = _ := by ring

/-- Where a remainder goes wrong. -/
theorem rem_nearMiss {a b : FixedDecimal} (ha : WF a) (hb : WF b) (za : val a ≠ 0) (zb : val b ≠ 0) (h : |val b| < |val a|)
    (hbig : RemGuessTooBig a b) :
    ∃ j : Nat, 10 ^ (9 * j) ≤ |val a / val b| ∧ NearMiss (|val a / val b| / 10 ^ (9 * j)) := by
  have ht : topUnit b ≠ 0 := hbig.1.1
  obtain ⟨j, hj, hT⟩ := (C37_guess_iff ha hb za zb h ht).mp hbig
  have za' := za
  have zb' := zb
  rw [Ne, val_eq_zero] at za' zb'
  obtain ⟨f0, f1⟩ := norm_wide hb zb' ht
  have hle := remUnits_le ha hb za' zb' hj
  have hB : 0 < remB a b := by
    have := lt_of_le_of_ne hb.mant_nonneg (Ne.symm zb')
    unfold remB; positivity
  have hBq : (0 : ℚ) < remB a b := by exact_mod_cast hB
  have hfq : (0 : ℚ) < normFac b := by exact_mod_cast f0
  have hwide : 500000000000000000 * 1000000000 ^ (remTop a b - 1) ≤ normFac b * remB a b := by
    unfold remTop remB
    rw [show topUnit b + (fu a - fu b) - 1 = topUnit b - 1 + (fu a - fu b) by omega, pow_add]
    have := mul_le_mul_of_nonneg_right f1 (show (0 : Int) ≤ 1000000000 ^ (fu a - fu b) by positivity)
    linarith
  refine ⟨j, ?_, ?_⟩
  · rw [rem_ratio ha hb, le_div_iff₀ hBq, ← pow9q]
    exact_mod_cast hle
  · have := tooBig_nearMiss (by positivity) hwide hT
    rw [rem_ratio ha hb, ← pow9q]
    convert this using 2
    push_cast
    rw [mul_div_mul_left _ _ hfq.ne']

/-- **C121** A remainder that is returned is right unless the exact quotient of the operands, at some place of nine digits before its
point, lies just below a whole number. -/
theorem C121_rem (m : Mode) {a b res r : FixedDecimal} (ha : WF a) (hb : WF b) (hres : res.lsu.length = 9)
    (h : FixedDecimal.remTo m a b res = .ok r)
    (hn : ∀ j : Nat, 10 ^ (9 * j) ≤ |val a / val b| → ¬ NearMiss (|val a / val b| / 10 ^ (9 * j))) :
    val r = truncRem (val a) (val b) := by
  refine C37_exact_partial m ha hb hres (fun hbig => ?_) h
  have zb : val b ≠ 0 := by
    intro hz; rw [C33_rem_zero m ha hb hres hz] at h; cases h
  have hlt : |val b| < |val a| := by
    rw [abs_val ha, abs_val hb]
    by_contra hc
    rcases lt_or_eq_of_le (not_lt.mp hc) with h1 | h1
    · exact absurd (remA_lt_remB.mpr h1) (by have := hbig.1.2; omega)
    · exact absurd (remA_eq_remB.mpr h1) (by have := hbig.1.2; omega)
  have za : val a ≠ 0 := by
    intro hz; rw [hz, abs_zero] at hlt; exact absurd (abs_nonneg (val b)) (by linarith)
  obtain ⟨j, h1, h2⟩ := rem_nearMiss ha hb za zb hlt hbig
  exact hn j h1 h2

theorem rem_long {a b : FixedDecimal} (ha : WF a) (hb : WF b) (hbig : RemGuessTooBig a b) : |val b| < |val a| := by
  rw [abs_val ha, abs_val hb]
  by_contra hc
  rcases lt_or_eq_of_le (not_lt.mp hc) with h1 | h1
  · exact absurd (remA_lt_remB.mpr h1) (by have := hbig.1.2; omega)
  · exact absurd (remA_eq_remB.mpr h1) (by have := hbig.1.2; omega)

/-- **C121** Quotients below 10^9: a remainder is right, or it is what is missing to the next multiple of the divisor; and in that
case it is very small, but not zero. -/
theorem C121_rem_short (m : Mode) {a b res r : FixedDecimal} (ha : WF a) (hb : WF b) (hres : res.lsu.length = 9)
    (h : FixedDecimal.remTo m a b res = .ok r) (hs : |val a| < 10 ^ 9 * |val b|) :
    val r = truncRem (val a) (val b) ∨
      |val r| = |val b| - |truncRem (val a) (val b)| ∧ 0 < |val r| ∧ 5 * 10 ^ 17 * |val r| ≤ |val a| + |val b| := by
  by_cases hbig : RemGuessTooBig a b
  swap
  · exact Or.inl (C37_exact_partial m ha hb hres hbig h)
  right
  have zb : val b ≠ 0 := by
    intro hz; rw [C33_rem_zero m ha hb hres hz] at h; cases h
  have hlt := rem_long ha hb hbig
  have za : val a ≠ 0 := by
    intro hz; rw [hz, abs_zero] at hlt; exact absurd (abs_nonneg (val b)) (by linarith)
  have ht : topUnit b ≠ 0 := hbig.1.1
  obtain ⟨j, hj, hT⟩ := (C37_guess_iff ha hb za zb hlt ht).mp hbig
  have za' := za
  have zb' := zb
  rw [Ne, val_eq_zero] at za' zb'
  obtain ⟨f0, f1⟩ := norm_wide hb zb' ht
  have hB : 0 < remB a b := by
    have := lt_of_le_of_ne hb.mant_nonneg (Ne.symm zb')
    unfold remB; positivity
  have hA : 0 ≤ remA a b := by
    have := ha.mant_nonneg
    unfold remA; positivity
  have hwide : 500000000000000000 * 1000000000 ^ (remTop a b - 1) ≤ normFac b * remB a b := by
    unfold remTop remB
    rw [show topUnit b + (fu a - fu b) - 1 = topUnit b - 1 + (fu a - fu b) by omega, pow_add]
    have := mul_le_mul_of_nonneg_right f1 (show (0 : Int) ≤ 1000000000 ^ (fu a - fu b) by positivity)
    linarith
  have hAB : remA a b < 1000000000 * remB a b := by
    rw [abs_val ha, abs_val hb, absVal_remA (b := b), absVal_remB (a := a) (b := b), ← mul_div_assoc,
      div_lt_div_iff_of_pos_right (by positivity)] at hs
    have : ((remA a b : ℤ) : ℚ) < ((1000000000 * remB a b : ℤ) : ℚ) := by push_cast; norm_num at hs; linarith
    exact_mod_cast this
  have hu : remUnits a b = 1 := by
    by_contra hc
    have := remUnits_le ha hb za' zb' (j := 1) (by omega)
    linarith
  obtain rfl : j = 0 := by omega
  set R := normFac b * remB a b with hR
  have hR0 : 0 < R := mul_pos f0 hB
  have hV0 : 0 ≤ normFac b * remA a b := mul_nonneg f0.le hA
  have hVR : normFac b * remA a b < R * 1000000000 := by
    rw [hR]
    have := mul_lt_mul_of_pos_left hAB f0
    linarith
  rw [pow_zero, Int.ediv_one, Int.emod_eq_of_lt hV0 hVR] at hT
  have hdiv : normFac b * remA a b / R = remA a b / remB a b := Int.mul_ediv_mul_of_pos _ _ f0
  have hmod : normFac b * remA a b % R = normFac b * (remA a b % remB a b) := Int.mul_emod_mul_of_pos _ _ f0
  have hP : (0 : Int) < 1000000000 ^ (remTop a b - 1) := by positivity
  obtain ⟨-, d⟩ := miss_distance hP (by linarith) (B := remA a b / remB a b + 1)
    (by have := Int.ediv_nonneg hA hB.le; linarith)
    (by have := Int.lt_ediv_add_one_mul_self (normFac b * remA a b) hR0; rw [hdiv] at this; linarith) hT
  have hleft : remLeft a b = normFac b * (remB a b - remA a b % remB a b) := by
    unfold remLeft
    rw [hu]
    simp only [remRun, pow_zero, Int.ediv_one, Int.emod_one, one_mul, zero_add]
    unfold remStep
    rw [if_pos hT, hmod]; ring
  have hcode : codeRem a b = remB a b - remA a b % remB a b := by
    unfold codeRem
    rw [if_pos hbig.1, hleft, Int.mul_ediv_cancel_left _ f0.ne']
  have hv := C37_code m ha hb hres h
  rw [hcode] at hv
  have l1 := Int.emod_nonneg (remA a b) hB.ne'
  have l2 := Int.emod_lt_of_pos (remA a b) hB
  have hbound : 500000000000000000 * (remB a b - remA a b % remB a b) ≤ remA a b + remB a b := by
    refine le_of_mul_le_mul_left ?_ f0
    have e := Int.emod_add_mul_ediv (remA a b) (remB a b)
    have q0 := Int.ediv_nonneg hA hB.le
    have k1 : normFac b * (remB a b - remA a b % remB a b) ≤ (remA a b / remB a b + 1) * 1000000000 ^ (remTop a b - 1) := by
      rw [hmod, hR] at d; linarith
    have k2 : (remA a b / remB a b + 1) * (500000000000000000 * 1000000000 ^ (remTop a b - 1)) ≤
        (remA a b / remB a b + 1) * (normFac b * remB a b) := mul_le_mul_of_nonneg_left hwide (by linarith)
    have k3 : normFac b * (remB a b * (remA a b / remB a b) + remB a b) ≤ normFac b * (remA a b + remB a b) :=
      mul_le_mul_of_nonneg_left (by linarith) f0.le
    linarith
  have hS : (0 : ℚ) < 10 ^ (9 * max (fu a) (fu b)) := by positivity
  have hr : |val r| = ((remB a b - remA a b % remB a b : ℤ) : ℚ) / 10 ^ (9 * max (fu a) (fu b)) := by
    have hnn : (0 : ℚ) ≤ ((remB a b - remA a b % remB a b : ℤ) : ℚ) / 10 ^ (9 * max (fu a) (fu b)) := by
      have : (0 : ℚ) ≤ ((remB a b - remA a b % remB a b : ℤ) : ℚ) := by exact_mod_cast (by linarith : 0 ≤ remB a b - remA a b % remB a b)
      positivity
    rw [hv]
    cases neg a
    · rw [if_neg (by simp), one_mul, abs_of_nonneg hnn]
    · rw [if_pos rfl, mul_div_assoc, abs_mul, abs_of_nonneg hnn]; norm_num
  have hrem : |truncRem (val a) (val b)| = ((remA a b % remB a b : ℤ) : ℚ) / 10 ^ (9 * max (fu a) (fu b)) := by
    rw [truncRem_val, absVal_remA (b := b), absVal_remB (a := a) (b := b), truncRem_scaled hA hB hS]
    have hnn : (0 : ℚ) ≤ ((remA a b % remB a b : ℤ) : ℚ) / 10 ^ (9 * max (fu a) (fu b)) := by
      have : (0 : ℚ) ≤ ((remA a b % remB a b : ℤ) : ℚ) := by exact_mod_cast l1
      positivity
    split_ifs
    · rw [abs_neg, abs_of_nonneg hnn]
    · rw [abs_of_nonneg hnn]
  refine ⟨?_, ?_, ?_⟩
  · rw [hr, hrem, abs_val hb, absVal_remB (a := a) (b := b)]; push_cast; ring
  · rw [hr]
    have : (0 : ℚ) < ((remB a b - remA a b % remB a b : ℤ) : ℚ) := by exact_mod_cast (by linarith : 0 < remB a b - remA a b % remB a b)
    positivity
  · rw [hr, abs_val ha, abs_val hb, absVal_remA (b := b), absVal_remB (a := a) (b := b), ← mul_div_assoc, ← add_div]
    refine div_le_div_of_nonneg_right ?_ hS.le
    have : ((500000000000000000 * (remB a b - remA a b % remB a b) : ℤ) : ℚ) ≤ ((remA a b + remB a b : ℤ) : ℚ) := by
      exact_mod_cast hbound
    push_cast at this ⊢
    norm_num at this ⊢
    linarith

/-- **C121** So the caller can tell: a remainder that is not tiny is right. -/
theorem C121_rem_checked (m : Mode) {a b res r : FixedDecimal} (ha : WF a) (hb : WF b) (hres : res.lsu.length = 9)
    (h : FixedDecimal.remTo m a b res = .ok r) (hs : |val a| < 10 ^ 9 * |val b|)
    (hr : |val a| + |val b| < 5 * 10 ^ 17 * |val r|) : val r = truncRem (val a) (val b) := by
  rcases C121_rem_short m ha hb hres h hs with h1 | ⟨-, -, h1⟩
  · exact h1
  · linarith

theorem truncRem_zero_iff {x y : ℚ} (hy : y ≠ 0) : truncRem x y = 0 ↔ ∃ k : ℤ, x = k * y := by
  constructor
  · intro h
    obtain ⟨⟨k, hk⟩, -⟩ := truncRem_spec x hy
    exact ⟨k, by rw [← hk, h, sub_zero]⟩
  · rintro ⟨k, rfl⟩
    unfold truncRem
    rw [mul_div_assoc, div_self hy, mul_one, truncZ_whole]; ring

/-- **C121** Testing divisibility: with a quotient below 10^9 the remainder is zero exactly when the divisor goes into the dividend a
whole number of times. -/
theorem C121_divides_iff (m : Mode) {a b res r : FixedDecimal} (ha : WF a) (hb : WF b) (hres : res.lsu.length = 9)
    (h : FixedDecimal.remTo m a b res = .ok r) (hs : |val a| < 10 ^ 9 * |val b|) :
    val r = 0 ↔ ∃ k : ℤ, val a = k * val b := by
  have zb : val b ≠ 0 := by
    intro hz; rw [C33_rem_zero m ha hb hres hz] at h; cases h
  rw [← truncRem_zero_iff zb]
  rcases C121_rem_short m ha hb hres h hs with h1 | ⟨h1, h2, h3⟩
  · rw [h1]
  · constructor
    · intro h0; rw [h0, abs_zero] at h2; exact absurd h2 (lt_irrefl _)
    · intro h0
      rw [h0, abs_zero, sub_zero] at h1
      have := abs_pos.mpr zb
      rw [h1] at h3
      norm_num at h3 hs
      linarith

theorem whole_not_near_zero (k : ℤ) : ¬ NearMiss ((k : ℚ) / 10 ^ (9 * 0)) := by
  intro hm
  have := hm.close
  rw [Nat.mul_zero, pow_zero, div_one, Int.fract_intCast] at this
  norm_num at this

theorem whole_not_near_one {k : ℤ} (hk0 : 0 ≤ k) (hs : k ≤ 4 * 10 ^ 17) : ¬ NearMiss ((k : ℚ) / 10 ^ (9 * 1)) := by
  intro hm
  unfold NearMiss at hm
  rw [show (10 : ℚ) ^ (9 * 1) = ((1000000000 : ℕ) : ℚ) by norm_num] at hm
  have hfl : ⌊(k : ℚ) / ((1000000000 : ℕ) : ℚ)⌋ = k / 1000000000 := by
    rw [Int.floor_eq_iff, le_div_iff₀ (by norm_num), div_lt_iff₀ (by norm_num)]
    constructor
    · exact_mod_cast (by omega : k / 1000000000 * 1000000000 ≤ k)
    · exact_mod_cast (by omega : k < (k / 1000000000 + 1) * 1000000000)
  unfold Int.fract at hm
  have hq : k / 1000000000 % 1000000000 = k / 1000000000 := Int.emod_eq_of_lt (by omega) (by omega)
  rw [hfl, hq] at hm
  have hq3 : ((k / 1000000000 : ℤ) : ℚ) ≤ 400000000 := by exact_mod_cast (by omega : k / 1000000000 ≤ 400000000)
  have e' : (k : ℚ) + 1 ≤ 1000000000 * ((k / 1000000000 : ℤ) : ℚ) + 1000000000 := by
    have : k + 1 ≤ 1000000000 * (k / 1000000000) + 1000000000 := by omega
    exact_mod_cast this
  generalize ((k / 1000000000 : ℤ) : ℚ) = q at *
  rw [show (10 : ℚ) ^ 18 = 1000000000000000000 by norm_num] at hm
  push_cast at hm
  linarith

/-- **C121** And a divisor that goes into the dividend a whole number of times, at most 4 · 10^17 times, leaves zero. -/
theorem C121_divisible (m : Mode) {a b res r : FixedDecimal} (ha : WF a) (hb : WF b) (hres : res.lsu.length = 9)
    (h : FixedDecimal.remTo m a b res = .ok r) {k : ℤ} (hk : val a = k * val b) (hs : |k| ≤ 4 * 10 ^ 17) : val r = 0 := by
  have zb : val b ≠ 0 := by
    intro hz; rw [C33_rem_zero m ha hb hres hz] at h; cases h
  have hx : |val a / val b| = ((|k| : ℤ) : ℚ) := by
    rw [hk, mul_div_assoc, div_self zb, mul_one]; push_cast; rfl
  have hn : ∀ j : Nat, 10 ^ (9 * j) ≤ |val a / val b| → ¬ NearMiss (|val a / val b| / 10 ^ (9 * j)) := by
    rw [hx]
    intro j hj
    have hk2 : ((|k| : ℤ) : ℚ) ≤ 4 * 10 ^ 17 := by exact_mod_cast hs
    rcases Nat.lt_or_ge j 2 with h2 | h2
    · rcases (by omega : j = 0 ∨ j = 1) with rfl | rfl
      · exact whole_not_near_zero _
      · exact whole_not_near_one (abs_nonneg k) hs
    · have h1 : (10 : ℚ) ^ 18 ≤ 10 ^ (9 * j) := pow_le_pow_right₀ (by norm_num) (by omega)
      exfalso
      have h3 := le_trans h1 (le_trans hj hk2)
      norm_num at h3
  rw [C121_rem m ha hb hres h hn, truncRem_zero_iff zb]
  exact ⟨k, hk⟩

/-! ## Quotients -/

/-- Where a quotient goes wrong. -/
theorem quo_nearMiss {a b : FixedDecimal} (ha : WF a) (hb : WF b) (za : val a ≠ 0) (zb : val b ≠ 0) {incr : Nat}
    (hc : fu b ≤ quoIU a b + fu a) (hbig : QuoGuessTooBig a b incr) :
    ∃ k : ℤ, k < quoFU a b incr ∧ 1 ≤ |val a / val b| * 10 ^ (9 * k) ∧ NearMiss (|val a / val b| * 10 ^ (9 * k)) := by
  obtain ⟨ht, j, j0, hj, hT⟩ := (C36_guess_iff ha hb za zb hc).mp hbig
  have za' := za
  have zb' := zb
  rw [Ne, val_eq_zero] at za' zb'
  obtain ⟨f0, f1⟩ := norm_wide hb zb' ht
  have hlead := lead_pos ha hb za' zb'
  have hmb : 0 < mant b := lt_of_le_of_ne hb.mant_nonneg (Ne.symm zb')
  have hmbq : (0 : ℚ) < mant b := by exact_mod_cast hmb
  have hfq : (0 : ℚ) < normFac b := by exact_mod_cast f0
  have hnm := tooBig_nearMiss (by positivity) f1 hT
  have e9 : ∀ k : ℤ, (10 : ℚ) ^ (9 * k) = 1000000000 ^ k := by
    intro k; rw [zpow_mul]; norm_num
  have hx : ∀ k : ℤ, |val a / val b| * 10 ^ (9 * k) = (mant a : ℚ) / mant b * 1000000000 ^ (k + fu b - fu a) := by
    intro k
    rw [abs_quot ha hb]
    unfold absVal
    rw [e9, ← pow9q, ← pow9q, zpow_sub₀ (by norm_num), zpow_add₀ (by norm_num), zpow_natCast, zpow_natCast]
    field_simp
  refine ⟨(quoFU a b incr : ℤ) - j, by omega, ?_, ?_⟩
  · rw [hx]
    unfold quoSteps at hj
    have hif : (if LeadGe a b then (1 : ℤ) else 0) = 1 - ((if LeadGe a b then 0 else 1 : Nat) : ℤ) := by split_ifs <;> rfl
    rw [hif] at hj
    generalize (if LeadGe a b then 0 else 1 : Nat) = s at *
    have hle : (topUnit b : ℤ) + s - topUnit a ≤ (quoFU a b incr : ℤ) - j + fu b - fu a := by omega
    have h1 : (1000000000 : ℚ) ^ ((topUnit b : ℤ) + s - topUnit a) ≤ 1000000000 ^ ((quoFU a b incr : ℤ) - j + fu b - fu a) :=
      zpow_le_zpow_right₀ (by norm_num) hle
    have h2 : (1 : ℚ) ≤ (mant a : ℚ) / mant b * 1000000000 ^ ((topUnit b : ℤ) + s - topUnit a) := by
      have hq : (mant b : ℚ) * 1000000000 ^ topUnit a ≤ mant a * 1000000000 ^ (topUnit b + s) := by exact_mod_cast hlead
      rw [zpow_sub₀ (by norm_num), ← Nat.cast_add, zpow_natCast, zpow_natCast, div_mul_div_comm, le_div_iff₀ (by positivity), one_mul]
      exact hq
    have h3 : (0 : ℚ) ≤ (mant a : ℚ) / mant b := by
      have : (0 : ℚ) ≤ mant a := by exact_mod_cast ha.mant_nonneg
      positivity
    exact le_trans h2 (mul_le_mul_of_nonneg_left h1 h3)
  · rw [hx]
    convert hnm using 1
    push_cast
    have hexp : (quoFU a b incr : ℤ) - j + fu b - fu a =
        ((quoIU a b + quoFU a b incr : ℕ) : ℤ) - ((j + (quoIU a b + fu a - fu b) : ℕ) : ℤ) := by omega
    rw [hexp, zpow_sub₀ (by norm_num), zpow_natCast, zpow_natCast]
    field_simp

/-- **C121** A quotient that is returned is the truncated quotient unless the exact quotient, at some place of nine digits of the
result before the last one, lies just below a whole number. -/
theorem C121_quo (m : Mode) {a b res r : FixedDecimal} (ha : WF a) (hb : WF b) (hres : res.lsu.length = 9)
    {incr : Nat} (hi : incr < 2 ^ 62) (h : FixedDecimal.divTo m a b res incr = .ok r) (hc : fu b ≤ quoIU a b + fu a)
    (hn : ∀ k : ℤ, 9 * k < fracDigits r → 1 ≤ |val a / val b| * 10 ^ (9 * k) → ¬ NearMiss (|val a / val b| * 10 ^ (9 * k))) :
    val r = truncQuot (val a) (val b) (fracDigits r) := by
  have zb : val b ≠ 0 := by
    intro hz; rw [C33_div_zero m ha hb hres hz] at h; cases h
  by_cases za : val a = 0
  · rw [C34_zero_div m ha hb hres za zb] at h
    cases h
    rw [za, truncQuot_zero, val_zero_const]
  refine (C36_exact_partial m ha hb hres za zb hi (fun hbig => ?_) h).2.2.2 hc
  obtain ⟨k, hk, h1, h2⟩ := quo_nearMiss ha hb za zb hc hbig
  obtain ⟨-, -, hfu, -⟩ := divTo_all ha hb hres za zb hi h
  refine hn k ?_ h1 h2
  have : k < fu r := by rw [hfu]; exact hk
  unfold fu unitsFor at this
  omega

/-- Room for the divisor's fraction, in terms of the digits after the point and the size of the quotient alone. -/
theorem quo_room {a b : FixedDecimal} (ha : WF a) (hb : WF b) (za : val a ≠ 0) (zb : val b ≠ 0)
    (h : fracDigits b ≤ fracDigits a ∨ (10 : ℚ) ^ (fracDigits b + 8) ≤ |val a / val b|) : fu b ≤ quoIU a b + fu a := by
  rcases h with h | h
  · have : fu b ≤ fu a := by unfold fu unitsFor; omega
    omega
  by_contra hc
  rw [Ne, val_eq_zero] at za zb
  have hA := ha.mant_nonneg
  have hB := hb.mant_nonneg
  have h1 : (mant a).toNat < 10 ^ digitCount a := Nat.lt_pow_succ_log_self (by norm_num) _
  have h2 : 10 ^ (digitCount b - 1) ≤ (mant b).toNat := by
    unfold digitCount
    rw [Nat.add_sub_cancel]
    exact Nat.pow_log_le_self _ (by omega)
  have hb1 : 1 ≤ digitCount b := by unfold digitCount; omega
  have h1q : (mant a : ℚ) < 10 ^ digitCount a := by
    have : ((mant a).toNat : ℚ) < ((10 ^ digitCount a : Nat) : ℚ) := by exact_mod_cast h1
    have e : (((mant a).toNat : ℤ) : ℚ) = (mant a : ℚ) := by rw [Int.toNat_of_nonneg hA]
    push_cast at this e ⊢
    linarith
  have h2q : (10 : ℚ) ^ (digitCount b - 1) ≤ mant b := by
    have : ((10 ^ (digitCount b - 1) : Nat) : ℚ) ≤ ((mant b).toNat : ℚ) := by exact_mod_cast h2
    have e : (((mant b).toNat : ℤ) : ℚ) = (mant b : ℚ) := by rw [Int.toNat_of_nonneg hB]
    push_cast at this e ⊢
    linarith
  have hmb : (0 : ℚ) < mant b := lt_of_lt_of_le (by positivity) h2q
  have hfb : 9 * fu b ≤ fracDigits b + 8 := by unfold fu unitsFor; omega
  -- the size of the quotient against its planned digits
  have hlt : (10 : ℚ) ^ (9 * fu b) * 10 ^ (9 * fu a + (digitCount b - 1)) < 10 ^ (digitCount a + 9 * fu b) := by
    rw [abs_quot ha hb] at h
    unfold absVal at h
    rw [div_div_div_eq, le_div_iff₀ (by positivity)] at h
    have k0 : (10 : ℚ) ^ (9 * fu b) ≤ 10 ^ (fracDigits b + 8) := pow_le_pow_right₀ (by norm_num) hfb
    calc (10 : ℚ) ^ (9 * fu b) * 10 ^ (9 * fu a + (digitCount b - 1))
        ≤ 10 ^ (fracDigits b + 8) * 10 ^ (9 * fu a + (digitCount b - 1)) := mul_le_mul_of_nonneg_right k0 (by positivity)
      _ ≤ 10 ^ (fracDigits b + 8) * (10 ^ (9 * fu a) * mant b) := by
          rw [pow_add 10 (9 * fu a)]
          exact mul_le_mul_of_nonneg_left (mul_le_mul_of_nonneg_left h2q (by positivity)) (by positivity)
      _ ≤ mant a * 10 ^ (9 * fu b) := h
      _ < 10 ^ digitCount a * 10 ^ (9 * fu b) := mul_lt_mul_of_pos_right h1q (by positivity)
      _ = _ := by rw [← pow_add]
  rw [← pow_add, pow_lt_pow_iff_right₀ (by norm_num)] at hlt
  unfold quoIU quoIntg unitsFor at hc
  split_ifs at hc <;> omega

/-- **C116** for divisors with more digits after the point than the dividend: a debug build returns no wrong quotient of size
`10^(s+8)` or more, where `s` is the number of digits of the divisor after the point. -/
theorem C116_large {a b res r : FixedDecimal} (ha : WF a) (hb : WF b) (hres : res.lsu.length = 9) {incr : Nat}
    (hq : (10 : ℚ) ^ (fracDigits b + 8) ≤ |val a / val b|) (h : FixedDecimal.divTo .debug a b res incr = .ok r) :
    val r = truncQuot (val a) (val b) (fracDigits r) := by
  have zb : val b ≠ 0 := by
    intro hz; rw [C33_div_zero .debug ha hb hres hz] at h; cases h
  have za : val a ≠ 0 := by
    intro hz; rw [hz, zero_div, abs_zero] at hq; exact absurd hq (not_le.mpr (by positivity))
  exact (C116_debug_right ha hb hres (quo_room ha hb za zb (Or.inr hq)) h).2

/-- non-vacuity of `C116_large`: 10^36 / 1.500000000000000007 in a debug build -/
example : let a : FixedDecimal := ⟨37#8, 0, [0, 0, 0, 0, 1, 0, 0, 0, 0]⟩
    let b : FixedDecimal := ⟨1#8, 18, [7, 500000000, 1, 0, 0, 0, 0, 0, 0]⟩
    WF a ∧ WF b ∧ (10 : ℚ) ^ (fracDigits b + 8) ≤ |val a / val b| ∧
    FixedDecimal.divTo .debug a b FixedDecimal.zero 4 =
      .ok ⟨36#8, 27, [320987654, 74074006, 74074074, 555555570, 555555555, 666666663, 666666666, 0, 0]⟩ := by
  intro a b
  have w1 : WF a := by decide
  have w2 : WF b := by decide
  refine ⟨w1, w2, ?_, by decide +kernel⟩
  rw [rem_ratio w1 w2, show remA a b = 1000000000000000000000000000000000000000000000000000000 by decide +kernel,
    show remB a b = 1500000000000000007 by decide +kernel, show fracDigits b = 18 by decide]
  norm_num

/-- **C121** The same as `C121_quo`, with the room for the divisor's fraction read off the digits and the size of the quotient. -/
theorem C121_quo_plain (m : Mode) {a b res r : FixedDecimal} (ha : WF a) (hb : WF b) (hres : res.lsu.length = 9)
    {incr : Nat} (hi : incr < 2 ^ 62) (h : FixedDecimal.divTo m a b res incr = .ok r)
    (hc : fracDigits b ≤ fracDigits a ∨ (10 : ℚ) ^ (fracDigits b + 8) ≤ |val a / val b|)
    (hn : ∀ k : ℤ, 9 * k < fracDigits r → 1 ≤ |val a / val b| * 10 ^ (9 * k) → ¬ NearMiss (|val a / val b| * 10 ^ (9 * k))) :
    val r = truncQuot (val a) (val b) (fracDigits r) := by
  have zb : val b ≠ 0 := by
    intro hz; rw [C33_div_zero m ha hb hres hz] at h; cases h
  by_cases za : val a = 0
  · rw [C34_zero_div m ha hb hres za zb] at h
    cases h
    rw [za, truncQuot_zero, val_zero_const]
  exact C121_quo m ha hb hres hi h (quo_room ha hb za zb hc) hn

/-- **C121** Dividing back: a divisor with no more digits after the point than the dividend that goes into it a whole number of times,
at most 4 · 10^17 times, gives that number. -/
theorem C121_quo_whole (m : Mode) {a b res r : FixedDecimal} (ha : WF a) (hb : WF b) (hres : res.lsu.length = 9)
    {incr : Nat} (hi : incr < 2 ^ 62) (h : FixedDecimal.divTo m a b res incr = .ok r)
    (hf : fracDigits b ≤ fracDigits a) {k : ℤ} (hk : val a = k * val b) (hs : |k| ≤ 4 * 10 ^ 17) : val r = k := by
  have zb : val b ≠ 0 := by
    intro hz; rw [C33_div_zero m ha hb hres hz] at h; cases h
  have hq : val a / val b = k := by rw [hk, mul_div_assoc, div_self zb, mul_one]
  have hx : |val a / val b| = ((|k| : ℤ) : ℚ) := by rw [hq]; push_cast; rfl
  have hfu : fu b ≤ fu a := by unfold fu unitsFor; omega
  have hc : fu b ≤ quoIU a b + fu a := by omega
  rw [C121_quo m ha hb hres hi h hc ?_]
  · unfold truncQuot
    rw [hq, show (k : ℚ) * 10 ^ fracDigits r = ((k * 10 ^ fracDigits r : ℤ) : ℚ) by push_cast; rfl, truncZ_whole]
    push_cast
    field_simp
  rw [hx]
  intro i _ h1
  have hk2 : ((|k| : ℤ) : ℚ) ≤ 4 * 10 ^ 17 := by exact_mod_cast hs
  rcases lt_or_ge i 0 with hi0 | hi0
  · rcases lt_or_ge i (-1) with hi1 | hi1
    · exfalso
      have h2 : (10 : ℚ) ^ (9 * i) ≤ 10 ^ (-18 : ℤ) := zpow_le_zpow_right₀ (by norm_num) (by omega)
      have h3 : (0 : ℚ) ≤ ((|k| : ℤ) : ℚ) := by exact_mod_cast abs_nonneg k
      have h4 := mul_le_mul hk2 h2 (zpow_nonneg (by norm_num) _) (by norm_num)
      have h5 := le_trans h1 h4
      norm_num at h5
    · obtain rfl : i = -1 := by omega
      rw [show (9 * (-1) : ℤ) = -((9 * 1 : ℕ) : ℤ) by norm_num, zpow_neg, zpow_natCast, ← div_eq_mul_inv]
      exact whole_not_near_one (abs_nonneg k) hs
  · obtain ⟨n, rfl⟩ := Int.eq_ofNat_of_zero_le hi0
    have := whole_not_near_zero (|k| * 10 ^ (9 * n))
    rw [Nat.mul_zero, pow_zero, div_one] at this
    rw [show (9 * (n : ℤ)) = ((9 * n : ℕ) : ℤ) by push_cast; rfl, zpow_natCast]
    push_cast at this ⊢
    exact this

/-! ## The hypotheses can be met, and the exceptions exist -/

/-- Three times the divisor plus five. -/
def nmA : FixedDecimal := ⟨28#8, 0, [2, 3, 500000000, 1, 0, 0, 0, 0, 0]⟩

/-- 1500000000000000003000000002 % 500000000000000000999999999 = 5: nowhere near a whole number from below, so C121 says it is
right. -/
example : ∃ r, FixedDecimal.remTo m nmA wB FixedDecimal.zero = .ok r ∧ WF nmA ∧ WF wB ∧ val r = 5 ∧
    |val nmA| < 10 ^ 9 * |val wB| ∧
    ∀ j : Nat, 10 ^ (9 * j) ≤ |val nmA / val wB| → ¬ NearMiss (|val nmA / val wB| / 10 ^ (9 * j)) := by
  have w1 : WF nmA := by decide
  have w2 : WF wB := by decide
  have hA : remA nmA wB = 1500000000000000003000000002 := by decide +kernel
  have hB : remB nmA wB = 500000000000000000999999999 := by decide +kernel
  have hx : |val nmA / val wB| = 1500000000000000003000000002 / 500000000000000000999999999 := by
    rw [rem_ratio w1 w2, hA, hB]; norm_num
  have hb : |val wB| = 500000000000000000999999999 := by
    rw [abs_val w2, absVal_remB (a := nmA) (b := wB), hB, show max (fu nmA) (fu wB) = 0 by decide]; norm_num
  refine ⟨⟨1#8, 0, [5, 0, 0, 0, 0, 0, 0, 0, 0]⟩, by cases m <;> decide +kernel, w1, w2, ?_, ?_, ?_⟩
  · unfold val absVal
    rw [show mant ⟨1#8, 0, [5, 0, 0, 0, 0, 0, 0, 0, 0]⟩ = 5 by decide, show neg ⟨1#8, 0, [5, 0, 0, 0, 0, 0, 0, 0, 0]⟩ = false by decide,
      show fu ⟨1#8, 0, [5, 0, 0, 0, 0, 0, 0, 0, 0]⟩ = 0 by decide]
    norm_num
  · have : |val nmA| = |val nmA / val wB| * |val wB| := by
      rw [abs_div, div_mul_cancel₀ _ (by rw [hb]; norm_num)]
    rw [this, hx, hb]; norm_num
  · rw [hx]
    intro j hj
    rcases Nat.eq_zero_or_pos j with rfl | h0
    · intro hm
      have := hm.close
      have hf : ⌊(1500000000000000003000000002 / 500000000000000000999999999 / 10 ^ (9 * 0) : ℚ)⌋ = 3 := by
        rw [Int.floor_eq_iff]; norm_num
      unfold Int.fract at this
      rw [hf] at this
      norm_num at this
    · exfalso
      have h1 : (10 : ℚ) ^ 9 ≤ 10 ^ (9 * j) := pow_le_pow_right₀ (by norm_num) (by omega)
      have := le_trans h1 hj
      norm_num at this

/-- The exception: 1500000000000000002999999996 is one less than three times the divisor; the code returns 1 for the remainder, in
both builds. -/
theorem C121_witness (m : Mode) : let a : FixedDecimal := ⟨28#8, 0, [999999996, 2, 500000000, 1, 0, 0, 0, 0, 0]⟩
    FixedDecimal.remTo m a wB FixedDecimal.zero = .ok FixedDecimal.one ∧ |val a| < 10 ^ 9 * |val wB| ∧
      val FixedDecimal.one ≠ truncRem (val a) (val wB) ∧ NearMiss |val a / val wB| := by
  obtain ⟨-, -, h1, h2, -⟩ := C37_witness_addback m
  set a : FixedDecimal := ⟨28#8, 0, [999999996, 2, 500000000, 1, 0, 0, 0, 0, 0]⟩ with ha
  have w1 : WF a := by decide
  have w2 : WF wB := by decide
  have hA : remA a wB = 1500000000000000002999999996 := by decide +kernel
  have hB : remB a wB = 500000000000000000999999999 := by decide +kernel
  have hx : |val a / val wB| = 1500000000000000002999999996 / 500000000000000000999999999 := by
    rw [rem_ratio w1 w2, hA, hB]; norm_num
  have hb : |val wB| = 500000000000000000999999999 := by
    rw [abs_val w2, absVal_remB (a := a) (b := wB), hB, show max (fu a) (fu wB) = 0 by decide]; norm_num
  refine ⟨h1, ?_, ?_, ?_⟩
  · have : |val a| = |val a / val wB| * |val wB| := by
      rw [abs_div, div_mul_cancel₀ _ (by rw [hb]; norm_num)]
    rw [this, hx, hb]; norm_num
  · rw [h2]
    unfold val absVal
    rw [show mant FixedDecimal.one = 1 by decide, show neg FixedDecimal.one = false by decide, show fu FixedDecimal.one = 0 by decide]
    norm_num
  · rw [hx]
    unfold NearMiss Int.fract
    have hf : ⌊(1500000000000000002999999996 / 500000000000000000999999999 : ℚ)⌋ = 2 := by
      rw [Int.floor_eq_iff]; norm_num
    rw [hf]; norm_num

/-- Seven times the divisor, divided back: remainder 0, quotient 7. -/
example : let a : FixedDecimal := ⟨28#8, 0, [999999993, 6, 500000000, 3, 0, 0, 0, 0, 0]⟩
    WF a ∧ mant a = 7 * mant wB ∧ fracDigits wB ≤ fracDigits a ∧
    FixedDecimal.remTo m a wB FixedDecimal.zero = .ok ⟨0#8, 0, [0, 0, 0, 0, 0, 0, 0, 0, 0]⟩ ∧
    FixedDecimal.divTo m a wB FixedDecimal.zero 4 = .ok ⟨1#8, 9, [0, 7, 0, 0, 0, 0, 0, 0, 0]⟩ := by
  refine ⟨by decide, by decide +kernel, by decide, ?_, ?_⟩ <;> cases m <;> decide +kernel

end Props
end Fxd
