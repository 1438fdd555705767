import Verif.Proofs.SubLemmas
import Verif.Props.Samples
/-!
# Properties C20-C26: addition and subtraction

`add_to` and `sub_to` take an output parameter `res`; a nine-unit array is what the Rust type guarantees.
-/

namespace Fxd
open Spec

/-! ## The two paths, in rationals -/

theorem absVal_of_mant {r : FixedDecimal} {F : Nat} (h : fu r = F) :
    absVal r = (mant r : ℚ) / 10 ^ (9 * F) := by unfold absVal; rw [h]

theorem absVal_scaled {d : FixedDecimal} {F : Nat} (h : fu d ≤ F) :
    ((1000000000 ^ (F - fu d) * mant d : Int) : ℚ) / 10 ^ (9 * F) = absVal d := by
  have e : 9 * F = 9 * (F - fu d) + 9 * fu d := by omega
  unfold absVal
  rw [e, pow_add]
  push_cast
  rw [pow9q]
  have h1 : (10 : ℚ) ^ (9 * (F - fu d)) ≠ 0 := by positivity
  field_simp

theorem sumMant_q (a b : FixedDecimal) :
    (sumMant a b : ℚ) / 10 ^ (9 * max (fu a) (fu b)) = absVal a + absVal b := by
  rw [← absVal_scaled (le_max_left (fu a) (fu b)), ← absVal_scaled (le_max_right (fu a) (fu b)), ← add_div]
  unfold sumMant; push_cast; ring

theorem subMant_q (a b : FixedDecimal) :
    (subMant a b : ℚ) / 10 ^ (9 * max (fu a) (fu b)) = absVal a - absVal b := by
  rw [← absVal_scaled (le_max_left (fu a) (fu b)), ← absVal_scaled (le_max_right (fu a) (fu b)), ← sub_div]
  unfold subMant; push_cast; ring

theorem scaled_dvd {d : FixedDecimal} (h : Tight d) {F f : Nat} (hF : fu d ≤ F) (hf : fracDigits d ≤ f) :
    (10 ^ (9 * F - f) : Int) ∣ 1000000000 ^ (F - fu d) * mant d := by
  have h1 := h.frac_ok
  rw [pow9]
  have h2 : (10 ^ (9 * F - f) : Int) ∣ 10 ^ (9 * (F - fu d) + (9 * fu d - fracDigits d)) := by
    apply pow_dvd_pow
    have := fracDigits_le_fu d
    omega
  rw [pow_add] at h2
  exact h2.trans (mul_dvd_mul_left _ h1)

theorem tight_of_full {r : FixedDecimal} (h : WF r) (hi : intgDigits r = 9 * iu r)
    (hd : (10 ^ (9 * fu r - fracDigits r) : Int) ∣ mant r) : Tight r := by
  refine ⟨h, ?_, hd⟩
  have := h.mant_lt
  rwa [pow9, show 9 * (iu r + fu r) = intgDigits r + 9 * fu r by omega] at this

theorem sum_lt_iff {a b : FixedDecimal} (h8 : max (iu a) (iu b) + max (fu a) (fu b) = 8) :
    sumMant a b < 1000000000 ^ 8 ↔ absVal a + absVal b < 10 ^ (9 * max (iu a) (iu b)) := by
  rw [← sumMant_q, div_lt_iff₀ (by positivity), ← pow_add,
    show 9 * max (iu a) (iu b) + 9 * max (fu a) (fu b) = 9 * 8 by omega, ← pow9q]
  exact_mod_cast Iff.rfl

/-- Units needed to line up two operands. -/
def Spec.alignedUnits (a b : FixedDecimal) : Nat := max (iu a) (iu b) + max (fu a) (fu b)

theorem addAbs_q (m : Mode) {a b res : FixedDecimal} (ha : WF a) (hb : WF b) (hres : res.lsu.length = 9)
    (hfit : alignedUnits a b ≤ 7 ∨
      (alignedUnits a b = 8 ∧ absVal a + absVal b < 10 ^ (9 * max (iu a) (iu b)))) :
    ∃ r, addAbs m a b res = .ok r ∧ WF r ∧ neg r = false ∧
      fracDigits r = max (fracDigits a) (fracDigits b) ∧ (Tight a → Tight b → Tight r) ∧
      absVal r = absVal a + absVal b := by
  unfold alignedUnits at hfit
  obtain ⟨r, h1, h2, h3, h4, h5, h6, h7⟩ := addAbs_spec m ha hb hres (by omega) (fun h8 => by
    rcases hfit with h | h
    · omega
    · exact (sum_lt_iff h8).mpr h.2)
  have hfu : fu r = max (fu a) (fu b) := by unfold fu; rw [h4, unitsFor_max]
  refine ⟨r, h1, h2, h3, h4, ?_, ?_⟩
  · intro ta tb
    apply tight_of_full h2 h5
    rw [h6, hfu, h4]
    exact dvd_add (scaled_dvd ta (le_max_left _ _) (le_max_left _ _))
      (scaled_dvd tb (le_max_right _ _) (le_max_right _ _))
  · rw [absVal_of_mant hfu, h6, sumMant_q]

theorem addAbs_fail (m : Mode) {a b res : FixedDecimal} (ha : WF a) (hb : WF b) (hres : res.lsu.length = 9)
    (hfit : ¬ (alignedUnits a b ≤ 7 ∨
      (alignedUnits a b = 8 ∧ absVal a + absVal b < 10 ^ (9 * max (iu a) (iu b))))) :
    ∃ p, addAbs m a b res = .panic p := by
  unfold alignedUnits at hfit
  push Not at hfit
  by_cases h8 : max (iu a) (iu b) + max (fu a) (fu b) = 8
  · refine ⟨_, addAbs_carry_panic m ha hb hres h8 ?_⟩
    by_contra hc
    exact absurd ((sum_lt_iff h8).mp (by omega)) (not_lt.mpr (hfit.2 h8))
  · refine panic_of NoErr.addAbs (fun r h => ?_)
    have := addAbs_inv ha hb hres h
    omega

theorem subAbs_q (m : Mode) {a b res : FixedDecimal} (ha : WF a) (hb : WF b) (hres : res.lsu.length = 9)
    (hfit : alignedUnits a b ≤ 8) :
    ∃ r, subAbs m a b res = .ok (r, decide (absVal a < absVal b)) ∧ WF r ∧ neg r = false ∧
      fracDigits r = max (fracDigits a) (fracDigits b) ∧ (Tight a → Tight b → Tight r) ∧
      absVal r = |absVal a - absVal b| := by
  obtain ⟨r, h1, h2, h3, h4, h5, h6, h7⟩ := subAbs_spec m ha hb hres hfit
  have hfu : fu r = max (fu a) (fu b) := by unfold fu; rw [h4, unitsFor_max]
  have hlt : subMant a b < 0 ↔ absVal a < absVal b := by
    rw [← sub_neg (a := absVal a), ← subMant_q, div_lt_iff₀ (by positivity), zero_mul]
    exact_mod_cast Iff.rfl
  refine ⟨r, ?_, h2, h3, h4, ?_, ?_⟩
  · rw [h1]; simp only [hlt]
  · intro ta tb
    apply tight_of_full h2 h5
    rw [h6, hfu, h4, dvd_abs]
    exact dvd_sub (scaled_dvd ta (le_max_left _ _) (le_max_left _ _))
      (scaled_dvd tb (le_max_right _ _) (le_max_right _ _))
  · rw [absVal_of_mant hfu, h6, ← subMant_q, abs_div, abs_of_pos (show (0:ℚ) < 10 ^ _ by positivity)]
    push_cast; rfl

theorem subAbs_fail (m : Mode) {a b res : FixedDecimal} (ha : WF a) (hb : WF b) (hres : res.lsu.length = 9)
    (hfit : ¬ alignedUnits a b ≤ 8) : ∃ p, subAbs m a b res = .panic p := by
  refine panic_of NoErr.subAbs (fun r h => ?_)
  exact hfit (subAbs_inv ha hb hres (r := r.1) (ng := r.2) h)

theorem absVal_lt_pow {d : FixedDecimal} (h : WF d) : absVal d < 10 ^ (9 * iu d) := by
  unfold absVal
  rw [div_lt_iff₀ (by positivity), ← pow_add, show 9 * iu d + 9 * fu d = 9 * (iu d + fu d) by omega, ← pow9q]
  exact_mod_cast h.mant_lt

/-! ## What `add_to` / `sub_to` do -/

/-- The result `r` of an operation on `a` and `b`, with value `v`. -/
structure Spec.SumRes (a b r : FixedDecimal) (v : ℚ) : Prop where
  wf : WF r
  tight : Tight a → Tight b → Tight r
  value : val r = v
  scale : val a ≠ 0 → val b ≠ 0 → r.frac = max a.frac b.frac
  noNegZero : ¬ NegZero a → ¬ NegZero b → ¬ NegZero r
  noNegZero' : val a ≠ 0 → ¬ NegZero r

/-- The exact condition under which a sum `v` of `a` and `±b` can be computed: a zero operand, or the aligned
operands use at most 7 of the 9 units, or 8 and the result needs no further unit. -/
def Spec.SumFits (a b : FixedDecimal) (v : ℚ) : Prop :=
  val a = 0 ∨ val b = 0 ∨ alignedUnits a b ≤ 7 ∨
    (alignedUnits a b = 8 ∧ |v| < 10 ^ (9 * max (iu a) (iu b)))

theorem val_add_same {a b : FixedDecimal} (ha : WF a) (hb : WF b) (h : neg a = neg b) :
    |val a + val b| = absVal a + absVal b := by
  have pa := absVal_nonneg ha
  have pb := absVal_nonneg hb
  unfold val; rw [← h]
  split_ifs
  · rw [show - absVal a + - absVal b = -(absVal a + absVal b) by ring, abs_neg, abs_of_nonneg (by linarith)]
  · rw [abs_of_nonneg (by linarith)]

theorem diff_lt {a b : FixedDecimal} (ha : WF a) (hb : WF b) :
    |absVal a - absVal b| < 10 ^ (9 * max (iu a) (iu b)) := by
  have pa := absVal_nonneg ha
  have pb := absVal_nonneg hb
  have la := absVal_lt_pow ha
  have lb := absVal_lt_pow hb
  have h1 : (10 : ℚ) ^ (9 * iu a) ≤ 10 ^ (9 * max (iu a) (iu b)) :=
    pow_le_pow_right₀ (by norm_num) (by omega)
  have h2 : (10 : ℚ) ^ (9 * iu b) ≤ 10 ^ (9 * max (iu a) (iu b)) :=
    pow_le_pow_right₀ (by norm_num) (by omega)
  rw [abs_lt]; constructor <;> linarith

theorem negZero_iff {d : FixedDecimal} : NegZero d ↔ neg d = true ∧ val d = 0 := by
  unfold NegZero; rw [val_eq_zero]

theorem not_negZero_of_pos {d : FixedDecimal} (h : neg d = false) : ¬ NegZero d := by
  intro hc; rw [hc.1] at h; simp at h

theorem not_negZero_set {d : FixedDecimal} (h : WF d) : ¬ NegZero d.setNegAndCheckZero := by
  by_cases hz : mant d = 0
  · rw [setNegAndCheckZero_of_zero h hz]; exact not_negZero_of_pos (by simp)
  · rw [setNegAndCheckZero_of_pos h hz]; intro hc; exact hz (by simpa using hc.2)

/-- Applying the sign at the end. -/
theorem signed_res {a b r : FixedDecimal} {v : ℚ} (s : Bool) (ha : WF a) (hb : WF b) (hw : WF r) (hn : neg r = false)
    (hf : fracDigits r = max (fracDigits a) (fracDigits b)) (ht : Tight a → Tight b → Tight r)
    (hv : v = if s then - absVal r else absVal r) :
    SumRes a b (if s then r.setNegAndCheckZero else r) v := by
  have hfr : r.frac = max a.frac b.frac := by rw [hw.frac_eq, hf, maxfrac_eq ha hb]
  cases s
  · simp only [Bool.false_eq_true, if_false] at hv ⊢
    refine ⟨hw, ht, ?_, fun _ _ => hfr, fun _ _ => not_negZero_of_pos hn, fun _ => not_negZero_of_pos hn⟩
    rw [hv, val, hn]; rfl
  · simp only [if_true] at hv ⊢
    refine ⟨wf_setNegAndCheckZero hw, fun x y => tight_setNegAndCheckZero (ht x y), ?_, fun _ _ => ?_,
      fun _ _ => not_negZero_set hw, fun _ => not_negZero_set hw⟩
    · rw [val_setNegAndCheckZero hw, hv]
    · rw [frac_setNegAndCheckZero, hfr]

theorem isZero_val {d : FixedDecimal} (h : WF d) : d.isZero = true ↔ val d = 0 := by
  rw [isZero_iff h, val_eq_zero]

theorem addTo_ok (m : Mode) {a b res : FixedDecimal} (ha : WF a) (hb : WF b) (hres : res.lsu.length = 9)
    (hfit : SumFits a b (val a + val b)) :
    ∃ r, FixedDecimal.addTo m a b res = .ok r ∧ SumRes a b r (val a + val b) := by
  unfold FixedDecimal.addTo
  by_cases za : a.isZero = true
  · rw [if_pos za]
    have h0 := (isZero_val ha).mp za
    exact ⟨b, rfl, hb, fun _ h => h, by rw [h0, zero_add], fun h => absurd h0 h, fun _ h => h, fun h => absurd h0 h⟩
  rw [if_neg za]
  have va : val a ≠ 0 := fun h => za ((isZero_val ha).mpr h)
  by_cases zb : b.isZero = true
  · rw [if_pos zb]
    have h0 := (isZero_val hb).mp zb
    exact ⟨a, rfl, ha, fun h _ => h, by rw [h0, add_zero], fun _ h => absurd h0 h, fun h _ => h,
      fun _ h => va (val_eq_zero.mpr h.2)⟩
  rw [if_neg zb]
  have vb : val b ≠ 0 := fun h => zb ((isZero_val hb).mpr h)
  have hfit' : alignedUnits a b ≤ 7 ∨
      (alignedUnits a b = 8 ∧ |val a + val b| < 10 ^ (9 * max (iu a) (iu b))) := by
    rcases hfit with h | h | h
    · exact absurd h va
    · exact absurd h vb
    · exact h
  simp only [isNeg_eq]
  by_cases hs : neg a = neg b
  · rw [if_pos hs]
    rw [val_add_same ha hb hs] at hfit'
    obtain ⟨r, h1, h2, h3, h4, h5, h6⟩ := addAbs_q m ha hb hres hfit'
    rw [h1]; simp only [ok_bind, pure_ok]
    refine ⟨_, rfl, signed_res (neg a) ha hb h2 h3 h4 h5 ?_⟩
    rw [h6]; unfold val; rw [← hs]; split_ifs <;> ring
  · rw [if_neg hs]
    obtain ⟨r, h1, h2, h3, h4, h5, h6⟩ := subAbs_q m ha hb hres (by omega)
    rw [h1]; simp only [ok_bind, pure_ok]
    have e : ∀ x y : FixedDecimal, (if decide (absVal a < absVal b) ≠ neg a then x else y) =
        if (decide (absVal a < absVal b) != neg a) then x else y := by
      intro x y; cases neg a <;> cases decide (absVal a < absVal b) <;> simp
    rw [e]
    refine ⟨_, rfl, signed_res _ ha hb h2 h3 h4 h5 ?_⟩
    rw [h6]; unfold val
    by_cases hl : absVal a < absVal b
    · rw [abs_of_neg (by linarith)]
      cases hna : neg a <;> cases hnb : neg b <;> simp_all <;> ring
    · rw [abs_of_nonneg (by linarith), decide_eq_false hl]
      cases hna : neg a <;> cases hnb : neg b <;> simp_all <;> ring

theorem subTo_ok (m : Mode) {a b res : FixedDecimal} (ha : WF a) (hb : WF b) (hres : res.lsu.length = 9)
    (hfit : SumFits a b (val a - val b)) :
    ∃ r, FixedDecimal.subTo m a b res = .ok r ∧ SumRes a b r (val a - val b) := by
  unfold FixedDecimal.subTo
  by_cases za : a.isZero = true
  · rw [if_pos za]
    have h0 := (isZero_val ha).mp za
    simp only [isNeg_eq]
    split_ifs with hn
    · refine ⟨_, rfl, wf_setPos.mpr hb, fun _ h => tight_setPos.mpr h, ?_, fun h => absurd h0 h,
        fun _ _ => not_negZero_of_pos (by simp), fun h => absurd h0 h⟩
      rw [val_setPos, h0, val, hn]; simp
    · refine ⟨_, rfl, wf_setNegAndCheckZero hb, fun _ h => tight_setNegAndCheckZero h, ?_, fun h => absurd h0 h,
        fun _ _ => not_negZero_set hb, fun h => absurd h0 h⟩
      rw [val_setNegAndCheckZero hb, h0, val]; simp [hn]
  rw [if_neg za]
  have va : val a ≠ 0 := fun h => za ((isZero_val ha).mpr h)
  by_cases zb : b.isZero = true
  · rw [if_pos zb]
    have h0 := (isZero_val hb).mp zb
    exact ⟨a, rfl, ha, fun h _ => h, by rw [h0, sub_zero], fun _ h => absurd h0 h, fun h _ => h,
      fun _ h => va (val_eq_zero.mpr h.2)⟩
  rw [if_neg zb]
  have vb : val b ≠ 0 := fun h => zb ((isZero_val hb).mpr h)
  have hfit' : alignedUnits a b ≤ 7 ∨
      (alignedUnits a b = 8 ∧ |val a - val b| < 10 ^ (9 * max (iu a) (iu b))) := by
    rcases hfit with h | h | h
    · exact absurd h va
    · exact absurd h vb
    · exact h
  simp only [isNeg_eq]
  by_cases hs : neg a = neg b
  · rw [if_neg (by simpa using hs)]
    obtain ⟨r, h1, h2, h3, h4, h5, h6⟩ := subAbs_q m ha hb hres (by omega)
    rw [h1]; simp only [ok_bind, pure_ok]
    have e : ∀ x y : FixedDecimal, (if decide (absVal a < absVal b) ≠ neg a then x else y) =
        if (decide (absVal a < absVal b) != neg a) then x else y := by
      intro x y; cases neg a <;> cases decide (absVal a < absVal b) <;> simp
    rw [e]
    refine ⟨_, rfl, signed_res _ ha hb h2 h3 h4 h5 ?_⟩
    rw [h6]; unfold val
    by_cases hl : absVal a < absVal b
    · rw [abs_of_neg (by linarith)]
      cases hna : neg a <;> cases hnb : neg b <;> simp_all <;> ring
    · rw [abs_of_nonneg (by linarith)]
      cases hna : neg a <;> cases hnb : neg b <;> simp_all <;> ring
  · rw [if_pos (by simpa using hs)]
    have hv : |val a - val b| = absVal a + absVal b := by
      have pa := absVal_nonneg ha
      have pb := absVal_nonneg hb
      unfold val
      cases hna : neg a <;> cases hnb : neg b <;> simp_all
      · linarith
      · rw [show - absVal a - absVal b = -(absVal a + absVal b) by ring, abs_neg, abs_of_nonneg (by linarith)]
    rw [hv] at hfit'
    obtain ⟨r, h1, h2, h3, h4, h5, h6⟩ := addAbs_q m ha hb hres hfit'
    rw [h1]; simp only [ok_bind, pure_ok]
    refine ⟨_, rfl, signed_res (neg a) ha hb h2 h3 h4 h5 ?_⟩
    rw [h6]; unfold val
    cases hna : neg a <;> cases hnb : neg b <;> simp_all <;> ring

theorem addTo_fail (m : Mode) {a b res : FixedDecimal} (ha : WF a) (hb : WF b) (hres : res.lsu.length = 9)
    (hfit : ¬ SumFits a b (val a + val b)) : ∃ p, FixedDecimal.addTo m a b res = .panic p := by
  unfold SumFits at hfit
  push Not at hfit
  obtain ⟨va, vb, h7, h8⟩ := hfit
  unfold FixedDecimal.addTo
  rw [if_neg (fun h => va ((isZero_val ha).mp h)), if_neg (fun h => vb ((isZero_val hb).mp h))]
  simp only [isNeg_eq]
  by_cases hs : neg a = neg b
  · rw [if_pos hs]
    obtain ⟨p, hp⟩ := addAbs_fail m ha hb hres (by
      rintro (h | h)
      · omega
      · have := h8 h.1; rw [val_add_same ha hb hs] at this; exact absurd h.2 (not_lt.mpr this))
    exact ⟨p, by rw [hp]; rfl⟩
  · rw [if_neg hs]
    obtain ⟨p, hp⟩ := subAbs_fail m ha hb hres (by
      intro h
      have h8' := h8 (by omega)
      have := diff_lt ha hb
      have e : |val a + val b| = |absVal a - absVal b| := by
        unfold val
        cases hna : neg a <;> cases hnb : neg b <;> simp_all
        · rw [← sub_eq_add_neg]
        · rw [show - absVal a + absVal b = -(absVal a - absVal b) by ring, abs_neg]
      rw [e] at h8'
      exact absurd this (not_lt.mpr h8'))
    exact ⟨p, by rw [hp]; rfl⟩

theorem subTo_fail (m : Mode) {a b res : FixedDecimal} (ha : WF a) (hb : WF b) (hres : res.lsu.length = 9)
    (hfit : ¬ SumFits a b (val a - val b)) : ∃ p, FixedDecimal.subTo m a b res = .panic p := by
  unfold SumFits at hfit
  push Not at hfit
  obtain ⟨va, vb, h7, h8⟩ := hfit
  unfold FixedDecimal.subTo
  rw [if_neg (fun h => va ((isZero_val ha).mp h)), if_neg (fun h => vb ((isZero_val hb).mp h))]
  simp only [isNeg_eq]
  by_cases hs : neg a = neg b
  · rw [if_neg (by simpa using hs)]
    obtain ⟨p, hp⟩ := subAbs_fail m ha hb hres (by
      intro h
      have h8' := h8 (by omega)
      have := diff_lt ha hb
      have e : |val a - val b| = |absVal a - absVal b| := by
        unfold val; rw [← hs]
        split_ifs
        · rw [show - absVal a - - absVal b = -(absVal a - absVal b) by ring, abs_neg]
        · rfl
      rw [e] at h8'
      exact absurd this (not_lt.mpr h8'))
    exact ⟨p, by rw [hp]; rfl⟩
  · rw [if_pos (by simpa using hs)]
    have hv : |val a - val b| = absVal a + absVal b := by
      have pa := absVal_nonneg ha
      have pb := absVal_nonneg hb
      unfold val
      cases hna : neg a <;> cases hnb : neg b <;> simp_all
      · linarith
      · rw [show - absVal a - absVal b = -(absVal a + absVal b) by ring, abs_neg, abs_of_nonneg (by linarith)]
    obtain ⟨p, hp⟩ := addAbs_fail m ha hb hres (by
      rintro (h | h)
      · omega
      · have := h8 h.1; rw [hv] at this; exact absurd h.2 (not_lt.mpr this))
    exact ⟨p, by rw [hp]; rfl⟩

end Fxd

namespace Fxd.Props
open Fxd Spec FixedDecimal

variable {m : Mode} {a b c r s t u res res' : FixedDecimal}

theorem addTo_res (ha : WF a) (hb : WF b) (hres : res.lsu.length = 9) (h : addTo m a b res = .ok r) :
    SumRes a b r (val a + val b) := by
  by_cases hf : SumFits a b (val a + val b)
  · obtain ⟨r', h1, h2⟩ := addTo_ok m ha hb hres hf
    rw [h1] at h; simp at h; rw [← h]; exact h2
  · obtain ⟨p, hp⟩ := addTo_fail m ha hb hres hf
    rw [hp] at h; simp at h

theorem subTo_res (ha : WF a) (hb : WF b) (hres : res.lsu.length = 9) (h : subTo m a b res = .ok r) :
    SumRes a b r (val a - val b) := by
  by_cases hf : SumFits a b (val a - val b)
  · obtain ⟨r', h1, h2⟩ := subTo_ok m ha hb hres hf
    rw [h1] at h; simp at h; rw [← h]; exact h2
  · obtain ⟨p, hp⟩ := subTo_fail m ha hb hres hf
    rw [hp] at h; simp at h

/-- **C20** Whatever `add_to` returns is exactly `a + b` (and is a well-formed decimal). -/
theorem C20_add_exact (ha : WF a) (hb : WF b) (hres : res.lsu.length = 9) (h : addTo m a b res = .ok r) :
    val r = val a + val b ∧ WF r := ⟨(addTo_res ha hb hres h).value, (addTo_res ha hb hres h).wf⟩

/-- **C21** Whatever `sub_to` returns is exactly `a - b` (and is a well-formed decimal). -/
theorem C21_sub_exact (ha : WF a) (hb : WF b) (hres : res.lsu.length = 9) (h : subTo m a b res = .ok r) :
    val r = val a - val b ∧ WF r := ⟨(subTo_res ha hb hres h).value, (subTo_res ha hb hres h).wf⟩

/-- **C22** `add_to` succeeds exactly when `SumFits`: a zero operand, or at most 7 aligned units, or 8 and the
sum does not need one unit more. -/
theorem C22_add_ok_iff (ha : WF a) (hb : WF b) (hres : res.lsu.length = 9) :
    (∃ r, addTo m a b res = .ok r) ↔ SumFits a b (val a + val b) := by
  constructor
  · rintro ⟨r, h⟩
    by_contra hf
    obtain ⟨p, hp⟩ := addTo_fail m ha hb hres hf
    rw [hp] at h; simp at h
  · intro hf
    obtain ⟨r, h1, _⟩ := addTo_ok m ha hb hres hf
    exact ⟨r, h1⟩

/-- **C22** `sub_to` succeeds exactly under the corresponding condition. -/
theorem C22_sub_ok_iff (ha : WF a) (hb : WF b) (hres : res.lsu.length = 9) :
    (∃ r, subTo m a b res = .ok r) ↔ SumFits a b (val a - val b) := by
  constructor
  · rintro ⟨r, h⟩
    by_contra hf
    obtain ⟨p, hp⟩ := subTo_fail m ha hb hres hf
    rw [hp] at h; simp at h
  · intro hf
    obtain ⟨r, h1, _⟩ := subTo_ok m ha hb hres hf
    exact ⟨r, h1⟩

/-- **C22** `add_to` and `sub_to` never return `Err`: what does not fit panics. -/
theorem C22_never_err (ha : WF a) (hb : WF b) (hres : res.lsu.length = 9) (e : Error) (st : FixedDecimal) :
    addTo m a b res ≠ .err e st ∧ subTo m a b res ≠ .err e st := by
  constructor
  · by_cases hf : SumFits a b (val a + val b)
    · obtain ⟨r, h1, _⟩ := addTo_ok m ha hb hres hf
      rw [h1]; simp
    · obtain ⟨p, hp⟩ := addTo_fail m ha hb hres hf
      rw [hp]; simp
  · by_cases hf : SumFits a b (val a - val b)
    · obtain ⟨r, h1, _⟩ := subTo_ok m ha hb hres hf
      rw [h1]; simp
    · obtain ⟨p, hp⟩ := subTo_fail m ha hb hres hf
      rw [hp]; simp

/-- A value with eight integral units, the largest `10^72 - 1`. -/
def big72 : FixedDecimal := ⟨72#8, 0, [999999999, 999999999, 999999999, 999999999, 999999999, 999999999,
  999999999, 999999999, 0]⟩

/-- **C22** witness: adding 1 to `10^72 - 1` panics, though the sum `10^72` would fit in nine units. -/
theorem C22_carry_panic : addTo m big72 one zero = .panic .index := by
  cases m <;> decide +kernel

example : WF big72 ∧ WF one ∧ ¬ SumFits big72 one (val big72 + val one) := by
  have h1 : WF big72 := by decide
  have h2 : WF one := by decide
  refine ⟨h1, h2, fun hf => ?_⟩
  obtain ⟨r, h⟩ := (C22_add_ok_iff (m := .release) h1 h2 (res := zero) rfl).mpr hf
  rw [C22_carry_panic] at h; simp at h

/-- **C23** For non-zero operands the result carries the larger of the two scales. -/
theorem C23_scale (ha : WF a) (hb : WF b) (hres : res.lsu.length = 9) (na : val a ≠ 0) (nb : val b ≠ 0)
    (h : addTo m a b res = .ok r ∨ subTo m a b res = .ok r) : r.frac = max a.frac b.frac := by
  rcases h with h | h
  · exact (addTo_res ha hb hres h).scale na nb
  · exact (subTo_res ha hb hres h).scale na nb

/-- **C24** Addition commutes: both orders succeed or both fail, and the values agree. -/
theorem C24_add_comm (ha : WF a) (hb : WF b) (hres : res.lsu.length = 9) (hres' : res'.lsu.length = 9) :
    ((∃ r, addTo m a b res = .ok r) ↔ (∃ r, addTo m b a res' = .ok r)) ∧
    (addTo m a b res = .ok r → addTo m b a res' = .ok s → val r = val s) := by
  constructor
  · rw [C22_add_ok_iff ha hb hres, C22_add_ok_iff hb ha hres']
    unfold SumFits alignedUnits
    rw [max_comm (iu b), max_comm (fu b), add_comm (val b)]
    tauto
  · intro h1 h2
    rw [(C20_add_exact ha hb hres h1).1, (C20_add_exact hb ha hres' h2).1, add_comm]

/-- **C25** `(a + b) - b` has value `a`. -/
theorem C25_add_sub (ha : WF a) (hb : WF b) (hres : res.lsu.length = 9) (hres' : res'.lsu.length = 9)
    (h1 : addTo m a b res = .ok r) (h2 : subTo m r b res' = .ok s) : val s = val a := by
  have h := C20_add_exact ha hb hres h1
  rw [(C21_sub_exact h.2 hb hres' h2).1, h.1]; ring

/-- **C25** `a - a` for a non-zero `a` is zero without sign flag (when it fits, see C22). -/
theorem C25_sub_self (ha : WF a) (hres : res.lsu.length = 9) (hnz : val a ≠ 0)
    (h : subTo m a a res = .ok r) : val r = 0 ∧ neg r = false := by
  have h1 := subTo_res ha ha hres h
  have hv : val r = 0 := by rw [h1.value]; ring
  refine ⟨hv, ?_⟩
  by_contra hn
  exact h1.noNegZero' hnz ⟨by simpa using hn, val_eq_zero.mp hv⟩

/-- `b` with the opposite sign. -/
def opp (b : FixedDecimal) : FixedDecimal := if neg b then b.setPos else b.setNeg

/-- **C25** `a - b` and `a + (-b)` succeed together and agree in value. -/
theorem C25_sub_eq_add_opp (ha : WF a) (hb : WF b) (hres : res.lsu.length = 9) (hres' : res'.lsu.length = 9) :
    val (opp b) = - val b ∧
    ((∃ r, subTo m a b res = .ok r) ↔ (∃ r, addTo m a (opp b) res' = .ok r)) ∧
    (subTo m a b res = .ok r → addTo m a (opp b) res' = .ok s → val r = val s) := by
  have hw : WF (opp b) := by unfold opp; split_ifs; exacts [wf_setPos.mpr hb, wf_setNeg.mpr hb]
  have hv : val (opp b) = - val b := by
    unfold opp
    cases hn : neg b
    · simp only [Bool.false_eq_true, if_false]; rw [val_setNeg]; simp [val, hn]
    · simp only [if_true]; rw [val_setPos]; simp [val, hn]
  have hi : iu (opp b) = iu b := by unfold opp; split_ifs <;> simp
  have hf : fu (opp b) = fu b := by unfold opp; split_ifs <;> simp
  refine ⟨hv, ?_, ?_⟩
  · rw [C22_sub_ok_iff ha hb hres, C22_add_ok_iff ha hw hres']
    unfold SumFits alignedUnits
    rw [hv, hi, hf, neg_eq_zero, sub_eq_add_neg]
  · intro h1 h2
    rw [(C21_sub_exact ha hb hres h1).1, (C20_add_exact ha hw hres' h2).1, hv, sub_eq_add_neg]

/-- **C26** Addition is associative in value whenever all four additions succeed. -/
theorem C26_add_assoc (ha : WF a) (hb : WF b) (hc : WF c) (hres : res.lsu.length = 9)
    (h1 : addTo m a b res = .ok r) (h2 : addTo m r c res = .ok s)
    (h3 : addTo m b c res = .ok t) (h4 : addTo m a t res = .ok u) : val s = val u := by
  have e1 := C20_add_exact ha hb hres h1
  have e3 := C20_add_exact hb hc hres h3
  rw [(C20_add_exact e1.2 hc hres h2).1, (C20_add_exact ha e3.2 hres h4).1, e1.1, e3.1]; ring

/-! Non-vacuity: sums and differences of the samples (different lengths, scales and signs). -/
example : ∃ r, addTo m Samples.a Samples.b zero = .ok r ∧ val r = 123456789012345 / 1000 + -75 / 10 ^ 11 := by
  obtain ⟨r, h⟩ := (C22_add_ok_iff (m := m) Samples.a_tight.toWF Samples.b_tight.toWF (res := zero) rfl).mpr
    (Or.inr (Or.inr (Or.inl (by decide))))
  exact ⟨r, h, by rw [(C20_add_exact Samples.a_tight.toWF Samples.b_tight.toWF rfl h).1, Samples.val_a, Samples.val_b]⟩
example : subTo m Samples.c Samples.c zero = .ok ⟨0#8, 2, zeroUnits⟩ := by cases m <;> decide +kernel
example : ∃ r s t u, addTo m Samples.a Samples.b zero = .ok r ∧ addTo m r Samples.c zero = .ok s ∧
    addTo m Samples.b Samples.c zero = .ok t ∧ addTo m Samples.a t zero = .ok u := by
  cases m <;> exact ⟨⟨18#8, 11, [250000000, 344999999, 456789012, 123, 0, 0, 0, 0, 0]⟩,
    ⟨18#8, 11, [250000000, 844999999, 456789004, 123, 0, 0, 0, 0, 0]⟩,
    ⟨0x89#8, 11, [750000000, 500000000, 7, 0, 0, 0, 0, 0, 0]⟩,
    ⟨18#8, 11, [250000000, 844999999, 456789004, 123, 0, 0, 0, 0, 0]⟩,
    by decide +kernel, by decide +kernel, by decide +kernel, by decide +kernel⟩

end Fxd.Props
