import Verif.Props.Roots
import Verif.Props.ReferenceDiv
import Verif.Props.History
import Verif.Props.Closed
/-!
# Property C106: compacting the digit counts, and products of any length

A product claims up to nine more integral digits than it has (C99), and the remainder of a smaller dividend keeps the dividend's
count. `x + 1 - 1` gives the claimed digits back.
-/

namespace Fxd
open Spec

namespace Props
variable {m : Mode}

/-- `&(&x + &one) - &one` -/
def compact (m : Mode) (x : FixedDecimal) : Out Empty FixedDecimal := do
  let y ← FixedDecimal.add m x FixedDecimal.one
  FixedDecimal.sub m y FixedDecimal.one

theorem wf_one : WF FixedDecimal.one := by decide

/-- **C106** `x + 1 - 1` keeps the value and takes back the integral digits that are claimed but not used. -/
theorem C106_compact {x : FixedDecimal} {I F : Nat} (hx : Within I F x) (hI : 1 ≤ I) (hIF : I + F ≤ 8)
    (hv : |val x| + 1 < 10 ^ (9 * I)) :
    ∃ y, compact m x = .ok y ∧ Within I F y ∧ val y = val x ∧ (Tight x → Tight y) ∧ y.frac ≤ x.frac ∧
      ∀ k, 1 ≤ k → |val x| < 10 ^ (9 * k) → iu y ≤ k := by
  have w1 : Within I F FixedDecimal.one := ⟨wf_one, le_trans (by decide) hI, le_trans (by decide) (Nat.zero_le F)⟩
  have hv1 : |val x + val FixedDecimal.one| < 10 ^ (9 * I) := by
    rw [val_one]
    exact lt_of_le_of_lt ((abs_add_le _ _).trans (by simp)) hv
  obtain ⟨y, e1, wy, vy⟩ := add_within (m := m) hIF hx w1 hv1
  have hv2 : |val y - val FixedDecimal.one| < 10 ^ (9 * I) := by
    rw [vy, add_sub_cancel_right]; linarith [abs_nonneg (val x)]
  obtain ⟨z, e2, wz, vz⟩ := sub_within (m := m) hIF wy w1 hv2
  rw [vy, add_sub_cancel_right] at vz
  have r1 := addTo_res hx.wf wf_one (res := FixedDecimal.blank) rfl (add_ok_iff.mp e1)
  have r2 := subTo_res wy.wf wf_one (res := FixedDecimal.blank) rfl (sub_ok_iff.mp e2)
  have o0 : val FixedDecimal.one ≠ 0 := by rw [val_one]; norm_num
  have t1 : Tight FixedDecimal.one := by decide
  refine ⟨z, by unfold compact; rw [e1, ok_bind]; exact e2, wz, vz, fun t => r2.tight (r1.tight t t1) t1, ?_, ?_⟩
  · have hf := hx.wf.frac_nonneg
    have hyf : y.frac ≤ x.frac := by
      by_cases v0 : val x = 0
      · have := add_ok_iff.mp e1
        unfold FixedDecimal.addTo at this
        rw [if_pos ((isZero_val hx.wf).mpr v0)] at this
        injection this with this
        rw [← this]; exact hf
      · rw [r1.scale v0 o0]; exact max_le le_rfl hf
    by_cases v0 : val y = 0
    · have := sub_ok_iff.mp e2
      unfold FixedDecimal.subTo at this
      rw [if_pos ((isZero_val wy.wf).mpr v0)] at this
      simp only [isNeg_eq] at this
      rw [if_neg (by decide)] at this
      injection this with this
      rw [← this]; exact le_trans (by decide) hf
    · rw [r2.scale v0 o0]; exact max_le hyf hf
  · intro k hk hlt
    by_cases v0 : val y = 0
    · have := sub_ok_iff.mp e2
      unfold FixedDecimal.subTo at this
      rw [if_pos ((isZero_val wy.wf).mpr v0)] at this
      simp only [isNeg_eq] at this
      rw [if_neg (by decide)] at this
      injection this with this
      rw [← this]
      exact le_trans (by decide) hk
    · have t := (C65_sub_trimmed wy.wf wf_one rfl v0 o0 (sub_ok_iff.mp e2)).1
      by_contra hc
      have h1 := t.lead (by omega)
      rw [← abs_val wz.wf, vz] at h1
      have h4 := (pow_lt_pow_iff_right₀ (by norm_num : (1 : ℚ) < 10)).mp (lt_of_le_of_lt h1 hlt)
      omega

theorem mul_ok_iff {a b r : FixedDecimal} : FixedDecimal.mul m a b = .ok r ↔ FixedDecimal.mulTo m a b FixedDecimal.blank = .ok r := by
  unfold FixedDecimal.mul
  cases FixedDecimal.mulTo m a b FixedDecimal.blank <;> simp [FixedDecimal.orPanic]

theorem rem_ok_iff {a b r : FixedDecimal} : FixedDecimal.rem m a b = .ok r ↔ FixedDecimal.remTo m a b FixedDecimal.blank = .ok r := by
  unfold FixedDecimal.rem
  cases FixedDecimal.remTo m a b FixedDecimal.blank <;> simp [FixedDecimal.orPanic]

theorem dec_intgDigits {s : Bool} {I F : Nat} {M : Int} (hI : I ≤ 81) : intgDigits (dec s I F M) = I := by
  have hb : ∀ I : Nat, I ≤ 81 → (BitVec.ofNat 8 (128 + I)).toNat = 128 + I ∧ (BitVec.ofNat 8 I).toNat = I := by decide
  obtain ⟨b1, b2⟩ := hb I hI
  unfold intgDigits dec; cases s
  · simp only [Bool.false_eq_true, if_false]; rw [b2]; omega
  · simp only [if_true]; rw [b1]; omega

/-- Products of whole numbers. -/
theorem whole_mul {a b : FixedDecimal} {A B : Int} {I J : Nat} (ha : Whole a A) (ta : Tight a) (hb : Whole b B) (tb : Tight b)
    (hi : iu a ≤ I) (hj : iu b ≤ J) (hI : 1 ≤ I) (hIJ : I + J ≤ 9) (hj1 : 1 ≤ J) :
    ∃ p, FixedDecimal.mul m a b = .ok p ∧ Whole p (A * B) ∧ Tight p ∧ iu p ≤ I + J := by
  have fa : fracDigits a = 0 := by unfold fracDigits; rw [ha.frac]; rfl
  have fb : fracDigits b = 0 := by unfold fracDigits; rw [hb.frac]; rfl
  have hA : intgDigits a ≤ 9 * I := by unfold iu unitsFor at hi; omega
  have hB : intgDigits b ≤ 9 * J := by unfold iu unitsFor at hj; omega
  have hfull : MulFull a b := by
    unfold MulFull mulFU
    rw [fa, fb]
    simp [unitsFor]
  by_cases z : val a = 0 ∨ val b = 0
  · have h := mulTo_zero m ha.wf hb.wf (res := FixedDecimal.blank) rfl z
    refine ⟨_, mul_ok_iff.mpr h, ⟨by decide, rfl, ?_⟩, by decide, ?_⟩
    · have : A * B = 0 := by
        rcases z with z | z
        · rw [ha.value] at z
          have : A = 0 := by exact_mod_cast z
          rw [this, zero_mul]
        · rw [hb.value] at z
          have : B = 0 := by exact_mod_cast z
          rw [this, mul_zero]
      rw [this]
      have h1 : mant FixedDecimal.zero = 0 := by decide
      unfold val absVal
      rw [h1]; simp
    · have : iu FixedDecimal.zero = 1 := by decide
      omega
  · have hz := z
    rw [not_or] at hz
    have ia : 1 ≤ iu a := by
      by_contra hc
      have h0 : iu a = 0 := by omega
      have := ha.wf.mant_lt
      rw [h0, ha.fu_eq] at this
      have h2 := ha.wf.mant_nonneg
      have h3 : mant a = 0 := by simp at this; omega
      exact hz.1 (val_eq_zero.mpr h3)
    have hfits : MulFits m a b := by
      refine ⟨by omega, by omega, .inl ?_⟩
      rw [hb.fu_eq]; omega
    obtain ⟨p, hp⟩ := (C56_mul_ok_iff m ta tb (res := FixedDecimal.blank) rfl).mpr (.inr (.inr hfits))
    obtain ⟨e1, e2, e3⟩ := C27_mul_exact m ta tb rfl hfull hp
    obtain ⟨-, e4⟩ := mul_intg ta tb rfl hp
    refine ⟨p, mul_ok_iff.mpr hp, ⟨e2.toWF, ?_, ?_⟩, e2, ?_⟩
    · rw [e3 hz.1 hz.2, ha.frac, hb.frac]; rfl
    · rw [e1, ha.value, hb.value]; push_cast; rfl
    · rcases e4 with e4 | e4
      · rw [e4]; have : iu FixedDecimal.zero = 1 := by decide
        omega
      · unfold iu; rw [e4, unitsFor_mul9]; unfold mulIU unitsFor; omega

/-- Compacting a whole number. -/
theorem whole_compact {a : FixedDecimal} {A : Int} {k : Nat} (ha : Whole a A) (ta : Tight a) (hi : iu a ≤ 8) (hk : 1 ≤ k) (hk7 : k ≤ 7)
    (hA : |A| < 10 ^ (9 * k)) : ∃ y, compact m a = .ok y ∧ Whole y A ∧ Tight y ∧ iu y ≤ k := by
  have hv : |val a| < 10 ^ (9 * k) := by rw [ha.value]; exact_mod_cast hA
  obtain ⟨y, e1, e2, e3, e4, e5, e6⟩ := C106_compact (m := m) (I := 8) (F := 0) ⟨ha.wf, hi, by rw [ha.fu_eq]⟩ (by norm_num) (by norm_num)
    (by
      have : (10 : ℚ) ^ (9 * k) ≤ 10 ^ 63 := pow_le_pow_right₀ (by norm_num) (by omega)
      have h2 : (10 : ℚ) ^ 63 + 1 < 10 ^ (9 * 8) := by norm_num
      linarith)
  exact ⟨y, e1, ⟨e2.wf, le_antisymm (ha.frac ▸ e5) e2.wf.frac_nonneg, by rw [e3, ha.value]⟩, e4 ta, e6 k hk hv⟩

/-! ## Products of any number of factors -/

/-- `for f in fs { acc = compact(acc * f) }` -/
def productLoop (m : Mode) : FixedDecimal → List FixedDecimal → Out Empty FixedDecimal
  | acc, [] => .ok acc
  | acc, f :: fs => do
    let p ← FixedDecimal.mul m acc f
    let acc' ← compact m p
    productLoop m acc' fs

/-- **C106** With the digit counts compacted after each product, whole factors of up to nine digits can be multiplied up in any
number: as long as every partial product is below 10^63 in magnitude, no step fails and the result is the exact product. -/
theorem C106_product : ∀ (fs : List FixedDecimal) (ns : List Int) {acc : FixedDecimal} {A : Int},
    List.Forall₂ (fun f n => Whole f n ∧ Tight f ∧ intgDigits f ≤ 9) fs ns → Whole acc A → Tight acc → intgDigits acc ≤ 63 →
    (∀ i, i ≤ ns.length → |A * (ns.take i).prod| < 10 ^ 63) →
    ∃ r, productLoop m acc fs = .ok r ∧ Whole r (A * ns.prod) ∧ Tight r
  | [], _, acc, A, h, ha, ta, hi, hb => by
    cases h
    exact ⟨acc, rfl, by simpa using ha, ta⟩
  | f :: fs, _, acc, A, h, ha, ta, hi, hb => by
    cases h with
    | @cons _ n _ ns h1 h2 =>
      obtain ⟨wf, tf, df⟩ := h1
      obtain ⟨p, e1, e2, e3, e4⟩ := whole_mul (m := m) (I := 7) (J := 1) ha ta wf tf (by unfold iu unitsFor; omega)
        (by unfold iu unitsFor; omega) (by norm_num) (by norm_num) (by norm_num)
      have hA : |A * n| < 10 ^ (9 * 7) := by
        have := hb 1 (by simp)
        simpa using this
      obtain ⟨y, c1, c2, c3, c4⟩ := whole_compact (m := m) e2 e3 e4 (by norm_num) (by norm_num) hA
      have ip : intgDigits y ≤ 63 := by unfold iu unitsFor at c4; omega
      obtain ⟨r, g1, g2, g3⟩ := C106_product fs ns h2 c2 c3 ip (by
        intro i hi
        have := hb (i + 1) (by simpa using hi)
        rw [List.take_succ_cons, List.prod_cons, ← mul_assoc] at this
        exact this)
      refine ⟨r, ?_, by rw [List.prod_cons, ← mul_assoc]; exact g2, g3⟩
      unfold productLoop
      rw [e1, ok_bind, c1, ok_bind]
      exact g1

/-- `let mut acc = one; for i in 1..=n { acc = compact(acc * from(i)) }` -/
def factorialLoop (m : Mode) : Nat → Out Empty FixedDecimal
  | 0 => .ok FixedDecimal.one
  | n + 1 => do
    let acc ← factorialLoop m n
    let f ← (FixedDecimal.fromU64 ((n : Int) + 1) : Out Empty FixedDecimal)
    let p ← FixedDecimal.mul m acc f
    compact m p

/-- **C106** The factorials up to 49! come out exactly. -/
theorem C106_factorial : ∀ {n : Nat}, n ≤ 49 → ∃ r, factorialLoop m n = .ok r ∧ Whole r (n.factorial : Int) ∧ Tight r ∧ iu r ≤ 7
  | 0, _ => ⟨FixedDecimal.one, rfl, ⟨by decide, rfl, by rw [val_one]; simp⟩, by decide, by decide⟩
  | n + 1, h => by
    obtain ⟨acc, a1, a2, a3, a4⟩ := C106_factorial (n := n) (by omega)
    obtain ⟨f, f1, f2, f3, f4, f5, f6⟩ := C45_from_u64 (σ := Empty) (n := (n : Int) + 1) (by omega) (by norm_num; omega)
    have hi : iu f ≤ 1 := by
      have h1 := C72_from_u64 (σ := Empty) (n := (n : Int) + 1) (by omega) (by norm_num; omega)
      rw [f1] at h1
      injection h1 with h1
      have hc : unitCount |(n : Int) + 1| ≤ 1 := (unitCount_le (abs_nonneg _) 1).mpr (by rw [abs_of_nonneg (by omega)]; norm_num; omega)
      have h2 : 9 * (unitCount |(n : Int) + 1| - unitsFor 0) ≤ 9 := by omega
      rw [h1]
      unfold trimmed iu
      rw [dec_intgDigits (by omega)]
      unfold unitsFor at *; omega
    obtain ⟨p, e1, e2, e3, e4⟩ := whole_mul (m := m) (I := 7) (J := 1) a2 a3 ⟨f4.toWF, f5, f2⟩ f4 a4 hi (by norm_num) (by norm_num)
      (by norm_num)
    have ef : ((n.factorial : Int) * ((n : Int) + 1)) = ((n + 1).factorial : Int) := by
      rw [Nat.factorial_succ]; push_cast; ring
    rw [ef] at e2
    have hb : |((n + 1).factorial : Int)| < 10 ^ (9 * 7) := by
      rw [abs_of_nonneg (Int.natCast_nonneg _)]
      have h1 : (n + 1).factorial ≤ (49).factorial := Nat.factorial_le h
      have h2 : (49).factorial < 10 ^ 63 := by decide +kernel
      exact_mod_cast lt_of_le_of_lt h1 h2
    obtain ⟨y, c1, c2, c3, c4⟩ := whole_compact (m := m) e2 e3 e4 (by norm_num) (by norm_num) hb
    refine ⟨y, ?_, c2, c3, c4⟩
    unfold factorialLoop
    rw [a1, ok_bind, f1, ok_bind, e1, ok_bind]
    exact c1

/-- The remainder claims no more digits than the dividend. -/
theorem rem_intg_le {a b res r : FixedDecimal} (ha : WF a) (hb : WF b) (hres : res.lsu.length = 9)
    (h : FixedDecimal.remTo m a b res = .ok r) : iu r ≤ max 1 (iu a) := by
  have e := C72_rem m ha hb hres
  rw [h] at e
  have hin : ∀ {s : Bool} {I F : Nat} {M : Int}, I ≤ 81 → r = dec s I F M → iu r = unitsFor I := by
    intro s I F M hI hr
    rw [hr]
    unfold iu; rw [dec_intgDigits hI]
  obtain ⟨q, hq, hqr⟩ := remTo_ok_iff.mp h
  obtain ⟨zb, wq, -, hlt, -, -, -, -, hcode⟩ := remAbs_ok ha hb hres hq
  have ia : intgDigits a ≤ 81 := ha.intg_le
  unfold refRem at e
  rw [if_neg zb] at e
  by_cases c1 : mant a = 0 ∨ remA a b = remB a b
  · rw [if_pos c1] at e
    simp only [seen, Option.some.injEq, Except.ok.injEq] at e
    rw [hin (by norm_num) e]
    exact le_max_left _ _
  rw [if_neg c1] at e
  by_cases c2 : remA a b < remB a b
  · rw [if_pos c2] at e
    by_cases c3 : RemNoRoom a b
    · rw [if_pos c3] at e; simp [seen] at e
    rw [if_neg c3] at e
    simp only [seen, Option.some.injEq, Except.ok.injEq] at e
    rw [hin ia e]
    exact le_max_right _ _
  rw [if_neg c2] at e
  by_cases c3 : RemFull a b ∧ LeadGe a b ∨ m = .debug ∧ (RemAssert a b ∨ RemFull a b)
  · rw [if_pos c3] at e; simp [seen] at e
  rw [if_neg c3] at e
  simp only [seen, Option.some.injEq, Except.ok.injEq] at e
  have hab : absVal b ≤ absVal a := not_lt.mp (fun h => c2 (remA_lt_remB.mpr h))
  have hc0 : 0 ≤ codeRem a b := by
    have h1 := absVal_nonneg wq
    rw [hcode] at h1
    have h2 : (0 : ℚ) < 10 ^ (9 * max (fu a) (fu b)) := by positivity
    have h3 : (0 : ℚ) ≤ codeRem a b := by
      by_contra hc
      exact absurd h1 (not_le.mpr (div_neg_of_neg_of_pos (not_le.mp hc) h2))
    exact_mod_cast h3
  have hcl : codeRem a b < 10 ^ (9 * (iu a + max (fu a) (fu b))) := by
    have h1 : (codeRem a b : ℚ) / 10 ^ (9 * max (fu a) (fu b)) < 10 ^ (9 * iu a) := by
      rw [← hcode]
      exact lt_trans (lt_of_lt_of_le hlt hab) (absVal_lt_pow ha)
    rw [div_lt_iff₀ (by positivity), ← pow_add] at h1
    rw [mul_add]
    exact_mod_cast h1
  have hdd : decDigits (codeRem a b) ≤ 9 * (iu a + max (fu a) (fu b)) := by
    unfold decDigits
    split_ifs with h0
    · omega
    · have h2 : (codeRem a b).toNat < 10 ^ (9 * (iu a + max (fu a) (fu b))) := by
        have : ((codeRem a b).toNat : Int) < 10 ^ (9 * (iu a + max (fu a) (fu b))) := by rw [Int.toNat_of_nonneg hc0]; exact hcl
        exact_mod_cast this
      exact Nat.log_lt_of_lt_pow' (by
        intro hc
        rw [hc] at h2
        simp only [pow_zero] at h2
        omega) h2
  rw [hin (by unfold iu unitsFor at *; omega) e]
  refine le_trans ?_ (le_max_right _ _)
  unfold unitsFor; omega

/-! ## Arithmetic modulo M -/

/-- `compact((x * y) % md)` -/
def mulMod (m : Mode) (md x y : FixedDecimal) : Out Empty FixedDecimal := do
  let p ← FixedDecimal.mul m x y
  let r ← FixedDecimal.rem m p md
  compact m r

/-- Residues as the loop below keeps them: whole, below the modulus, at most 18 digits claimed. -/
structure Residue (M : Nat) (x : FixedDecimal) (A : Nat) : Prop where
  whole : Whole x A
  tight : Tight x
  units : iu x ≤ 2
  below : A < M

/-- **C106** One modular product. -/
theorem C106_mulMod {md x y : FixedDecimal} {M A B : Nat} (hm : Whole md M) (tm : Tight md)
    (hM : M < if m = .release then 10 ^ 18 else 10 ^ 9) (hx : Residue M x A) (hy : Residue M y B) :
    ∃ r, mulMod m md x y = .ok r ∧ Residue M r (A * B % M) := by
  have hM0 : 0 < M := lt_of_le_of_lt (Nat.zero_le _) hx.below
  have hM18 : M < 10 ^ 18 := by
    split_ifs at hM
    · exact hM
    · exact lt_trans hM (by norm_num)
  obtain ⟨p, e1, e2, e3, e4⟩ := whole_mul (m := m) (I := 2) (J := 2) hx.whole hx.tight hy.whole hy.tight hx.units hy.units (by norm_num)
    (by norm_num) (by norm_num)
  have ha : |(M : Int)| < 10 ^ 18 := by rw [abs_of_nonneg (Int.natCast_nonneg _)]; exact_mod_cast hM18
  obtain ⟨r1, r2⟩ := C104_int_rem (m := m) (res := FixedDecimal.blank) e2 hm rfl (by omega) ha
  obtain ⟨r, hr⟩ := r2 (by
    by_cases h : m = .release
    · exact .inl h
    · rw [if_neg h] at hM
      exact .inr (.inr (by rw [abs_of_nonneg (Int.natCast_nonneg _)]; exact_mod_cast hM)))
  have wr := r1 r hr
  have er : ((A : Int) * B).tmod M = ((A * B % M : Nat) : Int) := by
    rw [Int.tmod_eq_emod_of_nonneg (by positivity)]; push_cast; rfl
  rw [er] at wr
  have tr : Tight r := remTo_tight e3 tm (res := FixedDecimal.blank) rfl
    (not_tooBig_two (two_unit_top hm.wf (by rw [hm.mant_eq]; norm_num at ha ⊢; exact ha))) hr
  have ir := rem_intg_le e2.wf hm.wf (res := FixedDecimal.blank) rfl hr
  have hlt : A * B % M < M := Nat.mod_lt _ hM0
  obtain ⟨z, c1, c2, c3, c4⟩ := whole_compact (m := m) (k := 2) wr tr (by omega) (by norm_num) (by norm_num)
    (by rw [abs_of_nonneg (Int.natCast_nonneg _)]; exact_mod_cast lt_trans hlt hM18)
  refine ⟨z, ?_, c2, c3, c4, hlt⟩
  unfold mulMod
  rw [e1, ok_bind, rem_ok_iff.mpr hr, ok_bind]
  exact c1

/-- Square and multiply: `while e > 0 { if e % 2 == 1 { acc = acc * b % md }; b = b * b % md; e /= 2 }`. -/
def powLoop (m : Mode) (md acc b : FixedDecimal) (e : Nat) : Out Empty FixedDecimal :=
  if _h : e = 0 then .ok acc
  else do
    let acc' ← (if e % 2 = 1 then mulMod m md acc b else .ok acc : Out Empty FixedDecimal)
    let b' ← mulMod m md b b
    powLoop m md acc' b' (e / 2)
termination_by e

/-- **C106** Modular powers, for every exponent: no step fails, and the answer is the power modulo `M`. -/
theorem C106_pow {md : FixedDecimal} {M : Nat} (hm : Whole md M) (tm : Tight md) (hM : M < if m = .release then 10 ^ 18 else 10 ^ 9) :
    ∀ (e : Nat) {acc b : FixedDecimal} {A B : Nat}, Residue M acc A → Residue M b B →
      ∃ r, powLoop m md acc b e = .ok r ∧ Residue M r (A * B ^ e % M) := by
  intro e
  induction e using Nat.strong_induction_on with
  | _ e ih =>
    intro acc b A B ha hb
    by_cases h : e = 0
    · refine ⟨acc, by rw [powLoop, dif_pos h], ?_⟩
      rw [h, pow_zero, mul_one, Nat.mod_eq_of_lt ha.below]; exact ha
    · obtain ⟨b', e1, e2⟩ := C106_mulMod hm tm hM hb hb
      have key : ∀ {acc' : FixedDecimal} {A' : Nat}, Residue M acc' A' → A' * (B * B % M) ^ (e / 2) % M = A * B ^ e % M →
          (if e % 2 = 1 then mulMod m md acc b else .ok acc) = .ok acc' →
          ∃ r, powLoop m md acc b e = .ok r ∧ Residue M r (A * B ^ e % M) := by
        intro acc' A' h1 h2 h3
        obtain ⟨r, g1, g2⟩ := ih (e / 2) (by omega) h1 e2
        refine ⟨r, ?_, h2 ▸ g2⟩
        rw [powLoop, dif_neg h, h3, ok_bind, e1, ok_bind]
        exact g1
      have hsq : ∀ A', A' * (B * B % M) ^ (e / 2) % M = A' * B ^ (2 * (e / 2)) % M := by
        intro A'
        rw [Nat.mul_mod, Nat.pow_mod, Nat.mod_mod, ← Nat.pow_mod, ← Nat.mul_mod, pow_mul, pow_two]
      by_cases ho : e % 2 = 1
      · obtain ⟨c, c1, c2⟩ := C106_mulMod hm tm hM ha hb
        refine key c2 ?_ (by rw [if_pos ho, c1])
        rw [hsq, Nat.mul_mod, Nat.mod_mod, ← Nat.mul_mod]
        have he : B ^ e = B * B ^ (2 * (e / 2)) := by
          rw [← pow_succ']; congr 1; omega
        rw [he, mul_assoc]
      · refine key ha ?_ (by rw [if_neg ho])
        rw [hsq]
        have he : 2 * (e / 2) = e := by omega
        rw [he]

/-! ## Compounding for any number of periods -/

/-- `x = compact(round(x * p, k))`, for one rate `p` after the other (the two calls unwrapped). -/
def growth (m : Mode) (k : Nat) : FixedDecimal → List FixedDecimal → Out Empty FixedDecimal
  | x, [] => .ok x
  | x, p :: ps => do
    let y ← FixedDecimal.orPanic (charge m k x p)
    let z ← compact m y
    growth m k z ps

/-- **C106** Compound growth for any number of periods: rates from 1 to below 10^8 with at most `f` digits after the point,
amounts from 1 with at most `k`. As long as the final amount, rounding errors included, is below `10^(9 u)` with
`u + 1 + ceil((k + f) / 9) <= 8`, no step fails and the outcome is off the exact one by at most half a unit per period, each
carried along by the rates that follow. -/
theorem C106_growth {k f u : Nat} (h4 : unitsFor (k + f) ≤ 4) (hroom : u + 1 + unitsFor (k + f) ≤ 8) (hu : 1 ≤ u) :
    ∀ (ps : List FixedDecimal) {a : FixedDecimal}, Tight a → fracDigits a ≤ k → iu a ≤ u → 1 ≤ val a →
      (∀ p ∈ ps, Tight p ∧ intgDigits p ≤ 8 ∧ fracDigits p ≤ f ∧ 1 ≤ val p) →
      val a * (ps.map val).prod + carried (ps.map val) * (1 / 10 ^ k / 2) < 10 ^ (9 * u) →
      ∃ r, growth m k a ps = .ok r ∧ Tight r ∧ 1 ≤ val r ∧ |val r - val a * (ps.map val).prod| ≤ carried (ps.map val) * (1 / 10 ^ k / 2)
  | [], a, ha, _, _, h1, _, _ => ⟨a, rfl, ha, h1, by simp [carried]⟩
  | p :: ps, a, ha, hk, hu', h1, hps, hfin => by
    obtain ⟨hp, hpi, hpf, hp1⟩ := hps p (by simp)
    have ha1 : 1 ≤ intgDigits a := by
      by_contra hc
      have h0 : intgDigits a = 0 := by omega
      have := tight_lt_pow ha
      rw [h0, pow_zero] at this
      linarith [le_abs_self (val a)]
    obtain ⟨y, e1, e2, e3, e4, e5, e6⟩ := charge_ok (m := m) (u := u) ha ha1 hk hu' hp hpi hpf h4 hroom
    set h := (1 : ℚ) / 10 ^ k / 2 with hh
    set P := (ps.map val).prod with hP
    have hP1 : 1 ≤ P := by
      rw [hP]
      have : ∀ {qs : List FixedDecimal}, (∀ q ∈ qs, 1 ≤ val q) → 1 ≤ (qs.map val).prod := by
        intro qs
        induction qs with
        | nil => intro _; simp
        | cons q qs ih =>
          intro hq
          rw [List.map_cons, List.prod_cons]
          have i1 := ih (fun x hx => hq x (by simp [hx]))
          have i2 := hq q (by simp)
          nlinarith
      exact this (fun q hq => (hps q (by simp [hq])).2.2.2)
    have hc0 : 0 ≤ carried (ps.map val) := by
      have : ∀ qs : List ℚ, 0 ≤ carried qs := by
        intro qs
        induction qs with
        | nil => simp [carried]
        | cons q qs ih => rw [carried]; have := abs_nonneg qs.prod; linarith
      exact this _
    have h0 : 0 < h := by rw [hh]; positivity
    rw [List.map_cons, List.prod_cons, carried, ← hP, abs_of_nonneg (by linarith : (0 : ℚ) ≤ P), add_mul] at hfin
    have y1 : 1 ≤ val y := by
      have hk127 : k ≤ 127 := by unfold unitsFor at h4; omega
      have hfull : MulFull a p := by
        have hux : intgDigits a ≤ 9 * u := by unfold iu unitsFor at hu'; omega
        have hmi : mulIU a p ≤ u + 1 := by unfold mulIU unitsFor; omega
        have hmf : unitsFor (fracDigits a + fracDigits p) ≤ unitsFor (k + f) := unitsFor_mono (by omega)
        unfold MulFull mulFU; omega
      rw [(C83_charge ha hp hfull hk127 e1).1, le_div_iff₀ (by positivity), one_mul]
      have h10 : (10 : ℚ) ^ k = ((10 ^ k : Int) : ℚ) := by push_cast; rfl
      have hm := halfAway_mono (p := ((10 ^ k : Int) : ℚ)) (q := val a * val p * 10 ^ k) (by
        rw [← h10]
        have : (0 : ℚ) < 10 ^ k := by positivity
        nlinarith [mul_le_mul h1 hp1 (by norm_num) (by linarith : (0 : ℚ) ≤ val a)])
      rw [halfAway_int] at hm
      rw [h10]
      exact_mod_cast hm
    have hy : val y ≤ val a * val p + h := by have := (abs_le.mp e6).2; linarith
    have b1 : val y * P + carried (ps.map val) * h < 10 ^ (9 * u) := by nlinarith
    have b2 : val y < 10 ^ (9 * u) := by nlinarith [mul_nonneg hc0 h0.le]
    have habs : |val y| = val y := abs_of_nonneg (by linarith)
    have hfu : fu y ≤ unitsFor (k + f) := by unfold fu; rw [e4]; exact unitsFor_mono (by omega)
    obtain ⟨z, c1, c2, c3, c4, c5, c6⟩ := C106_compact (m := m) (I := u + 1) (F := unitsFor (k + f)) ⟨e2.toWF, e5, hfu⟩ (by omega) hroom (by
      rw [habs, show 9 * (u + 1) = 9 * u + 9 by omega, pow_add]
      have : (1 : ℚ) ≤ 10 ^ (9 * u) := one_le_pow₀ (by norm_num)
      linarith)
    have zk : fracDigits z ≤ k := by
      rw [← e4]; unfold fracDigits; omega
    obtain ⟨r, g1, g2, g3, g4⟩ := C106_growth h4 hroom hu ps (c4 e2) zk (c6 u hu (by rw [habs]; exact b2)) (by rw [c3]; exact y1)
      (fun q hq => hps q (by simp [hq])) (by rw [c3]; exact b1)
    refine ⟨r, ?_, g2, g3, ?_⟩
    · unfold growth
      rw [e1]
      show (compact m y >>= fun z => growth m k z ps) = _
      rw [c1, ok_bind]
      exact g1
    · rw [c3, ← hP, ← hh] at g4
      rw [List.map_cons, List.prod_cons, carried, ← hP, abs_of_nonneg (by linarith : (0 : ℚ) ≤ P)]
      have : |val r - val a * (val p * P)| ≤ |val r - val y * P| + P * |val y - val a * val p| := by
        have := abs_add_le (val r - val y * P) (P * (val y - val a * val p))
        rwa [show val r - val y * P + P * (val y - val a * val p) = val r - val a * (val p * P) by ring, abs_mul,
          abs_of_nonneg (by linarith : (0 : ℚ) ≤ P)] at this
      have h5 : P * |val y - val a * val p| ≤ P * h := mul_le_mul_of_nonneg_left e6 (by linarith)
      rw [add_mul]
      linarith

/-! ## What happens without -/

/-- `acc = (acc * b) % md`, `n` times. -/
def plainPow (m : Mode) (md b : FixedDecimal) : Nat → FixedDecimal → Out Empty FixedDecimal
  | 0, acc => .ok acc
  | n + 1, acc => do
    let p ← FixedDecimal.mul m acc b
    let r ← FixedDecimal.rem m p md
    plainPow m md b n r

/-- **C106** Without compacting, even powers of one fail: 1 * 1 % 97 nine times over, with all the numbers converted from `u64`, is an
overflow. -/
theorem C106_uncompacted (m : Mode) :
    ∃ one md : FixedDecimal, (FixedDecimal.fromU64 1 : Out Empty _) = .ok one ∧ (FixedDecimal.fromU64 97 : Out Empty _) = .ok md ∧
      (∃ r, plainPow m md one 8 one = .ok r ∧ intgDigits r = 81) ∧ plainPow m md one 9 one = .panic (.operator .overflow) := by
  refine ⟨⟨9#8, 0, [1, 0, 0, 0, 0, 0, 0, 0, 0]⟩, ⟨9#8, 0, [97, 0, 0, 0, 0, 0, 0, 0, 0]⟩, by decide +kernel, by decide +kernel, ?_, ?_⟩
  · refine ⟨⟨81#8, 0, [1, 0, 0, 0, 0, 0, 0, 0, 0]⟩, by cases m <;> decide +kernel, by decide⟩
  · cases m <;> decide +kernel

/-! ## Non-vacuity -/

theorem whole_mk {d : FixedDecimal} {k : Nat} (w : WF d) (f : d.frac = 0) (e : mant d = k) (s : neg d = false) : Whole d k := by
  refine ⟨w, f, ?_⟩
  have hf : fu d = 0 := by unfold fu fracDigits; rw [f]; rfl
  unfold val absVal
  rw [s, e, hf]; simp

/-- 3^(10^20) modulo 998244353, in both builds. -/
example : ∃ r, powLoop m ⟨9#8, 0, [998244353, 0, 0, 0, 0, 0, 0, 0, 0]⟩ ⟨1#8, 0, [1, 0, 0, 0, 0, 0, 0, 0, 0]⟩ ⟨1#8, 0, [3, 0, 0, 0, 0, 0, 0, 0, 0]⟩
      (10 ^ 20) = .ok r ∧ Residue 998244353 r (1 * 3 ^ (10 ^ 20) % 998244353) :=
  C106_pow (M := 998244353) (whole_mk (by decide) rfl (by decide +kernel) (by decide)) (by decide +kernel) (by cases m <;> simp) (10 ^ 20)
    ⟨whole_mk (k := 1) (by decide) rfl (by decide +kernel) (by decide), by decide, by decide, by norm_num⟩
    ⟨whole_mk (k := 3) (by decide) rfl (by decide +kernel) (by decide), by decide, by decide, by norm_num⟩

/-- 1 with 72 integral digits claimed becomes 1 with nine. -/
example : compact m ⟨72#8, 0, [1, 0, 0, 0, 0, 0, 0, 0, 0]⟩ = .ok ⟨9#8, 0, [1, 0, 0, 0, 0, 0, 0, 0, 0]⟩ ∧
    Within 8 0 ⟨72#8, 0, [1, 0, 0, 0, 0, 0, 0, 0, 0]⟩ := by
  refine ⟨by cases m <;> decide +kernel, by decide, by decide, by decide⟩

/-- -7 * 11 from 1, the numbers as converted from integers. -/
example : ∃ r, productLoop m FixedDecimal.one [⟨137#8, 0, [7, 0, 0, 0, 0, 0, 0, 0, 0]⟩, ⟨9#8, 0, [11, 0, 0, 0, 0, 0, 0, 0, 0]⟩] = .ok r ∧
    Whole r (1 * ([-7, 11] : List Int).prod) ∧ Tight r := by
  have w7 : Whole ⟨137#8, 0, [7, 0, 0, 0, 0, 0, 0, 0, 0]⟩ (-7) := by
    refine ⟨by decide, rfl, ?_⟩
    have e1 : mant ⟨137#8, 0, [7, 0, 0, 0, 0, 0, 0, 0, 0]⟩ = 7 := by decide
    have e2 : fu ⟨137#8, 0, [7, 0, 0, 0, 0, 0, 0, 0, 0]⟩ = 0 := by decide
    have e3 : neg ⟨137#8, 0, [7, 0, 0, 0, 0, 0, 0, 0, 0]⟩ = true := by decide
    unfold val absVal; rw [e1, e2, e3]; simp
  refine C106_product _ [-7, 11] (.cons ⟨w7, by decide, by decide⟩ (.cons ⟨whole_mk (k := 11) (by decide) rfl (by decide) (by decide), by decide, by decide⟩ .nil))
    (whole_mk (k := 1) (by decide) rfl (by decide) (by decide)) (by decide) (by decide) ?_
  intro i hi
  have : i = 0 ∨ i = 1 ∨ i = 2 := by simp at hi; omega
  rcases this with rfl | rfl | rfl <;> norm_num

/-- 100.00 at 1.0837 for thirty periods; C100 admits six. -/
example : ∃ r, growth m 2 qHundred (List.replicate 30 qRate) = .ok r ∧ Tight r ∧ 1 ≤ val r ∧
    |val r - val qHundred * ((List.replicate 30 qRate).map val).prod| ≤ carried ((List.replicate 30 qRate).map val) * (1 / 10 ^ 2 / 2) := by
  have vh : val qHundred = 100 := by
    have e1 : mant qHundred = 100000000000 := by decide
    have e2 : fu qHundred = 1 := by decide
    have e3 : neg qHundred = false := by decide
    unfold val absVal; rw [e1, e2, e3]; norm_num
  have vr : val qRate = 10837 / 10000 := by
    have e1 : mant qRate = 1083700000 := by decide
    have e2 : fu qRate = 1 := by decide
    have e3 : neg qRate = false := by decide
    unfold val absVal; rw [e1, e2, e3]; norm_num
  refine C106_growth (f := 4) (u := 6) (by decide) (by decide) (by norm_num) _ (by decide) (by decide) (by decide) (by rw [vh]; norm_num) ?_ ?_
  · intro p hp
    rw [List.eq_of_mem_replicate hp]
    exact ⟨by decide, by decide, by decide, by rw [vr]; norm_num⟩
  · rw [vh, List.map_replicate, vr]
    norm_num [carried, List.replicate]

end Props
end Fxd
