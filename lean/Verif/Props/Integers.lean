import Verif.Props.Remainders
import Mathlib.Data.Nat.Digits.Defs
/-!
# Property C104: integer division, and digits in any base

With an increment of zero, `div_to` of two decimals of scale zero has no fraction: it is integer division.
-/

namespace Fxd
open Spec

namespace Props
variable {m : Mode}

/-- A whole number of scale zero. -/
structure Whole (d : FixedDecimal) (n : Int) : Prop where
  wf : WF d
  frac : d.frac = 0
  value : val d = n

theorem Whole.fu_eq {d : FixedDecimal} {n : Int} (h : Whole d n) : fu d = 0 := by
  unfold fu fracDigits; rw [h.frac]; rfl

theorem Whole.mant_eq {d : FixedDecimal} {n : Int} (h : Whole d n) : mant d = |n| := by
  have h1 := abs_val h.wf
  unfold absVal at h1
  rw [h.value, h.fu_eq] at h1
  simp at h1
  have h2 : ((|n| : Int) : ℚ) = (mant d : ℚ) := by push_cast; exact h1
  exact_mod_cast h2.symm

theorem mant_lt {d : FixedDecimal} (h : WF d) : mant d < 10 ^ 81 := by
  calc mant d < 1000000000 ^ (iu d + fu d) := h.mant_lt
    _ ≤ 1000000000 ^ 9 := pow_le_pow_right₀ (by norm_num) h.fits
    _ = 10 ^ 81 := by norm_num

/-- Digits planned for the quotient of whole numbers. -/
theorem whole_quo {a b : FixedDecimal} {A B : Int} (ha : Whole a A) (hb : Whole b B) :
    QuoRange a b 0 ∧ quoIntg a b ≤ 81 ∧ ¬ QuoSpill a b 0 ∧ quoFU a b 0 = 0 := by
  have f0 : quoFrac a b 0 = 0 := by
    unfold quoFrac quoWant fracDigits
    rw [ha.fu_eq, hb.fu_eq, ha.frac, hb.frac]
    decide
  have da : 1 ≤ digitCount a := by unfold digitCount; omega
  have db : 1 ≤ digitCount b := by unfold digitCount; omega
  have ub : ∀ {x : FixedDecimal}, WF x → digitCount x ≤ 81 := by
    intro x hx
    unfold digitCount
    have h1 := mant_lt hx
    have h2 : (mant x).toNat < 10 ^ 81 := by
      have := hx.mant_nonneg
      omega
    have := Nat.log_lt_of_lt_pow' (b := 10) (by norm_num) h2
    omega
  have ua := ub ha.wf
  have ub' := ub hb.wf
  have hq : quoIntg a b = (digitCount a : Int) - digitCount b + if LeadGe a b then 1 else 0 := by
    unfold quoIntg
    rw [ha.fu_eq, hb.fu_eq]; simp
  have hfu : quoFU a b 0 = 0 := by
    unfold quoFU; rw [f0]; simp [unitsFor]
  refine ⟨?_, ?_, ?_, hfu⟩
  · unfold QuoRange
    rw [f0, hq]
    split_ifs <;> omega
  · rw [hq]; split_ifs <;> omega
  · rintro ⟨h1, -, -, h4⟩
    rw [hfu, add_zero] at h4
    have h10 : 10 ≤ digitCount b := by
      have : (1 : Nat) ≤ Nat.log 1000000000 (mant b).toNat := Nat.one_le_iff_ne_zero.mpr h1
      have h5 := Nat.pow_le_of_le_log (b := 1000000000) (by
        intro h0
        rw [h0] at this; simp at this) this
      have h6 : 9 ≤ Nat.log 10 (mant b).toNat := Nat.le_log_of_pow_le (by norm_num) (by norm_num at h5 ⊢; exact h5)
      unfold digitCount; omega
    have : quoIU a b ≤ 8 := by
      unfold quoIU unitsFor
      rw [hq]
      split_ifs <;> omega
    omega

/-- **C104** `div_to` with no extra digits is the integer division of whole numbers (truncated, as in Rust), for divisors below
10^18 in magnitude; a release build computes all of them, a debug build those by divisors below 10^9. -/
theorem C104_int_div {a b res : FixedDecimal} {A B : Int} (ha : Whole a A) (hb : Whole b B) (hres : res.lsu.length = 9)
    (hB : B ≠ 0) (hs : |B| < 10 ^ 18) :
    (∀ q, FixedDecimal.divTo m a b res 0 = .ok q → Whole q (A.tdiv B)) ∧
    (m = .release ∨ |B| < 10 ^ 9 → ∃ q, FixedDecimal.divTo m a b res 0 = .ok q) := by
  have zb : val b ≠ 0 := by rw [hb.value]; exact_mod_cast hB
  by_cases hA : A = 0
  · have e := C34_zero_div m ha.wf hb.wf hres (by rw [ha.value, hA]; simp) zb 0
    refine ⟨fun q hq => ?_, fun _ => ⟨_, e⟩⟩
    rw [e] at hq
    injection hq with hq
    subst hq
    exact ⟨wf_zero, rfl, by rw [val_zero, hA]; simp⟩
  have za : val a ≠ 0 := by rw [ha.value]; exact_mod_cast hA
  obtain ⟨w1, w2, w3, w4⟩ := whole_quo ha hb
  have h2 : TwoUnits b := two_unit_top hb.wf (by rw [hb.mant_eq]; norm_num at hs; exact hs)
  constructor
  · intro q hq
    have hq' : FixedDecimal.divTo m a b res ((0 : Nat) : Int) = .ok q := hq
    obtain ⟨w, -, -, hv⟩ := (C36_two_units_partial m ha.wf hb.wf hres za zb h2 (incr := 0) (by norm_num)).1 q hq'
    obtain ⟨hf, -⟩ := C57_scale m ha.wf hb.wf hres za zb (incr := 0) (by norm_num) hq'
    rw [w4] at hf
    have hf0 : q.frac = 0 := by simpa using hf
    refine ⟨w, hf0, ?_⟩
    rw [hv (by rw [hb.fu_eq]; omega)]
    have : fracDigits q = 0 := by unfold fracDigits; rw [hf0]; rfl
    rw [this, ha.value, hb.value]
    unfold truncQuot
    rw [pow_zero, mul_one, div_one, truncZ_int]
  · intro h
    by_cases h9 : |B| < 10 ^ 9
    · exact (C35_short_div_ok m ha.wf hb.wf hres za zb (by rw [hb.mant_eq]; norm_num at h9; exact h9) (incr := 0)
        (by norm_num)).mpr ⟨w1, w2⟩
    · have : m = .release := h.resolve_right h9
      subst this
      exact (C58_release_ok_iff ha.wf hb.wf hres za zb (incr := 0) (by norm_num)).mpr ⟨w1, w2, w3⟩

/-- **C104** Remainders of whole numbers, of any length (C63 is about converted 64-bit integers). -/
theorem C104_int_rem {a b res : FixedDecimal} {A B : Int} (ha : Whole a A) (hb : Whole b B) (hres : res.lsu.length = 9)
    (hB : B ≠ 0) (hs : |B| < 10 ^ 18) :
    (∀ r, FixedDecimal.remTo m a b res = .ok r → Whole r (A.tmod B)) ∧
    (m = .release ∨ |A| < 10 ^ 18 ∨ |B| < 10 ^ 9 → ∃ r, FixedDecimal.remTo m a b res = .ok r) := by
  have zb : val b ≠ 0 := by rw [hb.value]; exact_mod_cast hB
  have h2 : TwoUnits b := two_unit_top hb.wf (by rw [hb.mant_eq]; norm_num at hs; exact hs)
  constructor
  · intro r hr
    have hw := (C37_bounded m ha.wf hb.wf hres hr).1
    refine ⟨hw, ?_, ?_⟩
    · by_cases za : val a = 0
      · rw [C34_zero_rem m ha.wf hb.wf hres za zb] at hr
        injection hr with hr; subst hr; rfl
      by_cases he : |val a| = |val b|
      · rw [C38_equal m ha.wf hb.wf hres zb he] at hr
        injection hr with hr; subst hr; rfl
      have := (C37_bounded m ha.wf hb.wf hres hr).2.2.2 za he
      have h0 := hw.frac_nonneg
      unfold fracDigits at this
      rw [ha.frac, hb.frac] at this
      simp at this
      omega
    · rw [C37_two_units_partial m ha.wf hb.wf hres h2 hr, ha.value, hb.value, truncRem_int]
  · intro h
    refine rem_small ha.wf hb.wf hres (by rw [ha.fu_eq, hb.fu_eq]) zb ?_
    unfold Small
    rw [ha.mant_eq, hb.mant_eq]
    exact ⟨hs, h⟩

/-- `while !n.is_zero() { digits.push(n % base); n = n / base }` with the integer division above: the list it builds. -/
inductive DigitLoop (m : Mode) (res base : FixedDecimal) : FixedDecimal → List FixedDecimal → Prop
  | stop {n : FixedDecimal} : n.isZero = true → DigitLoop m res base n []
  | next {n d q : FixedDecimal} {ds : List FixedDecimal} : n.isZero = false → FixedDecimal.remTo m n base res = .ok d →
      FixedDecimal.divTo m n base res 0 = .ok q → DigitLoop m res base q ds → DigitLoop m res base n (d :: ds)

/-- **C104** The loop ends and gives the digits of the number in that base, lowest first: any number of at most 81 digits, any
base from 2 to 10^18 - 1 (debug builds: to 10^9 - 1). -/
theorem C104_digits {n base res : FixedDecimal} {N B : Nat} (hn : Whole n N) (hb : Whole base B) (hres : res.lsu.length = 9)
    (hB : 2 ≤ B) (hs : B < if m = .release then 10 ^ 18 else 10 ^ 9) :
    ∃ ds, DigitLoop m res base n ds ∧ ds.map val = (Nat.digits B N).map (fun k : Nat => (k : ℚ)) := by
  have hB0 : (B : Int) ≠ 0 := by omega
  have hs18 : |(B : Int)| < 10 ^ 18 := by
    rw [abs_of_nonneg (by omega)]
    split_ifs at hs
    · exact_mod_cast hs
    · have : B < 10 ^ 18 := lt_trans hs (by norm_num)
      exact_mod_cast this
  have hmode : m = .release ∨ |(B : Int)| < 10 ^ 9 := by
    by_cases h : m = .release
    · exact Or.inl h
    · rw [if_neg h] at hs
      refine Or.inr ?_
      rw [abs_of_nonneg (by omega)]; exact_mod_cast hs
  induction N using Nat.strong_induction_on generalizing n with
  | _ N ih =>
    by_cases h0 : N = 0
    · subst h0
      exact ⟨[], .stop ((isZero_val hn.wf).mpr (by rw [hn.value]; simp)), by simp⟩
    · have nz : n.isZero = false := by
        rw [Bool.eq_false_iff, Ne, isZero_val hn.wf, hn.value]
        exact_mod_cast h0
      obtain ⟨r1, r2⟩ := C104_int_rem (m := m) hn hb hres hB0 hs18
      obtain ⟨q1, q2⟩ := C104_int_div (m := m) hn hb hres hB0 hs18
      obtain ⟨r, hr⟩ := r2 (hmode.imp_right Or.inr)
      obtain ⟨q, hq⟩ := q2 hmode
      have wr := r1 r hr
      have wq := q1 q hq
      have eq : ((N : Int).tdiv B) = ((N / B : Nat) : Int) := by simp [Int.tdiv_eq_ediv_of_nonneg]
      have er : ((N : Int).tmod B) = ((N % B : Nat) : Int) := by simp [Int.tmod_eq_emod_of_nonneg]
      rw [eq] at wq
      rw [er] at wr
      obtain ⟨ds, h1, h2⟩ := ih (N / B) (Nat.div_lt_self (by omega) (by omega)) wq
      refine ⟨r :: ds, .next nz hr hq h1, ?_⟩
      rw [Nat.digits_def' (by omega) (by omega), List.map_cons, List.map_cons, h2, wr.value, Int.cast_natCast]

/-- The loop gives nothing else. -/
theorem C104_only {n base res : FixedDecimal} {ds ds' : List FixedDecimal} (h : DigitLoop m res base n ds)
    (h' : DigitLoop m res base n ds') : ds = ds' := by
  induction h generalizing ds' with
  | stop hz =>
    cases h' with
    | stop _ => rfl
    | next hz' _ _ _ => rw [hz] at hz'; cases hz'
  | next hz hr hq _ ih =>
    cases h' with
    | stop hz' => rw [hz] at hz'; cases hz'
    | next _ hr' hq' h' =>
      rw [hr] at hr'; cases hr'
      rw [hq] at hq'; cases hq'
      rw [ih h']

/-- 10^60 + 8 in base 462 and 10^9 - 1; a division in which the divisor has two units. -/
example (m : Mode) :
    let a : FixedDecimal := ⟨61#8, 0, [8, 0, 0, 0, 0, 0, 1000000, 0, 0]⟩
    let b : FixedDecimal := ⟨3#8, 0, [462, 0, 0, 0, 0, 0, 0, 0, 0]⟩
    let c : FixedDecimal := ⟨138#8, 0, [7, 3, 0, 0, 0, 0, 0, 0, 0]⟩
    Whole a (10 ^ 60 + 8) ∧ Whole b 462 ∧ Whole c (-3000000007) ∧
    (∃ ds, DigitLoop m FixedDecimal.zero b a ds ∧ ds.map val = (Nat.digits 462 (10 ^ 60 + 8)).map (fun k : Nat => (k : ℚ))) ∧
    FixedDecimal.divTo .release a c FixedDecimal.zero 0 = .ok ⟨180#8, 0,
      [882294924, 479016460, 366135802, 557370370, 332555555, 333333, 0, 0, 0]⟩ := by
  intro a b c
  have whole : ∀ {d : FixedDecimal} {n : Int}, WF d → d.frac = 0 → mant d = |n| → (neg d = true ↔ n < 0) → Whole d n := by
    intro d n w f e s
    refine ⟨w, f, ?_⟩
    have hf : fu d = 0 := by unfold fu fracDigits; rw [f]; rfl
    unfold val absVal
    rw [e, hf]
    by_cases h : n < 0
    · rw [if_pos (s.mpr h), abs_of_neg h]; simp
    · rw [if_neg (fun hc => h (s.mp hc)), abs_of_nonneg (by omega)]; simp
  have wa : Whole a (10 ^ 60 + 8) := whole (by decide) rfl (by decide +kernel) (by decide +kernel)
  have wb : Whole b 462 := whole (by decide) rfl (by decide +kernel) (by decide +kernel)
  refine ⟨wa, wb, whole (by decide) rfl (by decide +kernel) (by decide +kernel), ?_, by decide +kernel⟩
  exact C104_digits (N := 10 ^ 60 + 8) (B := 462) (by exact_mod_cast wa) (by exact_mod_cast wb) rfl (by norm_num)
    (by cases m <;> simp)

end Props
end Fxd
