import Verif.Props.Schedule
/-!
# Property C113: the extended Euclidean algorithm and modular inverses
-/

namespace Fxd
open Spec

namespace Props
variable {m : Mode}

/-- Differences of whole numbers of up to 72 digits that stay below 10^72. -/
theorem whole_diff {a b : FixedDecimal} {A B : Int} (ha : Whole a A) (ta : Tight a) (hb : Whole b B) (tb : Tight b)
    (ia : iu a ≤ 8) (ib : iu b ≤ 8) (hs : |A - B| < 10 ^ 72) :
    ∃ s, FixedDecimal.sub m a b = .ok s ∧ Whole s (A - B) ∧ Tight s ∧ iu s ≤ 8 := by
  have fa : fracDigits a = 0 := by unfold fracDigits; rw [ha.frac]; rfl
  have fb : fracDigits b = 0 := by unfold fracDigits; rw [hb.frac]; rfl
  have hv : |val a - val b| < 10 ^ (9 * 8) := by rw [ha.value, hb.value]; exact_mod_cast hs
  obtain ⟨s, e1, e2, e3⟩ := sub_within (m := m) (I := 8) (F := 0) (by norm_num) ⟨ha.wf, ia, by rw [ha.fu_eq]⟩ ⟨hb.wf, ib, by rw [hb.fu_eq]⟩ hv
  have r := subTo_res ha.wf hb.wf (res := FixedDecimal.blank) rfl (sub_ok_iff.mp e1)
  obtain ⟨_, k⟩ := sub_shrink (u := 8) (k := 0) ha.wf hb.wf (by norm_num) e1 hv (fun _ => ia) (fun _ => ib) fa.le fb.le
  refine ⟨s, e1, ⟨e2.wf, ?_, by rw [e3, ha.value, hb.value]; push_cast; rfl⟩, r.tight ta tb, e2.intg⟩
  rw [e2.wf.frac_eq]
  have : fracDigits s = 0 := by omega
  rw [this]; rfl

/-- A quotient of whole numbers claims digits it does not have and lacks digits it has (C53); compacted it can be used like any other
number. -/
theorem quo_compact {a : FixedDecimal} {A k : Nat} (ha : Whole a (A : Int)) (hi : iu a ≤ 8) (hk : 1 ≤ k) (hk7 : k ≤ 7)
    (hA : A < 10 ^ (9 * k)) : ∃ y, compact m a = .ok y ∧ Whole y (A : Int) ∧ Tight y ∧ iu y ≤ k := by
  have hAq : (A : ℚ) < 10 ^ (9 * k) := by exact_mod_cast hA
  have hAn : (0 : ℚ) ≤ A := by positivity
  have hv : |val a| < 10 ^ (9 * k) := by rw [ha.value, Int.cast_natCast, abs_of_nonneg hAn]; exact hAq
  have hbig : |val a| + 1 < 10 ^ (9 * 8) := by
    have : (10 : ℚ) ^ (9 * k) ≤ 10 ^ 63 := pow_le_pow_right₀ (by norm_num) (by omega)
    have h2 : (10 : ℚ) ^ 63 + 1 < 10 ^ (9 * 8) := by norm_num
    linarith
  obtain ⟨y, e1, e2, e3, -, e5, e6⟩ := C106_compact (m := m) (I := 8) (F := 0) ⟨ha.wf, hi, by rw [ha.fu_eq]⟩ (by norm_num) (by norm_num) hbig
  have wy : Whole y (A : Int) := ⟨e2.wf, le_antisymm (ha.frac ▸ e5) e2.wf.frac_nonneg, by rw [e3, ha.value]⟩
  refine ⟨y, e1, wy, ?_, e6 k hk hv⟩
  have tr : Trimmed y := by
    unfold compact at e1
    obtain ⟨z, z1, z2⟩ := bind_eq_ok.mp e1
    have r1 := addTo_res ha.wf wf_one (res := FixedDecimal.blank) rfl (add_ok_iff.mp z1)
    have o0 : val FixedDecimal.one ≠ 0 := by rw [val_one]; norm_num
    have zz : val z ≠ 0 := by
      rw [r1.value, ha.value, val_one, Int.cast_natCast]
      linarith
    exact (C65_sub_trimmed r1.wf wf_one rfl zz o0 (sub_ok_iff.mp z2)).1
  refine ⟨e2.wf, ?_, ?_⟩
  · rw [tr.digits, ← mul_add]
    have := e2.wf.mant_lt
    rw [show (10 : Int) ^ (9 * (iu y + fu y)) = 1000000000 ^ (iu y + fu y) by rw [pow_mul]; norm_num]
    exact this
  · rw [wy.fu_eq]; simp

/-- Starting from `(a, 1)` and `(b, 0)`: `while r1 != 0 { q = r0 / r1 (div_to, increment 0, compacted); (r0, r1) = (r1, r0 % r1);
(s0, s1) = (s1, compact(s0 - q * s1)) }`; the result is the last `(r0, s0)`. -/
inductive ExtEuclid (m : Mode) : FixedDecimal → FixedDecimal → FixedDecimal → FixedDecimal → FixedDecimal → FixedDecimal → Prop
  | stop {r0 s0 r1 s1 : FixedDecimal} : r1.isZero = true → ExtEuclid m r0 s0 r1 s1 r0 s0
  | next {r0 s0 r1 s1 q c r2 p d s2 g s : FixedDecimal} : r1.isZero = false →
    FixedDecimal.divTo m r0 r1 FixedDecimal.zero 0 = .ok q → compact m q = .ok c → FixedDecimal.rem m r0 r1 = .ok r2 →
    FixedDecimal.mul m c s1 = .ok p → FixedDecimal.sub m s0 p = .ok d → compact m d = .ok s2 →
    ExtEuclid m r1 s1 r2 s2 g s → ExtEuclid m r0 s0 r1 s1 g s

/-- **C113** The loop can return nothing else. -/
theorem C113_only {r0 s0 r1 s1 g s g' s' : FixedDecimal} (h : ExtEuclid m r0 s0 r1 s1 g s) (h' : ExtEuclid m r0 s0 r1 s1 g' s') :
    g = g' ∧ s = s' := by
  induction h with
  | stop hz =>
    cases h' with
    | stop _ => exact ⟨rfl, rfl⟩
    | next hz' => rw [hz] at hz'; cases hz'
  | next hz h1 h2 h3 h4 h5 h6 _ ih =>
    cases h' with
    | stop hz' => rw [hz] at hz'; cases hz'
    | next hz' k1 k2 k3 k4 k5 k6 k =>
      rw [h1] at k1; cases k1
      rw [h2] at k2; cases k2
      rw [h3] at k3; cases k3
      rw [h4] at k4; cases k4
      rw [h5] at k5; cases k5
      rw [h6] at k6; cases k6
      exact ih k

/-- The coefficient `s` stays opposite in sign and bounded. -/
theorem coefficient_step {S0 S1 : Int} {R0 R1 B : Nat} (hopp : S0 * S1 ≤ 0) (hinv : |S0| * R1 + |S1| * R0 = B) (h1 : 1 ≤ R1) :
    let S2 := S0 - (R0 / R1 : Nat) * S1
    S1 * S2 ≤ 0 ∧ |S1| * (R0 % R1 : Nat) + |S2| * R1 = B ∧ |S2| ≤ B := by
  intro S2
  have hq : (0 : Int) ≤ ((R0 / R1 : Nat) : Int) := Int.natCast_nonneg _
  obtain ⟨Q, hQ⟩ : ∃ Q, ((R0 / R1 : Nat) : Int) = Q := ⟨_, rfl⟩
  have eS2 : S2 = S0 - Q * S1 := by rw [← hQ]
  rw [hQ] at hq
  have hdiv : (R0 : Int) = R1 * Q + (R0 % R1 : Nat) := by
    rw [← hQ]; exact_mod_cast (Nat.div_add_mod R0 R1).symm
  have hS2 : |S2| = |S0| + Q * |S1| := by
    rw [eS2]
    rcases le_total 0 S0 with a | a <;> rcases le_total 0 S1 with b | b
    · have : S0 = 0 ∨ S1 = 0 := by
        by_contra hc
        push Not at hc
        have : 0 < S0 * S1 := mul_pos (lt_of_le_of_ne a hc.1.symm) (lt_of_le_of_ne b hc.2.symm)
        omega
      rcases this with h | h
      · rw [h, zero_sub, abs_neg, abs_mul, abs_of_nonneg hq]; simp
      · rw [h]; simp
    · rw [abs_of_nonneg (by nlinarith), abs_of_nonneg a, abs_of_nonpos b]; ring
    · rw [abs_of_nonpos (by nlinarith), abs_of_nonpos a, abs_of_nonneg b]; ring
    · have : S0 = 0 ∨ S1 = 0 := by
        by_contra hc
        push Not at hc
        have : 0 < S0 * S1 := mul_pos_of_neg_of_neg (lt_of_le_of_ne a hc.1) (lt_of_le_of_ne b hc.2)
        omega
      rcases this with h | h
      · rw [h, zero_sub, abs_neg, abs_mul, abs_of_nonneg hq]; simp
      · rw [h]; simp
  have e2 : |S1| * (R0 % R1 : Nat) + |S2| * R1 = B := by
    rw [hS2]
    rw [hdiv] at hinv
    linarith
  refine ⟨?_, e2, ?_⟩
  · rw [eS2]
    nlinarith [mul_nonneg hq (mul_self_nonneg S1)]
  · have h3 : |S2| ≤ |S2| * R1 := by
      have : (1 : Int) ≤ R1 := by exact_mod_cast h1
      nlinarith [abs_nonneg S2]
    have h4 : 0 ≤ |S1| * ((R0 % R1 : Nat) : Int) := mul_nonneg (abs_nonneg _) (Int.natCast_nonneg _)
    omega

/-- The loop from any state on the way. -/
theorem ext_euclid_from {A B : Nat} (hB : B < if m = .release then 10 ^ 18 else 10 ^ 9) :
    ∀ (R1 R0 : Nat) {S0 S1 : Int} {r0 s0 r1 s1 : FixedDecimal}, Whole r0 R0 → Whole r1 R1 → Whole s0 S0 → Whole s1 S1 → Tight s0 → Tight s1 →
      iu s0 ≤ 2 → iu s1 ≤ 2 → R0 < 10 ^ 18 → R1 ≤ B → S0 * S1 ≤ 0 → |S0| * R1 + |S1| * R0 = B → |S0| ≤ B → |S1| ≤ B →
      (∃ t : Int, S0 * A + t * B = R0) → (∃ t : Int, S1 * A + t * B = R1) →
      ∃ g s S, ExtEuclid m r0 s0 r1 s1 g s ∧ Whole g (Nat.gcd R0 R1 : Nat) ∧ Whole s S ∧ Tight s ∧ iu s ≤ 2 ∧ |S| ≤ B ∧
        ∃ t : Int, S * A + t * B = (Nat.gcd R0 R1 : Nat) := by
  have hB18 : (B : Int) < 10 ^ 18 := by
    have : B < 10 ^ 18 := by
      split_ifs at hB
      · exact hB
      · exact lt_trans hB (by norm_num)
    exact_mod_cast this
  intro R1
  induction R1 using Nat.strong_induction_on with
  | _ R1 ih =>
    intro R0 S0 S1 r0 s0 r1 s1 hr0 hr1 hs0 hs1 ts0 ts1 is0 is1 h0 h1 hopp hinv b0 b1 z0 z1
    by_cases hz : R1 = 0
    · subst hz
      refine ⟨r0, s0, S0, .stop ((isZero_val hr1.wf).mpr (by rw [hr1.value]; simp)), ?_, hs0, ts0, is0, b0, ?_⟩
      · rw [Nat.gcd_zero_right]; exact hr0
      · rw [Nat.gcd_zero_right]; exact z0
    · have hR1 : 1 ≤ R1 := by omega
      have hne : (R1 : Int) ≠ 0 := by exact_mod_cast hz
      have hnz : r1.isZero = false := by
        rw [← Bool.not_eq_true, isZero_val hr1.wf, hr1.value]
        exact_mod_cast hne
      have hR1' : |(R1 : Int)| < 10 ^ 18 := by
        rw [abs_of_nonneg (Int.natCast_nonneg _)]
        have : (R1 : Int) ≤ B := by exact_mod_cast h1
        omega
      have hmode : m = .release ∨ |(R1 : Int)| < 10 ^ 9 := by
        by_cases h : m = .release
        · exact Or.inl h
        · rw [if_neg h] at hB
          refine Or.inr ?_
          rw [abs_of_nonneg (Int.natCast_nonneg _)]
          have : R1 < 10 ^ 9 := by omega
          exact_mod_cast this
      obtain ⟨q1, q2⟩ := C104_int_div (m := m) hr0 hr1 (res := FixedDecimal.zero) rfl hne hR1'
      obtain ⟨q, hq⟩ := q2 hmode
      have wq := q1 q hq
      rw [show ((R0 : Int).tdiv R1) = ((R0 / R1 : Nat) : Int) by simp [Int.tdiv_eq_ediv_of_nonneg]] at wq
      have hA18 : |(R0 : Int)| < 10 ^ 18 := by
        rw [abs_of_nonneg (Int.natCast_nonneg _)]; exact_mod_cast h0
      have iq : iu q ≤ 8 := le_trans (whole_quo_iu (k := 18) hr0 hr1 rfl hne hA18 (by norm_num) hq) (by decide)
      obtain ⟨c, c1, c2, c3, c4⟩ := quo_compact (m := m) (k := 2) wq iq (by norm_num) (by norm_num)
        (lt_of_le_of_lt (Nat.div_le_self _ _) (by simpa using h0))
      obtain ⟨r1', r2'⟩ := C104_int_rem (m := m) hr0 hr1 (res := FixedDecimal.blank) rfl hne hR1'
      obtain ⟨r2, hr2⟩ := r2' (by rcases hmode with h | h; exacts [.inl h, .inr (.inr h)])
      have wr := r1' r2 hr2
      rw [show ((R0 : Int).tmod R1) = ((R0 % R1 : Nat) : Int) by simp [Int.tmod_eq_emod_of_nonneg]] at wr
      obtain ⟨p, p1, p2, p3, p4⟩ := whole_mul (m := m) (I := 2) (J := 2) c2 c3 hs1 ts1 c4 is1 (by norm_num) (by norm_num) (by norm_num)
      obtain ⟨k1, k2, k3⟩ := coefficient_step hopp hinv hR1
      set S2 := S0 - ((R0 / R1 : Nat) : Int) * S1 with hS2
      obtain ⟨d, d1, d2, d3, d4⟩ := whole_diff (m := m) hs0 ts0 p2 p3 (by omega) (by omega) (by
        rw [← hS2]; exact lt_of_le_of_lt k3 (lt_trans hB18 (by norm_num)))
      rw [← hS2] at d2
      obtain ⟨s2, e1, e2, e3, e4⟩ := whole_compact (m := m) (k := 2) d2 d3 d4 (by norm_num) (by norm_num)
        (by simpa using lt_of_le_of_lt k3 hB18)
      have z2 : ∃ t : Int, S2 * A + t * B = ((R0 % R1 : Nat) : Int) := by
        obtain ⟨t0, z0⟩ := z0
        obtain ⟨t1, z1⟩ := z1
        refine ⟨t0 - ((R0 / R1 : Nat) : Int) * t1, ?_⟩
        have hdm : (R0 : Int) = R1 * ((R0 / R1 : Nat) : Int) + ((R0 % R1 : Nat) : Int) := by
          exact_mod_cast (Nat.div_add_mod R0 R1).symm
        rw [hS2]
        generalize ((R0 / R1 : Nat) : Int) = Q at *
        linear_combination z0 - Q * z1 + hdm
      obtain ⟨g, s, S, i1, i2, i3, i4, i5, i6, i7⟩ := ih (R0 % R1) (Nat.mod_lt _ hR1) R1 hr1 wr hs1 e2 ts1 e3 is1 e4
        (by
          rw [abs_of_nonneg (Int.natCast_nonneg _)] at hR1'
          exact_mod_cast hR1')
        (le_trans (Nat.mod_lt _ hR1).le h1) k1 k2 b1 k3 z1 z2
      have hg : Nat.gcd R1 (R0 % R1) = Nat.gcd R0 R1 := by
        rw [Nat.gcd_comm R1, ← Nat.gcd_rec, Nat.gcd_comm]
      rw [hg] at i2 i7
      exact ⟨g, s, S, .next hnz hq c1 (rem_ok_iff.mpr hr2) p1 d1 e1 i1, i2, i3, i4, i5, i6, i7⟩

/-- **C113** The extended Euclidean algorithm on whole numbers, the first below 10^18 and the second below 10^18 (debug builds: 10^9): no
call fails, the loop ends, and it returns the greatest common divisor `g` and a coefficient `s`, no larger than the second number, with
`s a + t b = g` for some whole `t`. -/
theorem C113_bezout {a b : FixedDecimal} {A B : Nat} (ha : Whole a A) (hb : Whole b B) (hA : A < 10 ^ 18) (hB0 : 1 ≤ B)
    (hB : B < if m = .release then 10 ^ 18 else 10 ^ 9) :
    ∃ g s S, ExtEuclid m a FixedDecimal.one b FixedDecimal.zero g s ∧ Whole g (Nat.gcd A B : Nat) ∧ Whole s S ∧ |S| ≤ B ∧
      ∃ t : Int, S * A + t * B = (Nat.gcd A B : Nat) := by
  have w1 : Whole FixedDecimal.one 1 := ⟨wf_one, rfl, by rw [val_one]; simp⟩
  have w0 : Whole FixedDecimal.zero 0 := ⟨wf_zero, rfl, by rw [(isZero_val wf_zero).mp (by decide)]; simp⟩
  obtain ⟨g, s, S, h1, h2, h3, -, -, h4, h5⟩ := ext_euclid_from (A := A) hB B A ha hb w1 w0 (by decide) (by decide) (by decide) (by decide) hA le_rfl
    (by norm_num) (by simp) (by simp; omega) (by simp) ⟨0, by simp⟩ ⟨1, by simp⟩
  exact ⟨g, s, S, h1, h2, h3, h4, h5⟩

/-- A case of `C113_bezout`: 123456789012345678 and 998244353. -/
example : ∃ g s S, ExtEuclid m ⟨18#8, 0, [12345678, 123456789, 0, 0, 0, 0, 0, 0, 0]⟩ FixedDecimal.one
      ⟨9#8, 0, [998244353, 0, 0, 0, 0, 0, 0, 0, 0]⟩ FixedDecimal.zero g s ∧ Whole g (Nat.gcd 123456789012345678 998244353 : Nat) ∧ Whole s S ∧
      |S| ≤ (998244353 : Nat) ∧ ∃ t : Int, S * (123456789012345678 : Nat) + t * (998244353 : Nat) = (Nat.gcd 123456789012345678 998244353 : Nat) :=
  C113_bezout (whole_mk (by decide) rfl (by decide +kernel) (by decide)) (whole_mk (by decide) rfl (by decide +kernel) (by decide))
    (by norm_num) (by norm_num) (by cases m <;> simp)

/-- The inverse of `a` modulo `b`: the coefficient of the loop above, plus `b` if it is negative. -/
def Inverse (m : Mode) (a b v : FixedDecimal) : Prop :=
  ∃ g s, ExtEuclid m a FixedDecimal.one b FixedDecimal.zero g s ∧
    if s.isNeg = true then FixedDecimal.add m s b = .ok v else v = s

/-- **C113** For coprime numbers this gives the inverse modulo the second one: a number from 0 to `b - 1` whose product with `a` leaves the
remainder 1. -/
theorem C113_inverse {a b : FixedDecimal} {A B : Nat} (ha : Whole a A) (hb : Whole b B) (tb : Tight b) (ib : iu b ≤ 8) (hA : A < 10 ^ 18)
    (hB1 : 2 ≤ B) (hB : B < if m = .release then 10 ^ 18 else 10 ^ 9) (hco : Nat.Coprime A B) :
    ∃ v V, Inverse m a b v ∧ Whole v (V : Nat) ∧ V < B ∧ A * V % B = 1 := by
  have w1 : Whole FixedDecimal.one 1 := ⟨wf_one, rfl, by rw [val_one]; simp⟩
  have w0 : Whole FixedDecimal.zero 0 := ⟨wf_zero, rfl, by rw [(isZero_val wf_zero).mp (by decide)]; simp⟩
  obtain ⟨g, s, S, h1, -, h3, ts, is, h4, t, h5⟩ := ext_euclid_from (A := A) hB B A ha hb w1 w0 (by decide) (by decide) (by decide) (by decide) hA le_rfl
    (by norm_num) (by simp) (by simp; omega) (by simp) ⟨0, by simp⟩ ⟨1, by simp⟩
  rw [hco] at h5
  have final : ∀ V : Nat, (∃ t : Int, (V : Int) * A + t * B = 1) → A * V % B = 1 := by
    rintro V ⟨t, ht⟩
    have h6 : ((A * V : Nat) : Int) = 1 + (-t) * B := by push_cast; linarith
    have h7 : ((A * V : Nat) : Int) % (B : Int) = 1 := by
      rw [h6, Int.add_mul_emod_self_right]
      exact Int.emod_eq_of_lt (by norm_num) (by exact_mod_cast hB1)
    exact_mod_cast h7
  have below : ∀ V : Nat, V ≤ B → A * V % B = 1 → V < B := by
    intro V h1 h2
    rcases Nat.lt_or_eq_of_le h1 with h | h
    · exact h
    · rw [h, Nat.mul_mod_left] at h2; omega
  have hS0 : S ≠ 0 := by
    rintro rfl
    have h6 : t * B = 1 := by simpa using h5
    have h7 : (B : Int) ∣ 1 := ⟨t, by rw [mul_comm]; exact h6.symm⟩
    have h8 := Int.le_of_dvd (by norm_num) h7
    omega
  by_cases hn : s.isNeg = true
  · have hneg : S < 0 := by
      by_contra hc
      have hv := h3.value
      unfold val at hv
      rw [isNeg_eq] at hn
      rw [hn, if_pos rfl] at hv
      have := absVal_nonneg h3.wf
      have : (0 : ℚ) ≤ S := by exact_mod_cast not_lt.mp hc
      have : (S : ℚ) = 0 := by linarith
      exact hS0 (by exact_mod_cast this)
    rw [abs_of_neg hneg] at h4
    obtain ⟨v, e1, e2, -, -⟩ := whole_sum (m := m) h3 ts hb tb (by omega) ib (by
      rw [abs_of_nonneg (by omega)]
      have : (B : Int) < 10 ^ 18 := by
        have : B < 10 ^ 18 := by
          split_ifs at hB
          · exact hB
          · exact lt_trans hB (by norm_num)
        exact_mod_cast this
      have : (10 : Int) ^ 18 < 10 ^ 72 := by norm_num
      omega)
    have ev : ((S + B).toNat : Int) = S + B := Int.toNat_of_nonneg (by omega)
    have fin := final (S + B).toNat ⟨t - A, by rw [ev]; linear_combination h5⟩
    exact ⟨v, (S + B).toNat, ⟨g, s, h1, by rw [if_pos hn]; exact e1⟩, by rw [ev]; exact e2, below _ (by omega) fin, fin⟩
  · have hpos : 0 ≤ S := by
      have hv := h3.value
      unfold val at hv
      rw [isNeg_eq] at hn
      rw [if_neg hn] at hv
      have := absVal_nonneg h3.wf
      have : (0 : ℚ) ≤ S := by linarith
      exact_mod_cast this
    rw [abs_of_nonneg hpos] at h4
    have ev : (S.toNat : Int) = S := Int.toNat_of_nonneg hpos
    have fin := final S.toNat ⟨t, by rw [ev]; exact h5⟩
    exact ⟨s, S.toNat, ⟨g, s, h1, by rw [if_neg hn]⟩, by rw [ev]; exact h3, below _ (by omega) fin, fin⟩

/-- A case of `C113_inverse`: the inverse of 3 modulo 998244353. -/
example : ∃ v V, Inverse m ⟨1#8, 0, [3, 0, 0, 0, 0, 0, 0, 0, 0]⟩ ⟨9#8, 0, [998244353, 0, 0, 0, 0, 0, 0, 0, 0]⟩ v ∧ Whole v (V : Nat) ∧
    V < 998244353 ∧ 3 * V % 998244353 = 1 :=
  C113_inverse (A := 3) (B := 998244353) (whole_mk (by decide) rfl (by decide) (by decide)) (whole_mk (by decide) rfl (by decide +kernel) (by decide))
    (by decide +kernel) (by decide) (by norm_num) (by norm_num) (by cases m <;> simp) (by decide +kernel)

end Props
end Fxd
