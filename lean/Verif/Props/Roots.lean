import Verif.Props.Integers
/-!
# Property C105: integer square roots by Newton's method

`loop { y = (x + n / x) / 2; if !(y < x) { return x }; x = y }` with the integer division of C104.
-/

namespace Fxd
open Spec

namespace Props
variable {m : Mode}

/-- Sums of whole numbers that claim at most 63 digits each. -/
theorem whole_add {a b res : FixedDecimal} {A B : Int} (ha : Whole a A) (hb : Whole b B) (hres : res.lsu.length = 9)
    (ia : iu a ≤ 7) (ib : iu b ≤ 7) : ∃ s, FixedDecimal.addTo m a b res = .ok s ∧ Whole s (A + B) := by
  obtain ⟨s, h, r⟩ := addTo_ok m ha.wf hb.wf hres (Or.inr (Or.inr (Or.inl (by
    unfold alignedUnits
    rw [ha.fu_eq, hb.fu_eq]
    omega))))
  refine ⟨s, h, r.wf, ?_, by rw [r.value, ha.value, hb.value]; push_cast; rfl⟩
  by_cases za : val a = 0
  · have : a.isZero = true := (isZero_val ha.wf).mpr za
    unfold FixedDecimal.addTo at h
    rw [if_pos this] at h
    injection h with h
    rw [← h]; exact hb.frac
  by_cases zb : val b = 0
  · have h1 : ¬ a.isZero = true := fun h => za ((isZero_val ha.wf).mp h)
    have : b.isZero = true := (isZero_val hb.wf).mpr zb
    unfold FixedDecimal.addTo at h
    rw [if_neg h1, if_pos this] at h
    injection h with h
    rw [← h]; exact ha.frac
  rw [r.scale za zb, ha.frac, hb.frac]; rfl

/-- Digits claimed by a quotient of whole numbers. -/
theorem whole_quo_iu {a b res q : FixedDecimal} {A B : Int} {k : Nat} (ha : Whole a A) (hb : Whole b B)
    (hres : res.lsu.length = 9) (hB : B ≠ 0) (hA : |A| < 10 ^ k) (hk : 1 ≤ k)
    (h : FixedDecimal.divTo m a b res 0 = .ok q) : iu q ≤ unitsFor k := by
  have zb : val b ≠ 0 := by rw [hb.value]; exact_mod_cast hB
  by_cases hA0 : A = 0
  · rw [C34_zero_div m ha.wf hb.wf hres (by rw [ha.value, hA0]; simp) zb 0] at h
    injection h with h
    rw [← h]
    have : iu FixedDecimal.zero = 1 := rfl
    rw [this]; unfold unitsFor; omega
  have za : val a ≠ 0 := by rw [ha.value]; exact_mod_cast hA0
  have h' : FixedDecimal.divTo m a b res ((0 : Nat) : Int) = .ok q := h
  obtain ⟨-, hi⟩ := C57_scale m ha.wf hb.wf hres za zb (incr := 0) (by norm_num) h'
  have hd : digitCount a ≤ k := by
    unfold digitCount
    have h1 : (mant a).toNat < 10 ^ k := by
      rw [ha.mant_eq]
      have : (|A|.toNat : Int) < 10 ^ k := by rw [Int.toNat_of_nonneg (abs_nonneg A)]; exact hA
      exact_mod_cast this
    have := Nat.log_lt_of_lt_pow' (b := 10) (by omega) h1
    omega
  have hq : quoIntg a b ≤ k := by
    unfold quoIntg
    rw [ha.fu_eq, hb.fu_eq]
    have : 1 ≤ digitCount b := by unfold digitCount; omega
    split_ifs <;> simp <;> omega
  unfold iu unitsFor
  omega

/-- `loop { let q = n / x; let s = x + q; let y = s / 2; if !(y < x) { break x }; x = y }` -/
inductive Newton (m : Mode) (res n two : FixedDecimal) : FixedDecimal → FixedDecimal → Prop
  | stop {x q s y : FixedDecimal} : FixedDecimal.divTo m n x res 0 = .ok q → FixedDecimal.addTo m x q res = .ok s →
      FixedDecimal.divTo m s two res 0 = .ok y → (FixedDecimal.lt m y x : Out Unit Bool) = .ok false → Newton m res n two x x
  | next {x q s y r : FixedDecimal} : FixedDecimal.divTo m n x res 0 = .ok q → FixedDecimal.addTo m x q res = .ok s →
      FixedDecimal.divTo m s two res 0 = .ok y → (FixedDecimal.lt m y x : Out Unit Bool) = .ok true → Newton m res n two y r →
      Newton m res n two x r

theorem newton_step {N X : Nat} (hX : 1 ≤ X) : N < ((X + N / X) / 2 + 1) * ((X + N / X) / 2 + 1) := by
  set q := N / X with hq
  have h1 : N < X * (q + 1) := by
    rw [hq]; exact Nat.lt_mul_div_succ N (by omega)
  set y := (X + q) / 2 with hy
  have h2 : X + q + 1 ≤ 2 * (y + 1) := by omega
  have h3 : (X + (q + 1)) * (X + (q + 1)) ≤ (2 * (y + 1)) * (2 * (y + 1)) := Nat.mul_le_mul (by omega) (by omega)
  have h4 : 4 * (X * (q + 1)) ≤ (X + (q + 1)) * (X + (q + 1)) := by
    have := four_mul_le_sq_add (X : Int) ((q + 1 : Nat) : Int)
    have h5 : ((4 * (X * (q + 1)) : Nat) : Int) ≤ (((X + (q + 1)) * (X + (q + 1)) : Nat) : Int) := by
      push_cast at this ⊢; nlinarith [this]
    exact_mod_cast h5
  nlinarith

theorem newton_stop {N X : Nat} (hX : 1 ≤ X) (h : X ≤ (X + N / X) / 2) : X * X ≤ N := by
  have h1 : X ≤ N / X := by omega
  exact (Nat.le_div_iff_mul_le (by omega)).mp h1

theorem whole_lt {a b : FixedDecimal} {A B : Int} (ha : Whole a A) (hb : Whole b B) (h0 : B ≠ 0) :
    (FixedDecimal.lt m a b : Out Unit Bool) = .ok (decide (A < B)) := by
  unfold FixedDecimal.lt
  rw [C16_cmp_numeric m ha.wf hb.wf (by rintro ⟨-, h⟩; rw [hb.value] at h; exact h0 (by exact_mod_cast h)), ok_bind, pure_ok,
    ha.value, hb.value]
  congr 1
  by_cases h : A < B
  · have : (A : ℚ) < B := by exact_mod_cast h
    simp [compare_lt_iff_lt.mpr this, h]
  · have : ¬ (A : ℚ) < B := by exact_mod_cast h
    have h2 : compare (A : ℚ) B ≠ .lt := fun hc => this (compare_lt_iff_lt.mp hc)
    simp [h, h2]

/-- **C105** Newton's method on whole numbers, from any starting point not below the root: it ends, no call fails, and the
answer is the square root rounded down. Release builds: starting points below 10^18; debug builds: below 10^9. -/
theorem C105_sqrt {n two x res : FixedDecimal} {N X : Nat} (hn : Whole n N) (h2 : Whole two 2) (hx : Whole x X)
    (hres : res.lsu.length = 9) (hN : 1 ≤ N) (hX : 1 ≤ X) (hs : X < if m = .release then 10 ^ 18 else 10 ^ 9)
    (hstart : N < (X + 1) * (X + 1)) (hclaim : intgDigits x ≤ 63) :
    ∃ r R, Newton m res n two x r ∧ Whole r (R : Nat) ∧ R * R ≤ N ∧ N < (R + 1) * (R + 1) := by
  have step : ∀ {x : FixedDecimal} {X : Nat}, Whole x X → 1 ≤ X → (X < if m = .release then 10 ^ 18 else 10 ^ 9) →
      N < (X + 1) * (X + 1) → iu x ≤ 7 → ∃ q s y, FixedDecimal.divTo m n x res 0 = .ok q ∧
        FixedDecimal.addTo m x q res = .ok s ∧ FixedDecimal.divTo m s two res 0 = .ok y ∧
        Whole y (((X + N / X) / 2 : Nat) : Int) ∧ iu y ≤ 7 := by
    intro x X hx hX hs hstart ix
    have hX18 : X < 10 ^ 18 := by
      split_ifs at hs
      · exact hs
      · exact lt_trans hs (by norm_num)
    have hX0 : (X : Int) ≠ 0 := by omega
    have hmode : m = .release ∨ |(X : Int)| < 10 ^ 9 := by
      by_cases h : m = .release
      · exact Or.inl h
      · rw [if_neg h] at hs
        exact Or.inr (by rw [abs_of_nonneg (by omega)]; exact_mod_cast hs)
    obtain ⟨q1, q2⟩ := C104_int_div (m := m) hn hx hres hX0 (by rw [abs_of_nonneg (by omega)]; exact_mod_cast hX18)
    obtain ⟨q, hq⟩ := q2 hmode
    have wq := q1 q hq
    have eq : ((N : Int).tdiv X) = ((N / X : Nat) : Int) := by simp [Int.tdiv_eq_ediv_of_nonneg]
    rw [eq] at wq
    have hN36 : N < 10 ^ 36 := by
      have : (X + 1) * (X + 1) ≤ 10 ^ 18 * 10 ^ 18 := Nat.mul_le_mul (by omega) (by omega)
      calc N < (X + 1) * (X + 1) := hstart
        _ ≤ 10 ^ 18 * 10 ^ 18 := this
        _ = 10 ^ 36 := by norm_num
    have iq : iu q ≤ 7 := le_trans (whole_quo_iu (k := 36) hn hx hres hX0
      (by rw [abs_of_nonneg (by omega)]; exact_mod_cast hN36) (by norm_num) hq) (by decide)
    obtain ⟨s, hs', ws⟩ := whole_add (m := m) hx wq hres ix iq
    have hNX : N / X ≤ X + 2 := by
      have : N < X * (X + 3) := by nlinarith
      have := Nat.div_lt_of_lt_mul this
      omega
    have es : ((X : Int) + ((N / X : Nat) : Int)) = ((X + N / X : Nat) : Int) := by push_cast; rfl
    rw [es] at ws
    obtain ⟨y1, y2⟩ := C104_int_div (m := m) ws h2 hres (by norm_num) (by norm_num)
    obtain ⟨y, hy⟩ := y2 (Or.inr (by norm_num))
    have wy := y1 y hy
    have ey : (((X + N / X : Nat) : Int).tdiv 2) = (((X + N / X) / 2 : Nat) : Int) := by
      rw [Int.tdiv_eq_ediv_of_nonneg (Int.natCast_nonneg _)]; push_cast; rfl
    rw [ey] at wy
    have iy : iu y ≤ 7 := le_trans (whole_quo_iu (k := 19) ws h2 hres (by norm_num)
      (by
        rw [abs_of_nonneg (Int.natCast_nonneg _)]
        have : X + N / X < 10 ^ 19 := by omega
        exact_mod_cast this) (by norm_num) hy) (by decide)
    exact ⟨q, s, y, hq, hs', hy, wy, iy⟩
  have ix : iu x ≤ 7 := by unfold iu unitsFor; omega
  clear hclaim
  induction X using Nat.strong_induction_on generalizing x with
  | _ X ih =>
    obtain ⟨q, s, y, hq, hs', hy, wy, iy⟩ := step hx hX hs hstart ix
    have hlt := whole_lt (m := m) wy hx (by omega)
    by_cases h : (X + N / X) / 2 < X
    · rw [decide_eq_true (by exact_mod_cast h)] at hlt
      have hst := newton_step (N := N) hX
      by_cases h1 : 1 ≤ (X + N / X) / 2
      · obtain ⟨r, R, n1, n2⟩ := ih _ h wy h1 (lt_trans h hs) hst iy
        exact ⟨r, R, .next hq hs' hy hlt n1, n2⟩
      · exfalso
        have h0 : (X + N / X) / 2 = 0 := Nat.lt_one_iff.mp (not_le.mp h1)
        rw [h0] at hst h
        have h3 : N < 1 := by simpa using hst
        omega
    · rw [decide_eq_false (by exact_mod_cast h)] at hlt
      exact ⟨x, X, .stop hq hs' hy hlt, hx, newton_stop hX (by omega), hstart⟩

/-- **C105** The loop gives nothing else. -/
theorem C105_only {n two x res r r' : FixedDecimal} (h : Newton m res n two x r) (h' : Newton m res n two x r') : r = r' := by
  induction h generalizing r' with
  | stop a b c d =>
    cases h' with
    | stop _ _ _ _ => rfl
    | next a' b' c' d' _ =>
      rw [a] at a'; cases a'
      rw [b] at b'; cases b'
      rw [c] at c'; cases c'
      rw [d] at d'; cases d'
  | next a b c d _ ih =>
    cases h' with
    | stop a' b' c' d' =>
      rw [a] at a'; cases a'
      rw [b] at b'; cases b'
      rw [c] at c'; cases c'
      rw [d] at d'; cases d'
    | next a' b' c' d' e' =>
      rw [a] at a'; cases a'
      rw [b] at b'; cases b'
      rw [c] at c'; cases c'
      exact ih e'

/-- **C105** The root of zero must be treated apart: from 1 the next value is 0, and 0 / 0 is `Err(DivisionByZero)`. -/
theorem C105_zero (m : Mode) {two : FixedDecimal} (h2 : two = ⟨1#8, 0, [2, 0, 0, 0, 0, 0, 0, 0, 0]⟩) :
    ∀ r, ¬ Newton m FixedDecimal.zero FixedDecimal.zero two FixedDecimal.one r := by
  subst h2
  have e1 : FixedDecimal.divTo m FixedDecimal.zero FixedDecimal.one FixedDecimal.zero 0 = .ok FixedDecimal.zero := by
    cases m <;> decide +kernel
  have e2 : FixedDecimal.addTo m FixedDecimal.one FixedDecimal.zero FixedDecimal.zero = .ok FixedDecimal.one := by
    cases m <;> decide +kernel
  have e3 : FixedDecimal.divTo m FixedDecimal.one ⟨1#8, 0, [2, 0, 0, 0, 0, 0, 0, 0, 0]⟩ FixedDecimal.zero 0 =
      .ok ⟨0#8, 0, [0, 0, 0, 0, 0, 0, 0, 0, 0]⟩ := by
    cases m <;> decide +kernel
  have e4 : (FixedDecimal.lt m ⟨0#8, 0, [0, 0, 0, 0, 0, 0, 0, 0, 0]⟩ FixedDecimal.one : Out Unit Bool) = .ok true := by
    cases m <;> decide +kernel
  have e5 : FixedDecimal.divTo m FixedDecimal.zero ⟨0#8, 0, [0, 0, 0, 0, 0, 0, 0, 0, 0]⟩ FixedDecimal.zero 0 =
      .err .divisionByZero FixedDecimal.zero := by
    cases m <;> decide +kernel
  intro r h
  cases h with
  | stop a b c d =>
    rw [e1] at a; cases a
    rw [e2] at b; cases b
    rw [e3] at c; cases c
    rw [e4] at d; cases d
  | next a b c d h =>
    rw [e1] at a; cases a
    rw [e2] at b; cases b
    rw [e3] at c; cases c
    cases h with
    | stop a _ _ _ => rw [e5] at a; cases a
    | next a _ _ _ _ => rw [e5] at a; cases a

/-- The root of 10^17 + 3 from 999999999, in both builds. -/
example (m : Mode) :
    let n : FixedDecimal := ⟨18#8, 0, [3, 100000000, 0, 0, 0, 0, 0, 0, 0]⟩
    let x : FixedDecimal := ⟨9#8, 0, [999999999, 0, 0, 0, 0, 0, 0, 0, 0]⟩
    let two : FixedDecimal := ⟨1#8, 0, [2, 0, 0, 0, 0, 0, 0, 0, 0]⟩
    ∃ r R, Newton m FixedDecimal.zero n two x r ∧ Whole r (R : Nat) ∧ R * R ≤ 10 ^ 17 + 3 ∧ 10 ^ 17 + 3 < (R + 1) * (R + 1) := by
  intro n x two
  have v : ∀ {d : FixedDecimal} {k : Nat}, WF d → d.frac = 0 → mant d = k → neg d = false → Whole d k := by
    intro d k w f e s
    refine ⟨w, f, ?_⟩
    have hf : fu d = 0 := by unfold fu fracDigits; rw [f]; rfl
    unfold val absVal
    rw [s, e, hf]; simp
  exact C105_sqrt (N := 10 ^ 17 + 3) (X := 999999999) (v (by decide) rfl (by decide +kernel) (by decide +kernel))
    (v (by decide) rfl (by decide +kernel) (by decide +kernel)) (v (by decide) rfl (by decide +kernel) (by decide +kernel)) rfl
    (by norm_num) (by norm_num) (by cases m <;> simp) (by norm_num) (by decide)

end Props
end Fxd
