import Verif.Props.Finance
/-!
# Properties C96-C100: what users do with a quotient, and repeated charging
-/

namespace Fxd.Props
open Fxd Spec

variable {m : Mode} {σ : Type}

/-- Operands for which the code's quotient is the truncated one (C35, C36): a divisor of one unit, or no quotient guess
that is too large and room for the divisor's fraction. -/
def Truncates (a b : FixedDecimal) (incr : Nat) : Prop :=
  mant b < 1000000000 ∨ ¬ QuoGuessTooBig a b incr ∧ fu b ≤ quoIU a b + fu a

theorem truncZ_zero : truncZ 0 = 0 := by have := truncZ_whole 0; rwa [Int.cast_zero] at this

theorem truncQuot_zero (y : ℚ) (s : Nat) : truncQuot 0 y s = 0 := by
  unfold truncQuot; rw [zero_div, zero_mul, truncZ_zero]; simp

theorem val_zero_const : val FixedDecimal.zero = 0 := by rw [val_eq_zero]; decide

/-- C35 and C36 in one statement, the zero dividend included. -/
theorem div_truncates {a b res q : FixedDecimal} (ha : WF a) (hb : WF b) (hres : res.lsu.length = 9)
    {incr : Nat} (hi : incr < 2 ^ 62) (ht : Truncates a b incr) (h : FixedDecimal.divTo m a b res incr = .ok q) :
    val b ≠ 0 ∧ WF q ∧ val q = truncQuot (val a) (val b) (fracDigits q) := by
  have zb : val b ≠ 0 := by
    intro h0
    rw [C33_div_zero m ha hb hres h0] at h; cases h
  refine ⟨zb, ?_⟩
  by_cases za : val a = 0
  · rw [C34_zero_div m ha hb hres za zb] at h
    cases h
    exact ⟨by decide, by rw [za, truncQuot_zero, val_zero_const]⟩
  rcases ht with h1 | ⟨h1, h2⟩
  · exact C35_short_div m ha hb hres zb h1 hi h
  · have := C36_exact_partial m ha hb hres za zb hi h1 h
    exact ⟨this.1, this.2.2.2 h2⟩

/-! ## C96: rounding a quotient -/

theorem halfAway_cut_nonneg {x : ℚ} (hx : 0 ≤ x) {s k : Nat} (hk : k < s) :
    halfAway ((truncZ (x * 10 ^ s) : ℚ) / 10 ^ s * 10 ^ k) = halfAway (x * 10 ^ k) := by
  have hs : (0 : ℚ) < 10 ^ s := by positivity
  have hkp : (0 : ℚ) < 10 ^ k := by positivity
  have h0 : 0 ≤ x * 10 ^ s := by positivity
  have h1 : 0 ≤ x * 10 ^ k := by positivity
  have h2 : (0 : ℚ) ≤ ⌊x * 10 ^ s⌋ := by exact_mod_cast Int.floor_nonneg.mpr h0
  unfold truncZ halfAway
  rw [if_neg (not_lt.mpr h0), if_neg (not_lt.mpr h1), if_neg (not_lt.mpr (by positivity))]
  obtain ⟨t, rfl⟩ : ∃ t, s = k + 1 + t := ⟨s - k - 1, by omega⟩
  set F := ⌊x * 10 ^ (k + 1 + t)⌋ with hF
  have f1 : (F : ℚ) ≤ x * 10 ^ (k + 1 + t) := Int.floor_le _
  rw [show ((F : ℚ) / 10 ^ (k + 1 + t) * 10 ^ k) = F / 10 ^ (1 + t) by rw [pow_add, pow_add, pow_add]; field_simp]
  have hp : (0 : ℚ) < 10 ^ (1 + t) := by positivity
  have hx' : x * 10 ^ k = x * 10 ^ (k + 1 + t) / 10 ^ (1 + t) := by rw [add_assoc k 1 t, pow_add 10 k]; field_simp
  apply le_antisymm
  · apply Int.floor_le_floor
    rw [hx']
    have := div_le_div_of_nonneg_right f1 hp.le
    linarith
  · rw [Int.le_floor]
    set N := ⌊x * 10 ^ k + 1 / 2⌋
    have n1 : (N : ℚ) ≤ x * 10 ^ k + 1 / 2 := Int.floor_le _
    -- (N - 1/2) * 10^(1+t) is an integer
    have n2 : (((2 * N - 1) * 5 * 10 ^ t : ℤ) : ℚ) ≤ x * 10 ^ (k + 1 + t) := by
      have : x * 10 ^ (k + 1 + t) = x * 10 ^ k * 10 ^ (1 + t) := by rw [add_assoc k 1 t, pow_add 10 k]; ring
      rw [this]
      push_cast
      have e : ((2 * (N : ℚ) - 1) * 5 * 10 ^ t) = (N - 1 / 2) * 10 ^ (1 + t) := by rw [pow_add]; ring
      rw [e]
      exact mul_le_mul_of_nonneg_right (by linarith) hp.le
    have n3 : (2 * N - 1) * 5 * 10 ^ t ≤ F := Int.le_floor.mpr n2
    have n4 : (((2 * N - 1) * 5 * 10 ^ t : ℤ) : ℚ) ≤ F := by exact_mod_cast n3
    have e : (((2 * N - 1) * 5 * 10 ^ t : ℤ) : ℚ) = (N - 1 / 2) * 10 ^ (1 + t) := by push_cast; rw [pow_add]; ring
    rw [e] at n4
    have := (le_div_iff₀ hp).mpr n4
    linarith

/-- Cutting after `s` digits and then rounding to fewer is rounding. -/
theorem halfAway_cut (x : ℚ) {s k : Nat} (hk : k < s) :
    halfAway ((truncZ (x * 10 ^ s) : ℚ) / 10 ^ s * 10 ^ k) = halfAway (x * 10 ^ k) := by
  rcases le_or_gt 0 x with h | h
  · exact halfAway_cut_nonneg h hk
  · have h1 := halfAway_cut_nonneg (neg_nonneg.mpr h.le) hk
    rw [neg_mul, neg_mul, halfAway_neg, truncZ_neg] at h1
    push_cast at h1
    rw [neg_div, neg_mul, halfAway_neg] at h1
    exact neg_inj.mp h1

/-- **C96** A quotient rounded to fewer digits than it carries is the exact quotient of the operands correctly rounded, half away
from zero: cutting first does no harm. -/
theorem C96_round_quotient {a b res res' q r : FixedDecimal} (ha : WF a) (hb : WF b) (hres : res.lsu.length = 9)
    (hres' : res'.lsu.length = 9) {incr : Nat} (hi : incr < 2 ^ 62) (ht : Truncates a b incr)
    (h : FixedDecimal.divTo m a b res incr = .ok q) {k : Nat} (hk : k < fracDigits q)
    (hr : (q.roundTo m res' k : Out σ _) = .ok r) :
    val r = (halfAway (val a / val b * 10 ^ k) : ℚ) / 10 ^ k ∧ |val r - val a / val b| ≤ 1 / 10 ^ k / 2 ∧
      fracDigits r = k := by
  obtain ⟨_, wq, e⟩ := div_truncates ha hb hres hi ht h
  have h1 := C39_round_to m wq hres' hk hr
  have e1 : val r = (halfAway (val a / val b * 10 ^ k) : ℚ) / 10 ^ k := by
    rw [h1.1, e]
    unfold truncQuot
    rw [halfAway_cut _ hk]
  refine ⟨e1, ?_, by unfold fracDigits; rw [h1.2.1]; simp⟩
  rw [e1]
  have h1 := halfAway_dist (val a / val b * 10 ^ k)
  have hp : (0 : ℚ) < 10 ^ k := by positivity
  rw [show (halfAway (val a / val b * 10 ^ k) : ℚ) / 10 ^ k - val a / val b =
      ((halfAway (val a / val b * 10 ^ k) : ℚ) - val a / val b * 10 ^ k) / 10 ^ k by field_simp, abs_div, abs_of_pos hp,
    div_right_comm]
  exact div_le_div_of_nonneg_right h1 hp.le

/-- **C96** The quotient is exact precisely when the exact quotient has no more digits after the point than the result. -/
theorem C96_exact_iff {a b res q : FixedDecimal} (ha : WF a) (hb : WF b) (hres : res.lsu.length = 9)
    {incr : Nat} (hi : incr < 2 ^ 62) (ht : Truncates a b incr) (h : FixedDecimal.divTo m a b res incr = .ok q) :
    val q = val a / val b ↔ ∃ n : ℤ, val a / val b = n / 10 ^ fracDigits q := by
  obtain ⟨_, _, e⟩ := div_truncates ha hb hres hi ht h
  have hp : (0 : ℚ) < 10 ^ fracDigits q := by positivity
  constructor
  · intro h1
    exact ⟨_, by rw [← h1, e]; rfl⟩
  · rintro ⟨n, hn⟩
    rw [e, truncQuot, hn, div_mul_cancel₀ _ hp.ne', truncZ_whole]

/-- **C96** So dividing by `2^i * 5^j` (halves, quarters, fifths, percents, ...) is exact as soon as the quotient carries
`max i j` digits more than the dividend has. -/
theorem C96_exact_two_five {a b res q : FixedDecimal} (ha : Tight a) (hb : WF b) (hres : res.lsu.length = 9)
    {incr : Nat} (hi : incr < 2 ^ 62) (ht : Truncates a b incr) (h : FixedDecimal.divTo m a b res incr = .ok q)
    {i j : Nat} (hv : |val b| = 2 ^ i * 5 ^ j) (hs : fracDigits a + max i j ≤ fracDigits q) :
    val q = val a / val b := by
  rw [C96_exact_iff ha.toWF hb hres hi ht h]
  obtain ⟨n, hn⟩ := val_mul_pow_digits ha (le_refl (fracDigits a))
  obtain ⟨c, hc⟩ : ∃ c, fracDigits q = fracDigits a + (max i j + c) := ⟨fracDigits q - fracDigits a - max i j, by omega⟩
  obtain ⟨u, hu⟩ : ∃ u, max i j = i + u := ⟨max i j - i, by omega⟩
  obtain ⟨v, hv'⟩ : ∃ v, max i j = j + v := ⟨max i j - j, by omega⟩
  have e10 : (10 : ℚ) ^ (max i j) = 2 ^ i * 5 ^ j * (2 ^ u * 5 ^ v) := by
    rw [show (10 : ℚ) = 2 * 5 by norm_num, mul_pow]
    conv_lhs => rw [hu, ← hu]
    rw [show (2 : ℚ) ^ max i j = 2 ^ i * 2 ^ u by rw [hu, pow_add], show (5 : ℚ) ^ max i j = 5 ^ j * 5 ^ v by rw [hv', pow_add]]
    ring
  have hb0 : (2 : ℚ) ^ i * 5 ^ j ≠ 0 := by positivity
  have ha' : val a = n / 10 ^ fracDigits a := by rw [← hn]; field_simp
  have key : ∀ y : ℚ, y = 2 ^ i * 5 ^ j → val a / y = ((n * (2 ^ u * 5 ^ v) * 10 ^ c : ℤ) : ℚ) / 10 ^ fracDigits q := by
    intro y hy
    rw [hy, ha', hc, pow_add, pow_add, e10]
    push_cast
    field_simp
  rcases abs_choice (val b) with h1 | h1
  · exact ⟨_, key _ (by rw [← h1, hv])⟩
  · refine ⟨-(n * (2 ^ u * 5 ^ v) * 10 ^ c), ?_⟩
    have := key (- val b) (by rw [← h1, hv])
    rw [div_neg] at this
    push_cast at this ⊢
    rw [neg_div, ← this, neg_neg]

theorem halfAway_near {n : ℤ} {y : ℚ} (h : |y - n| < 1 / 2) : halfAway y = n := by
  have h1 := halfAway_dist y
  rw [abs_lt] at h
  rw [abs_le] at h1
  have h2 : |((halfAway y - n : ℤ) : ℚ)| < 1 := by
    push_cast
    rw [abs_lt]; constructor <;> linarith [h.1, h.2, h1.1, h1.2]
  have h3 : |halfAway y - n| < 1 := by exact_mod_cast h2
  have := Int.abs_lt_one_iff.mp h3
  omega

/-- the numbers of the examples: 2, 3, 100.00, 1.0837 -/
def qTwo : FixedDecimal := ⟨1#8, 0, [2, 0, 0, 0, 0, 0, 0, 0, 0]⟩
@[inherit_doc qTwo] def qThree : FixedDecimal := ⟨1#8, 0, [3, 0, 0, 0, 0, 0, 0, 0, 0]⟩
@[inherit_doc qTwo] def qHundred : FixedDecimal := ⟨3#8, 2, [0, 100, 0, 0, 0, 0, 0, 0, 0]⟩
@[inherit_doc qTwo] def qRate : FixedDecimal := ⟨1#8, 4, [83700000, 1, 0, 0, 0, 0, 0, 0, 0]⟩

/-- non-vacuity, one-unit divisor: 2 / 3 is 0.666666666, rounded to two digits 0.67 -/
example : ∃ q r, FixedDecimal.divTo m qTwo qThree FixedDecimal.zero 4 = .ok q ∧ Truncates qTwo qThree 4 ∧ 2 < fracDigits q ∧
    (q.roundTo m FixedDecimal.zero (2 : Nat) : Out Unit _) = .ok r ∧ r.lsu = [670000000, 0, 0, 0, 0, 0, 0, 0, 0] ∧ WF qTwo ∧ WF qThree := by
  refine ⟨⟨0#8, 9, [666666666, 0, 0, 0, 0, 0, 0, 0, 0]⟩, ⟨0#8, 2, [670000000, 0, 0, 0, 0, 0, 0, 0, 0]⟩, ?_, .inl (by decide), by decide,
    ?_, rfl, by decide, by decide⟩ <;> cases m <;> decide +kernel

/-- non-vacuity, two-unit divisor: 100.00 / 1.0837 rounded to two digits is 92.28 -/
example : ∃ q r, FixedDecimal.divTo m qHundred qRate FixedDecimal.zero 4 = .ok q ∧ Truncates qHundred qRate 4 ∧ 2 < fracDigits q ∧
    ¬ mant qRate < 1000000000 ∧
    (q.roundTo m FixedDecimal.zero (2 : Nat) : Out Unit _) = .ok r ∧ r.lsu = [280000000, 92, 0, 0, 0, 0, 0, 0, 0] ∧
    MulFull r qRate ∧ (∃ p, FixedDecimal.mulTo m r qRate FixedDecimal.zero = .ok p) ∧ WF qHundred ∧ Tight qRate := by
  refine ⟨⟨3#8, 18, [983851619, 276460274, 92, 0, 0, 0, 0, 0, 0]⟩, ⟨9#8, 2, [280000000, 92, 0, 0, 0, 0, 0, 0, 0]⟩, ?_,
    .inr ⟨by decide +kernel, by decide +kernel⟩, by decide, by decide, ?_, rfl, by decide,
    ⟨⟨0x12#8, 6, [3836000, 100, 0, 0, 0, 0, 0, 0, 0]⟩, ?_⟩, by decide, by decide⟩ <;> cases m <;> decide +kernel

/-- non-vacuity of the exactness: 3 / 8 = 0.375 -/
example : FixedDecimal.divTo m qThree ⟨1#8, 0, [8, 0, 0, 0, 0, 0, 0, 0, 0]⟩ FixedDecimal.zero 4 =
      .ok (⟨0#8, 9, [375000000, 0, 0, 0, 0, 0, 0, 0, 0]⟩ : FixedDecimal) ∧ fracDigits qThree + max 3 0 ≤ 9 ∧
    |val ⟨1#8, 0, [8, 0, 0, 0, 0, 0, 0, 0, 0]⟩| = 2 ^ 3 * 5 ^ 0 := by
  refine ⟨by cases m <;> decide +kernel, by decide, ?_⟩
  have h1 : mant ⟨1#8, 0, [8, 0, 0, 0, 0, 0, 0, 0, 0]⟩ = 8 := by decide
  have h2 : fu ⟨1#8, 0, [8, 0, 0, 0, 0, 0, 0, 0, 0]⟩ = 0 := by decide
  have h3 : neg ⟨1#8, 0, [8, 0, 0, 0, 0, 0, 0, 0, 0]⟩ = false := by decide
  unfold val absVal
  rw [h1, h2, h3]; norm_num

/-- ... and why the scale matters in `C96_round_quotient`: rounding 2 / 3 to the nine digits it carries keeps the cut 0.666666666. -/
theorem C96_witness_scale (m : Mode) : ∃ q r, FixedDecimal.divTo m qTwo qThree FixedDecimal.zero 4 = .ok q ∧
    (q.roundTo m FixedDecimal.zero (9 : Nat) : Out Unit _) = .ok r ∧ r.lsu = [666666666, 0, 0, 0, 0, 0, 0, 0, 0] ∧
    halfAway (2 / 3 * 10 ^ 9) = 666666667 := by
  refine ⟨⟨0#8, 9, [666666666, 0, 0, 0, 0, 0, 0, 0, 0]⟩, ⟨0#8, 9, [666666666, 0, 0, 0, 0, 0, 0, 0, 0]⟩, ?_, ?_, rfl, ?_⟩
  · cases m <;> decide +kernel
  · cases m <;> decide +kernel
  · apply halfAway_near; norm_num [abs_lt]

/-! ## C97: quotients respect the order -/

/-- A finer cut of a non-negative number is not smaller. -/
theorem cut_finer {x : ℚ} (hx : 0 ≤ x) {s t : Nat} (h : s ≤ t) :
    (truncZ (x * 10 ^ s) : ℚ) / 10 ^ s ≤ truncZ (x * 10 ^ t) / 10 ^ t := by
  obtain ⟨c, rfl⟩ := Nat.exists_eq_add_of_le h
  have hs : (0 : ℚ) < 10 ^ s := by positivity
  have ht : (0 : ℚ) < 10 ^ (s + c) := by positivity
  have hc : (0 : ℚ) < 10 ^ c := by positivity
  unfold truncZ
  rw [if_neg (not_lt.mpr (by positivity)), if_neg (not_lt.mpr (by positivity)), div_le_div_iff₀ hs ht]
  have h1 : ((⌊x * 10 ^ s⌋ * 10 ^ c : ℤ) : ℚ) ≤ x * 10 ^ (s + c) := by
    push_cast
    rw [pow_add, ← mul_assoc]
    exact mul_le_mul_of_nonneg_right (Int.floor_le _) hc.le
  have h2 : ((⌊x * 10 ^ s⌋ * 10 ^ c : ℤ) : ℚ) ≤ ⌊x * 10 ^ (s + c)⌋ := by exact_mod_cast Int.le_floor.mpr h1
  push_cast at h2
  calc _ = (⌊x * 10 ^ s⌋ : ℚ) * 10 ^ c * 10 ^ s := by rw [pow_add 10 s c]; ring
    _ ≤ _ := mul_le_mul_of_nonneg_right h2 hs.le

theorem cut_mono {x y : ℚ} (h : x ≤ y) (s : Nat) : (truncZ (x * 10 ^ s) : ℚ) / 10 ^ s ≤ truncZ (y * 10 ^ s) / 10 ^ s := by
  have hs : (0 : ℚ) < 10 ^ s := by positivity
  apply div_le_div_of_nonneg_right _ hs.le
  exact_mod_cast truncZ_mono (mul_le_mul_of_nonneg_right h hs.le)

/-- **C97** Dividing by the same positive divisor preserves the order, results with the same number of digits. -/
theorem C97_div_mono {a a' b res res' q q' : FixedDecimal} (ha : WF a) (ha' : WF a') (hb : WF b) (hres : res.lsu.length = 9)
    (hres' : res'.lsu.length = 9) {incr incr' : Nat} (hi : incr < 2 ^ 62) (hi' : incr' < 2 ^ 62) (ht : Truncates a b incr)
    (ht' : Truncates a' b incr') (h : FixedDecimal.divTo m a b res incr = .ok q)
    (h' : FixedDecimal.divTo m a' b res' incr' = .ok q') (hs : fracDigits q = fracDigits q')
    (hle : val a ≤ val a') (h0 : 0 < val b) : val q ≤ val q' := by
  rw [(div_truncates ha hb hres hi ht h).2.2, (div_truncates ha' hb hres' hi' ht' h').2.2, hs]
  exact cut_mono (div_le_div_of_nonneg_right hle h0.le) _

/-- **C97** For non-negative dividends the larger one may also have more digits in its quotient. -/
theorem C97_div_mono_finer {a a' b res res' q q' : FixedDecimal} (ha : WF a) (ha' : WF a') (hb : WF b) (hres : res.lsu.length = 9)
    (hres' : res'.lsu.length = 9) {incr incr' : Nat} (hi : incr < 2 ^ 62) (hi' : incr' < 2 ^ 62) (ht : Truncates a b incr)
    (ht' : Truncates a' b incr') (h : FixedDecimal.divTo m a b res incr = .ok q)
    (h' : FixedDecimal.divTo m a' b res' incr' = .ok q') (hs : fracDigits q ≤ fracDigits q')
    (hpos : 0 ≤ val a) (hle : val a ≤ val a') (h0 : 0 < val b) : val q ≤ val q' := by
  rw [(div_truncates ha hb hres hi ht h).2.2, (div_truncates ha' hb hres' hi' ht' h').2.2]
  exact (cut_finer (div_nonneg hpos h0.le) hs).trans (cut_mono (div_le_div_of_nonneg_right hle h0.le) _)

/-- **C97** A larger positive divisor gives a smaller quotient. -/
theorem C97_div_anti {a b b' res res' q q' : FixedDecimal} (ha : WF a) (hb : WF b) (hb' : WF b') (hres : res.lsu.length = 9)
    (hres' : res'.lsu.length = 9) {incr incr' : Nat} (hi : incr < 2 ^ 62) (hi' : incr' < 2 ^ 62) (ht : Truncates a b incr)
    (ht' : Truncates a b' incr') (h : FixedDecimal.divTo m a b res incr = .ok q)
    (h' : FixedDecimal.divTo m a b' res' incr' = .ok q') (hs : fracDigits q' ≤ fracDigits q)
    (hpos : 0 ≤ val a) (h0 : 0 < val b) (hle : val b ≤ val b') : val q' ≤ val q := by
  rw [(div_truncates ha hb hres hi ht h).2.2, (div_truncates ha hb' hres' hi' ht' h').2.2]
  have h1 : val a / val b' ≤ val a / val b := div_le_div_of_nonneg_left hpos h0 hle
  exact (cut_finer (div_nonneg hpos (h0.le.trans hle)) hs).trans (cut_mono h1 _)

/-- **C97** When the quotients have the same number of digits: non-zero dividends with the same `frac()`, and not more than 45
integral digits in either quotient. -/
theorem C97_same_digits {a a' b res res' q q' : FixedDecimal} (ha : WF a) (ha' : WF a') (hb : WF b) (hres : res.lsu.length = 9)
    (hres' : res'.lsu.length = 9) (za : val a ≠ 0) (za' : val a' ≠ 0) (zb : val b ≠ 0) {incr : Nat} (hi : incr < 2 ^ 62)
    (h : FixedDecimal.divTo m a b res incr = .ok q) (h' : FixedDecimal.divTo m a' b res' incr = .ok q')
    (hf : fracDigits a = fracDigits a') (hq : intgDigits q ≤ 45) (hq' : intgDigits q' ≤ 45) : fracDigits q = fracDigits q' := by
  obtain ⟨e1, e2⟩ := C57_scale m ha hb hres za zb hi h
  obtain ⟨e1', e2'⟩ := C57_scale m ha' hb hres' za' zb hi h'
  have w : quoWant a b incr = quoWant a' b incr := by unfold quoWant fu; rw [hf]
  have c : quoFrac a b incr = quoFrac a' b incr := by unfold quoFrac; rw [w]
  have i1 : quoIU a b ≤ 5 := by unfold quoIU unitsFor; omega
  have i2 : quoIU a' b ≤ 5 := by unfold quoIU unitsFor; omega
  have f : quoFU a b incr = quoFU a' b incr := by unfold quoFU; rw [c]; omega
  unfold fracDigits
  rw [e1, e1', f]

/-- non-vacuity: 2 / 3 against 3 / 3, nine digits each, and 2 / 3 against 2 / 2 -/
example : ∃ q q' q'', FixedDecimal.divTo m qTwo qThree FixedDecimal.zero 4 = .ok q ∧
    FixedDecimal.divTo m qThree qThree FixedDecimal.zero 4 = .ok q' ∧ FixedDecimal.divTo m qTwo qTwo FixedDecimal.zero 4 = .ok q'' ∧
    fracDigits q = fracDigits q' ∧ fracDigits q = fracDigits q'' ∧ intgDigits q ≤ 45 ∧ intgDigits q' ≤ 45 ∧
    Truncates qThree qThree 4 ∧ Truncates qTwo qTwo 4 := by
  refine ⟨⟨0#8, 9, [666666666, 0, 0, 0, 0, 0, 0, 0, 0]⟩, ⟨1#8, 9, [0, 1, 0, 0, 0, 0, 0, 0, 0]⟩, ⟨1#8, 9, [0, 1, 0, 0, 0, 0, 0, 0, 0]⟩,
    ?_, ?_, ?_, by decide, by decide, by decide, by decide, .inl (by decide), .inl (by decide)⟩ <;> cases m <;> decide +kernel

/-- Without the same number of digits the order is lost: 1.0000000000 / 3 > 1 / 3, although the dividends are equal. -/
theorem C97_witness_digits (m : Mode) : ∃ q q', FixedDecimal.divTo m ⟨1#8, 10, [0, 0, 1, 0, 0, 0, 0, 0, 0]⟩ qThree FixedDecimal.zero 4 = .ok q ∧
    FixedDecimal.divTo m FixedDecimal.one qThree FixedDecimal.zero 4 = .ok q' ∧
    (FixedDecimal.cmp m ⟨1#8, 10, [0, 0, 1, 0, 0, 0, 0, 0, 0]⟩ FixedDecimal.one : Out Unit _) = .ok .eq ∧
    (FixedDecimal.cmp m q q' : Out Unit _) = .ok .gt := by
  refine ⟨⟨0#8, 18, [333333333, 333333333, 0, 0, 0, 0, 0, 0, 0]⟩, ⟨0#8, 9, [333333333, 0, 0, 0, 0, 0, 0, 0, 0]⟩, ?_, ?_, ?_, ?_⟩ <;>
    cases m <;> decide +kernel

/-! ## C98: dividing, then multiplying back -/

/-- **C98** `round(a / b, k) * b` is within half a unit of the `k`-th digit, times `|b|`, of `a`. -/
theorem C98_divide_multiply {a b res res' res'' q t p : FixedDecimal} (ha : WF a) (hb : Tight b) (hres : res.lsu.length = 9)
    (hres' : res'.lsu.length = 9) (hres'' : res''.lsu.length = 9) {incr : Nat} (hi : incr < 2 ^ 62) (ht : Truncates a b incr)
    (h : FixedDecimal.divTo m a b res incr = .ok q) {k : Nat} (hk : k < fracDigits q)
    (hr : (q.roundTo m res' k : Out σ _) = .ok t) (hf : MulFull t b) (hp : FixedDecimal.mulTo m t b res'' = .ok p) :
    |val p - val a| ≤ |val b| * (1 / 10 ^ k / 2) := by
  obtain ⟨zb, wq, _⟩ := div_truncates ha hb.toWF hres hi ht h
  have h1 := C39_round_to m wq hres' hk hr
  have h2 := (C96_round_quotient ha hb.toWF hres hres' hi ht h hk hr).2.1
  have h3 := (C27_mul_exact m h1.2.2.2 hb hres'' hf hp).1
  rw [h3, show val t * val b - val a = val b * (val t - val a / val b) by field_simp, abs_mul]
  exact mul_le_mul_of_nonneg_left h2 (abs_nonneg _)

/-- Convert an amount at rate `p`, rounded to `k` digits, and back, rounded to `j` digits: `((x * p).round(k) / p).round(j)`. -/
def convertBack (m : Mode) (incr k j : Nat) (x p : FixedDecimal) : Out FixedDecimal FixedDecimal := do
  let y ← charge m k x p
  let q ← FixedDecimal.divTo m y p FixedDecimal.zero incr
  q.roundTo m FixedDecimal.zero j

/-- **C98** Converting there and back restores the amount: it has at most `j` digits after the point, the other currency is kept to
`k` digits, and a unit of its last digit is worth less than one of the first's: `10^j < |rate| * 10^k`. -/
theorem C98_there_and_back {x p y q r : FixedDecimal} (hx : Tight x) (hp : Tight p) (hf : MulFull x p) {incr k j : Nat}
    (hi : incr < 2 ^ 62) (hk : k ≤ 127) (hxj : fracDigits x ≤ j) (hrate : 10 ^ j < |val p| * 10 ^ k)
    (h1 : charge m k x p = .ok y) (ht : Truncates y p incr) (h2 : FixedDecimal.divTo m y p FixedDecimal.zero incr = .ok q)
    (hj : j < fracDigits q) (h3 : (q.roundTo m FixedDecimal.zero j : Out σ _) = .ok r) : val r = val x := by
  have ty : Tight y := by
    unfold charge at h1
    obtain ⟨t, e1, e2⟩ := bind_eq_ok.mp h1
    exact (round_to_uniform m (C27_mul_exact m hx hp rfl hf e1).2.1 rfl hk e2).2.2.2
  have d1 := (C83_charge hx hp hf hk h1).2
  obtain ⟨zp, _, _⟩ := div_truncates ty.toWF hp.toWF rfl hi ht h2
  rw [(C96_round_quotient ty.toWF hp.toWF rfl rfl hi ht h2 hj h3).1]
  obtain ⟨n, hn⟩ := val_mul_pow_digits hx hxj
  have hjp : (0 : ℚ) < 10 ^ j := by positivity
  have hkp : (0 : ℚ) < 10 ^ k := by positivity
  have hpp : 0 < |val p| := abs_pos.mpr zp
  have hne : halfAway (val y / val p * 10 ^ j) = n := by
    apply halfAway_near
    rw [← hn, show val y / val p * 10 ^ j - val x * 10 ^ j = (val y - val x * val p) / val p * 10 ^ j by field_simp,
      abs_mul, abs_div, abs_of_pos hjp]
    have d2 : |val y - val x * val p| / |val p| * 10 ^ j ≤ (1 / 10 ^ k / 2) / |val p| * 10 ^ j :=
      mul_le_mul_of_nonneg_right (div_le_div_of_nonneg_right d1 hpp.le) hjp.le
    have d3 : (1 / 10 ^ k / 2) / |val p| * 10 ^ j < (1 : ℚ) / 2 := by
      rw [show (1 / 10 ^ k / 2) / |val p| * 10 ^ j = (10 ^ j / (|val p| * 10 ^ k)) * (1 / 2 : ℚ) by field_simp]
      have : (10 : ℚ) ^ j / (|val p| * 10 ^ k) < 1 := (div_lt_one (by positivity)).mpr hrate
      linarith
    linarith
  rw [hne, ← hn]
  field_simp

/-- **C98** The same as one call, for rates of at most two significant units (nine to eighteen digits) whose fractional units are not
more than those of `k` digits. -/
theorem C98_convert_back {x p r : FixedDecimal} (hx : Tight x) (hp : Tight p) (hf : MulFull x p) (h2 : TwoUnits p) {incr k j : Nat}
    (hi : incr < 2 ^ 62) (hk : k ≤ 127) (hpk : fu p ≤ unitsFor k) (hxj : fracDigits x ≤ j) (hrate : 10 ^ j < |val p| * 10 ^ k)
    (hscale : ∀ y q, charge m k x p = .ok y → FixedDecimal.divTo m y p FixedDecimal.zero incr = .ok q → j < fracDigits q)
    (h : convertBack m incr k j x p = .ok r) : val r = val x := by
  unfold convertBack at h
  obtain ⟨y, h1, h⟩ := bind_eq_ok.mp h
  obtain ⟨q, h3, h⟩ := bind_eq_ok.mp h
  have fy : fu y = unitsFor k := by
    have h1' := h1
    unfold charge at h1'
    obtain ⟨t, e1, e2⟩ := bind_eq_ok.mp h1'
    unfold fu fracDigits
    rw [(round_to_uniform m (C27_mul_exact m hx hp rfl hf e1).2.1 rfl hk e2).2.1]; simp
  exact C98_there_and_back hx hp hf hi hk hxj hrate h1 (.inr ⟨not_tooBig_of_twoUnits h2, by omega⟩) h3 (hscale y q h1 h3) h

/-- non-vacuity: 100.00 at 1.0837 is 108.37, and back 100.00 -/
example : ∃ y q r, charge m 2 qHundred qRate = .ok y ∧ FixedDecimal.divTo m y qRate FixedDecimal.zero 4 = .ok q ∧ 2 < fracDigits q ∧
    convertBack m 4 2 2 qHundred qRate = .ok r ∧ TwoUnits qRate ∧ MulFull qHundred qRate ∧ fu qRate ≤ unitsFor 2 ∧
    Tight qHundred ∧ Tight qRate ∧ (10 : ℚ) ^ 2 < |val qRate| * 10 ^ 2 := by
  refine ⟨⟨9#8, 2, [370000000, 108, 0, 0, 0, 0, 0, 0, 0]⟩, ⟨3#8, 18, [0, 0, 100, 0, 0, 0, 0, 0, 0]⟩,
    ⟨9#8, 2, [0, 100, 0, 0, 0, 0, 0, 0, 0]⟩, ?_, ?_, by decide, ?_, by decide +kernel, by decide, by decide, by decide, by decide, ?_⟩
  · cases m <;> decide +kernel
  · cases m <;> decide +kernel
  · cases m <;> decide +kernel
  · have h1 : mant qRate = 1083700000 := by decide
    have h2 : fu qRate = 1 := by decide
    have h3 : neg qRate = false := by decide
    unfold val absVal
    rw [h1, h2, h3]; norm_num

/-! ## C99: a chain of products uses up the integral digits -/

/-- `Chain m a ps r`: starting from `a`, multiply by one factor of `ps` after the other, each time into any output parameter and
if wanted rounding to some number of digits; `r` is the last result. -/
inductive Chain (m : Mode) : FixedDecimal → List FixedDecimal → FixedDecimal → Prop
  | done (a) : Chain m a [] a
  | step {a p res t ps r} (hres : res.lsu.length = 9) (h : FixedDecimal.mulTo m a p res = .ok t) (hc : Chain m t ps r) :
      Chain m a (p :: ps) r
  | rounded {a p res res' t u ps r} {k : Nat} (hres : res.lsu.length = 9) (hres' : res'.lsu.length = 9) (hk : k ≤ 127)
      (h : FixedDecimal.mulTo m a p res = .ok t) (hr : (t.roundTo m res' k : Out Unit _) = .ok u) (hc : Chain m u ps r) :
      Chain m a (p :: ps) r

/-- Rounding does not give integral digits back. -/
theorem round_to_intg {d res r : FixedDecimal} (hd : Tight d) (hres : res.lsu.length = 9) {k : Nat}
    (h : (d.roundTo m res k : Out σ _) = .ok r) (hk : k ≤ 127) : intgDigits d ≤ intgDigits r ∧ iu r ≤ iu d + 1 ∧
      (|val r| < 10 ^ (9 * iu d) → iu r = iu d) := by
  by_cases hf : k < fracDigits d
  · rw [roundTo_pos m hd.toWF hres hf] at h
    have hs := roundPos_spec (σ := σ) m hd.toWF hf
    by_cases hc : iu d + unitsFor k ≤ 8 ∨ |(halfAway (val d * 10 ^ k) : ℚ) / 10 ^ k| < 10 ^ (9 * iu d)
    · obtain ⟨r', e, -, -, -, -, e2⟩ := hs.1 hc
      rw [h] at e; cases e
      unfold iu at *
      unfold unitsFor at *
      split_ifs at e2 with hlt
      · refine ⟨by omega, by omega, fun _ => by omega⟩
      · exact ⟨by omega, by omega, fun hcon => absurd hcon hlt⟩
    · rw [hs.2 hc] at h; cases h
  · have h9 : iu d + unitsFor k ≤ 9 := by
      by_contra hcon
      obtain ⟨p, hp⟩ := C40_panic (σ := σ) m hd.toWF hres (not_lt.mp hf) (by omega) hk
      rw [h] at hp; cases hp
    obtain ⟨r', e, -, -, e2, -⟩ := C40_extend (σ := σ) m hd.toWF hres (not_lt.mp hf) h9
    rw [h] at e; cases e
    have : intgDigits r = intgDigits d := by unfold intgDigits; rw [e2]
    unfold iu
    rw [this]
    exact ⟨le_refl _, by omega, fun _ => rfl⟩

/-- One product: the result is zero, or nine integral digits more are in use. -/
theorem mul_intg {a p res t : FixedDecimal} (ha : Tight a) (hp : Tight p) (hres : res.lsu.length = 9)
    (h : FixedDecimal.mulTo m a p res = .ok t) : Tight t ∧ (t = FixedDecimal.zero ∨ intgDigits t = 9 * mulIU a p) := by
  by_cases z : val a = 0 ∨ val p = 0
  · rw [(C30_mul_sign m ha hp hres h).2.2 z]
    exact ⟨by decide, .inl rfl⟩
  · rw [not_or] at z
    exact ⟨(C28_mul_trunc m ha hp hres z.1 z.2 h).2.2.2, .inr (C28_code m ha.toWF hp.toWF hres z.1 z.2 h).2.2.2.1⟩

theorem chain_intg {a : FixedDecimal} {ps : List FixedDecimal} {r : FixedDecimal} (hc : Chain m a ps r) :
    ∀ n, Tight a → (∀ p ∈ ps, Tight p ∧ 1 ≤ intgDigits p) → (val a = 0 ∨ 9 * n ≤ intgDigits a) →
      Tight r ∧ (val r = 0 ∨ 9 * (n + ps.length) ≤ intgDigits r) := by
  have key : ∀ {a p res t : FixedDecimal} {n : Nat}, Tight a → Tight p → 1 ≤ intgDigits p → res.lsu.length = 9 →
      FixedDecimal.mulTo m a p res = .ok t → (val a = 0 ∨ 9 * n ≤ intgDigits a) →
      Tight t ∧ (val t = 0 ∨ 9 * (n + 1) ≤ intgDigits t) := by
    intro a p res t n ha hp h1 hres h hn
    obtain ⟨e1, e2⟩ := mul_intg ha hp hres h
    refine ⟨e1, ?_⟩
    rcases e2 with e2 | e2
    · left; rw [e2, val_zero_const]
    · rcases hn with z | hn
      · left; rw [(C30_mul_sign m ha hp hres h).2.2 (.inl z), val_zero_const]
      · right; rw [e2]; unfold mulIU unitsFor; omega
  induction hc with
  | done a => intro n ha _ hn; exact ⟨ha, by simpa using hn⟩
  | step hres h _ ih =>
    intro n ha hps hn
    obtain ⟨hp, h1⟩ := hps _ List.mem_cons_self
    obtain ⟨e1, e2⟩ := key ha hp h1 hres h hn
    obtain ⟨g1, g2⟩ := ih (n + 1) e1 (fun p hp => hps p (by simp [hp])) e2
    exact ⟨g1, g2.imp_right fun g => by rw [List.length_cons]; omega⟩
  | rounded hres hres' hk h hr _ ih =>
    intro n ha hps hn
    obtain ⟨hp, h1⟩ := hps _ List.mem_cons_self
    obtain ⟨e1, e2⟩ := key ha hp h1 hres h hn
    have f1 := round_to_uniform m e1 hres' hk hr
    have f2 := round_to_intg e1 hres' hr hk
    obtain ⟨g1, g2⟩ := ih (n + 1) f1.2.2.2 (fun p hp => hps p (by simp [hp])) (by
      rcases e2 with e2 | e2
      · left; rw [f1.1, e2]; norm_num [halfAway]
      · right; omega)
    exact ⟨g1, g2.imp_right fun g => by rw [List.length_cons]; omega⟩

/-- **C99** No chain of ten products, rounded in between or not, whose factors have an integral digit each, comes out with anything
but zero: every product claims nine more integral digits than its left factor, however small the numbers are. -/
theorem C99_chain {a r : FixedDecimal} {ps : List FixedDecimal} (ha : Tight a) (hps : ∀ p ∈ ps, Tight p ∧ 1 ≤ intgDigits p)
    (hlen : 10 ≤ ps.length) (hc : Chain m a ps r) : val r = 0 := by
  obtain ⟨e1, e2⟩ := chain_intg hc 0 ha hps (.inr (by omega))
  rcases e2 with e2 | e2
  · exact e2
  · have := e1.toWF.fits
    unfold iu unitsFor at this
    omega

/-- ... and the limit is sharp and real: 1 can be multiplied by 1 nine times; the tenth product is `Err(Overflow)`. -/
theorem C99_tenth_fails (m : Mode) : ∃ r, Chain m FixedDecimal.one (List.replicate 9 FixedDecimal.one) r ∧ val r = 1 ∧
    FixedDecimal.mulTo m r FixedDecimal.one FixedDecimal.zero = .err .overflow FixedDecimal.zero := by
  have st : ∀ {n i : Nat} {r : FixedDecimal}, Chain m ⟨BitVec.ofNat 8 (i + 9), 0, [1, 0, 0, 0, 0, 0, 0, 0, 0]⟩
        (List.replicate n FixedDecimal.one) r →
      FixedDecimal.mulTo m ⟨BitVec.ofNat 8 i, 0, [1, 0, 0, 0, 0, 0, 0, 0, 0]⟩ FixedDecimal.one FixedDecimal.zero =
        .ok ⟨BitVec.ofNat 8 (i + 9), 0, [1, 0, 0, 0, 0, 0, 0, 0, 0]⟩ →
      Chain m ⟨BitVec.ofNat 8 i, 0, [1, 0, 0, 0, 0, 0, 0, 0, 0]⟩ (List.replicate (n + 1) FixedDecimal.one) r := by
    intro n i r h1 h2
    exact .step (res := FixedDecimal.zero) rfl h2 h1
  refine ⟨⟨81#8, 0, [1, 0, 0, 0, 0, 0, 0, 0, 0]⟩, ?_, ?_, by cases m <;> decide +kernel⟩
  · have h0 : FixedDecimal.mulTo m FixedDecimal.one FixedDecimal.one FixedDecimal.zero =
        .ok ⟨9#8, 0, [1, 0, 0, 0, 0, 0, 0, 0, 0]⟩ := by cases m <;> decide +kernel
    refine .step (res := FixedDecimal.zero) (ps := List.replicate 8 FixedDecimal.one) rfl h0 ?_
    refine st (n := 7) (i := 9) ?_ (by cases m <;> decide +kernel)
    refine st (n := 6) (i := 18) ?_ (by cases m <;> decide +kernel)
    refine st (n := 5) (i := 27) ?_ (by cases m <;> decide +kernel)
    refine st (n := 4) (i := 36) ?_ (by cases m <;> decide +kernel)
    refine st (n := 3) (i := 45) ?_ (by cases m <;> decide +kernel)
    refine st (n := 2) (i := 54) ?_ (by cases m <;> decide +kernel)
    refine st (n := 1) (i := 63) ?_ (by cases m <;> decide +kernel)
    refine st (n := 0) (i := 72) ?_ (by cases m <;> decide +kernel)
    exact .done _
  · have h1 : mant ⟨81#8, 0, [1, 0, 0, 0, 0, 0, 0, 0, 0]⟩ = 1 := by decide
    have h2 : fu ⟨81#8, 0, [1, 0, 0, 0, 0, 0, 0, 0, 0]⟩ = 0 := by decide
    have h3 : neg ⟨81#8, 0, [1, 0, 0, 0, 0, 0, 0, 0, 0]⟩ = false := by decide
    unfold val absVal
    rw [h1, h2, h3]; norm_num

/-! ## C100: compounding -/

/-- `x = x * p` rounded to `k` digits, for one rate `p` after the other. -/
def compound (m : Mode) (k : Nat) : FixedDecimal → List FixedDecimal → Out FixedDecimal FixedDecimal
  | x, [] => .ok x
  | x, p :: ps => do
    let y ← charge m k x p
    compound m k y ps

/-- The rounding errors, in half units of the `k`-th digit: each is carried along by the rates that follow. -/
def carried : List ℚ → ℚ
  | [] => 0
  | _ :: ps => |ps.prod| + carried ps

theorem tight_lt_pow {d : FixedDecimal} (h : Tight d) : |val d| < 10 ^ intgDigits d := by
  rw [abs_val h.toWF]
  unfold absVal
  rw [div_lt_iff₀ (by positivity), ← pow_add]
  exact_mod_cast h.intg_ok

/-- A rounded product below `X * 10^8`, in numbers. -/
theorem rounded_below {r x p e X : ℚ} (hX : 1 ≤ X) (b1 : |x| < X) (b2 : |p| < 10 ^ 8) (he : |r - x * p| ≤ e) (he1 : e ≤ 1) :
    |r| < X * 10 ^ 9 := by
  have b3 : |x * p| < X * 10 ^ 8 := by rw [abs_mul]; exact mul_lt_mul'' b1 b2 (abs_nonneg _) (abs_nonneg _)
  have b6 : |r| ≤ |r - x * p| + |x * p| := by
    have := abs_add_le (r - x * p) (x * p)
    rwa [sub_add_cancel] at this
  linarith

/-- One period, all conditions in digit counts: `u` integral units before, at most `u + 1` after. -/
theorem charge_ok {x p : FixedDecimal} {k f u : Nat} (hx : Tight x) (hx1 : 1 ≤ intgDigits x) (hxk : fracDigits x ≤ k)
    (hxu : iu x ≤ u) (hp : Tight p) (hpi : intgDigits p ≤ 8) (hpf : fracDigits p ≤ f) (h4 : unitsFor (k + f) ≤ 4)
    (hroom : u + 1 + unitsFor (k + f) ≤ 8) :
    ∃ r, charge m k x p = .ok r ∧ Tight r ∧ 1 ≤ intgDigits r ∧ fracDigits r = k ∧ iu r ≤ u + 1 ∧
      |val r - val x * val p| ≤ 1 / 10 ^ k / 2 := by
  have hk : k ≤ 127 := by unfold unitsFor at h4; omega
  have hux : intgDigits x ≤ 9 * u := by unfold iu unitsFor at hxu; omega
  have hu1 : 1 ≤ u := by omega
  have hmi : mulIU x p ≤ u + 1 := by unfold mulIU unitsFor; omega
  have hmi1 : 1 ≤ mulIU x p := by unfold mulIU unitsFor; omega
  have hmf : unitsFor (fracDigits x + fracDigits p) ≤ unitsFor (k + f) := unitsFor_mono (by omega)
  have hfull : MulFull x p := by unfold MulFull mulFU; omega
  have hfits : MulFits m x p := by
    refine ⟨by omega, by unfold unitsFor at h4; omega, .inl ?_⟩
    have e : mulFU x p = unitsFor (fracDigits x + fracDigits p) := hfull
    have : fu p ≤ unitsFor (fracDigits x + fracDigits p) := unitsFor_mono (by omega)
    have : 1 ≤ iu x := by unfold iu unitsFor; omega
    omega
  obtain ⟨t, ht⟩ := (C56_mul_ok_iff m hx hp (res := FixedDecimal.zero) rfl).mpr (.inr (.inr hfits))
  obtain ⟨e1, e2, e3⟩ := C27_mul_exact m hx hp rfl hfull ht
  obtain ⟨_, e4⟩ := mul_intg hx hp rfl ht
  have ht1 : 1 ≤ intgDigits t := by
    rcases e4 with e4 | e4
    · rw [e4]; decide
    · omega
  have htu : iu t ≤ u + 1 := by
    rcases e4 with e4 | e4
    · rw [e4]; have : iu FixedDecimal.zero = 1 := by decide
      omega
    · unfold iu; rw [e4, unitsFor_mul9]; exact hmi
  have hex : ∃ r, (t.roundTo m FixedDecimal.zero k : Out FixedDecimal _) = .ok r := by
    have hku : unitsFor k ≤ unitsFor (k + f) := unitsFor_mono (by omega)
    by_cases hkt : k < fracDigits t
    · exact ((C39_ok_iff m e2.toWF rfl hkt).1).mpr (.inl (by omega))
    · obtain ⟨r, hr, -⟩ := C40_extend (σ := FixedDecimal) m e2.toWF (res := FixedDecimal.zero) rfl (not_lt.mp hkt) (by omega)
      exact ⟨r, hr⟩
  obtain ⟨r, hr⟩ := hex
  have hch : charge m k x p = .ok r := by unfold charge; rw [ht]; exact hr
  obtain ⟨g1, g2, -, g4⟩ := round_to_uniform m e2 rfl hk hr
  obtain ⟨i1, i2, i3⟩ := round_to_intg e2 rfl hr hk
  refine ⟨r, hch, g4, by omega, by unfold fracDigits; rw [g2]; simp, ?_, (C83_charge hx hp hfull hk hch).2⟩
  by_cases hlt : iu t ≤ u
  · omega
  · -- no carry: the product is below 10^(9u+8)
    have hiu : iu t = u + 1 := by omega
    have hb : |val r| < 10 ^ (9 * iu t) := by
      have b5 : (1 : ℚ) / 10 ^ k / 2 ≤ 1 := by
        have : (1 : ℚ) ≤ 10 ^ k := one_le_pow₀ (by norm_num)
        rw [div_div, div_le_one (by positivity)]; linarith
      rw [hiu, show 9 * (u + 1) = 9 * u + 9 by omega, pow_add]
      exact rounded_below (one_le_pow₀ (by norm_num)) (lt_of_lt_of_le (tight_lt_pow hx) (pow_le_pow_right₀ (by norm_num) hux))
        (lt_of_lt_of_le (tight_lt_pow hp) (pow_le_pow_right₀ (by norm_num) hpi)) (C83_charge hx hp hfull hk hch).2 b5
    rw [i3 hb]; omega

/-- **C100** Compounding: an amount with at most `k` digits after the point, rates below 10^8 with at most `f`; as long as the
periods fit the integral units (`iu a + n + ceil((k + f) / 9) <= 8`) every step succeeds, and the outcome is off the exact one by
at most half a unit per period, each carried along by the rates that follow. -/
theorem C100_compound {k f : Nat} (h4 : unitsFor (k + f) ≤ 4) : ∀ (ps : List FixedDecimal) {a : FixedDecimal}, Tight a →
    1 ≤ intgDigits a → fracDigits a ≤ k → (∀ p ∈ ps, Tight p ∧ intgDigits p ≤ 8 ∧ fracDigits p ≤ f) →
    iu a + ps.length + unitsFor (k + f) ≤ 8 →
    ∃ r, compound m k a ps = .ok r ∧ Tight r ∧ |val r - val a * (ps.map val).prod| ≤ carried (ps.map val) * (1 / 10 ^ k / 2)
  | [], a, ha, _, _, _, _ => ⟨a, rfl, ha, by simp [carried]⟩
  | p :: ps, a, ha, h1, hk, hps, hroom => by
    rw [List.length_cons] at hroom
    obtain ⟨hp, hpi, hpf⟩ := hps p (by simp)
    obtain ⟨y, e1, e2, e3, e4, e5, e6⟩ := charge_ok (m := m) (u := iu a) ha h1 hk (le_refl _) hp hpi hpf h4 (by omega)
    obtain ⟨r, g1, g2, g3⟩ := C100_compound h4 ps e2 e3 e4.le (fun p hp => hps p (by simp [hp])) (by omega)
    refine ⟨r, by unfold compound; rw [e1]; exact g1, g2, ?_⟩
    rw [List.map_cons, List.prod_cons, carried]
    set P := (ps.map val).prod
    have : |val r - val a * (val p * P)| ≤ |val r - val y * P| + |P| * |val y - val a * val p| := by
      rw [← abs_mul]
      have := abs_add_le (val r - val y * P) (P * (val y - val a * val p))
      rwa [show val r - val y * P + P * (val y - val a * val p) = val r - val a * (val p * P) by ring] at this
    have h5 : |P| * |val y - val a * val p| ≤ |P| * (1 / 10 ^ k / 2) := mul_le_mul_of_nonneg_left e6 (abs_nonneg _)
    rw [add_mul]
    linarith

theorem carried_le_one : ∀ {ps : List ℚ}, (∀ p ∈ ps, |p| ≤ 1) → |ps.prod| ≤ 1 ∧ carried ps ≤ ps.length
  | [], _ => by simp [carried]
  | p :: ps, h => by
    obtain ⟨h1, h2⟩ := carried_le_one (fun q hq => h q (by simp [hq]) : ∀ q ∈ ps, |q| ≤ 1)
    refine ⟨?_, ?_⟩
    · rw [List.prod_cons, abs_mul]
      exact mul_le_one₀ (h p (by simp)) (abs_nonneg _) h1
    · rw [carried, List.length_cons]; push_cast; linarith

/-- **C100** With rates of at most one (depreciation, discounts) the error is at most half a unit per period. -/
theorem C100_decay {k f : Nat} (h4 : unitsFor (k + f) ≤ 4) {ps : List FixedDecimal} {a : FixedDecimal} (ha : Tight a)
    (h1 : 1 ≤ intgDigits a) (hk : fracDigits a ≤ k)
    (hps : ∀ p ∈ ps, Tight p ∧ intgDigits p ≤ 8 ∧ fracDigits p ≤ f ∧ |val p| ≤ 1) (hroom : iu a + ps.length + unitsFor (k + f) ≤ 8) :
    ∃ r, compound m k a ps = .ok r ∧ |val r - val a * (ps.map val).prod| ≤ ps.length * (1 / 10 ^ k / 2) := by
  obtain ⟨r, e1, -, e3⟩ := C100_compound (m := m) h4 ps ha h1 hk (fun p hp => ⟨(hps p hp).1, (hps p hp).2.1, (hps p hp).2.2.1⟩) hroom
  refine ⟨r, e1, e3.trans (mul_le_mul_of_nonneg_right ?_ (by positivity))⟩
  have := (carried_le_one (ps := ps.map val) (by
    intro q hq
    obtain ⟨p, hp, rfl⟩ := List.mem_map.mp hq
    exact (hps p hp).2.2.2)).2
  rwa [List.length_map] at this

/-- non-vacuity: 100.00 at 1.0837 for two periods is 117.44 (exactly 117.440569) -/
example : Tight qHundred ∧ 1 ≤ intgDigits qHundred ∧ fracDigits qHundred ≤ 2 ∧ Tight qRate ∧ intgDigits qRate ≤ 8 ∧ fracDigits qRate ≤ 4 ∧
    unitsFor (2 + 4) ≤ 4 ∧ iu qHundred + [qRate, qRate].length + unitsFor (2 + 4) ≤ 8 ∧
    compound m 2 qHundred [qRate, qRate] = .ok (⟨0x12#8, 2, [440000000, 117, 0, 0, 0, 0, 0, 0, 0]⟩ : FixedDecimal) := by
  refine ⟨by decide, by decide, by decide, by decide, by decide, by decide, by decide, by decide, ?_⟩
  cases m <;> decide +kernel

end Fxd.Props
