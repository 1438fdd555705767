import Verif.Props.Ledger
import Verif.Props.Laws
import Verif.Props.Ints
/-!
# Properties C80-C83: rounded totals, quotient and remainder, averages, rates
-/

namespace Fxd.Props
open Fxd Spec

variable {m : Mode} {σ : Type}

/-! ## C80: rounding a list of amounts -/

/-- Every amount rounded to `k` digits, `x.round_to(&mut r, k)` on a fresh `r`: `rs` are the rounded amounts. -/
def AllRounded (m : Mode) (k : Nat) (xs rs : List FixedDecimal) : Prop :=
  List.Forall₂ (fun x r => (x.roundTo m FixedDecimal.zero k : Out Empty _) = .ok r) xs rs

/-- `val r - val x` is at most half a unit of the `k`-th digit, for any `k` up to 127. -/
theorem round_dist {d res r : FixedDecimal} (hd : Tight d) (hres : res.lsu.length = 9) {k : Nat} (hk : k ≤ 127)
    (h : (d.roundTo m res k : Out σ _) = .ok r) : |val r - val d| ≤ 1 / 10 ^ k / 2 := by
  rw [(round_to_uniform m hd hres hk h).1]
  have h1 := halfAway_dist (val d * 10 ^ k)
  have hp : (0 : ℚ) < 10 ^ k := by positivity
  rw [show (halfAway (val d * 10 ^ k) : ℚ) / 10 ^ k - val d = ((halfAway (val d * 10 ^ k) : ℚ) - val d * 10 ^ k) / 10 ^ k by
    field_simp, abs_div, abs_of_pos hp, div_right_comm]
  exact div_le_div_of_nonneg_right h1 hp.le

/-- **C80** Rounding every amount moves the total by at most half a unit per amount. -/
theorem C80_rounded_sum {k : Nat} (hk : k ≤ 127) : ∀ {xs rs : List FixedDecimal}, (∀ x ∈ xs, Tight x) → AllRounded m k xs rs →
    |(rs.map val).sum - (xs.map val).sum| ≤ xs.length * (1 / 10 ^ k / 2)
  | [], _, _, h => by cases h; simp
  | x :: xs, _, ht, h => by
    cases h with
    | @cons _ r _ rs h1 h2 =>
      have e1 := round_dist (ht x (by simp)) rfl hk h1
      have e2 := C80_rounded_sum hk (fun y hy => ht y (by simp [hy])) h2
      rw [List.map_cons, List.map_cons, List.sum_cons, List.sum_cons, List.length_cons]
      push_cast
      rw [abs_le] at e1 e2 ⊢
      constructor <;> linarith [e1.1, e1.2, e2.1, e2.2]

theorem rounded_whole {k : Nat} (hk : k ≤ 127) : ∀ {xs rs : List FixedDecimal}, (∀ x ∈ xs, Tight x) → AllRounded m k xs rs →
    ∃ n : ℤ, (rs.map val).sum = n / 10 ^ k
  | [], _, _, h => by cases h; exact ⟨0, by simp⟩
  | x :: xs, _, ht, h => by
    cases h with
    | @cons _ r _ rs h1 h2 =>
      obtain ⟨n, hn⟩ := rounded_whole hk (fun y hy => ht y (by simp [hy])) h2
      refine ⟨halfAway (val x * 10 ^ k) + n, ?_⟩
      rw [List.map_cons, List.sum_cons, hn, (round_to_uniform m (ht x (by simp)) rfl hk h1).1]
      push_cast; ring

/-- **C80** The sum of the rounded amounts and the rounded sum differ by a whole number of units of the `k`-th digit, at
most `(n + 1) / 2` of them. -/
theorem C80_sum_of_rounded {k : Nat} (hk : k ≤ 127) {xs rs : List FixedDecimal} (ht : ∀ x ∈ xs, Tight x)
    (h : AllRounded m k xs rs) {t r res : FixedDecimal} (hres : res.lsu.length = 9) (htt : Tight t)
    (hv : val t = (xs.map val).sum) (hr : (t.roundTo m res k : Out σ _) = .ok r) :
    ∃ n : ℤ, (rs.map val).sum - val r = n / 10 ^ k ∧ 2 * |n| ≤ xs.length + 1 := by
  obtain ⟨n, hn⟩ := rounded_whole hk ht h
  have h1 := C80_rounded_sum hk ht h
  have h2 := round_dist htt hres hk hr
  have h3 := (round_to_uniform m htt hres hk hr).1
  refine ⟨n - halfAway (val t * 10 ^ k), by rw [hn, h3]; push_cast; ring, ?_⟩
  have hp : (0 : ℚ) < 10 ^ k := by positivity
  have h4 : |(rs.map val).sum - val r| ≤ (xs.length + 1) * (1 / 10 ^ k / 2) := by
    rw [← hv] at h1
    rw [abs_le] at h1 h2 ⊢
    constructor <;> linarith [h1.1, h1.2, h2.1, h2.2]
  rw [hn, h3, show (n : ℚ) / 10 ^ k - halfAway (val t * 10 ^ k) / 10 ^ k =
    ((n - halfAway (val t * 10 ^ k) : ℤ) : ℚ) / 10 ^ k by push_cast; ring, abs_div, abs_of_pos hp,
    div_le_iff₀ hp] at h4
  have h5 : (xs.length + 1 : ℚ) * (1 / 10 ^ k / 2) * 10 ^ k = (xs.length + 1) / 2 := by field_simp
  rw [h5, le_div_iff₀ (by norm_num)] at h4
  have h6 : |(n - halfAway (val t * 10 ^ k))| * 2 ≤ (xs.length : ℤ) + 1 := by exact_mod_cast h4
  linarith

/-- **C80** If no amount has more than `k` digits after the point, rounding changes nothing: no cent is lost. -/
theorem C80_no_loss {k : Nat} (hk : k ≤ 127) : ∀ {xs rs : List FixedDecimal}, (∀ x ∈ xs, Tight x ∧ fracDigits x ≤ k) →
    AllRounded m k xs rs → rs.map val = xs.map val
  | [], _, _, h => by cases h; rfl
  | x :: xs, _, ht, h => by
    cases h with
    | @cons _ r _ rs h1 h2 =>
      rw [List.map_cons, List.map_cons, C80_no_loss hk (fun y hy => ht y (by simp [hy])) h2]
      congr 1
      obtain ⟨tx, fx⟩ := ht x (by simp)
      obtain ⟨n, hn⟩ := val_mul_pow_digits tx fx
      rw [(round_to_uniform m tx rfl hk h1).1, hn, halfAway_int, ← hn]
      field_simp

/-- non-vacuity: -7.50 twice, rounded to one digit; the sums agree with the rounded total -15.0. -/
example : ∃ r, AllRounded m 1 [Samples.c, Samples.c] [r, r] ∧ Tight Samples.c ∧ val r = -15 / 2 := by
  refine ⟨⟨0x89#8, 1, [500000000, 7, 0, 0, 0, 0, 0, 0, 0]⟩, ?_, by decide, ?_⟩
  · have h : (Samples.c.roundTo m FixedDecimal.zero (1 : Nat) : Out Empty _) =
        .ok ⟨0x89#8, 1, [500000000, 7, 0, 0, 0, 0, 0, 0, 0]⟩ := by cases m <;> decide +kernel
    exact .cons h (.cons h .nil)
  · have h1 : mant ⟨0x89#8, 1, [500000000, 7, 0, 0, 0, 0, 0, 0, 0]⟩ = 7500000000 := by decide
    have h2 : fu ⟨0x89#8, 1, [500000000, 7, 0, 0, 0, 0, 0, 0, 0]⟩ = 1 := by decide
    have h3 : neg ⟨0x89#8, 1, [500000000, 7, 0, 0, 0, 0, 0, 0, 0]⟩ = true := by decide
    unfold val absVal
    rw [h1, h2, h3]; norm_num

/-! ## C81: quotient and remainder belong together -/

/-- **C81** `a = b * trunc(a / b) + a % b`, for a divisor of one unit (a whole number below 10^9, or a fraction below 1
with at most nine digits). -/
theorem C81_div_rem {a b res res' q r : FixedDecimal} (ha : WF a) (hb : WF b) (hres : res.lsu.length = 9)
    (hres' : res'.lsu.length = 9) (h1 : mant b < 1000000000) {incr : Nat} (hi : incr < 2 ^ 62)
    (hq : FixedDecimal.divTo m a b res incr = .ok q) (hr : FixedDecimal.remTo m a b res' = .ok r) :
    val a = val b * truncZ (val q) + val r ∧ |val r| < |val b| ∧ truncZ (val q) = truncZ (val a / val b) := by
  have hbd := (C37_bounded m ha hb hres' hr).2.1
  have zb : val b ≠ 0 := by intro h; rw [h, abs_zero] at hbd; exact absurd hbd (not_lt.mpr (abs_nonneg _))
  have h2 : TwoUnits b := by
    unfold TwoUnits topUnit
    have hm := hb.mant_nonneg
    rw [Nat.log_of_lt (by omega)]
    simp
  have e1 : truncZ (val q) = truncZ (val a / val b) := by
    rw [(C35_short_div m ha hb hres zb h1 hi hq).2]
    unfold truncQuot
    exact truncZ_cut _ _
  refine ⟨?_, hbd, e1⟩
  rw [C37_two_units_partial m ha hb hres' h2 hr, e1]
  unfold truncRem; ring

/-- **C81** The same for any divisor, as long as the code makes no quotient guess that is too large (see C36, C37) and
the divisor's fraction fits. -/
theorem C81_div_rem_long {a b res res' q r : FixedDecimal} (ha : WF a) (hb : WF b) (hres : res.lsu.length = 9)
    (hres' : res'.lsu.length = 9) (za : val a ≠ 0) {incr : Nat} (hi : incr < 2 ^ 62)
    (hg : ¬ QuoGuessTooBig a b incr) (hc : fu b ≤ quoIU a b + fu a) (hg' : ¬ RemGuessTooBig a b)
    (hq : FixedDecimal.divTo m a b res incr = .ok q) (hr : FixedDecimal.remTo m a b res' = .ok r) :
    val a = val b * truncZ (val q) + val r ∧ |val r| < |val b| ∧ truncZ (val q) = truncZ (val a / val b) := by
  have hbd := (C37_bounded m ha hb hres' hr).2.1
  have zb : val b ≠ 0 := by intro h; rw [h, abs_zero] at hbd; exact absurd hbd (not_lt.mpr (abs_nonneg _))
  have e1 : truncZ (val q) = truncZ (val a / val b) := by
    rw [(C36_exact_partial m ha hb hres za zb hi hg hq).2.2.2 hc]
    unfold truncQuot
    exact truncZ_cut _ _
  refine ⟨?_, hbd, e1⟩
  rw [C37_exact_partial m ha hb hres' hg' hr, e1]
  unfold truncRem; ring

/-- **C81** For divisors of at most two significant units (the guesses are then never too large) only the room for the
divisor's fraction remains to be asked for. -/
theorem C81_div_rem_two {a b res res' q r : FixedDecimal} (ha : WF a) (hb : WF b) (hres : res.lsu.length = 9)
    (hres' : res'.lsu.length = 9) (za : val a ≠ 0) {incr : Nat} (hi : incr < 2 ^ 62) (h2 : TwoUnits b)
    (hc : fu b ≤ quoIU a b + fu a)
    (hq : FixedDecimal.divTo m a b res incr = .ok q) (hr : FixedDecimal.remTo m a b res' = .ok r) :
    val a = val b * truncZ (val q) + val r ∧ |val r| < |val b| ∧ truncZ (val q) = truncZ (val a / val b) :=
  C81_div_rem_long ha hb hres hres' za hi (not_tooBig_of_twoUnits h2) hc (not_tooBig_two h2) hq hr

/-- non-vacuity: 123456789012.345 by -7.50 gives -16460905201.646 and leaves 4.845. -/
example : ∃ q r, FixedDecimal.divTo m Samples.a Samples.c FixedDecimal.zero 4 = .ok q ∧
    FixedDecimal.remTo m Samples.a Samples.c FixedDecimal.zero = .ok r ∧ WF Samples.a ∧ WF Samples.c := by
  refine ⟨(⟨0x8c#8, 18, [0, 646000000, 460905201, 16, 0, 0, 0, 0, 0]⟩ : FixedDecimal),
    (⟨1#8, 3, [845000000, 4, 0, 0, 0, 0, 0, 0, 0]⟩ : FixedDecimal), ?_, ?_, by decide, by decide⟩ <;> cases m <;> decide +kernel

/-- and the side conditions hold there -/
example : TwoUnits Samples.c ∧ val Samples.a ≠ 0 ∧ ¬ QuoGuessTooBig Samples.a Samples.c 4 ∧ ¬ RemGuessTooBig Samples.a Samples.c ∧
    fu Samples.c ≤ quoIU Samples.a Samples.c + fu Samples.a := by
  refine ⟨by decide +kernel, by rw [Ne, val_eq_zero]; decide, by decide +kernel, by decide +kernel, by decide +kernel⟩

/-- non-vacuity of the one-unit form: the divisor is -0.00000000075 and the remainder is zero -/
example : mant Samples.b < 1000000000 ∧
    FixedDecimal.divTo m Samples.a Samples.b FixedDecimal.zero 4 =
      .ok (⟨0x95#8, 27, [0, 0, 0, 460000000, 609052016, 164, 0, 0, 0]⟩ : FixedDecimal) ∧
    ∃ r, FixedDecimal.remTo m Samples.a Samples.b FixedDecimal.zero = .ok r := by
  refine ⟨by decide, by cases m <;> decide +kernel, (⟨0#8, 11, [0, 0, 0, 0, 0, 0, 0, 0, 0]⟩ : FixedDecimal), by cases m <;> decide +kernel⟩

/-! ## C82: averages -/

theorem truncZ_mono {p q : ℚ} (h : p ≤ q) : truncZ p ≤ truncZ q := by
  unfold truncZ
  split_ifs with h1 h2 h2
  · exact neg_le_neg (Int.floor_le_floor (by linarith))
  · have e1 : 0 ≤ ⌊-p⌋ := Int.floor_nonneg.mpr (by linarith)
    have e2 : 0 ≤ ⌊q⌋ := Int.floor_nonneg.mpr (by linarith)
    omega
  · exfalso; linarith
  · exact Int.floor_le_floor h

theorem truncZ_whole (n : ℤ) : truncZ (n : ℚ) = n := by
  have := truncZ_int n 1
  rwa [Int.cast_one, div_one, Int.tdiv_one] at this

theorem truncZ_dist (q : ℚ) : |(truncZ q : ℚ) - q| < 1 := by
  unfold truncZ
  split_ifs with h
  · have h1 := Int.floor_le (-q)
    have h2 := Int.lt_floor_add_one (-q)
    push_cast
    rw [abs_lt]; constructor <;> linarith
  · have h1 := Int.floor_le q
    have h2 := Int.lt_floor_add_one q
    rw [abs_lt]; constructor <;> linarith

theorem sum_ge {f : FixedDecimal → ℚ} {c : ℚ} : ∀ {xs : List FixedDecimal}, (∀ x ∈ xs, c < f x) → c * xs.length ≤ (xs.map f).sum ∧
    (xs ≠ [] → c * xs.length < (xs.map f).sum)
  | [], _ => by simp
  | x :: xs, h => by
    have h1 := (sum_ge (fun y hy => h y (by simp [hy])) : c * xs.length ≤ (xs.map f).sum ∧ _).1
    have h2 := h x (by simp)
    rw [List.map_cons, List.sum_cons, List.length_cons]
    push_cast
    constructor
    · linarith
    · intro _; linarith

/-- Some amount is at most the mean, and some is at least it. -/
theorem mean_between {xs : List FixedDecimal} (hne : xs ≠ []) :
    (∃ x ∈ xs, val x ≤ (xs.map val).sum / xs.length) ∧ ∃ x ∈ xs, (xs.map val).sum / xs.length ≤ val x := by
  have hn : (0 : ℚ) < xs.length := by exact_mod_cast List.length_pos_iff.mpr hne
  constructor
  · by_contra hcon
    push Not at hcon
    have := (sum_ge hcon).2 hne
    rw [div_mul_cancel₀ _ hn.ne'] at this
    exact lt_irrefl _ this
  · by_contra hcon
    push Not at hcon
    have := (sum_ge (f := fun x => - val x) (c := - ((xs.map val).sum / xs.length)) (fun x hx => neg_lt_neg (hcon x hx))).2 hne
    have e : (xs.map fun x => - val x).sum = - (xs.map val).sum := by
      clear hcon hne hn this
      induction xs with
      | nil => simp
      | cons x xs ih => rw [List.map_cons, List.sum_cons, ih, List.map_cons, List.sum_cons]; ring
    rw [e, neg_mul, div_mul_cancel₀ _ hn.ne'] at this
    exact lt_irrefl _ this

/-- The average of a list as user code computes it: the running total from zero, divided by the number of amounts. -/
def average (m : Mode) (incr : Int) (xs : List FixedDecimal) : Out FixedDecimal FixedDecimal :=
  match balance m FixedDecimal.zero (xs.map .credit), (FixedDecimal.fromU64 xs.length : Out Empty _) with
  | .ok t, .ok n => FixedDecimal.divTo m t n FixedDecimal.zero incr
  | .panic p, _ => .panic p
  | _, .panic p => .panic p

/-- **C82** The average of fewer than 10^9 amounts is within one unit of its last digit of the true mean, never farther
from zero than it; and if it carries at least the digits of the amounts, it lies between the smallest and the largest of
them. -/
theorem C82_average {xs : List FixedDecimal} (hne : xs ≠ []) (ht : ∀ x ∈ xs, Tight x) (hlen : xs.length < 10 ^ 9) {incr : Nat}
    (hi : incr < 2 ^ 62) {r : FixedDecimal} (h : average m incr xs = .ok r) :
    val r = truncQuot (xs.map val).sum xs.length (fracDigits r) ∧
      |val r - (xs.map val).sum / xs.length| < 1 / 10 ^ fracDigits r ∧
      ((∀ x ∈ xs, fracDigits x ≤ fracDigits r) → (∃ x ∈ xs, val x ≤ val r) ∧ ∃ x ∈ xs, val r ≤ val x) := by
  unfold average at h
  have hn0 : 0 < xs.length := List.length_pos_iff.mpr hne
  obtain ⟨d, hd1, hd2, -, hd4, hd5, -⟩ := C45_from_u64 (σ := Empty) (n := (xs.length : Int)) (by omega) (by norm_num at hlen ⊢; omega)
  rw [hd1] at h
  cases hb : balance m FixedDecimal.zero (xs.map .credit) with
  | err e s => cases s
  | panic p => rw [hb] at h; cases h
  | ok t =>
    rw [hb] at h
    dsimp only at h
    obtain ⟨vt, wt⟩ := C66_balance_exact (xs.map .credit) FixedDecimal.zero wf_zero (by
      intro e he
      obtain ⟨x, hx, rfl⟩ := List.mem_map.mp he
      exact (ht x hx).toWF) hb
    have vs : val t = (xs.map val).sum := by
      rw [vt, val_zero, zero_add, List.map_map]; rfl
    have hconv : Converted m (xs.length : Int) d := Or.inr ⟨by omega, by norm_num at hlen ⊢; omega, hd1⟩
    obtain ⟨fd0, -, -⟩ := converted_fu hconv
    have hvd : val d ≠ 0 := by rw [hd2]; exact_mod_cast hn0.ne'
    have hmd : mant d < 1000000000 := by
      have h1 := abs_val hd4.toWF
      unfold absVal at h1
      rw [hd2, fd0, Nat.mul_zero, pow_zero, div_one, abs_of_nonneg (by positivity)] at h1
      have h2 : ((xs.length : Int)) = mant d := by exact_mod_cast h1
      norm_num at hlen
      omega
    obtain ⟨wr, e1⟩ := C35_short_div m wt hd4.toWF rfl hvd hmd hi h
    have hv : val r = truncQuot (xs.map val).sum xs.length (fracDigits r) := by
      rw [e1, vs, hd2]; norm_num
    have hp : (0 : ℚ) < 10 ^ fracDigits r := by positivity
    refine ⟨hv, ?_, fun hs => ?_⟩
    · rw [hv]
      unfold truncQuot
      have h1 := truncZ_dist ((xs.map val).sum / xs.length * 10 ^ fracDigits r)
      generalize (xs.map val).sum / xs.length = q at *
      generalize truncZ (q * 10 ^ fracDigits r) = z at *
      rw [show (z : ℚ) / 10 ^ fracDigits r - q = ((z : ℚ) - q * 10 ^ fracDigits r) / 10 ^ fracDigits r by field_simp,
        abs_div, abs_of_pos hp]
      exact div_lt_div_of_pos_right h1 hp
    · obtain ⟨⟨x, hx, h1⟩, ⟨y, hy, h2⟩⟩ := mean_between hne
      obtain ⟨nx, ex⟩ := val_mul_pow_digits (ht x hx) (hs x hx)
      obtain ⟨ny, ey⟩ := val_mul_pow_digits (ht y hy) (hs y hy)
      rw [hv]
      unfold truncQuot
      refine ⟨⟨x, hx, ?_⟩, ⟨y, hy, ?_⟩⟩
      · rw [le_div_iff₀ hp, ex]
        have := truncZ_mono (mul_le_mul_of_nonneg_right h1 hp.le)
        rw [ex, truncZ_whole] at this
        exact_mod_cast this
      · rw [div_le_iff₀ hp, ey]
        have := truncZ_mono (mul_le_mul_of_nonneg_right h2 hp.le)
        rw [ey, truncZ_whole] at this
        exact_mod_cast this

/-- **C82** The average of equal amounts is that amount. -/
theorem C82_average_same {xs : List FixedDecimal} (hne : xs ≠ []) (ht : ∀ x ∈ xs, Tight x) (hlen : xs.length < 10 ^ 9) {incr : Nat}
    (hi : incr < 2 ^ 62) {r : FixedDecimal} {v : ℚ} (hv : ∀ x ∈ xs, val x = v) (hs : ∀ x ∈ xs, fracDigits x ≤ fracDigits r)
    (h : average m incr xs = .ok r) : val r = v := by
  obtain ⟨⟨x, hx, h1⟩, ⟨y, hy, h2⟩⟩ := (C82_average hne ht hlen hi h).2.2 hs
  rw [hv x hx] at h1
  rw [hv y hy] at h2
  exact le_antisymm h2 h1

/-- non-vacuity: the average of 123456789012.345, -7.50 and -7.50. -/
example : ∃ r, average m 4 [Samples.a, Samples.c, Samples.c] = .ok r ∧
    ∀ x ∈ [Samples.a, Samples.c, Samples.c], fracDigits x ≤ fracDigits r ∧ Tight x := by
  refine ⟨(⟨12#8, 9, [115000000, 152262999, 41, 0, 0, 0, 0, 0, 0]⟩ : FixedDecimal), by cases m <;> decide +kernel, by decide⟩

/-! ## C83: amount times rate, rounded -/

/-- Amount times rate, rounded to `k` digits: `&a * &p` into `t`, then `t.round_to(&mut r, k)`. -/
def charge (m : Mode) (k : Nat) (a p : FixedDecimal) : Out FixedDecimal FixedDecimal := do
  let t ← FixedDecimal.mulTo m a p FixedDecimal.zero
  t.roundTo m FixedDecimal.zero k

/-- **C83** When the product is not cut off, the charge is the exact product rounded half away from zero, hence within half
a unit of the `k`-th digit of it. -/
theorem C83_charge {a p r : FixedDecimal} (ha : Tight a) (hp : Tight p) (hf : MulFull a p) {k : Nat} (hk : k ≤ 127)
    (h : charge m k a p = .ok r) :
    val r = (halfAway (val a * val p * 10 ^ k) : ℚ) / 10 ^ k ∧ |val r - val a * val p| ≤ 1 / 10 ^ k / 2 := by
  unfold charge at h
  obtain ⟨t, h1, h2⟩ := bind_eq_ok.mp h
  obtain ⟨e1, e2, -⟩ := C27_mul_exact m ha hp rfl hf h1
  rw [← e1]
  exact ⟨(round_to_uniform m e2 rfl hk h2).1, round_dist e2 rfl hk h2⟩

/-- **C83** A larger amount is never charged less (non-negative rate), and a charge reversed is the charge of the reverse. -/
theorem C83_charge_mono {a a' p r r' : FixedDecimal} (ha : Tight a) (ha' : Tight a') (hp : Tight p) (hf : MulFull a p)
    (hf' : MulFull a' p) {k : Nat} (hk : k ≤ 127) (h : charge m k a p = .ok r) (h' : charge m k a' p = .ok r')
    (hle : val a ≤ val a') (h0 : 0 ≤ val p) : val r ≤ val r' := by
  rw [(C83_charge ha hp hf hk h).1, (C83_charge ha' hp hf' hk h').1]
  apply div_le_div_of_nonneg_right _ (by positivity)
  have := halfAway_mono (mul_le_mul_of_nonneg_right (mul_le_mul_of_nonneg_right hle h0) (show (0 : ℚ) ≤ 10 ^ k by positivity))
  exact_mod_cast this

/-- **C83** Reversing the amount reverses the charge. -/
theorem C83_charge_neg {a a' p r r' : FixedDecimal} (ha : Tight a) (ha' : Tight a') (hp : Tight p) (hf : MulFull a p)
    (hf' : MulFull a' p) {k : Nat} (hk : k ≤ 127) (h : charge m k a p = .ok r) (h' : charge m k a' p = .ok r')
    (hv : val a' = - val a) : val r' = - val r := by
  rw [(C83_charge ha hp hf hk h).1, (C83_charge ha' hp hf' hk h').1, hv,
    show - val a * val p * 10 ^ k = -(val a * val p * 10 ^ k) by ring, halfAway_neg]
  push_cast; ring

/-- non-vacuity: 123456789012.345 at a rate of -7.50, rounded to one digit. -/
example : ∃ r, charge m 1 Samples.a Samples.c = .ok r ∧ MulFull Samples.a Samples.c := by
  refine ⟨(⟨0x92#8, 1, [600000000, 925917592, 925, 0, 0, 0, 0, 0, 0]⟩ : FixedDecimal), by cases m <;> decide +kernel, by decide⟩

end Fxd.Props
