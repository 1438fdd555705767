import Verif.Props.Ledger
import Verif.Props.Product
import Verif.Props.Convert
import Verif.Props.Div
import Verif.Props.Rem
import Verif.Props.Ints
/-!
# Properties C67, C68, C70: algebraic laws users compute with

Distributivity and associativity of exact products, division by one and by itself, dividing a product by a factor,
repeated remainders, and monotonicity of the integer conversions.
-/

namespace Fxd
open Spec

/-- A number with at most `s` decimals is not changed by cutting it after `s` decimals. -/
theorem truncQuot_self {x y v : ℚ} {s : Nat} (h : x / y = v) {n : ℤ} (hn : v * 10 ^ s = n) : truncQuot x y s = v := by
  unfold truncQuot
  have e : x / y * 10 ^ s = ((n : ℤ) : ℚ) := by rw [h, hn]
  rw [e]
  have : truncZ (n : ℚ) = n := by
    unfold truncZ
    split_ifs
    · rw [show (-(n : ℚ)) = ((-n : ℤ) : ℚ) by push_cast; rfl, Int.floor_intCast]; ring
    · exact Int.floor_intCast n
  rw [this, ← hn]
  field_simp

/-- A decimal has at most `9 * fu` decimals. -/
theorem val_mul_pow {d : FixedDecimal} {s : Nat} (hs : 9 * fu d ≤ s) : ∃ n : ℤ, val d * 10 ^ s = n := by
  refine ⟨(if neg d then -1 else 1) * mant d * 10 ^ (s - 9 * fu d), ?_⟩
  have e : (10 : ℚ) ^ s = 10 ^ (9 * fu d) * 10 ^ (s - 9 * fu d) := by rw [← pow_add, Nat.add_sub_cancel' hs]
  unfold val absVal
  rw [e]
  have hp : (10 : ℚ) ^ (9 * fu d) ≠ 0 := by positivity
  cases neg d
  · simp; field_simp
  · simp; field_simp

/-- The same, by decimal digits. -/
theorem val_mul_pow_digits {d : FixedDecimal} (hd : Tight d) {s : Nat} (hs : fracDigits d ≤ s) : ∃ n : ℤ, val d * 10 ^ s = n := by
  obtain ⟨q, hq⟩ := hd.frac_ok
  have hle := fracDigits_le_fu d
  refine ⟨(if neg d then -1 else 1) * q * 10 ^ (s - fracDigits d), ?_⟩
  have e : (10 : ℚ) ^ s = 10 ^ fracDigits d * 10 ^ (s - fracDigits d) := by rw [← pow_add, Nat.add_sub_cancel' hs]
  have e2 : (10 : ℚ) ^ (9 * fu d) = 10 ^ (9 * fu d - fracDigits d) * 10 ^ fracDigits d := by
    rw [← pow_add, Nat.sub_add_cancel hle]
  unfold val absVal
  rw [e, e2, hq]
  have hp : (10 : ℚ) ^ (9 * fu d - fracDigits d) ≠ 0 := by positivity
  have hp2 : (10 : ℚ) ^ fracDigits d ≠ 0 := by positivity
  cases neg d
  · simp; field_simp
  · simp; field_simp

namespace Props
open FixedDecimal (addTo subTo mulTo divTo remTo)
variable {m : Mode} {a b c res r s t u v w : FixedDecimal}

/-- **C67** `a * (b + c)` and `a * b + a * c` have the same value when no product is cut off. -/
theorem C67_distrib (ha : Tight a) (hb : Tight b) (hc : Tight c) (hres : res.lsu.length = 9)
    (h1 : addTo m b c res = .ok s) (h2 : mulTo m a s res = .ok r) (f2 : MulFull a s)
    (h3 : mulTo m a b res = .ok t) (f3 : MulFull a b) (h4 : mulTo m a c res = .ok u) (f4 : MulFull a c)
    (h5 : addTo m t u res = .ok v) : val r = val v := by
  have e1 := addTo_res hb.toWF hc.toWF hres h1
  have e3 := C27_mul_exact m ha hb hres f3 h3
  have e4 := C27_mul_exact m ha hc hres f4 h4
  rw [(C27_mul_exact m ha (e1.tight hb hc) hres f2 h2).1, e1.value,
    (addTo_res e3.2.1.toWF e4.2.1.toWF hres h5).value, e3.1, e4.1]
  ring

/-- -7.50 times (123456789012.345 + -0.00000000075), both ways. -/
example : ∃ s r t u v, addTo m Samples.a Samples.b FixedDecimal.zero = .ok s ∧ mulTo m Samples.c s FixedDecimal.zero = .ok r ∧
    MulFull Samples.c s ∧ mulTo m Samples.c Samples.a FixedDecimal.zero = .ok t ∧ MulFull Samples.c Samples.a ∧
    mulTo m Samples.c Samples.b FixedDecimal.zero = .ok u ∧ MulFull Samples.c Samples.b ∧
    addTo m t u FixedDecimal.zero = .ok v ∧ val r = val v := by
  have h1 : addTo m Samples.a Samples.b FixedDecimal.zero =
      .ok ⟨0x12#8, 11, [250000000, 344999999, 456789012, 123, 0, 0, 0, 0, 0]⟩ := by cases m <;> decide +kernel
  have h2 : mulTo m Samples.c ⟨0x12#8, 11, [250000000, 344999999, 456789012, 123, 0, 0, 0, 0, 0]⟩ FixedDecimal.zero =
      .ok ⟨0x9b#8, 13, [375000000, 587499994, 925917592, 925, 0, 0, 0, 0, 0]⟩ := by cases m <;> decide +kernel
  have h3 : mulTo m Samples.c Samples.a FixedDecimal.zero =
      .ok ⟨0x92#8, 5, [587500000, 925917592, 925, 0, 0, 0, 0, 0, 0]⟩ := by cases m <;> decide +kernel
  have h4 : mulTo m Samples.c Samples.b FixedDecimal.zero =
      .ok ⟨0x09#8, 13, [625000000, 5, 0, 0, 0, 0, 0, 0, 0]⟩ := by cases m <;> decide +kernel
  have h5 : addTo m ⟨0x92#8, 5, [587500000, 925917592, 925, 0, 0, 0, 0, 0, 0]⟩ ⟨0x09#8, 13, [625000000, 5, 0, 0, 0, 0, 0, 0, 0]⟩
      FixedDecimal.zero = .ok ⟨0x92#8, 13, [375000000, 587499994, 925917592, 925, 0, 0, 0, 0, 0]⟩ := by cases m <;> decide +kernel
  have f2 : MulFull Samples.c ⟨0x12#8, 11, [250000000, 344999999, 456789012, 123, 0, 0, 0, 0, 0]⟩ := by decide
  have f3 : MulFull Samples.c Samples.a := by decide
  have f4 : MulFull Samples.c Samples.b := by decide
  exact ⟨_, _, _, _, _, h1, h2, f2, h3, f3, h4, f4, h5,
    C67_distrib Samples.c_tight Samples.a_tight Samples.b_tight rfl h1 h2 f2 h3 f3 h4 f4 h5⟩

/-- **C67** `(a * b) * c` and `a * (b * c)` have the same value when no product is cut off. -/
theorem C67_mul_assoc (ha : Tight a) (hb : Tight b) (hc : Tight c) (hres : res.lsu.length = 9)
    (h1 : mulTo m a b res = .ok r) (f1 : MulFull a b) (h2 : mulTo m r c res = .ok s) (f2 : MulFull r c)
    (h3 : mulTo m b c res = .ok t) (f3 : MulFull b c) (h4 : mulTo m a t res = .ok u) (f4 : MulFull a t) : val s = val u := by
  have e1 := C27_mul_exact m ha hb hres f1 h1
  have e3 := C27_mul_exact m hb hc hres f3 h3
  rw [(C27_mul_exact m e1.2.1 hc hres f2 h2).1, (C27_mul_exact m ha e3.2.1 hres f4 h4).1, e1.1, e3.1]
  ring

example : ∃ r s t u, mulTo m Samples.a Samples.b FixedDecimal.zero = .ok r ∧ MulFull Samples.a Samples.b ∧
    mulTo m r Samples.c FixedDecimal.zero = .ok s ∧ MulFull r Samples.c ∧
    mulTo m Samples.b Samples.c FixedDecimal.zero = .ok t ∧ MulFull Samples.b Samples.c ∧
    mulTo m Samples.a t FixedDecimal.zero = .ok u ∧ MulFull Samples.a t ∧ val s = val u := by
  have h1 : mulTo m Samples.a Samples.b FixedDecimal.zero = .ok ⟨0x92#8, 14, [258750000, 592591759, 92, 0, 0, 0, 0, 0, 0]⟩ := by cases m <;> decide +kernel
  have h2 : mulTo m ⟨0x92#8, 14, [258750000, 592591759, 92, 0, 0, 0, 0, 0, 0]⟩ Samples.c FixedDecimal.zero = .ok ⟨0x1b#8, 16, [440625000, 444438194, 694, 0, 0, 0, 0, 0, 0]⟩ := by cases m <;> decide +kernel
  have h3 : mulTo m Samples.b Samples.c FixedDecimal.zero = .ok ⟨9#8, 13, [625000000, 5, 0, 0, 0, 0, 0, 0, 0]⟩ := by cases m <;> decide +kernel
  have h4 : mulTo m Samples.a ⟨9#8, 13, [625000000, 5, 0, 0, 0, 0, 0, 0, 0]⟩ FixedDecimal.zero = .ok ⟨0x1b#8, 16, [440625000, 444438194, 694, 0, 0, 0, 0, 0, 0]⟩ := by cases m <;> decide +kernel
  have f1 : MulFull Samples.a Samples.b := by decide
  have f2 : MulFull ⟨0x92#8, 14, [258750000, 592591759, 92, 0, 0, 0, 0, 0, 0]⟩ Samples.c := by decide
  have f3 : MulFull Samples.b Samples.c := by decide
  have f4 : MulFull Samples.a ⟨9#8, 13, [625000000, 5, 0, 0, 0, 0, 0, 0, 0]⟩ := by decide
  exact ⟨_, _, _, _, h1, f1, h2, f2, h3, f3, h4, f4,
    C67_mul_assoc Samples.a_tight Samples.b_tight Samples.c_tight rfl h1 f1 h2 f2 h3 f3 h4 f4⟩

/-- **C68** Dividing an exact product by one of its factors (whose digits fit one unit) gives back the other, as long as
the quotient keeps that many digits. -/
theorem C68_mul_div (ha : Tight a) (hb : Tight b) (hres : res.lsu.length = 9) (zb : val b ≠ 0) (h1 : mant b < 1000000000)
    (hp : mulTo m a b res = .ok r) (hf : MulFull a b) {incr : Nat} (hi : incr < 2 ^ 62)
    (h : divTo m r b res incr = .ok s) (hd : fracDigits a ≤ fracDigits s) : val s = val a := by
  obtain ⟨e1, e2, -⟩ := C27_mul_exact m ha hb hres hf hp
  rw [(C35_short_div m e2.toWF hb.toWF hres zb h1 hi h).2]
  obtain ⟨n, hn⟩ := val_mul_pow_digits ha hd
  exact truncQuot_self (by rw [e1]; field_simp) hn

/-- **C68** The same for a divisor of several units, when the long division meets no guess that is too large. -/
theorem C68_mul_div_long (ha : Tight a) (hb : Tight b) (hres : res.lsu.length = 9) (za : val a ≠ 0) (zb : val b ≠ 0)
    (hp : mulTo m a b res = .ok r) (hf : MulFull a b) {incr : Nat} (hi : incr < 2 ^ 62)
    (h : divTo m r b res incr = .ok s) (hg : ¬ QuoGuessTooBig r b incr) (hc : fu b ≤ quoIU r b + fu r)
    (hd : fracDigits a ≤ fracDigits s) : val s = val a := by
  obtain ⟨e1, e2, -⟩ := C27_mul_exact m ha hb hres hf hp
  have zr : val r ≠ 0 := by rw [e1]; exact mul_ne_zero za zb
  rw [(C36_exact_partial m e2.toWF hb.toWF hres zr zb hi hg h).2.2.2 hc]
  obtain ⟨n, hn⟩ := val_mul_pow_digits ha hd
  exact truncQuot_self (by rw [e1]; field_simp) hn

/-- -7.50 * 123456789012.345 / 123456789012.345, and -7.50 * -0.00000000075 / -0.00000000075. -/
example : (∃ r s, mulTo m Samples.c Samples.a FixedDecimal.zero = .ok r ∧ MulFull Samples.c Samples.a ∧
      divTo m r Samples.a FixedDecimal.zero 4 = .ok s ∧ ¬ QuoGuessTooBig r Samples.a 4 ∧
      fu Samples.a ≤ quoIU r Samples.a + fu r ∧ fracDigits Samples.c ≤ fracDigits s ∧ val s = val Samples.c) ∧
    (∃ r s, mulTo m Samples.c Samples.b FixedDecimal.zero = .ok r ∧ MulFull Samples.c Samples.b ∧
      mant Samples.b < 1000000000 ∧ divTo m r Samples.b FixedDecimal.zero 4 = .ok s ∧
      fracDigits Samples.c ≤ fracDigits s ∧ val s = val Samples.c) := by
  have h1 : mulTo m Samples.c Samples.a FixedDecimal.zero =
      .ok ⟨0x92#8, 5, [587500000, 925917592, 925, 0, 0, 0, 0, 0, 0]⟩ := by cases m <;> decide +kernel
  have h2 : divTo m ⟨0x92#8, 5, [587500000, 925917592, 925, 0, 0, 0, 0, 0, 0]⟩ Samples.a FixedDecimal.zero 4 =
      .ok ⟨0x81#8, 18, [0, 500000000, 7, 0, 0, 0, 0, 0, 0]⟩ := by cases m <;> decide +kernel
  have h4 : mulTo m Samples.c Samples.b FixedDecimal.zero =
      .ok ⟨0x09#8, 13, [625000000, 5, 0, 0, 0, 0, 0, 0, 0]⟩ := by cases m <;> decide +kernel
  have h5 : divTo m ⟨0x09#8, 13, [625000000, 5, 0, 0, 0, 0, 0, 0, 0]⟩ Samples.b FixedDecimal.zero 4 =
      .ok ⟨0x81#8, 36, [0, 0, 0, 500000000, 7, 0, 0, 0, 0]⟩ := by cases m <;> decide +kernel
  have va : val Samples.a ≠ 0 := by rw [Samples.val_a]; norm_num
  have vb : val Samples.b ≠ 0 := by rw [Samples.val_b]; norm_num
  have vc : val Samples.c ≠ 0 := by rw [Samples.val_c]; norm_num
  have f1 : MulFull Samples.c Samples.a := by decide
  have f2 : MulFull Samples.c Samples.b := by decide
  have hg : ¬ QuoGuessTooBig ⟨0x92#8, 5, [587500000, 925917592, 925, 0, 0, 0, 0, 0, 0]⟩ Samples.a 4 := by decide +kernel
  have hu : fu Samples.a ≤ quoIU ⟨0x92#8, 5, [587500000, 925917592, 925, 0, 0, 0, 0, 0, 0]⟩ Samples.a +
      fu ⟨0x92#8, 5, [587500000, 925917592, 925, 0, 0, 0, 0, 0, 0]⟩ := by decide +kernel
  have d1 : fracDigits Samples.c ≤ fracDigits ⟨0x81#8, 18, [0, 500000000, 7, 0, 0, 0, 0, 0, 0]⟩ := by decide
  have d2 : fracDigits Samples.c ≤ fracDigits ⟨0x81#8, 36, [0, 0, 0, 500000000, 7, 0, 0, 0, 0]⟩ := by decide
  have mb : mant Samples.b < 1000000000 := by decide
  exact ⟨⟨_, _, h1, f1, h2, hg, hu, d1, C68_mul_div_long Samples.c_tight Samples.a_tight rfl vc va h1 f1 (by norm_num) h2 hg hu d1⟩,
    ⟨_, _, h4, f2, mb, h5, d2, C68_mul_div Samples.c_tight Samples.b_tight rfl vb mb h4 f2 (by norm_num) h5 d2⟩⟩

/-! ### Division by one -/

theorem val_one : val FixedDecimal.one = 1 := by
  have h : mant FixedDecimal.one = 1 := by decide
  have h2 : neg FixedDecimal.one = false := by decide
  have h3 : fu FixedDecimal.one = 0 := by decide
  simp only [val, absVal, h, h2, h3]; norm_num

theorem quoIntg_one (h : WF a) (za : val a ≠ 0) : quoIntg a FixedDecimal.one = (digitCount a : Int) - 9 * fu a := by
  have hm : mant FixedDecimal.one = 1 := by decide
  have hf : fu FixedDecimal.one = 0 := by decide
  have ht : topUnit FixedDecimal.one = 0 := by unfold topUnit; rw [hm]; simp
  have hc : digitCount FixedDecimal.one = 1 := by unfold digitCount; rw [hm]; simp
  have hpos : 0 < mant a := lt_of_le_of_ne h.mant_nonneg (Ne.symm (by rwa [Ne, val_eq_zero] at za))
  have hl : LeadGe a FixedDecimal.one := by
    unfold LeadGe
    rw [hm, ht, one_mul, pow_zero, mul_one]
    unfold topUnit
    have := Nat.pow_log_le_self 1000000000 (x := (mant a).toNat) (by omega)
    calc (1000000000 : Int) ^ Nat.log 1000000000 (mant a).toNat = ((1000000000 ^ Nat.log 1000000000 (mant a).toNat : Nat) : Int) := by push_cast; rfl
      _ ≤ (((mant a).toNat : Nat) : Int) := by exact_mod_cast this
      _ = mant a := Int.toNat_of_nonneg h.mant_nonneg
  unfold quoIntg
  rw [if_pos hl, hc, hf]; push_cast; ring

theorem digitCount_le_units (h : WF a) (za : val a ≠ 0) : digitCount a ≤ 9 * (iu a + fu a) ∧ 1 ≤ digitCount a := by
  have hpos : 0 < mant a := lt_of_le_of_ne h.mant_nonneg (Ne.symm (by rwa [Ne, val_eq_zero] at za))
  unfold digitCount
  refine ⟨?_, by omega⟩
  have h1 : (mant a).toNat < 10 ^ (9 * (iu a + fu a)) := by
    have := h.mant_lt
    rw [pow9] at this
    have e : ((mant a).toNat : Int) = mant a := Int.toNat_of_nonneg h.mant_nonneg
    have : ((mant a).toNat : Int) < ((10 ^ (9 * (iu a + fu a)) : Nat) : Int) := by rw [e]; push_cast; exact this
    exact_mod_cast this
  have := Nat.log_lt_of_lt_pow (b := 10) (x := 9 * (iu a + fu a)) (y := (mant a).toNat) (by omega) h1
  omega

/-- **C68** `x / 1` is `x`, for every decimal with at most 36 decimals. -/
theorem C68_div_one (m : Mode) (ha : WF a) (hres : res.lsu.length = 9) (h4 : fu a ≤ 4) {incr : Nat} (hi : incr ≤ 80) :
    ∃ r, divTo m a FixedDecimal.one res incr = .ok r ∧ val r = val a ∧ WF r := by
  have h1 : WF FixedDecimal.one := by decide
  have v1 : val FixedDecimal.one ≠ 0 := by rw [val_one]; norm_num
  have m1 : mant FixedDecimal.one < 1000000000 := by decide
  by_cases za : val a = 0
  · refine ⟨_, C34_zero_div m ha h1 hres za v1 incr, by rw [za, val_zero], wf_zero⟩
  have hq := quoIntg_one ha za
  obtain ⟨hd1, hd2⟩ := digitCount_le_units ha za
  have hfits := ha.fits
  have hfo : fu FixedDecimal.one = 0 := by decide
  have hwant : quoWant a FixedDecimal.one incr = 9 * fu a + (incr - (9 * fu a - fracDigits a)) := by
    unfold quoWant; rw [hfo]; simp
  have hw : quoWant a FixedDecimal.one incr ≤ 119 := by rw [hwant]; omega
  have hqf : quoFrac a FixedDecimal.one incr = quoWant a FixedDecimal.one incr := by
    unfold quoFrac
    apply Int.bmod_eq_of_le <;> norm_num <;> omega
  obtain ⟨r, hr⟩ := (C35_short_div_ok m ha h1 hres za v1 m1 (incr := incr) (by omega)).mpr
    ⟨⟨by rw [hqf]; omega, by rw [hqf]; omega, by rw [hq]; omega, by rw [hq]; omega⟩, by rw [hq]; omega⟩
  have hw2 := C35_short_div m ha h1 hres v1 m1 (by omega) hr
  refine ⟨r, hr, ?_, hw2.1⟩
  have hsc := (C57_scale m ha h1 hres za v1 (by omega) hr).1
  have hfu : fu a ≤ quoFU a FixedDecimal.one incr := by
    rw [C57_scale_small _ _ _ (by omega), hwant]
    have hiu : quoIU a FixedDecimal.one ≤ iu a := by
      unfold quoIU unitsFor; rw [hq]; omega
    unfold unitsFor
    omega
  have hfr := hw2.1.frac_eq
  obtain ⟨n, hn⟩ := val_mul_pow (d := a) (s := fracDigits r) (by omega)
  rw [hw2.2]
  exact truncQuot_self (by rw [val_one, div_one]) hn

example : WF Samples.a ∧ fu Samples.a ≤ 4 ∧
    divTo m Samples.a FixedDecimal.one FixedDecimal.zero 4 = .ok ⟨12#8, 9, [345000000, 456789012, 123, 0, 0, 0, 0, 0, 0]⟩ := by
  refine ⟨by decide, by decide, ?_⟩
  cases m <;> decide +kernel

/-! ### A number divided by itself -/

theorem not_tooBig_zero (R P : Int) : ¬ TooBig R P 0 := by unfold TooBig; simp

theorem fromUnit_zero (p : Int) : fromUnit 0 p = 0 := by unfold fromUnit; split_ifs <;> simp

theorem quoNext_zero (R P : Int) (k : Nat) (c : Int) (n : Nat) : quoNext R P k c n 0 = 0 := by
  unfold quoNext
  rw [fromUnit_zero, if_neg (not_tooBig_zero R P)]
  unfold putUnit
  split_ifs <;> simp

theorem quoWins_zero (R P : Int) (k : Nat) (c : Int) (n : Nat) : ∀ W ∈ quoWins R P k c n 0, W = 0 := by
  induction n with
  | zero => intro W h; simp [quoWins] at h
  | succ n ih =>
    intro W h
    rw [quoWins, quoNext_zero, fromUnit_zero, List.mem_cons] at h
    rcases h with h | h
    · exact h
    · exact ih W h

theorem quoRun_zero (R P : Int) (k : Nat) (c : Int) (n : Nat) : quoRun R P k c n 0 = 0 := by
  induction n with
  | zero => rfl
  | succ n ih => rw [quoRun, quoNext_zero, fromUnit_zero, ih]; simp

/-- The first window of `R * 10^(9(n+1))` is `R`, and nothing is left after it. -/
theorem quo_self_first {R : Int} (hR : 0 < R) (P : Int) (k n : Nat) :
    fromUnit (1000000000 ^ (1 + n) * R) ((n : Int) + 1) = R ∧ quoNext R P k 1 n (1000000000 ^ (1 + n) * R) = 0 := by
  have hp : (0 : Int) < 1000000000 ^ (1 + n) := by positivity
  have hn : ((n : Int) + 1).toNat = 1 + n := by omega
  have h1 : fromUnit (1000000000 ^ (1 + n) * R) ((n : Int) + 1) = R := by
    unfold fromUnit
    rw [if_pos (by omega), hn, Int.mul_ediv_cancel_left _ hp.ne']
  refine ⟨h1, ?_⟩
  have hb : ¬ TooBig R P R := by
    unfold TooBig
    rw [Int.ediv_self hR.ne']
    rcases eq_or_ne (R / P) 0 with h | h
    · rw [h]; simp
    · rw [Int.ediv_self h]; simp
  unfold quoNext
  rw [h1, if_neg hb]
  unfold putUnit
  rw [if_pos (by omega), hn, Int.emod_self]
  simp

/-- **C68** `x / x` is exactly 1, in both build modes and for every divisor length, whenever the scale can be handled. -/
theorem C68_div_self (m : Mode) (ha : WF a) (hres : res.lsu.length = 9) (za : val a ≠ 0) {incr : Nat}
    (hi : 18 * fu a + incr ≤ 119) : ∃ r, divTo m a a res incr = .ok r ∧ val r = 1 ∧ WF r := by
  have hpos : 0 < mant a := lt_of_le_of_ne ha.mant_nonneg (Ne.symm (by rwa [Ne, val_eq_zero] at za))
  have hl : LeadGe a a := le_refl _
  have hq : quoIntg a a = 1 := by unfold quoIntg; rw [if_pos hl]; ring
  have hiu : quoIU a a = 1 := by unfold quoIU unitsFor; rw [hq]; rfl
  have hw : quoWant a a incr ≤ 119 := by unfold quoWant; omega
  have hqf : quoFrac a a incr = quoWant a a incr := by
    unfold quoFrac
    apply Int.bmod_eq_of_le <;> norm_num <;> omega
  have hr : QuoRange a a incr := ⟨by omega, by omega, by omega, by omega⟩
  have h4 : quoFU a a incr ≤ 4 := by unfold quoFU; omega
  have hns : ¬ QuoSpill a a incr := by
    rintro ⟨-, -, -, h⟩; omega
  have hlow : quoLow a a = 1 := by unfold quoLow; rw [hiu]; omega
  have hst : quoSteps a a incr = quoFU a a incr + 1 := by unfold quoSteps; rw [if_pos hl]; omega
  by_cases ht : topUnit a = 0
  · -- one unit
    have hsm : mant a < 1000000000 := by
      have h := Nat.lt_pow_succ_log_self (b := 1000000000) (by norm_num) (mant a).toNat
      unfold topUnit at ht
      rw [ht] at h
      norm_num at h
      omega
    obtain ⟨r, hr'⟩ := (C35_short_div_ok m ha ha hres za za hsm (incr := incr) (by omega)).mpr ⟨hr, by omega⟩
    have h2 := C35_short_div m ha ha hres za hsm (by omega) hr'
    refine ⟨r, hr', ?_, h2.1⟩
    rw [h2.2]
    exact truncQuot_self (n := 10 ^ fracDigits r) (div_self za) (by push_cast; ring)
  · have hnf : 0 < normFac a := by
      obtain ⟨nr, -, tr, -⟩ := findNonZero_of_ne ha hpos.ne'
      exact (norm_div ha tr (normFac_eq ha tr)).1
    have hR : 0 < normFac a * mant a := mul_pos hnf hpos
    obtain ⟨f1, f2⟩ := quo_self_first hR (1000000000 ^ (topUnit a - 1)) (topUnit a) (quoFU a a incr)
    have hwin : ∀ W ∈ quoWindows a a incr, W = normFac a * mant a ∨ W = 0 := by
      intro W h
      unfold quoWindows at h
      rw [hst, hlow, hiu, quoWins, f2, f1, List.mem_cons] at h
      rcases h with h | h
      · exact Or.inl h
      · exact Or.inr (quoWins_zero _ _ _ _ _ W h)
    have hcode : codeQuo a a incr = 1000000000 ^ quoFU a a incr := by
      unfold codeQuo
      rw [if_neg ht, hst, hlow, hiu, quoRun, f2, f1, quoRun_zero, Int.ediv_self hR.ne']
      ring
    have hng : ¬ QuoGuessWide a a incr := by
      rintro ⟨-, W, hW, h⟩
      unfold FirstGuessWide at h
      rcases hwin W hW with e | e
      · rw [e] at h
        generalize normFac a * mant a / (1000000000 ^ (topUnit a - 1) * 1000000000) = z at h
        rcases eq_or_ne z 0 with h0 | h0
        · rw [h0] at h; norm_num at h
        · rw [Int.ediv_self h0] at h; norm_num at h
      · rw [e] at h; norm_num at h
    have hnu : ¬ QuoUnitWide a a incr := by
      rintro ⟨-, W, hW, h⟩
      rcases hwin W hW with e | e
      · rw [e, Int.ediv_self hR.ne'] at h; norm_num at h
      · rw [e] at h; norm_num at h
    have hex : ∃ r, divTo m a a res incr = .ok r := by
      cases m
      · exact (C58_debug_ok_iff ha ha hres za za (by omega)).mpr ⟨hr, by omega, hns, hng⟩
      · exact (C58_release_ok_iff ha ha hres za za (by omega)).mpr ⟨hr, by omega, hns⟩
    obtain ⟨r, hr'⟩ := hex
    obtain ⟨c1, c2⟩ := C36_code m ha ha hres za za (by omega) hr'
    refine ⟨r, hr', ?_, c2.mpr hnu⟩
    rw [c1, if_pos rfl, hcode, pow_mul]
    push_cast
    norm_num

/-- A divisor of three units. -/
example : WF Samples.a ∧ 18 * fu Samples.a + 4 ≤ 119 ∧ topUnit Samples.a = 2 ∧
    divTo m Samples.a Samples.a FixedDecimal.zero 4 = .ok ⟨1#8, 18, [0, 0, 1, 0, 0, 0, 0, 0, 0]⟩ := by
  refine ⟨by decide, by decide, by decide +kernel, ?_⟩
  cases m <;> decide +kernel

/-! ### Repeated remainders -/

/-- **C68** Taking the remainder again changes nothing: `(a % b) % b` has the value of `a % b`, and is always computed. -/
theorem C68_rem_idem (ha : WF a) (hb : WF b) (hres : res.lsu.length = 9) (h : remTo m a b res = .ok r) :
    ∃ s, remTo m r b res = .ok s ∧ WF s ∧ val s = val r := by
  obtain ⟨w1, w2, w3, w4⟩ := C37_bounded m ha hb hres h
  have zb : val b ≠ 0 := by
    intro h0; rw [h0, abs_zero] at w2; exact absurd w2 (not_lt.mpr (abs_nonneg _))
  by_cases zr : val r = 0
  · exact ⟨_, C34_zero_rem m w1 hb hres zr zb, wf_zero, by rw [zr, val_zero]⟩
  · have za : val a ≠ 0 := by
      intro h0
      rw [C34_zero_rem m ha hb hres h0 zb] at h
      cases h
      exact zr val_zero
    have hne : |val a| ≠ |val b| := by
      intro h0
      rw [C38_equal m ha hb hres zb h0] at h
      cases h
      exact zr val_zero
    have hfr := w4 za hne
    have hnr : ¬ RemNoRoom r b := by
      rintro ⟨h1, -⟩
      unfold fu at h1
      rw [hfr] at h1
      unfold unitsFor at h1
      omega
    obtain ⟨s, e1, e2, e3, -⟩ := C38_smaller m w1 hb hres zr w2 hnr
    exact ⟨s, e1, e2, e3⟩

example : ∃ r s, remTo m Samples.a Samples.c FixedDecimal.zero = .ok r ∧ remTo m r Samples.c FixedDecimal.zero = .ok s ∧
    val s = val r ∧ r = ⟨1#8, 3, [845000000, 4, 0, 0, 0, 0, 0, 0, 0]⟩ := by
  have h : remTo m Samples.a Samples.c FixedDecimal.zero = .ok ⟨1#8, 3, [845000000, 4, 0, 0, 0, 0, 0, 0, 0]⟩ := by
    cases m <;> decide +kernel
  obtain ⟨s, h1, -, h3⟩ := C68_rem_idem Samples.a_tight.toWF Samples.c_tight.toWF rfl h
  exact ⟨_, s, h, h1, h3, rfl⟩

/-! ### Integer conversions -/

/-- **C70** Conversion to `i64` is monotone, and refused values lie outside the accepted ones. -/
theorem C70_i64_mono (m : Mode) (ha : WF a) (hb : WF b) (h : val a ≤ val b) {x y : Int}
    (hx : a.asI64 m = .ok x) (hy : b.asI64 m = .ok y) : x ≤ y := by
  rw [C46_as_i64 m ha] at hx
  rw [C46_as_i64 m hb] at hy
  split_ifs at hx hy
  cases hx; cases hy
  exact halfAway_mono h

/-- **C70** Whatever lies between two decimals that convert to `i64` converts too. -/
theorem C70_i64_between (m : Mode) (ha : WF a) (hb : WF b) (hc : WF c) (h1 : val a ≤ val c) (h2 : val c ≤ val b) {x y : Int}
    (hx : a.asI64 m = .ok x) (hy : b.asI64 m = .ok y) : ∃ z, c.asI64 m = .ok z ∧ x ≤ z ∧ z ≤ y := by
  have hx' := hx
  have hy' := hy
  rw [C46_as_i64 m ha] at hx
  rw [C46_as_i64 m hb] at hy
  split_ifs at hx hy with g1 g2
  have hz : c.asI64 m = .ok (halfAway (val c)) := by
    rw [C46_as_i64 m hc, if_pos ⟨le_trans g1.1 h1, le_trans h2 g2.2⟩]
  exact ⟨_, hz, C70_i64_mono m ha hc h1 hx' hz, C70_i64_mono m hc hb h2 hz hy'⟩

/-- **C70** The same for `u64`. -/
theorem C70_u64_mono (m : Mode) (ha : WF a) (hb : WF b) (h : val a ≤ val b) {x y : Int}
    (hx : a.asU64 m = .ok x) (hy : b.asU64 m = .ok y) : x ≤ y := by
  rw [C47_as_u64 m ha] at hx
  rw [C47_as_u64 m hb] at hy
  split_ifs at hx hy
  cases hx; cases hy
  exact halfAway_mono h

/-- **C70** Where both conversions succeed they agree; and every non-negative `i64` result is a `u64` result too unless the
decimal carries a minus sign. -/
theorem C70_agree (m : Mode) (ha : WF a) {x : Int} (hx : a.asI64 m = .ok x) :
    (∀ y, a.asU64 m = .ok y → y = x) ∧ (neg a = false → a.asU64 m = .ok x) := by
  rw [C46_as_i64 m ha] at hx
  rw [C47_as_u64 m ha]
  split_ifs at hx with g
  cases hx
  constructor
  · intro y hy
    split_ifs at hy
    cases hy; rfl
  · intro h
    rw [if_pos ⟨h, by linarith [g.2]⟩]

/-- **C70** Converting to `i64` and back and again gives the same integer: conversion is a projection. -/
theorem C70_i64_round_trip (m : Mode) (ha : WF a) {x : Int} (hx : a.asI64 m = .ok x) :
    ∃ d, (FixedDecimal.fromI64 m x : Out Empty FixedDecimal) = .ok d ∧ d.asI64 m = .ok x ∧ |val d - val a| ≤ 1 / 2 := by
  rw [C46_as_i64 m ha] at hx
  split_ifs at hx with g
  cases hx
  obtain ⟨h1, h2⟩ := halfAway_bounds (q := val a) (a := -2 ^ 63) (b := 2 ^ 63 - 1) (by push_cast; linarith [g.1]) (by push_cast; linarith [g.2])
  obtain ⟨d, e, hv, -, ht, -⟩ := C45_from_i64 (σ := Empty) m (n := halfAway (val a)) (by omega) (by omega)
  refine ⟨d, e, ?_, ?_⟩
  · rw [C46_as_i64 m ht.toWF, hv, halfAway_int]
    rw [if_pos ⟨by exact_mod_cast h1, by exact_mod_cast h2⟩]
  · rw [hv]; exact halfAway_dist _

/-- -7.50 becomes -8, 123456789012.345 becomes 123456789012 with both conversions; -0.00000000075 lies between. -/
example : Samples.c.asI64 m = .ok (-8) ∧ Samples.a.asI64 m = .ok 123456789012 ∧ Samples.a.asU64 m = .ok 123456789012 ∧
    neg Samples.a = false ∧ val Samples.c ≤ val Samples.b ∧ val Samples.b ≤ val Samples.a ∧
    (∃ z, Samples.b.asI64 m = .ok z ∧ -8 ≤ z ∧ z ≤ 123456789012) := by
  have h1 : Samples.c.asI64 m = .ok (-8) := by cases m <;> decide +kernel
  have h2 : Samples.a.asI64 m = .ok 123456789012 := by cases m <;> decide +kernel
  have v1 : val Samples.c ≤ val Samples.b := by rw [Samples.val_c, Samples.val_b]; norm_num
  have v2 : val Samples.b ≤ val Samples.a := by rw [Samples.val_a, Samples.val_b]; norm_num
  refine ⟨h1, h2, by cases m <;> decide +kernel, by decide, v1, v2,
    C70_i64_between m Samples.c_tight.toWF Samples.a_tight.toWF Samples.b_tight.toWF v1 v2 h1 h2⟩

/-- The checked conversion to `u64` of an integer. -/
def checkedU64 (n : Int) : Out Unit Int :=
  if 0 ≤ n ∧ n < 2 ^ 64 then .ok n else .err .exceedsConversionTargetRange ()

theorem asU64_int (m : Mode) (hr : WF r) {n : Int} (hv : val r = n) (hz : neg r = true → val r ≠ 0) :
    r.asU64 m = checkedU64 n := by
  have hs : neg r = false ↔ 0 ≤ n := by
    have hnn := hr.mant_nonneg
    constructor
    · intro h
      have : (0 : ℚ) ≤ val r := by
        unfold val absVal; rw [h]; simp; positivity
      rw [hv] at this; exact_mod_cast this
    · intro h
      by_contra hc
      have hc : neg r = true := by simpa using hc
      have h1 := hz hc
      have h2 : val r ≤ 0 := by
        unfold val absVal; rw [hc]; simp; positivity
      have h3 : (0 : ℚ) ≤ val r := by rw [hv]; exact_mod_cast h
      exact h1 (le_antisymm h2 h3)
  rw [C47_as_u64 m hr, hv, halfAway_int]
  unfold checkedU64
  congr 1
  rw [hs]
  apply propext
  constructor
  · rintro ⟨h1, h2⟩
    refine ⟨h1, ?_⟩
    have : (n : ℚ) ≤ ((2 ^ 64 - 1 : ℤ) : ℚ) := by push_cast; linarith [h2]
    have : n ≤ 2 ^ 64 - 1 := by exact_mod_cast this
    omega
  · rintro ⟨h1, h2⟩
    refine ⟨h1, ?_⟩
    have : n ≤ 2 ^ 64 - 1 := by omega
    have : (n : ℚ) ≤ ((2 ^ 64 - 1 : ℤ) : ℚ) := by exact_mod_cast this
    push_cast at this; linarith [this]

theorem converted_sign {n : Int} {x : FixedDecimal} (h : Converted m n x) : neg x = true → val x ≠ 0 := by
  intro hn
  rcases h with ⟨h1, h2, h3⟩ | ⟨h1, h2, h3⟩
  · obtain ⟨d, e, v, s, -⟩ := C45_from_i64 (σ := Empty) m h1 h2
    rw [h3] at e; injection e with e; subst e
    rw [v]
    have := s.mp hn
    exact_mod_cast this.ne
  · obtain ⟨d, e, v, s, -⟩ := C45_from_u64 (σ := Empty) h1 h2
    rw [h3] at e; injection e with e; subst e
    rw [hn] at s; cases s

/-- **C70** Converted integers added, subtracted or multiplied and converted to `u64` give the checked `u64` result. -/
theorem C70_u64_ops {x y : Int} (hx : Converted m x a) (hy : Converted m y b) (hres : res.lsu.length = 9) :
    (∃ r, addTo m a b res = .ok r ∧ r.asU64 m = checkedU64 (x + y)) ∧
    (∃ r, subTo m a b res = .ok r ∧ r.asU64 m = checkedU64 (x - y)) ∧
    (∃ r, mulTo m a b res = .ok r ∧ r.asU64 m = checkedU64 (x * y)) := by
  obtain ⟨t1, -⟩ := converted_spec hx
  obtain ⟨t2, -⟩ := converted_spec hy
  obtain ⟨r1, e1, w1, v1, -⟩ := C62_add m hx hy hres
  obtain ⟨r2, e2, w2, v2, -⟩ := C62_sub m hx hy hres
  obtain ⟨r3, e3, w3, v3, -⟩ := C62_mul m hx hy hres
  have n1 : ¬ NegZero a := by rw [negZero_iff]; rintro ⟨h1, h2⟩; exact converted_sign hx h1 h2
  have n2 : ¬ NegZero b := by rw [negZero_iff]; rintro ⟨h1, h2⟩; exact converted_sign hy h1 h2
  refine ⟨⟨r1, e1, asU64_int m w1 v1 ?_⟩, ⟨r2, e2, asU64_int m w2 v2 ?_⟩, ⟨r3, e3, asU64_int m w3 v3 ?_⟩⟩
  · have := (addTo_res t1.toWF t2.toWF hres e1).noNegZero n1 n2
    rw [negZero_iff] at this; tauto
  · have := (subTo_res t1.toWF t2.toWF hres e2).noNegZero n1 n2
    rw [negZero_iff] at this; tauto
  · intro h1 h2
    rw [(C30_mul_sign m t1 t2 hres e3).2.1 h2] at h1; cases h1

/-- 5 - 7 is refused, 7 - 5 is 2. -/
example : ∃ x y, Converted m 5 x ∧ Converted m 7 y ∧
    (∃ r, subTo m x y FixedDecimal.zero = .ok r ∧ r.asU64 m = .err .exceedsConversionTargetRange ()) ∧
    (∃ r, subTo m y x FixedDecimal.zero = .ok r ∧ r.asU64 m = .ok 2) := by
  obtain ⟨x, ex, -⟩ := C45_from_i64 (σ := Empty) m (n := 5) (by norm_num) (by norm_num)
  obtain ⟨y, ey, -⟩ := C45_from_u64 (σ := Empty) (n := 7) (by norm_num) (by norm_num)
  have hx : Converted m 5 x := Or.inl ⟨by norm_num, by norm_num, ex⟩
  have hy : Converted m 7 y := Or.inr ⟨by norm_num, by norm_num, ey⟩
  obtain ⟨r1, a1, b1⟩ := (C70_u64_ops hx hy (res := FixedDecimal.zero) rfl).2.1
  obtain ⟨r2, a2, b2⟩ := (C70_u64_ops hy hx (res := FixedDecimal.zero) rfl).2.1
  exact ⟨x, y, hx, hy, ⟨r1, a1, by rw [b1]; rfl⟩, ⟨r2, a2, by rw [b2]; rfl⟩⟩

end Props
end Fxd
