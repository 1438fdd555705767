import Verif.Proofs.Stored
import Mathlib.Data.Int.GCD
import Verif.Proofs.NoTrap
import Verif.Proofs.Halts
import Mathlib.Tactic.Ring
import Mathlib.Tactic.LinearCombination
import Mathlib.Data.Nat.Prime.Basic
import Mathlib.Algebra.GCDMonoid.Nat
/-!
# The loop that corrects a guessed quotient unit ends, whatever the units are

In a debug build an unbounded descent would trap. In a release build `qhat * d1` and `rhat * 10^9 + u2` are taken modulo `2^64`:
unless `d1 = 0`, some `qhat` makes the former `i64::MIN`, and if `d1 = 0` the latter is not always negative.
-/

namespace Fxd
open Spec

variable {σ α β : Type} {m : Mode}

theorem i64_release (x : Int) : (i64 .release x : Out σ Int) = .ok (wrap 64 x) := by
  unfold i64 sarith
  by_cases h : -(2 ^ (64 - 1) : Int) ≤ x ∧ x < (2 ^ (64 - 1) : Int)
  · rw [if_pos h, wrap64_ok (by norm_num at h; omega) (by norm_num at h; omega)]
  · rw [if_neg h]

theorem wrap64_range (x : Int) : -9223372036854775808 ≤ wrap 64 x ∧ wrap 64 x < 9223372036854775808 := by
  unfold wrap
  have h1 := Int.le_bmod (x := x) (m := 2 ^ 64) (by norm_num)
  have h2 := Int.bmod_lt (x := x) (m := 2 ^ 64) (by norm_num)
  norm_num at h1 h2 ⊢
  omega

theorem wrap64_dvd (x : Int) : (18446744073709551616 : Int) ∣ x - wrap 64 x := by
  unfold wrap
  have := Int.bmod_emod (x := x) (m := 2 ^ 64)
  norm_num at this ⊢
  exact Int.dvd_of_emod_eq_zero (by omega)

theorem wrap64_congr {x y : Int} (h : (18446744073709551616 : Int) ∣ x - y) : wrap 64 x = wrap 64 y := by
  have h1 := wrap64_range x
  have h2 := wrap64_range y
  have h3 := wrap64_dvd x
  have h4 := wrap64_dvd y
  omega

theorem wrap64_eq {x v : Int} (h : (18446744073709551616 : Int) ∣ x - v) (h0 : -9223372036854775808 ≤ v)
    (h1 : v < 9223372036854775808) : wrap 64 x = v := by
  rw [wrap64_congr h, wrap64_ok h0 h1]

/-- The loop of a release build ends if some later test of its condition fails. -/
theorem qhat_release {d0 d1 u2 : Int} : ∀ (fuel : Nat) (q r : Int) (k : Nat), k < fuel →
    wrap 64 ((q - k) * d1) ≤ wrap 64 ((r + k * d0) * 1000000000 + u2) →
    ∃ v, (qhatLoop .release d0 d1 u2 fuel q r : Out σ Int) = .ok v
  | 0, _, _, k, h, _ => absurd h (by omega)
  | fuel + 1, q, r, k, h, hk => by
    unfold qhatLoop UNIT
    simp only [i64_release, pure]
    show ∃ v, (if _ > _ then _ else _) = _
    have ea : wrap 64 (wrap 64 (r * 1000000000) + u2) = wrap 64 (r * 1000000000 + u2) :=
      wrap64_congr (by have := wrap64_dvd (r * 1000000000); omega)
    rw [ea]
    cases k with
    | zero =>
      refine ⟨q, if_neg ?_⟩
      simp only [Nat.cast_zero, sub_zero, zero_mul, add_zero] at hk
      omega
    | succ k =>
      by_cases hc : wrap 64 (q * d1) > wrap 64 (r * 1000000000 + u2)
      · rw [if_pos hc]
        refine qhat_release fuel (wrap 64 (q - 1)) (wrap 64 (r + d0)) k (by omega) ?_
        have e1 : wrap 64 ((wrap 64 (q - 1) - k) * d1) = wrap 64 ((q - (k + 1 : Nat)) * d1) := by
          refine wrap64_congr ?_
          obtain ⟨t, ht⟩ := wrap64_dvd (q - 1)
          refine ⟨-t * d1, ?_⟩
          have : wrap 64 (q - 1) = q - 1 - 18446744073709551616 * t := by omega
          rw [this]; push_cast; ring
        have e2 : wrap 64 ((wrap 64 (r + d0) + k * d0) * 1000000000 + u2) =
            wrap 64 ((r + (k + 1 : Nat) * d0) * 1000000000 + u2) := by
          refine wrap64_congr ?_
          obtain ⟨t, ht⟩ := wrap64_dvd (r + d0)
          refine ⟨-t * 1000000000, ?_⟩
          have : wrap 64 (r + d0) = r + d0 - 18446744073709551616 * t := by omega
          rw [this]; push_cast; ring
        rw [e1, e2]; exact hk
      · exact ⟨q, if_neg hc⟩

/-- A multiple of a non-zero number is `i64::MIN` modulo `2^64`. -/
theorem exists_min {d : Int} (h : d ≠ 0) (h0 : -2147483648 ≤ d) (h1 : d < 2147483648) :
    ∃ x : Int, (18446744073709551616 : Int) ∣ x * d - -9223372036854775808 := by
  have hg : Int.gcd d (2 ^ 64 : Nat) ∣ 2 ^ 64 := by
    have := Int.gcd_dvd_right d (2 ^ 64 : Nat)
    exact_mod_cast this
  obtain ⟨w, hw, e⟩ := (Nat.dvd_prime_pow Nat.prime_two).1 hg
  have hle : 2 ^ w ≤ 2147483648 := by
    have h2 : (Int.gcd d (2 ^ 64 : Nat) : Int) ∣ d := Int.gcd_dvd_left _ _
    have h3 := Int.natAbs_dvd_natAbs.2 h2
    rw [Int.natAbs_natCast, e] at h3
    have := Nat.le_of_dvd (by omega) h3
    omega
  have hw' : w ≤ 31 := by
    by_contra hc
    have : 2 ^ 32 ≤ 2 ^ w := Nat.pow_le_pow_right (by norm_num) (by omega)
    omega
  have hb := Int.gcd_eq_gcd_ab d ((2 ^ 64 : Nat) : Int)
  rw [e] at hb
  obtain ⟨x, hx⟩ : ∃ x, Int.gcdA d ((2 ^ 64 : Nat) : Int) = x := ⟨_, rfl⟩
  obtain ⟨y, hy⟩ : ∃ y, Int.gcdB d ((2 ^ 64 : Nat) : Int) = y := ⟨_, rfl⟩
  rw [hx, hy] at hb
  have hp : (2 : Int) ^ w * 2 ^ (63 - w) = 9223372036854775808 := by
    rw [← pow_add, show w + (63 - w) = 63 by omega]; norm_num
  refine ⟨x * 2 ^ (63 - w), 1 - y * 2 ^ (63 - w), ?_⟩
  have hb' : (2 : Int) ^ w = d * x + 18446744073709551616 * y := by
    have : (((2 ^ w : Nat)) : Int) = (2 : Int) ^ w := by push_cast; ring
    rw [← this, hb]; norm_num
  have : (d * x + 18446744073709551616 * y) * 2 ^ (63 - w) = 9223372036854775808 := by rw [← hb', hp]
  linear_combination this

/-- An arithmetic progression with a small non-zero step is not negative modulo `2^64` for ever. -/
theorem exists_nonneg {g : Int} (h : g ≠ 0) (h0 : -4611686018427387904 ≤ g) (h1 : g ≤ 4611686018427387904) (c : Int) :
    ∃ k : Nat, k < 18446744073709551616 ∧ 0 ≤ wrap 64 (c + k * g) := by
  obtain ⟨x, hx⟩ : ∃ x, wrap 64 c = x := ⟨_, rfl⟩
  have hr := wrap64_range c
  have hd := wrap64_dvd c
  rw [hx] at hr hd
  by_cases hx0 : 0 ≤ x
  · refine ⟨0, by norm_num, ?_⟩
    simp only [Nat.cast_zero, zero_mul, add_zero, hx]; exact hx0
  · by_cases hg : 0 < g
    · obtain ⟨k, hk⟩ : ∃ k, (-x) / g = k := ⟨_, rfl⟩
      have k0 : 0 ≤ k := by rw [← hk]; exact Int.ediv_nonneg (by omega) (by omega)
      have e1 := Int.ediv_mul_le (-x) h
      have e2 := Int.lt_ediv_add_one_mul_self (-x) hg
      rw [hk] at e1 e2
      have e4 : (k + 1) * g = k * g + g := by ring
      have e5 : k ≤ k * g := le_mul_of_one_le_right k0 (by omega)
      refine ⟨(k + 1).toNat, by omega, ?_⟩
      rw [Int.toNat_of_nonneg (by omega), wrap64_eq (v := x + (k + 1) * g) ?_ (by omega) (by omega)]
      · omega
      · obtain ⟨t, ht⟩ := hd
        exact ⟨t, by linear_combination ht⟩
    · obtain ⟨k, hk⟩ : ∃ k, (x + 9223372036854775808) / (-g) = k := ⟨_, rfl⟩
      have k0 : 0 ≤ k := by rw [← hk]; exact Int.ediv_nonneg (by omega) (by omega)
      have e1 := Int.ediv_mul_le (x + 9223372036854775808) (show -g ≠ 0 by omega)
      have e2 := Int.lt_ediv_add_one_mul_self (x + 9223372036854775808) (show 0 < -g by omega)
      rw [hk] at e1 e2
      have e4 : (k + 1) * -g = k * -g + -g := by ring
      have e5 : k ≤ k * -g := le_mul_of_one_le_right k0 (by omega)
      have e6 : (k + 1) * g = -((k + 1) * -g) := by ring
      refine ⟨(k + 1).toNat, by omega, ?_⟩
      rw [Int.toNat_of_nonneg (by omega), wrap64_eq (v := x + (k + 1) * g + 18446744073709551616) ?_ (by omega) (by omega)]
      · omega
      · obtain ⟨t, ht⟩ := hd
        exact ⟨t - 1, by linear_combination ht⟩

/-- In a release build the loop ends. -/
theorem qhat_release_ok {d0 d1 : Int} (hd : d0 ≠ 0) (h0 : I32 d0) (h1 : I32 d1) (u2 q r : Int) :
    ∃ v, (qhatLoop .release d0 d1 u2 qhatFuel q r : Out σ Int) = .ok v := by
  have hf : qhatFuel = 18446744073709551616 := by unfold qhatFuel; norm_num
  rw [hf]
  by_cases hz : d1 = 0
  · obtain ⟨k, hk, hk'⟩ := exists_nonneg (g := d0 * 1000000000) (by omega) (by have := h0.1; omega) (by have := h0.2; omega)
      (r * 1000000000 + u2)
    refine qhat_release _ q r k hk ?_
    rw [hz, mul_zero, wrap64_ok (by norm_num) (by norm_num)]
    rw [show (r + k * d0) * 1000000000 + u2 = r * 1000000000 + u2 + k * (d0 * 1000000000) by ring]
    exact hk'
  · obtain ⟨x, hx⟩ := exists_min hz h1.1 h1.2
    have hm0 := Int.emod_nonneg (q - x) (show (18446744073709551616 : Int) ≠ 0 by norm_num)
    have hm1 := Int.emod_lt_of_pos (q - x) (show (0 : Int) < 18446744073709551616 by norm_num)
    have hm2 := Int.emod_add_mul_ediv (q - x) 18446744073709551616
    obtain ⟨k, hk⟩ : ∃ k, (q - x) % 18446744073709551616 = k := ⟨_, rfl⟩
    obtain ⟨t, ht⟩ : ∃ t, (q - x) / 18446744073709551616 = t := ⟨_, rfl⟩
    rw [hk] at hm0 hm1 hm2
    rw [ht] at hm2
    refine qhat_release _ q r k.toNat (by omega) ?_
    rw [Int.toNat_of_nonneg hm0]
    refine le_of_eq_of_le (wrap64_eq (v := -9223372036854775808) ?_ (by norm_num) (by norm_num)) (wrap64_range _).1
    obtain ⟨s, hs⟩ := hx
    refine ⟨s + t * d1, ?_⟩
    have : q - k = x + 18446744073709551616 * t := by omega
    rw [this]; linear_combination hs

/-- In a debug build the loop ends: the guess cannot fall below `i64::MIN`. -/
theorem qhat_debug {d0 d1 u2 : Int} : ∀ (fuel : Nat) (q r : Int), 0 < fuel → q + 9223372036854775808 < fuel →
    Halts .debug (qhatLoop .debug d0 d1 u2 fuel q r : Out σ Int)
  | 0, _, _, h, _ => absurd h (by omega)
  | fuel + 1, q, r, _, h => by
    unfold qhatLoop
    refine .bind .i64 fun a => .bind .i64 fun b => .bind .i64 fun b => .ite ?_ .ok
    refine .bind' .i64 fun v hv => .bind .i64 fun w => ?_
    unfold Fxd.i64 Fxd.sarith at hv
    split_ifs at hv with hr
    have e : q - 1 = v := Out.ok.inj hv
    norm_num at hr
    have h' : q + 9223372036854775808 < fuel + 1 := by exact_mod_cast h
    exact qhat_debug fuel v w (by omega) (by omega)

end Fxd
