import Verif.Props.NearMisses
import Verif.Props.Closed
import Mathlib.Algebra.BigOperators.Ring.Finset
/-!
# Property C122: how rare wrong remainders are

Of the first `N·B` dividends, counted in units of a common scale, at most `B·N·(N+3)/10^18` have a wrong remainder by `B`: with
quotients up to 10^9 about one in a thousand million, and with small quotients far fewer.  So testing does not find them.
-/

namespace Fxd
open Spec

variable {m : Mode}

namespace Props

/-- Taking the remainder of `a` by `b` returns something else than the truncated remainder. -/
def WrongRem (m : Mode) (a b res : FixedDecimal) : Prop :=
  ∃ r, FixedDecimal.remTo m a b res = .ok r ∧ val r ≠ truncRem (val a) (val b)

/-- The dividends with quotient `q` that can have a wrong remainder. -/
theorem slice_card (B q T : Nat) (S : Finset ℕ) (hS : ∀ n ∈ S, n < (q + 1) * B ∧ T * ((q + 1) * B - n) ≤ (q + 2) * B)
    (hT : 0 < T) : S.card ≤ (q + 2) * B / T := by
  have hsub : S ⊆ Finset.Ico ((q + 1) * B - (q + 2) * B / T) ((q + 1) * B) := by
    intro n hn
    obtain ⟨h1, h2⟩ := hS n hn
    rw [Finset.mem_Ico]
    refine ⟨?_, h1⟩
    have : (q + 1) * B - n ≤ (q + 2) * B / T := by
      rw [Nat.le_div_iff_mul_le hT]; linarith
    omega
  refine le_trans (Finset.card_le_card hsub) ?_
  rw [Nat.card_Ico]
  generalize (q + 1) * B = x
  generalize (q + 2) * B / T = y
  omega

/-- A dividend with a wrong remainder lies just below a multiple of the divisor. -/
theorem wrong_close (m : Mode) {a b res : FixedDecimal} (ha : WF a) (hb : WF b) (hres : res.lsu.length = 9) {n B s : Nat}
    (va : val a = n / 10 ^ s) (vb : val b = B / 10 ^ s) (hB : 0 < B) (hq : n / B < 10 ^ 9) (h : WrongRem m a b res) :
    5 * 10 ^ 17 * ((n / B + 1) * B - n) ≤ (n / B + 2) * B := by
  obtain ⟨r, hr, hw⟩ := h
  have hS : (0 : ℚ) < 10 ^ s := by positivity
  have hBq : (0 : ℚ) < B := by exact_mod_cast hB
  have na : |val a| = n / 10 ^ s := by rw [va]; exact abs_of_nonneg (by positivity)
  have nb : |val b| = B / 10 ^ s := by rw [vb]; exact abs_of_nonneg (by positivity)
  have hdm := Nat.div_add_mod n B
  have hml := Nat.mod_lt n hB
  have hlt : |val a| < 10 ^ 9 * |val b| := by
    rw [na, nb, ← mul_div_assoc, div_lt_div_iff_of_pos_right hS]
    have : n < 10 ^ 9 * B := (Nat.div_lt_iff_lt_mul hB).mp hq
    exact_mod_cast this
  rcases C121_rem_short m ha hb hres hr hlt with h1 | ⟨h1, -, h3⟩
  · exact absurd h1 hw
  have ht : truncRem (val a) (val b) = ((n % B : Nat) : ℚ) / 10 ^ s := by
    rw [va, vb]
    have := truncRem_scaled (A := n) (B := B) (by positivity) (by exact_mod_cast hB) hS
    push_cast at this ⊢
    rw [this]
    push_cast
    rfl
  rw [h1, ht, na, nb, abs_of_nonneg (by positivity), ← sub_div, ← mul_div_assoc, ← add_div, div_le_div_iff_of_pos_right hS] at h3
  have h4 : 5 * 10 ^ 17 * (B - n % B) ≤ n + B := by
    have : ((5 * 10 ^ 17 * (B - n % B) : ℕ) : ℚ) ≤ ((n + B : ℕ) : ℚ) := by
      push_cast [Nat.cast_sub hml.le]
      norm_num at h3 ⊢
      linarith
    exact_mod_cast this
  have e : (n / B + 1) * B - n = B - n % B := by
    have : (n / B + 1) * B = B * (n / B) + B := by ring
    omega
  rw [e]
  have : (n / B + 2) * B = B * (n / B) + B + B := by ring
  omega

theorem sum_add_two (N : Nat) : 2 * (∑ q ∈ Finset.range N, (q + 2)) = N * (N + 3) := by
  induction N with
  | zero => simp
  | succ N ih => rw [Finset.sum_range_succ, mul_add, ih]; ring

open Classical in
/-- **C122** Among the dividends below `N` times the divisor, all at the scale of the divisor, at most `B N (N+3) / 10^18` have a
wrong remainder: a fraction of at most `(N + 3) / 10^18`. -/
theorem C122_rare (m : Mode) {b res : FixedDecimal} (hb : WF b) (hres : res.lsu.length = 9) {B N s : Nat} (hB : 0 < B)
    (vb : val b = B / 10 ^ s) (hN : N ≤ 10 ^ 9) (d : ℕ → FixedDecimal) (hd : ∀ n < N * B, WF (d n) ∧ val (d n) = n / 10 ^ s) :
    10 ^ 18 * ((Finset.range (N * B)).filter (fun n => WrongRem m (d n) b res)).card ≤ N * (N + 3) * B := by
  set S := (Finset.range (N * B)).filter (fun n => WrongRem m (d n) b res) with hS
  have hmem : ∀ n ∈ S, n / B < N ∧ 5 * 10 ^ 17 * ((n / B + 1) * B - n) ≤ (n / B + 2) * B := by
    intro n hn
    rw [hS, Finset.mem_filter, Finset.mem_range] at hn
    obtain ⟨h1, h2⟩ := hn
    have hq : n / B < N := (Nat.div_lt_iff_lt_mul hB).mpr h1
    obtain ⟨w, v⟩ := hd n h1
    exact ⟨hq, wrong_close m w hb hres v vb hB (by omega) h2⟩
  have hcard : S.card = ∑ q ∈ Finset.range N, (S.filter (fun n => n / B = q)).card := by
    apply Finset.card_eq_sum_card_fiberwise
    intro n hn
    simp only [Finset.coe_range, Set.mem_Iio]
    exact (hmem n hn).1
  have hle : S.card ≤ ∑ q ∈ Finset.range N, (q + 2) * B / (5 * 10 ^ 17) := by
    rw [hcard]
    refine Finset.sum_le_sum fun q _ => slice_card B q _ _ (fun n hn => ?_) (by norm_num)
    rw [Finset.mem_filter] at hn
    obtain ⟨h1, rfl⟩ := hn
    refine ⟨?_, (hmem n h1).2⟩
    have := Nat.div_add_mod n B
    have := Nat.mod_lt n hB
    have : (n / B + 1) * B = B * (n / B) + B := by ring
    omega
  have h2 : (5 * 10 ^ 17) * ∑ q ∈ Finset.range N, (q + 2) * B / (5 * 10 ^ 17) ≤ ∑ q ∈ Finset.range N, (q + 2) * B := by
    rw [Finset.mul_sum]
    exact Finset.sum_le_sum fun q _ => Nat.mul_div_le _ _
  rw [← Finset.sum_mul] at h2
  have h3 := sum_add_two N
  calc 10 ^ 18 * S.card = 2 * ((5 * 10 ^ 17) * S.card) := by ring
    _ ≤ 2 * ((5 * 10 ^ 17) * ∑ q ∈ Finset.range N, (q + 2) * B / (5 * 10 ^ 17)) :=
        Nat.mul_le_mul_left _ (Nat.mul_le_mul_left _ hle)
    _ ≤ 2 * ((∑ q ∈ Finset.range N, (q + 2)) * B) := Nat.mul_le_mul_left _ h2
    _ = N * (N + 3) * B := by rw [← mul_assoc, h3]

open Classical in
/-- **C122** So a dividend drawn at random from those with quotients below 10^9 has a wrong remainder with a chance of at most
1.000000003 in 10^9. -/
theorem C122_chance (m : Mode) {b res : FixedDecimal} (hb : WF b) (hres : res.lsu.length = 9) {B s : Nat} (hB : 0 < B)
    (vb : val b = B / 10 ^ s) (d : ℕ → FixedDecimal) (hd : ∀ n < 10 ^ 9 * B, WF (d n) ∧ val (d n) = n / 10 ^ s) :
    (((Finset.range (10 ^ 9 * B)).filter (fun n => WrongRem m (d n) b res)).card : ℚ) / ((10 ^ 9 * B : Nat) : ℚ) ≤
      1.000000003 / 10 ^ 9 := by
  have h := C122_rare m hb hres hB vb le_rfl d hd
  generalize ((Finset.range (10 ^ 9 * B)).filter (fun n => WrongRem m (d n) b res)).card = c at *
  have hBq : (0 : ℚ) < ((10 ^ 9 * B : Nat) : ℚ) := by exact_mod_cast Nat.mul_pos (by norm_num) hB
  have hq : (10 ^ 18 * (c : ℚ)) ≤ 10 ^ 9 * (10 ^ 9 + 3) * B := by exact_mod_cast h
  rw [div_le_iff₀ hBq]
  push_cast
  norm_num at hq ⊢
  linarith

/-- non-vacuity: the divisor 500000000000000000999999999, all dividends below 10^9 times that -/
example : WF wB ∧ val wB = ((500000000000000000999999999 : Nat) : ℚ) / 10 ^ 0 ∧
    (∀ n : ℕ, n < 10 ^ 9 * 500000000000000000999999999 → WF (dec false 54 0 (n : ℕ)) ∧ val (dec false 54 0 (n : ℕ)) = (n : ℚ) / 10 ^ 0) ∧
    WrongRem m (dec false 54 0 (1500000000000000002999999996 : Nat)) wB FixedDecimal.zero := by
  refine ⟨by decide, ?_, ?_, ?_⟩
  · have hB : mant wB = 500000000000000000999999999 := by decide +kernel
    unfold val absVal
    rw [hB, show neg wB = false by decide, show fu wB = 0 by decide]; norm_num
  · intro n hn
    obtain ⟨t, -, f, e, s⟩ := dec_tight (s := false) (I := 54) (F := 0) (M := n) (by norm_num) (by decide) (Int.natCast_nonneg n)
      (by have : (n : Int) < ((10 ^ 9 * 500000000000000000999999999 : Nat) : Int) := by exact_mod_cast hn
          refine lt_trans this ?_
          norm_num [unitsFor]) (by simp [unitsFor])
    refine ⟨t.toWF, ?_⟩
    have hfu : fu (dec false 54 0 n) = 0 := by unfold fu; rw [f]; rfl
    unfold val absVal
    rw [s, e, hfu]; simp
  · refine ⟨FixedDecimal.one, by cases m <;> decide +kernel, ?_⟩
    obtain ⟨-, -, -, h2, -⟩ := C37_witness_addback m
    have : val (dec false 54 0 (1500000000000000002999999996 : Nat)) = val ⟨28#8, 0, [999999996, 2, 500000000, 1, 0, 0, 0, 0, 0]⟩ := by
      unfold val absVal
      rw [show mant (dec false 54 0 (1500000000000000002999999996 : Nat)) =
        mant ⟨28#8, 0, [999999996, 2, 500000000, 1, 0, 0, 0, 0, 0]⟩ by decide +kernel,
        show neg (dec false 54 0 (1500000000000000002999999996 : Nat)) = neg ⟨28#8, 0, [999999996, 2, 500000000, 1, 0, 0, 0, 0, 0]⟩ by decide,
        show fu (dec false 54 0 (1500000000000000002999999996 : Nat)) = fu ⟨28#8, 0, [999999996, 2, 500000000, 1, 0, 0, 0, 0, 0]⟩ by decide]
    rw [this, h2]
    unfold val absVal
    rw [show mant FixedDecimal.one = 1 by decide, show neg FixedDecimal.one = false by decide, show fu FixedDecimal.one = 0 by decide]
    norm_num

end Props
end Fxd
