import Verif.Props.Finance
import Verif.Props.Api
/-!
# C88: comparing by subtracting; C89: repeated addition is multiplication; C90: splitting an amount
-/

namespace Fxd
namespace Props
open Spec

variable {σ : Type} {m : Mode}

/-! ## C88 -/

/-- **C88** Comparing two decimals and looking at their difference give the same answer: less, equal or greater exactly when
`is_neg`, `is_zero` or neither holds of `a - b`. (Negative zeros are told apart by `cmp`, C16, hence excluded.) -/
theorem C88_difference (m : Mode) {a b res r : FixedDecimal} (ha : WF a) (hb : WF b) (na : ¬ ReportsNegZero a)
    (nb : ¬ ReportsNegZero b) (hres : res.lsu.length = 9) (h : FixedDecimal.subTo m a b res = .ok r) :
    (FixedDecimal.cmp m a b : Out σ Ordering) =
      .ok (if r.isZero then .eq else if r.isNeg then .lt else .gt) := by
  have hr := subTo_res ha hb hres h
  have wr := hr.wf
  have vr : val r = val a - val b := (C21_sub_exact ha hb hres h).1
  have nr : ¬ ReportsNegZero r := C49_add_sub m ha hb hres na nb (Or.inr h)
  have hz : r.isZero = true ↔ val r = 0 := (isZero_iff wr).trans val_eq_zero.symm
  have hng : r.isNeg = neg r := isNeg_eq r
  rw [hng]
  rw [reports_iff ha, negZero_iff] at na
  rw [reports_iff hb, negZero_iff] at nb
  have pr := absVal_nonneg wr
  by_cases h0 : val a = 0 ∧ val b = 0
  · rw [C16_cmp_zeros m ha hb h0.1 h0.2]
    have e1 : neg a = false := by
      by_contra hc; exact na ⟨by simpa using hc, h0.1⟩
    have e2 : neg b = false := by
      by_contra hc; exact nb ⟨by simpa using hc, h0.2⟩
    rw [e1, e2, if_pos rfl, if_pos (hz.mpr (by rw [vr, h0.1, h0.2, sub_zero]))]
  · rw [C16_cmp_numeric m ha hb h0]
    have hneg : val r ≠ 0 → (neg r = true ↔ val r < 0) := by
      intro hne
      unfold val at hne ⊢
      cases hn : neg r
      · simp only [Bool.false_eq_true, if_false, false_iff, not_lt]; exact pr
      · rw [hn] at hne
        simp only [if_true] at hne ⊢
        simp only [true_iff]
        rcases lt_or_eq_of_le pr with h | h
        · linarith
        · exact absurd (by rw [← h]; simp) hne
    rcases lt_trichotomy (val a) (val b) with hlt | heq | hgt
    · have : val r < 0 := by rw [vr]; linarith
      rw [if_neg (fun hc => (ne_of_lt this) (hz.mp hc)), if_pos ((hneg (ne_of_lt this)).mpr this), compare_lt_iff_lt.mpr hlt]
    · rw [if_pos (hz.mpr (by rw [vr, heq, sub_self])), compare_eq_iff_eq.mpr heq]
    · have : 0 < val r := by rw [vr]; linarith
      rw [if_neg (fun hc => (ne_of_gt this) (hz.mp hc)), if_neg, compare_gt_iff_gt.mpr hgt]
      rw [hneg (ne_of_gt this)]
      linarith

example : ¬ ReportsNegZero Samples.a ∧ ¬ ReportsNegZero Samples.c ∧ ∃ r, FixedDecimal.subTo m Samples.c Samples.a Samples.b = .ok r ∧
    r.isNeg = true ∧ (FixedDecimal.cmp m Samples.c Samples.a : Out Unit _) = .ok .lt := by
  refine ⟨by unfold ReportsNegZero; decide, by unfold ReportsNegZero; decide,
    (⟨0x92#8, 3, [845000000, 456789019, 123, 0, 0, 0, 0, 0, 0]⟩ : FixedDecimal), ?_, by decide, ?_⟩ <;> cases m <;> decide +kernel

/-! ## C89 -/

/-- **C89** Adding `x` to itself `n` times and multiplying it by the integer `n` give the same number, exactly. -/
theorem C89_repeated (m : Mode) {x y s p res : FixedDecimal} {n : Nat} (hx : Tight x) (hy : Converted m n y)
    (hres : res.lsu.length = 9) (hf : MulFull x y)
    (hs : balance m FixedDecimal.zero (List.replicate n (.credit x)) = .ok s)
    (hp : FixedDecimal.mulTo m x y res = .ok p) :
    val s = n * val x ∧ val p = n * val x := by
  obtain ⟨ty, vy, -, -⟩ := converted_spec hy
  obtain ⟨vs, -⟩ := C66_balance_exact _ FixedDecimal.zero wf_zero (by
    intro e he
    rw [List.eq_of_mem_replicate he]
    exact hx.toWF) hs
  refine ⟨?_, ?_⟩
  · rw [vs, val_zero, zero_add, List.map_replicate, List.sum_replicate, nsmul_eq_mul]; rfl
  · rw [(C27_mul_exact m hx ty hres hf hp).1, vy]; push_cast; ring

/-- three times -7.50 -/
example : ∃ y s p, Converted m (3 : Nat) y ∧ MulFull Samples.c y ∧
    balance m FixedDecimal.zero (List.replicate 3 (.credit Samples.c)) = .ok s ∧
    FixedDecimal.mulTo m Samples.c y Samples.a = .ok p ∧
    (FixedDecimal.eq m s p : Out Unit _) = .ok true := by
  refine ⟨⟨9#8, 0, [3, 0, 0, 0, 0, 0, 0, 0, 0]⟩, ⟨0x89#8, 2, [500000000, 22, 0, 0, 0, 0, 0, 0, 0]⟩,
    (⟨0x92#8, 2, [500000000, 22, 0, 0, 0, 0, 0, 0, 0]⟩ : FixedDecimal), Or.inr ⟨by decide, by decide, by decide +kernel⟩, by decide, ?_, ?_, ?_⟩ <;>
    cases m <;> decide +kernel

/-! ## C90 -/

/-- Splitting an amount into `n` equal shares: the share is `a / n`, the rest what is left when it has been paid `n` times. -/
def split (m : Mode) (incr : Int) (n : Nat) (a : FixedDecimal) : Out FixedDecimal (FixedDecimal × FixedDecimal) :=
  match (FixedDecimal.fromU64 n : Out Empty _) with
  | .ok d => do
    let q ← FixedDecimal.divTo m a d FixedDecimal.zero incr
    match balance m a (List.replicate n (.debit q)) with
    | .ok rest => .ok (q, rest)
    | .panic p => .panic p
  | .panic p => .panic p

/-- **C90** The shares and the rest add up to the amount exactly; the rest has the amount's sign and is less than `n` units
of the last digit of the share; and the share is not farther from zero than the exact one. -/
theorem C90_split (m : Mode) {a q rest : FixedDecimal} (ha : WF a) {n : Nat} (h0 : 0 < n) (h9 : n < 10 ^ 9) {incr : Nat}
    (hi : incr < 2 ^ 62) (h : split m incr n a = .ok (q, rest)) :
    n * val q + val rest = val a ∧ |val rest| < n / 10 ^ fracDigits q ∧ 0 ≤ val rest * val a ∧ |val q| ≤ |val a| / n := by
  unfold split at h
  obtain ⟨d, hd1, hd2, -, hd4, hd5, -⟩ := C45_from_u64 (σ := Empty) (n := (n : Int)) (by omega) (by norm_num at h9 ⊢; omega)
  rw [hd1] at h
  obtain ⟨q', hq, h⟩ := bind_eq_ok.mp h
  cases hb : balance m a (List.replicate n (.debit q')) with
  | err e s => cases s
  | panic p => rw [hb] at h; cases h
  | ok rest' =>
    rw [hb] at h
    injection h with h
    injection h with h1 h2
    subst h1 h2
    have hn : (0 : ℚ) < n := by exact_mod_cast h0
    have hconv : Converted m (n : Int) d := Or.inr ⟨by omega, by norm_num at h9 ⊢; omega, hd1⟩
    obtain ⟨fd0, -, -⟩ := converted_fu hconv
    have hd2' : val d = n := by rw [hd2]; norm_num
    have hvd : val d ≠ 0 := by rw [hd2']; exact hn.ne'
    have hmd : mant d < 1000000000 := by
      have h1 := abs_val hd4.toWF
      unfold absVal at h1
      rw [hd2', fd0, Nat.mul_zero, pow_zero, div_one, abs_of_nonneg (by positivity)] at h1
      have h2 : ((n : Int)) = mant d := by exact_mod_cast h1
      norm_num at h9
      omega
    obtain ⟨wq, vq⟩ := C35_short_div m ha hd4.toWF rfl hvd hmd hi hq
    obtain ⟨vr, -⟩ := C66_balance_exact _ a ha (by
      intro e he
      rw [List.eq_of_mem_replicate he]
      exact wq) hb
    rw [List.map_replicate, List.sum_replicate, nsmul_eq_mul] at vr
    have vr' : val rest' = val a - n * val q' := by
      rw [vr]
      show val a + n * (- val q') = _
      ring
    rw [hd2'] at vq
    have hp : (0 : ℚ) < 10 ^ fracDigits q' := by positivity
    generalize fracDigits q' = k at *
    unfold truncQuot at vq
    set x := val a / n * 10 ^ k with hx
    have ea : val a = x * n / 10 ^ k := by rw [hx]; field_simp
    have er : val rest' = (x - truncZ x) * n / 10 ^ k := by rw [vr', vq, ea]; ring
    have d1 := truncZ_dist x
    have hsg : 0 ≤ (x - truncZ x) * x ∧ |(truncZ x : ℚ)| ≤ |x| := by
      unfold truncZ
      split_ifs with hlt
      · have f1 := Int.floor_le (-x)
        have f0 : (0 : ℤ) ≤ ⌊-x⌋ := Int.floor_nonneg.mpr (by linarith)
        have f0' : (0 : ℚ) ≤ ⌊-x⌋ := by exact_mod_cast f0
        push_cast
        refine ⟨?_, ?_⟩
        · have : x - -(⌊-x⌋ : ℚ) ≤ 0 := by linarith
          exact mul_nonneg_of_nonpos_of_nonpos this hlt.le
        · rw [abs_neg, abs_of_nonneg f0', abs_of_neg hlt]; exact f1
      · have hge : 0 ≤ x := not_lt.mp hlt
        have f1 := Int.floor_le x
        have f0 : (0 : ℤ) ≤ ⌊x⌋ := Int.floor_nonneg.mpr hge
        have f0' : (0 : ℚ) ≤ ⌊x⌋ := by exact_mod_cast f0
        refine ⟨mul_nonneg (by linarith) hge, ?_⟩
        rw [abs_of_nonneg f0', abs_of_nonneg hge]; exact f1
    refine ⟨by rw [vr']; ring, ?_, ?_, ?_⟩
    · rw [er, abs_div, abs_of_pos hp, abs_mul, abs_of_pos hn]
      apply div_lt_div_of_pos_right _ hp
      rw [abs_sub_comm] at d1
      calc |x - truncZ x| * n < 1 * n := mul_lt_mul_of_pos_right d1 hn
        _ = n := one_mul _
    · rw [er, ea]
      have : (x - truncZ x) * n / 10 ^ k * (x * n / 10 ^ k) = ((x - truncZ x) * x) * (n * n / (10 ^ k * 10 ^ k)) := by ring
      rw [this]
      exact mul_nonneg hsg.1 (by positivity)
    · rw [vq, abs_div, abs_of_pos hp, div_le_div_iff₀ hp hn]
      have : |val a| * 10 ^ k = |x| * n := by
        rw [ea, abs_div, abs_mul, abs_of_pos hn, abs_of_pos hp]; field_simp
      rw [this]
      exact mul_le_mul_of_nonneg_right hsg.2 hn.le

/-- 100.00 in seven shares of 14.285714285: 0.000000005 is left. -/
example : ∃ a, FixedDecimal.fromStr m (Samples.bytes "100.00") = .ok a ∧
    split m 4 7 a = .ok (⟨3#8, 9, [285714285, 14, 0, 0, 0, 0, 0, 0, 0]⟩, ⟨0#8, 9, [5, 0, 0, 0, 0, 0, 0, 0, 0]⟩) := by
  refine ⟨⟨3#8, 2, [0, 100, 0, 0, 0, 0, 0, 0, 0]⟩, ?_, ?_⟩ <;> cases m <;> decide +kernel

end Props
end Fxd
