import Verif.Proofs.MulAbs
import Mathlib.Algebra.BigOperators.Group.Finset.Basic
import Mathlib.Algebra.BigOperators.Intervals
/-!
# The integer computed by `mul_abs`: closed form of the rows, symmetry, monotonicity
-/

namespace Fxd
open Spec Finset

/-- What the pair of units at positions adding up to `p` contributes. -/
def pairVal (S : Nat) (x y : Int) (p : Nat) : Int :=
  if S ≤ p then x * y * 1000000000 ^ (p - S) else if p + 1 = S then x * y / 1000000000 else 0

theorem pairVal_comm (S : Nat) (x y : Int) (p : Nat) : pairVal S x y p = pairVal S y x p := by
  unfold pairVal; rw [mul_comm x y]

theorem rowVal_eq_mulRow {L : List Int} (hL : DigL L) (S j : Nat) (v : Int) :
    rowVal L S j v = mulRow (unitsVal L) v S j := by
  unfold rowVal mulRow
  split_ifs with h
  · rfl
  · obtain ⟨t, ht⟩ : ∃ t, S - j = t + 1 := ⟨S - j - 1, by omega⟩
    rw [ht, show S - 1 - j = t by omega, show t + 1 - 1 = t from rfl]
    have e1 : unitsVal L / 1000000000 ^ t = dg L t + 1000000000 * unitsVal (L.drop (t + 1)) := by
      rw [unitsVal_split L (t + 1), psum_succ, pow_succ,
        show psum (dg L) t + dg L t * 1000000000 ^ t + 1000000000 ^ t * 1000000000 * unitsVal (L.drop (t + 1)) =
          psum (dg L) t + 1000000000 ^ t * (dg L t + 1000000000 * unitsVal (L.drop (t + 1))) by ring,
        Int.add_mul_ediv_left _ _ (by positivity),
        Int.ediv_eq_zero_of_lt (psum_nonneg hL.dig t) (psum_lt hL.dig t), zero_add]
    rw [e1, show v * (dg L t + 1000000000 * unitsVal (L.drop (t + 1))) =
        dg L t * v + 1000000000 * (v * unitsVal (L.drop (t + 1))) by ring,
      Int.add_mul_ediv_left _ _ (by norm_num)]
    ring

theorem rowSum_eq_mulRows {L : List Int} (hL : DigL L) (S : Nat) :
    ∀ (R : List Int) (j : Nat), rowSum L S R j = mulRows (unitsVal L) S R j := by
  intro R
  induction R with
  | nil => intro j; rfl
  | cons v R ih => intro j; unfold rowSum mulRows; rw [ih, rowVal_eq_mulRow hL]

/-- `mul_abs` computes `codeMul`. -/
theorem mulRes_eq {a b : FixedDecimal} (ha : WF a) : mulRes a b = codeMul a b :=
  rowSum_eq_mulRows (ha.digL.take _) _ _ _

/-! ## As a double sum -/

theorem psum_eq_sum (f : Nat → Int) (n : Nat) : psum f n = ∑ i ∈ range n, f i * 1000000000 ^ i := by
  induction n with
  | zero => rfl
  | succ n ih => rw [psum_succ, sum_range_succ, ih]

theorem pairs_row (f : Nat → Int) (S j : Nat) (v : Int) : ∀ n : Nat,
    ∑ i ∈ range n, pairVal S (f i) v (i + j) =
      if S ≤ j then v * psum f n * 1000000000 ^ (j - S)
      else if S - j ≤ n then v * psum (fun i => f (S - j + i)) (n - (S - j)) + f (S - j - 1) * v / 1000000000 else 0 := by
  intro n
  induction n with
  | zero =>
    by_cases h : S ≤ j
    · simp [h]
    · simp [h]; omega
  | succ n ih =>
    rw [sum_range_succ, ih]
    by_cases h : S ≤ j
    · rw [if_pos h, if_pos h, psum_succ]
      unfold pairVal
      rw [if_pos (by omega), show n + j - S = n + (j - S) by omega, pow_add]; ring
    · rw [if_neg h, if_neg h]
      by_cases h1 : S - j ≤ n
      · rw [if_pos h1, if_pos (by omega), show n + 1 - (S - j) = (n - (S - j)) + 1 by omega, psum_succ]
        unfold pairVal
        rw [if_pos (by omega), show n + j - S = n - (S - j) by omega,
          show S - j + (n - (S - j)) = n by omega]; ring
      · rw [if_neg h1]
        by_cases h2 : S - j ≤ n + 1
        · rw [if_pos h2, show n + 1 - (S - j) = 0 by omega]
          unfold pairVal
          rw [if_neg (by omega), if_pos (by omega), show S - j - 1 = n by omega]
          simp
        · rw [if_neg h2]
          unfold pairVal
          rw [if_neg (by omega), if_neg (by omega)]; rfl

theorem rowVal_eq_sum (L : List Int) (S j : Nat) (v : Int) :
    rowVal L S j v = ∑ i ∈ range L.length, pairVal S (dg L i) v (i + j) := by
  rw [pairs_row]
  unfold rowVal
  by_cases h : S ≤ j
  · rw [if_pos h, if_pos h, unitsVal_eq_psum]
  · rw [if_neg h, if_neg h]
    by_cases h1 : S - j ≤ L.length
    · rw [if_pos h1, unitsVal_eq_psum, List.length_drop]
      rw [psum_congr (f := dg (L.drop (S - j))) (g := fun i => dg L (S - j + i)) (fun i _ => dg_drop)]
    · rw [if_neg h1, List.drop_eq_nil_of_le (by omega), dg_out (by omega)]
      simp [unitsVal]

theorem rowSum_eq_sum (L : List Int) (S : Nat) : ∀ (R : List Int) (k : Nat),
    rowSum L S R k = ∑ j ∈ range R.length, ∑ i ∈ range L.length, pairVal S (dg L i) (dg R j) (i + (j + k)) := by
  intro R
  induction R with
  | nil => intro k; rfl
  | cons v R ih =>
    intro k
    unfold rowSum
    rw [ih, rowVal_eq_sum, List.length_cons, sum_range_succ']
    rw [add_comm]
    congr 1
    · apply sum_congr rfl; intro j _
      apply sum_congr rfl; intro i _
      rw [dg_cons_succ, show j + (k + 1) = j + 1 + k by omega]
    · apply sum_congr rfl; intro i _
      rw [dg_cons_zero, Nat.zero_add]

theorem rowSum_comm (L R : List Int) (S : Nat) : rowSum L S R 0 = rowSum R S L 0 := by
  rw [rowSum_eq_sum, rowSum_eq_sum, sum_comm]
  apply sum_congr rfl; intro i _
  apply sum_congr rfl; intro j _
  rw [pairVal_comm, show i + (j + 0) = j + (i + 0) by omega]

theorem mulIU_comm (a b : FixedDecimal) : mulIU a b = mulIU b a := by unfold mulIU; rw [Nat.add_comm]
theorem mulFU_comm (a b : FixedDecimal) : mulFU a b = mulFU b a := by
  unfold mulFU; rw [mulIU_comm a b, Nat.add_comm (fracDigits a)]
theorem mulShift_comm (a b : FixedDecimal) : mulShift a b = mulShift b a := by
  unfold mulShift; rw [mulFU_comm a b, Nat.add_comm (fu a)]

theorem codeMul_comm {a b : FixedDecimal} (ha : WF a) (hb : WF b) : codeMul a b = codeMul b a := by
  rw [← mulRes_eq ha, ← mulRes_eq hb]
  unfold mulRes
  rw [rowSum_comm, mulShift_comm]

/-! ## Monotonicity -/

theorem mulRow_mono {A A' v : Int} {S j : Nat} (h : A ≤ A') (hv : 0 ≤ v) : mulRow A v S j ≤ mulRow A' v S j := by
  unfold mulRow
  split_ifs
  · have := mul_le_mul_of_nonneg_left h hv
    exact mul_le_mul_of_nonneg_right this (by positivity)
  · apply Int.ediv_le_ediv (by norm_num)
    apply mul_le_mul_of_nonneg_left _ hv
    exact Int.ediv_le_ediv (by positivity) h

theorem mulRows_mono {A A' : Int} {S : Nat} (h : A ≤ A') : ∀ (R : List Int) (j : Nat), DigL R →
    mulRows A S R j ≤ mulRows A' S R j := by
  intro R
  induction R with
  | nil => intro j _; exact le_refl _
  | cons v R ih =>
    intro j hR
    have h1 := mulRow_mono (S := S) (j := j) h (hR v (by simp)).1
    have h2 := ih (j + 1) (fun u hu => hR u (by simp [hu]))
    unfold mulRows; omega

/-! ## A sharper bound on what is cut off: only rows below the cut lose anything -/

theorem mulRows_bounds {A : Int} (hA : 0 ≤ A) {S : Nat} : ∀ (R : List Int) (j : Nat), DigL R →
    1000000000 ^ S * mulRows A S R j ≤ A * unitsVal R * 1000000000 ^ j ∧
      A * unitsVal R * 1000000000 ^ j ≤
        1000000000 ^ S * mulRows A S R j + (min (S - j) R.length : Nat) * (2 * 1000000000 ^ S - 1) := by
  intro R
  induction R with
  | nil => intro j _; simp [mulRows, unitsVal]
  | cons v R ih =>
    intro j hR
    have hv := hR v (by simp)
    obtain ⟨b1, b2⟩ := ih (j + 1) (fun u hu => hR u (by simp [hu]))
    simp only [mulRows, unitsVal, List.length_cons]
    have hS : (0 : Int) < 1000000000 ^ S := by positivity
    have e : A * (v + 1000000000 * unitsVal R) * 1000000000 ^ j =
        v * A * 1000000000 ^ j + A * unitsVal R * 1000000000 ^ (j + 1) := by
      rw [pow_succ]; ring
    rw [e, mul_add]
    by_cases h : S ≤ j
    · have er : 1000000000 ^ S * mulRow A v S j = v * A * 1000000000 ^ j := by
        unfold mulRow
        rw [if_pos h, show (1000000000 : Int) ^ j = 1000000000 ^ S * 1000000000 ^ (j - S) by rw [← pow_add]; congr 1; omega]
        ring
      rw [er, show min (S - j) (R.length + 1) = 0 by omega]
      rw [show min (S - (j + 1)) R.length = 0 by omega] at b2
      constructor
      · linarith
      · linarith
    · obtain ⟨t, ht⟩ : ∃ t, S = t + 1 + j := ⟨S - 1 - j, by omega⟩
      have er : 1000000000 ^ S * mulRow A v S j ≤ v * A * 1000000000 ^ j ∧
          v * A * 1000000000 ^ j ≤ 1000000000 ^ S * mulRow A v S j + (2 * 1000000000 ^ S - 1) := by
        unfold mulRow
        rw [if_neg h, show S - 1 - j = t by omega]
        have q := Int.mul_ediv_add_emod A (1000000000 ^ t)
        have q0 := Int.emod_nonneg A (show (1000000000 : Int) ^ t ≠ 0 by positivity)
        have q1 := Int.emod_lt_of_pos A (show (0 : Int) < 1000000000 ^ t by positivity)
        have r := Int.mul_ediv_add_emod (v * (A / 1000000000 ^ t)) 1000000000
        have r0 := Int.emod_nonneg (v * (A / 1000000000 ^ t)) (show (1000000000 : Int) ≠ 0 by decide)
        have r1 := Int.emod_lt_of_pos (v * (A / 1000000000 ^ t)) (show (0 : Int) < 1000000000 by decide)
        rw [ht, show t + 1 + j = j + t + 1 by omega, pow_succ, pow_add]
        have hX : (0 : Int) < 1000000000 ^ t := by positivity
        have hJ : (0 : Int) < 1000000000 ^ j := by positivity
        set X := (1000000000 : Int) ^ t
        set J := (1000000000 : Int) ^ j
        set Q := A / X
        set P := A % X
        set c := v * Q / 1000000000
        set d := v * Q % 1000000000
        have key : v * A * J = J * X * 1000000000 * c + J * (d * X + v * P) := by
          rw [← q, show v * (X * Q + P) * J = J * (X * (v * Q) + v * P) by ring, ← r]; ring
        have h1 : v * P ≤ 999999999 * (X - 1) := mul_le_mul (by omega) (by omega) q0 (by norm_num)
        have h2 : d * X ≤ 999999999 * X := mul_le_mul_of_nonneg_right (by omega) hX.le
        have h3 : 0 ≤ v * P := mul_nonneg hv.1 q0
        have h4 : 0 ≤ d * X := mul_nonneg r0 hX.le
        rw [key]
        constructor
        · have : 0 ≤ J * (d * X + v * P) := by positivity
          linarith
        · have h5 : J * (d * X + v * P) ≤ J * (2 * (X * 1000000000) - 1) :=
            mul_le_mul_of_nonneg_left (by omega) hJ.le
          have h6 : J * (2 * (X * 1000000000) - 1) = 2 * (J * X * 1000000000) - J := by ring
          linarith
      rw [show min (S - j) (R.length + 1) = min (S - (j + 1)) R.length + 1 by omega]
      push_cast
      push_cast at b2
      constructor
      · linarith [er.1]
      · linarith [er.2]

end Fxd
