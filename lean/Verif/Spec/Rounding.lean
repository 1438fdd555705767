import Verif.Spec.Value
/-!
# Specification: rounding half away from zero
-/

namespace Fxd.Spec
open Fxd

/-- The integer nearest to `q`, halves away from zero. -/
def halfAway (q : ℚ) : ℤ := if q < 0 then - ⌊- q + 1 / 2⌋ else ⌊q + 1 / 2⌋

/-- `q` cut to an integer towards zero. -/
def truncZ (q : ℚ) : ℤ := if q < 0 then - ⌊- q⌋ else ⌊q⌋

theorem halfAway_neg (q : ℚ) : halfAway (-q) = - halfAway q := by
  unfold halfAway
  rcases lt_trichotomy q 0 with h | h | h
  · rw [if_neg (by linarith), if_pos h]; simp
  · subst h; norm_num
  · rw [if_pos (by linarith), if_neg (by linarith)]; simp

/-- `halfAway q` is a nearest integer. -/
theorem halfAway_dist (q : ℚ) : |(halfAway q : ℚ) - q| ≤ 1 / 2 := by
  unfold halfAway
  split_ifs with h
  · have h1 := Int.floor_le (- q + 1 / 2)
    have h2 := Int.lt_floor_add_one (- q + 1 / 2)
    push_cast
    rw [abs_le]; constructor <;> linarith
  · have h1 := Int.floor_le (q + 1 / 2)
    have h2 := Int.lt_floor_add_one (q + 1 / 2)
    rw [abs_le]; constructor <;> linarith

/-- Ties go away from zero: half way between `n` and `n + 1`. -/
theorem halfAway_tie (n : ℤ) : halfAway ((n : ℚ) + 1 / 2) = if 0 ≤ n then n + 1 else n := by
  unfold halfAway
  have hq : ((n : ℚ) + 1 / 2 < 0) ↔ n < 0 := by
    constructor
    · intro h
      by_contra hn
      have : (0 : ℚ) ≤ n := by exact_mod_cast (by omega : 0 ≤ n)
      linarith
    · intro h
      have : (n : ℚ) ≤ -1 := by exact_mod_cast (by omega : n ≤ -1)
      linarith
  by_cases hn : 0 ≤ n
  · rw [if_neg (by rw [hq]; omega), if_pos hn,
      show (n : ℚ) + 1 / 2 + 1 / 2 = ((n + 1 : ℤ) : ℚ) by push_cast; ring, Int.floor_intCast]
  · rw [if_pos (by rw [hq]; omega), if_neg hn,
      show -((n : ℚ) + 1 / 2) + 1 / 2 = ((-n : ℤ) : ℚ) by push_cast; ring, Int.floor_intCast]; ring

theorem halfAway_int (n : ℤ) : halfAway (n : ℚ) = n := by
  unfold halfAway
  split_ifs with h
  · rw [show (-(n : ℚ) + 1 / 2) = ((-n : ℤ) : ℚ) + 1 / 2 by push_cast; ring, Int.floor_intCast_add]
    norm_num
  · rw [Int.floor_intCast_add]; norm_num

theorem halfAway_mono {p q : ℚ} (h : p ≤ q) : halfAway p ≤ halfAway q := by
  unfold halfAway
  split_ifs with h1 h2 h2
  · exact neg_le_neg (Int.floor_le_floor (by linarith))
  · have e1 : 0 ≤ ⌊-p + 1 / 2⌋ := Int.floor_nonneg.mpr (by linarith)
    have e2 : 0 ≤ ⌊q + 1 / 2⌋ := Int.floor_nonneg.mpr (by linarith)
    omega
  · exfalso; linarith
  · exact Int.floor_le_floor (by linarith)

/-- `halfAway q` is a nearest integer, and of two nearest integers the one farther from zero. -/
theorem halfAway_nearest (q : ℚ) (n : ℤ) (hn : n ≠ halfAway q) :
    |(halfAway q : ℚ) - q| < |(n : ℚ) - q| ∨
      |(halfAway q : ℚ) - q| = |(n : ℚ) - q| ∧ |n| < |halfAway q| := by
  wlog h : 0 ≤ q with H
  · have := H (-q) (-n) (by rw [halfAway_neg]; omega) (by linarith)
    rw [halfAway_neg] at this
    push_cast at this
    rw [show -(halfAway q : ℚ) - -q = -((halfAway q : ℚ) - q) by ring, show -(n : ℚ) - -q = -((n : ℚ) - q) by ring,
      abs_neg, abs_neg, abs_neg, abs_neg] at this
    exact this
  · have e : halfAway q = ⌊q + 1 / 2⌋ := by unfold halfAway; rw [if_neg (by linarith)]
    have h1 := Int.floor_le (q + 1 / 2)
    have h2 := Int.lt_floor_add_one (q + 1 / 2)
    have h3 : 0 ≤ ⌊q + 1 / 2⌋ := Int.floor_nonneg.mpr (by linarith)
    rw [← e] at h1 h2 h3
    set k := halfAway q
    rcases lt_or_gt_of_ne hn with h4 | h4
    · have h5 : (n : ℚ) ≤ k - 1 := by exact_mod_cast (by omega : n ≤ k - 1)
      have e1 : |(n : ℚ) - q| = q - n := by rw [abs_of_nonpos (by linarith)]; ring
      rw [e1]
      by_cases h6 : (k : ℚ) ≤ q
      · left
        rw [abs_of_nonpos (by linarith)]; linarith
      · rw [abs_of_pos (by linarith)]
        by_cases h7 : (k : ℚ) - q < q - n
        · exact Or.inl h7
        · right
          have h8 : (k : ℚ) - q = q - n := by linarith
          refine ⟨h8, ?_⟩
          have h9 : (n : ℚ) = k - 1 := by linarith
          have h10 : n = k - 1 := by exact_mod_cast h9
          have h11 : (0 : ℚ) < k := by linarith
          have h12 : 0 < k := by exact_mod_cast h11
          rw [abs_of_nonneg (by omega), abs_of_nonneg (by omega)]; omega
    · left
      have h5 : (k : ℚ) + 1 ≤ n := by exact_mod_cast (by omega : k + 1 ≤ n)
      rw [abs_of_pos (show (0 : ℚ) < n - q by linarith)]
      rw [abs_lt]; constructor <;> linarith

/-- An `isize` cast to `i8` (`frac as i8`): the representative modulo 256 in `[-128, 128)`. -/
def castI8 (k : Int) : Int := Int.bmod k 256

/-- The room test for a precision `k` not below the scale: `k` cast to eight bits must need at least the present
fractional units, and fit in nine units together with the integral ones. -/
def ExtFits (d : FixedDecimal) (k : Int) : Prop :=
  -8 ≤ castI8 k ∧ fu d ≤ unitsFor (castI8 k).toNat ∧ iu d + unitsFor (castI8 k).toNat ≤ 9

instance (d : FixedDecimal) (k : Int) : Decidable (ExtFits d k) := by unfold ExtFits; infer_instance

/-- The number of whole units by which precision `k` extends the fraction. -/
def extUnits (d : FixedDecimal) (k : Int) : Nat := unitsFor (castI8 k).toNat - fu d

end Fxd.Spec
