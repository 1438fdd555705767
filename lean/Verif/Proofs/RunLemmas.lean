import Verif.Spec.LongDivision
import Mathlib.Tactic.Linarith
import Mathlib.Tactic.Positivity
/-!
# The runs of the long division: arithmetic
-/

namespace Fxd
open Spec

theorem emod_of_bounds {A B Q R : Int} (h : A = Q * B + R) (h0 : 0 ≤ R) (h1 : R < B) : A % B = R := by
  rw [h, Int.add_comm, mul_comm, Int.add_mul_emod_self_left, Int.emod_eq_of_lt h0 h1]

theorem tooBig_iff {R P W : Int} (hR : 0 < R) : TooBig R P W ↔ W < W / P / (R / P) * R := by
  unfold TooBig; rw [Int.ediv_lt_iff_lt_mul hR]

/-- When nothing of the divisor is cut off, no guess is too large. -/
theorem not_tooBig_of_dvd {R P W : Int} (hP : 0 < P) (h : P ∣ R) : ¬ TooBig R P W := by
  obtain ⟨D, rfl⟩ := h
  unfold TooBig
  rw [Int.mul_ediv_cancel_left _ hP.ne', Int.ediv_ediv_of_nonneg hP.le]
  omega

/-- One step. -/
def remNext (R P : Int) (n : Nat) (V : Int) : Int := V % 1000000000 ^ n + 1000000000 ^ n * remStep R P (V / 1000000000 ^ n)

theorem remRun_succ (R P : Int) (n : Nat) (V : Int) : remRun R P (n + 1) V = remRun R P n (remNext R P n V) := rfl
theorem remWins_succ (R P : Int) (n : Nat) (V : Int) :
    remWins R P (n + 1) V = V / 1000000000 ^ n :: remWins R P n (remNext R P n V) := rfl

theorem remNext_eq {R P : Int} {n : Nat} {V : Int} (h : ¬ TooBig R P (V / 1000000000 ^ n)) :
    remNext R P n V = V - 1000000000 ^ n * (R * (V / 1000000000 ^ n / R)) := by
  unfold remNext remStep
  rw [if_neg h, Int.emod_def (V / 1000000000 ^ n), Int.emod_def V]
  ring

theorem remNext_bounds {R P : Int} (hR : 0 < R) {n : Nat} {V : Int} (h : ¬ TooBig R P (V / 1000000000 ^ n)) :
    0 ≤ remNext R P n V ∧ remNext R P n V < R * 1000000000 ^ n := by
  unfold remNext remStep
  rw [if_neg h]
  have hP : (0 : Int) < 1000000000 ^ n := by positivity
  have h1 := Int.emod_nonneg V hP.ne'
  have h2 := Int.emod_lt_of_pos V hP
  have h3 := Int.emod_nonneg (V / 1000000000 ^ n) hR.ne'
  have h4 := Int.emod_lt_of_pos (V / 1000000000 ^ n) hR
  constructor
  · positivity
  · have : 1000000000 ^ n * (V / 1000000000 ^ n % R + 1) ≤ 1000000000 ^ n * R := mul_le_mul_of_nonneg_left (by omega) hP.le
    have e : (1000000000 : Int) ^ n * (V / 1000000000 ^ n % R + 1) = 1000000000 ^ n * (V / 1000000000 ^ n % R) + 1000000000 ^ n := by ring
    have e2 : R * (1000000000 : Int) ^ n = 1000000000 ^ n * R := mul_comm _ _
    omega

/-- Without a guess that is too large the run leaves the remainder. -/
theorem remRun_mod {R P : Int} : ∀ (n : Nat) (V : Int), (∀ W ∈ remWins R P n V, ¬ TooBig R P W) →
    ∃ Q, V = Q * R + remRun R P n V
  | 0, V, _ => ⟨0, by simp [remRun]⟩
  | n + 1, V, h => by
    rw [remWins_succ] at h
    obtain ⟨Q, hQ⟩ := remRun_mod n (remNext R P n V) (fun W hW => h W (List.mem_cons_of_mem _ hW))
    rw [remNext_eq (h _ (List.mem_cons_self))] at hQ
    rw [remRun_succ, remNext_eq (h _ (List.mem_cons_self))]
    refine ⟨Q + 1000000000 ^ n * (V / 1000000000 ^ n / R), ?_⟩
    linarith [show 1000000000 ^ n * (R * (V / 1000000000 ^ n / R)) = 1000000000 ^ n * (V / 1000000000 ^ n / R) * R by ring]

/-- The windows below are not changed by a step with a correct guess. -/
theorem window_next {R P : Int} {n : Nat} {V : Int} (h : ¬ TooBig R P (V / 1000000000 ^ n)) {j : Nat} (hj : j < n) :
    remNext R P n V / 1000000000 ^ j % (R * 1000000000) = V / 1000000000 ^ j % (R * 1000000000) := by
  rw [remNext_eq h]
  obtain ⟨d, rfl⟩ : ∃ d, n = j + (d + 1) := ⟨n - j - 1, by omega⟩
  set q := V / 1000000000 ^ (j + (d + 1)) / R
  have hP : (0 : Int) < 1000000000 ^ j := by positivity
  have e : V - 1000000000 ^ (j + (d + 1)) * (R * q) = V + 1000000000 ^ j * (- (1000000000 ^ d * q) * (R * 1000000000)) := by
    rw [pow_add, pow_succ]; ring
  rw [e, Int.add_mul_ediv_left _ _ hP.ne', Int.add_mul_emod_self_right]

/-- The windows met by the run, in closed form, as long as no guess is too large. -/
theorem tooBig_windows {R P : Int} (hR : 0 < R) : ∀ (n : Nat) (V : Int), 0 ≤ V → V < R * 1000000000 ^ n →
    ((∃ W ∈ remWins R P n V, TooBig R P W) ↔ ∃ j < n, TooBig R P (V / 1000000000 ^ j % (R * 1000000000)))
  | 0, V, _, _ => by simp [remWins]
  | n + 1, V, h0, h1 => by
    have hP : (0 : Int) < 1000000000 ^ n := by positivity
    have hW : V / 1000000000 ^ n % (R * 1000000000) = V / 1000000000 ^ n := by
      refine Int.emod_eq_of_lt (Int.ediv_nonneg h0 hP.le) ((Int.ediv_lt_iff_lt_mul hP).mpr ?_)
      rw [pow_succ] at h1
      linarith [show R * (1000000000 ^ n * 1000000000) = R * 1000000000 * (1000000000 : Int) ^ n by ring]
    rw [remWins_succ]
    by_cases hT : TooBig R P (V / 1000000000 ^ n)
    · refine ⟨fun _ => ⟨n, by omega, by rwa [hW]⟩, fun _ => ⟨_, List.mem_cons_self, hT⟩⟩
    · obtain ⟨b0, b1⟩ := remNext_bounds hR hT
      have ih := tooBig_windows (P := P) hR n _ b0 b1
      constructor
      · rintro ⟨W, hW, hTW⟩
        rcases List.mem_cons.mp hW with rfl | hW
        · exact absurd hTW hT
        · obtain ⟨j, hj, hTj⟩ := ih.mp ⟨W, hW, hTW⟩
          exact ⟨j, by omega, by rwa [window_next hT hj] at hTj⟩
      · rintro ⟨j, hj, hTj⟩
        by_cases hjn : j = n
        · subst hjn; rw [hW] at hTj; exact absurd hTj hT
        · obtain ⟨W, hW, hTW⟩ := ih.mpr ⟨j, by omega, by rwa [window_next hT (by omega)]⟩
          exact ⟨W, List.mem_cons_of_mem _ hW, hTW⟩

end Fxd
