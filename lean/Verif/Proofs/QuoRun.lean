import Verif.Proofs.RunLemmas
import Mathlib.Tactic.FieldSimp
import Mathlib.Tactic.NormNum
import Mathlib.Algebra.Order.Field.Rat
/-!
# The runs of the long division: the quotient
-/

namespace Fxd
open Spec

theorem zpow9 {p : Int} (h : 0 ≤ p) : (1000000000 : ℚ) ^ p = ((1000000000 ^ p.toNat : Int) : ℚ) := by
  obtain ⟨k, rfl⟩ := Int.eq_ofNat_of_zero_le h
  simp [zpow_natCast]

theorem zpow9_neg {p : Int} (h : p < 0) : (1000000000 : ℚ) ^ p = ((1000000000 ^ (-p).toNat : Int) : ℚ)⁻¹ := by
  obtain ⟨k, hk⟩ := Int.eq_ofNat_of_zero_le (show 0 ≤ -p by omega)
  rw [show p = -(k : Int) by omega, zpow_neg, zpow_natCast, show (-(-(k : Int))).toNat = k by omega]
  push_cast; rfl

theorem zpow9_pos (p : Int) : (0 : ℚ) < 1000000000 ^ p := zpow_pos (by norm_num) _

/-- What a step without correction leaves. -/
theorem put_rem {R : Int} (hR : 0 < R) {V : Int} (hV : 0 ≤ V) (p : Int) :
    (0 : ℚ) ≤ V - R * (fromUnit V p / R : Int) * 1000000000 ^ p ∧
    (V - R * (fromUnit V p / R : Int) * 1000000000 ^ p : ℚ) < R * 1000000000 ^ p ∧
    0 ≤ putUnit V p (fromUnit V p % R) ∧
    (putUnit V p (fromUnit V p % R) : ℚ) ≤ V - R * (fromUnit V p / R : Int) * 1000000000 ^ p ∧
    (V - R * (fromUnit V p / R : Int) * 1000000000 ^ p : ℚ) < putUnit V p (fromUnit V p % R) + 1 ∧
    (0 ≤ p → (putUnit V p (fromUnit V p % R) : ℚ) = V - R * (fromUnit V p / R : Int) * 1000000000 ^ p) := by
  unfold fromUnit putUnit
  by_cases hp : 0 ≤ p
  · rw [if_pos hp, if_pos hp, zpow9 hp]
    set B : Int := 1000000000 ^ p.toNat with hB
    have hB0 : 0 < B := by positivity
    set W := V / B
    have hr0 := Int.emod_nonneg W hR.ne'
    have hr1 := Int.emod_lt_of_pos W hR
    have hl0 := Int.emod_nonneg V hB0.ne'
    have hl1 := Int.emod_lt_of_pos V hB0
    have e : V - R * (W / R) * B = V % B + B * (W % R) := by
      rw [Int.emod_def V, Int.emod_def W]; ring
    have eq : (V - R * (W / R : Int) * B : ℚ) = ((V % B + B * (W % R) : Int) : ℚ) := by rw [← e]; push_cast; ring
    rw [eq]
    have h0 : 0 ≤ V % B + B * (W % R) := by positivity
    have h1 : V % B + B * (W % R) < R * B := by
      have : B * (W % R + 1) ≤ B * R := mul_le_mul_of_nonneg_left (by omega) hB0.le
      have e2 : B * (W % R + 1) = B * (W % R) + B := by ring
      have e3 : R * B = B * R := mul_comm _ _
      omega
    refine ⟨by exact_mod_cast h0, by exact_mod_cast h1, h0, le_refl _, by linarith, fun _ => rfl⟩
  · rw [if_neg hp, if_neg hp, zpow9_neg (by omega)]
    set B : Int := 1000000000 ^ (-p).toNat with hB
    have hB0 : 0 < B := by positivity
    have hBq : (0 : ℚ) < B := by exact_mod_cast hB0
    set W := V * B with hW
    have hr0 := Int.emod_nonneg W hR.ne'
    have hr1 := Int.emod_lt_of_pos W hR
    have e : (V - R * (W / R : Int) * (B : ℚ)⁻¹ : ℚ) = ((W % R : Int) : ℚ) / B := by
      rw [Int.emod_def W]
      field_simp
      rw [hW]; push_cast; ring
    rw [e]
    have hd0 : 0 ≤ W % R / B := Int.ediv_nonneg hr0 hB0.le
    have hd1 := Int.ediv_mul_le (W % R) hB0.ne'
    have hd2 := Int.lt_ediv_add_one_mul_self (W % R) hB0
    refine ⟨?_, ?_, hd0, ?_, ?_, fun h => absurd h hp⟩
    · have : (0 : ℚ) ≤ ((W % R : Int) : ℚ) := by exact_mod_cast hr0
      positivity
    · rw [← div_eq_mul_inv]
      exact div_lt_div_of_pos_right (by exact_mod_cast hr1) hBq
    · rw [le_div_iff₀ hBq]; exact_mod_cast hd1
    · rw [div_lt_iff₀ hBq]; exact_mod_cast hd2

theorem quoWins_succ (R P : Int) (k : Nat) (c : Int) (n : Nat) (V : Int) :
    quoWins R P k c (n + 1) V = fromUnit V (n + c) :: quoWins R P k c n (quoNext R P k c n V) := rfl
theorem quoRun_succ (R P : Int) (k : Nat) (c : Int) (n : Nat) (V : Int) :
    quoRun R P k c (n + 1) V = fromUnit V (n + c) / R * 1000000000 ^ n + quoRun R P k c n (quoNext R P k c n V) := rfl

/-- A run without a wrong correction: the quotient is never too large, and too small by at most what was lost below
the end of the buffer; all its units are units. -/
theorem quoRun_bounds {R P : Int} (hR : 0 < R) {k : Nat} {c : Int} : ∀ (n : Nat) (V : Int), 0 ≤ V →
    (V : ℚ) < R * 1000000000 ^ ((n : Int) + c) → (∀ W ∈ (quoWins R P k c n V).dropLast, ¬ TooBig R P W) →
    (R : ℚ) * 1000000000 ^ c * quoRun R P k c n V ≤ V ∧
    (V : ℚ) < R * 1000000000 ^ c * (quoRun R P k c n V + 1) + (min n (-c).toNat : Nat) ∧
    ∀ W ∈ quoWins R P k c n V, 0 ≤ W / R ∧ W / R < 1000000000
  | 0, V, h0, h1, _ => by
    have h0q : (0 : ℚ) ≤ V := by exact_mod_cast h0
    refine ⟨by simpa [quoRun] using h0q, by simpa [quoRun] using h1, by simp [quoWins]⟩
  | n + 1, V, h0, h1, hT => by
    obtain ⟨s1, s2, s3, s4, s5, s6⟩ := put_rem hR h0 ((n : Int) + c)
    have hRq : (0 : ℚ) < R := by exact_mod_cast hR
    have hBp := zpow9_pos ((n : Int) + c)
    have hsplit : (1000000000 : ℚ) ^ ((n : Int) + c) = 1000000000 ^ c * 1000000000 ^ n := by
      rw [zpow_add₀ (by norm_num), zpow_natCast]; ring
    set W := fromUnit V ((n : Int) + c) with hW
    have hq0 : 0 ≤ W / R := by
      by_contra hc
      have h2 : ((W / R : Int) : ℚ) ≤ -1 := by exact_mod_cast (show W / R ≤ -1 by omega)
      have hpos : (0 : ℚ) < R * 1000000000 ^ ((n : Int) + c) := by positivity
      have h4 : (0 : ℚ) ≤ V := by exact_mod_cast h0
      have h3 : (R : ℚ) * (W / R : Int) * 1000000000 ^ ((n : Int) + c) ≤ - (R * 1000000000 ^ ((n : Int) + c)) := by
        have : (R : ℚ) * (W / R : Int) * 1000000000 ^ ((n : Int) + c) = R * 1000000000 ^ ((n : Int) + c) * (W / R : Int) := by ring
        rw [this]; nlinarith
      linarith
    have hq1 : W / R < 1000000000 := by
      have hpos : (0 : ℚ) < R * 1000000000 ^ ((n : Int) + c) := by positivity
      have h2 : (R : ℚ) * 1000000000 ^ ((n : Int) + c) * (W / R : Int) < R * 1000000000 ^ ((n : Int) + c) * 1000000000 := by
        have e : ((n + 1 : Nat) : Int) + c = ((n : Int) + c) + 1 := by push_cast; ring
        rw [e, zpow_add_one₀ (by norm_num)] at h1
        have : (R : ℚ) * 1000000000 ^ ((n : Int) + c) * (W / R : Int) = R * (W / R : Int) * 1000000000 ^ ((n : Int) + c) := by ring
        rw [this]; linarith
      exact_mod_cast lt_of_mul_lt_mul_left h2 hpos.le
    rw [quoWins_succ, quoRun_succ, ← hW]
    rw [quoWins_succ, ← hW] at hT
    -- the last step needs nothing of what is left
    rcases Nat.eq_zero_or_pos n with rfl | hn
    · have e0 : quoRun R P k c 0 (quoNext R P k c 0 V) = 0 := rfl
      have e1 : quoWins R P k c 0 (quoNext R P k c 0 V) = [] := rfl
      rw [e0, e1]
      rw [show (((0 : Nat) : Int) + c) = c by simp] at s1 s2 hW
      simp only [pow_zero, mul_one, add_zero]
      refine ⟨by linarith, ?_, fun W' hW' => ?_⟩
      · have : (0 : ℚ) ≤ ((min (0 + 1) (-c).toNat : Nat) : ℚ) := by positivity
        linarith
      · rw [List.mem_singleton.mp hW']; exact ⟨hq0, hq1⟩
    · obtain ⟨n', rfl⟩ : ∃ n', n = n' + 1 := ⟨n - 1, by omega⟩
      rw [quoWins_succ, List.dropLast_cons₂, ← quoWins_succ] at hT
      have hnT := hT W List.mem_cons_self
      have hnext : quoNext R P k c (n' + 1) V = putUnit V (((n' + 1 : Nat) : Int) + c) (W % R) := by
        unfold quoNext; rw [← hW, if_neg hnT]
      rw [hnext] at hT ⊢
      set V' := putUnit V (((n' + 1 : Nat) : Int) + c) (W % R)
      obtain ⟨r1, r2, r3⟩ := quoRun_bounds (P := P) (k := k) (c := c) hR (n' + 1) V' s3 (by linarith)
        (fun W' hW' => hT W' (List.mem_cons_of_mem _ hW'))
      set Q := quoRun R P k c (n' + 1) V'
      have ecast : (R : ℚ) * 1000000000 ^ c * ((W / R * 1000000000 ^ (n' + 1) + Q : Int) : ℚ) =
          R * (W / R : Int) * 1000000000 ^ (((n' + 1 : Nat) : Int) + c) + R * 1000000000 ^ c * Q := by
        rw [hsplit]; push_cast; ring
      refine ⟨?_, ?_, fun W' hW' => ?_⟩
      · rw [ecast]; linarith
      · rw [mul_add, mul_one, ecast]
        by_cases hneg : 0 ≤ ((n' + 1 : Nat) : Int) + c
        · have e2 : min (n' + 1 + 1) (-c).toNat = min (n' + 1) (-c).toNat := by omega
          rw [e2]
          have := s6 hneg
          linarith
        · have e2 : ((min (n' + 1 + 1) (-c).toNat : Nat) : ℚ) = (min (n' + 1) (-c).toNat : Nat) + 1 := by
            have : min (n' + 1 + 1) (-c).toNat = min (n' + 1) (-c).toNat + 1 := by omega
            rw [this]; push_cast; ring
          rw [e2]; linarith
      · rcases List.mem_cons.mp hW' with rfl | hW'
        · exact ⟨hq0, hq1⟩
        · exact r3 W' hW'

/-- The windows met by a run inside the buffer, in closed form, as long as no guess is too large. -/
theorem quo_windows {R P : Int} (hR : 0 < R) {k c : Nat} : ∀ (n : Nat) (V : Int), 0 ≤ V →
    V < R * 1000000000 ^ (n + c) →
    ((∃ W ∈ (quoWins R P k c n V).dropLast, TooBig R P W) ↔
      ∃ j, 0 < j ∧ j < n ∧ TooBig R P (V / 1000000000 ^ (j + c) % (R * 1000000000)))
  | 0, V, _, _ => by simp [quoWins]
  | 1, V, _, _ => by
    simp only [quoWins, List.dropLast_singleton, List.not_mem_nil, false_and, exists_false, false_iff, not_exists]
    intro j hj; omega
  | n + 2, V, h0, h1 => by
    have hB : (0 : Int) < 1000000000 ^ (n + 1 + c) := by positivity
    have hF : fromUnit V (((n + 1 : Nat) : Int) + (c : Nat)) = V / 1000000000 ^ (n + 1 + c) := by
      unfold fromUnit; rw [if_pos (by omega)]; congr 2
    have hW : V / 1000000000 ^ (n + 1 + c) % (R * 1000000000) = V / 1000000000 ^ (n + 1 + c) := by
      refine Int.emod_eq_of_lt (Int.ediv_nonneg h0 hB.le) ((Int.ediv_lt_iff_lt_mul hB).mpr ?_)
      rw [show n + 2 + c = n + 1 + c + 1 by ring, pow_succ] at h1
      linarith [show R * (1000000000 ^ (n + 1 + c) * 1000000000) = R * 1000000000 * (1000000000 : Int) ^ (n + 1 + c) by ring]
    rw [quoWins_succ, quoWins_succ, List.dropLast_cons₂, ← quoWins_succ, hF]
    by_cases hT : TooBig R P (V / 1000000000 ^ (n + 1 + c))
    · exact ⟨fun _ => ⟨n + 1, by omega, by omega, by rwa [hW]⟩, fun _ => ⟨_, List.mem_cons_self, hT⟩⟩
    · have hnext : quoNext R P k c (n + 1) V = remNext R P (n + 1 + c) V := by
        unfold quoNext remNext remStep putUnit
        rw [hF, if_neg hT, if_neg hT, if_pos (by omega)]
        rfl
      obtain ⟨b0, b1⟩ := remNext_bounds hR hT
      rw [hnext]
      have ih := quo_windows (P := P) (k := k) hR (n + 1) _ b0 b1
      constructor
      · rintro ⟨W, hW, hTW⟩
        rcases List.mem_cons.mp hW with rfl | hW
        · exact absurd hTW hT
        · obtain ⟨j, hj0, hj, hTj⟩ := ih.mp ⟨W, hW, hTW⟩
          exact ⟨j, hj0, by omega, by rwa [window_next hT (by omega)] at hTj⟩
      · rintro ⟨j, hj0, hj, hTj⟩
        by_cases hjn : j = n + 1
        · subst hjn; rw [hW] at hTj; exact absurd hTj hT
        · obtain ⟨W, hW, hTW⟩ := ih.mpr ⟨j, hj0, by omega, by rwa [window_next hT (by omega)]⟩
          exact ⟨W, List.mem_cons_of_mem _ hW, hTW⟩

end Fxd
