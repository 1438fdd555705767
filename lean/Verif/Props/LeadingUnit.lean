import Verif.Props.DebugQuotients
/-!
# Property C117: the leading unit of a quotient is right

Whatever the wrong correction step of the long division does to the rest, the leading nine-digit unit of every quotient that comes
out as a valid decimal is that of the exact quotient.  So such a quotient is wrong by less than a factor of two; in debug builds,
where all quotients are valid (C77), every quotient is.
-/

namespace Fxd
open Spec

namespace Spec

/-- `x` and `y` have the same leading unit `q` (1 to 999999999), at the same place `p` (counted in units of nine digits). -/
def SameLead (x y : ℚ) : Prop :=
  ∃ (q : Nat) (p : Int), 1 ≤ q ∧ q ≤ 999999999 ∧ q * (10 ^ 9) ^ p ≤ x ∧ x < (q + 1) * (10 ^ 9) ^ p ∧
    q * (10 ^ 9) ^ p ≤ y ∧ y < (q + 1) * (10 ^ 9) ^ p

end Spec

namespace Props

theorem quoNext_nonneg {R P : Int} (hR : 0 < R) {k : Nat} (hRk : R ≤ 1000000000 ^ (k + 1)) {c : Int} {n : Nat} {V : Int} (hV : 0 ≤ V) :
    0 ≤ quoNext R P k c n V := by
  have hput : ∀ p D : Int, 0 ≤ D → 0 ≤ putUnit V p D := by
    intro p D hD
    unfold putUnit
    split_ifs
    · have := Int.emod_nonneg V (show (1000000000 : Int) ^ p.toNat ≠ 0 by positivity)
      positivity
    · exact Int.ediv_nonneg hD (by positivity)
  have h1 := Int.emod_nonneg (fromUnit V (n + c)) hR.ne'
  have h2 := Int.emod_lt_of_pos (fromUnit V (n + c)) hR
  unfold quoNext
  split_ifs
  · refine le_trans ?_ (negUnits_ge _ _ _)
    have := hput (n + c) (1000000000 ^ (k + 1) - (R - fromUnit V (n + c) % R)) (by omega)
    have := Int.ediv_nonneg this (show (0 : Int) ≤ 1000000000 ^ (n + min k (↑k + 1 + c).toNat) by positivity)
    positivity
  · exact hput _ _ h1

/-- The units below the leading one are units, so they do not reach it. -/
theorem quoRun_digits {R P : Int} (hR : 0 < R) {k : Nat} (hRk : R ≤ 1000000000 ^ (k + 1)) {c : Int} : ∀ (n : Nat) (V : Int), 0 ≤ V →
    (∀ W ∈ quoWins R P k c n V, W / R < 1000000000) → 0 ≤ quoRun R P k c n V ∧ quoRun R P k c n V < 1000000000 ^ n
  | 0, V, _, _ => by simp [quoRun]
  | n + 1, V, hV, h => by
    rw [quoWins_succ] at h
    have hW0 : 0 ≤ fromUnit V (n + c) := by
      unfold fromUnit
      split_ifs
      · exact Int.ediv_nonneg hV (by positivity)
      · positivity
    have hnext : 0 ≤ quoNext R P k c n V := quoNext_nonneg hR hRk hV
    obtain ⟨i1, i2⟩ := quoRun_digits hR hRk n _ hnext (fun W hW => h W (List.mem_cons_of_mem _ hW))
    have hq1 : fromUnit V (n + c) / R < 1000000000 := h _ List.mem_cons_self
    have hq0 : 0 ≤ fromUnit V (n + c) / R := Int.ediv_nonneg hW0 hR.le
    rw [quoRun_succ]
    have hp : (0 : Int) < 1000000000 ^ n := by positivity
    refine ⟨by positivity, ?_⟩
    rw [pow_succ]
    nlinarith

theorem top_units {d : FixedDecimal} (h : 0 < mant d) : 1000000000 ^ topUnit d ≤ mant d ∧ mant d < 1000000000 ^ (topUnit d + 1) := by
  obtain ⟨l1, -, l3⟩ := lead_bounds h
  refine ⟨l1, ?_⟩
  have hp : (0 : Int) < 1000000000 ^ topUnit d := by positivity
  rw [Int.ediv_lt_iff_lt_mul hp] at l3
  rw [pow_succ]; linarith

/-- Where the leading unit of the exact quotient is. -/
theorem quot_place {a b : FixedDecimal} (ha : 0 < mant a) (hb : 0 < mant b) (F : Int) {N : Int}
    (hN : N = F + ((topUnit a : Int) - fu a) - ((topUnit b : Int) - fu b) + if LeadGe a b then 1 else 0) :
    (1000000000 : ℚ) ^ (N - 1) ≤ (mant a : ℚ) / mant b * 1000000000 ^ (F + fu b - fu a) ∧
      (mant a : ℚ) / mant b * 1000000000 ^ (F + fu b - fu a) < 1000000000 ^ N := by
  obtain ⟨a1, a2⟩ := top_units ha
  obtain ⟨b1, b2⟩ := top_units hb
  have hb' : (0 : ℚ) < mant b := by exact_mod_cast hb
  have hB : (1000000000 : ℚ) ≠ 0 := by norm_num
  have a1' : (1000000000 : ℚ) ^ (topUnit a : Int) ≤ mant a := by rw [zpow_natCast]; exact_mod_cast a1
  have a2' : (mant a : ℚ) < 1000000000 ^ ((topUnit a : Int) + 1) := by
    rw [← Nat.cast_succ, zpow_natCast]; exact_mod_cast a2
  have b1' : (1000000000 : ℚ) ^ (topUnit b : Int) ≤ mant b := by rw [zpow_natCast]; exact_mod_cast b1
  have b2' : (mant b : ℚ) < 1000000000 ^ ((topUnit b : Int) + 1) := by
    rw [← Nat.cast_succ, zpow_natCast]; exact_mod_cast b2
  have hs : (0 : ℚ) < 1000000000 ^ (F + fu b - fu a) := zpow_pos (by norm_num) _
  suffices h : (1000000000 : ℚ) ^ (N - 1 - (F + fu b - fu a)) * mant b ≤ mant a ∧
      (mant a : ℚ) < 1000000000 ^ (N - (F + fu b - fu a)) * mant b by
    constructor
    · rw [div_mul_eq_mul_div, le_div_iff₀ hb']
      rw [zpow_sub₀ hB, div_mul_eq_mul_div, div_le_iff₀ hs] at h
      exact h.1
    · rw [div_mul_eq_mul_div, div_lt_iff₀ hb']
      have h2 := h.2
      rw [zpow_sub₀ hB, div_mul_eq_mul_div, lt_div_iff₀ hs] at h2
      exact h2
  by_cases hg : LeadGe a b
  · rw [if_pos hg] at hN
    have hg' : (mant b : ℚ) * 1000000000 ^ (topUnit a : Int) ≤ mant a * 1000000000 ^ (topUnit b : Int) := by
      rw [zpow_natCast, zpow_natCast]; exact_mod_cast hg
    constructor
    · rw [show N - 1 - (F + fu b - fu a) = (topUnit a : Int) - topUnit b by omega, zpow_sub₀ hB, div_mul_eq_mul_div,
        div_le_iff₀ (zpow_pos (by norm_num) _)]
      linarith
    · rw [show N - (F + fu b - fu a) = ((topUnit a : Int) + 1) - topUnit b by omega, zpow_sub₀ hB, div_mul_eq_mul_div,
        lt_div_iff₀ (zpow_pos (by norm_num) _)]
      have := zpow_pos (show (0 : ℚ) < 1000000000 by norm_num) (topUnit b : Int)
      have := zpow_pos (show (0 : ℚ) < 1000000000 by norm_num) ((topUnit a : Int) + 1)
      nlinarith
  · rw [if_neg hg] at hN
    have hg' : (mant a : ℚ) * 1000000000 ^ (topUnit b : Int) < mant b * 1000000000 ^ (topUnit a : Int) := by
      unfold LeadGe at hg
      rw [zpow_natCast, zpow_natCast]; exact_mod_cast not_le.mp hg
    constructor
    · rw [show N - 1 - (F + fu b - fu a) = (topUnit a : Int) - ((topUnit b : Int) + 1) by omega, zpow_sub₀ hB, div_mul_eq_mul_div,
        div_le_iff₀ (zpow_pos (by norm_num) _)]
      have := zpow_pos (show (0 : ℚ) < 1000000000 by norm_num) (topUnit a : Int)
      have := zpow_pos (show (0 : ℚ) < 1000000000 by norm_num) ((topUnit b : Int) + 1)
      nlinarith
    · rw [show N - (F + fu b - fu a) = (topUnit a : Int) - topUnit b by omega, zpow_sub₀ hB, div_mul_eq_mul_div,
        lt_div_iff₀ (zpow_pos (by norm_num) _)]
      linarith

/-- Two numbers between the same multiples of a power, brought to a scale. -/
theorem same_lead {Q n F : Nat} {q : Int} {X : ℚ} (hq1 : 1 ≤ q) (hq2 : q ≤ 999999999) (h1 : q * 1000000000 ^ n ≤ (Q : Int))
    (h2 : (Q : Int) < (q + 1) * 1000000000 ^ n) (h3 : (q : ℚ) * 1000000000 ^ n ≤ X) (h4 : X < ((q : ℚ) + 1) * 1000000000 ^ n) :
    SameLead ((Q : ℚ) / 10 ^ (9 * F)) (X / 10 ^ (9 * F)) := by
  obtain ⟨q, rfl⟩ := Int.eq_ofNat_of_zero_le (show 0 ≤ q by omega)
  have e : ((10 : ℚ) ^ 9) ^ ((n : Int) - F) = 1000000000 ^ n / 10 ^ (9 * F) := by
    rw [zpow_sub₀ (by norm_num), zpow_natCast, zpow_natCast, pow_mul]
    norm_num
  have hp : (0 : ℚ) < 10 ^ (9 * F) := by positivity
  have h1' : (q : ℚ) * 1000000000 ^ n ≤ Q := by exact_mod_cast h1
  have h2' : (Q : ℚ) < ((q : ℚ) + 1) * 1000000000 ^ n := by exact_mod_cast h2
  rw [Int.cast_natCast] at h3 h4
  refine ⟨q, (n : Int) - F, by omega, by omega, ?_, ?_, ?_, ?_⟩ <;> rw [e, ← mul_div_assoc]
  · exact div_le_div_of_nonneg_right h1' hp.le
  · exact div_lt_div_of_pos_right h2' hp
  · exact div_le_div_of_nonneg_right h3 hp.le
  · exact div_lt_div_of_pos_right h4 hp

/-- **C117** Every quotient that comes out as a valid decimal has the leading unit of the exact quotient, or is zero because the exact
quotient is below its last digit. -/
theorem C117_leading {m : Mode} {a b res r : FixedDecimal} (ha : WF a) (hb : WF b) (hres : res.lsu.length = 9) (za : val a ≠ 0)
    {incr : Nat} (hi : incr < 2 ^ 62) (h : FixedDecimal.divTo m a b res incr = .ok r) (hw : WF r) :
    (val r = 0 ∧ |val a / val b| < 1 / 10 ^ fracDigits r) ∨ SameLead |val r| |val a / val b| := by
  have zb : val b ≠ 0 := fun zb => by rw [C33_div_zero m ha hb hres zb] at h; cases h
  obtain ⟨-, s2, s3, s4, -, s6⟩ := divTo_all ha hb hres za zb hi h
  have hA : 0 < mant a := lt_of_le_of_ne ha.mant_nonneg (fun e => za (val_eq_zero.mpr e.symm))
  have hB : 0 < mant b := lt_of_le_of_ne hb.mant_nonneg (fun e => zb (val_eq_zero.mpr e.symm))
  have hAq : (0 : ℚ) < mant a := by exact_mod_cast hA
  have hBq : (0 : ℚ) < mant b := by exact_mod_cast hB
  have hU : (1000000000 : ℚ) ≠ 0 := by norm_num
  set F := quoFU a b incr with hF
  set X : ℚ := (mant a : ℚ) / mant b * 1000000000 ^ ((F : Int) + fu b - fu a) with hX
  have hs : (0 : ℚ) < 10 ^ (9 * F) := by positivity
  have hXv : |val a / val b| = X / 10 ^ (9 * F) := by
    rw [abs_quot ha hb, eq_div_iff hs.ne', quot_scaled, hX, zpow_sub₀ hU, zpow_add₀ hU, zpow_natCast, zpow_natCast, zpow_natCast, pow_add]
    field_simp
  have hr : |val r| = (mant r : ℚ) / 10 ^ (9 * F) := by rw [abs_val hw]; unfold absVal; rw [s3]
  have hX0 : 0 < X := by rw [hX]; exact mul_pos (div_pos hAq hBq) (zpow_pos (by norm_num) _)
  -- where the leading unit is
  generalize hN : (F : Int) + ((topUnit a : Int) - fu a) - ((topUnit b : Int) - fu b) + (if LeadGe a b then 1 else 0) = N
  obtain ⟨p1, p2⟩ := quot_place hA hB F hN.symm
  rw [← hX] at p1 p2
  have hn : quoSteps a b incr = N.toNat := by unfold quoSteps; rw [← hF, hN]
  -- the integers
  have hshort : topUnit b = 0 → mant r = ⌊X⌋ := by
    intro ht
    rw [s4]
    unfold codeQuo
    rw [if_pos ht, ← hF]
    have e : X = ((mant a * 1000000000 ^ (F + fu b) : Int) : ℚ) / ((mant b * 1000000000 ^ fu a : Int) : ℚ) := by
      rw [hX, zpow_sub₀ hU, zpow_add₀ hU, zpow_natCast, zpow_natCast, zpow_natCast]
      push_cast
      rw [pow_add]
      field_simp
    rw [e]
    have hD : (0 : Int) < mant b * 1000000000 ^ fu a := by positivity
    have hDq : (0 : ℚ) < ((mant b * 1000000000 ^ fu a : Int) : ℚ) := by exact_mod_cast hD
    generalize mant b * 1000000000 ^ fu a = D at *
    generalize mant a * 1000000000 ^ (F + fu b) = U at *
    symm
    rw [Int.floor_eq_iff]
    constructor
    · rw [le_div_iff₀ hDq]
      exact_mod_cast Int.ediv_mul_le U hD.ne'
    · rw [div_lt_iff₀ hDq]
      exact_mod_cast Int.lt_ediv_add_one_mul_self U hD
  by_cases hN0 : N ≤ 0
  · have hX1 : X < 1 := lt_of_lt_of_le p2 (zpow_le_one_of_nonpos₀ (by norm_num) hN0)
    have hm : mant r = 0 := by
      by_cases ht : topUnit b = 0
      · rw [hshort ht, Int.floor_eq_iff]
        constructor
        · simpa using hX0.le
        · simpa using hX1
      · rw [s4]
        unfold codeQuo
        rw [if_neg ht, hn, Int.toNat_of_nonpos hN0]
        rfl
    left
    refine ⟨val_eq_zero.mpr hm, ?_⟩
    rw [hXv, s2]
    exact div_lt_div_of_pos_right hX1 hs
  · right
    obtain ⟨n, rfl⟩ : ∃ n : Nat, N = ((n + 1 : Nat) : Int) := ⟨(N - 1).toNat, by omega⟩
    rw [show ((n + 1 : Nat) : Int) - 1 = (n : Int) by push_cast; ring, zpow_natCast] at p1
    rw [zpow_natCast] at p2
    rw [Int.toNat_natCast] at hn
    have hm0 := hw.mant_nonneg
    obtain ⟨Q, hQ⟩ := Int.eq_ofNat_of_zero_le hm0
    rw [hr, hXv, hQ, Int.cast_natCast]
    have hpn : (0 : ℚ) < 1000000000 ^ n := by positivity
    -- the leading unit
    suffices hq : ∃ q : Int, (q : ℚ) * 1000000000 ^ n ≤ X ∧ X < ((q : ℚ) + 1) * 1000000000 ^ n ∧ q * 1000000000 ^ n ≤ (Q : Int) ∧
        (Q : Int) < (q + 1) * 1000000000 ^ n by
      obtain ⟨q, q1, q2, q3, q4⟩ := hq
      refine same_lead ?_ ?_ q3 q4 q1 q2
      · have : (0 : ℚ) < q := by
          have h5 : (1 : ℚ) * 1000000000 ^ n < ((q : ℚ) + 1) * 1000000000 ^ n := by linarith
          have := lt_of_mul_lt_mul_right h5 hpn.le
          linarith
        have : 0 < q := by exact_mod_cast this
        omega
      · have h5 : (q : ℚ) * 1000000000 ^ n < 1000000000 * 1000000000 ^ n := by rw [pow_succ] at p2; linarith
        have h6 : (q : ℚ) < 1000000000 := lt_of_mul_lt_mul_right h5 hpn.le
        have : q < 1000000000 := by exact_mod_cast h6
        omega
    by_cases ht : topUnit b = 0
    · have hfl : (Q : Int) = ⌊X⌋ := by rw [← hshort ht, hQ]
      have f1 : ((Q : Int) : ℚ) ≤ X := by rw [hfl]; exact Int.floor_le X
      have f2 : X < ((Q : Int) : ℚ) + 1 := by rw [hfl]; exact Int.lt_floor_add_one X
      have d1 := Int.ediv_mul_le (Q : Int) (show (1000000000 : Int) ^ n ≠ 0 by positivity)
      have d2 := Int.lt_ediv_add_one_mul_self (Q : Int) (show (0 : Int) < 1000000000 ^ n by positivity)
      refine ⟨(Q : Int) / 1000000000 ^ n, ?_, ?_, d1, d2⟩
      · have : ((((Q : Int) / 1000000000 ^ n * 1000000000 ^ n : Int)) : ℚ) ≤ ((Q : Int) : ℚ) := by exact_mod_cast d1
        push_cast at this f1 ⊢
        linarith
      · have : (((Q : Int) + 1 : Int) : ℚ) ≤ ((((Q : Int) / 1000000000 ^ n + 1) * 1000000000 ^ n : Int) : ℚ) := by
          exact_mod_cast d2
        push_cast at this f2 ⊢
        linarith
    · have hwide := s6.mp hw
      unfold QuoUnitWide quoWindows at hwide
      rw [hn] at hwide
      set R := normFac b * mant b with hR
      set V := 1000000000 ^ (quoIU a b + quoFU a b incr) * (normFac b * mant a) with hV
      have hf1 : 1 ≤ normFac b := by
        obtain ⟨-, l2, l3⟩ := lead_bounds hB
        unfold normFac
        rw [Int.le_ediv_iff_mul_le (by omega)]; omega
      have hR0 : 0 < R := by rw [hR]; positivity
      have hV0 : 0 ≤ V := by rw [hV]; positivity
      have hRk : R ≤ 1000000000 ^ (topUnit b + 1) := by
        obtain ⟨-, l2, -⟩ := lead_bounds hB
        have hp : (0 : Int) < 1000000000 ^ topUnit b := by positivity
        have t1 := Int.lt_ediv_add_one_mul_self (mant b) hp
        have t2 : normFac b * (mant b / 1000000000 ^ topUnit b + 1) ≤ 1000000000 := by
          unfold normFac
          exact Int.ediv_mul_le _ (by omega)
        rw [hR, pow_succ]
        nlinarith
      have hall : ∀ W ∈ quoWins R (1000000000 ^ (topUnit b - 1)) (topUnit b) (quoLow a b) (n + 1) V, W / R < 1000000000 := by
        intro W hW
        by_contra hc
        exact hwide ⟨ht, W, hW, not_lt.mp hc⟩
      have hcode : (Q : Int) = quoRun R (1000000000 ^ (topUnit b - 1)) (topUnit b) (quoLow a b) (n + 1) V := by
        have : mant r = codeQuo a b incr := s4
        rw [hQ] at this
        unfold codeQuo at this
        rw [if_neg ht, hn] at this
        exact this
      rw [quoRun_succ] at hcode
      have hnn : 0 ≤ quoNext R (1000000000 ^ (topUnit b - 1)) (topUnit b) (quoLow a b) n V :=
        quoNext_nonneg hR0 hRk hV0
      obtain ⟨i1, i2⟩ := quoRun_digits hR0 hRk n _ hnn (fun W hW => hall W (by rw [quoWins_succ]; exact List.mem_cons_of_mem _ hW))
      obtain ⟨v1, v2, -⟩ := put_rem hR0 hV0 ((n : Int) + quoLow a b)
      have hRq : (0 : ℚ) < R := by exact_mod_cast hR0
      have hc : (0 : ℚ) < 1000000000 ^ quoLow a b := zpow_pos (by norm_num) _
      have hXV : X * (R * 1000000000 ^ quoLow a b) = V := by
        rw [hX, hR, hV, ← hF]
        unfold quoLow
        push_cast
        rw [zpow_sub₀ hU, zpow_sub₀ hU, zpow_add₀ hU, zpow_add₀ hU, zpow_natCast, zpow_natCast, zpow_natCast, zpow_natCast, pow_add]
        field_simp
      rw [zpow_add₀ hU, zpow_natCast, ← hXV] at v1 v2
      refine ⟨fromUnit V ((n : Int) + quoLow a b) / R, ?_, ?_, by rw [hcode]; linarith, by rw [hcode]; linarith⟩
      · have : (0 : ℚ) ≤ (X - ((fromUnit V ((n : Int) + quoLow a b) / R : Int) : ℚ) * 1000000000 ^ n) * (R * 1000000000 ^ quoLow a b) := by
          linarith
        have := nonneg_of_mul_nonneg_left this (by positivity)
        linarith
      · have : (X - ((fromUnit V ((n : Int) + quoLow a b) / R : Int) : ℚ) * 1000000000 ^ n) * (R * 1000000000 ^ quoLow a b) <
            1000000000 ^ n * (R * 1000000000 ^ quoLow a b) := by
          linarith
        have := lt_of_mul_lt_mul_right this (by positivity)
        linarith

theorem sameLead_factor {x y : ℚ} (h : SameLead x y) : 0 < x ∧ y / 2 < x ∧ x < 2 * y := by
  obtain ⟨q, p, q1, -, x1, x2, y1, y2⟩ := h
  have hp : (0 : ℚ) < (10 ^ 9) ^ p := zpow_pos (by norm_num) _
  have hq : (1 : ℚ) ≤ q := by exact_mod_cast q1
  have h1 : ((q : ℚ) + 1) * (10 ^ 9) ^ p ≤ 2 * (q * (10 ^ 9) ^ p) := by nlinarith
  have h2 : 0 < (q : ℚ) * (10 ^ 9) ^ p := by positivity
  exact ⟨by linarith, by linarith, by linarith⟩

/-- **C117** So a valid quotient has the right sign and is wrong by less than a factor of two, unless it is zero. -/
theorem C117_factor {m : Mode} {a b res r : FixedDecimal} (ha : WF a) (hb : WF b) (hres : res.lsu.length = 9) (za : val a ≠ 0)
    {incr : Nat} (hi : incr < 2 ^ 62) (h : FixedDecimal.divTo m a b res incr = .ok r) (hw : WF r) :
    (val r = 0 → |val a / val b| < 1 / 10 ^ fracDigits r) ∧
      (val r ≠ 0 → 0 < val r * (val a / val b) ∧ |val a / val b| / 2 < |val r| ∧ |val r| < 2 * |val a / val b|) := by
  have zb : val b ≠ 0 := fun zb => by rw [C33_div_zero m ha hb hres zb] at h; cases h
  constructor
  · intro h0
    rcases C117_leading ha hb hres za hi h hw with h1 | h1
    · exact h1.2
    · rw [h0, abs_zero] at h1
      exact absurd (sameLead_factor h1).1 (lt_irrefl _)
  · intro h0
    rcases C117_leading ha hb hres za hi h hw with h1 | h1
    · exact absurd h1.1 h0
    · refine ⟨?_, (sameLead_factor h1).2⟩
      obtain ⟨-, -, -, -, s5, -⟩ := divTo_all ha hb hres za zb hi h
      have hr0 : 0 < absVal r := by
        have := abs_val hw
        rw [← this]; exact abs_pos.mpr h0
      have ha0 : 0 < absVal a := by rw [← abs_val ha]; exact abs_pos.mpr za
      have hb0 : 0 < absVal b := by rw [← abs_val hb]; exact abs_pos.mpr zb
      have hq : 0 < absVal r * (absVal a / absVal b) := by positivity
      rw [s5]
      unfold val
      cases hna : neg a <;> cases hnb : neg b <;> simp <;> simpa [neg_div, div_neg] using hq

theorem factor_guarded {m : Mode} (hm : m = .debug) {a b res r : FixedDecimal} (ha : WF a) (hb : WF b) (hres : res.lsu.length = 9)
    {incr : Nat} (h : FixedDecimal.divTo m a b res incr = .ok r) :
    (val r = 0 → |val a / val b| < 1 / 10 ^ fracDigits r) ∧
      (val r ≠ 0 → 0 < val r * (val a / val b) ∧ |val a / val b| / 2 < |val r| ∧ |val r| < 2 * |val a / val b|) := by
  have zb : val b ≠ 0 := fun zb => by rw [C33_div_zero m ha hb hres zb] at h; cases h
  by_cases za : val a = 0
  · rw [C34_zero_div m ha hb hres za zb] at h
    injection h with h
    rw [← h, za, zero_div, abs_zero]
    exact ⟨fun _ => by positivity, fun h => absurd val_zero h⟩
  · have hw := div_wf_guarded hm ha hb hres h
    have hE := divTo_eff m ha hb hres (mt val_eq_zero.mpr za) (mt val_eq_zero.mpr zb) incr
    cases hx : effIncr m a b incr with
    | none => rw [hx] at hE; rw [hE] at h; cases h
    | some j =>
      rw [hx] at hE
      obtain ⟨hj, e⟩ := hE
      rw [e] at h
      exact C117_factor ha hb hres za hj h hw

/-- **C117** In debug builds every quotient, by every divisor and at every requested precision. -/
theorem C117_debug {a b res r : FixedDecimal} (ha : WF a) (hb : WF b) (hres : res.lsu.length = 9) {incr : Nat}
    (h : FixedDecimal.divTo .debug a b res incr = .ok r) :
    (val r = 0 → |val a / val b| < 1 / 10 ^ fracDigits r) ∧
      (val r ≠ 0 → 0 < val r * (val a / val b) ∧ |val a / val b| / 2 < |val r| ∧ |val r| < 2 * |val a / val b|) :=
  factor_guarded rfl ha hb hres h

/-- Two is the right factor: `C116_witness_silent`, put as a ratio. -/
theorem C117_witness (m : Mode) :
    ∃ a b r : FixedDecimal, FixedDecimal.fromStr m (Samples.bytes "1") = .ok a ∧
      FixedDecimal.fromStr m (Samples.bytes "0.500000000000000000999999999") = .ok b ∧
      FixedDecimal.divTo m a b FixedDecimal.zero 4 = .ok r ∧ WF a ∧ WF b ∧ WF r ∧ val a / val b > 1999999 / 1000000 * val r := by
  refine ⟨⟨1#8, 0, [1, 0, 0, 0, 0, 0, 0, 0, 0]⟩, ⟨1#8, 27, [999999999, 0, 500000000, 0, 0, 0, 0, 0, 0]⟩,
    ⟨1#8, 36, [15, 999999996, 999999995, 3, 1, 0, 0, 0, 0]⟩, ?_, ?_, ?_, ?_, ?_, ?_, ?_⟩
  · cases m <;> decide +kernel
  · cases m <;> decide +kernel
  · cases m <;> decide +kernel
  all_goals decide +kernel

end Props
end Fxd
