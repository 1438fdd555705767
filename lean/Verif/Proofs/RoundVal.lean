import Verif.Proofs.RoundTo
import Verif.Spec.Rounding
/-!
# Rounding, in rationals
-/

namespace Fxd
open Spec

theorem floor_half {M Q D : Int} (hD : 0 < D) (h1 : 2 * D * Q ≤ 2 * M + D) (h2 : 2 * M + D < 2 * D * (Q + 1)) :
    ⌊(M : ℚ) / D + 1 / 2⌋ = Q := by
  rw [Int.floor_eq_iff]
  have hDq : (0 : ℚ) < D := by exact_mod_cast hD
  have h1q : (2 : ℚ) * D * Q ≤ 2 * M + D := by exact_mod_cast h1
  have h2q : (2 : ℚ) * M + D < 2 * D * (Q + 1) := by exact_mod_cast h2
  have e : (M : ℚ) / D + 1 / 2 = (2 * M + D) / (2 * D) := by field_simp
  rw [e]
  constructor
  · rw [le_div_iff₀ (by positivity)]; linarith
  · rw [div_lt_iff₀ (by positivity)]; linarith

theorem roundQ_bounds {P V low M c : Int} {t : Nat} (hM : M = P * V + low) (h0 : 0 ≤ low) (h1 : low < P)
    (h : t % 9 ≠ 0 ∨ (t = 0 ∧ (c = 1 ∧ P ≤ 2 * low ∨ c = 0 ∧ 2 * low < P))) :
    2 * (P * 10 ^ t) * roundQ V t c ≤ 2 * M + P * 10 ^ t ∧
      2 * M + P * 10 ^ t < 2 * (P * 10 ^ t) * (roundQ V t c + 1) := by
  rcases h with h | ⟨h, h'⟩
  · unfold roundQ
    rw [if_neg h]
    have hT : (10 : Int) ^ t = 2 * (5 * 10 ^ (t - 1)) := by
      obtain ⟨s, rfl⟩ : ∃ s, t = s + 1 := ⟨t - 1, by omega⟩
      rw [pow_succ]; simp; ring
    have hTpos : (0 : Int) < 10 ^ t := by positivity
    set T := (10 : Int) ^ t
    set hh := (5 : Int) * 10 ^ (t - 1)
    have e4 := Int.mul_ediv_add_emod (V + hh) T
    have e5 := Int.emod_nonneg (V + hh) (show T ≠ 0 by omega)
    have e6 := Int.emod_lt_of_pos (V + hh) hTpos
    set Q := (V + hh) / T
    set s := (V + hh) % T
    have hP : 0 < P := by omega
    have e7 : P * V + P * hh = P * (T * Q) + P * s := by rw [← mul_add, ← mul_add, e4]
    have e8 : 0 ≤ P * s := by positivity
    have e9 : P * s ≤ P * (T - 1) := mul_le_mul_of_nonneg_left (by omega) (by omega)
    rw [hM]
    constructor
    · nlinarith
    · nlinarith
  · subst h
    unfold roundQ
    simp only [Nat.zero_mod, if_true, pow_zero, Int.ediv_one, mul_one]
    rw [hM]
    rcases h' with ⟨rfl, h'⟩ | ⟨rfl, h'⟩ <;> constructor <;> nlinarith

theorem mant_split {d : FixedDecimal} (h : WF d) {s : Nat} (hs : s ≤ 9) :
    mant d = 1000000000 ^ s * (mant d / 1000000000 ^ s) + psum (dg d.lsu) s := by
  have e1 : mant d / 1000000000 ^ s = psum (fun i => dg d.lsu (s + i)) (9 - s) := by
    rw [h.mant_eq9]; exact psum_div_mod h.dig hs
  rw [e1]
  rw [h.mant_eq9, psum_split hs]; ring

theorem absVal_mul_pow {d : FixedDecimal} {k : Nat} (hk : k ≤ 9 * fu d) :
    absVal d * 10 ^ k = (mant d : ℚ) / ((10 ^ (9 * fu d - k) : Int) : ℚ) := by
  unfold absVal
  push_cast
  rw [show 9 * fu d = (9 * fu d - k) + k by omega, pow_add, Nat.add_sub_cancel]
  field_simp

theorem halfAway_val {d : FixedDecimal} (h : WF d) {x : ℚ} (hx : 0 < x) :
    halfAway (val d * x) = if neg d then - ⌊absVal d * x + 1 / 2⌋ else ⌊absVal d * x + 1 / 2⌋ := by
  have h0 := absVal_nonneg h
  have h1 : 0 ≤ absVal d * x := by positivity
  have hp : halfAway (absVal d * x) = ⌊absVal d * x + 1 / 2⌋ := by
    unfold halfAway; rw [if_neg (by linarith)]
  unfold val
  split_ifs
  · rw [neg_mul, halfAway_neg, hp]
  · exact hp

/-- `round`/`round_to` below the current scale: value, scale, tightness; or a panic when a carry needs a
tenth unit. -/
theorem roundPos_spec {σ : Type} (m : Mode) {d : FixedDecimal} (hd : WF d) {k : Nat} (hk : k < fracDigits d) :
    (iu d + unitsFor k ≤ 8 ∨ |(halfAway (val d * 10 ^ k) : ℚ) / 10 ^ k| < 10 ^ (9 * iu d) →
      ∃ r, (roundPos m d k : Out σ _) = .ok r ∧ Tight r ∧ r.frac = k ∧ neg r = neg d ∧
        val r = (halfAway (val d * 10 ^ k) : ℚ) / 10 ^ k ∧
        intgDigits r = 9 * if |val r| < 10 ^ (9 * iu d) then iu d else iu d + 1) ∧
    (¬ (iu d + unitsFor k ≤ 8 ∨ |(halfAway (val d * 10 ^ k) : ℚ) / 10 ^ k| < 10 ^ (9 * iu d)) →
      (roundPos m d k : Out σ _) = .panic .index) := by
  have hkf := unitsFor_le hk
  have hfu : unitsFor (fracDigits d) = fu d := rfl
  rw [hfu] at hkf
  have hfits := hd.fits
  have hF : unitsFor k ≤ fu d := by unfold unitsFor; omega
  have hkF : k ≤ 9 * unitsFor k := by unfold unitsFor; omega
  have htm : (9 * unitsFor k - k) < 9 := by unfold unitsFor; omega
  set F := unitsFor k with hFdef
  set s := fu d - F with hs
  set t := 9 * F - k with ht
  set V := mant d / 1000000000 ^ s with hV
  have hc01 : edgeCarry d k = 0 ∨ edgeCarry d k = 1 := by
    unfold edgeCarry; split_ifs <;> simp
  -- bounds on the quotient
  have hQ : 2 * (1000000000 ^ s * 10 ^ t) * roundQ V t (edgeCarry d k) ≤ 2 * mant d + 1000000000 ^ s * 10 ^ t ∧
      2 * mant d + 1000000000 ^ s * 10 ^ t < 2 * (1000000000 ^ s * 10 ^ t) * (roundQ V t (edgeCarry d k) + 1) := by
    apply roundQ_bounds (mant_split hd (by omega)) (psum_nonneg hd.dig s) (psum_lt hd.dig s)
    by_cases hm : k % 9 = 0
    · right
      have hFk := unitsFor_edge hm
      refine ⟨by omega, ?_⟩
      obtain ⟨s', hs'⟩ : ∃ s', s = s' + 1 := ⟨s - 1, by omega⟩
      have e : edgeCarry d k = if dg d.lsu s' ≥ 500000000 then 1 else 0 := by
        unfold edgeCarry; rw [if_pos hm, ← hFdef, show fu d - F - 1 = s' by omega]
      rw [e, hs', psum_succ, pow_succ]
      have l0 := psum_nonneg hd.dig s'
      have l1 := psum_lt hd.dig s'
      have hB : (0 : Int) < 1000000000 ^ s' := by positivity
      split_ifs with h5
      · left; refine ⟨rfl, ?_⟩; nlinarith
      · right; refine ⟨rfl, ?_⟩; nlinarith
    · left
      have hFk := unitsFor_in hm
      omega
  have hD : (1000000000 : Int) ^ s * 10 ^ t = 10 ^ (9 * fu d - k) := by
    rw [pow9, ← pow_add, show 9 * s + t = 9 * fu d - k by omega]
  rw [hD] at hQ
  have hfl := floor_half (by positivity) hQ.1 hQ.2
  rw [← absVal_mul_pow (by omega)] at hfl
  set Q := roundQ V t (edgeCarry d k) with hQdef
  have hQ0 : 0 ≤ Q := by
    rw [← hfl]; apply Int.floor_nonneg.mpr
    have := absVal_nonneg hd
    positivity
  have hhalf : halfAway (val d * 10 ^ k) = if neg d then - Q else Q := by
    rw [halfAway_val hd (by positivity), hfl]
  have hWq : (10 : Int) ^ t * Q < 1000000000 ^ (iu d + F) ↔
      |(halfAway (val d * 10 ^ k) : ℚ) / 10 ^ k| < 10 ^ (9 * iu d) := by
    have e1 : |(halfAway (val d * 10 ^ k) : ℚ) / 10 ^ k| = (Q : ℚ) / 10 ^ k := by
      have hq : (0 : ℚ) ≤ Q := by exact_mod_cast hQ0
      rw [hhalf, abs_div, abs_of_pos (show (0 : ℚ) < 10 ^ k by positivity)]
      split_ifs
      · push_cast; rw [abs_neg, abs_of_nonneg hq]
      · rw [abs_of_nonneg hq]
    rw [e1, div_lt_iff₀ (by positivity), ← pow_add, pow9]
    have e2 : 9 * (iu d + F) = t + (9 * iu d + k) := by omega
    rw [e2, pow_add, mul_lt_mul_iff_right₀ (by positivity)]
    constructor
    · intro h; exact_mod_cast h
    · intro h; exact_mod_cast h
  have hs9 : s ≤ 9 := by omega
  have htk : 9 * F = t + k := by omega
  have key := roundHalfUp_spec (σ := σ) m (fd := { d with lsu := shiftDown d.lsu s }) (I := iu d) (F := F) (t := t)
    (rf := (k : Int)) (c := edgeCarry d k)
    (by show (shiftDown d.lsu s).length = 9; rw [len_shiftDown (by rw [hd.len]; omega), hd.len])
    (hd.digL.shiftDown s) (by omega)
    (fun p hp => by show dg (shiftDown d.lsu s) p = 0; rw [dg_shiftDown]; exact hd.highDg (by omega))
    (by omega) (fun h => by omega) hc01
    (fun h => by unfold edgeCarry; rw [if_neg]; intro hm; have := unitsFor_edge hm; omega)
  dsimp only at key
  rw [psum_shiftDown hd hs9, ← hV, ← hQdef] at key
  constructor
  · intro hfit
    have hfit' : iu d + F ≤ 8 ∨ 10 ^ t * Q < 1000000000 ^ 9 := by
      rcases hfit with h | h
      · exact Or.inl h
      · right
        exact lt_of_lt_of_le (hWq.mpr h) (pow_le_pow_right₀ (by norm_num) (by omega))
    obtain ⟨l', I', k1, k2, k3, k4, k5, k6, k7⟩ := key.1 hfit'
    obtain ⟨b1, b2, b3, b4, b5, b6, b7, b8⟩ := roundOut_spec (sg := neg d) (f := k) k3 k4 hFdef.symm k2 k5
    have hv : val (roundOut (neg d) I' k l') = (halfAway (val d * 10 ^ k) : ℚ) / 10 ^ k := by
      have e : absVal (roundOut (neg d) I' k l') = (Q : ℚ) / 10 ^ k := by
        unfold absVal
        rw [b4, k6, b3, htk, pow_add]
        push_cast
        field_simp
      rw [hhalf]
      unfold val
      rw [b5, e]
      split_ifs
      · push_cast; ring
      · rfl
    refine ⟨roundOut (neg d) I' k l', k1, ?_, b7, b5, hv, by rw [b8, hv, k7]; simp only [hWq]⟩
    · refine ⟨b1, ?_, ?_⟩
      · rw [b8, b3]
        have := b1.mant_lt
        rwa [b2, b3, pow9, show 9 * (I' + F) = 9 * I' + 9 * F by ring] at this
      · rw [b3, b6, b4, k6, ← ht]; exact dvd_mul_right _ _
  · intro hnf
    push Not at hnf
    have h9 : iu d + F = 9 := by omega
    apply key.2 h9
    by_contra hcon
    exact absurd (hWq.mp (by rw [h9]; omega)) (not_lt.mpr hnf.2)

/-- `round`/`round_to` of the integral part, when the position is inside a unit: value, scale. -/
theorem roundNeg_spec {σ : Type} (m : Mode) {d : FixedDecimal} (hd : WF d) {j : Nat} (hj : 0 < j)
    (hi : j < intgDigits d) (h9 : j % 9 ≠ 0) :
    (iu d ≤ 8 ∨ |(halfAway (val d / 10 ^ j) : ℚ) * 10 ^ j| < 10 ^ (9 * iu d) →
      ∃ r, (roundNeg m d j : Out σ _) = .ok r ∧ Tight r ∧ r.frac = 0 ∧ neg r = neg d ∧
        val r = (halfAway (val d / 10 ^ j) : ℚ) * 10 ^ j ∧
        intgDigits r = 9 * if |val r| < 10 ^ (9 * iu d) then iu d else iu d + 1) ∧
    (¬ (iu d ≤ 8 ∨ |(halfAway (val d / 10 ^ j) : ℚ) * 10 ^ j| < 10 ^ (9 * iu d)) →
      (roundNeg m d j : Out σ _) = .panic .index) := by
  have hfits := hd.fits
  have hjI : j < 9 * iu d := lt_of_lt_of_le hi (intgDigits_le_iu d)
  set V := mant d / 1000000000 ^ fu d with hV
  have hQ := roundQ_bounds (c := 0) (mant_split hd (s := fu d) (by omega)) (psum_nonneg hd.dig (fu d))
    (psum_lt hd.dig (fu d)) (Or.inl h9)
  rw [← hV] at hQ
  have hfl := floor_half (by positivity) hQ.1 hQ.2
  have hdiv : (mant d : ℚ) / ((1000000000 ^ fu d * 10 ^ j : Int) : ℚ) = absVal d * (1 / 10 ^ j) := by
    unfold absVal
    push_cast
    rw [pow9q]
    field_simp
  rw [hdiv] at hfl
  set Q := roundQ V j 0 with hQdef
  have hQ0 : 0 ≤ Q := by
    rw [← hfl]; apply Int.floor_nonneg.mpr
    have := absVal_nonneg hd
    positivity
  have hhalf : halfAway (val d / 10 ^ j) = if neg d then - Q else Q := by
    rw [div_eq_mul_one_div, halfAway_val hd (by positivity), hfl]
  have hWq : (10 : Int) ^ j * Q < 1000000000 ^ (iu d + 0) ↔
      |(halfAway (val d / 10 ^ j) : ℚ) * 10 ^ j| < 10 ^ (9 * iu d) := by
    have e1 : |(halfAway (val d / 10 ^ j) : ℚ) * 10 ^ j| = 10 ^ j * (Q : ℚ) := by
      have hq : (0 : ℚ) ≤ Q := by exact_mod_cast hQ0
      rw [hhalf, abs_mul, abs_of_pos (show (0 : ℚ) < 10 ^ j by positivity)]
      split_ifs
      · push_cast; rw [abs_neg, abs_of_nonneg hq]; ring
      · rw [abs_of_nonneg hq]; ring
    rw [e1, Nat.add_zero, ← pow9q]
    constructor
    · intro h; exact_mod_cast h
    · intro h; exact_mod_cast h
  have key := roundHalfUp_spec (σ := σ) m (fd := { d with lsu := shiftDown d.lsu (fu d) }) (I := iu d) (F := 0) (t := j)
    (rf := ((0 : Nat) : Int)) (c := 0)
    (by show (shiftDown d.lsu (fu d)).length = 9; rw [len_shiftDown (by rw [hd.len]; omega), hd.len])
    (hd.digL.shiftDown _) (by omega)
    (fun p hp => by show dg (shiftDown d.lsu (fu d)) p = 0; rw [dg_shiftDown]; exact hd.highDg (by omega))
    (by omega) (fun h => by omega) (Or.inl rfl) (fun _ => rfl)
  dsimp only at key
  rw [psum_shiftDown hd (by omega), ← hV, ← hQdef] at key
  unfold roundNeg
  rw [if_neg (by omega)]
  constructor
  · intro hfit
    have hfit' : iu d + 0 ≤ 8 ∨ 10 ^ j * Q < 1000000000 ^ 9 := by
      rcases hfit with h | h
      · exact Or.inl h
      · right
        exact lt_of_lt_of_le (hWq.mpr h) (pow_le_pow_right₀ (by norm_num) (by omega))
    obtain ⟨l', I', k1, k2, k3, k4, k5, k6, k7⟩ := key.1 hfit'
    obtain ⟨b1, b2, b3, b4, b5, b6, b7, b8⟩ := roundOut_spec (sg := neg d) (f := 0) (F := 0) k3 k4 (by decide) k2 k5
    have hv : val (roundOut (neg d) I' (0 : Nat) l') = (halfAway (val d / 10 ^ j) : ℚ) * 10 ^ j := by
      have e : absVal (roundOut (neg d) I' (0 : Nat) l') = (Q : ℚ) * 10 ^ j := by
        unfold absVal
        rw [b4, k6, b3]
        push_cast
        simp; ring
      rw [hhalf]
      unfold val
      rw [b5, e]
      split_ifs
      · push_cast; ring
      · rfl
    refine ⟨roundOut (neg d) I' (0 : Nat) l', k1, ?_, b7, b5, hv, by rw [b8, hv, k7]; simp only [hWq]⟩
    · refine ⟨b1, ?_, ?_⟩
      · rw [b8, b3]
        have := b1.mant_lt
        rwa [b2, b3, pow9, show 9 * (I' + 0) = 9 * I' + 9 * 0 by ring] at this
      · rw [b3, b6]; simp
  · intro hnf
    push Not at hnf
    have h9 : iu d + 0 = 9 := by omega
    apply key.2 h9
    by_contra hcon
    exact absurd (hWq.mp (by rw [h9]; omega)) (not_lt.mpr hnf.2)

/-- The faulty case: a position at a unit edge truncates. -/
theorem roundNeg_edge {σ : Type} (m : Mode) {d : FixedDecimal} (hd : WF d) {j : Nat} (hj : 0 < j)
    (hi : j < intgDigits d) (h9 : j % 9 = 0) :
    ∃ r, (roundNeg m d j : Out σ _) = .ok r ∧ Tight r ∧ r.frac = 0 ∧ neg r = neg d ∧
        val r = (truncZ (val d / 10 ^ j) : ℚ) * 10 ^ j ∧ intgDigits r = 9 * iu d := by
  have hfits := hd.fits
  have hjI : j < 9 * iu d := lt_of_lt_of_le hi (intgDigits_le_iu d)
  set V := mant d / 1000000000 ^ fu d with hV
  have key := roundHalfUp_spec (σ := σ) m (fd := { d with lsu := shiftDown d.lsu (fu d) }) (I := iu d) (F := 0) (t := j)
    (rf := ((0 : Nat) : Int)) (c := 0)
    (by show (shiftDown d.lsu (fu d)).length = 9; rw [len_shiftDown (by rw [hd.len]; omega), hd.len])
    (hd.digL.shiftDown _) (by omega)
    (fun p hp => by show dg (shiftDown d.lsu (fu d)) p = 0; rw [dg_shiftDown]; exact hd.highDg (by omega))
    (by omega) (fun h => by omega) (Or.inl rfl) (fun _ => rfl)
  dsimp only at key
  rw [psum_shiftDown hd (by omega), ← hV] at key
  have hQ : roundQ V j 0 = mant d / (1000000000 ^ fu d * 10 ^ j) := by
    unfold roundQ; rw [if_pos h9, hV, add_zero, Int.ediv_ediv_of_nonneg (by positivity)]
  have hM0 := hd.mant_nonneg
  have hV0 : 0 ≤ V := Int.ediv_nonneg hM0 (by positivity)
  have hfit : 10 ^ j * roundQ V j 0 < 1000000000 ^ 9 := by
    have h1 : 10 ^ j * roundQ V j 0 ≤ V := by
      unfold roundQ; rw [if_pos h9, add_zero]; exact Int.mul_ediv_self_le (by positivity)
    have h2 : V ≤ mant d := Int.ediv_le_self _ hM0
    have h3 := hd.mant_lt
    have h4 : (1000000000 : Int) ^ (iu d + fu d) ≤ 1000000000 ^ 9 := pow_le_pow_right₀ (by norm_num) hfits
    omega
  obtain ⟨l', I', k1, k2, k3, k4, k5, k6, k7⟩ := key.1 (Or.inr hfit)
  obtain ⟨b1, b2, b3, b4, b5, b6, b7, b8⟩ := roundOut_spec (sg := neg d) (f := 0) (F := 0) k3 k4 (by decide) k2 k5
  unfold roundNeg
  rw [if_neg (by omega)]
  have hI : I' = iu d := by
    rw [k7, if_pos, ]
    have h1 : 10 ^ j * roundQ V j 0 ≤ V := by
      unfold roundQ; rw [if_pos h9, add_zero]; exact Int.mul_ediv_self_le (by positivity)
    have h2 : V < 1000000000 ^ iu d := by
      rw [hV]
      apply Int.ediv_lt_of_lt_mul (by positivity)
      rw [← pow_add]; exact hd.mant_lt
    rw [Nat.add_zero]; omega
  refine ⟨roundOut (neg d) I' (0 : Nat) l', k1, ?_, b7, b5, ?_, by rw [b8, hI]⟩
  · refine ⟨b1, ?_, ?_⟩
    · rw [b8, b3]
      have := b1.mant_lt
      rwa [b2, b3, pow9, show 9 * (I' + 0) = 9 * I' + 9 * 0 by ring] at this
    · rw [b3, b6]; simp
  · set Q := roundQ V j 0 with hQdef
    have hdiv : (mant d : ℚ) / ((1000000000 ^ fu d * 10 ^ j : Int) : ℚ) = absVal d / 10 ^ j := by
      unfold absVal
      push_cast
      rw [pow9q]
      field_simp
    have hfl : ⌊absVal d / 10 ^ j⌋ = Q := by
      rw [hQ, ← hdiv]
      have := Rat.floor_intCast_div_natCast (mant d) (1000000000 ^ fu d * 10 ^ j)
      push_cast at this ⊢
      exact this
    have hp := absVal_nonneg hd
    have e : absVal (roundOut (neg d) I' (0 : Nat) l') = (Q : ℚ) * 10 ^ j := by
      unfold absVal
      rw [b4, k6, b3]
      push_cast
      simp; ring
    have htr : truncZ (val d / 10 ^ j) = if neg d then - Q else Q := by
      have hp' : 0 ≤ absVal d / 10 ^ j := by positivity
      unfold truncZ val
      by_cases h1 : neg d = true
      · simp only [h1, if_true]
        by_cases h2 : -absVal d / 10 ^ j < 0
        · rw [if_pos h2, neg_div, neg_neg, hfl]
        · rw [if_neg h2]
          rw [neg_div] at h2 ⊢
          have h0 : absVal d / 10 ^ j = 0 := by linarith
          rw [← hfl, h0]; norm_num
      · simp only [h1, Bool.false_eq_true, if_false]
        rw [if_neg (by linarith), hfl]
    rw [htr]
    unfold val
    rw [b5, e]
    split_ifs
    · push_cast; ring
    · rfl

end Fxd
