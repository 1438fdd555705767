import Verif.Props.DebugRuns
import Verif.Props.Quotients
/-!
# Property C116: a debug build returns no wrong quotient

A guessed quotient unit that is one too large is corrected wrongly (C36).  But what the wrong correction leaves starts with the unit
999999999, so the next first guess is not a single unit, and the assertion of a debug build fails: in a debug build a quotient comes
out right or not at all, as long as no part of the remainder is dropped.
-/

namespace Fxd
open Spec

namespace Props

/-- How far below the divisor the remainder of a window with too large a guess is at most. -/
theorem miss_distance {R P W B : Int} (hP : 0 < P) (hR : P ≤ R) (hB : 0 ≤ B) (hW : W < R * B) (h : TooBig R P W) :
    0 < R - W % R ∧ R - W % R ≤ B * P := by
  have hR0 : 0 < R := by omega
  have h1 := Int.emod_lt_of_pos W hR0
  refine ⟨by omega, ?_⟩
  unfold TooBig at h
  have r0 : 0 < R / P := by
    have : 1 ≤ R / P := by rw [Int.le_ediv_iff_mul_le hP]; linarith
    omega
  have hq : W / R + 1 ≤ W / P / (R / P) := h
  rw [Int.le_ediv_iff_mul_le r0, Int.le_ediv_iff_mul_le hP] at hq
  have hWR : W / R < B := Int.ediv_lt_of_lt_mul hR0 (by linarith)
  have e1 := Int.emod_add_mul_ediv W R
  have e2 := Int.emod_add_mul_ediv R P
  have l1 := Int.emod_lt_of_pos R hP
  have l2 := Int.emod_nonneg R hP.ne'
  generalize W / R = q at *
  generalize R / P = s at *
  generalize R % P = t at *
  generalize W % R = w at *
  have : R - w = (q + 1) * R - W := by linarith
  rw [this]
  have : (q + 1) * R - W ≤ (q + 1) * t := by nlinarith
  by_cases hq0 : 0 ≤ q + 1
  · nlinarith
  · nlinarith

theorem negUnits_ge (V : Int) (n L : Nat) : 1000000000 ^ (n + L) * (V / 1000000000 ^ (n + L)) ≤ negUnits V n L := by
  unfold negUnits
  have hn : (0 : Int) < 1000000000 ^ n := by positivity
  have hL : (0 : Int) < 1000000000 ^ L := by positivity
  have e1 := Int.emod_add_mul_ediv V (1000000000 ^ n)
  have e2 := Int.emod_add_mul_ediv (V / 1000000000 ^ n) (1000000000 ^ L)
  have l1 := Int.emod_nonneg V hn.ne'
  have l2 := Int.emod_nonneg (-(V / 1000000000 ^ n % 1000000000 ^ L)) hL.ne'
  rw [pow_add, ← Int.ediv_ediv_of_nonneg hn.le]
  generalize (-(V / 1000000000 ^ n % 1000000000 ^ L)) % 1000000000 ^ L = y at *
  generalize V / 1000000000 ^ n % 1000000000 ^ L = x at *
  generalize V / 1000000000 ^ n / 1000000000 ^ L = z at *
  generalize V / 1000000000 ^ n = v at *
  generalize (1000000000 : Int) ^ n = N at *
  generalize (1000000000 : Int) ^ L = M at *
  have := mul_nonneg hn.le l2
  nlinarith

/-- After too large a guess the next first guess is not a single unit. -/
theorem miss_then_wide {R : Int} {k c n : Nat} (hk : k ≠ 0) (h1 : 1000000000 ^ k ≤ R) (h2 : R < 1000000000 ^ (k + 1)) {V : Int}
    (hV : 0 ≤ V) (hlt : V < R * 1000000000 ^ (n + 2 + c))
    (h : TooBig R (1000000000 ^ (k - 1)) (fromUnit V ((n + 1 : Nat) + (c : Int)))) :
    FirstGuessWide R (1000000000 ^ (k - 1)) (fromUnit (quoNext R (1000000000 ^ (k - 1)) k c (n + 1) V) ((n : Int) + c)) := by
  obtain ⟨k, rfl⟩ := Nat.exists_eq_succ_of_ne_zero hk
  simp only [Nat.succ_eq_add_one, Nat.add_sub_cancel] at *
  unfold quoNext
  rw [if_pos h]
  have hf : fromUnit V ((n + 1 : Nat) + (c : Int)) = V / 1000000000 ^ (n + 1 + c) := by
    unfold fromUnit
    rw [if_pos (by omega)]
    congr 2
  rw [hf] at h ⊢
  have hP : (0 : Int) < 1000000000 ^ k := by positivity
  have hPR : (1000000000 : Int) ^ k ≤ R := le_trans (pow_le_pow_right₀ (by norm_num) (by omega)) h1
  have hW : V / 1000000000 ^ (n + 1 + c) < R * 1000000000 := by
    apply Int.ediv_lt_of_lt_mul (by positivity)
    rw [show n + 2 + c = n + 1 + c + 1 by omega, pow_succ] at hlt
    linarith
  obtain ⟨d1, d2⟩ := miss_distance hP hPR (by norm_num) hW h
  rw [mul_comm, ← pow_succ] at d2
  generalize R - V / 1000000000 ^ (n + 1 + c) % R = s at *
  have hmin : min (k + 1) (((k + 1 : Nat) : Int) + 1 + c).toNat = k + 1 := by omega
  rw [hmin]
  set D := putUnit V ((n + 1 : Nat) + (c : Int)) (1000000000 ^ (k + 1 + 1) - s) with hD
  have hDe : 1000000000 ^ (n + 1 + (k + 1)) * (1000000000 ^ c * 999999999) ≤ D := by
    rw [hD]
    unfold putUnit
    rw [if_pos (by omega), show (((n + 1 : Nat) : Int) + (c : Int)).toNat = n + 1 + c by omega]
    have l1 := Int.emod_nonneg V (show (1000000000 : Int) ^ (n + 1 + c) ≠ 0 by positivity)
    have hs : (999999999 : Int) * 1000000000 ^ (k + 1) ≤ 1000000000 ^ (k + 1 + 1) - s := by
      rw [pow_succ _ (k + 1)]; linarith
    have := mul_le_mul_of_nonneg_left hs (show (0 : Int) ≤ 1000000000 ^ (n + 1 + c) by positivity)
    have e : (1000000000 : Int) ^ (n + 1 + (k + 1)) * (1000000000 ^ c * 999999999) =
      1000000000 ^ (n + 1 + c) * (999999999 * 1000000000 ^ (k + 1)) := by ring
    rw [e]
    linarith
  have hN := negUnits_ge D (n + 1) (k + 1)
  have hq : 1000000000 ^ c * 999999999 ≤ D / 1000000000 ^ (n + 1 + (k + 1)) := by
    rw [Int.le_ediv_iff_mul_le (by positivity)]; linarith
  have hN' : 1000000000 ^ (n + c) * (1000000000 * 999999999 * 1000000000 ^ (k + 1)) ≤ negUnits D (n + 1) (k + 1) := by
    refine le_trans (le_of_eq ?_) (le_trans (mul_le_mul_of_nonneg_left hq (show (0 : Int) ≤ 1000000000 ^ (n + 1 + (k + 1)) by positivity)) hN)
    ring
  generalize negUnits D (n + 1) (k + 1) = N at *
  unfold FirstGuessWide fromUnit
  rw [if_pos (by omega), show ((n : Int) + (c : Int)).toNat = n + c by omega, ← pow_succ]
  have hR1 : 1 ≤ R / 1000000000 ^ (k + 1) := by
    rw [Int.le_ediv_iff_mul_le (by positivity)]; linarith
  have hR2 : R / 1000000000 ^ (k + 1) ≤ 999999999 := by
    have : R / 1000000000 ^ (k + 1) < 1000000000 := by
      apply Int.ediv_lt_of_lt_mul (by positivity)
      rw [pow_succ] at h2; linarith
    omega
  rw [Int.le_ediv_iff_mul_le (by omega), Int.le_ediv_iff_mul_le (by positivity), Int.le_ediv_iff_mul_le (by positivity)]
  have hp1 : (0 : Int) ≤ 1000000000 ^ (k + 1) * 1000000000 ^ (n + c) := by positivity
  calc 1000000000 * (R / 1000000000 ^ (k + 1)) * 1000000000 ^ (k + 1) * 1000000000 ^ (n + c)
      = (1000000000 * (R / 1000000000 ^ (k + 1))) * (1000000000 ^ (k + 1) * 1000000000 ^ (n + c)) := by ring
    _ ≤ (1000000000 * 999999999) * (1000000000 ^ (k + 1) * 1000000000 ^ (n + c)) :=
        mul_le_mul_of_nonneg_right (by linarith) hp1
    _ ≤ N := by rw [show (1000000000 : Int) * 999999999 * (1000000000 ^ (k + 1) * 1000000000 ^ (n + c)) =
        1000000000 ^ (n + c) * (1000000000 * 999999999 * 1000000000 ^ (k + 1)) by ring]; exact hN'

/-- A run with too large a guess before the last step has a first guess that is not a single unit. -/
theorem missed_run_wide {R : Int} {k c : Nat} (hk : k ≠ 0) (h1 : 1000000000 ^ k ≤ R) (h2 : R < 1000000000 ^ (k + 1)) :
    ∀ (n : Nat) (V : Int), 0 ≤ V → V < R * 1000000000 ^ (n + c) →
    (∃ W ∈ (quoWins R (1000000000 ^ (k - 1)) k c n V).dropLast, TooBig R (1000000000 ^ (k - 1)) W) →
    ∃ W ∈ quoWins R (1000000000 ^ (k - 1)) k c n V, FirstGuessWide R (1000000000 ^ (k - 1)) W
  | 0, V, _, _, h => by simp [quoWins] at h
  | 1, V, _, _, h => by simp [quoWins] at h
  | n + 2, V, hV, hlt, h => by
    have hR0 : 0 < R := lt_of_lt_of_le (by positivity) h1
    rw [quoWins_succ] at h ⊢
    by_cases hb : TooBig R (1000000000 ^ (k - 1)) (fromUnit V ((n + 1 : Nat) + (c : Int)))
    · refine ⟨_, ?_, miss_then_wide hk h1 h2 hV hlt hb⟩
      rw [quoWins_succ]
      simp
    · have hnext : quoNext R (1000000000 ^ (k - 1)) k c (n + 1) V =
          V % 1000000000 ^ (n + 1 + c) + 1000000000 ^ (n + 1 + c) * (V / 1000000000 ^ (n + 1 + c) % R) := by
        unfold quoNext
        rw [if_neg hb]
        unfold putUnit fromUnit
        rw [if_pos (by omega), if_pos (by omega), show (((n + 1 : Nat) : Int) + (c : Int)).toNat = n + 1 + c by omega]
      have hp : (0 : Int) < 1000000000 ^ (n + 1 + c) := by positivity
      have b1 := Int.emod_nonneg V hp.ne'
      have b2 := Int.emod_lt_of_pos V hp
      have b3 := Int.emod_nonneg (V / 1000000000 ^ (n + 1 + c)) hR0.ne'
      have b4 := Int.emod_lt_of_pos (V / 1000000000 ^ (n + 1 + c)) hR0
      obtain ⟨W, hW, hw⟩ : ∃ W ∈ (quoWins R (1000000000 ^ (k - 1)) k c (n + 1) (quoNext R (1000000000 ^ (k - 1)) k c (n + 1) V)).dropLast,
          TooBig R (1000000000 ^ (k - 1)) W := by
        obtain ⟨W, hW, hw⟩ := h
        rw [quoWins_succ, List.dropLast_cons_of_ne_nil (by simp), ← quoWins_succ] at hW
        rcases List.mem_cons.mp hW with rfl | hW
        · exact absurd hw hb
        · exact ⟨W, hW, hw⟩
      obtain ⟨W', hW', hw'⟩ := missed_run_wide hk h1 h2 (n + 1) (quoNext R (1000000000 ^ (k - 1)) k c (n + 1) V)
        (by rw [hnext]; positivity) (by rw [hnext]; nlinarith) ⟨W, hW, hw⟩
      exact ⟨W', List.mem_cons_of_mem _ hW', hw'⟩

/-- A debug build that returns a quotient has met no guess that was too large before the last step, unless it dropped part of the
remainder. -/
theorem miss_is_wide {a b : FixedDecimal} (ha : WF a) (hb : WF b) (za : val a ≠ 0) (zb : val b ≠ 0) {incr : Nat}
    (hc : fu b ≤ quoIU a b + fu a) (h : QuoGuessTooBig a b incr) : QuoGuessWide a b incr := by
  rw [Ne, val_eq_zero] at za zb
  obtain ⟨nl, h1, tl, _⟩ := findNonZero_of_ne ha za
  obtain ⟨nr, h2, tr, _⟩ := findNonZero_of_ne hb zb
  have hu := quoIU_eq ha hb tl tr
  have hst := quoSteps_eq ha hb tl tr incr
  obtain ⟨f0, f1, f2, f3⟩ := norm_div hb tr (normFac_top hb tr)
  change 0 < tailF b nr at f0
  change 500000000 * 1000000000 ^ nr ≤ tailF b nr * mant b at f3
  rw [tailF_eq hb tr] at f0 f3
  have hA := ha.mant_nonneg
  obtain ⟨hk, h⟩ := h
  have hF := tailF_eq hb tr
  unfold tailF at hF
  rw [hF] at f2
  have htop := topUnit_eq hb tr
  have g1 : 1000000000 ^ topUnit b ≤ normFac b * mant b := by
    rw [htop]
    have : (0 : Int) < 1000000000 ^ nr := by positivity
    linarith
  have g2 : normFac b * mant b < 1000000000 ^ (topUnit b + 1) := by rw [htop]; exact f2
  refine ⟨hk, ?_⟩
  unfold quoWindows at h ⊢
  by_cases hneg : 0 ≤ (quoFU a b incr : Int) + divPos a b nl nr + 1
  · have hlow : quoLow a b = ((quoIU a b + fu a - fu b : Nat) : Int) := by unfold quoLow; omega
    have hlead := tail_lead ha hb tl tr f0 (rf := quoFU a b incr) (n := quoSteps a b incr) (c := quoLow a b)
      (by rw [hst]; unfold tailN; omega) (by unfold quoLow; rw [hu])
    rw [hlow] at hlead h ⊢
    have hlead' : 1000000000 ^ (quoIU a b + quoFU a b incr) * (normFac b * mant a) <
        normFac b * mant b * 1000000000 ^ (quoSteps a b incr + (quoIU a b + fu a - fu b)) := by
      rw [← Nat.cast_add, zpow_natCast] at hlead
      rw [hu]
      rw [hu] at hlead
      exact_mod_cast hlead
    exact missed_run_wide hk g1 g2 _ _ (by positivity) hlead' h
  · have h0 : quoSteps a b incr = 0 := by rw [hst]; unfold tailN; omega
    rw [h0] at h
    simp [quoWins] at h

theorem truncZ_within (q : ℚ) : |(truncZ q : ℚ)| ≤ |q| ∧ |q| < |(truncZ q : ℚ)| + 1 := by
  have key : ∀ q : ℚ, 0 ≤ q → |(truncZ q : ℚ)| ≤ |q| ∧ |q| < |(truncZ q : ℚ)| + 1 := by
    intro q h
    have h1 : truncZ q = ⌊q⌋ := by unfold truncZ; rw [if_neg (not_lt.mpr h)]
    have h2 : (0 : ℚ) ≤ ⌊q⌋ := by exact_mod_cast Int.floor_nonneg.mpr h
    rw [h1, abs_of_nonneg h2, abs_of_nonneg h]
    exact ⟨Int.floor_le q, Int.lt_floor_add_one q⟩
  rcases le_total 0 q with h | h
  · exact key q h
  · have := key (-q) (by linarith)
    rwa [truncZ_neg, Int.cast_neg, abs_neg, abs_neg] at this

theorem trunc_within (x y : ℚ) (s : Nat) : |truncQuot x y s| ≤ |x / y| ∧ |x / y| < |truncQuot x y s| + 1 / 10 ^ s := by
  have hp : (0 : ℚ) < 10 ^ s := by positivity
  obtain ⟨h1, h2⟩ := truncZ_within (x / y * 10 ^ s)
  rw [abs_mul, abs_of_pos hp] at h1 h2
  unfold truncQuot
  rw [abs_div, abs_of_pos hp, ← add_div]
  exact ⟨(div_le_iff₀ hp).mpr h1, (lt_div_iff₀ hp).mpr h2⟩

theorem right_guarded {m : Mode} (hm : m = .debug) {a b res r : FixedDecimal} (ha : WF a) (hb : WF b) (hres : res.lsu.length = 9)
    {incr : Nat} (hc : fu b ≤ quoIU a b + fu a) (h : FixedDecimal.divTo m a b res incr = .ok r) :
    WF r ∧ val r = truncQuot (val a) (val b) (fracDigits r) := by
  have zb : val b ≠ 0 := fun zb => by rw [C33_div_zero m ha hb hres zb] at h; cases h
  by_cases za : val a = 0
  · rw [C34_zero_div m ha hb hres za zb] at h
    injection h with h
    rw [← h]
    refine ⟨zero_tight.toWF, ?_⟩
    rw [za, truncQuot_zero, val_zero]
  · have hE := divTo_eff m ha hb hres (mt val_eq_zero.mpr za) (mt val_eq_zero.mpr zb) incr
    cases hx : effIncr m a b incr with
    | none => rw [hx] at hE; rw [hE] at h; cases h
    | some j =>
      rw [hx] at hE
      obtain ⟨hj, e⟩ := hE
      rw [e] at h
      have hw : ¬ QuoGuessWide a b j := by
        subst hm
        exact ((C58_debug_ok_iff ha hb hres za zb hj).mp ⟨r, h⟩).2.2.2
      obtain ⟨w, -, -, t⟩ := C36_exact_partial m ha hb hres za zb hj (fun hg => hw (miss_is_wide ha hb za zb hc hg)) h
      exact ⟨w, t hc⟩

/-- **C116** A debug build returns no wrong quotient, whatever the precision asked for, as long as the divisor has no more fractional
units than the dividend and the integral part of the quotient have units together. -/
theorem C116_debug_right {a b res r : FixedDecimal} (ha : WF a) (hb : WF b) (hres : res.lsu.length = 9) {incr : Nat}
    (hc : fu b ≤ quoIU a b + fu a) (h : FixedDecimal.divTo .debug a b res incr = .ok r) :
    WF r ∧ val r = truncQuot (val a) (val b) (fracDigits r) := right_guarded rfl ha hb hres hc h

/-- **C116** In particular for divisors with at most as many fractional digits as the dividend. -/
theorem C116_same_scale {a b res r : FixedDecimal} (ha : WF a) (hb : WF b) (hres : res.lsu.length = 9) {incr : Nat}
    (hf : fracDigits b ≤ fracDigits a) (h : FixedDecimal.divTo .debug a b res incr = .ok r) :
    val r = truncQuot (val a) (val b) (fracDigits r) ∧ |val r| ≤ |val a / val b| ∧
      |val a / val b| < |val r| + 1 / 10 ^ fracDigits r := by
  have hfu : fu b ≤ fu a := by unfold fu unitsFor; omega
  have := (C116_debug_right ha hb hres (by omega) h).2
  refine ⟨this, ?_⟩
  rw [this]
  exact trunc_within _ _ _

/-- **C116** So the condition of C96, C97 and C98 is met by every quotient a debug build returns under the same restriction on scales. -/
theorem C116_truncates {a b res r : FixedDecimal} (ha : WF a) (hb : WF b) (hres : res.lsu.length = 9) (za : val a ≠ 0) {incr : Nat}
    (hi : incr < 2 ^ 62) (hc : fu b ≤ quoIU a b + fu a) (h : FixedDecimal.divTo .debug a b res incr = .ok r) : Truncates a b incr := by
  have zb : val b ≠ 0 := fun zb => by rw [C33_div_zero .debug ha hb hres zb] at h; cases h
  have hw := ((C58_debug_ok_iff ha hb hres za zb hi).mp ⟨r, h⟩).2.2.2
  exact Or.inr ⟨fun hg => hw (miss_is_wide ha hb za zb hc hg), hc⟩

/-- **C116** For example: in a debug build, rounding a quotient by a divisor of any length rounds the exact quotient. -/
theorem C116_round {a b res res' q r : FixedDecimal} (ha : WF a) (hb : WF b) (hres : res.lsu.length = 9) (hres' : res'.lsu.length = 9)
    (za : val a ≠ 0) {incr : Nat} (hi : incr < 2 ^ 62) (hf : fracDigits b ≤ fracDigits a)
    (h : FixedDecimal.divTo .debug a b res incr = .ok q) {k : Nat} (hk : k < fracDigits q)
    (hr : (q.roundTo .debug res' k : Out Empty _) = .ok r) :
    val r = (halfAway (val a / val b * 10 ^ k) : ℚ) / 10 ^ k ∧ |val r - val a / val b| ≤ 1 / 10 ^ k / 2 := by
  have hfu : fu b ≤ fu a := by unfold fu unitsFor; omega
  obtain ⟨h1, h2, -⟩ := C96_round_quotient ha hb hres hres' hi (C116_truncates ha hb hres za hi (by omega) h) h hk hr
  exact ⟨h1, h2⟩

/-- **C116** Neither build notices the wrong correction when the divisor has many fractional digits: 1 / 0.500000000000000000999999999 is
1.000000003999999995999999996000000015, for 1.999999999999999996..., and a valid decimal. -/
theorem C116_witness_silent (m : Mode) :
    ∃ a b r : FixedDecimal, FixedDecimal.fromStr m (Samples.bytes "1") = .ok a ∧
      FixedDecimal.fromStr m (Samples.bytes "0.500000000000000000999999999") = .ok b ∧
      FixedDecimal.div m a b = .ok r ∧ WF r ∧
      (r.toStr m (-1) : Out Unit _) = .ok (Samples.bytes "1.000000003999999995999999996000000015") ∧
      1999999999 / 10 ^ 9 < val a / val b := by
  refine ⟨⟨1#8, 0, [1, 0, 0, 0, 0, 0, 0, 0, 0]⟩, ⟨1#8, 27, [999999999, 0, 500000000, 0, 0, 0, 0, 0, 0]⟩,
    ⟨1#8, 36, [15, 999999996, 999999995, 3, 1, 0, 0, 0, 0]⟩, ?_, ?_, ?_, ?_, ?_, ?_⟩
  · cases m <;> decide +kernel
  · cases m <;> decide +kernel
  · cases m <;> decide +kernel
  · decide +kernel
  · cases m <;> decide +kernel
  · decide +kernel

/-- **C116** A release build has no assertion: the debug build stops on 1999999998000000021 / 999999999000000010.999999999 with 18 more
digits, the release build returns the valid decimal 1.999999999999999989999999989, for 1.999999999999999999000000001. -/
theorem C116_witness_release :
    ∃ a b r : FixedDecimal, (∀ m, FixedDecimal.fromStr m (Samples.bytes "1999999998000000021") = .ok a ∧
        FixedDecimal.fromStr m (Samples.bytes "999999999000000010.999999999") = .ok b) ∧
      fu b ≤ quoIU a b + fu a ∧
      FixedDecimal.divTo .debug a b FixedDecimal.zero 18 = .panic .assert ∧
      FixedDecimal.divTo .release a b FixedDecimal.zero 18 = .ok r ∧ WF r ∧
      (r.toStr .release (-1) : Out Unit _) = .ok (Samples.bytes "1.999999999999999989999999989") ∧
      truncQuot (val a) (val b) 27 = 1999999999999999999000000001 / 10 ^ 27 := by
  refine ⟨⟨19#8, 0, [21, 999999998, 1, 0, 0, 0, 0, 0, 0]⟩, ⟨18#8, 9, [999999999, 10, 999999999, 0, 0, 0, 0, 0, 0]⟩,
    ⟨1#8, 27, [999999989, 999999989, 999999999, 1, 0, 0, 0, 0, 0]⟩, ?_, ?_, ?_, ?_, ?_, ?_, ?_⟩
  · intro m; cases m <;> decide +kernel
  · decide +kernel
  · decide +kernel
  · decide +kernel
  · decide +kernel
  · decide +kernel
  · decide +kernel

/-- The theorems are about quotients like this one, by a divisor of four units, which a debug build does return. -/
example : ∃ a b r : FixedDecimal, FixedDecimal.fromStr .debug (Samples.bytes "123456789012345678901234567890.12345") = .ok a ∧
    FixedDecimal.fromStr .debug (Samples.bytes "300000000003000000.00004") = .ok b ∧ WF a ∧ WF b ∧ fracDigits b ≤ fracDigits a ∧
    2 ≤ topUnit b ∧ FixedDecimal.divTo .debug a b FixedDecimal.zero 4 = .ok r ∧
    (r.toStr .debug (-1) : Out Unit _) = .ok (Samples.bytes "411522630037.037036703689986249") := by
  refine ⟨⟨30#8, 5, [123450000, 234567890, 345678901, 456789012, 123, 0, 0, 0, 0]⟩, ⟨18#8, 5, [40000, 3000000, 300000000, 0, 0, 0, 0, 0, 0]⟩,
    ⟨12#8, 18, [689986249, 37036703, 522630037, 411, 0, 0, 0, 0, 0]⟩, ?_, ?_, ?_, ?_, ?_, ?_, ?_, ?_⟩
  all_goals decide +kernel

end Props
end Fxd
