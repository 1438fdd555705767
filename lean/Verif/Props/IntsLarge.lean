import Verif.Props.Ints
/-!
# Property C63 for divisors of 19 and 20 digits

`C63_rem_partial` and `C63_div_partial` are about divisors below 10^18. Here are the others, which take three units: for which of
them the remainder is right, and what it is when it is not.
-/

namespace Fxd
open Spec

namespace Spec

/-- The factor by which operands are multiplied before a divisor `B` of three units is guessed with. -/
def bigFac (B : Int) : Int := 1000000000 / (B / 1000000000000000000 + 1)

/-- The quotient `A / B`, guessed from the leading two units of both (after the multiplication), comes out too large. -/
def Missed (A B : Int) : Prop := A / B < (bigFac B * A / 1000000000) / (bigFac B * B / 1000000000)
instance (A B : Int) : Decidable (Missed A B) := by unfold Missed; infer_instance

end Spec

namespace Props
variable {m : Mode}

theorem converted_abs {n : Int} {x : FixedDecimal} (h : Converted m n x) : |n| < 2 ^ 64 := by
  rcases h with ⟨h1, h2, -⟩ | ⟨h1, h2, -⟩
  · rw [abs_lt]; constructor <;> omega
  · rw [abs_of_nonneg h1]; exact h2

theorem converted_top {n : Int} {x : FixedDecimal} (h : Converted m n x) (hn : 10 ^ 18 ≤ |n|) : topUnit x = 2 := by
  have h1 := converted_abs h
  unfold topUnit
  rw [converted_mant h]
  norm_num at hn h1
  have h2 : 1000000000000000000 ≤ |n|.toNat := by omega
  have h3 : |n|.toNat < 1000000000000000000000000000 := by omega
  rw [Nat.log_eq_iff (by norm_num)]
  norm_num
  constructor <;> omega

/-- One step of long division: window `d * A`, divisor `d * B`. -/
theorem bigFac_bounds {B : Int} (h1 : 10 ^ 18 ≤ B) (h2 : B < 2 ^ 64) : 52631578 ≤ bigFac B ∧ bigFac B ≤ 500000000 := by
  unfold bigFac
  norm_num at h1 h2
  have h3 : 1 ≤ B / 1000000000000000000 := by omega
  have h4 : B / 1000000000000000000 ≤ 18 := by omega
  generalize B / 1000000000000000000 = v at *
  constructor
  · rw [Int.le_ediv_iff_mul_le (by omega)]; nlinarith
  · rw [Int.ediv_le_iff_le_mul (by omega)]; nlinarith

/-- If the guess is missed then the true remainder is within 400 of the divisor. -/
theorem missed_near {A B : Int} (h1 : 10 ^ 18 ≤ B) (h2 : B < 2 ^ 64) (hA : A < 2 ^ 64) (hA0 : 0 ≤ A) (h : Missed A B) :
    B - A % B < 400 := by
  obtain ⟨d1, d2⟩ := bigFac_bounds h1 h2
  unfold Missed at h
  generalize bigFac B = d at *
  norm_num at h1 h2 hA
  have hq : A / B ≤ 18 := by
    have : A / B < 19 := Int.ediv_lt_of_lt_mul (by omega) (by omega)
    omega
  have hm := Int.emod_add_mul_ediv A B
  have hq0 : 0 ≤ A / B := Int.ediv_nonneg hA0 (by omega)
  set q := A / B
  set r := A % B
  have e : q + 1 ≤ d * A / 1000000000 / (d * B / 1000000000) := by omega
  have hdB : 52631578 * 1000000000000000000 ≤ d * B := by nlinarith
  have hV := Int.emod_add_mul_ediv (d * B) 1000000000
  have hV' := Int.emod_lt_of_pos (d * B) (show (0 : Int) < 1000000000 by norm_num)
  have hU := Int.emod_add_mul_ediv (d * A) 1000000000
  have hU' := Int.emod_nonneg (d * A) (show (1000000000 : Int) ≠ 0 by norm_num)
  generalize d * B / 1000000000 = V at *
  generalize d * A / 1000000000 = U at *
  have hVp : 0 < V := by omega
  rw [Int.le_ediv_iff_mul_le hVp] at e
  -- d * (B - r) <= (q + 1) * (10^9 - 1)
  have k1 : d * B - 999999999 ≤ 1000000000 * V := by omega
  have k2 : 1000000000 * U ≤ d * A := by omega
  have k3 : (q + 1) * (d * B - 999999999) ≤ (q + 1) * (1000000000 * V) := mul_le_mul_of_nonneg_left k1 (by omega)
  have k4 : (q + 1) * (1000000000 * V) ≤ 1000000000 * U := by nlinarith
  have k5 : d * A = d * r + d * B * q := by rw [← hm]; ring
  have k6 : d * (B - r) ≤ (q + 1) * 999999999 := by nlinarith
  by_contra hc
  rw [not_lt] at hc
  nlinarith

theorem tmod_abs (a b : Int) : a.tmod b = (if a < 0 then -1 else 1) * (|a| % |b|) := by
  split_ifs with h
  · rw [abs_of_neg h, ← Int.neg_neg a, Int.neg_tmod, Int.neg_neg, Int.tmod_eq_emod_of_nonneg (by omega)]
    rw [Int.emod_abs]; ring
  · rw [abs_of_nonneg (by omega), Int.tmod_eq_emod_of_nonneg (by omega), Int.emod_abs, one_mul]

/-- The integer that the code computes for three-unit operands. -/
theorem codeRem_large {a b : Int} {x y : FixedDecimal} (hx : Converted m a x) (hy : Converted m b y) (hb : 10 ^ 18 ≤ |b|) :
    codeRem x y = if |b| < |a| ∧ Missed |a| |b| then |b| - |a| % |b| else |a| % |b| := by
  have ux := (converted_fu hx).1
  have uy := (converted_fu hy).1
  have mx := converted_mant hx
  have my := converted_mant hy
  have ty := converted_top hy hb
  have eA : remA x y = |a| := by unfold remA; rw [mx, ux, uy]; simp
  have eB : remB x y = |b| := by unfold remB; rw [my, ux, uy]; simp
  have hl : RemLong x y ↔ |b| < |a| := by unfold RemLong; rw [ty, eA, eB]; simp
  unfold codeRem
  by_cases hlt : |b| < |a|
  · have tx := converted_top hx (le_trans hb hlt.le)
    have hd : normFac y = bigFac |b| := by
      unfold normFac bigFac; rw [my, ty]; norm_num
    have hlead : LeadGe x y := by unfold LeadGe; rw [mx, my, tx, ty]; nlinarith
    have hun : remUnits x y = 1 := by
      unfold remUnits remTop; rw [tx, ty, ux, uy, if_pos hlead]
    have htop : remTop x y = 2 := by unfold remTop; rw [ty, ux, uy]
    obtain ⟨d1, d2⟩ := bigFac_bounds hb (converted_abs hy)
    have hB0 : (0 : Int) < |b| := lt_of_lt_of_le (by norm_num) hb
    have hTB : TooBig (bigFac |b| * |b|) 1000000000 (bigFac |b| * |a|) ↔ Missed |a| |b| := by
      unfold TooBig Missed
      rw [Int.mul_ediv_mul_of_pos _ _ (by omega)]
    rw [if_pos (hl.mpr hlt)]
    unfold remLeft
    rw [hun, htop, hd, eA, eB]
    unfold remRun remRun remStep
    norm_num
    rw [Int.mul_emod_mul_of_pos _ _ (by omega : 0 < bigFac |b|)]
    by_cases hmi : Missed |a| |b|
    · rw [if_pos (hTB.mpr hmi), if_pos ⟨hlt, hmi⟩, ← mul_sub, Int.mul_ediv_cancel_left _ (by omega), Int.emod_abs]
    · rw [if_neg (fun h => hmi (hTB.mp h)), if_neg (fun h => hmi h.2), Int.mul_ediv_cancel_left _ (by omega), Int.emod_abs]
  · rw [if_neg (fun h => hlt (hl.mp h)), if_neg (fun h => hlt h.1), eA, eB]

/-- **C63**, divisors of 19 and 20 digits (`i64` and `u64` beyond 10^18): the remainder is computed in both builds, and this is
what it is: the integer remainder, unless a guess is missed, when the code returns the distance to the divisor instead. -/
theorem C63_rem_large {a b : Int} {x y res : FixedDecimal} (hx : Converted m a x) (hy : Converted m b y)
    (hres : res.lsu.length = 9) (hb : 10 ^ 18 ≤ |b|) :
    ∃ r, FixedDecimal.remTo m x y res = .ok r ∧ WF r ∧ val r =
      ((if |b| < |a| ∧ Missed |a| |b| then (if a < 0 then -1 else 1) * (|b| - |a| % |b|) else a.tmod b : Int) : ℚ) := by
  obtain ⟨tx, vx, fx, ix⟩ := converted_spec hx
  obtain ⟨ty, vy, fy, iy⟩ := converted_spec hy
  have ux := (converted_fu hx).1
  have uy := (converted_fu hy).1
  have mx := converted_mant hx
  have my := converted_mant hy
  have hB0 : (0 : Int) < |b| := lt_of_lt_of_le (by norm_num) hb
  have zb : val y ≠ 0 := by rw [vy]; exact_mod_cast (abs_pos.mp hB0)
  have hroom : ¬ (|val x| < |val y| ∧ RemNoRoom x y) := by
    rintro ⟨-, h, -⟩
    omega
  have hok : ∃ r, FixedDecimal.remTo m x y res = .ok r := by
    by_cases za : val x = 0
    · exact ⟨_, C34_zero_rem m tx.toWF ty.toWF hres za zb⟩
    cases m with
    | release =>
      rw [C60_release_ok_iff tx.toWF ty.toWF hres za zb]
      refine ⟨hroom, ?_⟩
      rintro ⟨-, ⟨-, -, -, h⟩, -⟩
      omega
    | debug =>
      rw [C60_debug_ok_iff tx.toWF ty.toWF hres za zb]
      refine ⟨hroom, ?_⟩
      rintro ⟨hlt, h | ⟨-, -, -, h⟩⟩
      · rw [vx, vy] at hlt
        have hlt' : |b| < |a| := by exact_mod_cast hlt
        have ttx := converted_top hx (le_trans hb hlt'.le)
        have tty := converted_top hy hb
        have eA : remA x y = |a| := by unfold remA; rw [mx, ux, uy]; simp
        have eB : remB x y = |b| := by unfold remB; rw [my, ux, uy]; simp
        have hd : normFac y = bigFac |b| := by
          unfold normFac bigFac; rw [my, tty]; norm_num
        have hlead : LeadGe x y := by unfold LeadGe; rw [mx, my, ttx, tty]; nlinarith
        have hun : remUnits x y = 1 := by
          unfold remUnits remTop; rw [ttx, tty, ux, uy, if_pos hlead]
        have htop : remTop x y = 2 := by unfold remTop; rw [tty, ux, uy]
        obtain ⟨d1, d2⟩ := bigFac_bounds hb (converted_abs hy)
        have hA := converted_abs hx
        rcases h with ⟨-, W, hW, hwide⟩ | ⟨-, hdiv⟩
        · unfold remWindows at hW
          rw [hun, htop, hd, eA, eB] at hW
          unfold remWins remWins at hW
          simp at hW
          subst hW
          rw [htop, hd, eB] at hwide
          unfold FirstGuessWide at hwide
          norm_num at hwide
          have h1 : bigFac |b| * |a| / 1000000000000000000 < 10000000000 := by
            apply Int.ediv_lt_of_lt_mul (by norm_num)
            norm_num at hA
            nlinarith
          have h2 : 52631578 ≤ bigFac |b| * |b| / 1000000000000000000 := by
            rw [Int.le_ediv_iff_mul_le (by norm_num)]
            norm_num at hb
            nlinarith
          have h3 := Int.mul_ediv_self_le (x := bigFac |b| * |a| / 1000000000000000000) (k := bigFac |b| * |b| / 1000000000000000000)
            (by omega)
          nlinarith
        · apply hdiv
          unfold remLeft
          rw [hun, htop, hd, eA, eB]
          unfold remRun remRun remStep
          norm_num
          rw [Int.mul_emod_mul_of_pos _ _ (by omega : 0 < bigFac |b|)]
          split_ifs
          · rw [← mul_sub]; exact Int.dvd_mul_right _ _
          · exact Int.dvd_mul_right _ _
      · omega
  obtain ⟨r, e⟩ := hok
  refine ⟨r, e, (C37_bounded m tx.toWF ty.toWF hres e).1, ?_⟩
  rw [C37_code m tx.toWF ty.toWF hres e, codeRem_large hx hy hb, ux, uy, tmod_abs]
  have hs : (neg x = true ↔ a < 0) ∨ a = 0 := by
    by_cases h0 : a = 0
    · exact Or.inr h0
    refine Or.inl ?_
    have hv := vx
    have hnn := absVal_nonneg tx.toWF
    unfold val at hv
    constructor
    · intro h
      rw [if_pos h] at hv
      have h1 : (a : ℚ) ≤ 0 := by rw [← hv]; linarith
      have h2 : a ≤ 0 := by exact_mod_cast h1
      omega
    · intro h
      by_contra hc
      rw [if_neg hc] at hv
      have h1 : (0 : ℚ) ≤ a := by rw [← hv]; linarith
      have h2 : 0 ≤ a := by exact_mod_cast h1
      omega
  rcases hs with hs | h0
  · simp only [hs]
    split_ifs <;> push_cast <;> simp
  · subst h0
    have : ¬ (|b| < |(0 : Int)| ∧ Missed |0| |b|) := fun h => by simp at h; omega
    rw [if_neg this, if_neg this]
    simp

/-- **C63** When that is right. A wrong result is always recognisable: it is below 400, and the right one is within 400 of the
divisor. -/
theorem C63_rem_right_iff {a b : Int} {x y res r : FixedDecimal} (hx : Converted m a x) (hy : Converted m b y)
    (hres : res.lsu.length = 9) (hb : 10 ^ 18 ≤ |b|) (h : FixedDecimal.remTo m x y res = .ok r) :
    (val r = (a.tmod b : Int) ↔ ¬ (|b| < |a| ∧ Missed |a| |b|)) ∧
    (val r ≠ (a.tmod b : Int) → |val r| < 400 ∧ |val r| + |(a.tmod b : ℚ)| = |(b : ℚ)|) := by
  obtain ⟨r', e, -, hv⟩ := C63_rem_large hx hy hres hb
  rw [h] at e
  cases e
  by_cases hm : |b| < |a| ∧ Missed |a| |b|
  · rw [if_pos hm] at hv
    have hB0 : (0 : Int) < |b| := lt_of_lt_of_le (by norm_num) hb
    have hn := missed_near hb (converted_abs hy) (converted_abs hx) (abs_nonneg _) hm.2
    have hl := Int.emod_lt_of_pos |a| hB0
    have hp := Int.emod_nonneg |a| hB0.ne'
    have hne : val r ≠ (a.tmod b : Int) := by
      rw [hv, tmod_abs]
      norm_num at hb
      intro hc
      have hc' : ((if a < 0 then -1 else 1) * (|b| - |a| % |b|) : Int) = (if a < 0 then -1 else 1) * (|a| % |b|) := by exact_mod_cast hc
      split_ifs at hc' <;> omega
    refine ⟨⟨fun h => absurd h hne, fun h => absurd hm h⟩, fun _ => ?_⟩
    have e1 : |val r| = ((|b| - |a| % |b| : Int) : ℚ) := by
      rw [hv, ← Int.cast_abs, abs_mul]
      congr 1
      rw [abs_of_nonneg (by omega : 0 ≤ |b| - |a| % |b|)]
      split_ifs <;> simp
    have e2 : |(a.tmod b : ℚ)| = ((|a| % |b| : Int) : ℚ) := by
      rw [tmod_abs, ← Int.cast_abs, abs_mul]
      congr 1
      rw [abs_of_nonneg hp]
      split_ifs <;> simp
    rw [e1, e2]
    refine ⟨by exact_mod_cast hn, ?_⟩
    push_cast; ring
  · rw [if_neg hm] at hv
    exact ⟨⟨fun _ => hm, fun _ => hv⟩, fun hc => absurd hv hc⟩

theorem not_missed_self {A : Int} (h1 : 10 ^ 18 ≤ A) (h2 : A < 2 ^ 64) : ¬ Missed A A := by
  obtain ⟨d1, d2⟩ := bigFac_bounds h1 h2
  unfold Missed
  have hp : (0 : Int) < bigFac A * A / 1000000000 := by
    have : (1000000000 : Int) ≤ bigFac A * A := by norm_num at h1; nlinarith
    omega
  rw [Int.ediv_self (by omega), Int.ediv_self (by omega)]
  omega

/-- The quotient by a divisor of three units meets a guess that is too large exactly if the integral one is missed. -/
theorem quoGuess_large {a b : Int} {x y : FixedDecimal} (hx : Converted m a x) (hy : Converted m b y) (hb : 10 ^ 18 ≤ |b|)
    (hFU : quoFU x y 4 = 1) (hn : ¬ (|b| < |a| ∧ Missed |a| |b|)) : ¬ QuoGuessTooBig x y 4 := by
  have ux := (converted_fu hx).1
  have uy := (converted_fu hy).1
  have mx := converted_mant hx
  have my := converted_mant hy
  have ty := converted_top hy hb
  have hB0 : (0 : Int) < |b| := lt_of_lt_of_le (by norm_num) hb
  rintro ⟨-, W, hW, hT⟩
  have htx : topUnit x ≤ 2 := by
    have h1 := converted_abs hx
    unfold topUnit
    rw [mx]
    norm_num at h1
    have : Nat.log 1000000000 |a|.toNat < 3 := Nat.log_lt_of_lt_pow' (by norm_num) (by norm_num; omega)
    omega
  have hsteps : quoSteps x y 4 = ((topUnit x : Int) - 1 + if LeadGe x y then 1 else 0).toNat := by
    unfold quoSteps; rw [hFU, ty, ux, uy]; congr 1; split_ifs <;> push_cast <;> ring
  unfold quoWindows at hW
  by_cases h2 : topUnit x = 2 ∧ LeadGe x y
  · have hge : |b| ≤ |a| := by
      have := h2.2
      unfold LeadGe at this
      rw [mx, my, h2.1, ty] at this
      nlinarith
    have hs2 : quoSteps x y 4 = 2 := by rw [hsteps, h2.1, if_pos h2.2]; rfl
    have hd : normFac y = bigFac |b| := by
      unfold normFac bigFac; rw [my, ty]; norm_num
    rw [hs2] at hW
    unfold quoWins quoWins quoWins at hW
    simp only [List.dropLast_cons₂, List.dropLast_singleton, List.mem_singleton] at hW
    have hc : quoLow x y = quoIU x y := by unfold quoLow; rw [ux, uy]; simp
    rw [hc, hFU, mx, hd] at hW
    have hW' : W = bigFac |b| * |a| := by
      rw [hW]
      unfold fromUnit
      rw [if_pos (by positivity)]
      have : ((1 : Nat) + (quoIU x y : Int)).toNat = quoIU x y + 1 := by omega
      rw [this, Int.mul_ediv_cancel_left _ (by positivity)]
    rw [hW', hd, my, ty] at hT
    obtain ⟨d1, d2⟩ := bigFac_bounds hb (converted_abs hy)
    have hmi : Missed |a| |b| := by
      unfold TooBig at hT
      unfold Missed
      rw [Int.mul_ediv_mul_of_pos _ _ (by omega)] at hT
      simpa using hT
    rcases lt_or_eq_of_le hge with h | h
    · exact hn ⟨h, hmi⟩
    · rw [← h] at hmi
      exact not_missed_self hb (converted_abs hy) hmi
  · have hs1 : quoSteps x y 4 = 0 ∨ quoSteps x y 4 = 1 := by
      rw [hsteps]
      by_cases hl : LeadGe x y
      · have : topUnit x ≠ 2 := fun h => h2 ⟨h, hl⟩
        rw [if_pos hl]; omega
      · rw [if_neg hl]; omega
    rcases hs1 with h | h <;> rw [h] at hW
    · simp [quoWins] at hW
    · simp [quoWins] at hW

/-- **C63** (partial: unless the guess of the integral digit is missed), divisors of 19 and 20 digits. In particular all quotients
below 1. -/
theorem C63_div_large_partial {a b : Int} {x y res : FixedDecimal} (hx : Converted m a x) (hy : Converted m b y)
    (hres : res.lsu.length = 9) (ha0 : a ≠ 0) (hb : 10 ^ 18 ≤ |b|) (hn : ¬ (|b| < |a| ∧ Missed |a| |b|)) :
    (∀ r, FixedDecimal.divTo m x y res 4 = .ok r →
      WF r ∧ r.frac = 9 ∧ val r = truncQuot a b 9 ∧ truncZ (val r) = a.tdiv b) ∧
    (m = .release → ∃ r, FixedDecimal.divTo m x y res 4 = .ok r) := by
  obtain ⟨tx, vx, fx, ix⟩ := converted_spec hx
  obtain ⟨ty, vy, fy, iy⟩ := converted_spec hy
  obtain ⟨ux, dx, -⟩ := converted_fu hx
  obtain ⟨uy, dy, -⟩ := converted_fu hy
  have hB0 : (0 : Int) < |b| := lt_of_lt_of_le (by norm_num) hb
  have za : val x ≠ 0 := by rw [vx]; exact_mod_cast ha0
  have zb : val y ≠ 0 := by rw [vy]; exact_mod_cast (abs_pos.mp hB0)
  have cx := digitCount_le hx
  have cy := digitCount_le hy
  have cx0 : 0 < digitCount x := by unfold digitCount; omega
  have cy0 : 0 < digitCount y := by unfold digitCount; omega
  have hq1 : -26 ≤ quoIntg x y ∧ quoIntg x y ≤ 27 := by
    unfold quoIntg; rw [ux, uy]; split_ifs <;> constructor <;> push_cast <;> omega
  have hIU : quoIU x y ≤ 3 := by unfold quoIU unitsFor; omega
  have hw : quoWant x y 4 = 4 := by unfold quoWant; rw [ux, uy, dx, dy]
  have hF : quoFrac x y 4 = 4 := by unfold quoFrac; rw [hw]; decide
  have hFU : quoFU x y 4 = 1 := by unfold quoFU; rw [hF]; simp [unitsFor]; omega
  have hrange : QuoRange x y 4 := by unfold QuoRange; rw [hF]; omega
  have hspill : ¬ QuoSpill x y 4 := by
    rintro ⟨-, -, -, h⟩
    omega
  have hg := quoGuess_large hx hy hb hFU hn
  constructor
  · intro r h
    obtain ⟨hw', -, -, hv⟩ := C36_exact_partial m tx.toWF ty.toWF hres za zb (by norm_num) hg h
    obtain ⟨hfr, -⟩ := C57_scale m tx.toWF ty.toWF hres za zb (by norm_num) h
    rw [hFU] at hfr
    have hfd : fracDigits r = 9 := by unfold fracDigits; rw [hfr]; rfl
    have hv' := hv (by omega)
    rw [hfd, vx, vy] at hv'
    refine ⟨hw', by rw [hfr]; rfl, hv', ?_⟩
    rw [hv', ← truncZ_int]
    unfold truncQuot
    exact truncZ_cut _ _
  · rintro rfl
    exact (C58_release_ok_iff tx.toWF ty.toWF hres za zb (by norm_num)).mpr ⟨hrange, by omega, hspill⟩

/-- 8999999999999999999 and 2000000000000000003 are not missed; 9000000000000000000 and 1000000000000000001 are. -/
example : (∃ x, Converted m 8999999999999999999 x) ∧ (∃ x, Converted m (-2000000000000000003) x) ∧
    ¬ Missed 8999999999999999999 2000000000000000003 ∧ Missed 9000000000000000000 1000000000000000001 := by
  refine ⟨?_, ?_, by decide +kernel, by decide +kernel⟩
  · obtain ⟨d, e, -⟩ := C45_from_i64 (σ := Empty) m (n := 8999999999999999999) (by norm_num) (by norm_num)
    exact ⟨d, Or.inl ⟨by norm_num, by norm_num, e⟩⟩
  · obtain ⟨d, e, -⟩ := C45_from_i64 (σ := Empty) m (n := -2000000000000000003) (by norm_num) (by norm_num)
    exact ⟨d, Or.inl ⟨by norm_num, by norm_num, e⟩⟩

end Props
end Fxd
