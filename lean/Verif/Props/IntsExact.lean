import Verif.Props.IntsLarge
import Verif.Props.Remainders
import Verif.Props.DebugRuns
/-!
# Property C63: exactly which quotients and remainders of converted integers a debug build computes

`C63_rem_partial`, `C63_rem_large` say which remainders are right; here are the divisors of 10 to 18 digits in debug builds, where
an assertion can fail, and the exact quotient for divisors of 19 and 20 digits.
-/

namespace Fxd
open Spec

namespace Spec

/-- The factor by which operands are multiplied before a divisor `B` of two units is guessed with. -/
def midFac (B : Int) : Int := 1000000000 / (B / 1000000000 + 1)

/-- The remainder of the leading part of `A` (all but its last nine digits, after the multiplication) is so near to the divisor that
the next guess, made with the leading unit of the divisor alone, is not a single unit. -/
def Stopped (A B : Int) : Prop :=
  1000000000 ≤ (midFac B * A / 1000000000) % (midFac B * B) / (midFac B * B / 1000000000)
instance (A B : Int) : Decidable (Stopped A B) := by unfold Stopped; infer_instance

/-- The same for divisors of three units, for the first guess of the fractional digits. -/
def StoppedBig (A B : Int) : Prop :=
  1000000000 ≤ (bigFac B * A % (bigFac B * B) / 1000000000) / (bigFac B * B / 1000000000000000000)
instance (A B : Int) : Decidable (StoppedBig A B) := by unfold StoppedBig; infer_instance

/-- What the code goes on dividing after a missed guess, instead of the remainder: with `s` the (multiplied) distance of the remainder
to the divisor, `10^27 - s` with its last nine digits complemented. -/
def spoiled (A B : Int) : Int :=
  1000000000000000000000000000 - bigFac B * (B - A % B) - (-(bigFac B * (B - A % B))) % 1000000000 +
    (bigFac B * (B - A % B)) % 1000000000

/-- A missed guess after which the code writes more than nine digits into one unit of the quotient. -/
def Spilled (A B : Int) : Prop := B < A ∧ Missed A B ∧ bigFac B * B ≤ spoiled A B
instance (A B : Int) : Decidable (Spilled A B) := by unfold Spilled; infer_instance

end Spec

namespace Props
variable {m : Mode}

theorem midFac_pos {B : Int} (h1 : 1000000000 ≤ B) (h2 : B < 1000000000000000000) : 1 ≤ midFac B := by
  unfold midFac
  rw [Int.le_ediv_iff_mul_le (by omega)]; omega

theorem not_tooBig_one (R W : Int) : ¬ TooBig R 1 W := by
  unfold TooBig; simp

/-- A small dividend never stops. -/
theorem not_stopped_small {A B : Int} (h1 : 1000000000 ≤ B) (h2 : B < 1000000000000000000) (hA0 : 0 ≤ A) (hA : A ≤ B) :
    ¬ Stopped A B := by
  have hd := midFac_pos h1 h2
  unfold Stopped
  generalize midFac B = d at *
  have h3 : 1 ≤ d * B / 1000000000 := by
    rw [Int.le_ediv_iff_mul_le (by norm_num)]; nlinarith
  have h4 : d * A / 1000000000 ≤ d * B / 1000000000 := Int.ediv_le_ediv (by norm_num) (by nlinarith)
  have h5 : 0 ≤ d * A / 1000000000 := Int.ediv_nonneg (by nlinarith) (by norm_num)
  have h6 := Int.mul_ediv_self_le (x := d * B) (k := 1000000000) (by norm_num)
  rw [Int.emod_eq_of_lt h5 (by omega)]
  intro h
  have h7 := Int.mul_ediv_self_le (x := d * A / 1000000000) (k := d * B / 1000000000) (by omega)
  nlinarith

theorem converted_top_le {n : Int} {x : FixedDecimal} (h : Converted m n x) : topUnit x ≤ 2 := by
  have h1 := converted_abs h
  unfold topUnit
  rw [converted_mant h]
  norm_num at h1
  have : Nat.log 1000000000 |n|.toNat < 3 := Nat.log_lt_of_lt_pow' (by norm_num) (by norm_num; omega)
  omega

theorem top_zero_iff {d : FixedDecimal} (hd : WF d) : topUnit d = 0 ↔ mant d < 1000000000 := by
  have := hd.mant_nonneg
  unfold topUnit
  rw [Nat.log_eq_zero_iff]
  omega

theorem top_two {d : FixedDecimal} (h : topUnit d = 2) : 1000000000000000000 ≤ mant d := by
  unfold topUnit at h
  have h0 : (mant d).toNat ≠ 0 := by
    intro e; rw [e] at h; simp at h
  have := Nat.pow_log_le_self 1000000000 h0
  rw [h] at this
  norm_num at this
  omega

/-- The windows of the integral quotient by a divisor of two units. -/
theorem wide_mid {a b : Int} {x y : FixedDecimal} (hx : Converted m a x) (hy : Converted m b y) (hb9 : 1000000000 ≤ |b|)
    (hb : |b| < 1000000000000000000) (hle : |b| ≤ |a|) :
    (∃ W ∈ remWins (midFac |b| * |b|) 1 (topUnit x - (if LeadGe x y then 0 else 1)) (midFac |b| * |a|),
      FirstGuessWide (midFac |b| * |b|) 1 W) ↔ Stopped |a| |b| := by
  have mx := converted_mant hx
  have my := converted_mant hy
  have wx := (converted_spec hx).1.toWF
  have ty : topUnit y = 1 := top_one (by rw [my]; exact hb9) (by rw [my]; norm_num; exact hb)
  have tx2 := converted_top_le hx
  have tx0 : topUnit x ≠ 0 := by rw [Ne, top_zero_iff wx, mx]; omega
  have hd1 := midFac_pos hb9 hb
  have hA := converted_abs hx
  norm_num at hA
  have hR : 0 < midFac |b| * |b| := by nlinarith
  have hone : ∀ V : Int, 0 ≤ V → V / 1000000000 < midFac |b| * |b| → V = midFac |b| * |a| →
      (FirstGuessWide (midFac |b| * |b|) 1 V ↔ Stopped |a| |b|) := by
    intro V h0 h1 h2
    unfold FirstGuessWide Stopped
    rw [← h2, Int.emod_eq_of_lt (Int.ediv_nonneg h0 (by norm_num)) h1]
    norm_num
  have hV0 : 0 ≤ midFac |b| * |a| := mul_nonneg (by omega) (abs_nonneg _)
  rcases (by omega : topUnit x = 1 ∨ topUnit x = 2) with tx | tx
  · have hlead : LeadGe x y := by unfold LeadGe; rw [mx, my, tx, ty]; omega
    rw [tx, if_pos hlead]
    simp only [remWins, List.mem_singleton, exists_eq_left, Nat.sub_zero, pow_zero, Int.ediv_one]
    refine hone _ hV0 ?_ rfl
    have h18 : |a| < 1000000000000000000 := by
      by_contra hc
      have := converted_top hx (by norm_num; omega)
      omega
    apply Int.ediv_lt_of_lt_mul (by norm_num)
    nlinarith
  · by_cases hlead : LeadGe x y
    · rw [tx, if_pos hlead]
      simp only [remWins, Nat.sub_zero, pow_zero, Int.ediv_one, pow_one, Int.emod_one, List.mem_cons, List.not_mem_nil, or_false,
        exists_eq_or_imp, exists_eq_left]
      unfold remStep
      rw [if_neg (not_tooBig_one _ _)]
      have hno : ¬ FirstGuessWide (midFac |b| * |b|) 1 (midFac |b| * |a| / 1000000000) := by
        unfold FirstGuessWide
        norm_num
        have h1 : midFac |b| ≤ midFac |b| * |b| / 1000000000 := by
          rw [Int.le_ediv_iff_mul_le (by norm_num)]; nlinarith
        have h2 : midFac |b| * |a| / 1000000000 / 1000000000 < midFac |b| * 1000000000 := by
          apply Int.ediv_lt_of_lt_mul (by norm_num)
          apply Int.ediv_lt_of_lt_mul (by norm_num)
          nlinarith
        apply Int.ediv_lt_of_lt_mul (by omega)
        nlinarith
      have hW : FirstGuessWide (midFac |b| * |b|) 1 ((midFac |b| * |a|) % 1000000000 + 1000000000 *
          (midFac |b| * |a| / 1000000000 % (midFac |b| * |b|))) ↔ Stopped |a| |b| := by
        unfold FirstGuessWide Stopped
        rw [one_mul, Int.add_mul_ediv_left _ _ (by norm_num), Int.ediv_eq_zero_of_lt (Int.emod_nonneg _ (by norm_num))
          (Int.emod_lt_of_pos _ (by norm_num)), zero_add]
      rw [hW]
      exact ⟨fun h => h.resolve_left hno, Or.inr⟩
    · rw [tx, if_neg hlead]
      simp only [remWins, List.mem_singleton, exists_eq_left, pow_zero, Int.ediv_one, Nat.reduceSub]
      refine hone _ hV0 ?_ rfl
      unfold LeadGe at hlead
      rw [mx, my, tx, ty] at hlead
      apply Int.ediv_lt_of_lt_mul (by norm_num)
      have : |a| < |b| * 1000000000 := by norm_num at hlead; omega
      nlinarith

/-- The remainder by a divisor of two units: when an assertion fails. -/
theorem remAssert_mid {a b : Int} {x y : FixedDecimal} (hx : Converted m a x) (hy : Converted m b y) (hb9 : 10 ^ 9 ≤ |b|)
    (hb : |b| < 10 ^ 18) (hlt : |b| < |a|) : RemAssert x y ↔ Stopped |a| |b| := by
  have ux := (converted_fu hx).1
  have uy := (converted_fu hy).1
  have mx := converted_mant hx
  have my := converted_mant hy
  norm_num at hb9 hb
  have ty : topUnit y = 1 := top_one (by rw [my]; exact hb9) (by rw [my]; norm_num; exact hb)
  have eA : remA x y = |a| := by unfold remA; rw [mx, ux, uy]; simp
  have eB : remB x y = |b| := by unfold remB; rw [my, ux, uy]; simp
  have htop : remTop x y = 1 := by unfold remTop; rw [ty, ux, uy]
  have hd : normFac y = midFac |b| := by unfold normFac midFac; rw [my, ty]; norm_num
  have hlong : RemLong x y := by unfold RemLong; rw [ty, eA, eB]; exact ⟨by norm_num, hlt⟩
  -- the division leaves a multiple of the factor
  have hleft : normFac y ∣ remLeft x y := by
    unfold remLeft
    rw [htop]
    simp only [Nat.sub_self, pow_zero]
    obtain ⟨Q, hQ⟩ := remRun_mod (R := normFac y * remB x y) (P := 1) (remUnits x y) (normFac y * remA x y)
      (fun _ _ => not_tooBig_one _ _)
    have e : remRun (normFac y * remB x y) 1 (remUnits x y) (normFac y * remA x y) =
        normFac y * (remA x y - Q * remB x y) := by linear_combination -hQ
    rw [e]
    exact Int.dvd_mul_right _ _
  have hun : remUnits x y = topUnit x - (if LeadGe x y then 0 else 1) := by
    unfold remUnits; rw [htop, ux, uy]; simp
  rw [← wide_mid hx hy hb9 hb hlt.le]
  unfold RemAssert RemGuessWide remWindows
  rw [htop, hd, eA, eB, hun]
  rw [hd] at hleft
  simp only [Nat.sub_self, pow_zero]
  constructor
  · rintro (⟨-, h⟩ | ⟨-, h⟩)
    · exact h
    · exact absurd hleft h
  · exact fun h => Or.inl ⟨hlong, h⟩

/-- **C63** Divisors of 10 to 18 digits in a debug build: exactly when the remainder is computed. -/
theorem C63_rem_debug_iff {a b : Int} {x y res : FixedDecimal} (hx : Converted .debug a x) (hy : Converted .debug b y)
    (hres : res.lsu.length = 9) (hb9 : 10 ^ 9 ≤ |b|) (hb : |b| < 10 ^ 18) :
    (∃ r, FixedDecimal.remTo .debug x y res = .ok r) ↔ ¬ Stopped |a| |b| := by
  obtain ⟨tx, vx, fx, ix⟩ := converted_spec hx
  obtain ⟨ty, vy, fy, iy⟩ := converted_spec hy
  have uy := (converted_fu hy).1
  have hB0 : (0 : Int) < |b| := lt_of_lt_of_le (by norm_num) hb9
  have zb : val y ≠ 0 := by rw [vy]; exact_mod_cast (abs_pos.mp hB0)
  norm_num at hb9 hb
  by_cases za : val x = 0
  · have ha : a = 0 := by rw [vx] at za; exact_mod_cast za
    refine ⟨fun _ => ?_, fun _ => ⟨_, C34_zero_rem .debug tx.toWF ty.toWF hres za zb⟩⟩
    exact not_stopped_small hb9 hb (abs_nonneg _) (by rw [ha]; simp)
  rw [C60_debug_ok_iff tx.toWF ty.toWF hres za zb]
  have hroom : ¬ (|val x| < |val y| ∧ RemNoRoom x y) := by rintro ⟨-, h, -⟩; omega
  have hfull : ¬ RemFull x y := by rintro ⟨-, -, -, h⟩; omega
  by_cases hlt : |b| < |a|
  · have hlt' : |val y| < |val x| := by rw [vx, vy]; exact_mod_cast hlt
    have := remAssert_mid hx hy (by norm_num; exact hb9) (by norm_num; exact hb) hlt
    rw [← this]
    constructor
    · exact fun h ha => h.2 ⟨hlt', Or.inl ha⟩
    · exact fun h => ⟨hroom, fun hc => hc.2.elim h hfull⟩
  · have hlt' : ¬ |val y| < |val x| := by rw [vx, vy]; exact_mod_cast hlt
    exact ⟨fun _ => not_stopped_small hb9 hb (abs_nonneg _) (by omega), fun _ => ⟨hroom, fun hc => hlt' hc.1⟩⟩

/-- A run shifted up by `c` units has the same windows. -/
theorem quoWins_shift {R P : Int} {k c : Nat} : ∀ (n : Nat) (V : Int), (∀ W ∈ remWins R P n V, ¬ TooBig R P W) →
    quoWins R P k c n (1000000000 ^ c * V) = remWins R P n V
  | 0, _, _ => rfl
  | n + 1, V, h => by
    rw [remWins_succ] at h
    have hw : fromUnit (1000000000 ^ c * V) (n + c) = V / 1000000000 ^ n := by
      unfold fromUnit
      rw [if_pos (by positivity)]
      have : ((n : Int) + c).toNat = c + n := by omega
      rw [this, pow_add, Int.mul_ediv_mul_of_pos _ _ (by positivity)]
    have hn : quoNext R P k c n (1000000000 ^ c * V) = 1000000000 ^ c * remNext R P n V := by
      unfold quoNext remNext remStep
      rw [hw, if_neg (h _ List.mem_cons_self), if_neg (h _ List.mem_cons_self)]
      unfold putUnit
      rw [if_pos (by positivity)]
      have : ((n : Int) + c).toNat = c + n := by omega
      rw [this, pow_add, Int.mul_emod_mul_of_pos _ _ (by positivity)]
      ring
    rw [quoWins_succ, remWins_succ, hw, hn, quoWins_shift n _ (fun W hW => h W (List.mem_cons_of_mem _ hW))]

/-- One more quotient unit. -/
theorem remWins_more {R P : Int} : ∀ (n : Nat) (V : Int),
    remWins R P (n + 1) (1000000000 * V) = remWins R P n V ++ [1000000000 * remRun R P n V]
  | 0, V => by simp [remWins, remRun]
  | n + 1, V => by
    have e1 : 1000000000 * V / 1000000000 ^ (n + 1) = V / 1000000000 ^ n := by
      rw [pow_succ', Int.mul_ediv_mul_of_pos _ _ (by norm_num)]
    have e2 : remNext R P (n + 1) (1000000000 * V) = 1000000000 * remNext R P n V := by
      unfold remNext
      rw [e1, pow_succ', Int.mul_emod_mul_of_pos _ _ (by norm_num)]
      ring
    rw [remWins_succ, e1, e2, remWins_more n, remWins_succ, remRun_succ]
    rfl

/-- With a correct guess at every step the run leaves the remainder. -/
theorem remRun_one {R : Int} (hR : 0 < R) {n : Nat} {V : Int} (h : 0 < n ∨ 0 ≤ V ∧ V < R) : remRun R 1 n V = V % R := by
  have hb : 0 ≤ remRun R 1 n V ∧ remRun R 1 n V < R := by
    rcases h with h | h
    · obtain ⟨k, rfl⟩ : ∃ k, n = k + 1 := ⟨n - 1, by omega⟩
      clear h
      induction k generalizing V with
      | zero =>
        have := remNext_bounds hR (n := 0) (V := V) (not_tooBig_one _ _)
        rw [pow_zero, mul_one] at this
        exact this
      | succ k ih => rw [remRun_succ]; exact ih
    · cases n with
      | zero => exact h
      | succ k =>
        induction k generalizing V with
        | zero =>
          have := remNext_bounds hR (n := 0) (V := V) (not_tooBig_one _ _)
          rw [pow_zero, mul_one] at this
          exact this
        | succ k ih =>
          rw [remRun_succ]
          have hx : remRun R 1 (k + 1) (remNext R 1 (k + 1) V) = remRun R 1 (k + 1) V := by
            have e : remNext R 1 (k + 1) V = V := by
              rw [remNext_eq (not_tooBig_one _ _)]
              have h1 : V / 1000000000 ^ (k + 1) / R = 0 := by
                apply Int.ediv_eq_zero_of_lt (Int.ediv_nonneg h.1 (by positivity))
                exact lt_of_le_of_lt (Int.ediv_le_self _ h.1) h.2
              rw [h1]; ring
            rw [e]
          rw [hx]
          exact ih h
  obtain ⟨Q, hQ⟩ := remRun_mod (R := R) (P := 1) n V (fun _ _ => not_tooBig_one _ _)
  have : V % R = remRun R 1 n V % R := by
    conv_lhs => rw [hQ]
    rw [add_comm, Int.add_mul_emod_self_right]
  rw [this, Int.emod_eq_of_lt hb.1 hb.2]

/-- Two converted integers: the plan of their quotient. -/
theorem quo_plan {a b : Int} {x y : FixedDecimal} (hx : Converted m a x) (hy : Converted m b y) :
    quoFU x y 4 = 1 ∧ QuoRange x y 4 ∧ quoIntg x y ≤ 27 ∧ ¬ QuoSpill x y 4 ∧ quoLow x y = (quoIU x y : Nat) := by
  obtain ⟨ux, dx, -⟩ := converted_fu hx
  obtain ⟨uy, dy, -⟩ := converted_fu hy
  have cx := digitCount_le hx
  have cy := digitCount_le hy
  have cx0 : 0 < digitCount x := by unfold digitCount; omega
  have cy0 : 0 < digitCount y := by unfold digitCount; omega
  have hq1 : -26 ≤ quoIntg x y ∧ quoIntg x y ≤ 27 := by
    unfold quoIntg; rw [ux, uy]; split_ifs <;> constructor <;> push_cast <;> omega
  have hIU : quoIU x y ≤ 3 := by unfold quoIU unitsFor; omega
  have hw : quoWant x y 4 = 4 := by unfold quoWant; rw [ux, uy, dx, dy]
  have hF : quoFrac x y 4 = 4 := by unfold quoFrac; rw [hw]; decide
  have hFU : quoFU x y 4 = 1 := by unfold quoFU; rw [hF]; simp [unitsFor]; omega
  refine ⟨hFU, by unfold QuoRange; rw [hF]; omega, hq1.2, ?_, by unfold quoLow; rw [ux, uy]; simp⟩
  rintro ⟨-, h8, -, -⟩
  have := converted_top_le hx
  omega

/-- The quotient by a divisor of two units: when a first guess is too wide. -/
theorem quoWide_mid {a b : Int} {x y : FixedDecimal} (hx : Converted m a x) (hy : Converted m b y) (hb9 : 1000000000 ≤ |b|)
    (hb : |b| < 1000000000000000000) :
    QuoGuessWide x y 4 ↔ Stopped |a| |b| ∨ Stopped (1000000000 * |a|) |b| := by
  obtain ⟨hFU, -, -, -, hlow⟩ := quo_plan hx hy
  have ux := (converted_fu hx).1
  have uy := (converted_fu hy).1
  have mx := converted_mant hx
  have my := converted_mant hy
  have wx := (converted_spec hx).1.toWF
  have ty : topUnit y = 1 := top_one (by rw [my]; exact hb9) (by rw [my]; norm_num; exact hb)
  have hd : normFac y = midFac |b| := by unfold normFac midFac; rw [my, ty]; norm_num
  have hd1 := midFac_pos hb9 hb
  have hR : 0 < midFac |b| * |b| := by nlinarith
  have hsteps : quoSteps x y 4 = topUnit x + if LeadGe x y then 1 else 0 := by
    unfold quoSteps; rw [hFU, ty, ux, uy]; split_ifs <;> omega
  have hV0 : 0 ≤ midFac |b| * |a| := mul_nonneg (by omega) (abs_nonneg _)
  have hlast : FirstGuessWide (midFac |b| * |b|) 1 (1000000000 * (midFac |b| * |a| % (midFac |b| * |b|))) ↔
      Stopped (1000000000 * |a|) |b| := by
    unfold FirstGuessWide Stopped
    have e : midFac |b| * (1000000000 * |a|) / 1000000000 = midFac |b| * |a| := by
      rw [mul_left_comm, Int.mul_ediv_cancel_left _ (by norm_num)]
    rw [e, one_mul, Int.mul_ediv_cancel_left _ (by norm_num)]
  unfold QuoGuessWide quoWindows
  rw [hlow, hFU, hd, mx, my, ty]
  simp only [Nat.sub_self, pow_zero, ne_eq, one_ne_zero, not_false_eq_true, true_and]
  rw [pow_succ, mul_assoc, quoWins_shift _ _ (fun _ _ => not_tooBig_one _ _)]
  by_cases hle : |b| ≤ |a|
  · have tx0 : topUnit x ≠ 0 := by rw [Ne, top_zero_iff wx, mx]; omega
    have hn : quoSteps x y 4 = topUnit x - (if LeadGe x y then 0 else 1) + 1 := by
      rw [hsteps]; split_ifs <;> omega
    have hn0 : 0 < topUnit x - (if LeadGe x y then 0 else 1) := by
      split_ifs with hl
      · omega
      · by_contra hc
        have tx : topUnit x = 1 := by omega
        apply hl
        unfold LeadGe; rw [mx, my, tx, ty]; omega
    rw [hn, remWins_more, remRun_one hR (Or.inl hn0)]
    simp only [List.mem_append, List.mem_singleton, or_and_right, exists_or, exists_eq_left]
    rw [wide_mid hx hy hb9 hb hle, hlast]
  · have hs : ¬ Stopped |a| |b| := not_stopped_small hb9 hb (abs_nonneg _) (by omega)
    have hlt : midFac |b| * |a| < midFac |b| * |b| := by nlinarith
    have tx1 : topUnit x ≤ 1 := by
      by_contra hc
      have := top_two (by have := converted_top_le hx; omega : topUnit x = 2)
      rw [mx] at this
      omega
    rcases (by omega : topUnit x = 0 ∨ topUnit x = 1) with tx | tx
    · by_cases hl : LeadGe x y
      · rw [hsteps, tx, if_pos hl, remWins_more, remRun_one hR (Or.inr ⟨hV0, hlt⟩)]
        simp only [remWins, List.nil_append, List.mem_singleton, exists_eq_left]
        rw [hlast]
        exact ⟨Or.inr, fun h => h.resolve_left hs⟩
      · rw [hsteps, tx, if_neg hl]
        simp only [remWins, List.not_mem_nil, false_and, exists_false, false_iff]
        rintro (h | h)
        · exact hs h
        · rw [← hlast, Int.emod_eq_of_lt hV0 hlt] at h
          unfold FirstGuessWide at h
          rw [one_mul, Int.mul_ediv_cancel_left _ (by norm_num)] at h
          unfold LeadGe at hl
          rw [mx, my, tx, ty] at hl
          norm_num at hl
          have h3 : midFac |b| * |a| ≤ midFac |b| * |b| / 1000000000 := by
            rw [Int.le_ediv_iff_mul_le (by norm_num)]; nlinarith
          have h4 : 1 ≤ midFac |b| * |b| / 1000000000 := by
            rw [Int.le_ediv_iff_mul_le (by norm_num)]; nlinarith
          have h7 := Int.mul_ediv_self_le (x := midFac |b| * |a|) (k := midFac |b| * |b| / 1000000000) (by omega)
          nlinarith
    · have hl : ¬ LeadGe x y := by unfold LeadGe; rw [mx, my, tx, ty]; omega
      rw [hsteps, tx, if_neg hl, add_zero]
      have := remWins_more (R := midFac |b| * |b|) (P := 1) 0 (midFac |b| * |a|)
      rw [zero_add] at this
      rw [this, remRun_one hR (Or.inr ⟨hV0, hlt⟩)]
      simp only [remWins, List.nil_append, List.mem_singleton, exists_eq_left]
      rw [hlast]
      exact ⟨Or.inr, fun h => h.resolve_left hs⟩

/-- **C63** Divisors of 10 to 18 digits in a debug build: exactly when the quotient is computed. -/
theorem C63_div_debug_iff {a b : Int} {x y res : FixedDecimal} (hx : Converted .debug a x) (hy : Converted .debug b y)
    (hres : res.lsu.length = 9) (hb9 : 10 ^ 9 ≤ |b|) (hb : |b| < 10 ^ 18) :
    (∃ r, FixedDecimal.divTo .debug x y res 4 = .ok r) ↔ ¬ (Stopped |a| |b| ∨ Stopped (1000000000 * |a|) |b|) := by
  obtain ⟨tx, vx, fx, ix⟩ := converted_spec hx
  obtain ⟨ty, vy, fy, iy⟩ := converted_spec hy
  have hB0 : (0 : Int) < |b| := lt_of_lt_of_le (by norm_num) hb9
  have zb : val y ≠ 0 := by rw [vy]; exact_mod_cast (abs_pos.mp hB0)
  norm_num at hb9 hb
  by_cases za : val x = 0
  · have ha : a = 0 := by rw [vx] at za; exact_mod_cast za
    refine ⟨fun _ => ?_, fun _ => ⟨_, C34_zero_div .debug tx.toWF ty.toWF hres za zb 4⟩⟩
    rw [ha]
    simp only [abs_zero, mul_zero, or_self]
    exact not_stopped_small hb9 hb le_rfl (by omega)
  obtain ⟨-, hr, hq, hs, -⟩ := quo_plan hx hy
  rw [← quoWide_mid hx hy hb9 hb]
  have := C58_debug_ok_iff tx.toWF ty.toWF hres za zb (incr := 4) (by norm_num)
  rw [show ((4 : Nat) : Int) = 4 from rfl] at this
  rw [this]
  exact ⟨fun h => h.2.2.2, fun h => ⟨hr, by omega, hs, h⟩⟩

/-! ## Divisors of 19 and 20 digits -/

theorem missed_tooBig {A B : Int} (hd : 0 < bigFac B) : TooBig (bigFac B * B) 1000000000 (bigFac B * A) ↔ Missed A B := by
  unfold TooBig Missed
  rw [Int.mul_ediv_mul_of_pos _ _ hd]

theorem spoiled_eq {A B : Int} (hd : 0 < bigFac B) :
    (1000000000 ^ 3 - (bigFac B * B - bigFac B * A % (bigFac B * B))) -
      (1000000000 ^ 3 - (bigFac B * B - bigFac B * A % (bigFac B * B))) % 1000000000 +
      (-(1000000000 ^ 3 - (bigFac B * B - bigFac B * A % (bigFac B * B)))) % 1000000000 = spoiled A B := by
  unfold spoiled
  rw [Int.mul_emod_mul_of_pos _ _ hd, ← mul_sub]
  generalize bigFac B * (B - A % B) = s
  omega

/-- The run of a quotient not below 1. -/
theorem quo_large_ge {a b : Int} {x y : FixedDecimal} (hx : Converted m a x) (hy : Converted m b y) (hb : 10 ^ 18 ≤ |b|)
    (hle : |b| ≤ |a|) :
    quoWindows x y 4 = [bigFac |b| * |a|, 1000000000 * (if Missed |a| |b| then spoiled |a| |b| else
      bigFac |b| * |a| % (bigFac |b| * |b|))] ∧
    codeQuo x y 4 = bigFac |b| * |a| / (bigFac |b| * |b|) * 1000000000 +
      1000000000 * (if Missed |a| |b| then spoiled |a| |b| else bigFac |b| * |a| % (bigFac |b| * |b|)) / (bigFac |b| * |b|) := by
  obtain ⟨hFU, -, -, -, hlow⟩ := quo_plan hx hy
  have ux := (converted_fu hx).1
  have uy := (converted_fu hy).1
  have mx := converted_mant hx
  have my := converted_mant hy
  have ty := converted_top hy hb
  have tx := converted_top hx (le_trans hb hle)
  have hd : normFac y = bigFac |b| := by unfold normFac bigFac; rw [my, ty]; norm_num
  obtain ⟨d1, d2⟩ := bigFac_bounds hb (converted_abs hy)
  have hd0 : 0 < bigFac |b| := by omega
  have hlead : LeadGe x y := by unfold LeadGe; rw [mx, my, tx, ty]; nlinarith
  have hsteps : quoSteps x y 4 = 2 := by
    unfold quoSteps; rw [hFU, ty, tx, ux, uy, if_pos hlead]; rfl
  have hIU : quoIU x y = 1 := by
    have hA := converted_abs hx
    have hA18 := le_trans hb hle
    have hB := converted_abs hy
    norm_num at hA hB hb hA18
    have e1 : ∀ {n : Int}, 1000000000000000000 ≤ n → n < 18446744073709551616 → Nat.log 10 n.toNat = 18 ∨ Nat.log 10 n.toNat = 19 := by
      intro n h1 h2
      have h3 : 18 ≤ Nat.log 10 n.toNat := Nat.le_log_of_pow_le (by norm_num) (by norm_num; omega)
      have h4 : Nat.log 10 n.toNat < 20 := Nat.log_lt_of_lt_pow' (by norm_num) (by norm_num; omega)
      omega
    have hmono : Nat.log 10 |b|.toNat ≤ Nat.log 10 |a|.toNat := Nat.log_mono_right (by omega)
    have q : quoIntg x y = (Nat.log 10 |a|.toNat : Int) - Nat.log 10 |b|.toNat + 1 := by
      unfold quoIntg digitCount; rw [if_pos hlead, mx, my, ux, uy]; push_cast; ring
    have h1 := e1 hA18 hA
    have h2 := e1 hb hB
    unfold quoIU unitsFor
    omega
  set X := bigFac |b| * |a|
  set R := bigFac |b| * |b|
  -- the first window
  have hw1 : fromUnit (1000000000 ^ (1 + 1) * X) ((1 : Nat) + ((1 : Nat) : Int)) = X := by
    unfold fromUnit
    rw [if_pos (by norm_num)]
    have : (((1 : Nat) : Int) + (1 : Nat)).toNat = 2 := rfl
    rw [this, Int.mul_ediv_cancel_left _ (by norm_num)]
  have hnext : quoNext R 1000000000 2 ((1 : Nat) : Int) 1 (1000000000 ^ (1 + 1) * X) =
      1000000000 ^ 2 * (if Missed |a| |b| then spoiled |a| |b| else X % R) := by
    have hp : ∀ D, putUnit (1000000000 ^ (1 + 1) * X) ((1 : Nat) + ((1 : Nat) : Int)) D = 1000000000 ^ 2 * D := by
      intro D
      unfold putUnit
      rw [if_pos (by norm_num)]
      have : (((1 : Nat) : Int) + (1 : Nat)).toNat = 2 := rfl
      rw [this, Int.mul_emod_right]
      ring
    unfold quoNext
    rw [hw1, hp, hp]
    by_cases hm : Missed |a| |b|
    · rw [if_pos ((missed_tooBig hd0).mpr hm), if_pos hm]
      have e2 : min 2 (((2 : Nat) : Int) + 1 + ((1 : Nat) : Int)).toNat = 2 := rfl
      rw [e2, ← spoiled_eq hd0]
      generalize (1000000000 : Int) ^ (2 + 1) - (R - X % R) = D
      unfold negUnits
      norm_num
      omega
    · rw [if_neg (fun h => hm ((missed_tooBig hd0).mp h)), if_neg hm]
  have hw0 : ∀ D : Int, fromUnit (1000000000 ^ 2 * D) ((0 : Nat) + ((1 : Nat) : Int)) = 1000000000 * D := by
    intro D
    unfold fromUnit
    rw [if_pos (by norm_num)]
    have : (((0 : Nat) : Int) + (1 : Nat)).toNat = 1 := rfl
    rw [this, pow_one]
    omega
  constructor
  · unfold quoWindows
    rw [hlow, hFU, hsteps, hIU, hd, mx, my, ty, quoWins_succ]
    change fromUnit (1000000000 ^ (1 + 1) * X) _ :: quoWins R (1000000000 ^ (2 - 1)) 2 ((1 : Nat) : Int) 1
      (quoNext R (1000000000 ^ (2 - 1)) 2 ((1 : Nat) : Int) 1 (1000000000 ^ (1 + 1) * X)) = _
    rw [show (1000000000 : Int) ^ (2 - 1) = 1000000000 from by norm_num, hnext, hw1, quoWins_succ, hw0]
    rfl
  · unfold codeQuo
    rw [hlow, hFU, hsteps, hIU, hd, mx, my, ty, if_neg (by norm_num)]
    change fromUnit (1000000000 ^ (1 + 1) * X) ((1 : Nat) + ((1 : Nat) : Int)) / R * 1000000000 ^ 1 + (fromUnit
      (quoNext R (1000000000 ^ (2 - 1)) 2 ((1 : Nat) : Int) 1 (1000000000 ^ (1 + 1) * X)) ((0 : Nat) + ((1 : Nat) : Int)) / R *
        1000000000 ^ 0 + 0) = _
    rw [show (1000000000 : Int) ^ (2 - 1) = 1000000000 from by norm_num, hnext, hw1, hw0]
    ring

/-- The run of a quotient below 1. -/
theorem quo_large_lt {a b : Int} {x y : FixedDecimal} (hx : Converted m a x) (hy : Converted m b y) (hb : 10 ^ 18 ≤ |b|)
    (hlt : |a| < |b|) :
    (quoWindows x y 4 = [1000000000 * (bigFac |b| * |a|)] ∨ quoWindows x y 4 = [] ∧ 1000000000 * |a| < |b|) ∧
    codeQuo x y 4 = 1000000000 * (bigFac |b| * |a|) / (bigFac |b| * |b|) := by
  obtain ⟨hFU, -, -, -, hlow⟩ := quo_plan hx hy
  have ux := (converted_fu hx).1
  have uy := (converted_fu hy).1
  have mx := converted_mant hx
  have my := converted_mant hy
  have wx := (converted_spec hx).1.toWF
  have ty := converted_top hy hb
  have hd : normFac y = bigFac |b| := by unfold normFac bigFac; rw [my, ty]; norm_num
  obtain ⟨d1, d2⟩ := bigFac_bounds hb (converted_abs hy)
  have hd0 : 0 < bigFac |b| := by omega
  have hA0 := abs_nonneg a
  norm_num at hb
  have hst : quoSteps x y 4 = ((topUnit x : Int) - 1 + if LeadGe x y then 1 else 0).toNat := by
    unfold quoSteps; rw [hFU, ty, ux, uy]; congr 1; split_ifs <;> push_cast <;> ring
  have hcase : quoSteps x y 4 = 1 ∨ quoSteps x y 4 = 0 ∧ 1000000000 * |a| < |b| := by
    rcases (by have := converted_top_le hx; omega : topUnit x = 0 ∨ topUnit x = 1 ∨ topUnit x = 2) with tx | tx | tx
    · right
      rw [hst, tx]
      refine ⟨by split_ifs <;> rfl, ?_⟩
      have := (top_zero_iff wx).mp tx
      rw [mx] at this
      omega
    · by_cases hl : LeadGe x y
      · left; rw [hst, tx, if_pos hl]; rfl
      · right
        rw [hst, tx, if_neg hl]
        refine ⟨rfl, ?_⟩
        unfold LeadGe at hl
        rw [mx, my, tx, ty] at hl
        norm_num at hl
        omega
    · left
      have hl : ¬ LeadGe x y := by unfold LeadGe; rw [mx, my, tx, ty]; norm_num; omega
      rw [hst, tx, if_neg hl]; rfl
  have hw0 : fromUnit (1000000000 ^ (quoIU x y + 1) * (bigFac |b| * |a|)) ((0 : Nat) + (quoIU x y : Int)) =
      1000000000 * (bigFac |b| * |a|) := by
    unfold fromUnit
    rw [if_pos (by positivity)]
    have : (((0 : Nat) : Int) + (quoIU x y : Int)).toNat = quoIU x y := by omega
    rw [this, pow_succ, mul_assoc, Int.mul_ediv_cancel_left _ (by positivity)]
  rcases hcase with h | ⟨h, hs⟩
  · constructor
    · left
      unfold quoWindows
      rw [hlow, hFU, h, hd, mx, my, ty, quoWins_succ, hw0]
      rfl
    · unfold codeQuo
      rw [hlow, hFU, h, hd, mx, my, ty, if_neg (by norm_num)]
      change fromUnit (1000000000 ^ (quoIU x y + 1) * (bigFac |b| * |a|)) ((0 : Nat) + (quoIU x y : Int)) / _ * 1000000000 ^ 0 + 0 = _
      rw [hw0]; ring
  · constructor
    · right
      refine ⟨?_, hs⟩
      unfold quoWindows
      rw [h]; rfl
    · unfold codeQuo
      rw [h, if_neg (by rw [ty]; norm_num)]
      unfold quoRun
      symm
      apply Int.ediv_eq_zero_of_lt (by positivity)
      nlinarith

/-- After a missed guess: between the divisor's 10^9 - 1 fold and beyond. -/
theorem spoiled_bounds {A B : Int} (h1 : 10 ^ 18 ≤ B) (h2 : B < 2 ^ 64) (hA : A < 2 ^ 64) (hA0 : 0 ≤ A) (h : Missed A B) :
    999999999 * (bigFac B * B) ≤ 1000000000 * spoiled A B ∧
    1000000000 ≤ (1000000000 * spoiled A B / 1000000000000000000) / (bigFac B * B / 1000000000000000000) ∧
    1000000000 * (A % B) / B = 999999999 := by
  obtain ⟨d1, d2⟩ := bigFac_bounds h1 h2
  have hn := missed_near h1 h2 hA hA0 h
  norm_num at h1 h2 hA
  have hl := Int.emod_lt_of_pos A (by omega : 0 < B)
  have hp := Int.emod_nonneg A (by omega : B ≠ 0)
  have hs0 : 0 ≤ bigFac B * (B - A % B) := by apply mul_nonneg <;> omega
  have hs1 : bigFac B * (B - A % B) ≤ 200000000000 := by nlinarith
  have hR : bigFac B * B ≤ 1000000000000000000000000000 - 1 := by
    unfold bigFac
    have h3 := Int.mul_ediv_self_le (x := 1000000000) (k := B / 1000000000000000000 + 1) (by omega)
    have h4 : B < 1000000000000000000 * (B / 1000000000000000000 + 1) := by omega
    have h5 : 0 < 1000000000 / (B / 1000000000000000000 + 1) := by
      change 0 < bigFac B; omega
    generalize 1000000000 / (B / 1000000000000000000 + 1) = d at *
    nlinarith
  have hR0 : 52631578 * 1000000000000000000 ≤ bigFac B * B := by nlinarith
  have hsp : 1000000000000000000000000000 - 202000000000 ≤ spoiled A B := by
    unfold spoiled
    generalize bigFac B * (B - A % B) = s at *
    omega
  refine ⟨by omega, ?_, ?_⟩
  · generalize spoiled A B = sp at *
    generalize bigFac B * B = R at *
    have h6 : R / 1000000000000000000 ≤ 999999999 := by omega
    have h7 : 0 < R / 1000000000000000000 := by omega
    rw [Int.le_ediv_iff_mul_le h7]
    have h8 : 999999999000000000 ≤ 1000000000 * sp / 1000000000000000000 := by omega
    omega
  · generalize A % B = r at *
    apply le_antisymm
    · have : 1000000000 * r / B < 1000000000 := Int.ediv_lt_of_lt_mul (by omega) (by omega)
      omega
    · rw [Int.le_ediv_iff_mul_le (by omega)]
      omega

theorem truncQuot_ints {a b : Int} (hb : b ≠ 0) :
    truncQuot (a : ℚ) b 9 = (if (a < 0 ↔ b < 0) then 1 else -1) *
      ((1000000000 * |a| / |b| : Int) : ℚ) / 10 ^ 9 := by
  unfold truncQuot
  have e : (a : ℚ) / b * 10 ^ 9 = ((1000000000 * a : Int) : ℚ) / (b : Int) := by push_cast; ring
  rw [e, truncZ_int]
  congr 1
  have h0 : (1000000000 * a).tdiv b = (if (a < 0 ↔ b < 0) then 1 else -1) * (1000000000 * |a| / |b|) := by
    rcases lt_or_gt_of_ne hb with h | h
    · rcases lt_or_ge a 0 with h' | h'
      · rw [if_pos (by simp [h, h']), abs_of_neg h, abs_of_neg h', one_mul]
        rw [show 1000000000 * a = -(1000000000 * -a) by ring, Int.neg_tdiv, ← Int.tdiv_neg, Int.tdiv_eq_ediv_of_nonneg (by omega)]
      · rw [if_neg (by simp [h, not_lt.mpr h']), abs_of_neg h, abs_of_nonneg h']
        rw [Int.tdiv_eq_ediv_of_nonneg (by omega)]
        rw [Int.ediv_neg]; ring
    · rcases lt_or_ge a 0 with h' | h'
      · rw [if_neg (by simp [h', not_lt.mpr h.le]), abs_of_pos h, abs_of_neg h']
        rw [show 1000000000 * a = -(1000000000 * -a) by ring, Int.neg_tdiv, Int.tdiv_eq_ediv_of_nonneg (by omega)]
        ring
      · rw [if_pos (by simp [not_lt.mpr h', not_lt.mpr h.le]), abs_of_pos h, abs_of_nonneg h', one_mul]
        rw [Int.tdiv_eq_ediv_of_nonneg (by omega)]
  rw [h0]
  split_ifs <;> simp

theorem ediv_split {A B : Int} (hB : 0 < B) : 1000000000 * A / B = A / B * 1000000000 + 1000000000 * (A % B) / B := by
  have h := Int.emod_add_mul_ediv A B
  have e : 1000000000 * A = 1000000000 * (A % B) + B * (A / B * 1000000000) := by linear_combination -1000000000 * h
  rw [e, Int.add_mul_ediv_left _ _ hB.ne']
  ring

/-- The integer the code computes, and whether its units are units. -/
theorem codeQuo_large {a b : Int} {x y : FixedDecimal} (hx : Converted m a x) (hy : Converted m b y) (hb : 10 ^ 18 ≤ |b|) :
    (codeQuo x y 4 = 1000000000 * |a| / |b| ↔ ¬ Spilled |a| |b|) ∧ (QuoUnitWide x y 4 ↔ Spilled |a| |b|) := by
  have ty := converted_top hy hb
  have my := converted_mant hy
  have hd : normFac y = bigFac |b| := by unfold normFac bigFac; rw [my, ty]; norm_num
  have hB := converted_abs hy
  have hA := converted_abs hx
  obtain ⟨d1, d2⟩ := bigFac_bounds hb hB
  have hd0 : 0 < bigFac |b| := by omega
  have hB0 : 0 < |b| := lt_of_lt_of_le (by norm_num) hb
  have hR : 0 < bigFac |b| * |b| := by positivity
  by_cases hle : |b| ≤ |a|
  · obtain ⟨h1, h2⟩ := quo_large_ge hx hy hb hle
    have hlow : bigFac |b| * |a| / (bigFac |b| * |b|) < 1000000000 := by
      rw [Int.mul_ediv_mul_of_pos _ _ hd0]
      norm_num at hA hb
      exact Int.ediv_lt_of_lt_mul hB0 (by omega)
    have hw : QuoUnitWide x y 4 ↔ 1000000000 ≤ 1000000000 * (if Missed |a| |b| then spoiled |a| |b| else
        bigFac |b| * |a| % (bigFac |b| * |b|)) / (bigFac |b| * |b|) := by
      unfold QuoUnitWide
      rw [h1, hd, my, ty]
      simp only [List.mem_cons, List.not_mem_nil, or_false, exists_eq_or_imp, exists_eq_left]
      constructor
      · rintro ⟨-, h | h⟩
        · omega
        · exact h
      · exact fun h => ⟨by norm_num, Or.inr h⟩
    rw [hw, h2, ediv_split hB0, Int.mul_ediv_mul_of_pos _ _ hd0]
    by_cases hm : Missed |a| |b|
    · have hlt : |b| < |a| := by
        rcases lt_or_eq_of_le hle with h | h
        · exact h
        · rw [← h] at hm; exact absurd hm (not_missed_self hb hB)
      obtain ⟨s1, -, s3⟩ := spoiled_bounds hb hB hA (abs_nonneg _) hm
      rw [if_pos hm, s3]
      have hge : 999999999 ≤ 1000000000 * spoiled |a| |b| / (bigFac |b| * |b|) := by
        rw [Int.le_ediv_iff_mul_le hR]; exact s1
      have hiff : 1000000000 ≤ 1000000000 * spoiled |a| |b| / (bigFac |b| * |b|) ↔ Spilled |a| |b| := by
        rw [Int.le_ediv_iff_mul_le hR]
        unfold Spilled
        constructor
        · intro h; exact ⟨hlt, hm, by omega⟩
        · rintro ⟨-, -, h⟩; omega
      rw [hiff]
      refine ⟨?_, Iff.rfl⟩
      rw [← hiff]
      constructor <;> intro h <;> omega
    · have hns : ¬ Spilled |a| |b| := fun h => hm h.2.1
      rw [if_neg hm, Int.mul_emod_mul_of_pos _ _ hd0, mul_left_comm, Int.mul_ediv_mul_of_pos _ _ hd0]
      refine ⟨iff_of_true rfl hns, iff_of_false ?_ hns⟩
      have := Int.emod_lt_of_pos |a| hB0
      rw [not_le]
      exact Int.ediv_lt_of_lt_mul hB0 (by omega)
  · have hns : ¬ Spilled |a| |b| := fun h => hle h.1.le
    obtain ⟨h1, h2⟩ := quo_large_lt hx hy hb (by omega)
    rw [h2, mul_left_comm, Int.mul_ediv_mul_of_pos _ _ hd0]
    refine ⟨iff_of_true rfl hns, iff_of_false ?_ hns⟩
    rintro ⟨-, W, hW, hwide⟩
    rcases h1 with h1 | ⟨h1, -⟩
    · rw [h1, List.mem_singleton] at hW
      rw [hW, hd, my, mul_left_comm, Int.mul_ediv_mul_of_pos _ _ hd0] at hwide
      have : 1000000000 * |a| / |b| < 1000000000 := Int.ediv_lt_of_lt_mul hB0 (by omega)
      omega
    · rw [h1] at hW; cases hW

theorem converted_neg_iff {n : Int} {x : FixedDecimal} (h : Converted m n x) (h0 : n ≠ 0) : neg x = true ↔ n < 0 := by
  obtain ⟨tx, hv, -, -⟩ := converted_spec h
  have hnn := absVal_nonneg tx.toWF
  unfold val at hv
  constructor
  · intro h
    rw [if_pos h] at hv
    have h1 : (n : ℚ) ≤ 0 := by rw [← hv]; linarith
    have h2 : n ≤ 0 := by exact_mod_cast h1
    omega
  · intro h
    by_contra hc
    rw [if_neg hc] at hv
    have h1 : (0 : ℚ) ≤ n := by rw [← hv]; linarith
    have h2 : 0 ≤ n := by exact_mod_cast h1
    omega

/-- **C63** For divisors of 19 and 20 digits: the quotient is right exactly if it is well-formed, and exactly unless it is spilled. -/
theorem C63_div_large_right_iff {a b : Int} {x y res r : FixedDecimal} (hx : Converted m a x) (hy : Converted m b y)
    (hres : res.lsu.length = 9) (ha0 : a ≠ 0) (hb : 10 ^ 18 ≤ |b|) (h : FixedDecimal.divTo m x y res 4 = .ok r) :
    (val r = truncQuot a b 9 ↔ ¬ Spilled |a| |b|) ∧ (WF r ↔ ¬ Spilled |a| |b|) := by
  obtain ⟨tx, vx, -, -⟩ := converted_spec hx
  obtain ⟨ty, vy, -, -⟩ := converted_spec hy
  have hB0 : (0 : Int) < |b| := lt_of_lt_of_le (by norm_num) hb
  have hb0 : b ≠ 0 := abs_pos.mp hB0
  have za : val x ≠ 0 := by rw [vx]; exact_mod_cast ha0
  have zb : val y ≠ 0 := by rw [vy]; exact_mod_cast hb0
  obtain ⟨hFU, -⟩ := quo_plan hx hy
  obtain ⟨hv, hw⟩ := C36_code m tx.toWF ty.toWF hres za zb (incr := 4) (by norm_num) h
  obtain ⟨h1, h2⟩ := codeQuo_large hx hy hb
  refine ⟨?_, by rw [hw, h2]⟩
  rw [← h1, hv, truncQuot_ints hb0, hFU]
  have hs : (neg x = neg y) ↔ (a < 0 ↔ b < 0) := by
    rw [← converted_neg_iff hx ha0, ← converted_neg_iff hy hb0]
    exact Bool.eq_iff_iff
  simp only [hs]
  norm_num
  constructor
  · intro h
    have h' : (codeQuo x y 4 : ℚ) = ((1000000000 * |a| / |b| : Int) : ℚ) := by
      split_ifs at h <;> push_cast <;> linarith
    exact_mod_cast h'
  · intro h
    rw [h]

/-- **C63** A debug build computes the quotient by a divisor of 19 or 20 digits exactly if no guess is missed and no first guess is too
wide. -/
theorem C63_div_large_debug_iff {a b : Int} {x y res : FixedDecimal} (hx : Converted .debug a x) (hy : Converted .debug b y)
    (hres : res.lsu.length = 9) (hb : 10 ^ 18 ≤ |b|) :
    (∃ r, FixedDecimal.divTo .debug x y res 4 = .ok r) ↔ ¬ (|b| < |a| ∧ Missed |a| |b|) ∧ ¬ StoppedBig |a| |b| := by
  obtain ⟨tx, vx, -, -⟩ := converted_spec hx
  obtain ⟨ty, vy, -, -⟩ := converted_spec hy
  have hB0 : (0 : Int) < |b| := lt_of_lt_of_le (by norm_num) hb
  have zb : val y ≠ 0 := by rw [vy]; exact_mod_cast (abs_pos.mp hB0)
  have hB := converted_abs hy
  have hA := converted_abs hx
  obtain ⟨d1, d2⟩ := bigFac_bounds hb hB
  have hd0 : 0 < bigFac |b| := by omega
  have hR : 0 < bigFac |b| * |b| := by positivity
  have hT : 1 ≤ bigFac |b| * |b| / 1000000000000000000 := by
    rw [Int.le_ediv_iff_mul_le (by norm_num)]; norm_num at hb; nlinarith
  have hsmall : 1000000000 * |a| < |b| → ¬ StoppedBig |a| |b| := by
    intro hs h
    unfold StoppedBig at h
    have hX0 : 0 ≤ bigFac |b| * |a| := by positivity
    have hX : bigFac |b| * |a| * 1000000000 < bigFac |b| * |b| := by nlinarith
    rw [Int.emod_eq_of_lt hX0 (by nlinarith)] at h
    generalize bigFac |b| * |a| = X at *
    generalize bigFac |b| * |b| = R at *
    have h3 : X / 1000000000 ≤ R / 1000000000000000000 := by omega
    have h7 := Int.mul_ediv_self_le (x := X / 1000000000) (k := R / 1000000000000000000) (by omega)
    nlinarith
  by_cases za : val x = 0
  · have ha : a = 0 := by rw [vx] at za; exact_mod_cast za
    refine iff_of_true ⟨_, C34_zero_div .debug tx.toWF ty.toWF hres za zb 4⟩ ⟨fun h => ?_, hsmall ?_⟩
    · rw [ha, abs_zero] at h; omega
    · rw [ha, abs_zero]; omega
  obtain ⟨-, hr, hq, hs, -⟩ := quo_plan hx hy
  have := C58_debug_ok_iff tx.toWF ty.toWF hres za zb (incr := 4) (by norm_num)
  rw [show ((4 : Nat) : Int) = 4 from rfl] at this
  rw [this]
  have tty := converted_top hy hb
  have my := converted_mant hy
  have hd : normFac y = bigFac |b| := by unfold normFac bigFac; rw [my, tty]; norm_num
  have key : QuoGuessWide x y 4 ↔ (|b| < |a| ∧ Missed |a| |b|) ∨ StoppedBig |a| |b| := by
    have hlast : FirstGuessWide (bigFac |b| * |b|) (1000000000 ^ (2 - 1)) (1000000000 * (bigFac |b| * |a| % (bigFac |b| * |b|))) ↔
        StoppedBig |a| |b| := by
      unfold FirstGuessWide StoppedBig
      norm_num
      rw [show (1000000000000000000 : Int) = 1000000000 * 1000000000 by norm_num, Int.mul_ediv_mul_of_pos _ _ (by norm_num)]
    unfold QuoGuessWide
    rw [hd, my, tty]
    by_cases hle : |b| ≤ |a|
    · rw [(quo_large_ge hx hy hb hle).1]
      simp only [List.mem_cons, List.not_mem_nil, or_false, exists_eq_or_imp, exists_eq_left]
      have hno : ¬ FirstGuessWide (bigFac |b| * |b|) (1000000000 ^ (2 - 1)) (bigFac |b| * |a|) := by
        unfold FirstGuessWide
        norm_num
        apply Int.ediv_lt_of_lt_mul (by omega)
        have h1 : bigFac |b| * |a| / 1000000000000000000 < 10000000000 := by
          apply Int.ediv_lt_of_lt_mul (by norm_num)
          norm_num at hA
          nlinarith
        have h2 : 52631578 ≤ bigFac |b| * |b| / 1000000000000000000 := by
          rw [Int.le_ediv_iff_mul_le (by norm_num)]
          norm_num at hb
          nlinarith
        nlinarith
      by_cases hm : Missed |a| |b|
      · have hlt : |b| < |a| := by
          rcases lt_or_eq_of_le hle with h | h
          · exact h
          · rw [← h] at hm; exact absurd hm (not_missed_self hb hB)
        rw [if_pos hm]
        refine iff_of_true ⟨by norm_num, Or.inr ?_⟩ (Or.inl ⟨hlt, hm⟩)
        have := (spoiled_bounds hb hB hA (abs_nonneg _) hm).2.1
        unfold FirstGuessWide
        norm_num
        exact this
      · rw [if_neg hm, hlast]
        constructor
        · rintro ⟨-, h | h⟩
          · exact absurd h hno
          · exact Or.inr h
        · rintro (h | h)
          · exact absurd h.2 hm
          · exact ⟨by norm_num, Or.inr h⟩
    · have hlt : |a| < |b| := by omega
      have hX0 : 0 ≤ bigFac |b| * |a| := by positivity
      have hX : bigFac |b| * |a| < bigFac |b| * |b| := by nlinarith
      rw [Int.emod_eq_of_lt hX0 hX] at hlast
      rcases (quo_large_lt hx hy hb hlt).1 with h | ⟨h, h'⟩
      · rw [h]
        simp only [List.mem_singleton, exists_eq_left]
        rw [hlast]
        constructor
        · exact fun h => Or.inr h.2
        · rintro (h | h)
          · omega
          · exact ⟨by norm_num, h⟩
      · rw [h]
        refine iff_of_false (fun hc => ?_) ?_
        · obtain ⟨-, W, hW, -⟩ := hc; cases hW
        · rintro (h | h)
          · omega
          · exact hsmall h' h
  rw [key, not_or]
  exact ⟨fun h => h.2.2.2, fun h => ⟨hr, by omega, hs, h⟩⟩

/-- **C63** All converted integers at once: a quotient that is returned is right exactly if it is a well-formed decimal; a debug build
returns no other. -/
theorem C63_div_sound {a b : Int} {x y res r : FixedDecimal} (hx : Converted m a x) (hy : Converted m b y)
    (hres : res.lsu.length = 9) (ha0 : a ≠ 0) (hb0 : b ≠ 0) (h : FixedDecimal.divTo m x y res 4 = .ok r) :
    (val r = truncQuot a b 9 ↔ WF r) ∧ (m = .debug → WF r) := by
  obtain ⟨tx, vx, -, -⟩ := converted_spec hx
  obtain ⟨ty, vy, -, -⟩ := converted_spec hy
  refine ⟨?_, ?_⟩
  · by_cases hb : |b| < 10 ^ 18
    · obtain ⟨h1, -, h2, -⟩ := (C63_div_partial m hx hy hres ha0 hb0 hb).1 r h
      exact iff_of_true h2 h1
    · obtain ⟨h1, h2⟩ := C63_div_large_right_iff hx hy hres ha0 (by omega) h
      rw [h1, h2]
  · rintro rfl
    exact C77_debug_div (incr := 4) tx.toWF ty.toWF hres h

/-- 10^18 by 10^9 + 1 stops, 10^18 + 7 by 2 * 10^9 + 3 does not. 3999999999999999996 by 1999999999999999999 is missed but not spilled, 3999999999999999997 by
1999999999999999999 is spilled. -/
theorem C63_exact_witness : Stopped (10 ^ 18) (10 ^ 9 + 1) ∧ ¬ Stopped (10 ^ 18 + 7) (2 * 10 ^ 9 + 3) ∧
    ¬ Stopped (1000000000 * (10 ^ 18 + 7)) (2 * 10 ^ 9 + 3) ∧ Stopped (1000000000 * 10 ^ 9) (10 ^ 9 + 1) ∧
    Missed (2 * 1999999999999999999 - 2) 1999999999999999999 ∧ ¬ Spilled (2 * 1999999999999999999 - 2) 1999999999999999999 ∧
    Spilled (2 * 1999999999999999999 - 1) 1999999999999999999 ∧ StoppedBig 1999999999999999998 1999999999999999999 ∧
    ¬ StoppedBig 8999999999999999999 2000000000000000003 := by
  decide +kernel

end Props
end Fxd
