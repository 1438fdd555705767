import Verif.Props.NearMisses
import Verif.Props.Modes
import Verif.Props.LeadingUnit
/-!
# Property C123: a division is right, and runs in every build, unless the quotient shows a group of nines

Cut the decimal expansion of the exact quotient into groups of nine digits, counted from the point.  If no group down to the last
place of the result is 999999998 or 999999999, then no guess of the long division is too large and no debug assertion fails.
-/

namespace Fxd
open Spec

variable {m : Mode}

namespace Props

/-- The nine digits of `x` that end with the `9k`-th digit after the point (for `k ≤ 0`: with the digit of weight `10^(-9k)`). -/
def group (x : ℚ) (k : ℤ) : ℤ := ⌊x * 10 ^ (9 * k)⌋ % 1000000000

theorem nearMiss_group {x : ℚ} {k : ℤ} (h : NearMiss (x * 10 ^ (9 * k))) : 999999998 ≤ group x (k + 1) := by
  have h1 := h.close
  unfold group
  rw [show (9 : ℤ) * (k + 1) = 9 * k + 9 by ring, zpow_add₀ (by norm_num), ← mul_assoc]
  set y := x * 10 ^ (9 * k) with hy
  have e : y * (10 : ℚ) ^ (9 : ℤ) = ((1000000000 * ⌊y⌋ : ℤ) : ℚ) + Int.fract y * 1000000000 := by
    have := Int.floor_add_fract y
    push_cast
    norm_num
    linarith
  rw [e, Int.floor_intCast_add, add_comm, Int.add_mul_emod_self_left]
  have h2 := Int.fract_lt_one y
  have l1 : (999999998 : ℤ) ≤ ⌊Int.fract y * 1000000000⌋ := by
    rw [Int.le_floor]; push_cast; norm_num at h1; linarith
  have l2 : ⌊Int.fract y * 1000000000⌋ < 1000000000 := by
    rw [Int.floor_lt]; push_cast; linarith
  rw [Int.emod_eq_of_lt (by linarith) l2]
  exact l1

/-- The quotient unit of a window is a group of the exact quotient. -/
theorem window_group {R V : Int} {j : Nat} (hR0 : 0 < R) :
    V / 1000000000 ^ j % (R * 1000000000) / R = ⌊(V : ℚ) / R / 1000000000 ^ j⌋ % 1000000000 := by
  have hj : (0 : Int) < 1000000000 ^ j := by positivity
  have hRq : (0 : ℚ) < R := by exact_mod_cast hR0
  set N := V / 1000000000 ^ j with hN
  have hfl : ⌊(V : ℚ) / R / 1000000000 ^ j⌋ = N / R := by
    rw [hN, Int.ediv_ediv_of_nonneg hj.le, Int.floor_eq_iff]
    have e := Int.emod_add_mul_ediv V (1000000000 ^ j * R)
    have l1 := Int.emod_nonneg V (mul_pos hj hR0).ne'
    have l2 := Int.emod_lt_of_pos V (mul_pos hj hR0)
    rw [div_div, le_div_iff₀ (by positivity), div_lt_iff₀ (by positivity)]
    constructor
    · have : V / (1000000000 ^ j * R) * (R * 1000000000 ^ j) ≤ V := by nlinarith
      exact_mod_cast this
    · have : V < (V / (1000000000 ^ j * R) + 1) * (R * 1000000000 ^ j) := by nlinarith
      exact_mod_cast this
  rw [hfl]
  have l1 := Int.emod_nonneg N (show R * 1000000000 ≠ 0 by positivity)
  have l2 := Int.emod_lt_of_pos N (show 0 < R * 1000000000 by positivity)
  have e : N / R = N % (R * 1000000000) / R + 1000000000 * (N / (R * 1000000000)) := by
    conv_lhs => rw [← Int.emod_add_mul_ediv N (R * 1000000000), mul_assoc]
    rw [Int.add_mul_ediv_left _ _ hR0.ne']
  rw [e, Int.add_mul_emod_self_left, Int.emod_eq_of_lt (Int.ediv_nonneg l1 hR0.le)
    (Int.ediv_lt_of_lt_mul hR0 (by linarith))]

/-- A first guess that is not a single unit belongs to a quotient unit of at least 999999998. -/
theorem wide_nines {R P W : Int} (hP : 0 < P) (hR : 500000000000000000 * P ≤ R) (h : FirstGuessWide R P W) :
    999999998 ≤ W / R := by
  have hR0 : 0 < R := by linarith
  unfold FirstGuessWide at h
  have hQ : 0 < P * 1000000000 := by positivity
  have hd : 500000000 ≤ R / (P * 1000000000) := by
    rw [Int.le_ediv_iff_mul_le hQ]; linarith
  rw [Int.le_ediv_iff_mul_le (by linarith), Int.le_ediv_iff_mul_le hQ] at h
  have e := Int.emod_add_mul_ediv R (P * 1000000000)
  have l := Int.emod_lt_of_pos R hQ
  rw [Int.le_ediv_iff_mul_le hR0]
  generalize R / (P * 1000000000) = d at *
  generalize R % (P * 1000000000) = t at *
  generalize P * 1000000000 = Q at *
  nlinarith

/-- As long as no guess is too large, the windows of a quotient are those of the exact one. -/
theorem quo_wins_closed {R P : Int} (hR : 0 < R) {k c : Nat} : ∀ (n : Nat) (V : Int), 0 ≤ V → V < R * 1000000000 ^ (n + c) →
    (∀ W ∈ (quoWins R P k c n V).dropLast, ¬ TooBig R P W) →
    ∀ W ∈ quoWins R P k c n V, ∃ j < n, W = V / 1000000000 ^ (j + c) % (R * 1000000000)
  | 0, V, _, _, _ => by simp [quoWins]
  | n + 1, V, h0, h1, hn => by
    have hB : (0 : Int) < 1000000000 ^ (n + c) := by positivity
    have hF : fromUnit V ((n : Int) + (c : Nat)) = V / 1000000000 ^ (n + c) := by
      unfold fromUnit; rw [if_pos (by omega)]; congr 2
    have hW : V / 1000000000 ^ (n + c) % (R * 1000000000) = V / 1000000000 ^ (n + c) := by
      refine Int.emod_eq_of_lt (Int.ediv_nonneg h0 hB.le) ((Int.ediv_lt_iff_lt_mul hB).mpr ?_)
      rw [show n + 1 + c = n + c + 1 by ring, pow_succ] at h1
      linarith [show R * (1000000000 ^ (n + c) * 1000000000) = R * 1000000000 * (1000000000 : Int) ^ (n + c) by ring]
    intro W hmem
    rw [quoWins_succ, hF] at hmem hn
    rcases List.mem_cons.mp hmem with rfl | hmem
    · exact ⟨n, by omega, hW.symm⟩
    match n, hmem, hn, hF with
    | 0, hmem, _, _ => simp [quoWins] at hmem
    | n + 1, hmem, hn, hF =>
      rw [List.dropLast_cons_of_ne_nil (by rw [quoWins_succ]; simp)] at hn
      have hT : ¬ TooBig R P (V / 1000000000 ^ (n + 1 + c)) := hn _ List.mem_cons_self
      have hnext : quoNext R P k c (n + 1) V = remNext R P (n + 1 + c) V := by
        unfold quoNext remNext remStep putUnit
        rw [hF, if_neg hT, if_neg hT, if_pos (by omega)]
        rfl
      obtain ⟨b0, b1⟩ := remNext_bounds hR hT
      rw [hnext] at hmem hn
      obtain ⟨j, hj, e⟩ := quo_wins_closed hR (n + 1) _ b0 b1 (fun W hW => hn W (List.mem_cons_of_mem _ hW)) W hmem
      exact ⟨j, by omega, by rw [e, window_next hT (by omega)]⟩

/-- The same for a remainder. -/
theorem rem_wins_closed {R P : Int} (hR : 0 < R) : ∀ (n : Nat) (V : Int), 0 ≤ V → V < R * 1000000000 ^ n →
    (∀ W ∈ remWins R P n V, ¬ TooBig R P W) → ∀ W ∈ remWins R P n V, ∃ j < n, W = V / 1000000000 ^ j % (R * 1000000000)
  | 0, V, _, _, _ => by simp [remWins]
  | n + 1, V, h0, h1, hn => by
    have hB : (0 : Int) < 1000000000 ^ n := by positivity
    have hW : V / 1000000000 ^ n % (R * 1000000000) = V / 1000000000 ^ n := by
      refine Int.emod_eq_of_lt (Int.ediv_nonneg h0 hB.le) ((Int.ediv_lt_iff_lt_mul hB).mpr ?_)
      rw [pow_succ] at h1
      linarith [show R * (1000000000 ^ n * 1000000000) = R * 1000000000 * (1000000000 : Int) ^ n by ring]
    intro W hmem
    rw [remWins_succ] at hmem hn
    rcases List.mem_cons.mp hmem with rfl | hmem
    · exact ⟨n, by omega, hW.symm⟩
    have hT : ¬ TooBig R P (V / 1000000000 ^ n) := hn _ List.mem_cons_self
    obtain ⟨b0, b1⟩ := remNext_bounds hR hT
    obtain ⟨j, hj, e⟩ := rem_wins_closed hR n _ b0 b1 (fun W hW => hn W (List.mem_cons_of_mem _ hW)) W hmem
    exact ⟨j, by omega, by rw [e, window_next hT hj]⟩

/-- Places of the long division of a quotient in terms of the exact quotient. -/
theorem quo_place {a b : FixedDecimal} (ha : WF a) (hb : WF b) (zb : mant b ≠ 0) (f0 : 0 < normFac b) {incr j : Nat}
    (hc : fu b ≤ quoIU a b + fu a) :
    |val a / val b| * 10 ^ (9 * ((quoFU a b incr : ℤ) - j)) =
      ((1000000000 ^ (quoIU a b + quoFU a b incr) * (normFac b * mant a) : ℤ) : ℚ) / ((normFac b * mant b : ℤ) : ℚ) /
        1000000000 ^ (j + (quoIU a b + fu a - fu b)) := by
  have hmb : 0 < mant b := lt_of_le_of_ne hb.mant_nonneg (Ne.symm zb)
  have hmbq : (0 : ℚ) < mant b := by exact_mod_cast hmb
  have hfq : (0 : ℚ) < normFac b := by exact_mod_cast f0
  have e9 : ∀ k : ℤ, (10 : ℚ) ^ (9 * k) = 1000000000 ^ k := by
    intro k; rw [zpow_mul]; norm_num
  have hx : ∀ k : ℤ, |val a / val b| * 10 ^ (9 * k) = (mant a : ℚ) / mant b * 1000000000 ^ (k + fu b - fu a) := by
    intro k
    rw [abs_quot ha hb]
    unfold absVal
    rw [e9, ← pow9q, ← pow9q, zpow_sub₀ (by norm_num), zpow_add₀ (by norm_num), zpow_natCast, zpow_natCast]
    field_simp
  rw [hx]
  push_cast
  have hexp : (quoFU a b incr : ℤ) - j + fu b - fu a =
      ((quoIU a b + quoFU a b incr : ℕ) : ℤ) - ((j + (quoIU a b + fu a - fu b) : ℕ) : ℤ) := by omega
  rw [hexp, zpow_sub₀ (by norm_num), zpow_natCast, zpow_natCast]
  field_simp

/-- No group of nines, no assertion. -/
theorem quo_not_wide {a b : FixedDecimal} (ha : WF a) (hb : WF b) (za : val a ≠ 0) (zb : val b ≠ 0) {incr : Nat}
    (hc : fu b ≤ quoIU a b + fu a) (hg : ∀ k : ℤ, k ≤ quoFU a b incr → group |val a / val b| k < 999999998) :
    ¬ QuoGuessTooBig a b incr ∧ ¬ QuoGuessWide a b incr := by
  have hn : ¬ QuoGuessTooBig a b incr := by
    intro hbig
    obtain ⟨k, hk, -, h2⟩ := quo_nearMiss ha hb za zb hc hbig
    have := nearMiss_group h2
    have := hg (k + 1) (by omega)
    omega
  refine ⟨hn, ?_⟩
  rintro ⟨ht, W, hW, hwide⟩
  have za' := za
  have zb' := zb
  rw [Ne, val_eq_zero] at za' zb'
  obtain ⟨n0, n1⟩ := norm_wide hb zb' ht
  have hnb : ∀ W ∈ (quoWindows a b incr).dropLast, ¬ TooBig (normFac b * mant b) (1000000000 ^ (topUnit b - 1)) W :=
    fun W hW hT => hn ⟨ht, W, hW, hT⟩
  obtain ⟨nl, -, tl, -⟩ := findNonZero_of_ne ha za'
  obtain ⟨nr, -, tr, -⟩ := findNonZero_of_ne hb zb'
  have hu := quoIU_eq ha hb tl tr
  have hst := quoSteps_eq ha hb tl tr incr
  obtain ⟨f0, f1, f2, f3⟩ := norm_div hb tr (normFac_top hb tr)
  change 0 < tailF b nr at f0
  rw [tailF_eq hb tr] at f0
  have hA := ha.mant_nonneg
  have hR0 : 0 < normFac b * mant b := lt_of_lt_of_le (by positivity) n1
  unfold quoWindows at hW hnb
  by_cases hneg : 0 ≤ (quoFU a b incr : Int) + divPos a b nl nr + 1
  · have hlow : quoLow a b = ((quoIU a b + fu a - fu b : Nat) : Int) := by unfold quoLow; omega
    have hlead := tail_lead ha hb tl tr f0 (rf := quoFU a b incr) (n := quoSteps a b incr) (c := quoLow a b)
      (by rw [hst]; unfold tailN; omega) (by unfold quoLow; rw [hu])
    rw [hlow] at hlead hW hnb
    have hlead' : 1000000000 ^ (quoIU a b + quoFU a b incr) * (normFac b * mant a) <
        normFac b * mant b * 1000000000 ^ (quoSteps a b incr + (quoIU a b + fu a - fu b)) := by
      rw [← Nat.cast_add, zpow_natCast] at hlead
      rw [hu]
      rw [hu] at hlead
      exact_mod_cast hlead
    obtain ⟨j, hj, e⟩ := quo_wins_closed hR0 _ _ (by positivity) hlead' hnb W hW
    have hw := wide_nines (by positivity) n1 hwide
    rw [e, window_group hR0, ← quo_place ha hb zb' n0 hc] at hw
    have := hg ((quoFU a b incr : ℤ) - j) (by omega)
    unfold group at this
    omega
  · have h0 : quoSteps a b incr = 0 := by rw [hst]; unfold tailN; omega
    rw [h0] at hW
    simp [quoWins] at hW

/-- **C123** A quotient that a release build returns is the truncated quotient, and a debug build returns the same, unless one of
the groups of nine digits of the exact quotient, down to the last one of the result, is 999999998 or 999999999. -/
theorem C123_quo {a b res r : FixedDecimal} (ha : WF a) (hb : WF b) (hres : res.lsu.length = 9)
    {incr : Nat} (hi : incr < 2 ^ 62) (h : FixedDecimal.divTo .release a b res incr = .ok r)
    (hc : fracDigits b ≤ fracDigits a ∨ (10 : ℚ) ^ (fracDigits b + 8) ≤ |val a / val b|)
    (hg : ∀ k : ℤ, 9 * k ≤ fracDigits r → group |val a / val b| k < 999999998) :
    FixedDecimal.divTo .debug a b res incr = .ok r ∧ WF r ∧ val r = truncQuot (val a) (val b) (fracDigits r) := by
  have zb : val b ≠ 0 := by
    intro hz; rw [C33_div_zero .release ha hb hres hz] at h; cases h
  by_cases za : val a = 0
  · rw [C34_zero_div .release ha hb hres za zb] at h
    cases h
    rw [C34_zero_div .debug ha hb hres za zb]
    exact ⟨rfl, by decide, by rw [za, truncQuot_zero, val_zero_const]⟩
  have hc' := quo_room ha hb za zb hc
  obtain ⟨-, hfr, -, -⟩ := divTo_all ha hb hres za zb hi h
  obtain ⟨h1, h2⟩ := quo_not_wide ha hb za zb (incr := incr) hc' (fun k hk => hg k (by rw [hfr]; push_cast; linarith))
  obtain ⟨r', hr'⟩ := (C58_debug_ok_iff ha hb hres za zb hi).mpr
    (by obtain ⟨i1, i2, i3⟩ := (C58_release_ok_iff ha hb hres za zb hi).mp ⟨r, h⟩; exact ⟨i1, i2, i3, h2⟩)
  have hsame : r' = r := by
    rcases (C59_arith a b res incr).2.2.2.1 with ⟨p, -, hp⟩ | e
    · rw [hr'] at hp; cases hp
    · rw [hr', h] at e; injection e
  subst hsame
  obtain ⟨w, -, -, e⟩ := C36_exact_partial .debug ha hb hres za zb hi h1 hr'
  exact ⟨hr', w, e hc'⟩

/-! ## The same read off the result -/

/-- The units of a quotient that comes out valid are the quotient units of its windows. -/
theorem run_unit {R P : Int} (hR : 0 < R) {k : Nat} (hRk : R ≤ 1000000000 ^ (k + 1)) {c : Int} : ∀ (n : Nat) (V : Int), 0 ≤ V →
    (∀ W ∈ quoWins R P k c n V, W / R < 1000000000) →
    ∀ W ∈ quoWins R P k c n V, ∃ i < n, quoRun R P k c n V / 1000000000 ^ i % 1000000000 = W / R
  | 0, V, _, _ => by simp [quoWins]
  | n + 1, V, hV, h => by
    intro W hmem
    rw [quoWins_succ] at h hmem
    have hW0 : 0 ≤ fromUnit V (n + c) := by
      unfold fromUnit
      split_ifs
      · exact Int.ediv_nonneg hV (by positivity)
      · positivity
    have hq1 : fromUnit V (n + c) / R < 1000000000 := h _ List.mem_cons_self
    have hq0 : 0 ≤ fromUnit V (n + c) / R := Int.ediv_nonneg hW0 hR.le
    have hnext : 0 ≤ quoNext R P k c n V := quoNext_nonneg hR hRk hV
    have h' : ∀ W ∈ quoWins R P k c n (quoNext R P k c n V), W / R < 1000000000 := fun W hW => h W (List.mem_cons_of_mem _ hW)
    obtain ⟨i1, i2⟩ := quoRun_digits hR hRk n _ hnext h'
    rw [quoRun_succ]
    rcases List.mem_cons.mp hmem with rfl | hmem
    · refine ⟨n, by omega, ?_⟩
      rw [add_comm, Int.add_mul_ediv_right _ _ (by positivity), Int.ediv_eq_zero_of_lt i1 i2, zero_add, Int.emod_eq_of_lt hq0 hq1]
    · obtain ⟨i, hi, e⟩ := run_unit hR hRk n _ hnext h' W hmem
      refine ⟨i, by omega, ?_⟩
      rw [← e]
      obtain ⟨j, rfl⟩ : ∃ j, n = i + 1 + j := ⟨n - (i + 1), by omega⟩
      rw [show (1000000000 : Int) ^ (i + 1 + j) = 1000000000 * 1000000000 ^ j * 1000000000 ^ i by ring, ← mul_assoc, add_comm,
        Int.add_mul_ediv_right _ _ (by positivity), ← mul_assoc, mul_right_comm, Int.add_mul_emod_self_right]

theorem group_units {r : FixedDecimal} (hr : WF r) (i : Nat) :
    group |val r| ((fu r : ℤ) - i) = mant r / 1000000000 ^ i % 1000000000 := by
  unfold group
  congr 1
  have hp : (0 : Int) < 1000000000 ^ i := by positivity
  have e : |val r| * (10 : ℚ) ^ (9 * ((fu r : ℤ) - i)) = (mant r : ℚ) / ((1000000000 ^ i : ℤ) : ℚ) := by
    rw [abs_val hr]
    unfold absVal
    rw [show (10 : ℚ) ^ (9 * ((fu r : ℤ) - i)) = 1000000000 ^ ((fu r : ℤ) - i) by rw [zpow_mul]; norm_num, ← pow9q,
      zpow_sub₀ (by norm_num), zpow_natCast, zpow_natCast]
    push_cast
    field_simp
  rw [e]
  have := @Rat.floor_intCast_div_natCast (mant r) (1000000000 ^ i)
  push_cast at this ⊢
  exact this

/-- A first guess that is not a single unit shows in the result. -/
theorem wide_shows {m : Mode} {a b res r : FixedDecimal} (ha : WF a) (hb : WF b) (hres : res.lsu.length = 9)
    (za : val a ≠ 0) (zb : val b ≠ 0) {incr : Nat} (hi : incr < 2 ^ 62) (h : FixedDecimal.divTo m a b res incr = .ok r) (hw : WF r)
    (hwide : QuoGuessWide a b incr) : ∃ k : ℤ, 9 * k ≤ fracDigits r ∧ 999999998 ≤ group |val r| k := by
  obtain ⟨-, hfr, hfu, hm, -, hwf⟩ := divTo_all ha hb hres za zb hi h
  obtain ⟨ht, W, hW, hwd⟩ := hwide
  have zb' := zb
  rw [Ne, val_eq_zero] at zb'
  obtain ⟨n0, n1⟩ := norm_wide hb zb' ht
  have hn := wide_nines (by positivity) n1 hwd
  have hu := hwf.mp hw
  have hR0 : 0 < normFac b * mant b := lt_of_lt_of_le (by positivity) n1
  have hB : 0 < mant b := lt_of_le_of_ne hb.mant_nonneg (Ne.symm zb')
  have hRk : normFac b * mant b ≤ 1000000000 ^ (topUnit b + 1) := by
    obtain ⟨-, l2, -⟩ := lead_bounds hB
    have hp : (0 : Int) < 1000000000 ^ topUnit b := by positivity
    have t1 := Int.lt_ediv_add_one_mul_self (mant b) hp
    have t2 : normFac b * (mant b / 1000000000 ^ topUnit b + 1) ≤ 1000000000 := by
      unfold normFac
      exact Int.ediv_mul_le _ (by omega)
    rw [pow_succ]
    nlinarith
  have hA := ha.mant_nonneg
  have hall : ∀ W ∈ quoWindows a b incr, W / (normFac b * mant b) < 1000000000 := by
    intro W hW
    by_contra hc
    exact hu ⟨ht, W, hW, not_lt.mp hc⟩
  unfold quoWindows at hW hall
  obtain ⟨i, -, e⟩ := run_unit hR0 hRk _ _ (by positivity) hall W hW
  refine ⟨(fu r : ℤ) - i, by rw [hfr, hfu]; push_cast; omega, ?_⟩
  rw [group_units hw i, hm]
  unfold codeQuo
  rw [if_neg ht, e]
  exact hn

/-- **C123** The check can be made on the result alone: a valid quotient of a release build that shows no group 999999998 or
999999999 is what a debug build returns too, and, if there is room for the dividend, the truncated quotient. -/
theorem C123_self {a b res r : FixedDecimal} (ha : WF a) (hb : WF b) (hres : res.lsu.length = 9)
    {incr : Nat} (hi : incr < 2 ^ 62) (h : FixedDecimal.divTo .release a b res incr = .ok r) (hw : WF r)
    (hg : ∀ k : ℤ, 9 * k ≤ fracDigits r → group |val r| k < 999999998) :
    FixedDecimal.divTo .debug a b res incr = .ok r ∧
      (fracDigits b ≤ fracDigits a ∨ (10 : ℚ) ^ (fracDigits b + 8) ≤ |val a / val b| →
        val r = truncQuot (val a) (val b) (fracDigits r)) := by
  have zb : val b ≠ 0 := by
    intro hz; rw [C33_div_zero .release ha hb hres hz] at h; cases h
  by_cases za : val a = 0
  · rw [C34_zero_div .release ha hb hres za zb] at h
    cases h
    rw [C34_zero_div .debug ha hb hres za zb]
    exact ⟨rfl, fun _ => by rw [za, truncQuot_zero, val_zero_const]⟩
  have h2 : ¬ QuoGuessWide a b incr := by
    intro hwide
    obtain ⟨k, k1, k2⟩ := wide_shows ha hb hres za zb hi h hw hwide
    have := hg k k1
    omega
  obtain ⟨r', hr'⟩ := (C58_debug_ok_iff ha hb hres za zb hi).mpr
    (by obtain ⟨i1, i2, i3⟩ := (C58_release_ok_iff ha hb hres za zb hi).mp ⟨r, h⟩; exact ⟨i1, i2, i3, h2⟩)
  have hsame : r' = r := by
    rcases (C59_arith a b res incr).2.2.2.1 with ⟨p, -, hp⟩ | e
    · rw [hr'] at hp; cases hp
    · rw [hr', h] at e; injection e
  subst hsame
  refine ⟨hr', fun hc => ?_⟩
  have hc' := quo_room ha hb za zb hc
  have h1 : ¬ QuoGuessTooBig a b incr := fun hbig => h2 (miss_is_wide ha hb za zb hc' hbig)
  obtain ⟨-, -, -, e⟩ := C36_exact_partial .debug ha hb hres za zb hi h1 hr'
  exact e hc'

theorem rem_lead {a b : FixedDecimal} (ha : WF a) (hb : WF b) (za : mant a ≠ 0) (zb : mant b ≠ 0) (f0 : 0 < normFac b)
    (hgt : remB a b < remA a b) : normFac b * remA a b < normFac b * remB a b * 1000000000 ^ remUnits a b := by
  obtain ⟨nl, -, tl, -⟩ := findNonZero_of_ne ha za
  obtain ⟨nr, -, tr, -⟩ := findNonZero_of_ne hb zb
  have hlead := div_lead ha hb tl tr
  have hn := remUnits_eq ha hb tl tr hgt
  unfold remA remB
  refine lt_of_mul_lt_mul_right (a := (1000000000 : Int) ^ nr) ?_ (by positivity)
  have hsplit : (1000000000 : Int) ^ (fu a - fu b) * 1000000000 ^ remUnits a b * 1000000000 ^ nr =
      1000000000 ^ (fu b - fu a) * 1000000000 ^ ((nl : Int) + 1 + divSh a b nl nr).toNat := by
    have := divSh_cases a b nl nr
    rw [← pow_add, ← pow_add, ← pow_add]; congr 1; omega
  calc normFac b * (mant a * 1000000000 ^ (fu b - fu a)) * 1000000000 ^ nr =
        normFac b * 1000000000 ^ (fu b - fu a) * (mant a * 1000000000 ^ nr) := by ring
    _ < normFac b * 1000000000 ^ (fu b - fu a) * (mant b * 1000000000 ^ ((nl : Int) + 1 + divSh a b nl nr).toNat) :=
        mul_lt_mul_of_pos_left hlead (by positivity)
    _ = normFac b * mant b * (1000000000 ^ (fu b - fu a) * 1000000000 ^ ((nl : Int) + 1 + divSh a b nl nr).toNat) := by ring
    _ = _ := by rw [← hsplit]; ring

/-! ## Remainders -/

theorem rem_place {a b : FixedDecimal} (ha : WF a) (hb : WF b) (f0 : 0 < normFac b) (j : Nat) :
    |val a / val b| * 10 ^ (9 * (-(j : ℤ))) =
      ((normFac b * remA a b : ℤ) : ℚ) / ((normFac b * remB a b : ℤ) : ℚ) / 1000000000 ^ j := by
  have hfq : (0 : ℚ) < normFac b := by exact_mod_cast f0
  rw [rem_ratio ha hb]
  push_cast
  rw [mul_div_mul_left _ _ hfq.ne', show (9 * (-(j : ℤ))) = -((9 * j : ℕ) : ℤ) by push_cast; ring, zpow_neg, zpow_natCast, pow9q,
    div_eq_mul_inv (_ / _)]

theorem rem_no_miss {a b : FixedDecimal} (ha : WF a) (hb : WF b) (hg : ∀ k : ℤ, k ≤ 1 → group |val a / val b| k < 999999998) :
    ∀ j : Nat, 10 ^ (9 * j) ≤ |val a / val b| → ¬ NearMiss (|val a / val b| / 10 ^ (9 * j)) := by
  intro j _ hm
  have e : |val a / val b| / 10 ^ (9 * j) = |val a / val b| * 10 ^ (9 * (-(j : ℤ))) := by
    rw [show (9 * (-(j : ℤ))) = -((9 * j : ℕ) : ℤ) by push_cast; ring, zpow_neg, zpow_natCast, div_eq_mul_inv]
  rw [e] at hm
  have := nearMiss_group hm
  have := hg (-(j : ℤ) + 1) (by omega)
  omega

/-- **C123** A remainder that is returned is right unless one of the groups of nine digits of the quotient before the point, or the
first one behind it, is 999999998 or 999999999. -/
theorem C123_rem (m : Mode) {a b res r : FixedDecimal} (ha : WF a) (hb : WF b) (hres : res.lsu.length = 9)
    (h : FixedDecimal.remTo m a b res = .ok r) (hg : ∀ k : ℤ, k ≤ 1 → group |val a / val b| k < 999999998) :
    val r = truncRem (val a) (val b) :=
  C121_rem m ha hb hres h (rem_no_miss ha hb hg)

/-- No group of nines, no assertion. -/
theorem rem_no_assert {a b : FixedDecimal} (ha : WF a) (hb : WF b) (za : val a ≠ 0) (zb : val b ≠ 0)
    (hlt : |val b| < |val a|) (hg : ∀ k : ℤ, k ≤ 1 → group |val a / val b| k < 999999998) : ¬ RemAssert a b := by
  have hn : ¬ RemGuessTooBig a b := by
    intro hbig
    obtain ⟨j, h1, h2⟩ := rem_nearMiss ha hb za zb hlt hbig
    exact rem_no_miss ha hb hg j h1 h2
  have za' := za
  have zb' := zb
  rw [Ne, val_eq_zero] at za' zb'
  rintro (⟨hl, W, hW, hwide⟩ | ⟨hl, hd⟩)
  · have ht := hl.1
    obtain ⟨n0, n1⟩ := norm_wide hb zb' ht
    have hwd : 500000000000000000 * 1000000000 ^ (remTop a b - 1) ≤ normFac b * remB a b := by
      unfold remTop remB
      rw [show topUnit b + (fu a - fu b) - 1 = topUnit b - 1 + (fu a - fu b) by omega, pow_add]
      have := mul_le_mul_of_nonneg_right n1 (show (0 : Int) ≤ 1000000000 ^ (fu a - fu b) by positivity)
      linarith
    have hR0 : 0 < normFac b * remB a b := lt_of_lt_of_le (by positivity) hwd
    have hA : 0 ≤ remA a b := by unfold remA; have := ha.mant_nonneg; positivity
    have hnb : ∀ W ∈ remWindows a b, ¬ TooBig (normFac b * remB a b) (1000000000 ^ (remTop a b - 1)) W :=
      fun W hW hT => hn ⟨hl, W, hW, hT⟩
    obtain ⟨nl, -, tl, -⟩ := findNonZero_of_ne ha za'
    obtain ⟨nr, -, tr, -⟩ := findNonZero_of_ne hb zb'
    have hlead : normFac b * remA a b < normFac b * remB a b * 1000000000 ^ remUnits a b := rem_lead ha hb za' zb' n0 hl.2
    obtain ⟨j, hj, e⟩ := rem_wins_closed hR0 _ _ (by positivity) hlead hnb W hW
    have hw := wide_nines (by positivity) hwd hwide
    rw [e, window_group hR0, ← rem_place ha hb n0] at hw
    have := hg (-(j : ℤ)) (by omega)
    unfold group at this
    omega
  · obtain ⟨Q, hQ⟩ := remRun_mod (remUnits a b) (normFac b * remA a b) (R := normFac b * remB a b)
      (P := 1000000000 ^ (remTop a b - 1)) (fun W hW hT => hn ⟨hl, W, hW, hT⟩)
    refine hd ⟨remA a b - Q * remB a b, ?_⟩
    unfold remLeft
    linarith

/-- **C123** And then a debug build returns the same remainder as a release build, as long as there is room for the dividend. -/
theorem C123_rem_debug {a b res r : FixedDecimal} (ha : WF a) (hb : WF b) (hres : res.lsu.length = 9)
    (h : FixedDecimal.remTo .release a b res = .ok r) (hf : ¬ RemFull a b)
    (hg : ∀ k : ℤ, k ≤ 1 → group |val a / val b| k < 999999998) : FixedDecimal.remTo .debug a b res = .ok r := by
  have zb : val b ≠ 0 := by
    intro hz; rw [C33_rem_zero .release ha hb hres hz] at h; cases h
  by_cases za : val a = 0
  · rw [C34_zero_rem .release ha hb hres za zb] at h
    rw [C34_zero_rem .debug ha hb hres za zb, h]
  obtain ⟨r', hr'⟩ := (C60_debug_ok_iff ha hb hres za zb).mpr
    ⟨((C60_release_ok_iff ha hb hres za zb).mp ⟨r, h⟩).1, by
      rintro ⟨hlt, h1 | h1⟩
      · exact rem_no_assert ha hb za zb hlt hg h1
      · exact hf h1⟩
  rcases (C59_arith a b res 0).2.2.2.2.1 with ⟨p, -, hp⟩ | e
  · rw [hr'] at hp; cases hp
  · rw [e, h]

/-- The groups of 1500000000000000003000000002 / 500000000000000000999999999 = 3.00000000000000000000000000999... down to the first one
behind the point are 3 and 0. -/
theorem nm_groups {k : ℤ} (hk : k ≤ 1) : group |val nmA / val wB| k < 999999998 := by
  have w1 : WF nmA := by decide
  have w2 : WF wB := by decide
  have hx : |val nmA / val wB| = 1500000000000000003000000002 / 500000000000000000999999999 := by
    rw [rem_ratio w1 w2, show remA nmA wB = 1500000000000000003000000002 by decide +kernel,
      show remB nmA wB = 500000000000000000999999999 by decide +kernel]; norm_num
  rw [hx]
  unfold group
  rcases (by omega : k = 1 ∨ k = 0 ∨ k < 0) with rfl | rfl | h
  · have : ⌊(1500000000000000003000000002 / 500000000000000000999999999 * 10 ^ (9 * (1 : ℤ)) : ℚ)⌋ = 3000000000 := by
      rw [Int.floor_eq_iff]; norm_num
    rw [this]; norm_num
  · have : ⌊(1500000000000000003000000002 / 500000000000000000999999999 * 10 ^ (9 * (0 : ℤ)) : ℚ)⌋ = 3 := by
      rw [Int.floor_eq_iff]; norm_num
    rw [this]; norm_num
  · have h1 : (10 : ℚ) ^ (9 * k) ≤ 10 ^ (-9 : ℤ) := zpow_le_zpow_right₀ (by norm_num) (by omega)
    have h0 : (0 : ℚ) < 10 ^ (9 * k) := zpow_pos (by norm_num) _
    have : ⌊(1500000000000000003000000002 / 500000000000000000999999999 * 10 ^ (9 * k) : ℚ)⌋ = 0 := by
      rw [Int.floor_eq_iff]
      constructor
      · push_cast; positivity
      · norm_num at h1 ⊢; linarith
    rw [this]; norm_num

/-- non-vacuity: all hypotheses of C123 hold of this division, both kinds -/
example : ∃ r s, FixedDecimal.divTo .release nmA wB FixedDecimal.zero 4 = .ok r ∧ FixedDecimal.remTo .release nmA wB FixedDecimal.zero = .ok s ∧
    WF nmA ∧ WF wB ∧ fracDigits wB ≤ fracDigits nmA ∧ ¬ TwoUnits wB ∧ ¬ RemFull nmA wB ∧ fracDigits r = 9 ∧
    (∀ k : ℤ, 9 * k ≤ fracDigits r → group |val nmA / val wB| k < 999999998) ∧
    (∀ k : ℤ, k ≤ 1 → group |val nmA / val wB| k < 999999998) := by
  refine ⟨⟨1#8, 9, [0, 3, 0, 0, 0, 0, 0, 0, 0]⟩, ⟨1#8, 0, [5, 0, 0, 0, 0, 0, 0, 0, 0]⟩, by decide +kernel, by decide +kernel, by decide,
    by decide, by decide, by decide +kernel, by decide +kernel, by decide, fun k hk => nm_groups ?_, fun k hk => nm_groups hk⟩
  have : fracDigits ⟨1#8, 9, [0, 3, 0, 0, 0, 0, 0, 0, 0]⟩ = 9 := by decide
  rw [this] at hk
  push_cast at hk
  omega

/-- non-vacuity of `C123_self`: the quotient 3.000000000 of the same division is valid and shows the groups 3 and 0 -/
example : let r : FixedDecimal := ⟨1#8, 9, [0, 3, 0, 0, 0, 0, 0, 0, 0]⟩
    FixedDecimal.divTo .release nmA wB FixedDecimal.zero 4 = .ok r ∧ WF r ∧ fracDigits r = 9 ∧
      ∀ k : ℤ, 9 * k ≤ fracDigits r → group |val r| k < 999999998 := by
  intro r
  have hw : WF r := by decide
  refine ⟨by decide +kernel, hw, by decide, fun k hk => ?_⟩
  have h9 : fracDigits r = 9 := by decide
  have h1 : fu r = 1 := by decide
  have hm : mant r = 3000000000 := by decide +kernel
  rw [h9] at hk
  have e := group_units hw (1 - k).toNat
  rw [h1, hm, show ((1 : ℕ) : ℤ) - ((1 - k).toNat : ℕ) = k by push_cast at hk; omega] at e
  rw [e]
  rcases (by omega : (1 - k).toNat = 0 ∨ (1 - k).toNat = 1 ∨ 2 ≤ (1 - k).toNat) with h | h | h
  · rw [h]; norm_num
  · rw [h]; norm_num
  · have : (3000000000 : ℤ) / 1000000000 ^ (1 - k).toNat = 0 := by
      refine Int.ediv_eq_zero_of_lt (by norm_num) ?_
      calc (3000000000 : ℤ) < 1000000000 ^ 2 := by norm_num
        _ ≤ _ := pow_le_pow_right₀ (by norm_num) h
    rw [this]; norm_num

/-- The groups matter: with the group 999999999 behind the point, 1999999998000000021 / 999999999000000010.999999999 stops a debug
build and comes out wrong in a release build (`C116_witness_release`); so does 1500000000000000002999999996 modulo
500000000000000000999999999, whose quotient is 2.999999999... (`C121_witness`). -/
theorem C123_witness : let a : FixedDecimal := ⟨28#8, 0, [999999996, 2, 500000000, 1, 0, 0, 0, 0, 0]⟩
    group |val a / val wB| 1 = 999999999 ∧ ∀ m, FixedDecimal.remTo m a wB FixedDecimal.zero = .ok FixedDecimal.one ∧
      val FixedDecimal.one ≠ truncRem (val a) (val wB) := by
  intro a
  refine ⟨?_, fun m => ⟨(C121_witness m).1, (C121_witness m).2.2.1⟩⟩
  have w1 : WF a := by decide
  have w2 : WF wB := by decide
  have hx : |val a / val wB| = 1500000000000000002999999996 / 500000000000000000999999999 := by
    rw [rem_ratio w1 w2, show remA a wB = 1500000000000000002999999996 by decide +kernel,
      show remB a wB = 500000000000000000999999999 by decide +kernel]; norm_num
  rw [hx]
  unfold group
  have : ⌊(1500000000000000002999999996 / 500000000000000000999999999 * 10 ^ (9 * (1 : ℤ)) : ℚ)⌋ = 2999999999 := by
    rw [Int.floor_eq_iff]; norm_num
  rw [this]; norm_num

end Props
end Fxd
