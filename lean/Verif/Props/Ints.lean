import Verif.Props.Convert
import Verif.Props.AddSub
import Verif.Props.Product
import Verif.Props.Rem
/-!
# Properties C62, C63: arithmetic on converted integers

Decimals that come from `i64` or `u64` behave like the integers under `+`, `-`, `*` (C62).  Under `%` and `/` they do for
divisors below 10^9; below 10^18 in release builds, where debug builds may panic; beyond that neither (C63).
-/

namespace Fxd
open Spec

/-- `x` is what `FixedDecimal::from` makes of the integer `n`, of type `i64` or `u64`. -/
def Converted (m : Mode) (n : Int) (x : FixedDecimal) : Prop :=
  (-2 ^ 63 ≤ n ∧ n < 2 ^ 63 ∧ (FixedDecimal.fromI64 m n : Out Empty _) = .ok x) ∨
    (0 ≤ n ∧ n < 2 ^ 64 ∧ (FixedDecimal.fromU64 n : Out Empty _) = .ok x)

/-- Conversion of an integer to `i64`, as `i64::try_from` does it. -/
def checkedI64 (n : Int) : Out Unit Int :=
  if -2 ^ 63 ≤ n ∧ n < 2 ^ 63 then .ok n else .err .exceedsConversionTargetRange ()

theorem converted_spec {m : Mode} {n : Int} {x : FixedDecimal} (h : Converted m n x) :
    Tight x ∧ val x = n ∧ x.frac = 0 ∧ intgDigits x ≤ 27 := by
  rcases h with ⟨h1, h2, h3⟩ | ⟨h1, h2, h3⟩
  · obtain ⟨d, e, a2, -, a4, a5, a6⟩ := Props.C45_from_i64 (σ := Empty) m h1 h2
    rw [h3] at e; injection e with e; subst e
    exact ⟨a4, a2, a5, a6⟩
  · obtain ⟨d, e, a2, -, a4, a5, a6⟩ := Props.C45_from_u64 (σ := Empty) h1 h2
    rw [h3] at e; injection e with e; subst e
    exact ⟨a4, a2, a5, a6⟩

theorem converted_fu {m : Mode} {n : Int} {x : FixedDecimal} (h : Converted m n x) : fu x = 0 ∧ fracDigits x = 0 ∧ iu x ≤ 3 := by
  obtain ⟨-, -, h3, h4⟩ := converted_spec h
  have : fracDigits x = 0 := by unfold fracDigits; rw [h3]; rfl
  refine ⟨by unfold fu; rw [this]; rfl, this, ?_⟩
  unfold iu unitsFor; omega

theorem asI64_int (m : Mode) {r : FixedDecimal} (hr : WF r) {n : Int} (hv : val r = n) : r.asI64 m = checkedI64 n := by
  rw [Props.C46_as_i64 m hr, hv, halfAway_int]
  unfold checkedI64
  congr 1
  apply propext
  constructor
  · rintro ⟨h1, h2⟩
    have h1' : -9223372036854775808 ≤ n := by norm_num at h1; exact_mod_cast h1
    have h2' : n ≤ 9223372036854775807 := by norm_num at h2; exact_mod_cast h2
    constructor <;> norm_num <;> omega
  · rintro ⟨h1, h2⟩
    norm_num at h1 h2 ⊢
    constructor
    · exact_mod_cast h1
    · exact_mod_cast (by omega : n ≤ 9223372036854775807)

theorem converted_mant {m : Mode} {n : Int} {x : FixedDecimal} (h : Converted m n x) : mant x = |n| := by
  obtain ⟨h1, h2, -, -⟩ := converted_spec h
  have h3 := abs_val h1.toWF
  unfold absVal at h3
  rw [(converted_fu h).1, h2, Nat.mul_zero, pow_zero, div_one, ← Int.cast_abs] at h3
  exact_mod_cast h3.symm

theorem truncZ_int (a b : Int) : truncZ ((a : ℚ) / b) = a.tdiv b := by
  have key : ∀ (a : Int) (b : Nat), truncZ ((a : ℚ) / (b : ℤ)) = a.tdiv b := by
    intro a b
    have pos : ∀ c : Nat, truncZ (((c : ℤ) : ℚ) / (b : ℤ)) = (c : ℤ).tdiv b := by
      intro c
      unfold truncZ
      rw [if_neg (by rw [not_lt]; positivity), Int.tdiv_eq_ediv_of_nonneg (by omega)]
      exact Rat.floor_intCast_div_natCast c b
    rcases Int.eq_nat_or_neg a with ⟨c, rfl | rfl⟩
    · exact pos c
    · rw [Int.cast_neg, neg_div, truncZ_neg, pos, Int.neg_tdiv]
  rcases Int.eq_nat_or_neg b with ⟨c, rfl | rfl⟩
  · exact key a c
  · rw [Int.cast_neg, div_neg, truncZ_neg, key, Int.tdiv_neg]

theorem truncRem_int (a b : Int) : truncRem (a : ℚ) b = (a.tmod b : Int) := by
  unfold truncRem
  rw [truncZ_int, Int.tmod_def]
  push_cast; ring

theorem two_unit_top {b : FixedDecimal} (hb : WF b) (h1 : mant b < 1000000000000000000) : TwoUnits b := by
  have h0 := hb.mant_nonneg
  have : topUnit b ≤ 1 := by
    unfold topUnit
    have : Nat.log 1000000000 (mant b).toNat < 2 := Nat.log_lt_of_lt_pow' (by norm_num) (by norm_num; omega)
    omega
  unfold TwoUnits
  rw [show topUnit b - 1 = 0 by omega, pow_zero]
  exact one_dvd _

/-- Cutting off digits first does not change the integral part. -/
theorem truncZ_cut (q : ℚ) (s : Nat) : truncZ ((truncZ (q * 10 ^ s) : ℚ) / 10 ^ s) = truncZ q := by
  have pos : ∀ q : ℚ, 0 ≤ q → truncZ ((truncZ (q * 10 ^ s) : ℚ) / 10 ^ s) = truncZ q := by
    intro q hq
    have hp : (0 : ℚ) < 10 ^ s := by positivity
    have e1 : truncZ (q * 10 ^ s) = ⌊q * 10 ^ s⌋ := by unfold truncZ; rw [if_neg (by rw [not_lt]; positivity)]
    have h0 : (0 : ℚ) ≤ ⌊q * 10 ^ s⌋ := by exact_mod_cast Int.floor_nonneg.mpr (by positivity)
    rw [e1]
    unfold truncZ
    rw [if_neg (by rw [not_lt]; positivity), if_neg (by linarith)]
    apply le_antisymm
    · apply Int.floor_le_floor
      rw [div_le_iff₀ hp]; exact Int.floor_le _
    · rw [Int.le_floor, le_div_iff₀ hp]
      have : (⌊q⌋ : ℚ) * 10 ^ s = ((⌊q⌋ * 10 ^ s : ℤ) : ℚ) := by push_cast; ring
      rw [this]
      norm_cast
      rw [Int.le_floor]
      push_cast
      exact mul_le_mul_of_nonneg_right (Int.floor_le q) hp.le
  rcases le_or_gt 0 q with h | h
  · exact pos q h
  · have := pos (-q) (by linarith)
    rw [neg_mul, truncZ_neg, truncZ_neg, Int.cast_neg, neg_div, truncZ_neg] at this
    omega

namespace Props

/-- **C62.** Addition of converted integers always succeeds, is exact and has scale 0; converted back to `i64` it is the
checked sum. -/
theorem C62_add (m : Mode) {a b : Int} {x y res : FixedDecimal} (hx : Converted m a x) (hy : Converted m b y)
    (hres : res.lsu.length = 9) :
    ∃ r, FixedDecimal.addTo m x y res = .ok r ∧ WF r ∧ val r = (a + b : Int) ∧ r.frac = 0 ∧ r.asI64 m = checkedI64 (a + b) := by
  obtain ⟨tx, vx, fx, -⟩ := converted_spec hx
  obtain ⟨ty, vy, fy, -⟩ := converted_spec hy
  obtain ⟨ux, -, ix⟩ := converted_fu hx
  obtain ⟨uy, -, iy⟩ := converted_fu hy
  have hf : SumFits x y (val x + val y) := Or.inr (Or.inr (Or.inl (by unfold alignedUnits; omega)))
  obtain ⟨r, e, s⟩ := addTo_ok m tx.toWF ty.toWF hres hf
  have hv : val r = (a + b : Int) := by rw [s.value, vx, vy]; push_cast; rfl
  refine ⟨r, e, s.wf, hv, ?_, asI64_int m s.wf hv⟩
  by_cases za : val x = 0
  · unfold FixedDecimal.addTo at e
    rw [if_pos ((isZero_val tx.toWF).mpr za)] at e
    injection e with e; rw [← e]; exact fy
  · by_cases zb : val y = 0
    · unfold FixedDecimal.addTo at e
      rw [if_neg (fun h => za ((isZero_val tx.toWF).mp h)), if_pos ((isZero_val ty.toWF).mpr zb)] at e
      injection e with e; rw [← e]; exact fx
    · rw [s.scale za zb, fx, fy]; rfl

/-- **C62.** Subtraction. -/
theorem C62_sub (m : Mode) {a b : Int} {x y res : FixedDecimal} (hx : Converted m a x) (hy : Converted m b y)
    (hres : res.lsu.length = 9) :
    ∃ r, FixedDecimal.subTo m x y res = .ok r ∧ WF r ∧ val r = (a - b : Int) ∧ r.asI64 m = checkedI64 (a - b) := by
  obtain ⟨tx, vx, fx, -⟩ := converted_spec hx
  obtain ⟨ty, vy, fy, -⟩ := converted_spec hy
  obtain ⟨ux, -, ix⟩ := converted_fu hx
  obtain ⟨uy, -, iy⟩ := converted_fu hy
  have hf : SumFits x y (val x - val y) := Or.inr (Or.inr (Or.inl (by unfold alignedUnits; omega)))
  obtain ⟨r, e, s⟩ := subTo_ok m tx.toWF ty.toWF hres hf
  have hv : val r = (a - b : Int) := by rw [s.value, vx, vy]; push_cast; rfl
  exact ⟨r, e, s.wf, hv, asI64_int m s.wf hv⟩

/-- **C62.** Multiplication. -/
theorem C62_mul (m : Mode) {a b : Int} {x y res : FixedDecimal} (hx : Converted m a x) (hy : Converted m b y)
    (hres : res.lsu.length = 9) :
    ∃ r, FixedDecimal.mulTo m x y res = .ok r ∧ WF r ∧ val r = (a * b : Int) ∧ r.asI64 m = checkedI64 (a * b) := by
  obtain ⟨tx, vx, fx, ix⟩ := converted_spec hx
  obtain ⟨ty, vy, fy, iy⟩ := converted_spec hy
  obtain ⟨ux, dx, -⟩ := converted_fu hx
  obtain ⟨uy, dy, -⟩ := converted_fu hy
  have hfull : MulFull x y := by unfold MulFull mulFU; rw [dx, dy]; unfold unitsFor; omega
  have hok : ∃ r, FixedDecimal.mulTo m x y res = .ok r := by
    rw [C56_mul_ok_iff m tx ty hres]
    by_cases za : val x = 0
    · exact Or.inl za
    · refine Or.inr (Or.inr ⟨by omega, by omega, Or.inl ?_⟩)
      have : iu x + fu x ≠ 0 := by
        intro hc
        apply za; rw [val_eq_zero]; unfold mant; rw [hc]; rfl
      omega
  obtain ⟨r, e⟩ := hok
  obtain ⟨hv, ht, -⟩ := C27_mul_exact m tx ty hres hfull e
  have hv' : val r = (a * b : Int) := by rw [hv, vx, vy]; push_cast; rfl
  exact ⟨r, e, ht.toWF, hv', asI64_int m ht.toWF hv'⟩

/-- **C62.** Comparison. -/
theorem C62_cmp {σ : Type} (m : Mode) {a b : Int} {x y : FixedDecimal} (hx : Converted m a x) (hy : Converted m b y) :
    (FixedDecimal.cmp m x y : Out σ Ordering) = .ok (compare a b) := by
  obtain ⟨tx, vx, -⟩ := converted_spec hx
  obtain ⟨ty, vy, -⟩ := converted_spec hy
  have hn : ∀ {n : Int} {d : FixedDecimal}, Converted m n d → (neg d = true ↔ n < 0) := by
    intro n d h
    rcases h with ⟨h1, h2, h3⟩ | ⟨h1, h2, h3⟩
    · obtain ⟨d', e, -, a3, -⟩ := C45_from_i64 (σ := Empty) m h1 h2
      rw [h3] at e; injection e with e; subst e; exact a3
    · obtain ⟨d', e, -, a3, -⟩ := C45_from_u64 (σ := Empty) h1 h2
      rw [h3] at e; injection e with e; subst e
      rw [a3]; simp; exact h1
  rw [C16_cmp_spec m tx.toWF ty.toWF, vx, vy]
  congr 1
  rcases lt_trichotomy a b with h | h | h
  · rw [compare_lt_iff_lt.mpr h, compare_lt_iff_lt.mpr (show (a : ℚ) < b by exact_mod_cast h)]; rfl
  · subst h
    have : neg x = neg y := by
      have h1 := hn hx
      have h2 := hn hy
      cases hx' : neg x <;> cases hy' : neg y <;> simp [hx', hy'] at h1 h2 ⊢ <;> omega
    rw [compare_eq_iff_eq.mpr (rfl : (a : ℚ) = a), compare_eq_iff_eq.mpr (rfl : a = a), this]
    cases neg y <;> rfl
  · rw [compare_gt_iff_gt.mpr h, compare_gt_iff_gt.mpr (show (b : ℚ) < a by exact_mod_cast h)]; rfl

/-- The largest and smallest 64-bit integers: sum and product outside `i64`. -/
example : Converted m (-2 ^ 63) FixedDecimal.MIN_I64 ∧
    Converted m (2 ^ 64 - 1) ⟨27#8, 0, [709551615, 446744073, 18, 0, 0, 0, 0, 0, 0]⟩ ∧
    checkedI64 (-2 ^ 63 + (2 ^ 64 - 1)) = .ok (2 ^ 63 - 1) ∧
    checkedI64 (-2 ^ 63 * (2 ^ 64 - 1)) = .err .exceedsConversionTargetRange () := by
  refine ⟨Or.inl ⟨by norm_num, by norm_num, by cases m <;> decide +kernel⟩, Or.inr ⟨by norm_num, by norm_num, by decide +kernel⟩,
    by decide +kernel, by decide +kernel⟩

/-- **C63** (partial: divisors below 10^18 in magnitude). A remainder of converted integers is that of the integers
(truncated, as in Rust) whenever there is a result; a release build always has one, a debug build always for divisors
below 10^9. -/
theorem C63_rem_partial (m : Mode) {a b : Int} {x y res : FixedDecimal} (hx : Converted m a x) (hy : Converted m b y)
    (hres : res.lsu.length = 9) (hb0 : b ≠ 0) (hb : |b| < 10 ^ 18) :
    (∀ r, FixedDecimal.remTo m x y res = .ok r → WF r ∧ val r = (a.tmod b : Int) ∧ r.asI64 m = .ok (a.tmod b)) ∧
    (m = .release ∨ |b| < 10 ^ 9 → ∃ r, FixedDecimal.remTo m x y res = .ok r) := by
  obtain ⟨tx, vx, fx, ix⟩ := converted_spec hx
  obtain ⟨ty, vy, fy, iy⟩ := converted_spec hy
  obtain ⟨ux, dx, -⟩ := converted_fu hx
  obtain ⟨uy, dy, -⟩ := converted_fu hy
  have zb : val y ≠ 0 := by rw [vy]; exact_mod_cast hb0
  have hm := converted_mant hy
  have h2 : TwoUnits y := two_unit_top ty.toWF (by rw [hm]; norm_num at hb; exact hb)
  have hroom : ¬ (|val x| < |val y| ∧ RemNoRoom x y) := by
    rintro ⟨-, h, -⟩
    omega
  constructor
  · intro r h
    have hv := C37_two_units_partial m tx.toWF ty.toWF hres h2 h
    rw [vx, vy, truncRem_int] at hv
    have hw := (C37_bounded m tx.toWF ty.toWF hres h).1
    refine ⟨hw, hv, ?_⟩
    rw [asI64_int m hw hv]
    unfold checkedI64
    have h3 : |a.tmod b| < |b| := by
      have h1 := (C37_bounded m tx.toWF ty.toWF hres h).2.1
      rw [hv, vy] at h1
      exact_mod_cast h1
    rw [if_pos]
    norm_num at hb
    have h4 : |a.tmod b| < 1000000000000000000 := by omega
    rw [abs_lt] at h4
    constructor <;> norm_num <;> omega
  · intro h
    by_cases h9 : |b| < 10 ^ 9
    · obtain ⟨r, e, -⟩ := C60_short_ok m tx.toWF ty.toWF hres zb (by rw [hm]; norm_num at h9; exact h9) hroom
      exact ⟨r, e⟩
    · have : m = .release := by rcases h with h | h
                                · exact h
                                · exact absurd h h9
      subst this
      by_cases za : val x = 0
      · exact ⟨_, C34_zero_rem .release tx.toWF ty.toWF hres za zb⟩
      rw [C60_release_ok_iff tx.toWF ty.toWF hres za zb]
      refine ⟨hroom, ?_⟩
      rintro ⟨-, ⟨-, -, -, h⟩, -⟩
      omega

/-- **C63 is false beyond**: a remainder of two `i64` is wrong in both builds, and one by 1000000001 panics in debug
builds. -/
theorem C63_rem_witness :
    (∀ m, ∃ x y, Converted m 9000000000000000000 x ∧ Converted m 1000000000000000001 y ∧
      FixedDecimal.remTo m x y FixedDecimal.zero = .ok ⟨1#8, 0, [9, 0, 0, 0, 0, 0, 0, 0, 0]⟩ ∧
      (9000000000000000000 : Int).tmod 1000000000000000001 = 999999999999999992) ∧
    (∃ x y, Converted .debug 1000000000000000000 x ∧ Converted .debug 1000000001 y ∧
      FixedDecimal.remTo .debug x y FixedDecimal.zero = .panic .assert) := by
  constructor
  · intro m
    refine ⟨⟨27#8, 0, [0, 0, 9, 0, 0, 0, 0, 0, 0]⟩, ⟨27#8, 0, [1, 0, 1, 0, 0, 0, 0, 0, 0]⟩,
      Or.inl ⟨by norm_num, by norm_num, ?_⟩, Or.inl ⟨by norm_num, by norm_num, ?_⟩, ?_, by decide +kernel⟩ <;>
      cases m <;> decide +kernel
  · exact ⟨⟨27#8, 0, [0, 0, 1, 0, 0, 0, 0, 0, 0]⟩, ⟨18#8, 0, [1, 1, 0, 0, 0, 0, 0, 0, 0]⟩,
      Or.inl ⟨by norm_num, by norm_num, by decide +kernel⟩, Or.inl ⟨by norm_num, by norm_num, by decide +kernel⟩,
      by decide +kernel⟩

theorem digitCount_le {m : Mode} {n : Int} {x : FixedDecimal} (h : Converted m n x) : digitCount x ≤ 27 := by
  have h1 := (converted_spec h).1
  have h2 := h1.intg_ok
  rw [(converted_fu h).1] at h2
  have h3 := (converted_spec h).2.2.2
  have h4 : mant x < 10 ^ 27 := lt_of_lt_of_le h2 (pow_le_pow_right₀ (by norm_num) (by omega))
  have h0 := h1.toWF.mant_nonneg
  unfold digitCount
  have : Nat.log 10 (mant x).toNat < 27 := Nat.log_lt_of_lt_pow' (by norm_num) (by norm_num at h4 ⊢; omega)
  omega

/-- **C63** (partial: divisors below 10^18 in magnitude). A quotient of converted integers with the usual increment has
nine fractional digits and is cut off after them, so its integral part is the integer quotient. -/
theorem C63_div_partial (m : Mode) {a b : Int} {x y res : FixedDecimal} (hx : Converted m a x) (hy : Converted m b y)
    (hres : res.lsu.length = 9) (ha0 : a ≠ 0) (hb0 : b ≠ 0) (hb : |b| < 10 ^ 18) :
    (∀ r, FixedDecimal.divTo m x y res 4 = .ok r →
      WF r ∧ r.frac = 9 ∧ val r = truncQuot a b 9 ∧ truncZ (val r) = a.tdiv b) ∧
    (m = .release ∨ |b| < 10 ^ 9 → ∃ r, FixedDecimal.divTo m x y res 4 = .ok r) := by
  obtain ⟨tx, vx, fx, ix⟩ := converted_spec hx
  obtain ⟨ty, vy, fy, iy⟩ := converted_spec hy
  obtain ⟨ux, dx, -⟩ := converted_fu hx
  obtain ⟨uy, dy, -⟩ := converted_fu hy
  have za : val x ≠ 0 := by rw [vx]; exact_mod_cast ha0
  have zb : val y ≠ 0 := by rw [vy]; exact_mod_cast hb0
  have hm := converted_mant hy
  have h2 : TwoUnits y := two_unit_top ty.toWF (by rw [hm]; norm_num at hb; exact hb)
  have cx := digitCount_le hx
  have cy := digitCount_le hy
  have cx0 : 0 < digitCount x := by unfold digitCount; omega
  have cy0 : 0 < digitCount y := by unfold digitCount; omega
  have hq1 : -26 ≤ quoIntg x y ∧ quoIntg x y ≤ 27 := by
    unfold quoIntg; rw [ux, uy]; split_ifs <;> constructor <;> push_cast <;> omega
  have hIU : quoIU x y ≤ 3 := by unfold quoIU unitsFor; omega
  have hw : quoWant x y 4 = 4 := by unfold quoWant; rw [ux, uy, dx, dy]
  have hF : quoFrac x y 4 = 4 := by unfold quoFrac; rw [hw]; decide
  have hFU : quoFU x y 4 = 1 := by unfold quoFU; rw [hF]; simp [unitsFor]; omega
  have hrange : QuoRange x y 4 := by unfold QuoRange; rw [hF]; omega
  have hspill : ¬ QuoSpill x y 4 := by
    rintro ⟨-, -, -, h⟩
    omega
  constructor
  · intro r h
    obtain ⟨hw', -, -, hv⟩ := (C36_two_units_partial m tx.toWF ty.toWF hres za zb h2 (by norm_num)).1 r h
    obtain ⟨hfr, -⟩ := C57_scale m tx.toWF ty.toWF hres za zb (by norm_num) h
    rw [hFU] at hfr
    have hfd : fracDigits r = 9 := by unfold fracDigits; rw [hfr]; rfl
    have hv' := hv (by omega)
    rw [hfd, vx, vy] at hv'
    refine ⟨hw', by rw [hfr]; rfl, hv', ?_⟩
    rw [hv', ← truncZ_int]
    unfold truncQuot
    exact truncZ_cut _ _
  · intro h
    by_cases h9 : |b| < 10 ^ 9
    · exact (C35_short_div_ok m tx.toWF ty.toWF hres za zb (by rw [hm]; norm_num at h9; exact h9) (by norm_num)).mpr
        ⟨hrange, by omega⟩
    · have : m = .release := by rcases h with h | h
                                · exact h
                                · exact absurd h h9
      subst this
      exact (C58_release_ok_iff tx.toWF ty.toWF hres za zb (by norm_num)).mpr ⟨hrange, by omega, hspill⟩

/-- **C63 is false beyond**: dividing two `i64` gives an ill-formed decimal in release builds, and 1000000000 by 1000000001
panics in debug builds. -/
theorem C63_div_witness :
    (∃ x y, Converted .release 9000000000000000000 x ∧ Converted .release 1000000000000000001 y ∧
      FixedDecimal.divTo .release x y FixedDecimal.zero 4 = .ok ⟨1#8, 9, [1999999999, 8, 0, 0, 0, 0, 0, 0, 0]⟩ ∧
      ¬ WF ⟨1#8, 9, [1999999999, 8, 0, 0, 0, 0, 0, 0, 0]⟩) ∧
    (∃ x y, Converted .debug 1000000000 x ∧ Converted .debug 1000000001 y ∧
      FixedDecimal.divTo .debug x y FixedDecimal.zero 4 = .panic .assert) := by
  constructor
  · exact ⟨⟨27#8, 0, [0, 0, 9, 0, 0, 0, 0, 0, 0]⟩, ⟨27#8, 0, [1, 0, 1, 0, 0, 0, 0, 0, 0]⟩,
      Or.inl ⟨by norm_num, by norm_num, by decide +kernel⟩, Or.inl ⟨by norm_num, by norm_num, by decide +kernel⟩,
      by decide +kernel, by decide⟩
  · exact ⟨⟨18#8, 0, [0, 1, 0, 0, 0, 0, 0, 0, 0]⟩, ⟨18#8, 0, [1, 1, 0, 0, 0, 0, 0, 0, 0]⟩,
      Or.inl ⟨by norm_num, by norm_num, by decide +kernel⟩, Or.inl ⟨by norm_num, by norm_num, by decide +kernel⟩,
      by decide +kernel⟩

/-- -7 and 2: remainder -1, quotient -3.5. -/
example : Converted m (-7) ⟨0x89#8, 0, [7, 0, 0, 0, 0, 0, 0, 0, 0]⟩ ∧ Converted m 2 ⟨9#8, 0, [2, 0, 0, 0, 0, 0, 0, 0, 0]⟩ ∧
    FixedDecimal.remTo m ⟨0x89#8, 0, [7, 0, 0, 0, 0, 0, 0, 0, 0]⟩ ⟨9#8, 0, [2, 0, 0, 0, 0, 0, 0, 0, 0]⟩ FixedDecimal.zero =
      .ok ⟨0x81#8, 0, [1, 0, 0, 0, 0, 0, 0, 0, 0]⟩ ∧
    FixedDecimal.divTo m ⟨0x89#8, 0, [7, 0, 0, 0, 0, 0, 0, 0, 0]⟩ ⟨9#8, 0, [2, 0, 0, 0, 0, 0, 0, 0, 0]⟩ FixedDecimal.zero 4 =
      .ok ⟨0x81#8, 9, [500000000, 3, 0, 0, 0, 0, 0, 0, 0]⟩ := by
  refine ⟨Or.inl ⟨by norm_num, by norm_num, ?_⟩, Or.inl ⟨by norm_num, by norm_num, ?_⟩, ?_, ?_⟩ <;> cases m <;> decide +kernel

end Props
end Fxd
