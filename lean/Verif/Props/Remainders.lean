import Verif.Props.Quotients
/-!
# Properties C102, C103: remainders are residues; Euclid's algorithm

For divisors of at most two significant units, where the remainder of this code is right (C37).
-/

namespace Fxd
open Spec

namespace Props

/-! ## C102 -/

/-- Being below the divisor, differing from the dividend by a whole multiple of it and having the dividend's sign determines the
truncated remainder. -/
theorem truncRem_unique {x y r : ℚ} (hy : y ≠ 0) (hm : ∃ k : ℤ, x - r = k * y) (hl : |r| < |y|) (hs : 0 ≤ x * r) :
    r = truncRem x y := by
  obtain ⟨⟨k', hk'⟩, hl', hs'⟩ := truncRem_spec x hy
  obtain ⟨k, hk⟩ := hm
  set r' := truncRem x y
  have hd : r - r' = ((k' - k : ℤ) : ℚ) * y := by push_cast; linear_combination hk' - hk
  have hlt : |r - r'| < |y| := by
    rcases lt_trichotomy x 0 with hx | hx | hx
    · have h1 : r ≤ 0 := by by_contra hc; rw [not_le] at hc; nlinarith
      have h2 : r' ≤ 0 := by by_contra hc; rw [not_le] at hc; nlinarith
      rw [abs_of_nonpos h1] at hl
      rw [abs_of_nonpos h2] at hl'
      rw [abs_lt]; constructor <;> linarith
    · subst hx
      have zero : ∀ (q : ℚ) (j : ℤ), 0 - q = j * y → |q| < |y| → q = 0 := by
        intro q j hj hq
        have hj' : q = ((-j : ℤ) : ℚ) * y := by push_cast; linear_combination -hj
        rw [hj', abs_mul] at hq
        have h1 : |((-j : ℤ) : ℚ)| < 1 := by
          have hy' : 0 < |y| := abs_pos.mpr hy
          by_contra hc
          rw [not_lt] at hc
          nlinarith
        have h2 : |(-j : ℤ)| < 1 := by exact_mod_cast h1
        have h3 : (-j : ℤ) = 0 := Int.abs_lt_one_iff.mp h2
        rw [hj', h3]; simp
      rw [zero r k hk hl, zero r' k' hk' hl']
      simpa using hy
    · have h1 : 0 ≤ r := by by_contra hc; rw [not_le] at hc; nlinarith
      have h2 : 0 ≤ r' := by by_contra hc; rw [not_le] at hc; nlinarith
      rw [abs_of_nonneg h1] at hl
      rw [abs_of_nonneg h2] at hl'
      rw [abs_lt]; constructor <;> linarith
  rw [hd, abs_mul] at hlt
  have hy' : 0 < |y| := abs_pos.mpr hy
  have h1 : |((k' - k : ℤ) : ℚ)| < 1 := by
    by_contra hc
    rw [not_lt] at hc
    nlinarith
  have h2 : |(k' - k : ℤ)| < 1 := by exact_mod_cast h1
  have h3 : (k' - k : ℤ) = 0 := Int.abs_lt_one_iff.mp h2
  rw [h3] at hd
  simp at hd
  linarith

theorem truncRem_zero_iff (x : ℚ) {y : ℚ} (hy : y ≠ 0) : truncRem x y = 0 ↔ ∃ k : ℤ, x = k * y := by
  constructor
  · intro h
    obtain ⟨⟨k, hk⟩, -⟩ := truncRem_spec x hy
    exact ⟨k, by rw [h] at hk; linarith⟩
  · rintro ⟨k, hk⟩
    exact (truncRem_unique hy ⟨k, by rw [hk]; ring⟩ (by simpa using hy) (by simp)).symm

variable {m : Mode}

theorem rem_ne_zero {a b res r : FixedDecimal} (ha : WF a) (hb : WF b) (hres : res.lsu.length = 9)
    (h : FixedDecimal.remTo m a b res = .ok r) : val b ≠ 0 := by
  intro hz
  have := (C37_bounded m ha hb hres h).2.1
  rw [hz, abs_zero] at this
  exact absurd this (not_lt.mpr (abs_nonneg _))

/-- **C102** A remainder is the only number below the divisor, signed like the dividend, that differs from it by a whole multiple
of the divisor. -/
theorem C102_unique {a b res r : FixedDecimal} (ha : WF a) (hb : WF b) (hres : res.lsu.length = 9) (h2 : TwoUnits b)
    (h : FixedDecimal.remTo m a b res = .ok r) (q : ℚ) :
    ((∃ k : ℤ, val a - q = k * val b) ∧ |q| < |val b| ∧ 0 ≤ val a * q) ↔ q = val r := by
  have zb := rem_ne_zero ha hb hres h
  rw [C37_two_units_partial m ha hb hres h2 h]
  constructor
  · rintro ⟨h1, h2, h3⟩; exact truncRem_unique zb h1 h2 h3
  · rintro rfl; exact truncRem_spec _ zb

/-- **C102** Divisibility: the remainder is zero exactly if the dividend is a whole multiple of the divisor. -/
theorem C102_divides {a b res r : FixedDecimal} (ha : WF a) (hb : WF b) (hres : res.lsu.length = 9) (h2 : TwoUnits b)
    (h : FixedDecimal.remTo m a b res = .ok r) : val r = 0 ↔ ∃ k : ℤ, val a = k * val b := by
  rw [C37_two_units_partial m ha hb hres h2 h]
  exact truncRem_zero_iff _ (rem_ne_zero ha hb hres h)

/-- **C102** `a % 1` is the fractional part: what is left after cutting the fraction off; it is zero exactly for whole numbers. -/
theorem C102_fraction {a b res r : FixedDecimal} (ha : WF a) (hb : WF b) (hres : res.lsu.length = 9) (h2 : TwoUnits b)
    (h1 : val b = 1) (h : FixedDecimal.remTo m a b res = .ok r) :
    val r = val a - truncZ (val a) ∧ (val r = 0 ↔ ∃ k : ℤ, val a = k) := by
  refine ⟨?_, ?_⟩
  · rw [C37_two_units_partial m ha hb hres h2 h, h1]
    unfold truncRem
    rw [div_one, one_mul]
  · rw [C102_divides ha hb hres h2 h, h1]
    simp

/-- **C102** Reducing by a multiple of the divisor first does not change the remainder: `(a % b) % c = a % c` if `c` divides `b`. -/
theorem C102_nested {a b c res r s t : FixedDecimal} (ha : WF a) (hb : WF b) (hc : WF c) (hres : res.lsu.length = 9)
    (h2 : TwoUnits b) (h2' : TwoUnits c) (hk : ∃ k : ℤ, val b = k * val c)
    (hr : FixedDecimal.remTo m a b res = .ok r) (hs : FixedDecimal.remTo m r c res = .ok s)
    (ht : FixedDecimal.remTo m a c res = .ok t) : val s = val t := by
  have wr := (C37_bounded m ha hb hres hr).1
  have zb := rem_ne_zero ha hb hres hr
  have zc := rem_ne_zero ha hc hres ht
  rw [C37_two_units_partial m ha hc hres h2' ht]
  obtain ⟨⟨j, hj⟩, -, hs1⟩ := (C102_unique ha hb hres h2 hr _).mpr rfl
  obtain ⟨⟨i, hi⟩, hl, hs2⟩ := (C102_unique wr hc hres h2' hs _).mpr rfl
  obtain ⟨k, hk⟩ := hk
  refine truncRem_unique zc ⟨j * k + i, ?_⟩ hl ?_
  · push_cast; linear_combination hj + hi + j * hk
  · by_cases h0 : val r = 0
    · have : val s = 0 := by
        rw [C37_two_units_partial m wr hc hres h2' hs, h0]
        exact (truncRem_zero_iff _ zc).mpr ⟨0, by simp⟩
      rw [this]; simp
    · rcases lt_or_gt_of_ne h0 with h0 | h0
      · have h3 : val s ≤ 0 := by by_contra hc; rw [not_le] at hc; nlinarith
        have h4 : val a ≤ 0 := by by_contra hc; rw [not_le] at hc; nlinarith
        nlinarith
      · have h3 : 0 ≤ val s := by by_contra hc; rw [not_le] at hc; nlinarith
        have h4 : 0 ≤ val a := by by_contra hc; rw [not_le] at hc; nlinarith
        nlinarith

/-- **C102** Sums of non-negative numbers: `(a + b) % c = ((a % c) + (b % c)) % c`. -/
theorem C102_sum {a b c res s r ra rb p q : FixedDecimal} (ha : WF a) (hb : WF b) (hc : WF c) (hres : res.lsu.length = 9)
    (h2 : TwoUnits c) (pa : 0 ≤ val a) (pb : 0 ≤ val b)
    (hs : FixedDecimal.addTo m a b res = .ok s) (hr : FixedDecimal.remTo m s c res = .ok r)
    (ha' : FixedDecimal.remTo m a c res = .ok ra) (hb' : FixedDecimal.remTo m b c res = .ok rb)
    (hp : FixedDecimal.addTo m ra rb res = .ok p) (hq : FixedDecimal.remTo m p c res = .ok q) : val q = val r := by
  have wa := (C37_bounded m ha hc hres ha').1
  have wb := (C37_bounded m hb hc hres hb').1
  obtain ⟨vs, ws⟩ := C20_add_exact ha hb hres hs
  obtain ⟨vp, wp⟩ := C20_add_exact wa wb hres hp
  have zc := rem_ne_zero ha hc hres ha'
  obtain ⟨⟨i, hi⟩, -, h3⟩ := (C102_unique ha hc hres h2 ha' _).mpr rfl
  obtain ⟨⟨j, hj⟩, -, h4⟩ := (C102_unique hb hc hres h2 hb' _).mpr rfl
  obtain ⟨⟨k, hk⟩, hl, h5⟩ := (C102_unique wp hc hres h2 hq _).mpr rfl
  have nn : ∀ {x z : FixedDecimal}, WF x → FixedDecimal.remTo m x c res = .ok z → 0 ≤ val x → 0 ≤ val z := by
    intro x z wx hz px
    by_contra hn
    rw [not_le] at hn
    have hneg := (C37_bounded m wx hc hres hz).2.2.1
    have : neg z = true := by
      by_contra hc'
      rw [Bool.not_eq_true] at hc'
      have : val z = absVal z := by unfold val; rw [hc']; rfl
      rw [this] at hn
      exact absurd hn (not_lt.mpr (absVal_nonneg (C37_bounded m wx hc hres hz).1))
    have hna := (hneg.mp this).1
    have e : val x = - absVal x := by unfold val; rw [hna]; rfl
    have h0 : val x = 0 := by have := absVal_nonneg wx; linarith
    have := C37_two_units_partial m wx hc hres h2 hz
    rw [h0] at this
    rw [this, (truncRem_zero_iff _ zc).mpr ⟨0, by simp⟩] at hn
    exact lt_irrefl _ hn
  have nra := nn ha ha' pa
  have nrb := nn hb hb' pb
  have npp : 0 ≤ val p := by rw [vp]; linarith
  have nq := nn wp hq npp
  rw [C37_two_units_partial m ws hc hres h2 hr]
  refine truncRem_unique zc ⟨i + j + k, ?_⟩ hl ?_
  · push_cast; rw [vs]; linear_combination hi + hj + hk - vp
  · rw [vs]; exact mul_nonneg (by linarith) nq

/-- **C102** Equal remainders: the difference is divisible. For operands of one sign also conversely. -/
theorem C102_congruent {a b c res ra rb d r : FixedDecimal} (ha : WF a) (hb : WF b) (hc : WF c) (hres : res.lsu.length = 9)
    (h2 : TwoUnits c) (ha' : FixedDecimal.remTo m a c res = .ok ra) (hb' : FixedDecimal.remTo m b c res = .ok rb)
    (hd : FixedDecimal.subTo m a b res = .ok d) (hr : FixedDecimal.remTo m d c res = .ok r) :
    (val ra = val rb → val r = 0) ∧ (0 < val a * val b → val r = 0 → val ra = val rb) := by
  obtain ⟨vd, wd⟩ := C21_sub_exact ha hb hres hd
  have zc := rem_ne_zero ha hc hres ha'
  obtain ⟨⟨i, hi⟩, -, -⟩ := (C102_unique ha hc hres h2 ha' _).mpr rfl
  obtain ⟨⟨j, hj⟩, hl, h4⟩ := (C102_unique hb hc hres h2 hb' _).mpr rfl
  rw [C102_divides wd hc hres h2 hr, vd]
  constructor
  · intro he
    exact ⟨i - j, by push_cast; linear_combination hi - hj + he⟩
  · rintro hp ⟨k, hk⟩
    rw [C37_two_units_partial m ha hc hres h2 ha']
    refine (truncRem_unique zc ⟨k + j, ?_⟩ hl ?_).symm
    · push_cast; linear_combination hk + hj
    · rcases lt_or_ge (val b) 0 with hb0 | hb0
      · have : val a < 0 := by by_contra hc; rw [not_lt] at hc; nlinarith
        have : val rb ≤ 0 := by by_contra hc; rw [not_le] at hc; nlinarith
        nlinarith
      · have hb1 : 0 < val b := lt_of_le_of_ne hb0 fun e => by rw [← e] at hp; simp at hp
        have : 0 < val a := by by_contra hc; rw [not_lt] at hc; nlinarith
        have : 0 ≤ val rb := by by_contra hc; rw [not_le] at hc; nlinarith
        nlinarith

/-! ## C103: Euclid's algorithm -/

/-- `loop { if b.is_zero() { return a } (a, b) = (b, a % b) }`: what the loop returns, with the remainder taken by `rem_to` into
any output parameter `res`. -/
inductive Euclid (m : Mode) (res : FixedDecimal) : FixedDecimal → FixedDecimal → FixedDecimal → Prop
  | stop {a b : FixedDecimal} : b.isZero = true → Euclid m res a b a
  | next {a b r g : FixedDecimal} : b.isZero = false → FixedDecimal.remTo m a b res = .ok r → Euclid m res b r g → Euclid m res a b g

/-- Operands (with as many fractional units) whose remainder is computed: the divisor has at most two units; in a debug build also
the dividend, or else the divisor has one. -/
def Small (m : Mode) (a b : FixedDecimal) : Prop := mant b < 10 ^ 18 ∧ (m = .release ∨ mant a < 10 ^ 18 ∨ mant b < 10 ^ 9)
instance (m : Mode) (a b : FixedDecimal) : Decidable (Small m a b) := by unfold Small; infer_instance

theorem Small.two {a b : FixedDecimal} (hb : WF b) (h : Small m a b) : TwoUnits b := by
  refine two_unit_top hb ?_
  have := h.1
  norm_num at this
  exact this

theorem top_one {d : FixedDecimal} (h9 : 1000000000 ≤ mant d) (h18 : mant d < 10 ^ 18) : topUnit d = 1 := by
  unfold topUnit
  norm_num at h18
  rw [Nat.log_eq_iff (by norm_num)]
  norm_num
  constructor <;> omega

/-- Two units by two units: no assertion fails. -/
theorem rem_two_units {a b : FixedDecimal} (hf : fu a = fu b) (ha : mant a < 10 ^ 18) (hb9 : 1000000000 ≤ mant b)
    (hb : mant b < 10 ^ 18) (hlt : mant b < mant a) : ¬ RemAssert a b := by
  have ta := top_one (by omega) ha
  have tb := top_one hb9 hb
  have eA : remA a b = mant a := by unfold remA; rw [hf]; simp
  have eB : remB a b = mant b := by unfold remB; rw [hf]; simp
  have hlead : LeadGe a b := by unfold LeadGe; rw [ta, tb]; omega
  have hun : remUnits a b = 1 := by unfold remUnits remTop; rw [ta, tb, hf, if_pos hlead]; simp
  have htop : remTop a b = 1 := by unfold remTop; rw [tb, hf]; simp
  norm_num at ha hb
  have hv1 : 1 ≤ mant b / 1000000000 := by omega
  have hv2 : mant b / 1000000000 < 1000000000 := by omega
  have hd : normFac b = 1000000000 / (mant b / 1000000000 + 1) := by unfold normFac; rw [tb]; norm_num
  have hd1 : 1 ≤ normFac b := by
    rw [hd, Int.le_ediv_iff_mul_le (by omega)]; omega
  rintro (⟨-, W, hW, hwide⟩ | ⟨-, hdiv⟩)
  · unfold remWindows at hW
    rw [hun, htop, eA, eB] at hW
    unfold remWins remWins at hW
    simp at hW
    subst hW
    rw [htop, eB] at hwide
    unfold FirstGuessWide at hwide
    norm_num at hwide
    generalize normFac b = d at *
    have h1 : d * mant a / 1000000000 < d * 1000000000 := by
      apply Int.ediv_lt_of_lt_mul (by norm_num)
      nlinarith
    have h2 : d ≤ d * mant b / 1000000000 := by
      rw [Int.le_ediv_iff_mul_le (by norm_num)]
      nlinarith
    have h3 := Int.mul_ediv_self_le (x := d * mant a / 1000000000) (k := d * mant b / 1000000000) (by omega)
    nlinarith
  · apply hdiv
    unfold remLeft
    rw [hun, htop, eA, eB]
    unfold remRun remRun remStep
    norm_num
    rw [Int.mul_emod_mul_of_pos _ _ (by omega : 0 < normFac b)]
    split_ifs
    · rw [← mul_sub]; exact Int.dvd_mul_right _ _
    · exact Int.dvd_mul_right _ _

theorem rem_small {a b res : FixedDecimal} (ha : WF a) (hb : WF b) (hres : res.lsu.length = 9) (hf : fu a = fu b)
    (zb : val b ≠ 0) (h : Small m a b) : ∃ r, FixedDecimal.remTo m a b res = .ok r := by
  have hroom : ¬ (|val a| < |val b| ∧ RemNoRoom a b) := by rintro ⟨-, h, -⟩; omega
  by_cases h9 : mant b < 1000000000
  · obtain ⟨r, e, -⟩ := C60_short_ok m ha hb hres zb h9 hroom
    exact ⟨r, e⟩
  by_cases za : val a = 0
  · exact ⟨_, C34_zero_rem m ha hb hres za zb⟩
  cases m with
  | release =>
    rw [C60_release_ok_iff ha hb hres za zb]
    refine ⟨hroom, ?_⟩
    rintro ⟨-, ⟨-, -, h0, h⟩, -⟩
    omega
  | debug =>
    obtain ⟨h1, h2⟩ := h
    have h3 : mant a < 10 ^ 18 := by
      rcases h2 with h2 | h2 | h2
      · cases h2
      · exact h2
      · norm_num at h2; exact absurd h2 h9
    rw [C60_debug_ok_iff ha hb hres za zb]
    refine ⟨hroom, ?_⟩
    rintro ⟨hlt, h | ⟨-, -, h0, h⟩⟩
    · refine rem_two_units hf h3 (by omega) h1 ?_ h
      rw [abs_val ha, abs_val hb] at hlt
      unfold absVal at hlt
      rw [hf, div_lt_div_iff_of_pos_right (by positivity)] at hlt
      exact_mod_cast hlt
    · omega

/-- The mantissa of a remainder at a common number of fractional units. -/
theorem rem_mant {a b res r : FixedDecimal} (ha : WF a) (hb : WF b) (hres : res.lsu.length = 9) (hf : fu a = fu b)
    (h2 : TwoUnits b) (h : FixedDecimal.remTo m a b res = .ok r) :
    WF r ∧ absVal r = ((mant a % mant b : Int) : ℚ) / 10 ^ (9 * fu b) ∧ (mant a % mant b ≠ 0 → fu r = fu b ∧ mant r = mant a % mant b) := by
  have zb := rem_ne_zero ha hb hres h
  obtain ⟨w, hlt, -, hfr⟩ := C37_bounded m ha hb hres h
  have hB : 0 < mant b := lt_of_le_of_ne hb.mant_nonneg (Ne.symm (fun e => zb (val_eq_zero.mpr e)))
  have hS : (0 : ℚ) < 10 ^ (9 * fu b) := by positivity
  have e1 : absVal r = ((mant a % mant b : Int) : ℚ) / 10 ^ (9 * fu b) := by
    have hv := C37_two_units_partial m ha hb hres h2 h
    rw [truncRem_val] at hv
    have hs : truncRem (absVal a) (absVal b) = ((mant a % mant b : Int) : ℚ) / 10 ^ (9 * fu b) := by
      unfold absVal
      rw [hf]
      exact truncRem_scaled ha.mant_nonneg hB hS
    rw [hs] at hv
    have hnn : (0 : ℚ) ≤ ((mant a % mant b : Int) : ℚ) / 10 ^ (9 * fu b) :=
      div_nonneg (by exact_mod_cast Int.emod_nonneg _ hB.ne') hS.le
    rw [← abs_val w, hv]
    split_ifs
    · rw [abs_neg, abs_of_nonneg hnn]
    · rw [abs_of_nonneg hnn]
  refine ⟨w, e1, fun hn => ?_⟩
  have za : val a ≠ 0 := by
    intro hz; rw [val_eq_zero.mp hz] at hn; simp at hn
  have hne : |val a| ≠ |val b| := by
    intro he
    rw [abs_val ha, abs_val hb] at he
    unfold absVal at he
    rw [hf, div_left_inj' hS.ne'] at he
    have he' : mant a = mant b := by exact_mod_cast he
    rw [he'] at hn; simp at hn
  have hfu : fu r = fu b := by
    have h1 := hfr za hne
    have h3 : fu r = max (fu a) (fu b) := by
      unfold fu unitsFor at *
      rw [h1]
      omega
    rw [h3, hf, max_self]
  refine ⟨hfu, ?_⟩
  unfold absVal at e1
  rw [hfu, div_left_inj' hS.ne'] at e1
  exact_mod_cast e1

/-- **C103** Euclid's algorithm on two decimals with equally many fractional units ends and returns the greatest common divisor of
the mantissas, at the same scale, for a second operand of at most 18 digits; the first one may have all 81 in a release build, or if the second has at most nine. -/
theorem C103_euclid {a b res : FixedDecimal} (ha : WF a) (hb : WF b) (hres : res.lsu.length = 9) (hf : fu a = fu b)
    (hs : Small m a b) :
    ∃ g, Euclid m res a b g ∧ |val g| = ((Int.gcd (mant a) (mant b) : Nat) : ℚ) / 10 ^ (9 * fu b) := by
  induction hn : (mant b).toNat using Nat.strong_induction_on generalizing a b with
  | _ n ih =>
    subst hn
    by_cases zb : val b = 0
    · refine ⟨a, .stop ((isZero_val hb).mpr zb), ?_⟩
      rw [abs_val ha, val_eq_zero.mp zb, Int.gcd_zero_right, ← hf]
      unfold absVal
      have := ha.mant_nonneg
      rw [← Int.cast_natCast, Int.natCast_natAbs, abs_of_nonneg this]
    · have nz : b.isZero = false := by
        rw [Bool.eq_false_iff, Ne, isZero_val hb]; exact zb
      obtain ⟨r, e⟩ := rem_small ha hb hres hf zb hs
      obtain ⟨w, hv, hm⟩ := rem_mant ha hb hres hf (hs.two hb) e
      have hB : 0 < mant b := lt_of_le_of_ne hb.mant_nonneg (Ne.symm (fun e => zb (val_eq_zero.mpr e)))
      have hg : Int.gcd (mant a) (mant b) = Int.gcd (mant b) (mant a % mant b) := 
        (Int.gcd_emod _ _).symm.trans (Int.gcd_comm _ _)
      by_cases h0 : mant a % mant b = 0
      · refine ⟨b, .next nz e (.stop ((isZero_val w).mpr ?_)), ?_⟩
        · rw [h0] at hv
          have := abs_val w
          rw [hv] at this
          simpa using this
        · rw [hg, h0, Int.gcd_zero_right, abs_val hb]
          unfold absVal
          rw [← Int.cast_natCast, Int.natCast_natAbs, abs_of_nonneg hB.le]
      · obtain ⟨hfr, hmr⟩ := hm h0
        have hlt : mant r < mant b := by rw [hmr]; exact Int.emod_lt_of_pos _ hB
        have hr0 := w.mant_nonneg
        obtain ⟨g, hg1, hg2⟩ := ih (mant r).toNat (by omega) hb w hfr.symm
          ⟨lt_trans hlt hs.1, Or.inr (Or.inl hs.1)⟩ rfl
        refine ⟨g, .next nz e hg1, ?_⟩
        rw [hg2, hfr, hg, hmr]

/-- **C103** The loop cannot return anything else. -/
theorem C103_only {a b res g g' : FixedDecimal} (h : Euclid m res a b g) (h' : Euclid m res a b g') : g = g' := by
  induction h with
  | stop hz =>
    cases h' with
    | stop _ => rfl
    | next hz' _ _ => rw [hz] at hz'; cases hz'
  | next hz hr _ ih =>
    cases h' with
    | stop hz' => rw [hz] at hz'; cases hz'
    | next _ hr' h' =>
      rw [hr] at hr'
      cases hr'
      exact ih h'

/-- **C103** For whole numbers of scale zero: `gcd(a, b)`. -/
theorem C103_integers {a b res : FixedDecimal} (ha : WF a) (hb : WF b) (hres : res.lsu.length = 9) (fa : a.frac = 0)
    (fb : b.frac = 0) {A B : Int} (va : val a = A) (vb : val b = B) (hs : |B| < 10 ^ 18) (hd : m = .release ∨ |A| < 10 ^ 18 ∨ |B| < 10 ^ 9) :
    ∃ g, Euclid m res a b g ∧ |val g| = (Int.gcd A B : Nat) := by
  have ua : fu a = 0 := by unfold fu fracDigits; rw [fa]; rfl
  have ub : fu b = 0 := by unfold fu fracDigits; rw [fb]; rfl
  have ma : ∀ {x : FixedDecimal} {X : Int}, WF x → fu x = 0 → val x = X → mant x = |X| := by
    intro x X wx ux vx
    have h1 := abs_val wx
    unfold absVal at h1
    rw [vx, ux] at h1
    simp at h1
    have h2 : ((|X| : Int) : ℚ) = (mant x : ℚ) := by push_cast; exact h1
    exact_mod_cast h2.symm
  have mA := ma ha ua va
  have mB := ma hb ub vb
  obtain ⟨g, h1, h2⟩ := C103_euclid (m := m) ha hb hres (by rw [ua, ub]) (by unfold Small; rw [mA, mB]; exact ⟨hs, hd⟩)
  refine ⟨g, h1, ?_⟩
  rw [h2, ub, mA, mB]
  simp [Int.gcd, Int.natAbs_abs]

/-- 10^60 + 8 and 462, step by step; 10.71 and -4.62 at a scale of two digits. -/
example (m : Mode) :
    let a : FixedDecimal := ⟨61#8, 0, [8, 0, 0, 0, 0, 0, 1000000, 0, 0]⟩
    let b : FixedDecimal := ⟨3#8, 0, [462, 0, 0, 0, 0, 0, 0, 0, 0]⟩
    let x : FixedDecimal := ⟨2#8, 2, [710000000, 10, 0, 0, 0, 0, 0, 0, 0]⟩
    let y : FixedDecimal := ⟨129#8, 2, [620000000, 4, 0, 0, 0, 0, 0, 0, 0]⟩
    WF a ∧ WF b ∧ WF x ∧ WF y ∧ Small m a b ∧ (m = .release → Small m x y) ∧ fu x = fu y ∧
    (∃ g, Euclid m FixedDecimal.zero a b g ∧ |val g| = 6) := by
  intro a b x y
  have wa : WF a := by decide
  have wb : WF b := by decide
  have va : val a = ((10 ^ 60 + 8 : Int) : ℚ) := by
    have h1 : mant a = 10 ^ 60 + 8 := by decide +kernel
    have h2 : neg a = false := by decide
    have h3 : fu a = 0 := by decide
    unfold val absVal
    rw [h1, h2, h3]; simp
  have vb : val b = ((462 : Int) : ℚ) := by
    have h1 : mant b = 462 := by decide +kernel
    have h2 : neg b = false := by decide
    have h3 : fu b = 0 := by decide
    unfold val absVal
    rw [h1, h2, h3]; simp
  refine ⟨wa, wb, by decide, by decide, by cases m <;> decide +kernel, fun h => by subst h; decide +kernel, by decide, ?_⟩
  obtain ⟨g, h1, h2⟩ := C103_integers (m := m) wa wb (res := FixedDecimal.zero) rfl rfl rfl va vb (by simp) (by simp)
  exact ⟨g, h1, by rw [h2, show Int.gcd (10 ^ 60 + 8) 462 = 6 by decide +kernel]; norm_num⟩

/-- The hypotheses of C102: 123456789012.345 % 7 and the sum 123456789012.345 + 0.5. -/
example (m : Mode) :
    let c : FixedDecimal := ⟨1#8, 0, [7, 0, 0, 0, 0, 0, 0, 0, 0]⟩
    let h : FixedDecimal := ⟨0#8, 1, [500000000, 0, 0, 0, 0, 0, 0, 0, 0]⟩
    WF c ∧ TwoUnits c ∧ WF h ∧ ∃ s r ra rb p q, FixedDecimal.addTo m Samples.a h FixedDecimal.zero = .ok s ∧
      FixedDecimal.remTo m s c FixedDecimal.zero = .ok r ∧ FixedDecimal.remTo m Samples.a c FixedDecimal.zero = .ok ra ∧
      FixedDecimal.remTo m h c FixedDecimal.zero = .ok rb ∧ FixedDecimal.addTo m ra rb FixedDecimal.zero = .ok p ∧
      FixedDecimal.remTo m p c FixedDecimal.zero = .ok q := by
  refine ⟨by decide, by decide, by decide, ?_⟩
  cases m <;> exact ⟨_, _, _, _, _, _, by rfl, by rfl, by rfl, by rfl, by rfl, by rfl⟩

end Props
end Fxd
