import Verif.Props.Bisect
/-!
# Property C119: the other rounding modes

`round_to` rounds halves away from zero. Floor, ceiling, truncation, rounding away from zero, and halves towards zero or to the even
digit follow from it with one comparison and one addition.
-/

namespace Fxd
open Spec

namespace Props
variable {m : Mode}

/-- Rounding to `k` digits, with room. -/
theorem round_room {σ : Type} {x : FixedDecimal} {u k : Nat} (hx : Tight x) (hxu : iu x ≤ u) (hroom : u + unitsFor k ≤ 8)
    (hv : |val x| + 1 < 10 ^ (9 * u)) :
    ∃ t, (x.roundTo m FixedDecimal.zero k : Out σ _) = .ok t ∧ val t = (halfAway (val x * 10 ^ k) : ℚ) / 10 ^ k ∧ neg t = neg x ∧
      Tight t ∧ iu t ≤ u ∧ fracDigits t = k := by
  have hk : k ≤ 127 := by unfold unitsFor at hroom; omega
  have hex : ∃ t, (x.roundTo m FixedDecimal.zero k : Out σ _) = .ok t := by
    by_cases h : k < fracDigits x
    · exact ((C39_ok_iff m hx.toWF rfl h).1).mpr (.inl (by omega))
    · obtain ⟨r, hr, -⟩ := C40_extend (σ := σ) m hx.toWF (res := FixedDecimal.zero) rfl (not_lt.mp h) (by omega)
      exact ⟨r, hr⟩
  obtain ⟨t, ht⟩ := hex
  obtain ⟨g1, g2, g3, g4⟩ := round_to_uniform m hx rfl hk ht
  obtain ⟨-, i2, i3⟩ := round_to_intg hx rfl ht hk
  refine ⟨t, ht, g1, g3, g4, ?_, by unfold fracDigits; rw [g2]; simp⟩
  by_cases hu : iu x = u
  · rw [i3, hu]
    rw [hu]
    have p1 : (1 : ℚ) ≤ 10 ^ k := one_le_pow₀ (by norm_num)
    have h1 := halfAway_dist (val x * 10 ^ k)
    have h2 : |val t - val x| ≤ 1 := by
      rw [g1, show (halfAway (val x * 10 ^ k) : ℚ) / 10 ^ k - val x = ((halfAway (val x * 10 ^ k) : ℚ) - val x * 10 ^ k) / 10 ^ k by
        field_simp, abs_div, abs_of_pos (by linarith : (0 : ℚ) < 10 ^ k), div_le_one (by linarith)]
      linarith
    have h3 := abs_sub_abs_le_abs_sub (val t) (val x)
    linarith
  · omega

/-- `let t = round(x, k); if t > x { &t - &ulp } else { t }` -/
def floorTo (m : Mode) (k : Nat) (ulp x : FixedDecimal) : Out Empty FixedDecimal := do
  let t ← (x.roundTo m FixedDecimal.zero k : Out Empty FixedDecimal)
  let c ← FixedDecimal.cmp m t x
  if c = .gt then FixedDecimal.sub m t ulp else .ok t

/-- `let t = round(x, k); if t < x { &t + &ulp } else { t }` -/
def ceilTo (m : Mode) (k : Nat) (ulp x : FixedDecimal) : Out Empty FixedDecimal := do
  let t ← (x.roundTo m FixedDecimal.zero k : Out Empty FixedDecimal)
  let c ← FixedDecimal.cmp m t x
  if c = .lt then FixedDecimal.add m t ulp else .ok t

/-- `if x.is_neg() { ceil(x, k) } else { floor(x, k) }` -/
def truncTo (m : Mode) (k : Nat) (ulp x : FixedDecimal) : Out Empty FixedDecimal :=
  if x.isNeg then ceilTo m k ulp x else floorTo m k ulp x

/-- `if x.is_neg() { floor(x, k) } else { ceil(x, k) }` -/
def awayTo (m : Mode) (k : Nat) (ulp x : FixedDecimal) : Out Empty FixedDecimal :=
  if x.isNeg then floorTo m k ulp x else ceilTo m k ulp x

/-- One step back towards zero: `if x.is_neg() { &t + &ulp } else { &t - &ulp }` -/
def stepBack (m : Mode) (ulp x t : FixedDecimal) : Out Empty FixedDecimal :=
  if x.isNeg then FixedDecimal.add m t ulp else FixedDecimal.sub m t ulp

/-- Is `x` halfway between two multiples of `ulp`, `t` being the rounded value: `let d = &t - &x; let mut e = &d + &d; e.set_pos();`
`e == ulp` -/
def isTie (m : Mode) (ulp x t : FixedDecimal) : Out Empty Bool := do
  let d ← FixedDecimal.sub m t x
  let e ← FixedDecimal.add m d d
  let c ← FixedDecimal.cmp m e.setPos ulp
  return c == .eq

/-- Halves towards zero. -/
def halfDownTo (m : Mode) (k : Nat) (ulp x : FixedDecimal) : Out Empty FixedDecimal := do
  let t ← (x.roundTo m FixedDecimal.zero k : Out Empty FixedDecimal)
  let tie ← isTie m ulp x t
  if tie = true then stepBack m ulp x t else .ok t

/-- Halves to the even digit; `t` is even if half of it, rounded, is exactly half of it: `let h = round(&half * &t, k); &h + &h == t` -/
def halfEvenTo (m : Mode) (k : Nat) (half ulp x : FixedDecimal) : Out Empty FixedDecimal := do
  let t ← (x.roundTo m FixedDecimal.zero k : Out Empty FixedDecimal)
  let tie ← isTie m ulp x t
  if tie = true then do
    let h ← FixedDecimal.orPanic (charge m k half t)
    let g ← FixedDecimal.add m h h
    let c ← FixedDecimal.cmp m g t
    if c = .eq then .ok t else stepBack m ulp x t
  else .ok t

/-- One unit of the `k`-th digit: 1, 0.1, 0.01, ... -/
structure Ulp (u k : Nat) (d : FixedDecimal) : Prop where
  tight : Tight d
  units : iu d ≤ u
  scale : fracDigits d ≤ k
  value : val d = 1 / 10 ^ k

theorem cmp_same_sign {σ : Type} {a b : FixedDecimal} (ha : WF a) (hb : WF b) (hn : neg a = neg b) :
    (FixedDecimal.cmp m a b : Out σ Ordering) = .ok (compare (val a) (val b)) := by
  rw [C16_cmp_spec m ha hb, hn]
  cases compare (val a) (val b) <;> simp

theorem step_room {t d : FixedDecimal} {u k : Nat} (hu : 1 ≤ u) (hroom : u + unitsFor k ≤ 8) (ht : Tight t) (htu : iu t ≤ u)
    (htk : fracDigits t ≤ k) (hd : Ulp u k d) :
    (|val t + 1 / 10 ^ k| < 10 ^ (9 * u) → ∃ r, FixedDecimal.add m t d = .ok r ∧ val r = val t + 1 / 10 ^ k ∧ Tight r ∧ iu r ≤ u ∧
      fracDigits r ≤ k) ∧
    (|val t - 1 / 10 ^ k| < 10 ^ (9 * u) → ∃ r, FixedDecimal.sub m t d = .ok r ∧ val r = val t - 1 / 10 ^ k ∧ Tight r ∧ iu r ≤ u ∧
      fracDigits r ≤ k) := by
  have w1 : Within u (unitsFor k) t := ⟨ht.toWF, htu, unitsFor_mono htk⟩
  have w2 : Within u (unitsFor k) d := ⟨hd.tight.toWF, hd.units, unitsFor_mono hd.scale⟩
  rw [← hd.value]
  constructor <;> intro h
  · obtain ⟨r, r1, r2, r3⟩ := add_within (m := m) hroom w1 w2 h
    have tr := (addTo_res ht.toWF hd.tight.toWF (res := FixedDecimal.blank) rfl (add_ok_iff.mp r1)).tight ht hd.tight
    obtain ⟨u1, f1⟩ := add_shrink ht.toWF hd.tight.toWF hu r1 h (fun _ => htu) (fun _ => hd.units) htk hd.scale
    exact ⟨r, r1, r3, tr, u1, f1⟩
  · obtain ⟨r, r1, r2, r3⟩ := sub_within (m := m) hroom w1 w2 h
    have tr := (subTo_res ht.toWF hd.tight.toWF (res := FixedDecimal.blank) rfl (sub_ok_iff.mp r1)).tight ht hd.tight
    obtain ⟨u1, f1⟩ := sub_shrink ht.toWF hd.tight.toWF hu r1 h (fun _ => htu) (fun _ => hd.units) htk hd.scale
    exact ⟨r, r1, r3, tr, u1, f1⟩

theorem near_bound {x : ℚ} {k : Nat} {n : ℤ} {X : ℚ} (h : |(n : ℚ) - x * 10 ^ k| ≤ 1) (hv : |x| + 1 < X) : |(n : ℚ) / 10 ^ k| < X := by
  have p1 : (1 : ℚ) ≤ 10 ^ k := one_le_pow₀ (by norm_num)
  have h2 : |(n : ℚ) / 10 ^ k - x| ≤ 1 := by
    rw [show (n : ℚ) / 10 ^ k - x = ((n : ℚ) - x * 10 ^ k) / 10 ^ k by field_simp, abs_div,
      abs_of_pos (by linarith : (0 : ℚ) < 10 ^ k), div_le_one (by linarith)]
    linarith
  have h3 := abs_sub_abs_le_abs_sub ((n : ℚ) / 10 ^ k) x
  linarith

theorem floor_of_halfAway (q : ℚ) : ⌊q⌋ = if q < halfAway q then halfAway q - 1 else halfAway q := by
  have h := abs_le.mp (halfAway_dist q)
  rw [Int.floor_eq_iff]
  split_ifs with c <;> push_cast <;> constructor <;> linarith

theorem ceil_of_halfAway (q : ℚ) : ⌈q⌉ = if (halfAway q : ℚ) < q then halfAway q + 1 else halfAway q := by
  have h := abs_le.mp (halfAway_dist q)
  rw [Int.ceil_eq_iff]
  split_ifs with c <;> push_cast <;> constructor <;> linarith

/-- **C119** Floor: the largest multiple of `10⁻ᵏ` not above `x`. -/
theorem C119_floor {u k : Nat} {ulp x : FixedDecimal} (hx : Tight x) (hxu : iu x ≤ u) (hu : 1 ≤ u) (hroom : u + unitsFor k ≤ 8)
    (hv : |val x| + 1 < 10 ^ (9 * u)) (hd : Ulp u k ulp) :
    ∃ r, floorTo m k ulp x = .ok r ∧ val r = (⌊val x * 10 ^ k⌋ : ℚ) / 10 ^ k ∧ Tight r ∧ iu r ≤ u ∧ fracDigits r ≤ k := by
  obtain ⟨t, t1, t2, t3, t4, t5, t6⟩ := round_room (m := m) (σ := Empty) hx hxu hroom hv
  have p0 : (0 : ℚ) < 10 ^ k := by positivity
  have hlt : val x < val t ↔ val x * 10 ^ k < halfAway (val x * 10 ^ k) := by rw [t2, lt_div_iff₀ p0]
  have fl := floor_of_halfAway (val x * 10 ^ k)
  unfold floorTo
  rw [t1, ok_bind, cmp_same_sign t4.toWF hx.toWF t3, ok_bind]
  by_cases c : val x < val t
  · rw [if_pos (compare_gt_iff_gt.mpr c)]
    rw [if_pos (hlt.mp c)] at fl
    have e : val t - 1 / 10 ^ k = (⌊val x * 10 ^ k⌋ : ℚ) / 10 ^ k := by rw [t2, fl]; push_cast; ring
    obtain ⟨r, r1, r2, r3⟩ := (step_room (m := m) hu hroom t4 t5 t6.le hd).2 (by
      rw [e]
      refine near_bound ?_ hv
      rw [abs_le]; constructor <;> linarith [Int.floor_le (val x * 10 ^ k), Int.lt_floor_add_one (val x * 10 ^ k)])
    exact ⟨r, r1, by rw [r2, e], r3⟩
  · rw [if_neg (fun h => c (compare_gt_iff_gt.mp h))]
    rw [if_neg (fun h => c (hlt.mpr h))] at fl
    exact ⟨t, rfl, by rw [t2, fl], t4, t5, t6.le⟩

/-- **C119** Ceiling: the smallest multiple of `10⁻ᵏ` not below `x`. -/
theorem C119_ceil {u k : Nat} {ulp x : FixedDecimal} (hx : Tight x) (hxu : iu x ≤ u) (hu : 1 ≤ u) (hroom : u + unitsFor k ≤ 8)
    (hv : |val x| + 1 < 10 ^ (9 * u)) (hd : Ulp u k ulp) :
    ∃ r, ceilTo m k ulp x = .ok r ∧ val r = (⌈val x * 10 ^ k⌉ : ℚ) / 10 ^ k ∧ Tight r ∧ iu r ≤ u ∧ fracDigits r ≤ k := by
  obtain ⟨t, t1, t2, t3, t4, t5, t6⟩ := round_room (m := m) (σ := Empty) hx hxu hroom hv
  have p0 : (0 : ℚ) < 10 ^ k := by positivity
  have hlt : val t < val x ↔ (halfAway (val x * 10 ^ k) : ℚ) < val x * 10 ^ k := by rw [t2, div_lt_iff₀ p0]
  have fl := ceil_of_halfAway (val x * 10 ^ k)
  unfold ceilTo
  rw [t1, ok_bind, cmp_same_sign t4.toWF hx.toWF t3, ok_bind]
  by_cases c : val t < val x
  · rw [if_pos (compare_lt_iff_lt.mpr c)]
    rw [if_pos (hlt.mp c)] at fl
    have e : val t + 1 / 10 ^ k = (⌈val x * 10 ^ k⌉ : ℚ) / 10 ^ k := by rw [t2, fl]; push_cast; ring
    obtain ⟨r, r1, r2, r3⟩ := (step_room (m := m) hu hroom t4 t5 t6.le hd).1 (by
      rw [e]
      refine near_bound ?_ hv
      rw [abs_le]; constructor <;> linarith [Int.le_ceil (val x * 10 ^ k), Int.ceil_lt_add_one (val x * 10 ^ k)])
    exact ⟨r, r1, by rw [r2, e], r3⟩
  · rw [if_neg (fun h => c (compare_lt_iff_lt.mp h))]
    rw [if_neg (fun h => c (hlt.mpr h))] at fl
    exact ⟨t, rfl, by rw [t2, fl], t4, t5, t6.le⟩

theorem val_sign {x : FixedDecimal} (hx : WF x) : (neg x = true → val x ≤ 0) ∧ (neg x = false → 0 ≤ val x) := by
  have := absVal_nonneg hx
  unfold val
  constructor <;> intro h <;> rw [h] <;> simp <;> linarith

/-- **C119** Truncation towards zero: `to_string(k)` shows this number (C11), here it is as a decimal. -/
theorem C119_trunc {u k : Nat} {ulp x : FixedDecimal} (hx : Tight x) (hxu : iu x ≤ u) (hu : 1 ≤ u) (hroom : u + unitsFor k ≤ 8)
    (hv : |val x| + 1 < 10 ^ (9 * u)) (hd : Ulp u k ulp) :
    ∃ r, truncTo m k ulp x = .ok r ∧ val r = (truncZ (val x * 10 ^ k) : ℚ) / 10 ^ k ∧ Tight r ∧ iu r ≤ u ∧ fracDigits r ≤ k := by
  have p0 : (0 : ℚ) < 10 ^ k := by positivity
  unfold truncTo truncZ
  rw [isNeg_eq]
  by_cases hn : neg x = true
  · rw [if_pos hn]
    have h0 := mul_nonpos_of_nonpos_of_nonneg ((val_sign hx.toWF).1 hn) p0.le
    obtain ⟨r, r1, r2, r3⟩ := C119_ceil (m := m) hx hxu hu hroom hv hd
    refine ⟨r, r1, ?_, r3⟩
    rw [r2]
    rcases h0.lt_or_eq with h | h
    · rw [if_pos h, Int.floor_neg]; push_cast; ring
    · rw [h]; simp
  · rw [if_neg hn]
    have h0 := mul_nonneg ((val_sign hx.toWF).2 (by simpa using hn)) p0.le
    obtain ⟨r, r1, r2, r3⟩ := C119_floor (m := m) hx hxu hu hroom hv hd
    exact ⟨r, r1, by rw [r2, if_neg (not_lt.mpr h0)], r3⟩

/-- **C119** Away from zero: the smallest multiple of `10⁻ᵏ` that is at least as large in magnitude, with the sign of `x`. -/
theorem C119_away {u k : Nat} {ulp x : FixedDecimal} (hx : Tight x) (hxu : iu x ≤ u) (hu : 1 ≤ u) (hroom : u + unitsFor k ≤ 8)
    (hv : |val x| + 1 < 10 ^ (9 * u)) (hd : Ulp u k ulp) :
    ∃ r, awayTo m k ulp x = .ok r ∧ |val r| = (⌈|val x| * 10 ^ k⌉ : ℚ) / 10 ^ k ∧ 0 ≤ val r * val x ∧ Tight r ∧ iu r ≤ u ∧
      fracDigits r ≤ k := by
  have p0 : (0 : ℚ) < 10 ^ k := by positivity
  unfold awayTo
  rw [isNeg_eq]
  by_cases hn : neg x = true
  · rw [if_pos hn]
    have h0 := (val_sign hx.toWF).1 hn
    have h1 := mul_nonpos_of_nonpos_of_nonneg h0 p0.le
    obtain ⟨r, r1, r2, r3⟩ := C119_floor (m := m) hx hxu hu hroom hv hd
    have h2 : val r ≤ 0 := by
      rw [r2]
      refine div_nonpos_of_nonpos_of_nonneg ?_ p0.le
      exact le_trans (Int.floor_le _) h1
    refine ⟨r, r1, ?_, mul_nonneg_of_nonpos_of_nonpos h2 h0, r3⟩
    rw [abs_of_nonpos h2, abs_of_nonpos h0, r2, neg_mul, Int.ceil_neg]; push_cast; ring
  · rw [if_neg hn]
    have h0 := (val_sign hx.toWF).2 (by simpa using hn)
    have h1 := mul_nonneg h0 p0.le
    obtain ⟨r, r1, r2, r3⟩ := C119_ceil (m := m) hx hxu hu hroom hv hd
    have h2 : 0 ≤ val r := by
      rw [r2]
      exact div_nonneg (le_trans h1 (Int.le_ceil _)) p0.le
    exact ⟨r, r1, by rw [abs_of_nonneg h2, abs_of_nonneg h0, r2], mul_nonneg h2 h0, r3⟩

theorem halfAway_side (q : ℚ) (h : 2 * |(halfAway q : ℚ) - q| = 1) :
    (0 ≤ q → (halfAway q : ℚ) = q + 1 / 2) ∧ (q ≤ 0 → (halfAway q : ℚ) = q - 1 / 2) := by
  have key : ∀ q : ℚ, 0 ≤ q → 2 * |(halfAway q : ℚ) - q| = 1 → (halfAway q : ℚ) = q + 1 / 2 := by
    intro q h0 h
    have e : halfAway q = ⌊q + 1 / 2⌋ := by unfold halfAway; rw [if_neg (not_lt.mpr h0)]
    have h1 := Int.lt_floor_add_one (q + 1 / 2)
    rw [← e] at h1
    rcases abs_cases ((halfAway q : ℚ) - q) with ⟨c, _⟩ | ⟨c, _⟩ <;> rw [c] at h <;> linarith
  refine ⟨fun h0 => key q h0 h, fun h0 => ?_⟩
  have := key (-q) (by linarith) (by rw [halfAway_neg]; push_cast; rw [show -(halfAway q : ℚ) - -q = -((halfAway q : ℚ) - q) by ring, abs_neg]; exact h)
  rw [halfAway_neg] at this
  push_cast at this
  linarith

/-- The tie test is right. -/
theorem isTie_spec {u k : Nat} {ulp x t : FixedDecimal} (hx : Tight x) (hxu : iu x ≤ u) (hu : 1 ≤ u) (hroom : u + unitsFor k ≤ 8)
    (hfx : u + fu x ≤ 8) (hd : Ulp u k ulp) (ht : Tight t) (htu : iu t ≤ u) (htk : fracDigits t = k)
    (tv : val t = (halfAway (val x * 10 ^ k) : ℚ) / 10 ^ k) :
    ∃ b, isTie m ulp x t = .ok b ∧ (b = true ↔ 2 * |(halfAway (val x * 10 ^ k) : ℚ) - val x * 10 ^ k| = 1) := by
  have p1 : (1 : ℚ) ≤ 10 ^ k := one_le_pow₀ (by norm_num)
  have p0 : (0 : ℚ) < 10 ^ k := by positivity
  have big : (2 : ℚ) < 10 ^ (9 * u) := lt_of_lt_of_le (by norm_num : (2 : ℚ) < 10 ^ 9) (pow_le_pow_right₀ (by norm_num) (by omega))
  have e1 : val t - val x = ((halfAway (val x * 10 ^ k) : ℚ) - val x * 10 ^ k) / 10 ^ k := by rw [tv]; field_simp
  have h2 : |val t - val x| ≤ 1 / 2 := by
    rw [e1, abs_div, abs_of_pos p0, div_le_iff₀ p0]
    have := halfAway_dist (val x * 10 ^ k)
    linarith
  have hF : u + max (unitsFor k) (fu x) ≤ 8 := by omega
  have wt : Within u (max (unitsFor k) (fu x)) t := ⟨ht.toWF, htu, le_max_of_le_left (unitsFor_mono htk.le)⟩
  have wx : Within u (max (unitsFor k) (fu x)) x := ⟨hx.toWF, hxu, le_max_right _ _⟩
  obtain ⟨d, d1, d2, d3⟩ := sub_within (m := m) hF wt wx (by linarith)
  obtain ⟨e, f1, f2, f3⟩ := add_within (m := m) hF d2 d2 (by rw [← two_mul, abs_mul, d3, abs_of_pos (by norm_num : (0 : ℚ) < 2)]; linarith)
  have uz : val ulp ≠ 0 := by rw [hd.value]; positivity
  refine ⟨compare (val e.setPos) (val ulp) == .eq, ?_, ?_⟩
  · unfold isTie
    rw [d1, ok_bind, f1, ok_bind, C16_cmp_numeric m (wf_setPos.mpr f2.wf) hd.tight.toWF (fun h => uz h.2)]; rfl
  · rw [beq_iff_eq, compare_eq_iff_eq, val_setPos, ← abs_val f2.wf, f3, d3, ← two_mul, e1, hd.value, abs_mul, abs_div, abs_of_pos p0,
      abs_of_pos (by norm_num : (0 : ℚ) < 2), ← mul_div_assoc, div_left_inj' p0.ne']

/-- One step back from a tie. -/
theorem stepBack_spec {u k : Nat} {ulp x t : FixedDecimal} (hx : Tight x) (hu : 1 ≤ u) (hroom : u + unitsFor k ≤ 8)
    (hv : |val x| + 1 < 10 ^ (9 * u)) (hd : Ulp u k ulp) (ht : Tight t) (htu : iu t ≤ u) (htk : fracDigits t = k)
    (tv : val t = (halfAway (val x * 10 ^ k) : ℚ) / 10 ^ k) (tie : 2 * |(halfAway (val x * 10 ^ k) : ℚ) - val x * 10 ^ k| = 1) :
    ∃ r, ∃ n : ℤ, stepBack m ulp x t = .ok r ∧ val r = (n : ℚ) / 10 ^ k ∧ |(n : ℚ) - val x * 10 ^ k| = 1 / 2 ∧
      (n = halfAway (val x * 10 ^ k) + 1 ∨ n = halfAway (val x * 10 ^ k) - 1) ∧ |(n : ℚ)| < |val x * 10 ^ k| ∧
      Tight r ∧ iu r ≤ u ∧ fracDigits r ≤ k := by
  have p0 : (0 : ℚ) < 10 ^ k := by positivity
  obtain ⟨s1, s2⟩ := halfAway_side _ tie
  unfold stepBack
  rw [isNeg_eq]
  by_cases hn : neg x = true
  · rw [if_pos hn]
    have h1 := mul_nonpos_of_nonpos_of_nonneg ((val_sign hx.toWF).1 hn) p0.le
    have h2 := s2 h1
    have h3 : halfAway (val x * 10 ^ k) ≤ -1 := by
      have : (halfAway (val x * 10 ^ k) : ℚ) < 0 := by linarith
      have : halfAway (val x * 10 ^ k) < 0 := by exact_mod_cast this
      omega
    have h4 : (halfAway (val x * 10 ^ k) : ℚ) + 1 ≤ 0 := by
      have : halfAway (val x * 10 ^ k) + 1 ≤ 0 := by omega
      exact_mod_cast this
    have e : val t + 1 / 10 ^ k = ((halfAway (val x * 10 ^ k) + 1 : ℤ) : ℚ) / 10 ^ k := by rw [tv]; push_cast; ring
    obtain ⟨r, r1, r2, r3⟩ := (step_room (m := m) hu hroom ht htu htk.le hd).1 (by
      rw [e]
      refine near_bound ?_ hv
      push_cast; rw [h2, abs_le]; constructor <;> linarith)
    refine ⟨r, _, r1, by rw [r2, e], ?_, .inl rfl, ?_, r3⟩
    · push_cast; rw [h2, show val x * 10 ^ k - 1 / 2 + 1 - val x * 10 ^ k = 1 / 2 by ring]; norm_num
    · push_cast; rw [abs_of_nonpos h4, abs_of_nonpos h1]; linarith
  · rw [if_neg hn]
    have h1 := mul_nonneg ((val_sign hx.toWF).2 (by simpa using hn)) p0.le
    have h2 := s1 h1
    have h3 : 1 ≤ halfAway (val x * 10 ^ k) := by
      have : (0 : ℚ) < (halfAway (val x * 10 ^ k) : ℚ) := by linarith
      have : 0 < halfAway (val x * 10 ^ k) := by exact_mod_cast this
      omega
    have h4 : 0 ≤ (halfAway (val x * 10 ^ k) : ℚ) - 1 := by
      have : 0 ≤ halfAway (val x * 10 ^ k) - 1 := by omega
      exact_mod_cast this
    have e : val t - 1 / 10 ^ k = ((halfAway (val x * 10 ^ k) - 1 : ℤ) : ℚ) / 10 ^ k := by rw [tv]; push_cast; ring
    obtain ⟨r, r1, r2, r3⟩ := (step_room (m := m) hu hroom ht htu htk.le hd).2 (by
      rw [e]
      refine near_bound ?_ hv
      push_cast; rw [h2, abs_le]; constructor <;> linarith)
    refine ⟨r, _, r1, by rw [r2, e], ?_, .inr rfl, ?_, r3⟩
    · push_cast; rw [h2, show val x * 10 ^ k + 1 / 2 - 1 - val x * 10 ^ k = -(1 / 2) by ring]; norm_num
    · push_cast; rw [abs_of_nonneg h4, abs_of_nonneg h1]; linarith

/-- **C119** Halves towards zero: the nearest multiple of `10⁻ᵏ`, the one with the smaller magnitude if there are two. -/
theorem C119_half_down {u k : Nat} {ulp x : FixedDecimal} (hx : Tight x) (hxu : iu x ≤ u) (hu : 1 ≤ u) (hroom : u + unitsFor k ≤ 8)
    (hfx : u + fu x ≤ 8) (hv : |val x| + 1 < 10 ^ (9 * u)) (hd : Ulp u k ulp) :
    ∃ r, ∃ n : ℤ, halfDownTo m k ulp x = .ok r ∧ val r = (n : ℚ) / 10 ^ k ∧ |(n : ℚ) - val x * 10 ^ k| ≤ 1 / 2 ∧
      (|(n : ℚ) - val x * 10 ^ k| = 1 / 2 → |(n : ℚ)| < |val x * 10 ^ k|) ∧ Tight r ∧ iu r ≤ u ∧ fracDigits r ≤ k := by
  obtain ⟨t, t1, t2, t3, t4, t5, t6⟩ := round_room (m := m) (σ := Empty) hx hxu hroom hv
  obtain ⟨b, b1, b2⟩ := isTie_spec (m := m) hx hxu hu hroom hfx hd t4 t5 t6 t2
  unfold halfDownTo
  rw [t1, ok_bind, b1, ok_bind]
  by_cases hb : b = true
  · rw [if_pos hb]
    obtain ⟨r, n, r1, r2, r3, -, r5, r6⟩ := stepBack_spec (m := m) hx hu hroom hv hd t4 t5 t6 t2 (b2.mp hb)
    exact ⟨r, n, r1, r2, r3.le, fun _ => r5, r6⟩
  · rw [if_neg hb]
    exact ⟨t, _, rfl, t2, halfAway_dist _, fun h => absurd (b2.mpr (by rw [h]; norm_num)) hb, t4, t5, t6.le⟩

theorem halfAway_even (n : Int) : 2 * halfAway ((n : ℚ) * (1 / 2)) = n ↔ Even n := by
  constructor
  · intro h; exact ⟨halfAway ((n : ℚ) * (1 / 2)), by omega⟩
  · rintro ⟨j, rfl⟩
    rw [show ((j + j : ℤ) : ℚ) * (1 / 2) = (j : ℚ) by push_cast; ring, halfAway_int]; ring

/-- **C119** Halves to the even digit (banker's rounding): the nearest multiple of `10⁻ᵏ`, the even one if there are two. -/
theorem C119_half_even {u k : Nat} {half ulp x : FixedDecimal} (hx : Tight x) (hxu : iu x ≤ u) (hu : 1 ≤ u)
    (h4 : unitsFor (k + 1) ≤ 4) (hroom : u + 1 + unitsFor (k + 1) ≤ 8) (hfx : u + fu x ≤ 8) (hv : |val x| + 1 < 10 ^ (9 * u))
    (hd : Ulp u k ulp) (hh : Tight half) (h1 : 1 ≤ intgDigits half) (h8 : intgDigits half ≤ 8) (hf : fracDigits half ≤ 1)
    (hhv : val half = 1 / 2) :
    ∃ r, ∃ n : ℤ, halfEvenTo m k half ulp x = .ok r ∧ val r = (n : ℚ) / 10 ^ k ∧ |(n : ℚ) - val x * 10 ^ k| ≤ 1 / 2 ∧
      (|(n : ℚ) - val x * 10 ^ k| = 1 / 2 → Even n) ∧ Tight r ∧ iu r ≤ u ∧ fracDigits r ≤ k := by
  have hk1 : unitsFor k ≤ unitsFor (k + 1) := unitsFor_mono (by omega)
  have hroom' : u + unitsFor k ≤ 8 := by omega
  have p0 : (0 : ℚ) < 10 ^ k := by positivity
  have p1 : (1 : ℚ) ≤ 10 ^ k := one_le_pow₀ (by norm_num)
  obtain ⟨t, t1, t2, t3, t4, t5, t6⟩ := round_room (m := m) (σ := Empty) hx hxu hroom' hv
  obtain ⟨b, b1, b2⟩ := isTie_spec (m := m) hx hxu hu hroom' hfx hd t4 t5 t6 t2
  unfold halfEvenTo
  rw [t1, ok_bind, b1, ok_bind]
  by_cases hb : b = true
  · rw [if_pos hb]
    have tie := b2.mp hb
    obtain ⟨h, c1, c2, c3, c4, c5, -⟩ := charge_left (m := m) hh h1 h8 hf t4 t5 t6.le h4 hu hroom
    obtain ⟨N, eN⟩ : ∃ N : Int, N = halfAway (val x * 10 ^ k) := ⟨_, rfl⟩
    rw [← eN] at t2 tie
    have hval : val h = (halfAway ((N : ℚ) * (1 / 2)) : ℚ) / 10 ^ k := by
      rw [c5, t2, hhv]
      congr 3
      field_simp
    have hb1 := halfAway_dist ((N : ℚ) * (1 / 2))
    have hN : |(N : ℚ) / 10 ^ k| < 10 ^ (9 * u) := near_bound (by rw [eN]; exact (halfAway_dist _).trans (by norm_num)) hv
    have hsum : |val h + val h| < 10 ^ (9 * (u + 1)) := by
      have e : val h + val h = (N : ℚ) / 10 ^ k + 2 * ((halfAway ((N : ℚ) * (1 / 2)) : ℚ) - (N : ℚ) * (1 / 2)) / 10 ^ k := by
        rw [hval]; ring
      have h5 : |2 * ((halfAway ((N : ℚ) * (1 / 2)) : ℚ) - (N : ℚ) * (1 / 2)) / 10 ^ k| ≤ 1 := by
        rw [abs_div, abs_of_pos p0, div_le_one p0, abs_mul, abs_of_pos (by norm_num : (0 : ℚ) < 2)]; linarith
      have h6 := abs_add_le ((N : ℚ) / 10 ^ k) (2 * ((halfAway ((N : ℚ) * (1 / 2)) : ℚ) - (N : ℚ) * (1 / 2)) / 10 ^ k)
      have big : (10 : ℚ) ^ (9 * u) + 1 < 10 ^ (9 * (u + 1)) := by
        have : (1 : ℚ) ≤ 10 ^ (9 * u) := one_le_pow₀ (by norm_num)
        rw [show 9 * (u + 1) = 9 * u + 9 by omega, pow_add]; norm_num; linarith
      rw [e]; linarith
    have wh : Within (u + 1) (unitsFor k) h := ⟨c2.toWF, c4, unitsFor_mono c3.le⟩
    obtain ⟨g, g1, g2, g3⟩ := add_within (m := m) (by omega : u + 1 + unitsFor k ≤ 8) wh wh hsum
    have tz : val t ≠ 0 := by
      intro h0
      have : (N : ℚ) = 0 := by
        rw [t2, div_eq_zero_iff] at h0
        exact h0.resolve_right p0.ne'
      rw [eN] at tie this
      obtain ⟨s1, s2⟩ := halfAway_side _ tie
      rcases le_total 0 (val x * 10 ^ k) with h | h
      · have := s1 h; linarith
      · have := s2 h; linarith
    have hcmp : compare (val g) (val t) = .eq ↔ Even N := by
      rw [compare_eq_iff_eq, g3, hval, t2, ← add_div, div_left_inj' p0.ne', ← two_mul, ← halfAway_even]
      exact_mod_cast Iff.rfl
    simp only [c1, FixedDecimal.orPanic, ok_bind, g1, C16_cmp_numeric m g2.wf t4.toWF (fun hc => tz hc.2)]
    by_cases ev : Even N
    · rw [if_pos (hcmp.mpr ev)]
      exact ⟨t, N, rfl, t2, by rw [eN]; exact halfAway_dist _, fun _ => ev, t4, t5, t6.le⟩
    · rw [if_neg (fun hc => ev (hcmp.mp hc))]
      obtain ⟨r, n, r1, r2, r3, r4, -, r6⟩ := stepBack_spec (m := m) hx hu hroom' hv hd t4 t5 t6 (by rw [← eN]; exact t2)
        (by rw [← eN]; exact tie)
      refine ⟨r, n, r1, r2, r3.le, fun _ => ?_, r6⟩
      rw [← eN] at r4
      have od : Odd N := Int.not_even_iff_odd.mp ev
      rcases r4 with r4 | r4 <;> rw [r4]
      · exact od.add_odd odd_one
      · exact od.sub_odd odd_one
  · rw [if_neg hb]
    exact ⟨t, _, rfl, t2, halfAway_dist _, fun h => absurd (b2.mpr (by rw [h]; norm_num)) hb, t4, t5, t6.le⟩

/-- What C119_half_even says determines the number. -/
theorem half_even_unique {q : ℚ} {a b : ℤ} (ha : |(a : ℚ) - q| ≤ 1 / 2) (hb : |(b : ℚ) - q| ≤ 1 / 2)
    (ea : |(a : ℚ) - q| = 1 / 2 → Even a) (eb : |(b : ℚ) - q| = 1 / 2 → Even b) : a = b := by
  wlog h : a ≤ b with H
  · exact (H hb ha eb ea (by omega)).symm
  rcases h.lt_or_eq with h | h
  · exfalso
    have h1 : (a : ℚ) + 1 ≤ b := by exact_mod_cast h
    obtain ⟨a1, a2⟩ := abs_le.mp ha
    obtain ⟨b1, b2⟩ := abs_le.mp hb
    have e1 : (a : ℚ) - q = -(1 / 2) := by linarith
    have e2 : (b : ℚ) - q = 1 / 2 := by linarith
    have e3 : (b : ℚ) = a + 1 := by linarith
    have e4 : b = a + 1 := by exact_mod_cast e3
    have o1 := ea (by rw [e1]; norm_num)
    have o2 := eb (by rw [e2]; norm_num)
    rw [e4] at o2
    exact (Int.even_add_one.mp o2) o1
  · exact h

/-- 0.01, as parsed. -/
def cent : FixedDecimal := ⟨1#8, 2, [10000000, 0, 0, 0, 0, 0, 0, 0, 0]⟩

theorem ulp_cent : Ulp 1 2 cent := by
  refine ⟨by decide, by decide, by decide, ?_⟩
  have e1 : mant cent = 10000000 := by decide
  have e2 : fu cent = 1 := by decide
  have e3 : neg cent = false := by decide
  unfold val absVal; rw [e1, e2, e3]; norm_num

/-- -2.345 in six ways: floor -2.35, ceiling -2.34, truncated -2.34, away from zero -2.35, halves towards zero -2.34, to even -2.34. And
`round_to` gives -2.35. -/
example : ∃ x : FixedDecimal, FixedDecimal.fromStr m (Samples.bytes "-2.345") = .ok x ∧ Tight x ∧ iu x ≤ 1 ∧ 1 + fu x ≤ 8 ∧
    (do (← floorTo m 2 cent x).toStr m (-1)) = (.ok (Samples.bytes "-2.35") : Out Empty _) ∧
    (do (← ceilTo m 2 cent x).toStr m (-1)) = (.ok (Samples.bytes "-2.34") : Out Empty _) ∧
    (do (← truncTo m 2 cent x).toStr m (-1)) = (.ok (Samples.bytes "-2.34") : Out Empty _) ∧
    (do (← awayTo m 2 cent x).toStr m (-1)) = (.ok (Samples.bytes "-2.35") : Out Empty _) ∧
    (do (← halfDownTo m 2 cent x).toStr m (-1)) = (.ok (Samples.bytes "-2.34") : Out Empty _) ∧
    (do (← halfEvenTo m 2 fHalf cent x).toStr m (-1)) = (.ok (Samples.bytes "-2.34") : Out Empty _) ∧
    (do (← x.roundTo m FixedDecimal.zero 2).toStr m (-1)) = (.ok (Samples.bytes "-2.35") : Out Empty _) := by
  refine ⟨⟨0x81#8, 3, [345000000, 2, 0, 0, 0, 0, 0, 0, 0]⟩, ?_, ?_, ?_, ?_, ?_, ?_, ?_, ?_, ?_, ?_, ?_⟩
  all_goals (cases m <;> decide +kernel)

end Props
end Fxd
