import Verif.Model.Convert
import Verif.Props.Cmp
import Verif.Props.Round
/-!
# Properties C45-C48: integer conversions

`as_i64` and `as_u64` take `&self` and return a `Result`; an `i64` is an integer in `[-2^63, 2^63)`, a `u64` one in
`[0, 2^64)`.
-/

namespace Fxd
open Spec

theorem idx_dg {σ : Type} {d : FixedDecimal} (hd : WF d) {i : Nat} (hi : i < 9) :
    (idx d.lsu (i : Int) : Out σ Int) = .ok (dg d.lsu i) := idx_nat (by rw [hd.len]; exact hi)

/-- A mantissa below `10^27` sits in the three low units. -/
theorem mant_three {d : FixedDecimal} (hd : WF d) (h : mant d < 1000000000 ^ 3) :
    mant d = dg d.lsu 0 + dg d.lsu 1 * 1000000000 + dg d.lsu 2 * 1000000000 * 1000000000 := by
  have hz : ∀ i, 3 ≤ i → i < 9 → dg d.lsu i = 0 := by
    intro i h3 h9
    by_contra hne
    have hp : 0 < dg d.lsu i := by have := (hd.dig i).1; omega
    have h1 := psum_ge_of_pos hd.dig h9 hp
    rw [← hd.mant_eq9] at h1
    have h2 : (1000000000 : Int) ^ 3 ≤ 1000000000 ^ i := pow_le_pow_right₀ (by norm_num) h3
    omega
  rw [hd.mant_eq9, psum_extend (show 3 ≤ 9 by norm_num) hz]
  simp only [psum]
  ring

theorem lsuToI64_spec {σ : Type} (m : Mode) {d : FixedDecimal} (hd : WF d)
    (h : mant d < 2 ^ 63 ∨ neg d = true ∧ mant d ≤ 2 ^ 63) :
    (d.lsuToI64 m : Out σ Int) = .ok (if neg d then - mant d else mant d) := by
  have hm : mant d ≤ 2 ^ 63 := by omega
  have h3 := mant_three hd (by norm_num; norm_num at hm; omega)
  have a0 := hd.dig 0
  have a1 := hd.dig 1
  have a2 := hd.dig 2
  unfold FixedDecimal.lsuToI64
  rw [show (0 : Int) = ((0 : Nat) : Int) from rfl, show (1 : Int) = ((1 : Nat) : Int) from rfl,
    show (2 : Int) = ((2 : Nat) : Int) from rfl, idx_dg hd (by norm_num), idx_dg hd (by norm_num), idx_dg hd (by norm_num)]
  simp only [ok_bind, isNeg_eq, UNIT]
  set x := dg d.lsu 0
  set y := dg d.lsu 1
  set z := dg d.lsu 2
  norm_num at h hm
  by_cases hn : neg d = true
  · rw [if_pos hn, if_pos hn]
    rw [i32_ok (by omega) (by omega), ok_bind, i64_ok (by omega) (by omega), ok_bind, i64_ok (by omega) (by omega),
      ok_bind, i64_ok (by omega) (by omega), ok_bind, i64_ok (by omega) (by omega), ok_bind,
      i64_ok (by omega) (by omega), h3]
    apply congrArg Out.ok; omega
  · rw [if_neg hn, if_neg hn]
    have h' : mant d < 9223372036854775808 := by
      rcases h with h | ⟨h, _⟩
      · exact h
      · exact absurd h hn
    rw [i64_ok (by omega) (by omega), ok_bind, i64_ok (by omega) (by omega),
      ok_bind, i64_ok (by omega) (by omega), ok_bind, i64_ok (by omega) (by omega), ok_bind,
      i64_ok (by omega) (by omega), h3]

theorem lsuToU64_spec {σ : Type} (m : Mode) {d : FixedDecimal} (hd : WF d) (h : mant d < 2 ^ 64) :
    (d.lsuToU64 m : Out σ Int) = .ok (mant d) := by
  norm_num at h
  have h3 := mant_three hd (by norm_num; omega)
  have a0 := hd.dig 0
  have a1 := hd.dig 1
  have a2 := hd.dig 2
  unfold FixedDecimal.lsuToU64
  rw [show (0 : Int) = ((0 : Nat) : Int) from rfl, show (1 : Int) = ((1 : Nat) : Int) from rfl,
    show (2 : Int) = ((2 : Nat) : Int) from rfl, idx_dg hd (by norm_num), idx_dg hd (by norm_num), idx_dg hd (by norm_num)]
  simp only [ok_bind, UNIT]
  set x := dg d.lsu 0
  set y := dg d.lsu 1
  set z := dg d.lsu 2
  have e : ∀ v : Int, 0 ≤ v → v < 1000000000 → v % (((2 : Nat) : Int) ^ 64) = v := by
    intro v h0 h1; exact Int.emod_eq_of_lt h0 (by norm_num; omega)
  rw [e x a0.1 a0.2, e y a1.1 a1.2, e z a2.1 a2.2]
  rw [usz_ok (by omega) (by omega), ok_bind, usz_ok (by omega) (by omega),
    ok_bind, usz_ok (by omega) (by omega), ok_bind, usz_ok (by omega) (by omega), ok_bind,
    usz_ok (by omega) (by omega), h3]

/-! ## The rounded target -/

theorem halfAway_bounds {q : ℚ} {a b : ℤ} (ha : (a : ℚ) ≤ q) (hb : q ≤ b) : a ≤ halfAway q ∧ halfAway q ≤ b := by
  constructor
  · have := halfAway_mono ha; rwa [halfAway_int] at this
  · have := halfAway_mono hb; rwa [halfAway_int] at this

theorem val_int {d : FixedDecimal} (h : fu d = 0) : val d = ((if neg d then - mant d else mant d : ℤ) : ℚ) := by
  unfold val absVal
  rw [h]
  split_ifs <;> simp

/-- Rounding to an integer never fails when there is a fractional unit. -/
theorem roundTo_zero {σ : Type} (m : Mode) {d : FixedDecimal} (hd : WF d) (h : 0 < fu d) :
    ∃ r, (d.roundTo m FixedDecimal.zero 0 : Out σ _) = .ok r ∧ WF r ∧ fu r = 0 ∧ neg r = neg d ∧
      val r = (halfAway (val d) : ℚ) := by
  have hk : 0 < fracDigits d := by
    by_contra hc
    unfold fu unitsFor at h; omega
  have hfits := hd.fits
  obtain ⟨r, e⟩ := ((Props.C39_ok_iff (σ := σ) m hd (res := FixedDecimal.zero) rfl hk).1).mpr
    (Or.inl (by show iu d + 0 ≤ 8; omega))
  obtain ⟨a, b, c, t⟩ := Props.C39_round_to m hd (res := FixedDecimal.zero) rfl hk e
  refine ⟨r, e, t.toWF, ?_, c, ?_⟩
  · unfold fu fracDigits; rw [b]; rfl
  · rw [a]; simp

theorem val_MAX_I64 : val FixedDecimal.MAX_I64 = 9223372036854775807 := by
  have h : mant FixedDecimal.MAX_I64 = 9223372036854775807 := by decide
  have h2 : neg FixedDecimal.MAX_I64 = false := by decide
  have h3 : fu FixedDecimal.MAX_I64 = 0 := by decide
  simp only [val, absVal, h, h2, h3]; norm_num
theorem val_MIN_I64 : val FixedDecimal.MIN_I64 = -9223372036854775808 := by
  have h : mant FixedDecimal.MIN_I64 = 9223372036854775808 := by decide
  have h2 : neg FixedDecimal.MIN_I64 = true := by decide
  have h3 : fu FixedDecimal.MIN_I64 = 0 := by decide
  simp only [val, absVal, h, h2, h3]; norm_num
theorem val_MAX_U64 : val FixedDecimal.MAX_U64 = 18446744073709551615 := by
  have h : mant FixedDecimal.MAX_U64 = 18446744073709551615 := by decide
  have h2 : neg FixedDecimal.MAX_U64 = false := by decide
  have h3 : fu FixedDecimal.MAX_U64 = 0 := by decide
  simp only [val, absVal, h, h2, h3]; norm_num

theorem lt_val {σ : Type} (m : Mode) {a b : FixedDecimal} (ha : WF a) (hb : WF b) (h : val b ≠ 0) :
    (a.lt m b : Out σ Bool) = .ok (decide (val a < val b)) := by
  unfold FixedDecimal.lt
  rw [Props.C16_cmp_numeric m ha hb (fun hh => h hh.2)]
  show Out.ok _ = _
  apply congrArg Out.ok
  rcases lt_trichotomy (val a) (val b) with h | h | h
  · rw [compare_lt_iff_lt.mpr h]; simp [h]
  · rw [compare_eq_iff_eq.mpr h]; simp [h]
  · rw [compare_gt_iff_gt.mpr h]; simp [h.le]
theorem gt_val {σ : Type} (m : Mode) {a b : FixedDecimal} (ha : WF a) (hb : WF b) (h : val b ≠ 0) :
    (a.gt m b : Out σ Bool) = .ok (decide (val b < val a)) := by
  unfold FixedDecimal.gt
  rw [Props.C16_cmp_numeric m ha hb (fun hh => h hh.2)]
  show Out.ok _ = _
  apply congrArg Out.ok
  rcases lt_trichotomy (val a) (val b) with h | h | h
  · rw [compare_lt_iff_lt.mpr h]; simp [h.le]
  · rw [compare_eq_iff_eq.mpr h]; simp [h]
  · rw [compare_gt_iff_gt.mpr h]; simp [h]

/-! ## The loop of `From<u64>` -/

theorem fromU64Loop_spec {σ : Type} {N : Nat} (hN : N ≤ 9) : ∀ (fuel : Nat) (src : Int) (i : Nat) (l : List Int), 0 ≤ src →
    src < fuel → src < 1000000000 ^ (N - i) → i ≤ N → l.length = 9 → DigL l → (∀ p, i ≤ p → dg l p = 0) →
    ∃ (i' : Nat) (l' : List Int), (FixedDecimal.fromU64Loop fuel src i l : Out σ _) = .ok ((i' : Int), l') ∧ i' ≤ N ∧
      l'.length = 9 ∧ DigL l' ∧ (∀ p, i' ≤ p → dg l' p = 0) ∧
      psum (dg l') 9 = psum (dg l) 9 + src * 1000000000 ^ i := by
  intro fuel
  induction fuel with
  | zero =>
    intro src i l h0 hf hs hi hl hd hz
    push_cast at hf; omega
  | succ fuel ih =>
    intro src i l h0 hf hs hi hl hd hz
    unfold FixedDecimal.fromU64Loop
    by_cases hs0 : src = 0
    · subst hs0
      rw [if_pos rfl]
      exact ⟨i, l, rfl, hi, hl, hd, hz, by ring⟩
    · rw [if_neg hs0]
      have hiN : i < N := by
        by_contra hc
        have : i = N := by omega
        subst this
        rw [Nat.sub_self, pow_zero] at hs; omega
      have hi9 : i < 9 := by omega
      dsimp only
      rw [Int.tdiv_eq_ediv_of_nonneg h0]
      have hq := Int.mul_ediv_add_emod src UNIT
      have hr0 := Int.emod_nonneg src (show UNIT ≠ 0 by decide)
      have hr1 := Int.emod_lt_of_pos src (show 0 < UNIT by decide)
      have hU : UNIT = 1000000000 := rfl
      set q := src / UNIT
      set r := src % UNIT
      rw [hU] at hq hr1
      have er : src - q * UNIT = r := by rw [hU]; omega
      rw [er, wrap32_ok (by omega) (by omega), upd_nat (by omega), ok_bind]
      have hq0 : 0 ≤ q := by omega
      have hqB : q < 1000000000 ^ (N - (i + 1)) := by
        have e : (1000000000 : Int) ^ (N - i) = 1000000000 ^ (N - (i + 1)) * 1000000000 := by
          rw [← pow_succ]; congr 1; omega
        rw [e] at hs
        set P := (1000000000 : Int) ^ (N - (i + 1))
        omega
      obtain ⟨i', l', e1, e2, e3, e4, e5, e6⟩ := ih q (i + 1) (l.set i r) hq0 (by omega) hqB (by omega)
        (by rw [List.length_set]; exact hl) (hd.set ⟨hr0, hr1⟩)
        (fun p hp => by rw [dg_set_ne (by omega)]; exact hz p (by omega))
      refine ⟨i', l', ?_, e2, e3, e4, e5, ?_⟩
      · rw [show ((i : Int) + 1) = ((i + 1 : Nat) : Int) by push_cast; ring]; exact e1
      · rw [e6]
        have e7 : psum (dg (l.set i r)) 9 = psum (dg l) 9 + r * 1000000000 ^ i := by
          rw [psum_split (f := dg (l.set i r)) (show i + 1 ≤ 9 by omega), psum_split (f := dg l) (show i + 1 ≤ 9 by omega),
            psum_succ, psum_succ, psum_set_ge (le_refl i), dg_set_self (by omega), hz i (le_refl i)]
          rw [psum_congr (f := fun j => dg (l.set i r) (i + 1 + j)) (g := fun j => dg l (i + 1 + j))]
          · ring
          · intro j _
            show dg (l.set i r) (i + 1 + j) = dg l (i + 1 + j)
            rw [dg_set_ne (by omega)]
        rw [e7, pow_succ]
        calc psum (dg l) 9 + r * 1000000000 ^ i + q * (1000000000 ^ i * 1000000000)
            = psum (dg l) 9 + (1000000000 * q + r) * 1000000000 ^ i := by ring
          _ = _ := by rw [hq]

namespace Props

/-- **C45.** `From<u64>` is exact, for every `u64`; the result has at most 27 integral digits. -/
theorem C45_from_u64 {σ : Type} {n : Int} (h0 : 0 ≤ n) (h1 : n < 2 ^ 64) :
    ∃ d, (FixedDecimal.fromU64 n : Out σ _) = .ok d ∧ val d = n ∧ neg d = false ∧ Tight d ∧ d.frac = 0 ∧
      intgDigits d ≤ 27 := by
  norm_num at h1
  obtain ⟨i, l, e1, e2, e3, e4, e5, e6⟩ := fromU64Loop_spec (σ := σ) (N := 3) (by norm_num) (n.toNat + 1) n 0 zeroUnits h0 (by omega)
    (by norm_num; omega) (by norm_num) rfl DigL.zeroUnits (fun p _ => dg_replicate)
  have ez : psum (dg zeroUnits) 9 = 0 := psum_zero_of (fun i _ => dg_replicate)
  rw [ez, pow_zero, mul_one, zero_add] at e6
  have b := built_wf (t := i) (f := 0) (F := 0) e3 e4 (by decide) (by omega) (fun p hp => e5 p (by omega))
  dsimp only at b
  obtain ⟨b1, b2, b3, b4, b5, b6, b7⟩ := b
  have hd : (FixedDecimal.fromU64 n : Out σ _) = .ok ⟨BitVec.ofInt 8 ((9 * i : Nat) : Int), ((0 : Nat) : Int), l⟩ := by
    unfold FixedDecimal.fromU64
    rw [show FixedDecimal.zero.lsu = zeroUnits from rfl, show (0 : Int) = ((0 : Nat) : Int) from rfl, e1]
    show Out.ok _ = _
    rw [show ((i : Int) * DIGITS_PER_UNIT) = ((9 * i : Nat) : Int) by unfold DIGITS_PER_UNIT; push_cast; ring]
    rfl
  refine ⟨_, hd, ?_, b5, ?_, rfl, by rw [b7]; omega⟩
  · rw [val_int b3, b5, b4, e6]; simp
  · refine ⟨b1, ?_, ?_⟩
    · have := b1.mant_lt
      rw [b2, b3, pow9, show 9 * (i + 0) = 9 * i + 9 * 0 by ring] at this
      rw [b7, b3]; exact this
    · rw [b3, b6]; simp

/-- **C45.** `From<i64>` is exact, for every `i64` including the smallest, in both build modes. -/
theorem C45_from_i64 {σ : Type} (m : Mode) {n : Int} (h0 : -2 ^ 63 ≤ n) (h1 : n < 2 ^ 63) :
    ∃ d, (FixedDecimal.fromI64 m n : Out σ _) = .ok d ∧ val d = n ∧ (neg d = true ↔ n < 0) ∧ Tight d ∧ d.frac = 0 ∧
      intgDigits d ≤ 27 := by
  unfold FixedDecimal.fromI64
  by_cases hm : n = -(2 ^ 63)
  · rw [if_pos hm]
    refine ⟨FixedDecimal.MIN_I64, rfl, ?_, ?_, by decide, rfl, by decide⟩
    · rw [val_MIN_I64, hm]; norm_num
    · rw [hm]; decide
  rw [if_neg hm]
  norm_num at h0 h1 hm
  by_cases hneg : n < 0
  · rw [if_pos hneg, i64_ok (by omega) (by omega), ok_bind]
    have e : (-n) % (2 ^ 64 : Int) = -n := Int.emod_eq_of_lt (by omega) (by norm_num; omega)
    rw [e]
    obtain ⟨d, a1, a2, a3, a4, a5, a6⟩ := C45_from_u64 (σ := σ) (n := -n) (by omega) (by norm_num; omega)
    rw [a1]
    refine ⟨d.setNeg, rfl, ?_, ?_, tight_setNeg.mpr a4, a5, by rw [intgDigits_setNeg]; exact a6⟩
    · rw [val_setNeg]
      unfold val at a2; rw [a3] at a2
      simp only [Bool.false_eq_true, if_false] at a2
      rw [a2]; push_cast; ring
    · simp [hneg]
  · rw [if_neg hneg]
    obtain ⟨d, a1, a2, a3, a4, a5, a6⟩ := C45_from_u64 (σ := σ) (n := n) (by omega) (by norm_num; omega)
    exact ⟨d, a1, a2, by simp [a3, hneg], a4, a5, a6⟩

example : (FixedDecimal.fromI64 .debug (-9223372036854775808) : Out Unit _) = .ok FixedDecimal.MIN_I64 ∧
    (FixedDecimal.fromU64 18446744073709551615 : Out Unit _) =
      .ok ⟨27#8, 0, [709551615, 446744073, 18, 0, 0, 0, 0, 0, 0]⟩ := by decide +kernel

/-- **C46.** `as_i64` succeeds exactly on the values in `[-2^63, 2^63 - 1]` and then gives the value rounded half away
from zero; otherwise it is `Err`. It never panics. -/
theorem C46_as_i64 (m : Mode) {d : FixedDecimal} (hd : WF d) :
    d.asI64 m = if -2 ^ 63 ≤ val d ∧ val d ≤ 2 ^ 63 - 1 then .ok (halfAway (val d))
      else .err .exceedsConversionTargetRange () := by
  have w1 : WF FixedDecimal.MIN_I64 := by decide
  have w2 : WF FixedDecimal.MAX_I64 := by decide
  unfold FixedDecimal.asI64
  rw [lt_val m hd w1 (by rw [val_MIN_I64]; norm_num), ok_bind, val_MIN_I64]
  by_cases h1 : val d < -9223372036854775808
  · rw [if_pos (by simpa using h1), ok_bind, if_pos rfl, if_neg (by norm_num; intro h; linarith)]
  rw [if_neg (by simpa using h1), gt_val m hd w2 (by rw [val_MAX_I64]; norm_num), ok_bind, val_MAX_I64]
  by_cases h2 : 9223372036854775807 < val d
  · rw [if_pos (by simpa using h2), if_neg (by norm_num; intro h; linarith)]
  rw [if_neg (by simpa using h2), if_pos (by norm_num; constructor <;> linarith), hd.fracUnits, ok_bind]
  rw [not_lt] at h1 h2
  have key : ∀ r : FixedDecimal, WF r → fu r = 0 → val r = (halfAway (val d) : ℚ) →
      (r.lsuToI64 m : Out Unit Int) = .ok (halfAway (val d)) := by
    intro r hr hf hv
    rw [val_int hf] at hv
    have hv' : (if neg r then - mant r else mant r) = halfAway (val d) := by exact_mod_cast hv
    have hb := halfAway_bounds (q := val d) (a := -9223372036854775808) (b := 9223372036854775807)
      (by push_cast; exact h1) (by push_cast; exact h2)
    have hM := hr.mant_nonneg
    rw [lsuToI64_spec m hr, hv']
    norm_num
    rw [← hv'] at hb
    by_cases hn : neg r = true
    · rw [if_pos hn] at hb
      right; exact ⟨hn, by omega⟩
    · rw [if_neg hn] at hb
      left; omega
  by_cases hf : fu d = 0
  · rw [if_neg (by rw [hf]; norm_num)]
    refine key d hd hf ?_
    rw [val_int hf, halfAway_int]
  · rw [if_pos (by exact_mod_cast Nat.pos_of_ne_zero hf)]
    obtain ⟨r, e, a, b, c, v⟩ := roundTo_zero (σ := Unit) m hd (Nat.pos_of_ne_zero hf)
    rw [e, ok_bind]
    exact key r a b v

/-- **C47.** `as_u64` succeeds exactly when the sign flag is clear and the value is at most `2^64 - 1`, and then gives
the value rounded half up; otherwise it is `Err`. It never panics. -/
theorem C47_as_u64 (m : Mode) {d : FixedDecimal} (hd : WF d) :
    d.asU64 m = if neg d = false ∧ val d ≤ 2 ^ 64 - 1 then .ok (halfAway (val d))
      else .err .exceedsConversionTargetRange () := by
  have w2 : WF FixedDecimal.MAX_U64 := by decide
  unfold FixedDecimal.asU64
  rw [isNeg_eq]
  by_cases h1 : neg d = true
  · rw [if_pos h1, ok_bind, if_pos rfl, if_neg (by rw [h1]; simp)]
  rw [if_neg h1, gt_val m hd w2 (by rw [val_MAX_U64]; norm_num), ok_bind, val_MAX_U64]
  by_cases h2 : 18446744073709551615 < val d
  · rw [if_pos (by simpa using h2), if_neg (by norm_num; intro _; linarith)]
  have hn : neg d = false := by simpa using h1
  rw [not_lt] at h2
  rw [if_neg (by simpa using h2), if_pos (by rw [hn]; norm_num; linarith), hd.fracUnits, ok_bind]
  have h0 : 0 ≤ val d := by unfold val; rw [if_neg h1]; exact absVal_nonneg hd
  have key : ∀ r : FixedDecimal, WF r → fu r = 0 → neg r = false → val r = (halfAway (val d) : ℚ) →
      (r.lsuToU64 m : Out Unit Int) = .ok (halfAway (val d)) := by
    intro r hr hf hnr hv
    rw [val_int hf, hnr] at hv
    have hv' : mant r = halfAway (val d) := by
      simp only [Bool.false_eq_true, if_false] at hv
      exact_mod_cast hv
    have hb := halfAway_bounds (q := val d) (a := 0) (b := 18446744073709551615)
      (by push_cast; exact h0) (by push_cast; exact h2)
    rw [lsuToU64_spec m hr, hv']
    norm_num; omega
  by_cases hf : fu d = 0
  · rw [if_neg (by rw [hf]; norm_num)]
    refine key d hd hf hn ?_
    rw [val_int hf, halfAway_int]
  · rw [if_pos (by exact_mod_cast Nat.pos_of_ne_zero hf)]
    obtain ⟨r, e, a, b, c, v⟩ := roundTo_zero (σ := Unit) m hd (Nat.pos_of_ne_zero hf)
    rw [e, ok_bind]
    exact key r a b (c.trans hn) v

/-- -7.50 as `i64` is -8; as `u64` it is refused, and so is -0. -/
example : Samples.c.asI64 m = .ok (-8) ∧ Samples.c.asU64 m = .err .exceedsConversionTargetRange () ∧
    Samples.nz.asU64 m = .err .exceedsConversionTargetRange () ∧ Samples.nz.asI64 m = .ok 0 ∧
    Samples.a.asU64 m = .ok 123456789012 ∧ WF Samples.c ∧ WF Samples.nz := by
  cases m <;> decide +kernel

/-- **C48.** Round trip through `i64`. -/
theorem C48_i64_roundtrip (m : Mode) {n : Int} (h0 : -2 ^ 63 ≤ n) (h1 : n < 2 ^ 63) :
    (FixedDecimal.fromI64 m n >>= fun d => d.asI64 m) = .ok n := by
  obtain ⟨d, a1, a2, -, a4, -⟩ := C45_from_i64 (σ := Unit) m h0 h1
  rw [a1, ok_bind, C46_as_i64 m a4.toWF, a2, halfAway_int, if_pos]
  norm_num at h0 h1 ⊢
  constructor
  · exact_mod_cast h0
  · exact_mod_cast (by omega : n ≤ 9223372036854775807)

/-- **C48.** Round trip through `u64`. -/
theorem C48_u64_roundtrip (m : Mode) {n : Int} (h0 : 0 ≤ n) (h1 : n < 2 ^ 64) :
    (FixedDecimal.fromU64 n >>= fun d => d.asU64 m) = .ok n := by
  obtain ⟨d, a1, a2, a3, a4, -⟩ := C45_from_u64 (σ := Unit) h0 h1
  rw [a1, ok_bind, C47_as_u64 m a4.toWF, a2, halfAway_int, if_pos]
  norm_num at h0 h1 ⊢
  refine ⟨a3, ?_⟩
  exact_mod_cast (by omega : n ≤ 18446744073709551615)

end Props
end Fxd
