import Verif.Proofs.MulLemmas
import Verif.Proofs.NoErr
import Verif.Props.AddSub
import Verif.Spec.Product
/-!
# `mul_abs` and `mul_to`
-/

namespace Fxd
open Spec

/-- The integer the loops compute. -/
def mulRes (a b : FixedDecimal) : Int :=
  rowSum (a.lsu.take (iu a + fu a)) (mulShift a b) (b.lsu.take (iu b + fu b)) 0

theorem mulFU_le (a b : FixedDecimal) : mulFU a b ≤ fu a + fu b := by
  have h1 := fracDigits_le_fu a
  have h2 := fracDigits_le_fu b
  unfold mulFU
  have : unitsFor (fracDigits a + fracDigits b) ≤ fu a + fu b := by unfold unitsFor; omega
  omega

theorem wrap8_neg {x : Int} (h : 128 ≤ x) (h' : x < 247) : wrap 8 x + 8 < 0 := by
  unfold wrap Int.bmod; norm_num; omega

theorem getUnits_bad {σ : Type} {m : Mode} {x : Int} (h : 120 ≤ x) (h' : x < 247) :
    ∃ p, (i8 m x >>= fun y => getUnits m y : Out σ Int) = .panic p := by
  by_cases h1 : x < 128
  · rw [i8_ok (by omega) h1, ok_bind]; exact getUnits_oob h h1
  · cases m
    · refine ⟨.overflow, ?_⟩
      unfold i8 sarith
      rw [if_neg (by norm_num; omega)]; rfl
    · refine ⟨.index, ?_⟩
      unfold i8 sarith
      rw [if_neg (by norm_num; omega)]
      show getUnits .release (wrap 8 x) = _
      have hw := wrap8_neg (by omega) h'
      have hlo : -128 ≤ wrap 8 x := by unfold wrap; have := Int.le_bmod (x := x) (m := 2 ^ 8) (by norm_num); norm_num at this ⊢; omega
      unfold getUnits
      rw [i8_ok (by omega) (by omega), ok_bind]
      unfold div9
      exact idx_oob (Or.inl hw)

theorem bind2_panic {σ α β γ : Type} {x : Out σ α} {f : α → Out σ β} {g : α → β → Out σ γ} {p : Panic}
    (h : (x >>= f) = .panic p) : (x >>= fun a => f a >>= fun b => g a b) = .panic p := by
  cases x with
  | ok a =>
    change f a = _ at h
    show (f a >>= fun b => g a b) = _
    rw [h]; rfl
  | err e s => exact absurd h (by intro h; cases h)
  | panic q => change Out.panic q = _ at h; injection h with h; subst h; rfl

theorem mulAbs_panic (m : Mode) {a b : FixedDecimal} (ha : WF a) (hb : WF b) (res : FixedDecimal)
    (h : 120 ≤ intgDigits a + intgDigits b ∨ 120 ≤ fracDigits a + fracDigits b) :
    ∃ p, mulAbs m a b res = .panic p := by
  have h1 := ha.intg_le
  have h2 := hb.intg_le
  have h3 := ha.frac_le
  have h4 := hb.frac_le
  unfold mulAbs
  dsimp only
  rw [intgDigits_eq, intgDigits_eq, ha.frac_eq, hb.frac_eq]
  by_cases hi : 120 ≤ intgDigits a + intgDigits b
  · obtain ⟨p, hp⟩ := getUnits_bad (σ := FixedDecimal) (m := m) (x := (intgDigits a : Int) + intgDigits b) (by omega) (by omega)
    refine ⟨p, ?_⟩
    rw [← bind_assoc', hp]; rfl
  · obtain ⟨p, hp⟩ := getUnits_bad (σ := FixedDecimal) (m := m) (x := (fracDigits a : Int) + fracDigits b) (by omega) (by omega)
    refine ⟨p, ?_⟩
    rw [i8_ok (by omega) (by omega), ok_bind, show ((intgDigits a : Int) + intgDigits b) = ((intgDigits a + intgDigits b : Nat) : Int) by push_cast; rfl,
      getUnits_nat (by omega), ok_bind]
    exact bind2_panic hp

theorem mulAbs_overflow (m : Mode) {a b : FixedDecimal} (ha : WF a) (hb : WF b) {res : FixedDecimal}
    (hres : res.lsu.length = 9) (h : 82 ≤ intgDigits a + intgDigits b) (h' : intgDigits a + intgDigits b < 120)
    (hf : fracDigits a + fracDigits b < 120) :
    mulAbs m a b res = .err .overflow FixedDecimal.zero := by
  unfold mulAbs
  dsimp only
  rw [intgDigits_eq, intgDigits_eq, ha.frac_eq, hb.frac_eq, i8_ok (by omega) (by omega), ok_bind,
    show ((intgDigits a : Int) + intgDigits b) = ((intgDigits a + intgDigits b : Nat) : Int) by push_cast; rfl,
    getUnits_nat (by omega), ok_bind, i8_ok (by omega) (by omega), ok_bind,
    show ((fracDigits a : Int) + fracDigits b) = ((fracDigits a + fracDigits b : Nat) : Int) by push_cast; rfl,
    getUnits_nat (by omega), ok_bind, if_pos, setZero_eq hres]
  have : MAX_UNITS = 9 := rfl
  rw [this]; unfold unitsFor; omega

/-- If the outer loop does not run it does not matter what the units of `lhs` are. -/
theorem mulUnits_bind {σ β : Type} {m : Mode} {lsu L R res : List Int} {n s j : Int} {back : List Int → σ}
    {k : List Int → Out σ β} (h : (slice lsu 0 n : Out σ (List Int)) = .ok L) :
    (mulUnits lsu n R >>= fun l => mulOuter m l s back R j res >>= k) = (mulOuter m L s back R j res >>= k) := by
  cases R with
  | nil => rfl
  | cons r rs =>
    show (slice lsu 0 n >>= _) = _
    rw [h]; rfl

/-- `mul_abs` up to the loops. -/
theorem mulAbs_eq (m : Mode) {a b : FixedDecimal} (ha : WF a) (hb : WF b) {res : FixedDecimal}
    (hres : res.lsu.length = 9) (h : intgDigits a + intgDigits b ≤ 81)
    (hf : fracDigits a + fracDigits b < 120) :
    mulAbs m a b res =
      (mulOuter m (a.lsu.take (iu a + fu a)) (mulShift a b : Nat) (fun l => { FixedDecimal.zero with lsu := l })
        (b.lsu.take (iu b + fu b)) ((0 : Nat) : Int) zeroUnits >>= fun rlsu =>
        .ok ⟨BitVec.ofInt 8 ((9 * mulIU a b : Nat) : Int),
          ((min (fracDigits a + fracDigits b) (9 * mulFU a b) : Nat) : Int), rlsu⟩) := by
  have hM : MAX_UNITS = 9 := rfl
  have hMF : MAX_FRAC_UNITS = 4 := rfl
  have hiu : mulIU a b ≤ 9 := by unfold mulIU unitsFor; omega
  have hle := mulFU_le a b
  have hfa := ha.fits
  have hfb := hb.fits
  unfold mulAbs
  dsimp only
  rw [intgDigits_eq, intgDigits_eq, ha.frac_eq, hb.frac_eq, i8_ok (by omega) (by omega), ok_bind,
    show ((intgDigits a : Int) + intgDigits b) = ((intgDigits a + intgDigits b : Nat) : Int) by push_cast; rfl,
    getUnits_nat (by omega), ok_bind, i8_ok (by omega) (by omega), ok_bind,
    show ((fracDigits a : Int) + fracDigits b) = ((fracDigits a + fracDigits b : Nat) : Int) by push_cast; rfl,
    getUnits_nat (by omega), ok_bind]
  rw [show unitsFor (intgDigits a + intgDigits b) = mulIU a b from rfl]
  rw [if_neg (by rw [hM]; omega)]
  have e1 : (if (if (mulIU a b : Int) + (unitsFor (fracDigits a + fracDigits b) : Nat) > MAX_UNITS then MAX_UNITS - (mulIU a b : Int)
      else ((unitsFor (fracDigits a + fracDigits b) : Nat) : Int)) > MAX_FRAC_UNITS then MAX_FRAC_UNITS
      else (if (mulIU a b : Int) + (unitsFor (fracDigits a + fracDigits b) : Nat) > MAX_UNITS then MAX_UNITS - (mulIU a b : Int)
      else ((unitsFor (fracDigits a + fracDigits b) : Nat) : Int))) = ((mulFU a b : Nat) : Int) := by
    rw [hM, hMF]
    unfold mulFU
    split_ifs <;> omega
  rw [e1, ha.intgUnits, ok_bind, ha.fracUnits, ok_bind, hb.intgUnits, ok_bind, hb.fracUnits, ok_bind,
    usz_ok (by omega) (by omega), ok_bind, slice_ok (by omega) (by omega) (by rw [hb.len]; omega), ok_bind,
    mulUnits_bind (slice_ok (by omega) (by omega) (by rw [ha.len]; omega)), setZero_eq hres]
  have e2 : ((fu a : Int) + (fu b : Int) - (mulFU a b : Int)) = ((mulShift a b : Nat) : Int) := by
    unfold mulShift; omega
  have e3 : ((iu a : Int) + (fu a : Int) - 0).toNat = iu a + fu a := by omega
  have e4 : ((iu b : Int) + (fu b : Int) - 0).toNat = iu b + fu b := by omega
  rw [e2, e3, e4, Int.toNat_zero, List.drop_zero, List.drop_zero]
  have e5 : (min ((fracDigits a + fracDigits b : Nat) : Int) (wrap 8 ((mulFU a b : Int) * DIGITS_PER_UNIT))) =
      ((min (fracDigits a + fracDigits b) (9 * mulFU a b) : Nat) : Int) := by
    unfold DIGITS_PER_UNIT
    rw [wrap8_ok (by omega) (by unfold mulFU; omega)]; push_cast; congr 1; ring
  have e6 : ((mulIU a b : Int) * DIGITS_PER_UNIT) = ((9 * mulIU a b : Nat) : Int) := by
    unfold DIGITS_PER_UNIT; push_cast; ring
  rw [e5, e6]
  rfl

theorem mul_shape {a b : FixedDecimal} (h : intgDigits a + intgDigits b ≤ 81) :
    iu a + iu b ≤ mulIU a b + 1 ∧ mulIU a b + mulFU a b ≤ 9 := by
  have e1 : intgDigits a ≤ 9 * iu a := intgDigits_le_iu a
  have e2 : intgDigits b ≤ 9 * iu b := intgDigits_le_iu b
  constructor
  · unfold iu mulIU unitsFor; omega
  · have : mulIU a b ≤ 9 := by unfold mulIU unitsFor; omega
    unfold mulFU; omega

theorem nonempty_of_mant {d : FixedDecimal} (h : mant d ≠ 0) : d.lsu.take (iu d + fu d) ≠ [] := by
  intro hc
  apply h
  unfold mant
  rw [hc]; rfl

/-- `mul_abs` on non-zero operands: the loops' integer when it fits, `Err(Overflow)` when not. -/
theorem mulAbs_spec (m : Mode) {a b : FixedDecimal} (ha : WF a) (hb : WF b) {res : FixedDecimal}
    (hres : res.lsu.length = 9) (h : intgDigits a + intgDigits b ≤ 81) (hf : fracDigits a + fracDigits b < 120)
    (hza : mant a ≠ 0) (hdbg : m = .debug → fu b < iu a + mulFU a b) (hrel : fu b ≤ iu a + mulFU a b) :
    (mulRes a b < 1000000000 ^ 9 →
      ∃ l, mulAbs m a b res = .ok ⟨BitVec.ofInt 8 ((9 * mulIU a b : Nat) : Int),
          ((min (fracDigits a + fracDigits b) (9 * mulFU a b) : Nat) : Int), l⟩ ∧
        l.length = 9 ∧ DigL l ∧ psum (dg l) 9 = mulRes a b) ∧
    (1000000000 ^ 9 ≤ mulRes a b → ∃ l, mulAbs m a b res = .err .overflow { FixedDecimal.zero with lsu := l } ∧ l.length = 9 ∧
      DigL l ∧ psum (dg l) 9 = mulRes a b % 1000000000 ^ 9) := by
  have hfa := ha.fits
  have hfb := hb.fits
  have hle := mulFU_le a b
  have hsh := mul_shape h
  have hlen : (a.lsu.take (iu a + fu a)).length = iu a + fu a := by rw [List.length_take, ha.len]; omega
  have hlenb : (b.lsu.take (iu b + fu b)).length = iu b + fu b := by rw [List.length_take, hb.len]; omega
  have hz : psum (dg zeroUnits) 9 = 0 := psum_zero_of (fun i _ => dg_replicate)
  obtain ⟨k1, k2⟩ := mulOuter_spec m (L := a.lsu.take (iu a + fu a)) (S := mulShift a b)
    (fun l => { FixedDecimal.zero with lsu := l }) (ha.digL.take _) (nonempty_of_mant hza)
    (b.lsu.take (iu b + fu b)) 0 zeroUnits (hb.digL.take _)
    (fun hm => by have := hdbg hm; rw [hlen]; unfold mulShift; omega) (by rw [hlen]; unfold mulShift; omega)
    (by rw [hlen, hlenb]; unfold mulShift; omega) DigL.zeroUnits rfl (fun p _ => dg_replicate)
  rw [hz, zero_add] at k1 k2
  rw [mulAbs_eq m ha hb hres h hf]
  constructor
  · intro hlt
    obtain ⟨l, e, c1, c2, c3⟩ := k1 hlt
    refine ⟨l, ?_, c2, c1, c3⟩
    rw [e]; rfl
  · intro hge
    obtain ⟨l, e, e2⟩ := k2 hge
    exact ⟨l, by rw [e]; rfl, e2⟩

/-- A zero row at the low end: panics. -/
theorem mulAbs_lowrow_panic (m : Mode) {a b : FixedDecimal} (ha : WF a) (hb : WF b) {res : FixedDecimal}
    (hres : res.lsu.length = 9) (h : intgDigits a + intgDigits b ≤ 81) (hf : fracDigits a + fracDigits b < 120)
    (hza : mant a ≠ 0) (hzb : mant b ≠ 0)
    (hp : (m = .debug ∧ iu a + mulFU a b ≤ fu b) ∨ iu a + mulFU a b < fu b) :
    mulAbs m a b res = .panic (if m = .debug then .assert else .index) := by
  have hfa := ha.fits
  have hle := mulFU_le a b
  have hlen : (a.lsu.take (iu a + fu a)).length = iu a + fu a := by rw [List.length_take, ha.len]; omega
  rw [mulAbs_eq m ha hb hres h hf]
  have hne := nonempty_of_mant hzb
  obtain ⟨rv, R, hR⟩ := List.exists_cons_of_ne_nil hne
  have hrv := hb.digL.take (iu b + fu b) rv (by rw [hR]; simp)
  rw [hR]
  have e := mulOuter_panic m (L := a.lsu.take (iu a + fu a)) (S := mulShift a b)
    (fun l => { FixedDecimal.zero with lsu := l }) (R := R) (res := zeroUnits) (ha.digL.take _) (nonempty_of_mant hza)
    hrv rfl DigL.zeroUnits (fun p => dg_replicate)
    (by rw [hlen]; unfold mulShift
        rcases hp with ⟨h1, h2⟩ | h2
        · left; exact ⟨h1, by omega⟩
        · right; omega)
  show (mulOuter m _ _ _ _ 0 zeroUnits >>= _) = _
  rw [e]; rfl

/-! ## Bounds -/

theorem mulRes_bounds {a b : FixedDecimal} (ha : WF a) (hb : WF b) :
    0 ≤ mulRes a b ∧ 1000000000 ^ mulShift a b * mulRes a b ≤ mant a * mant b ∧
      mant a * mant b ≤ 1000000000 ^ mulShift a b * mulRes a b + (iu b + fu b : Nat) * (2 * 1000000000 ^ mulShift a b - 1) := by
  have hfb := hb.fits
  have h1 := rowSum_bounds (S := mulShift a b) (ha.digL.take (iu a + fu a)) (b.lsu.take (iu b + fu b)) 0 (hb.digL.take _)
  rw [pow_zero, mul_one, List.length_take, hb.len, Nat.min_eq_left hfb] at h1
  exact ⟨rowSum_nonneg (ha.digL.take _) _ _ (hb.digL.take _), h1⟩

theorem mant_mul_lt {a b : FixedDecimal} (ha : Tight a) (hb : Tight b) :
    mant a * mant b < 10 ^ (intgDigits a + intgDigits b + 9 * (fu a + fu b)) := by
  have h1 := ha.intg_ok
  have h2 := hb.intg_ok
  have p1 := ha.toWF.mant_nonneg
  have p2 := hb.toWF.mant_nonneg
  calc mant a * mant b < 10 ^ (intgDigits a + 9 * fu a) * 10 ^ (intgDigits b + 9 * fu b) :=
        mul_lt_mul'' h1 h2 p1 p2
    _ = _ := by rw [← pow_add]; congr 1; ring

/-- With truthful digit counts the result fits the units set aside for it. -/
theorem mulRes_lt {a b : FixedDecimal} (ha : Tight a) (hb : Tight b) :
    mulRes a b < 1000000000 ^ (mulIU a b + mulFU a b) := by
  obtain ⟨h0, h1, -⟩ := mulRes_bounds ha.toWF hb.toWF
  have h2 := mant_mul_lt ha hb
  have hle := mulFU_le a b
  have h3 : (10 : Int) ^ (intgDigits a + intgDigits b + 9 * (fu a + fu b)) ≤
      1000000000 ^ mulShift a b * 1000000000 ^ (mulIU a b + mulFU a b) := by
    rw [← pow_add, pow9]
    apply pow_le_pow_right₀ (by norm_num)
    unfold mulShift mulIU
    have : intgDigits a + intgDigits b ≤ 9 * unitsFor (intgDigits a + intgDigits b) := by unfold unitsFor; omega
    omega
  have hS : (0 : Int) < 1000000000 ^ mulShift a b := by positivity
  exact lt_of_mul_lt_mul_left (by linarith) hS.le

theorem dvd_dg0 {l : List Int} {e : Nat} (he : e ≤ 9) {n : Nat} (hn : 0 < n) (h : (10 : Int) ^ e ∣ psum (dg l) n) :
    (10 : Int) ^ e ∣ dg l 0 := by
  rw [psum_split (a := 1) (by omega)] at h
  simp only [psum, pow_zero, mul_one, zero_add, pow_one] at h
  have : (10 : Int) ^ e ∣ 1000000000 * psum (fun i => dg l (1 + i)) (n - 1) := by
    apply Dvd.dvd.mul_right
    exact (pow_dvd_pow 10 he).trans (by norm_num)
  exact (Int.dvd_add_left this).mp h

/-- Full products are exact. -/
theorem mulRes_exact_of_scale {a b : FixedDecimal} (ha : WF a) (hb : WF b)
    (da : (10 ^ (9 * fu a - fracDigits a) : Int) ∣ mant a) (db : (10 ^ (9 * fu b - fracDigits b) : Int) ∣ mant b)
    (hfull : MulFull a b) :
    1000000000 ^ mulShift a b * mulRes a b = mant a * mant b := by
  have hfa := ha.fits
  have hfb := hb.fits
  have e1 := fracDigits_le_fu a
  have e2 := fracDigits_le_fu b
  unfold MulFull at hfull
  have hfa9 : 9 * fu a - fracDigits a < 9 := by unfold fu unitsFor; omega
  have hfb9 : 9 * fu b - fracDigits b < 9 := by unfold fu unitsFor; omega
  have hS : mulShift a b = 0 ∨ mulShift a b = 1 := by
    unfold mulShift; rw [hfull]; unfold unitsFor; omega
  unfold mulRes
  rcases hS with hS | hS
  · rw [hS, pow_zero, one_mul, rowSum_zero, pow_zero, mul_one]; rfl
  · rw [hS, pow_one, rowSum_one_exact]
    · rfl
    · -- the two low units multiply to a multiple of 10^9
      have hge : 9 ≤ (9 * fu a - fracDigits a) + (9 * fu b - fracDigits b) := by
        unfold mulShift at hS; rw [hfull] at hS; unfold unitsFor at hS; omega
      have hpa : 0 < fu a := by omega
      have hpb : 0 < fu b := by omega
      rw [ha.mant_eq] at da
      rw [hb.mant_eq] at db
      have ga := dvd_dg0 (by omega) (by omega) da
      have gb := dvd_dg0 (by omega) (by omega) db
      rw [dg_take, if_pos (by omega), dg_take, if_pos (by omega)]
      have := mul_dvd_mul ga gb
      rw [← pow_add] at this
      exact ((show (1000000000 : Int) ∣ 10 ^ 9 by norm_num).trans (pow_dvd_pow 10 hge)).trans this

theorem mulRes_exact {a b : FixedDecimal} (ha : Tight a) (hb : Tight b) (hfull : MulFull a b) :
    1000000000 ^ mulShift a b * mulRes a b = mant a * mant b :=
  mulRes_exact_of_scale ha.toWF hb.toWF ha.frac_ok hb.frac_ok hfull

end Fxd
