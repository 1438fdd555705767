import Verif.Props.History
/-!
# Property C75: programs compute what rational arithmetic computes
-/

namespace Fxd
open Spec

/-- The result of a call, when it returned `Ok`: the register and the decimal written. -/
def Call.result (m : Mode) (s : Regs) : Call → Option (Nat × FixedDecimal)
  | .parse i bs => okOf i (FixedDecimal.fromBytesStr m (s i) bs true)
  | .fromI64 i n => okOf i (FixedDecimal.fromI64 m n : Out Empty _)
  | .fromU64 i n => okOf i (FixedDecimal.fromU64 n : Out Empty _)
  | .setZero i => some (i, (s i).setZero)
  | .setOne i => some (i, (s i).setOne)
  | .setNeg i => some (i, (s i).setNeg)
  | .setPos i => some (i, (s i).setPos)
  | .copy i a => some (i, s a)
  | .add i a b => okOf i (FixedDecimal.addTo m (s a) (s b) (s i))
  | .sub i a b => okOf i (FixedDecimal.subTo m (s a) (s b) (s i))
  | .mul i a b => okOf i (FixedDecimal.mulTo m (s a) (s b) (s i))
  | .div i a b incr => okOf i (FixedDecimal.divTo m (s a) (s b) (s i) incr)
  | .rem i a b => okOf i (FixedDecimal.remTo m (s a) (s b) (s i))
  | .roundTo i a k => okOf i ((s a).roundTo m (s i) k : Out Empty _)
  | .round i k => okOf i ((s i).round m k : Out Empty _)
where
  /-- The value of an `Ok`. -/
  okOf {σ : Type} (i : Nat) : Out σ FixedDecimal → Option (Nat × FixedDecimal)
    | .ok d => some (i, d)
    | _ => none

/-- Run a program; `none` as soon as a call returns an error or panics. -/
def runOk (m : Mode) : Regs → List Call → Option Regs
  | s, [] => some s
  | s, c :: cs => (c.result m s).bind fun r => runOk m (s.put r.1 r.2) cs

/-- When a call computes exactly what it means: texts of at most 127 digits (release builds), nothing cut off a product and its
digit counts truthful, divisions and remainders without a wrong correction step, precisions up to 127, negative ones within
the digits and no multiple of nine, no stale units in an extension in place. Addition, subtraction, conversions and sign
changes are always exact. -/
def Call.Exact (m : Mode) (s : Regs) : Call → Prop
  | .parse _ bs => m = .debug ∨ mantDigits bs ≤ 127
  | .mul _ a b => val (s a) ≠ 0 → val (s b) ≠ 0 →
      MulFull (s a) (s b) ∧ |val (s a) * val (s b)| < 10 ^ (9 * unitsFor (intgDigits (s a) + intgDigits (s b)))
  | .div _ a b incr => val (s a) ≠ 0 → mant (s b) < 1000000000 ∨ ∀ j, effIncr m (s a) (s b) incr = some j →
      ¬ QuoGuessTooBig (s a) (s b) j ∧ fu (s b) ≤ quoIU (s a) (s b) + fu (s a)
  | .rem _ a b => ¬ RemGuessTooBig (s a) (s b)
  | .roundTo _ a k => k ≤ 127 ∧ (k < 0 → ¬ 9 ∣ k ∧ -k < intgDigits (s a))
  | .round i k => k ≤ 127 ∧ (k < 0 → ¬ 9 ∣ k ∧ -k < intgDigits (s i)) ∧
      ((s i).frac ≤ k → ∀ u ∈ (s i).lsu.take (extUnits (s i) k), u = 0)
  | _ => True

/-- Every call of the program is in range and exact when it is reached. -/
def ExactRun (m : Mode) : Regs → List Call → Prop
  | _, [] => True
  | s, c :: cs => c.InRange ∧ c.Exact m s ∧ ∀ r, c.result m s = some r → ExactRun m (s.put r.1 r.2) cs

/-- No digits beyond the scale. -/
def Whole (d : FixedDecimal) : Prop := ∃ n : ℤ, val d * 10 ^ fracDigits d = n

theorem whole_iff {d : FixedDecimal} (hd : WF d) : Whole d ↔ (10 ^ (9 * fu d - fracDigits d) : Int) ∣ mant d := by
  have hle := fracDigits_le_fu d
  have hp : (10 : ℚ) ^ (9 * fu d) = 10 ^ (9 * fu d - fracDigits d) * 10 ^ fracDigits d := by
    rw [← pow_add]; congr 1; omega
  have h1 : (10 : ℚ) ^ fracDigits d ≠ 0 := by positivity
  have h2 : (10 : ℚ) ^ (9 * fu d - fracDigits d) ≠ 0 := by positivity
  have hv : val d * 10 ^ fracDigits d = (if neg d then -1 else 1) * ((mant d : ℚ) / 10 ^ (9 * fu d - fracDigits d)) := by
    unfold val absVal
    rw [hp]
    split_ifs <;> field_simp
  unfold Whole
  rw [hv]
  constructor
  · rintro ⟨n, h⟩
    refine ⟨(if neg d then -1 else 1) * n, ?_⟩
    have : (mant d : ℚ) = 10 ^ (9 * fu d - fracDigits d) * ((if neg d then -1 else 1) * n) := by
      rw [← h]; split_ifs <;> field_simp
    split_ifs at this ⊢ <;> exact_mod_cast this
  · rintro ⟨n, h⟩
    refine ⟨(if neg d then -1 else 1) * n, ?_⟩
    rw [h]
    push_cast
    split_ifs <;> field_simp

theorem Spec.Tight.whole {d : FixedDecimal} (h : Tight d) : Whole d := (whole_iff h.toWF).mpr h.frac_ok

theorem Whole.up {x : ℚ} {a b : Nat} (h : ∃ n : ℤ, x * 10 ^ a = n) (hab : a ≤ b) : ∃ n : ℤ, x * 10 ^ b = n := by
  obtain ⟨n, h⟩ := h
  refine ⟨n * 10 ^ (b - a), ?_⟩
  push_cast
  rw [← h, mul_assoc, ← pow_add]; congr 2; omega

theorem roundAt_nat (k : Nat) (x : ℚ) : roundAt (k : Int) x = (halfAway (x * 10 ^ k) : ℚ) / 10 ^ k := by
  unfold roundAt; rw [zpow_natCast]

theorem roundAt_neg (j : Nat) (x : ℚ) : roundAt (-(j : Int)) x = (halfAway (x / 10 ^ j) : ℚ) * 10 ^ j := by
  unfold roundAt; rw [zpow_neg, zpow_natCast, div_inv_eq_mul, div_eq_mul_inv]

theorem roundAt_whole {k : Nat} {x : ℚ} (h : ∃ n : ℤ, x * 10 ^ k = n) : roundAt (k : Int) x = x := by
  obtain ⟨n, h⟩ := h
  rw [roundAt_nat, h, halfAway_int, ← h]
  field_simp

namespace Props
open FixedDecimal (addTo subTo mulTo divTo remTo)
variable {m : Mode} {a b d res r : FixedDecimal}

theorem add_whole (ha : WF a) (hb : WF b) (wa : Whole a) (wb : Whole b) (hres : res.lsu.length = 9)
    (h : addTo m a b res = .ok r) : Whole r := by
  have hv := (C20_add_exact ha hb hres h).1
  have e := C72_add m ha hb hres
  rw [h] at e
  unfold refAdd at e
  by_cases za : mant a = 0
  · rw [if_pos za] at e
    injection e with e; injection e with e; rw [e]; exact wb
  rw [if_neg za] at e
  by_cases zb : mant b = 0
  · rw [if_pos zb] at e
    injection e with e; injection e with e; rw [e]; exact wa
  have hs := C23_scale ha hb hres (mt val_eq_zero.mp za) (mt val_eq_zero.mp zb) (Or.inl h)
  have h1 := ha.frac_eq
  have h2 := hb.frac_eq
  have hf : fracDigits r = max (fracDigits a) (fracDigits b) := by unfold fracDigits at *; omega
  obtain ⟨p, hp⟩ := Whole.up wa (le_max_left (fracDigits a) (fracDigits b))
  obtain ⟨q, hq⟩ := Whole.up wb (le_max_right (fracDigits a) (fracDigits b))
  refine ⟨p + q, ?_⟩
  rw [hv, hf, add_mul, hp, hq]; push_cast; ring

theorem sub_whole (ha : WF a) (hb : WF b) (wa : Whole a) (wb : Whole b) (hres : res.lsu.length = 9)
    (h : subTo m a b res = .ok r) : Whole r := by
  have hv := (C21_sub_exact ha hb hres h).1
  have e := C72_sub m ha hb hres
  rw [h] at e
  unfold refSub at e
  by_cases za : mant a = 0
  · rw [if_pos za] at e
    injection e with e; injection e with e
    have hf : fracDigits r = fracDigits b := by rw [e]; exact Int.toNat_natCast (fracDigits b)
    obtain ⟨n, hn⟩ := wb
    refine ⟨-n, ?_⟩
    rw [hv, hf, val_eq_zero.mpr za, zero_sub, neg_mul, hn]; push_cast; ring
  rw [if_neg za] at e
  by_cases zb : mant b = 0
  · rw [if_pos zb] at e
    injection e with e; injection e with e; rw [e]; exact wa
  have hs := C23_scale ha hb hres (mt val_eq_zero.mp za) (mt val_eq_zero.mp zb) (Or.inr h)
  have h1 := ha.frac_eq
  have h2 := hb.frac_eq
  have hf : fracDigits r = max (fracDigits a) (fracDigits b) := by unfold fracDigits at *; omega
  obtain ⟨p, hp⟩ := Whole.up wa (le_max_left (fracDigits a) (fracDigits b))
  obtain ⟨q, hq⟩ := Whole.up wb (le_max_right (fracDigits a) (fracDigits b))
  refine ⟨p - q, ?_⟩
  rw [hv, hf, sub_mul, hp, hq]; push_cast; ring

theorem zero_whole : Whole FixedDecimal.zero := zero_tight.whole

theorem mul_exact (ha : WF a) (hb : WF b) (wa : Whole a) (wb : Whole b) (hres : res.lsu.length = 9)
    (hc : val a ≠ 0 → val b ≠ 0 → MulFull a b ∧ |val a * val b| < 10 ^ (9 * unitsFor (intgDigits a + intgDigits b)))
    (h : mulTo m a b res = .ok r) : val r = val a * val b ∧ WF r ∧ Whole r := by
  by_cases hz : val a = 0 ∨ val b = 0
  · rw [mulTo_zero m ha hb hres hz] at h
    injection h with h; subst h
    refine ⟨?_, zero_tight.toWF, zero_whole⟩
    rw [val_zero]; rcases hz with hz | hz <;> rw [hz] <;> ring
  · push Not at hz
    obtain ⟨hfull, hlt⟩ := hc hz.1 hz.2
    obtain ⟨k1, k2⟩ := C53_mul_iff m ha hb hres hz.1 hz.2 ((whole_iff ha).mp wa) ((whole_iff hb).mp wb) hfull h
    have hv := k1.mpr hlt
    have hfr := (C28_code m ha hb hres hz.1 hz.2 h).2.2.1
    refine ⟨hv, k2.mpr hlt, ?_⟩
    have h1 := ha.frac_eq
    have h2 := hb.frac_eq
    have hf : fracDigits r = fracDigits a + fracDigits b := by
      unfold MulFull at hfull
      rw [hfull] at hfr
      unfold fracDigits at *
      unfold unitsFor at hfr
      omega
    obtain ⟨p, hp⟩ := wa
    obtain ⟨q, hq⟩ := wb
    refine ⟨p * q, ?_⟩
    rw [hv, hf, pow_add]; push_cast; rw [← hp, ← hq]; ring

theorem truncQuot_whole (x y : ℚ) (n : Nat) : ∃ k : ℤ, truncQuot x y n * 10 ^ n = k := by
  refine ⟨truncZ (x / y * 10 ^ n), ?_⟩
  unfold truncQuot; field_simp

theorem div_exact (ha : WF a) (hb : WF b) (hres : res.lsu.length = 9) {incr : Nat}
    (hc : val a ≠ 0 → mant b < 1000000000 ∨ ∀ j, effIncr m a b incr = some j →
      ¬ QuoGuessTooBig a b j ∧ fu b ≤ quoIU a b + fu a)
    (h : divTo m a b res incr = .ok r) : val b ≠ 0 ∧ val r = truncQuot (val a) (val b) (fracDigits r) ∧ WF r ∧ Whole r := by
  by_cases zb : val b = 0
  · rw [C33_div_zero m ha hb hres zb] at h; cases h
  by_cases za : val a = 0
  · rw [C34_zero_div m ha hb hres za zb] at h
    injection h with h; subst h
    refine ⟨zb, ?_, zero_tight.toWF, zero_whole⟩
    rw [val_zero, za]; unfold truncQuot truncZ; simp
  have hE := divTo_eff m ha hb hres (mt val_eq_zero.mpr za) (mt val_eq_zero.mpr zb) incr
  cases hx : effIncr m a b incr with
  | none => rw [hx] at hE; dsimp only at hE; rw [hE] at h; cases h
  | some j =>
    rw [hx] at hE
    rw [hE.2] at h
    have key : WF r ∧ val r = truncQuot (val a) (val b) (fracDigits r) := by
      rcases hc za with h1 | h1
      · exact C35_short_div m ha hb hres zb h1 hE.1 h
      · obtain ⟨hn, hfu⟩ := h1 j hx
        obtain ⟨w, -, -, hq⟩ := C36_exact_partial m ha hb hres za zb hE.1 hn h
        exact ⟨w, hq hfu⟩
    exact ⟨zb, key.2, key.1, by unfold Whole; rw [key.2]; exact truncQuot_whole _ _ _⟩

theorem rem_exact (ha : WF a) (hb : WF b) (wa : Whole a) (wb : Whole b) (hres : res.lsu.length = 9)
    (hn : ¬ RemGuessTooBig a b) (h : remTo m a b res = .ok r) :
    val b ≠ 0 ∧ val r = truncRem (val a) (val b) ∧ WF r ∧ Whole r := by
  have zb : val b ≠ 0 := by
    intro zb
    rw [C33_rem_zero m ha hb hres zb] at h; cases h
  have hv := C37_exact_partial m ha hb hres hn h
  obtain ⟨w, -, -, hs⟩ := C37_bounded m ha hb hres h
  refine ⟨zb, hv, w, ?_⟩
  by_cases za : val a = 0
  · rw [C34_zero_rem m ha hb hres za zb] at h
    injection h with h; rw [← h]; exact zero_whole
  by_cases he : |val a| = |val b|
  · have e := C72_rem m ha hb hres
    rw [h] at e
    unfold refRem at e
    rw [abs_val ha, abs_val hb] at he
    rw [if_neg (mt val_eq_zero.mpr zb), if_pos (Or.inr (remA_eq_remB.mpr he))] at e
    injection e with e; injection e with e
    rw [e, dec_zero]; exact zero_whole
  have hf := hs za he
  obtain ⟨p, hp⟩ := Whole.up wa (le_max_left (fracDigits a) (fracDigits b))
  obtain ⟨q, hq⟩ := Whole.up wb (le_max_right (fracDigits a) (fracDigits b))
  refine ⟨p - q * truncZ (val a / val b), ?_⟩
  rw [hv, hf]
  unfold truncRem
  push_cast
  rw [← hp, ← hq]; ring

theorem roundTo_exact {σ : Type} (hd : WF d) (wd : Whole d) (hres : res.lsu.length = 9) {k : Int} (hk : k ≤ 127)
    (hneg : k < 0 → ¬ 9 ∣ k ∧ -k < intgDigits d) (h : (d.roundTo m res k : Out σ _) = .ok r) :
    val r = roundAt k (val d) ∧ WF r ∧ Whole r := by
  by_cases h0 : 0 ≤ k
  · lift k to ℕ using h0
    by_cases hf : k < fracDigits d
    · obtain ⟨hv, hfr, -, ht⟩ := C39_round_to m hd hres hf h
      exact ⟨by rw [roundAt_nat, hv], ht.toWF, ht.whole⟩
    · have hfe := hd.frac_eq
      obtain ⟨h1, -, h3, h4⟩ := C55_code m hd hres (by omega) h
      have hc8 : castI8 (k : Int) = k := castI8_small (by omega) (by omega)
      rw [hc8] at h1 h3 h4
      have hw := Whole.up wd (show fracDigits d ≤ k by omega)
      refine ⟨by rw [roundAt_whole hw]; exact h4 (by omega), h3.mpr (by omega), ?_⟩
      have hfr : fracDigits r = k := by unfold fracDigits; omega
      unfold Whole
      rw [h4 (by omega), hfr]; exact hw
  · obtain ⟨j, rfl⟩ : ∃ j : Nat, k = -(j : Int) := ⟨(-k).toNat, by omega⟩
    obtain ⟨h9, hi⟩ := hneg (by omega)
    obtain ⟨hv, -, -, ht⟩ := C42_round_neg_partial m hd hres (by omega) (by omega) (by omega) h
    exact ⟨by rw [roundAt_neg, hv], ht.toWF, ht.whole⟩

theorem round_exact {σ : Type} (hd : WF d) (wd : Whole d) {k : Int} (hk : k ≤ 127)
    (hneg : k < 0 → ¬ 9 ∣ k ∧ -k < intgDigits d) (hst : d.frac ≤ k → ∀ u ∈ d.lsu.take (extUnits d k), u = 0)
    (h : (d.round m k : Out σ _) = .ok r) : val r = roundAt k (val d) ∧ WF r ∧ Whole r := by
  have hi := hd.intg_le
  by_cases hf : d.frac ≤ k
  · have hfit := (C55_ok_iff m (σ := σ) hd hd.len hf).2.mp ⟨r, h⟩
    have hfr := hd.frac_nonneg
    have hfe := hd.frac_eq
    have h0 : 0 ≤ k := by omega
    lift k to ℕ using h0
    have hc8 : castI8 (k : Int) = k := castI8_small (by omega) (by omega)
    have h9 : iu d + unitsFor k ≤ 9 := by have := hfit.2.2; rwa [hc8, Int.toNat_natCast] at this
    have hex : extUnits d k = unitsFor k - fu d := by unfold extUnits; rw [hc8, Int.toNat_natCast]
    have := (C41_extend_iff m (σ := σ) hd hd.len (by omega) h9).mpr (by rw [← hex]; exact hst hf)
    rw [this] at h
    exact roundTo_exact hd wd hd.len hk hneg h
  · rw [C41_round_eq_partial m hd hd.len (by omega) (by by_cases h0 : k < 0
                                                        · have := (hneg h0).2; omega
                                                        · omega)] at h
    exact roundTo_exact hd wd hd.len hk hneg h

/-- One exact call. -/
theorem result_exact (m : Mode) {s : Regs} {c : Call} (hs : ∀ j, WF (s j) ∧ Whole (s j)) (hr : c.InRange) (hc : c.Exact m s)
    {i : Nat} {r : FixedDecimal} (h : c.result m s = some (i, r)) :
    Means (fun j => val (s j)) c i (val r) ∧ WF r ∧ Whole r := by
  have wf : ∀ j, WF (s j) := fun j => (hs j).1
  have len : ∀ j, (s j).lsu.length = 9 := fun j => (wf j).len
  have okOf : ∀ {σ : Type} {j : Nat} {o : Out σ FixedDecimal}, Call.result.okOf j o = some (i, r) → i = j ∧ o = .ok r := by
    intro σ j o h
    cases o with
    | ok d => simp only [Call.result.okOf, Option.some.injEq, Prod.mk.injEq] at h; exact ⟨h.1.symm, by rw [h.2]⟩
    | err e s => cases h
    | panic p => cases h
  have pair : ∀ {j : Nat} {d : FixedDecimal}, some (j, d) = some (i, r) → i = j ∧ r = d := by
    intro j d h
    simp only [Option.some.injEq, Prod.mk.injEq] at h; exact ⟨h.1.symm, h.2.symm⟩
  cases c with
  | parse j bs =>
    obtain ⟨rfl, e⟩ := okOf h
    have ht := (C09_parsed_always m bs (len i) e).1
    obtain ⟨t, hv, hren, -, hp⟩ := numeral_of_ok (len i) hc e
    exact ⟨⟨rfl, t, hv, hren, parsed_val hp⟩, ht.toWF, ht.whole⟩
  | fromI64 j n =>
    obtain ⟨rfl, e⟩ := okOf h
    obtain ⟨d', e', hv, -, ht, -⟩ := C45_from_i64 (σ := Empty) m hr.1 hr.2
    rw [e] at e'; injection e' with e'; rw [e']; exact ⟨⟨rfl, hv⟩, ht.toWF, ht.whole⟩
  | fromU64 j n =>
    obtain ⟨rfl, e⟩ := okOf h
    obtain ⟨d', e', hv, -, ht, -⟩ := C45_from_u64 (σ := Empty) hr.1 hr.2
    rw [e] at e'; injection e' with e'; rw [e']; exact ⟨⟨rfl, hv⟩, ht.toWF, ht.whole⟩
  | setZero j =>
    obtain ⟨rfl, rfl⟩ := pair h
    rw [setZero_eq (len i)]
    exact ⟨⟨rfl, val_zero⟩, zero_tight.toWF, zero_whole⟩
  | setOne j =>
    obtain ⟨rfl, rfl⟩ := pair h
    rw [(C54_set_const (len i)).2]
    exact ⟨⟨rfl, C54_constants.2.1⟩, one_tight.toWF, one_tight.whole⟩
  | setNeg j =>
    obtain ⟨rfl, rfl⟩ := pair h
    obtain ⟨-, hv, -, -, -, -, -, hf, -⟩ := C54_set_sign (wf i)
    refine ⟨⟨rfl, hv⟩, wf_setNeg.mpr (wf i), ?_⟩
    obtain ⟨n, hn⟩ := (hs i).2
    have hfd : fracDigits (s i).setNeg = fracDigits (s i) := by unfold fracDigits; rw [hf]
    refine ⟨-|n|, ?_⟩
    rw [hv, hfd]
    push_cast
    rw [← hn, abs_mul, abs_of_pos (show (0 : ℚ) < 10 ^ fracDigits (s i) by positivity)]; ring
  | setPos j =>
    obtain ⟨rfl, rfl⟩ := pair h
    obtain ⟨hv, -, -, -, -, -, hf, -⟩ := C54_set_sign (wf i)
    refine ⟨⟨rfl, hv⟩, wf_setPos.mpr (wf i), ?_⟩
    obtain ⟨n, hn⟩ := (hs i).2
    have hfd : fracDigits (s i).setPos = fracDigits (s i) := by unfold fracDigits; rw [hf]
    refine ⟨|n|, ?_⟩
    rw [hv, hfd]
    push_cast
    rw [← hn, abs_mul, abs_of_pos (show (0 : ℚ) < 10 ^ fracDigits (s i) by positivity)]
  | copy j a =>
    obtain ⟨rfl, rfl⟩ := pair h
    exact ⟨⟨rfl, rfl⟩, hs a⟩
  | add j a b =>
    obtain ⟨rfl, e⟩ := okOf h
    obtain ⟨hv, hw⟩ := C20_add_exact (wf a) (wf b) (len i) e
    exact ⟨⟨rfl, hv⟩, hw, add_whole (wf a) (wf b) (hs a).2 (hs b).2 (len i) e⟩
  | sub j a b =>
    obtain ⟨rfl, e⟩ := okOf h
    obtain ⟨hv, hw⟩ := C21_sub_exact (wf a) (wf b) (len i) e
    exact ⟨⟨rfl, hv⟩, hw, sub_whole (wf a) (wf b) (hs a).2 (hs b).2 (len i) e⟩
  | mul j a b =>
    obtain ⟨rfl, e⟩ := okOf h
    obtain ⟨hv, hw⟩ := mul_exact (wf a) (wf b) (hs a).2 (hs b).2 (len i) hc e
    exact ⟨⟨rfl, hv⟩, hw⟩
  | div j a b incr =>
    obtain ⟨rfl, e⟩ := okOf h
    obtain ⟨zb, hv, hw⟩ := div_exact (wf a) (wf b) (len i) hc e
    exact ⟨⟨rfl, zb, _, hv⟩, hw⟩
  | rem j a b =>
    obtain ⟨rfl, e⟩ := okOf h
    obtain ⟨zb, hv, hw⟩ := rem_exact (wf a) (wf b) (hs a).2 (hs b).2 (len i) hc e
    exact ⟨⟨rfl, zb, hv⟩, hw⟩
  | roundTo j a k =>
    obtain ⟨rfl, e⟩ := okOf h
    obtain ⟨hv, hw⟩ := roundTo_exact (wf a) (hs a).2 (len i) hc.1 hc.2 e
    exact ⟨⟨rfl, hv⟩, hw⟩
  | round j k =>
    obtain ⟨rfl, e⟩ := okOf h
    obtain ⟨hv, hw⟩ := round_exact (wf i) (hs i).2 hc.1 hc.2.1 hc.2.2 e
    exact ⟨⟨rfl, hv⟩, hw⟩

/-- **C75.** A program of API calls, each exact when it is reached, that runs without error computes what the calculator for
rational numbers computes, and ends with well-formed decimals. -/
theorem C75_program (m : Mode) {s t : Regs} {cs : List Call} (hs : ∀ j, WF (s j) ∧ Whole (s j)) (hc : ExactRun m s cs)
    (h : runOk m s cs = some t) :
    Calculates (fun j => val (s j)) cs (fun j => val (t j)) ∧ ∀ j, WF (t j) ∧ Whole (t j) := by
  induction cs generalizing s with
  | nil => injection h with h; subst h; exact ⟨.done _, hs⟩
  | cons c cs ih =>
    unfold runOk at h
    cases hr : c.result m s with
    | none => rw [hr] at h; cases h
    | some p =>
      obtain ⟨i, r⟩ := p
      rw [hr] at h
      obtain ⟨h1, h2, h3⟩ := hc
      obtain ⟨e1, e2, e3⟩ := result_exact m hs h1 h2 hr
      have hs' : ∀ j, WF (s.put i r j) ∧ Whole (s.put i r j) := by
        intro j; unfold Regs.put; split_ifs
        · exact ⟨e2, e3⟩
        · exact hs j
      obtain ⟨k1, k2⟩ := ih hs' (h3 _ hr) h
      refine ⟨.step e1 ?_, k2⟩
      have : (fun j => val (s.put i r j)) = setReg (fun j => val (s j)) i (val r) := by
        funext j; unfold Regs.put setReg; split_ifs <;> rfl
      rwa [this] at k1

/-- The number a text denotes, read off the cut into sign, digits, digits and exponent. -/
def textVal (bs : List Nat) : ℚ :=
  let s := shapeOf bs
  let e : Int := match s.rest with
    | [] => 0
    | _ :: cs => if (cutSign cs).1 then -(digitsVal (leadDigits (cutSign cs).2) : Int) else digitsVal (leadDigits (cutSign cs).2)
  (if s.neg then -1 else 1) * (digitsVal (s.ip ++ s.fp) : ℚ) * (10 : ℚ) ^ (e - s.fp.length : ℤ)

private def expText : Option Exponent → List Nat
  | none => []
  | some x => x.render

private theorem render_parts (sg : Sign) (ip : List Nat) (fp : Option (List Nat)) (ex : Option Exponent) :
    Numeral.render ⟨sg, ip, fp, ex⟩ = sg.render ++ digitChars ip ++ dotPart fp ++ expText ex := by
  cases fp <;> cases ex <;> rfl

private theorem expText_stop (sg : Sign) (ip : List Nat) (fp : Option (List Nat)) (ex : Option Exponent) :
    Stop sg ip fp (expText ex) := by
  intro c cs hc
  cases ex with
  | none => cases hc
  | some x =>
    simp only [expText, Exponent.render, List.cons_append, List.cons.injEq] at hc
    have : c = 69 ∨ c = 101 := by
      rw [← hc.1]; cases x.upper <;> simp
    omega

theorem denote_text {t : Numeral} (hv : t.Valid) : t.denote = textVal t.render := by
  obtain ⟨h1, h2, h3⟩ := hv
  obtain ⟨sg, ip, fp, ex⟩ := t
  have hip : ∀ d ∈ ip, d < 10 := fun d hd => h1 d (List.mem_append_left _ hd)
  have hfp : ∀ d ∈ fp.getD [], d < 10 := fun d hd => h1 d (List.mem_append_right _ hd)
  unfold textVal
  dsimp only
  rw [render_parts, shapeOf_split hip hfp (expText_stop sg ip fp ex)]
  unfold Numeral.denote Numeral.digits Numeral.fracs
  dsimp only
  have hsg : (if (sg == Sign.minus) = true then (-1 : ℚ) else 1) = if sg = Sign.minus then -1 else 1 := by
    cases sg <;> rfl
  rw [hsg]
  congr 2
  congr 1
  unfold Numeral.expo
  cases ex with
  | none => rfl
  | some x =>
    obtain ⟨x1, x2⟩ := h3 x rfl
    obtain ⟨up, xs, ds⟩ := x
    dsimp only at x1 x2
    have hlead : leadDigits (digitChars ds) = ds := by
      have := leadDigits_eq (rest := []) x2 (fun c cs h => by cases h)
      rwa [List.append_nil] at this
    have hcs : cutSign (xs.render ++ digitChars ds) = (xs == .minus, digitChars ds) := by
      cases xs with
      | plus => rfl
      | minus => rfl
      | none =>
        rw [show Sign.none.render = [] from rfl, List.nil_append, cutSign_none]
        · rfl
        · intro c cs h
          rcases ds with _ | ⟨d, ds⟩
          · exact absurd rfl x1
          · rw [digitChars_cons, List.cons.injEq] at h; omega
    simp only [expText, Exponent.render, List.cons_append, hcs, hlead, Option.map_some, Option.getD_some, Exponent.value]
    cases xs <;> rfl

/-- **C01.** A text denotes at most one number. -/
theorem C01_denote_unique {t u : Numeral} (ht : t.Valid) (hu : u.Valid) (h : t.render = u.render) : t.denote = u.denote := by
  rw [denote_text ht, denote_text hu, h]

/-- The program contains no division. -/
def DivFree (cs : List Call) : Prop := ∀ c ∈ cs, ∀ i a b incr, c ≠ .div i a b incr

theorem means_unique {x : Nat → ℚ} {c : Call} {i j : Nat} {v w : ℚ} (hd : ∀ i a b incr, c ≠ .div i a b incr)
    (h : Means x c i v) (h' : Means x c j w) : i = j ∧ v = w := by
  cases c with
  | parse d s =>
    obtain ⟨rfl, t, h1, h2, rfl⟩ := h
    obtain ⟨rfl, u, k1, k2, rfl⟩ := h'
    exact ⟨rfl, C01_denote_unique h1 k1 (h2.trans k2.symm)⟩
  | div d a b incr => exact absurd rfl (hd d a b incr)
  | rem d a b => exact ⟨h.1.trans h'.1.symm, h.2.2.trans h'.2.2.symm⟩
  | fromI64 d n => exact ⟨h.1.trans h'.1.symm, h.2.trans h'.2.symm⟩
  | fromU64 d n => exact ⟨h.1.trans h'.1.symm, h.2.trans h'.2.symm⟩
  | setZero d => exact ⟨h.1.trans h'.1.symm, h.2.trans h'.2.symm⟩
  | setOne d => exact ⟨h.1.trans h'.1.symm, h.2.trans h'.2.symm⟩
  | setNeg d => exact ⟨h.1.trans h'.1.symm, h.2.trans h'.2.symm⟩
  | setPos d => exact ⟨h.1.trans h'.1.symm, h.2.trans h'.2.symm⟩
  | copy d a => exact ⟨h.1.trans h'.1.symm, h.2.trans h'.2.symm⟩
  | add d a b => exact ⟨h.1.trans h'.1.symm, h.2.trans h'.2.symm⟩
  | sub d a b => exact ⟨h.1.trans h'.1.symm, h.2.trans h'.2.symm⟩
  | mul d a b => exact ⟨h.1.trans h'.1.symm, h.2.trans h'.2.symm⟩
  | roundTo d a k => exact ⟨h.1.trans h'.1.symm, h.2.trans h'.2.symm⟩
  | round d k => exact ⟨h.1.trans h'.1.symm, h.2.trans h'.2.symm⟩

/-- The calculator leaves no choice except in divisions. -/
theorem calculates_unique {x y z : Nat → ℚ} {cs : List Call} (hd : DivFree cs) (h : Calculates x cs y) (h' : Calculates x cs z) :
    y = z := by
  induction h with
  | done x => cases h'; rfl
  | step hm _ ih =>
    cases h' with
    | step hm' hr =>
      obtain ⟨rfl, rfl⟩ := means_unique (fun i a b incr => hd _ (List.mem_cons_self ..) i a b incr) hm hm'
      exact ih (fun c hc => hd c (List.mem_cons_of_mem _ hc)) hr

/-- **C75.** So the outcome of a program without divisions is the calculator's: if the calculator can end with `y`, the program
ends with the values `y`. Two builds, two layouts of the same starting values, any number of steps: same values. -/
theorem C75_determined (m : Mode) {s t : Regs} {cs : List Call} (hs : ∀ j, WF (s j) ∧ Whole (s j)) (hc : ExactRun m s cs)
    (h : runOk m s cs = some t) (hd : DivFree cs) {y : Nat → ℚ} (hy : Calculates (fun j => val (s j)) cs y) (j : Nat) :
    val (t j) = y j :=
  congrFun (calculates_unique hd (C75_program m hs hc h).1 hy) j

/-- **C75.** Programs without divisions agree across builds and across the layouts of their inputs: equal values in, equal
values out, whatever the scales, digit counts and number of leading zeros. -/
theorem C75_layout (m m' : Mode) {s s' t t' : Regs} {cs : List Call} (hs : ∀ j, WF (s j) ∧ Whole (s j))
    (hs' : ∀ j, WF (s' j) ∧ Whole (s' j)) (hv : ∀ j, val (s j) = val (s' j)) (hc : ExactRun m s cs) (hc' : ExactRun m' s' cs)
    (h : runOk m s cs = some t) (h' : runOk m' s' cs = some t') (hd : DivFree cs) (j : Nat) : val (t j) = val (t' j) := by
  have e : (fun j => val (s j)) = fun j => val (s' j) := funext hv
  exact C75_determined m hs hc h hd (e ▸ (C75_program m' hs' hc' h').1) j

/-- For truthful digit counts the second condition on products is automatic. -/
theorem tight_product (ha : Tight a) (hb : Tight b) :
    |val a * val b| < 10 ^ (9 * unitsFor (intgDigits a + intgDigits b)) := by
  have key : ∀ d : FixedDecimal, Tight d → |val d| < 10 ^ intgDigits d := by
    intro d hd
    rw [abs_val hd.toWF]
    unfold absVal
    rw [div_lt_iff₀ (by positivity), ← pow_add]
    exact_mod_cast hd.intg_ok
  rw [abs_mul]
  calc |val a| * |val b| < 10 ^ intgDigits a * 10 ^ intgDigits b :=
        mul_lt_mul'' (key a ha) (key b hb) (abs_nonneg _) (abs_nonneg _)
    _ = 10 ^ (intgDigits a + intgDigits b) := (pow_add _ _ _).symm
    _ ≤ _ := pow_le_pow_right₀ (by norm_num) (by unfold unitsFor; omega)

/-- What the observers say about the registers afterwards is what they say about the numbers: comparison (negative zero
apart), equality and conversion to `i64`. -/
theorem C75_observe (m : Mode) {s t : Regs} {cs : List Call} (hs : ∀ j, WF (s j) ∧ Whole (s j)) (hc : ExactRun m s cs)
    (h : runOk m s cs = some t) (hd : DivFree cs) {y : Nat → ℚ} (hy : Calculates (fun j => val (s j)) cs y) (i j : Nat) :
    (¬ NegZero (t i) → ¬ NegZero (t j) → (FixedDecimal.cmp m (t i) (t j) : Out Unit _) = .ok (compare (y i) (y j))) ∧
    (t i).asI64 m = if -2 ^ 63 ≤ y i ∧ y i ≤ 2 ^ 63 - 1 then .ok (halfAway (y i)) else .err .exceedsConversionTargetRange () := by
  have hw := (C75_program m hs hc h).2
  have hv := C75_determined m hs hc h hd hy
  refine ⟨fun n1 n2 => ?_, by rw [C46_as_i64 m (hw i).1, hv i]⟩
  rw [C16_cmp_spec m (hw i).1 (hw j).1, hv i, hv j]
  congr 1
  by_cases he : y i = y j
  · have hn : neg (t j) = neg (t i) := by
      have e1 := hv i
      have e2 := hv j
      have key : ∀ k, ¬ NegZero (t k) → (neg (t k) = true ↔ y k < 0) := by
        intro k nk
        have ek := hv k
        have p := absVal_nonneg (hw k).1
        constructor
        · intro hn
          have hz : mant (t k) ≠ 0 := fun hm => nk ⟨hn, hm⟩
          have : val (t k) ≠ 0 := mt val_eq_zero.mp hz
          rw [← ek]
          refine lt_of_le_of_ne ?_ this
          unfold val; rw [if_pos hn]; linarith
        · intro hl
          by_contra hn
          rw [← ek] at hl
          unfold val at hl; rw [if_neg hn] at hl; linarith
      rw [Bool.eq_iff_iff, key i n1, key j n2, he]
    rw [he, hn]
    simp
  · rcases lt_or_gt_of_ne he with hl | hl
    · rw [compare_lt_iff_lt.mpr hl]; rfl
    · rw [compare_gt_iff_gt.mpr hl]; rfl

/-- The program of the examples: parse two texts, multiply, take a remainder, add, round to one place. -/
def sampleProgram : List Call :=
  [.parse 0 (Samples.bytes "123456789012.345"), .parse 1 (Samples.bytes "-7.50"), .mul 2 0 1, .rem 3 0 1, .add 2 2 3, .round 2 1]

/-- Its start: all registers zero. -/
def blank : Regs := fun _ => FixedDecimal.zero

theorem blank_whole (j : Nat) : WF (blank j) ∧ Whole (blank j) := ⟨zero_tight.toWF, zero_whole⟩

theorem sample_exact (m : Mode) : ExactRun m blank sampleProgram := by
  refine ⟨trivial, ?_, fun r hr => ?_⟩
  · cases m
    · exact .inl rfl
    · exact .inr (by decide)
  have e : r = (0, ⟨12#8, 3, [345000000, 456789012, 123, 0, 0, 0, 0, 0, 0]⟩) := by
    refine Option.some.inj (hr.symm.trans ?_)
    cases m <;> decide +kernel
  subst e
  refine ⟨trivial, ?_, fun r hr => ?_⟩
  · cases m
    · exact .inl rfl
    · exact .inr (by decide)
  have e : r = (1, ⟨0x81#8, 2, [500000000, 7, 0, 0, 0, 0, 0, 0, 0]⟩) := by
    refine Option.some.inj (hr.symm.trans ?_)
    cases m <;> decide +kernel
  subst e
  refine ⟨trivial, ?_, fun r hr => ?_⟩
  · intro _ _
    exact ⟨by decide, tight_product (a := ⟨12#8, 3, [345000000, 456789012, 123, 0, 0, 0, 0, 0, 0]⟩)
      (b := ⟨0x81#8, 2, [500000000, 7, 0, 0, 0, 0, 0, 0, 0]⟩) (by decide) (by decide)⟩
  have e : r = (2, ⟨0x92#8, 5, [587500000, 925917592, 925, 0, 0, 0, 0, 0, 0]⟩) := by
    refine Option.some.inj (hr.symm.trans ?_)
    cases m <;> decide +kernel
  subst e
  refine ⟨trivial, by show ¬ RemGuessTooBig _ _; decide +kernel, fun r hr => ?_⟩
  have e : r = (3, ⟨1#8, 3, [845000000, 4, 0, 0, 0, 0, 0, 0, 0]⟩) := by
    refine Option.some.inj (hr.symm.trans ?_)
    cases m <;> decide +kernel
  subst e
  refine ⟨trivial, trivial, fun r hr => ?_⟩
  have e : r = (2, ⟨0x92#8, 5, [742500000, 925917587, 925, 0, 0, 0, 0, 0, 0]⟩) := by
    refine Option.some.inj (hr.symm.trans ?_)
    cases m <;> decide +kernel
  subst e
  refine ⟨by show (-2 ^ 63 : Int) ≤ 1 ∧ (1 : Int) < 2 ^ 63; norm_num, ⟨by norm_num, ?_, ?_⟩, fun _ _ => trivial⟩
  · intro h; exact absurd h (by norm_num)
  · decide +kernel

/-- The hypotheses of C75 hold of it, in both builds, and it ends with -925925917587.7 in register 2. -/
example (m : Mode) : ∃ t, runOk m blank sampleProgram = some t ∧ ExactRun m blank sampleProgram ∧ DivFree sampleProgram ∧
    Calculates (fun j => val (blank j)) sampleProgram (fun j => val (t j)) ∧
    t 2 = ⟨0x92#8, 1, [700000000, 925917587, 925, 0, 0, 0, 0, 0, 0]⟩ := by
  have hx : (runOk m blank sampleProgram).map (fun t => t 2) =
      some ⟨0x92#8, 1, [700000000, 925917587, 925, 0, 0, 0, 0, 0, 0]⟩ := by
    cases m <;> decide +kernel
  cases h : runOk m blank sampleProgram with
  | none => rw [h] at hx; cases hx
  | some t =>
    rw [h] at hx
    refine ⟨t, rfl, sample_exact m, ?_, (C75_program m blank_whole (sample_exact m) h).1, Option.some.inj hx⟩
    intro c hc i a b incr
    simp only [sampleProgram, List.mem_cons, List.not_mem_nil, or_false] at hc
    rcases hc with rfl | rfl | rfl | rfl | rfl | rfl <;> intro h <;> cases h

end Props
end Fxd
