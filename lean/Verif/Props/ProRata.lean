import Verif.Props.Brackets
/-!
# Property C114: proportional shares, and interpolation in a table
-/

namespace Fxd
open Spec

namespace Props
variable {m : Mode}

/-- `round(c * a / w, k)`, the quotient computed with `incr` more digits. -/
def ratio (m : Mode) (incr k : Nat) (c a w : FixedDecimal) : Out FixedDecimal FixedDecimal := do
  let p ← FixedDecimal.mulTo m c a FixedDecimal.zero
  let q ← FixedDecimal.divTo m p w FixedDecimal.zero incr
  q.roundTo m FixedDecimal.zero k

/-- The exact ratio, rounded half away from zero to `k` digits. -/
def ratioQ (k : Nat) (C A W : ℚ) : ℚ := (halfAway (C * A / W * 10 ^ k) : ℚ) / 10 ^ k

theorem ratioQ_neg (k : Nat) (C A W : ℚ) : ratioQ k C (-A) W = - ratioQ k C A W := by
  unfold ratioQ
  rw [show C * -A / W * 10 ^ k = -(C * A / W * 10 ^ k) by ring, halfAway_neg]; push_cast; ring

/-- A share does not exceed an amount of at most `k` digits. -/
theorem ratioQ_le {k : Nat} {C A W : ℚ} {n : ℤ} (hn : A * 10 ^ k = n) (hC : 0 ≤ C) (hCW : C ≤ W) (hW : 0 < W) (hA : 0 ≤ A) :
    0 ≤ ratioQ k C A W ∧ ratioQ k C A W ≤ A := by
  have hp : (0 : ℚ) < 10 ^ k := by positivity
  have h0 : halfAway 0 = 0 := by have := halfAway_int 0; simpa using this
  unfold ratioQ
  constructor
  · have := halfAway_mono (p := 0) (q := C * A / W * 10 ^ k) (by positivity)
    rw [h0] at this
    exact div_nonneg (by exact_mod_cast this) hp.le
  · have h1 : C * A / W * 10 ^ k ≤ n := by
      rw [← hn]
      refine mul_le_mul_of_nonneg_right ?_ hp.le
      rw [div_le_iff₀ hW, mul_comm C]
      exact mul_le_mul_of_nonneg_left hCW hA
    have := halfAway_mono h1
    rw [halfAway_int] at this
    rw [div_le_iff₀ hp, hn]
    exact_mod_cast this

theorem ratioQ_abs {k : Nat} {C A W : ℚ} {n : ℤ} (hn : A * 10 ^ k = n) (hC : 0 ≤ C) (hCW : C ≤ W) (hW : 0 < W) :
    |ratioQ k C A W| ≤ |A| := by
  rcases le_total 0 A with h | h
  · obtain ⟨h1, h2⟩ := ratioQ_le hn hC hCW hW h
    rw [abs_of_nonneg h1, abs_of_nonneg h]; exact h2
  · have hn' : -A * 10 ^ k = ((-n : ℤ) : ℚ) := by rw [neg_mul, hn]; push_cast; rfl
    obtain ⟨h1, h2⟩ := ratioQ_le hn' hC hCW hW (neg_nonneg.mpr h)
    rw [ratioQ_neg] at h1 h2
    rw [abs_of_nonpos (by linarith), abs_of_nonpos h]; exact h2

/-- Integral digits planned for `p / w`, when the exact quotient is below `10^(9u)`. -/
theorem quo_intg_le {p w : FixedDecimal} {W u : Nat} (hp : WF p) (zp : val p ≠ 0) (hw : Whole w W) (hW : 1 ≤ W) (hv : |val p| < 10 ^ (9 * u) * W) :
    quoIntg p w ≤ 9 * u + 1 := by
  have hm : (mant w).toNat = W := by rw [hw.mant_eq]; simp
  have hlog : Nat.log 10 (mant p).toNat ≤ 9 * fu p + 9 * u + Nat.log 10 W := by
    have h1 : (mant p).toNat < 10 ^ (9 * fu p + 9 * u + Nat.log 10 W + 1) := by
      have h2 : W < 10 ^ (Nat.log 10 W + 1) := Nat.lt_pow_succ_log_self (by norm_num) W
      have h3 : (W : ℚ) < 10 ^ (Nat.log 10 W + 1) := by exact_mod_cast h2
      have h4 : |val p| < 10 ^ (9 * u) * 10 ^ (Nat.log 10 W + 1) := lt_of_lt_of_le hv (mul_le_mul_of_nonneg_left h3.le (by positivity))
      rw [abs_val hp] at h4
      unfold absVal at h4
      rw [div_lt_iff₀ (by positivity), ← pow_add, ← pow_add] at h4
      have h5 : mant p < 10 ^ (9 * u + (Nat.log 10 W + 1) + 9 * fu p) := by exact_mod_cast h4
      rw [show 9 * u + (Nat.log 10 W + 1) + 9 * fu p = 9 * fu p + 9 * u + Nat.log 10 W + 1 by omega] at h5
      have h6 := hp.mant_nonneg
      have : ((mant p).toNat : Int) < 10 ^ (9 * fu p + 9 * u + Nat.log 10 W + 1) := by rw [Int.toNat_of_nonneg h6]; exact h5
      exact_mod_cast this
    have := Nat.log_lt_of_lt_pow' (b := 10) (by omega) h1
    omega
  unfold quoIntg digitCount
  rw [hm, hw.fu_eq]
  split_ifs <;> push_cast <;> omega

/-- The ratio of a whole number to a larger one, below 10^9, applied to an amount: no call fails, the result is exactly rounded. -/
theorem ratio_ok {c a w : FixedDecimal} {C W : Nat} {k u incr : Nat} (hc : Whole c C) (tc : Tight c) (ic : iu c ≤ 1) (ha : Tight a)
    (hak : fracDigits a ≤ k) (hau : iu a ≤ u) (hu : 1 ≤ u) (hw : Whole w W) (hW0 : 1 ≤ W) (hW : W < 10 ^ 9) (hCW : C ≤ W)
    (hk : k ≤ 35) (hroom : u + 1 + unitsFor k ≤ 8) (hi9 : 9 ≤ incr) (hik : k < incr) (hi : incr ≤ 80) :
    ∃ r, ratio m incr k c a w = .ok r ∧ val r = ratioQ k C (val a) W ∧ Tight r ∧ fracDigits r = k ∧ iu r ≤ u + 1 := by
  have fc : fracDigits c = 0 := by unfold fracDigits; rw [hc.frac]; rfl
  have zw : val w ≠ 0 := by rw [hw.value]; norm_num; omega
  have k4 : unitsFor k ≤ 4 := by unfold unitsFor; omega
  have hfa : fu a ≤ unitsFor k := unitsFor_mono hak
  have hIc : intgDigits c ≤ 9 := by unfold iu unitsFor at ic; omega
  have hIa : intgDigits a ≤ 9 * u := by unfold iu unitsFor at hau; omega
  have hmi : mulIU c a ≤ u + 1 := by unfold mulIU unitsFor; omega
  have hfull : MulFull c a := by
    unfold MulFull mulFU
    rw [fc, Nat.zero_add]
    have : unitsFor (fracDigits a) ≤ unitsFor k := hfa
    omega
  have zero_case : ∀ p, FixedDecimal.mulTo m c a FixedDecimal.zero = .ok p → val p = 0 →
      ∃ r, ratio m incr k c a w = .ok r ∧ val r = ratioQ k C (val a) W ∧ Tight r ∧ fracDigits r = k ∧ iu r ≤ u + 1 := by
    intro p hp vp
    obtain ⟨e1, e2, -⟩ := C27_mul_exact m tc ha rfl hfull hp
    have hq := C34_zero_div m e2.toWF hw.wf (res := FixedDecimal.zero) rfl vp zw incr
    have iz : iu FixedDecimal.zero = 1 := by decide
    obtain ⟨r, hr, g1, g2, -⟩ := C40_extend (σ := FixedDecimal) m wf_zero (res := FixedDecimal.zero) rfl (k := k)
      (Nat.le_trans (by decide : fracDigits FixedDecimal.zero ≤ 0) (Nat.zero_le k)) (by omega)
    obtain ⟨t1, t2, -, t4⟩ := round_to_uniform m (by decide : Tight FixedDecimal.zero) rfl (by omega) hr
    refine ⟨r, by unfold ratio; rw [hp, ok_bind, hq, ok_bind]; exact hr, ?_, t4, by unfold fracDigits; rw [t2]; simp, ?_⟩
    · rw [t1, val_zero_const]
      unfold ratioQ
      have : (C : ℚ) * val a = 0 := by rw [← vp, e1, hc.value]; simp
      rw [this]; simp
    · have h0 : (halfAway 0 : Int) = 0 := by have := halfAway_int 0; simpa using this
      have := (round_to_intg (by decide : Tight FixedDecimal.zero) rfl hr (by omega)).2.1
      omega
  by_cases z : val c = 0 ∨ val a = 0
  · refine zero_case _ (mulTo_zero m hc.wf ha.toWF rfl z) val_zero_const
  have hz := z
  rw [not_or] at hz
  have ic1 : 1 ≤ iu c := by
    by_contra hcon
    have h0 : iu c = 0 := by omega
    have := absVal_lt_pow hc.wf
    rw [h0, ← abs_val hc.wf, hc.value] at this
    have h1 : |((C : Int) : ℚ)| < 1 := by simpa using this
    have h2 : |(C : Int)| < 1 := by exact_mod_cast h1
    have h3 : (C : Int) = 0 := Int.abs_lt_one_iff.mp h2
    exact hz.1 (by rw [hc.value, h3]; simp)
  have hfits : MulFits m c a := by
    have e : mulFU c a = unitsFor (fracDigits c + fracDigits a) := hfull
    rw [fc, Nat.zero_add] at e
    refine ⟨by omega, by omega, .inl ?_⟩
    rw [e]
    show fu a < iu c + fu a
    omega
  obtain ⟨p, hp⟩ := (C56_mul_ok_iff m tc ha (res := FixedDecimal.zero) rfl).mpr (.inr (.inr hfits))
  obtain ⟨e1, e2, e3⟩ := C27_mul_exact m tc ha rfl hfull hp
  have zp : val p ≠ 0 := by rw [e1]; exact mul_ne_zero hz.1 hz.2
  have fp : fracDigits p = fracDigits a := by
    unfold fracDigits; rw [e3 hz.1 hz.2, hc.frac, zero_add]
  have fpu : fu p = fu a := by unfold fu; rw [fp]
  have hCWq : (C : ℚ) ≤ W := by exact_mod_cast hCW
  have hWq : (1 : ℚ) ≤ W := by exact_mod_cast hW0
  have va : |val a| < 10 ^ (9 * u) :=
    lt_of_lt_of_le (tight_lt_pow ha) (pow_le_pow_right₀ (by norm_num) hIa)
  have vp : val p = C * val a := by rw [e1, hc.value]; simp
  have vpa : |val p| ≤ W * |val a| := by
    rw [vp, abs_mul, abs_of_nonneg (by positivity : (0 : ℚ) ≤ C)]
    exact mul_le_mul_of_nonneg_right hCWq (abs_nonneg _)
  have hv : |val p| < 10 ^ (9 * u) * W := by
    have : (W : ℚ) * |val a| < W * 10 ^ (9 * u) := mul_lt_mul_of_pos_left va (by linarith)
    linarith [mul_comm (W : ℚ) (10 ^ (9 * u))]
  have hqi := quo_intg_le e2.toWF zp hw hW0 hv
  have m9 : mant w < 1000000000 := by
    rw [hw.mant_eq]; norm_num at hW ⊢; exact_mod_cast hW
  have hwant : quoWant p w incr = fracDigits a + incr := by
    have fw : fracDigits w = 0 := by unfold fracDigits; rw [hw.frac]; rfl
    unfold quoWant
    rw [fpu, fp, hw.fu_eq, fw]
    have : fracDigits a ≤ 9 * fu a := fracDigits_le_fu a
    have : 9 * fu a ≤ fracDigits a + 8 := by unfold fu unitsFor; omega
    omega
  have hqf : quoFrac p w incr = fracDigits a + incr := by
    unfold quoFrac
    rw [hwant]
    rw [Int.bmod_eq_of_le] <;> norm_num <;> omega
  have hqfu := C57_scale_small p w incr (by rw [hwant]; omega)
  rw [hwant] at hqfu
  have hqiu : quoIU p w ≤ u + 1 := by unfold quoIU unitsFor; omega
  have hlow : -118 ≤ quoIntg p w := by
    unfold quoIntg digitCount
    rw [fpu, hw.fu_eq]
    have hm : (mant w).toNat = W := by rw [hw.mant_eq]; simp
    rw [hm]
    have : Nat.log 10 W < 9 := Nat.log_lt_of_lt_pow' (by norm_num) hW
    split_ifs <;> push_cast <;> omega
  obtain ⟨q, hq⟩ := (C35_short_div_ok m e2.toWF hw.wf (res := FixedDecimal.zero) rfl zp zw m9 (incr := incr) (by omega)).mpr
    ⟨⟨by rw [hqf]; omega, by rw [hqf]; omega, hlow, by omega⟩, by omega⟩
  obtain ⟨s1, s2⟩ := C57_scale m e2.toWF hw.wf rfl zp zw (by omega) hq
  have wq := (C35_short_div m e2.toWF hw.wf rfl zw m9 (by omega) hq).1
  have hkq : k < fracDigits q := by
    have h1 : k < 9 * quoFU p w incr := by
      rw [hqfu]
      unfold unitsFor at *
      omega
    unfold fracDigits; rw [s1]; omega
  have iq : iu q ≤ u + 1 := by unfold iu unitsFor; omega
  obtain ⟨r, hr⟩ := (C39_ok_iff (σ := FixedDecimal) m wq (res := FixedDecimal.zero) rfl hkq).1.mpr (.inl (by omega))
  obtain ⟨g1, g2, -, g4⟩ := C39_round_to m wq rfl hkq hr
  have g5 := (C96_round_quotient e2.toWF hw.wf rfl rfl (by omega) (.inl m9) hq hkq hr).1
  have hval : val r = ratioQ k C (val a) W := by
    rw [g5, vp, hw.value]; simp [ratioQ]
  refine ⟨r, by unfold ratio; rw [hp, ok_bind, hq, ok_bind]; exact hr, hval, g4, by unfold fracDigits; rw [g2]; simp, ?_⟩
  have hb : |val r| < 10 ^ (9 * u) := by
    obtain ⟨n, hn⟩ := val_mul_pow_digits ha hak
    rw [hval]
    exact lt_of_le_of_lt (ratioQ_abs hn (by positivity) hCWq (by linarith)) va
  rw [roundTo_pos m wq rfl hkq] at hr
  obtain ⟨r', f1, -, -, -, -, f2⟩ := (roundPos_spec (σ := FixedDecimal) m wq hkq).1 (.inl (by omega))
  rw [hr] at f1; cases f1
  unfold iu
  rw [f2]
  split_ifs with hlt
  · rw [unitsFor_mul9]; exact iq
  · rw [unitsFor_mul9]
    have : iu q < u := by
      by_contra hcon
      exact hlt (lt_of_lt_of_le hb (pow_le_pow_right₀ (by norm_num) (by omega)))
    omega

/-! ## Shares -/

/-- `cum = cum + w; t = round(cum * a / total, k); share = t - before; before = t`, for one weight after the other. -/
def allot (m : Mode) (incr k : Nat) (a total : FixedDecimal) : FixedDecimal → FixedDecimal → List FixedDecimal → Out Empty (List FixedDecimal)
  | _, _, [] => .ok []
  | cum, before, w :: ws => do
    let cum' ← FixedDecimal.add m cum w
    let t ← FixedDecimal.orPanic (ratio m incr k cum' a total)
    let share ← FixedDecimal.sub m t before
    let tail ← allot m incr k a total cum' t ws
    return share :: tail

/-- The total of the weights first, then the shares. -/
def proRata (m : Mode) (incr k : Nat) (a : FixedDecimal) (ws : List FixedDecimal) : Out Empty (List FixedDecimal) := do
  let total ← balance m FixedDecimal.zero (ws.map .credit)
  allot m incr k a total FixedDecimal.zero FixedDecimal.zero ws

/-- The same on numbers: what the rounded cumulated share grows by. -/
def allotQ (k : Nat) (A W : ℚ) : Nat → List Nat → List ℚ
  | _, [] => []
  | c, n :: ns => (ratioQ k ((c + n : Nat) : ℚ) A W - ratioQ k c A W) :: allotQ k A W (c + n) ns

/-- A whole number below 10^9 of one unit. -/
structure Weight (d : FixedDecimal) (n : Nat) : Prop where
  whole : Whole d n
  tight : Tight d
  unit : iu d ≤ 1

theorem weight_add {a b : FixedDecimal} {A B : Nat} (ha : Weight a A) (hb : Weight b B) (h : A + B < 10 ^ 9) :
    ∃ s, FixedDecimal.add m a b = .ok s ∧ Weight s (A + B) := by
  have hv : |val a + val b| < 10 ^ (9 * 1) := by
    rw [ha.whole.value, hb.whole.value]
    have : |((A : Int) : ℚ) + ((B : Int) : ℚ)| = ((A + B : Nat) : ℚ) := by
      push_cast; exact abs_of_nonneg (by positivity)
    rw [this]; exact_mod_cast h
  obtain ⟨s, e1, e2, e3⟩ := add_within (m := m) (I := 1) (F := 0) (by norm_num) ⟨ha.whole.wf, ha.unit, by rw [ha.whole.fu_eq]⟩
    ⟨hb.whole.wf, hb.unit, by rw [hb.whole.fu_eq]⟩ hv
  have r := addTo_res ha.whole.wf hb.whole.wf (res := FixedDecimal.blank) rfl (add_ok_iff.mp e1)
  refine ⟨s, e1, ⟨⟨e2.wf, ?_, by rw [e3, ha.whole.value, hb.whole.value]; push_cast; rfl⟩, r.tight ha.tight hb.tight, e2.intg⟩⟩
  have fs := e2.frac
  rw [e2.wf.frac_eq]
  have : fracDigits s = 0 := by
    have := fracDigits_le_fu s
    omega
  rw [this]; rfl

theorem weight_zero : Weight FixedDecimal.zero 0 :=
  ⟨⟨wf_zero, rfl, by rw [val_zero_const]; simp⟩, by decide, by decide⟩

theorem weights_total : ∀ {ws : List FixedDecimal} {ns : List Nat} {c : FixedDecimal} {n : Nat}, List.Forall₂ Weight ws ns → Weight c n →
    n + ns.sum < 10 ^ 9 → ∃ t, balance m c (ws.map .credit) = .ok t ∧ Weight t (n + ns.sum)
  | [], _, c, n, .nil, hc, _ => ⟨c, rfl, by simpa using hc⟩
  | w :: ws, _, c, n, .cons (b := k) (l₂ := ns) h hs, hc, hlt => by
    rw [List.sum_cons] at hlt ⊢
    obtain ⟨s, e1, e2⟩ := weight_add (m := m) hc h (by omega)
    obtain ⟨t, e3, e4⟩ := weights_total hs e2 (by omega)
    refine ⟨t, ?_, by rw [show n + (k + ns.sum) = n + k + ns.sum by omega]; exact e4⟩
    rw [List.map_cons]
    show (FixedDecimal.add m c w >>= fun t => balance m t (ws.map .credit)) = _
    rw [e1, ok_bind]; exact e3

theorem allot_ok {a total : FixedDecimal} {W k u incr : Nat} (ha : Tight a) (hak : fracDigits a ≤ k) (hau : iu a ≤ u) (hu : 1 ≤ u)
    (hw : Whole total W) (hW0 : 1 ≤ W) (hW : W < 10 ^ 9)
    (hk : k ≤ 35) (hroom : u + 1 + unitsFor k ≤ 8) (hi9 : 9 ≤ incr) (hik : k < incr) (hi : incr ≤ 80) :
    ∀ {ws : List FixedDecimal} {ns : List Nat} {cum before : FixedDecimal} {c : Nat}, List.Forall₂ Weight ws ns → Weight cum c →
      c + ns.sum ≤ W → Within (u + 1) (unitsFor k) before → val before = ratioQ k c (val a) W →
      ∃ out, allot m incr k a total cum before ws = .ok out ∧ out.map val = allotQ k (val a) W c ns
  | [], _, _, _, _, .nil, _, _, _, _ => ⟨[], rfl, rfl⟩
  | w :: ws, _, cum, before, c, .cons (b := n) (l₂ := ns) h hs, hc, hle, hb, hv => by
    rw [List.sum_cons] at hle
    obtain ⟨cum', e1, e2⟩ := weight_add (m := m) hc h (by omega)
    obtain ⟨t, t1, t2, t3, t4, t5⟩ := ratio_ok (m := m) e2.whole e2.tight e2.unit ha hak hau hu hw hW0 hW (by omega) hk hroom hi9 hik hi
    have wt : Within (u + 1) (unitsFor k) t := ⟨t3.toWF, t5, by unfold fu; rw [t4]⟩
    obtain ⟨n', hn'⟩ := val_mul_pow_digits ha hak
    have hWq : (0 : ℚ) < W := by exact_mod_cast hW0
    have va : |val a| < 10 ^ (9 * u) :=
      lt_of_lt_of_le (tight_lt_pow ha) (pow_le_pow_right₀ (by norm_num) (by unfold iu unitsFor at hau; omega))
    have b1 : |val t| ≤ |val a| := by
      rw [t2]; exact ratioQ_abs hn' (by positivity) (by exact_mod_cast (by omega : c + n ≤ W)) hWq
    have b2 : |val before| ≤ |val a| := by
      rw [hv]; exact ratioQ_abs hn' (by positivity) (by exact_mod_cast (by omega : c ≤ W)) hWq
    have hd : |val t - val before| < 10 ^ (9 * (u + 1)) := by
      have h1 := abs_sub (val t) (val before)
      have h2 : (10 : ℚ) ^ (9 * (u + 1)) = 10 ^ (9 * u) * 10 ^ 9 := by rw [← pow_add]; rfl
      have h3 : (1 : ℚ) ≤ 10 ^ (9 * u) := one_le_pow₀ (by norm_num)
      rw [h2]; linarith
    obtain ⟨s, s1, s2, s3⟩ := sub_within (m := m) (by omega) wt hb hd
    obtain ⟨out, o1, o2⟩ := allot_ok ha hak hau hu hw hW0 hW hk hroom hi9 hik hi hs e2 (by omega) wt t2
    refine ⟨s :: out, ?_, ?_⟩
    · unfold allot
      rw [e1, ok_bind, t1]
      show (FixedDecimal.sub m t before >>= fun share => allot m incr k a total cum' t ws >>= fun tail => pure (share :: tail)) = _
      rw [s1, ok_bind, o1, ok_bind, pure_ok]
    · rw [List.map_cons, o2, s3, t2, hv]; rfl

/-- Cumulated shares grow with the weights. -/
theorem ratioQ_mono {k : Nat} {C D A W : ℚ} (h : C ≤ D) (hA : 0 ≤ A) (hW : 0 < W) : ratioQ k C A W ≤ ratioQ k D A W := by
  have hp : (0 : ℚ) < 10 ^ k := by positivity
  unfold ratioQ
  refine div_le_div_of_nonneg_right ?_ hp.le
  have := halfAway_mono (p := C * A / W * 10 ^ k) (q := D * A / W * 10 ^ k)
    (mul_le_mul_of_nonneg_right (div_le_div_of_nonneg_right (mul_le_mul_of_nonneg_right h hA) hW.le) hp.le)
  exact_mod_cast this

theorem ratioQ_near (k : Nat) (C A W : ℚ) : |ratioQ k C A W - C * A / W| ≤ 1 / 10 ^ k / 2 := by
  have hp : (0 : ℚ) < 10 ^ k := by positivity
  unfold ratioQ
  have h1 := halfAway_dist (C * A / W * 10 ^ k)
  rw [show (halfAway (C * A / W * 10 ^ k) : ℚ) / 10 ^ k - C * A / W = ((halfAway (C * A / W * 10 ^ k) : ℚ) - C * A / W * 10 ^ k) / 10 ^ k by
    field_simp, abs_div, abs_of_pos hp, div_right_comm]
  exact div_le_div_of_nonneg_right h1 hp.le

theorem ratioQ_zero (k : Nat) (A W : ℚ) : ratioQ k 0 A W = 0 := by
  unfold ratioQ
  have h0 : halfAway 0 = 0 := by have := halfAway_int 0; simpa using this
  rw [zero_mul, zero_div, zero_mul, h0]; simp

theorem ratioQ_full {k : Nat} {A W : ℚ} {n : ℤ} (hn : A * 10 ^ k = n) (hW : W ≠ 0) : ratioQ k W A W = A := by
  unfold ratioQ
  rw [mul_comm W, mul_div_assoc, div_self hW, mul_one, hn, halfAway_int, ← hn]
  field_simp

theorem allotQ_sum (k : Nat) (A W : ℚ) : ∀ (ns : List Nat) (c : Nat),
    (allotQ k A W c ns).sum = ratioQ k ((c + ns.sum : Nat) : ℚ) A W - ratioQ k c A W
  | [], c => by simp [allotQ]
  | n :: ns, c => by
    rw [allotQ, List.sum_cons, allotQ_sum k A W ns (c + n), List.sum_cons, show c + n + ns.sum = c + (n + ns.sum) by omega]
    ring

/-- What a share `x` of an amount `A` for the weight `n` out of `W` has to satisfy: less than one unit of the last digit kept away from
the exact share, of the amount's sign, and nothing for no weight. -/
def FairShare (k : Nat) (A W : ℚ) (x : ℚ) (n : Nat) : Prop :=
  |x - A * n / W| ≤ 1 / 10 ^ k ∧ 0 ≤ x * A ∧ (n = 0 → x = 0)

theorem allotQ_fair {k : Nat} {A W : ℚ} (hW : 0 < W) : ∀ (ns : List Nat) (c : Nat), List.Forall₂ (FairShare k A W) (allotQ k A W c ns) ns
  | [], _ => .nil
  | n :: ns, c => by
    refine .cons ⟨?_, ?_, ?_⟩ (allotQ_fair hW ns (c + n))
    · have h1 := ratioQ_near k ((c + n : Nat) : ℚ) A W
      have h2 := ratioQ_near k (c : ℚ) A W
      have h3 : ratioQ k ((c + n : Nat) : ℚ) A W - ratioQ k c A W - A * n / W =
          (ratioQ k ((c + n : Nat) : ℚ) A W - ((c + n : Nat) : ℚ) * A / W) - (ratioQ k c A W - c * A / W) := by
        push_cast; ring
      rw [h3]
      have h4 := abs_sub (ratioQ k ((c + n : Nat) : ℚ) A W - ((c + n : Nat) : ℚ) * A / W) (ratioQ k c A W - c * A / W)
      linarith
    · have hcn : (c : ℚ) ≤ ((c + n : Nat) : ℚ) := by exact_mod_cast Nat.le_add_right c n
      rcases le_total 0 A with h | h
      · exact mul_nonneg (sub_nonneg.mpr (ratioQ_mono hcn h hW)) h
      · have := ratioQ_mono (k := k) hcn (neg_nonneg.mpr h) hW
        rw [ratioQ_neg, ratioQ_neg] at this
        exact mul_nonneg_of_nonpos_of_nonpos (by linarith) h
    · rintro rfl
      simp

/-- **C114** An amount with at most `k` digits after the point is divided in proportion to whole weights, of any number, with a total from
1 to 10^9 - 1: no call fails, and the shares are what the cumulated share, rounded half away from zero to `k` digits, grows by. -/
theorem C114_shares {a : FixedDecimal} {ws : List FixedDecimal} {ns : List Nat} {k u incr : Nat} (ha : Tight a) (hak : fracDigits a ≤ k)
    (hau : iu a ≤ u) (hu : 1 ≤ u) (hws : List.Forall₂ Weight ws ns) (hW0 : 1 ≤ ns.sum) (hW : ns.sum < 10 ^ 9)
    (hk : k ≤ 35) (hroom : u + 1 + unitsFor k ≤ 8) (hi9 : 9 ≤ incr) (hik : k < incr) (hi : incr ≤ 80) :
    ∃ out, proRata m incr k a ws = .ok out ∧ out.map val = allotQ k (val a) ns.sum 0 ns := by
  obtain ⟨t, t1, t2⟩ := weights_total (m := m) hws weight_zero (by omega)
  rw [Nat.zero_add] at t2
  have wz : Within (u + 1) (unitsFor k) FixedDecimal.zero :=
    ⟨wf_zero, le_trans (by decide : iu FixedDecimal.zero ≤ 1) (by omega), le_trans (by decide : fu FixedDecimal.zero ≤ 0) (Nat.zero_le _)⟩
  obtain ⟨out, o1, o2⟩ := allot_ok (m := m) ha hak hau hu t2.whole hW0 hW hk hroom hi9 hik hi hws weight_zero (by omega) wz
    (by rw [val_zero_const, Nat.cast_zero, ratioQ_zero])
  exact ⟨out, by unfold proRata; rw [t1, ok_bind]; exact o1, o2⟩

/-- **C114** The shares add up to the amount exactly; each is within one unit of the last digit kept of the exact share, none has the wrong
sign, and a weight of zero gets nothing. -/
theorem C114_fair {a : FixedDecimal} {ws : List FixedDecimal} {ns : List Nat} {k u incr : Nat} (ha : Tight a) (hak : fracDigits a ≤ k)
    (hau : iu a ≤ u) (hu : 1 ≤ u) (hws : List.Forall₂ Weight ws ns) (hW0 : 1 ≤ ns.sum) (hW : ns.sum < 10 ^ 9)
    (hk : k ≤ 35) (hroom : u + 1 + unitsFor k ≤ 8) (hi9 : 9 ≤ incr) (hik : k < incr) (hi : incr ≤ 80) :
    ∃ out, proRata m incr k a ws = .ok out ∧ (out.map val).sum = val a ∧
      List.Forall₂ (fun s n => FairShare k (val a) ns.sum (val s) n) out ns := by
  obtain ⟨out, o1, o2⟩ := C114_shares (m := m) ha hak hau hu hws hW0 hW hk hroom hi9 hik hi
  obtain ⟨n, hn⟩ := val_mul_pow_digits ha hak
  have hWq : (0 : ℚ) < (ns.sum : Nat) := by exact_mod_cast hW0
  refine ⟨out, o1, ?_, ?_⟩
  · rw [o2, allotQ_sum, Nat.zero_add, Nat.cast_zero, ratioQ_zero, sub_zero, ratioQ_full hn hWq.ne']
  · have := allotQ_fair (k := k) (A := val a) hWq ns 0
    rw [← o2, List.forall₂_map_left_iff] at this
    exact this

/-! ## Interpolation -/

/-- `y = y0 + round((x - x0) * (y1 - y0) / (x1 - x0), k)` -/
def interpolate (m : Mode) (incr k : Nat) (x0 y0 x1 y1 x : FixedDecimal) : Out Empty FixedDecimal := do
  let c ← FixedDecimal.sub m x x0
  let a ← FixedDecimal.sub m y1 y0
  let w ← FixedDecimal.sub m x1 x0
  let t ← FixedDecimal.orPanic (ratio m incr k c a w)
  FixedDecimal.add m y0 t

theorem weight_sub {a b : FixedDecimal} {A B : Nat} (ha : Weight a A) (hb : Weight b B) (h : B ≤ A) :
    ∃ s, FixedDecimal.sub m a b = .ok s ∧ Weight s (A - B) := by
  have hA : |val a| < 10 ^ (9 * 1) := by
    refine lt_of_lt_of_le (tight_lt_pow ha.tight) (pow_le_pow_right₀ (by norm_num) ?_)
    have := ha.unit; unfold iu unitsFor at this; omega
  have hAB : (B : ℚ) ≤ A := by exact_mod_cast h
  have hv : |val a - val b| < 10 ^ (9 * 1) := by
    rw [ha.whole.value] at hA ⊢
    rw [hb.whole.value]
    push_cast at hA ⊢
    rw [abs_of_nonneg (by positivity)] at hA
    rw [abs_of_nonneg (by linarith)]
    have : (0 : ℚ) ≤ B := by positivity
    linarith
  obtain ⟨s, e1, e2, e3⟩ := sub_within (m := m) (I := 1) (F := 0) (by norm_num) ⟨ha.whole.wf, ha.unit, by rw [ha.whole.fu_eq]⟩
    ⟨hb.whole.wf, hb.unit, by rw [hb.whole.fu_eq]⟩ hv
  have r := subTo_res ha.whole.wf hb.whole.wf (res := FixedDecimal.blank) rfl (sub_ok_iff.mp e1)
  refine ⟨s, e1, ⟨⟨e2.wf, ?_, ?_⟩, r.tight ha.tight hb.tight, e2.intg⟩⟩
  · have fs := e2.frac
    rw [e2.wf.frac_eq]
    have : fracDigits s = 0 := by
      have := fracDigits_le_fu s
      omega
    rw [this]; rfl
  · rw [e3, ha.whole.value, hb.whole.value]; push_cast [h]; rfl

/-- **C114** Linear interpolation between `(x0, y0)` and `(x1, y1)`, the abscissas whole numbers below 10^9, the ordinates of at most `k`
digits after the point: no call fails; the result is within half a unit of the last digit kept of the exact value and lies between
the ordinates. -/
theorem C114_interpolate {x0 y0 x1 y1 x : FixedDecimal} {X0 X1 X : Nat} {k u incr : Nat} (hx0 : Weight x0 X0) (hx1 : Weight x1 X1) (hx : Weight x X)
    (h0 : X0 ≤ X) (h1 : X ≤ X1) (hlt : X0 < X1) (t0 : Tight y0) (t1 : Tight y1) (f0 : fracDigits y0 ≤ k) (f1 : fracDigits y1 ≤ k)
    (u0 : iu y0 ≤ u) (u1 : iu y1 ≤ u) (hu : 1 ≤ u) (hd : |val y1 - val y0| < 10 ^ (9 * u))
    (hk : k ≤ 35) (hroom : u + 1 + unitsFor k ≤ 8) (hi9 : 9 ≤ incr) (hik : k < incr) (hi : incr ≤ 80) :
    ∃ y, interpolate m incr k x0 y0 x1 y1 x = .ok y ∧
      |val y - (val y0 + (X - X0) * (val y1 - val y0) / (X1 - X0))| ≤ 1 / 10 ^ k / 2 ∧
      min (val y0) (val y1) ≤ val y ∧ val y ≤ max (val y0) (val y1) ∧
      (X = X0 → val y = val y0) ∧ (X = X1 → val y = val y1) := by
  obtain ⟨c, c1, c2⟩ := weight_sub (m := m) hx hx0 h0
  obtain ⟨w, w1, w2⟩ := weight_sub (m := m) hx1 hx0 hlt.le
  obtain ⟨a, a1, a2, a3⟩ := sub_within (m := m) (I := u) (F := unitsFor k) (by omega) ⟨t1.toWF, u1, unitsFor_mono f1⟩
    ⟨t0.toWF, u0, unitsFor_mono f0⟩ hd
  have ta : Tight a := (subTo_res t1.toWF t0.toWF (res := FixedDecimal.blank) rfl (sub_ok_iff.mp a1)).tight t1 t0
  obtain ⟨_, fa⟩ := sub_shrink t1.toWF t0.toWF hu a1 hd (fun _ => u1) (fun _ => u0) f1 f0
  have hX1 : X1 < 10 ^ 9 := by
    have h := tight_lt_pow hx1.tight
    have h2 : (10 : ℚ) ^ intgDigits x1 ≤ 10 ^ 9 := pow_le_pow_right₀ (by norm_num) (by
      have := hx1.unit; unfold iu unitsFor at this; omega)
    rw [hx1.whole.value, Int.cast_natCast, abs_of_nonneg (by positivity)] at h
    exact_mod_cast lt_of_lt_of_le h h2
  obtain ⟨t, e1, e2, e3, e4, e5⟩ := ratio_ok (m := m) c2.whole c2.tight c2.unit ta fa a2.intg hu w2.whole (by omega) (by omega) (by omega)
    hk hroom hi9 hik hi
  obtain ⟨n, hn⟩ := val_mul_pow_digits ta fa
  have hWq : (0 : ℚ) < ((X1 - X0 : Nat) : ℚ) := by exact_mod_cast (by omega : 0 < X1 - X0)
  have hCW : ((X - X0 : Nat) : ℚ) ≤ ((X1 - X0 : Nat) : ℚ) := by exact_mod_cast (by omega : X - X0 ≤ X1 - X0)
  have b1 : |val t| ≤ |val a| := by rw [e2]; exact ratioQ_abs hn (by positivity) hCW hWq
  have vy0 : |val y0| < 10 ^ (9 * u) :=
    lt_of_lt_of_le (tight_lt_pow t0) (pow_le_pow_right₀ (by norm_num) (by unfold iu unitsFor at u0; omega))
  have hs : |val y0 + val t| < 10 ^ (9 * (u + 1)) := by
    have h1 := abs_add_le (val y0) (val t)
    have h2 : (10 : ℚ) ^ (9 * (u + 1)) = 10 ^ (9 * u) * 10 ^ 9 := by rw [← pow_add]; rfl
    have h3 : (1 : ℚ) ≤ 10 ^ (9 * u) := one_le_pow₀ (by norm_num)
    rw [a3] at b1
    rw [h2]; linarith
  obtain ⟨y, y1', y2, y3⟩ := add_within (m := m) (I := u + 1) (F := unitsFor k) (by omega) ⟨t0.toWF, by omega, unitsFor_mono f0⟩
    ⟨e3.toWF, e5, by unfold fu; rw [e4]⟩ hs
  have hnear := ratioQ_near k ((X - X0 : Nat) : ℚ) (val a) ((X1 - X0 : Nat) : ℚ)
  refine ⟨y, ?_, ?_, ?_, ?_, ?_, ?_⟩
  · unfold interpolate
    rw [c1, ok_bind, a1, ok_bind, w1, ok_bind, e1]
    exact y1'
  · rw [y3, e2]
    rw [a3] at hnear ⊢
    push_cast [h0, hlt.le] at hnear ⊢
    rw [add_sub_add_left_eq_sub]; exact hnear
  · rw [y3]
    rcases le_total (val y0) (val y1) with h | h
    · rw [min_eq_left h]
      have := (ratioQ_le hn (by positivity) hCW hWq (by rw [a3]; linarith)).1
      linarith
    · rw [min_eq_right h]
      rw [abs_of_nonpos (a := val a) (by rw [a3]; linarith), a3] at b1
      linarith [neg_abs_le (val t)]
  · rw [y3]
    rcases le_total (val y0) (val y1) with h | h
    · rw [max_eq_right h]
      rw [abs_of_nonneg (a := val a) (by rw [a3]; linarith), a3] at b1
      linarith [le_abs_self (val t)]
    · rw [max_eq_left h]
      have hn' : -val a * 10 ^ k = ((-n : ℤ) : ℚ) := by rw [neg_mul, hn]; push_cast; rfl
      have := (ratioQ_le hn' (by positivity) hCW hWq (by rw [a3]; linarith)).1
      rw [ratioQ_neg] at this
      linarith
  · rintro rfl
    rw [y3, e2, Nat.sub_self, Nat.cast_zero, ratioQ_zero, add_zero]
  · rintro rfl
    rw [y3, e2, ratioQ_full hn hWq.ne', a3]; ring

/-- **C114** A point further to the right never gets a lower value than one to the left, on a rising segment: the roundings included. -/
theorem C114_interpolate_mono {x0 y0 x1 y1 x x' y y' : FixedDecimal} {X0 X1 X X' : Nat} {k u incr : Nat} (hx0 : Weight x0 X0) (hx1 : Weight x1 X1)
    (hx : Weight x X) (hx' : Weight x' X') (h0 : X0 ≤ X) (hxx : X ≤ X') (h1 : X' ≤ X1) (hlt : X0 < X1) (t0 : Tight y0) (t1 : Tight y1)
    (f0 : fracDigits y0 ≤ k) (f1 : fracDigits y1 ≤ k) (u0 : iu y0 ≤ u) (u1 : iu y1 ≤ u) (hu : 1 ≤ u) (hd : |val y1 - val y0| < 10 ^ (9 * u))
    (hk : k ≤ 35) (hroom : u + 1 + unitsFor k ≤ 8) (hi9 : 9 ≤ incr) (hik : k < incr) (hi : incr ≤ 80) (hr : val y0 ≤ val y1)
    (e : interpolate m incr k x0 y0 x1 y1 x = .ok y) (e' : interpolate m incr k x0 y0 x1 y1 x' = .ok y') : val y ≤ val y' := by
  obtain ⟨w, w1, w2⟩ := weight_sub (m := m) hx1 hx0 hlt.le
  obtain ⟨a, a1, a2, a3⟩ := sub_within (m := m) (I := u) (F := unitsFor k) (by omega) ⟨t1.toWF, u1, unitsFor_mono f1⟩
    ⟨t0.toWF, u0, unitsFor_mono f0⟩ hd
  have ta : Tight a := (subTo_res t1.toWF t0.toWF (res := FixedDecimal.blank) rfl (sub_ok_iff.mp a1)).tight t1 t0
  obtain ⟨_, fa⟩ := sub_shrink t1.toWF t0.toWF hu a1 hd (fun _ => u1) (fun _ => u0) f1 f0
  have hX1 : X1 < 10 ^ 9 := by
    have h := tight_lt_pow hx1.tight
    have h2 : (10 : ℚ) ^ intgDigits x1 ≤ 10 ^ 9 := pow_le_pow_right₀ (by norm_num) (by
      have := hx1.unit; unfold iu unitsFor at this; omega)
    rw [hx1.whole.value, Int.cast_natCast, abs_of_nonneg (by positivity)] at h
    exact_mod_cast lt_of_lt_of_le h h2
  have value : ∀ {z v : FixedDecimal} {Z : Nat}, Weight z Z → X0 ≤ Z → Z ≤ X1 → interpolate m incr k x0 y0 x1 y1 z = .ok v →
      val v = val y0 + ratioQ k ((Z - X0 : Nat) : ℚ) (val a) ((X1 - X0 : Nat) : ℚ) := by
    intro z v Z hz g0 g1 hv
    obtain ⟨c, c1, c2⟩ := weight_sub (m := m) hz hx0 g0
    obtain ⟨t, e1, e2, e3, -, -⟩ := ratio_ok (m := m) c2.whole c2.tight c2.unit ta fa a2.intg hu w2.whole (by omega) (by omega) (by omega)
      hk hroom hi9 hik hi
    unfold interpolate at hv
    rw [c1, ok_bind, a1, ok_bind, w1, ok_bind, e1] at hv
    rw [(addTo_res t0.toWF e3.toWF (res := FixedDecimal.blank) rfl (add_ok_iff.mp hv)).value, e2]
  rw [value hx h0 (by omega) e, value hx' (by omega) h1 e']
  have hWq : (0 : ℚ) < ((X1 - X0 : Nat) : ℚ) := by exact_mod_cast (by omega : 0 < X1 - X0)
  have := ratioQ_mono (k := k) (C := ((X - X0 : Nat) : ℚ)) (D := ((X' - X0 : Nat) : ℚ)) (A := val a)
    (by exact_mod_cast (by omega : X - X0 ≤ X' - X0)) (by rw [a3]; linarith) hWq
  linarith

theorem weight_mk {d : FixedDecimal} {n : Nat} (t : Tight d) (f : d.frac = 0) (e : mant d = n) (s : neg d = false) (h : iu d ≤ 1) : Weight d n :=
  ⟨whole_mk t.toWF f e s, t, h⟩

/-- A case of `C114_fair`: 100.00 for the weights 1, 1, 1. -/
example : ∃ out, proRata m 9 2 qHundred (List.replicate 3 FixedDecimal.one) = .ok out ∧ (out.map val).sum = val qHundred ∧
    List.Forall₂ (fun s n => FairShare 2 (val qHundred) ([1, 1, 1].sum : Nat) (val s) n) out [1, 1, 1] := by
  have w : Weight FixedDecimal.one 1 := weight_mk (by decide) rfl (by decide) (by decide) (by decide)
  exact C114_fair (u := 1) (by decide) (by decide) (by decide) (by decide) (.cons w (.cons w (.cons w .nil))) (by decide) (by decide) (by decide)
    (by decide) (by decide) (by decide) (by decide)

/-- These shares are 33.33, 33.34 and 33.33. -/
example : (proRata m 9 2 qHundred (List.replicate 3 FixedDecimal.one) >>= fun out =>
      .ok (out.map (fun s => (s.toStr m (-1) : Out Unit _))) : Out Empty _) =
    .ok [.ok (Samples.bytes "33.33"), .ok (Samples.bytes "33.34"), .ok (Samples.bytes "33.33")] := by
  cases m <;> decide +kernel

/-- A case of `C114_interpolate`: day 1 of 3 between 100.00 and 1.0837. -/
example : ∃ y, interpolate m 10 4 FixedDecimal.zero qHundred ⟨1#8, 0, [3, 0, 0, 0, 0, 0, 0, 0, 0]⟩ qRate FixedDecimal.one = .ok y ∧
    min (val qHundred) (val qRate) ≤ val y ∧ val y ≤ max (val qHundred) (val qRate) := by
  have vh : val qHundred = 100 := by
    have e1 : mant qHundred = 100000000000 := by decide
    have e2 : fu qHundred = 1 := by decide
    have e3 : neg qHundred = false := by decide
    unfold val absVal; rw [e1, e2, e3]; norm_num
  have vr : val qRate = 10837 / 10000 := by
    have h1 : mant qRate = 1083700000 := by decide
    have h2 : fu qRate = 1 := by decide
    have h3 : neg qRate = false := by decide
    unfold val absVal; rw [h1, h2, h3]; norm_num
  obtain ⟨y, h1, -, h2, h3, -⟩ := C114_interpolate (m := m) (X0 := 0) (X1 := 3) (X := 1) (k := 4) (u := 1) (incr := 10)
    (x1 := ⟨1#8, 0, [3, 0, 0, 0, 0, 0, 0, 0, 0]⟩) weight_zero
    (weight_mk (by decide) rfl (by decide) (by decide) (by decide)) (weight_mk (d := FixedDecimal.one) (by decide) rfl (by decide) (by decide) (by decide))
    (by decide) (by decide) (by decide) (y0 := qHundred) (y1 := qRate) (by decide) (by decide) (by decide) (by decide) (by decide) (by decide) (by decide)
    (by rw [vh, vr]; norm_num [abs_lt]) (by decide) (by decide) (by decide) (by decide) (by decide)
  exact ⟨y, h1, h2, h3⟩

end Props
end Fxd
