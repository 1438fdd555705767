import Verif.Props.Api
import Verif.Props.Rem
/-!
# Property C64: sign symmetry, bit for bit

Reversing the sign of an operand changes nothing but the sign of the result: same outcome (success, error, panic,
state left behind on error), same digits, same scale; and a zero result carries no sign.
-/

namespace Fxd
open Spec

/-- `r` with the sign reversed; a zero result gets no sign flag. -/
def Spec.minus (r : FixedDecimal) : FixedDecimal := if r.isZero then r.setPos else Props.opp r

/-- Change a successful outcome, leave errors and panics as they are. -/
def Spec.onOk {σ α β : Type} (f : α → β) : Out σ α → Out σ β
  | .ok x => .ok (f x)
  | .err e s => .err e s
  | .panic p => .panic p

theorem val_minus {r : FixedDecimal} (h : WF r) : val (minus r) = - val r := by
  unfold minus
  split_ifs with hz
  · rw [isZero_iff h] at hz
    rw [val_setPos, val_eq_zero.mpr hz, absVal_eq_zero.mpr hz]; simp
  · unfold Props.opp
    cases hn : neg r
    · simp only [Bool.false_eq_true, if_false]; rw [val_setNeg]; simp [val, hn]
    · simp only [if_true]; rw [val_setPos]; simp [val, hn]

/-! ## `opp` and the accessors -/

@[simp] theorem lsu_opp (a : FixedDecimal) : (Props.opp a).lsu = a.lsu := by unfold Props.opp; split_ifs <;> rfl
@[simp] theorem frac_opp (a : FixedDecimal) : (Props.opp a).frac = a.frac := by unfold Props.opp; split_ifs <;> rfl
@[simp] theorem fIntgDigits_opp (a : FixedDecimal) : (Props.opp a).intgDigits = a.intgDigits := by
  rw [intgDigits_eq, intgDigits_eq]
  unfold Props.opp; split_ifs <;> simp
@[simp] theorem intgUnits_opp {σ : Type} (m : Mode) (a : FixedDecimal) :
    ((Props.opp a).intgUnits m : Out σ Int) = a.intgUnits m := by
  unfold FixedDecimal.intgUnits; rw [fIntgDigits_opp]
@[simp] theorem fracUnits_opp {σ : Type} (m : Mode) (a : FixedDecimal) :
    ((Props.opp a).fracUnits m : Out σ Int) = a.fracUnits m := by
  unfold FixedDecimal.fracUnits; rw [frac_opp]
@[simp] theorem isZero_opp (a : FixedDecimal) : (Props.opp a).isZero = a.isZero := by
  unfold FixedDecimal.isZero; rw [lsu_opp]
@[simp] theorem neg_opp (a : FixedDecimal) : neg (Props.opp a) = !neg a := by
  unfold Props.opp
  cases h : neg a <;> simp
theorem wf_opp {a : FixedDecimal} (h : WF a) : WF (Props.opp a) := by
  unfold Props.opp; split_ifs; exacts [wf_setPos.mpr h, wf_setNeg.mpr h]

theorem addAbs_oppL (m : Mode) (a b res : FixedDecimal) : addAbs m (Props.opp a) b res = addAbs m a b res := by
  unfold addAbs; simp only [lsu_opp, frac_opp, intgUnits_opp, fracUnits_opp]
theorem addAbs_oppR (m : Mode) (a b res : FixedDecimal) : addAbs m a (Props.opp b) res = addAbs m a b res := by
  unfold addAbs; simp only [lsu_opp, frac_opp, intgUnits_opp, fracUnits_opp]
theorem subAbs_oppL (m : Mode) (a b res : FixedDecimal) : subAbs m (Props.opp a) b res = subAbs m a b res := by
  unfold subAbs; simp only [lsu_opp, frac_opp, intgUnits_opp, fracUnits_opp]
theorem subAbs_oppR (m : Mode) (a b res : FixedDecimal) : subAbs m a (Props.opp b) res = subAbs m a b res := by
  unfold subAbs; simp only [lsu_opp, frac_opp, intgUnits_opp, fracUnits_opp]
theorem mulAbs_oppL (m : Mode) (a b res : FixedDecimal) : mulAbs m (Props.opp a) b res = mulAbs m a b res := by
  unfold mulAbs; simp only [lsu_opp, frac_opp, intgUnits_opp, fracUnits_opp, fIntgDigits_opp]
theorem mulAbs_oppR (m : Mode) (a b res : FixedDecimal) : mulAbs m a (Props.opp b) res = mulAbs m a b res := by
  unfold mulAbs; simp only [lsu_opp, frac_opp, intgUnits_opp, fracUnits_opp, fIntgDigits_opp]
theorem divAbs_oppL (m : Mode) (a b res : FixedDecimal) (i : Int) :
    divAbs m (Props.opp a) b res i = divAbs m a b res i := by
  unfold divAbs; simp only [lsu_opp, frac_opp, fIntgDigits_opp]
theorem divAbs_oppR (m : Mode) (a b res : FixedDecimal) (i : Int) :
    divAbs m a (Props.opp b) res i = divAbs m a b res i := by
  unfold divAbs; simp only [lsu_opp, frac_opp, fIntgDigits_opp]
theorem remAbs_oppL (m : Mode) (a b res : FixedDecimal) : remAbs m (Props.opp a) b res = remAbs m a b res := by
  unfold remAbs; simp only [lsu_opp, frac_opp, fIntgDigits_opp]
theorem remAbs_oppR (m : Mode) (a b res : FixedDecimal) : remAbs m a (Props.opp b) res = remAbs m a b res := by
  unfold remAbs; simp only [lsu_opp, frac_opp, fIntgDigits_opp]

/-! ## The sign put on a magnitude -/

theorem setPos_of_pos {r : FixedDecimal} (h : neg r = false) : r.setPos = r := by
  unfold FixedDecimal.setPos
  have : r.intg &&& 0x7f#8 = r.intg := by
    unfold neg at h
    revert h
    generalize r.intg = x
    revert x
    decide +kernel
  rw [this]

theorem setPos_setNeg_of_pos {r : FixedDecimal} (h : neg r = false) : r.setNeg.setPos = r := by
  have := setPos_of_pos h
  unfold FixedDecimal.setPos FixedDecimal.setNeg at *
  simp only [bv_setPos_setNeg]; exact this

theorem neg_setNeg' (r : FixedDecimal) : neg r.setNeg = true := by simp

/-- Giving the result the other sign is reversing the sign of the result. -/
theorem minus_signed {r : FixedDecimal} (h : neg r = false) (s : Bool) :
    minus (if s then r.setNegAndCheckZero else r) = if !s then r.setNegAndCheckZero else r := by
  have hz : r.setNeg.isZero = r.isZero := rfl
  cases s
  · simp only [Bool.false_eq_true, if_false, Bool.not_false, if_true]
    unfold minus FixedDecimal.setNegAndCheckZero
    dsimp only
    rw [hz]
    split_ifs
    · rw [setPos_of_pos h, setPos_setNeg_of_pos h]
    · unfold Props.opp; rw [h]; rfl
  · simp only [if_true, Bool.not_true, Bool.false_eq_true, if_false]
    by_cases hr : r.isZero = true
    · have e : r.setNegAndCheckZero = r := by
        unfold FixedDecimal.setNegAndCheckZero
        dsimp only
        rw [if_pos (show r.setNeg.isZero = true from hr), setPos_setNeg_of_pos h]
      unfold minus
      rw [e, if_pos hr, setPos_of_pos h]
    · have e : r.setNegAndCheckZero = r.setNeg := by
        unfold FixedDecimal.setNegAndCheckZero
        dsimp only
        rw [if_neg (show ¬ r.setNeg.isZero = true from hr)]
      unfold minus
      rw [e, if_neg (show ¬ r.setNeg.isZero = true from hr)]
      unfold Props.opp
      rw [neg_setNeg', if_pos rfl, setPos_setNeg_of_pos h]

/-- An operation that computes a magnitude and then gives it the sign `s`. -/
theorem onOk_minus_bind {x : Out FixedDecimal FixedDecimal} (hx : ∀ r, x = .ok r → neg r = false) (s : Bool) :
    (x >>= fun r => .ok (if !s then r.setNegAndCheckZero else r)) =
      onOk minus (x >>= fun r => (.ok (if s then r.setNegAndCheckZero else r) : Out FixedDecimal FixedDecimal)) := by
  cases x with
  | ok r => exact congrArg Out.ok (minus_signed (hx r rfl) s).symm
  | err e st => rfl
  | panic p => rfl

theorem divAbs_neg {m : Mode} {a b res r : FixedDecimal} {incr : Nat} (ha : WF a) (hb : WF b)
    (hres : res.lsu.length = 9) (hi : incr < 2 ^ 62) (h : divAbs m a b res incr = .ok r) : neg r = false := by
  by_cases zb : mant b = 0
  · rw [divAbs_zero ha hb hres zb] at h; cases h
  · by_cases za : mant a = 0
    · rw [divAbs_of_zero ha hb hres zb za] at h
      injection h with h
      rw [← h]; decide
    · obtain ⟨s1, s2, s3, ⟨l, -, rfl⟩, -⟩ := divAbs_shape ha hb hres za zb hi h
      exact quoMk_neg (by omega)

theorem addAbs_neg {m : Mode} {a b res r : FixedDecimal} (ha : WF a) (hb : WF b)
    (hres : res.lsu.length = 9) (h : addAbs m a b res = .ok r) : neg r = false := by
  by_cases hf : alignedUnits a b ≤ 7 ∨ (alignedUnits a b = 8 ∧ absVal a + absVal b < 10 ^ (9 * max (iu a) (iu b)))
  · obtain ⟨q, h1, -, h2, -⟩ := addAbs_q m ha hb hres hf
    rw [h] at h1; injection h1 with h1; rw [h1]; exact h2
  · obtain ⟨p, hp⟩ := addAbs_fail m ha hb hres hf
    rw [h] at hp; cases hp

theorem subAbs_neg {m : Mode} {a b res r : FixedDecimal} {s : Bool} (ha : WF a) (hb : WF b)
    (hres : res.lsu.length = 9) (h : subAbs m a b res = .ok (r, s)) : neg r = false := by
  by_cases hf : alignedUnits a b ≤ 8
  · obtain ⟨q, h1, -, h2, -⟩ := subAbs_q m ha hb hres hf
    rw [h] at h1; injection h1 with h1; injection h1 with h1 h3; rw [h1]; exact h2
  · obtain ⟨p, hp⟩ := subAbs_fail m ha hb hres hf
    rw [h] at hp; cases hp

namespace Props
open FixedDecimal (addTo subTo mulTo divTo remTo)
variable {m : Mode} {a b res : FixedDecimal}

theorem minus_setZero (res : FixedDecimal) : minus res.setZero = res.setZero := by
  obtain ⟨i, f, l⟩ := res
  have e : (FixedDecimal.setZero ⟨i, f, l⟩).isZero = true := by
    unfold FixedDecimal.setZero FixedDecimal.resetUnits FixedDecimal.isZero; simp
  unfold minus
  rw [if_pos e]
  unfold FixedDecimal.setZero FixedDecimal.resetUnits FixedDecimal.setPos
  simp

/-- **C64** Reversing the sign of a factor reverses the sign of the product and changes nothing else. -/
theorem C64_mul (ha : WF a) (hb : WF b) (hres : res.lsu.length = 9) :
    mulTo m (opp a) b res = onOk minus (mulTo m a b res) ∧
    mulTo m a (opp b) res = onOk minus (mulTo m a b res) := by
  have key := onOk_minus_bind (x := mulAbs m a b res) (fun r h => mulAbs_neg ha hb hres h) (neg a != neg b)
  unfold mulTo
  simp only [isZero_opp, isNeg_eq, neg_opp, mulAbs_oppL, mulAbs_oppR]
  by_cases hz : (a.isZero || b.isZero) = true
  · simp only [if_pos hz]
    simp [onOk, minus_setZero]
  · simp only [if_neg hz]
    refine ⟨?_, ?_⟩
    · rw [show ((!neg a) != neg b) = !(neg a != neg b) by cases neg a <;> cases neg b <;> rfl]; exact key
    · rw [show (neg a != !neg b) = !(neg a != neg b) by cases neg a <;> cases neg b <;> rfl]; exact key

/-- **C64** The same for a dividend or a divisor of `/`, with any requested scale. -/
theorem C64_div (ha : WF a) (hb : WF b) (hres : res.lsu.length = 9) {incr : Nat} (hi : incr < 2 ^ 62) :
    divTo m (opp a) b res incr = onOk minus (divTo m a b res incr) ∧
    divTo m a (opp b) res incr = onOk minus (divTo m a b res incr) := by
  have hw : wrap 64 (incr : Int) = incr := wrap64_ok (by omega) (by omega)
  have key := onOk_minus_bind (x := divAbs m a b res incr) (fun r h => divAbs_neg ha hb hres hi h) (neg a != neg b)
  unfold divTo
  simp only [isNeg_eq, neg_opp, divAbs_oppL, divAbs_oppR, hw]
  refine ⟨?_, ?_⟩
  · rw [show ((!neg a) != neg b) = !(neg a != neg b) by cases neg a <;> cases neg b <;> rfl]; exact key
  · rw [show (neg a != !neg b) = !(neg a != neg b) by cases neg a <;> cases neg b <;> rfl]; exact key

/-- **C64** A remainder takes the sign of the dividend; the sign of the divisor does not matter at all. -/
theorem C64_rem (ha : WF a) (hb : WF b) (hres : res.lsu.length = 9) :
    remTo m (opp a) b res = onOk minus (remTo m a b res) ∧ remTo m a (opp b) res = remTo m a b res := by
  have key := onOk_minus_bind (x := remAbs m a b res) (fun r h => (remAbs_ok ha hb hres h).2.2.1) (neg a)
  unfold remTo
  simp only [isNeg_eq, neg_opp, remAbs_oppL, remAbs_oppR, and_true]
  exact key

/-- What `add_to` does with two non-zero operands, and `sub_to` with the sign of `b` reversed. -/
theorem addTo_nz (ha : a.isZero = false) (hb : b.isZero = false) :
    addTo m a b res =
      if neg a = neg b then (addAbs m a b res >>= fun r => .ok (if neg a then r.setNegAndCheckZero else r))
      else (subAbs m a b res >>= fun p => .ok (if p.2 != neg a then p.1.setNegAndCheckZero else p.1)) := by
  unfold addTo
  simp only [ha, hb, isNeg_eq, Bool.false_eq_true, if_false]
  by_cases hs : neg a = neg b
  · rw [if_pos hs, if_pos hs]; rfl
  · rw [if_neg hs, if_neg hs]
    cases subAbs m a b res with
    | ok p => obtain ⟨r, s⟩ := p; cases s <;> cases neg a <;> rfl
    | err e s => rfl
    | panic p => rfl

theorem subTo_nz (ha : a.isZero = false) (hb : b.isZero = false) : subTo m a b res = addTo m a (opp b) res := by
  rw [addTo_nz ha (by rw [isZero_opp]; exact hb), addAbs_oppR, subAbs_oppR, neg_opp]
  unfold subTo
  simp only [ha, hb, isNeg_eq, Bool.false_eq_true, if_false]
  have e : (¬ neg a = neg b) ↔ neg a = !neg b := by cases neg a <;> cases neg b <;> simp
  simp only [ne_eq, e]
  by_cases hs : neg a = !neg b
  · rw [if_pos hs, if_pos hs]; rfl
  · rw [if_neg hs, if_neg hs]
    cases subAbs m a b res with
    | ok p => obtain ⟨r, s⟩ := p; cases s <;> cases neg a <;> rfl
    | err e s => rfl
    | panic p => rfl

theorem minus_of_nz (ha : a.isZero = false) : minus a = opp a := by
  unfold minus; rw [if_neg (by simp [ha])]

/-- **C64** Reversing both signs reverses the sign of a sum and changes nothing else.  The sum of two zeros is the one
exception: `0 + x` is `x` itself, so a zero keeps the sign flag it had. -/
theorem C64_add (ha : WF a) (hb : WF b) (hres : res.lsu.length = 9) (hnz : ¬ (val a = 0 ∧ val b = 0)) :
    addTo m (opp a) (opp b) res = onOk minus (addTo m a b res) := by
  rw [← isZero_val ha, ← isZero_val hb] at hnz
  cases hza : a.isZero
  · cases hzb : b.isZero
    · rw [addTo_nz hza hzb, addTo_nz (by rw [isZero_opp]; exact hza) (by rw [isZero_opp]; exact hzb), neg_opp, neg_opp,
        addAbs_oppL, addAbs_oppR, subAbs_oppL, subAbs_oppR]
      have e : ((!neg a) = !neg b) ↔ neg a = neg b := by cases neg a <;> cases neg b <;> simp
      simp only [e]
      by_cases hs : neg a = neg b
      · rw [if_pos hs, if_pos hs]
        exact onOk_minus_bind (fun r h => addAbs_neg ha hb hres h) (neg a)
      · rw [if_neg hs, if_neg hs]
        cases h : subAbs m a b res with
        | ok p =>
          obtain ⟨r, s⟩ := p
          have := minus_signed (subAbs_neg ha hb hres h) (s != neg a)
          rw [show (!(s != neg a)) = (s != !neg a) by cases s <;> cases neg a <;> rfl] at this
          exact congrArg Out.ok this.symm
        | err e s => rfl
        | panic p => rfl
    · unfold addTo
      simp [hza, hzb, onOk, minus_of_nz hza]
  · cases hzb : b.isZero
    · unfold addTo
      simp [hza, onOk, minus_of_nz hzb]
    · exact absurd ⟨hza, hzb⟩ hnz

/-- **C64** The same for a difference, without exception. -/
theorem C64_sub (ha : WF a) (hb : WF b) (hres : res.lsu.length = 9) :
    subTo m (opp a) (opp b) res = onOk minus (subTo m a b res) := by
  cases hza : a.isZero
  · cases hzb : b.isZero
    · rw [subTo_nz hza hzb, subTo_nz (by rw [isZero_opp]; exact hza) (by rw [isZero_opp]; exact hzb)]
      refine C64_add ha (wf_opp hb) hres ?_
      rw [← isZero_val ha]
      simp [hza]
    · unfold subTo
      simp [hza, hzb, onOk, minus_of_nz hza]
  · have e : ∀ x : FixedDecimal, (if x.isNeg = true then .ok x.setPos else .ok x.setNegAndCheckZero : Out FixedDecimal FixedDecimal)
        = .ok (minus x) := by
      intro x
      rw [isNeg_eq]
      unfold minus FixedDecimal.setNegAndCheckZero opp
      have hz : x.setNeg.isZero = x.isZero := rfl
      cases hn : neg x
      · cases hx : x.isZero
        · simp [hz, hx]
        · simp [hz, hx, setPos_setNeg_of_pos hn, setPos_of_pos hn]
      · simp
    unfold subTo
    simp only [isZero_opp, hza, if_true, e, onOk]
    congr 1
    unfold minus opp
    have h1 : b.setNeg.isZero = b.isZero := rfl
    have h2 : b.setPos.isZero = b.isZero := rfl
    cases hn : neg b
    · cases hx : b.isZero
      · simp [h1, hx, setPos_setNeg_of_pos hn]
      · simp [h1, hx, setPos_setNeg_of_pos hn, setPos_of_pos hn]
    · cases hx : b.isZero
      · simp [h2, hx]
      · simp [h2, hx]

/-- **C64** The sign operations themselves: `opp` and `minus` negate the value. -/
theorem C64_value (ha : WF a) : val (opp a) = - val a ∧ val (minus a) = - val a ∧ ¬ NegZero (minus a) := by
  refine ⟨(C25_sub_eq_add_opp (m := .debug) (res := .zero) (res' := .zero) (r := .zero) (s := .zero) ha ha rfl rfl).1, val_minus ha, ?_⟩
  rintro ⟨h1, h2⟩
  cases hz : a.isZero
  · rw [isZero_false_iff ha] at hz
    have e : mant (minus a) = mant a := by
      unfold minus opp; split_ifs <;> simp
    exact hz (e ▸ h2)
  · unfold minus at h1; simp [hz] at h1

/-! Non-vacuity: a product, a cut-off quotient, a remainder, a sum and a difference with digits that matter. -/

example : ∃ r, mulTo m Samples.a Samples.c .zero = .ok r ∧ mulTo m (opp Samples.a) Samples.c .zero = .ok (minus r) ∧
    val r < 0 ∧ val (minus r) > 0 := by
  have h : ∃ r, mulTo m Samples.a Samples.c .zero = .ok r ∧ neg r = true ∧ 0 < mant r ∧ WF r := by
    cases m <;> exact ⟨_, rfl, by decide +kernel, by decide +kernel, by decide +kernel⟩
  obtain ⟨r, h1, h2, h3, h4⟩ := h
  have h5 := (C64_mul (m := m) Samples.a_tight.toWF Samples.c_tight.toWF (res := .zero) rfl).1
  rw [h1] at h5
  have hp : 0 < absVal r := by
    unfold absVal
    have : (0 : ℚ) < mant r := by exact_mod_cast h3
    positivity
  have hv : val r < 0 := by unfold val; rw [h2]; simpa using hp
  exact ⟨r, h1, h5, hv, by rw [val_minus h4]; linarith⟩

example : ∃ r, divTo m Samples.c Samples.a .zero 9 = .ok r ∧ divTo m Samples.c (opp Samples.a) .zero 9 = .ok (minus r) ∧
    r ≠ minus r := by
  have h : ∃ r, divTo m Samples.c Samples.a .zero 9 = .ok r ∧ r ≠ minus r := by
    cases m <;> exact ⟨_, rfl, by decide +kernel⟩
  obtain ⟨r, h1, h2⟩ := h
  have h5 := (C64_div (m := m) Samples.c_tight.toWF Samples.a_tight.toWF (res := .zero) rfl (incr := 9) (by norm_num)).2
  exact ⟨r, h1, by have e : ((9 : Nat) : Int) = 9 := rfl
                   rw [e] at h5; rw [h5, h1]; rfl, h2⟩

example : ∃ r, remTo m Samples.a Samples.c .zero = .ok r ∧ remTo m (opp Samples.a) Samples.c .zero = .ok (minus r) ∧
    remTo m Samples.a (opp Samples.c) .zero = .ok r ∧ r ≠ minus r := by
  have h : ∃ r, remTo m Samples.a Samples.c .zero = .ok r ∧ r ≠ minus r := by
    cases m <;> exact ⟨_, rfl, by decide +kernel⟩
  obtain ⟨r, h1, h2⟩ := h
  obtain ⟨h5, h6⟩ := C64_rem (m := m) Samples.a_tight.toWF Samples.c_tight.toWF (res := .zero) rfl
  exact ⟨r, h1, by rw [h5, h1]; rfl, by rw [h6, h1], h2⟩

example : ∃ r s, addTo m Samples.a Samples.c .zero = .ok r ∧ addTo m (opp Samples.a) (opp Samples.c) .zero = .ok (minus r) ∧
    subTo m Samples.a Samples.c .zero = .ok s ∧ subTo m (opp Samples.a) (opp Samples.c) .zero = .ok (minus s) ∧ r ≠ s := by
  have h : ∃ r s, addTo m Samples.a Samples.c .zero = .ok r ∧ subTo m Samples.a Samples.c .zero = .ok s ∧ r ≠ s := by
    cases m <;> exact ⟨_, _, rfl, rfl, by decide +kernel⟩
  obtain ⟨r, s, h1, h2, h3⟩ := h
  have h5 := C64_add (m := m) Samples.a_tight.toWF Samples.c_tight.toWF (res := .zero) rfl
    (by rw [Samples.val_a]; norm_num)
  have h6 := C64_sub (m := m) Samples.a_tight.toWF Samples.c_tight.toWF (res := .zero) rfl
  exact ⟨r, s, h1, by rw [h5, h1]; rfl, h2, by rw [h6, h2]; rfl, h3⟩

end Props
end Fxd
