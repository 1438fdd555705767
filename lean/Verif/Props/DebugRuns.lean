import Verif.Props.Trace
import Verif.Props.Halts
/-!
# Property C77: what the assertion of the long division is worth

The long division guesses a quotient unit from leading digits; debug builds assert that the first guess is a single unit.
Because a guess is never below the true unit, a debug build never returns a quotient one of whose units has overflowed: all its
quotients are well-formed, and sessions with division need no side condition.  Release builds have no such check, and there a
session of valid calls on valid texts ends in a division of units by zero although no divisor is zero.
-/

namespace Fxd
open Spec

namespace Props

theorem lead_bounds {b : FixedDecimal} (hb : 0 < mant b) :
    1000000000 ^ topUnit b ≤ mant b ∧ 0 ≤ mant b / 1000000000 ^ topUnit b ∧
      mant b / 1000000000 ^ topUnit b < 1000000000 := by
  have h1 : (1000000000 : ℕ) ^ topUnit b ≤ (mant b).toNat := Nat.pow_log_le_self _ (by omega)
  have h2 : (mant b).toNat < (1000000000 : ℕ) ^ (topUnit b + 1) := Nat.lt_pow_succ_log_self (by norm_num) _
  have e : ((mant b).toNat : Int) = mant b := Int.toNat_of_nonneg hb.le
  have h1' : (1000000000 : Int) ^ topUnit b ≤ mant b := by rw [← e]; exact_mod_cast h1
  have h2' : mant b < (1000000000 : Int) ^ (topUnit b + 1) := by rw [← e]; exact_mod_cast h2
  have hp : (0 : Int) < 1000000000 ^ topUnit b := by positivity
  refine ⟨h1', Int.ediv_nonneg hb.le hp.le, ?_⟩
  rw [Int.ediv_lt_iff_lt_mul hp]
  rw [pow_succ] at h2'
  linarith

/-- A guessed unit is never below the true one: a unit that has overflowed was guessed to overflow. -/
theorem unit_wide_guess {a b : FixedDecimal} (hb : 0 < mant b) {incr : Nat} (h : QuoUnitWide a b incr) :
    QuoGuessWide a b incr := by
  obtain ⟨h0, W, hW, hw⟩ := h
  refine ⟨h0, W, hW, ?_⟩
  obtain ⟨l1, l2, l3⟩ := lead_bounds hb
  have hn : 1 ≤ normFac b := by
    unfold normFac
    rw [Int.le_ediv_iff_mul_le (by omega)]; omega
  have hP : (1000000000 : Int) ^ (topUnit b - 1) * 1000000000 = 1000000000 ^ topUnit b := by
    rw [← pow_succ]; congr 1; omega
  unfold FirstGuessWide
  rw [hP]
  set Q : Int := 1000000000 ^ topUnit b with hQ
  have hQ0 : 0 < Q := by positivity
  set R := normFac b * mant b with hR
  have hR0 : Q ≤ R := by nlinarith
  have hq1 : 1 ≤ R / Q := by rw [Int.le_ediv_iff_mul_le hQ0]; omega
  rw [Int.le_ediv_iff_mul_le (by omega)] at hw ⊢
  rw [Int.le_ediv_iff_mul_le hQ0]
  have := Int.ediv_mul_le R hQ0.ne'
  nlinarith

theorem div_wf_guarded {m : Mode} (hm : m = .debug) {a b res r : FixedDecimal} (ha : WF a) (hb : WF b)
    (hres : res.lsu.length = 9) {incr : Nat} (h : FixedDecimal.divTo m a b res incr = .ok r) : WF r := by
  by_cases zb : val b = 0
  · rw [C33_div_zero m ha hb hres zb] at h; cases h
  · by_cases za : val a = 0
    · rw [C34_zero_div m ha hb hres za zb] at h
      injection h with h; rw [← h]; exact zero_tight.toWF
    · refine (divTo_wf m ha hb hres za zb h).mpr (fun j hj hw => ?_)
      have hE := divTo_eff m ha hb hres (mt val_eq_zero.mpr za) (mt val_eq_zero.mpr zb) incr
      rw [hj] at hE
      rw [hE.2] at h
      have hm0 : 0 < mant b := by
        have := hb.mant_nonneg
        have := mt val_eq_zero.mpr zb
        omega
      exact (divTo_all ha hb hres za zb hE.1 h).1.2.2.2 ⟨hm, unit_wide_guess hm0 hw⟩

/-- **C77.** In a debug build every quotient that is returned is well-formed, whatever the precision asked for. -/
theorem C77_debug_div {a b res r : FixedDecimal} (ha : WF a) (hb : WF b) (hres : res.lsu.length = 9) {incr : Nat}
    (h : FixedDecimal.divTo .debug a b res incr = .ok r) : WF r := div_wf_guarded rfl ha hb hres h

/-- The actions after which registers stay well-formed in a debug build: everything but multiplication, parsing into a dirty
output, and precisions beyond 127. -/
def PlainDebug : Action → Prop
  | .call (.mul _ _ _) => False
  | .call (.roundTo _ _ k) => k ≤ 127
  | .call (.round _ k) => k ≤ 127
  | .parseKeep _ _ => False
  | .op .mul _ _ _ => False
  | _ => True

theorem exec_div_debug {s t : Regs} (wf : ∀ j, WF (s j)) {i a b incr : Nat}
    (h : (Call.div i a b incr).exec .debug s = some t) : ∀ j, WF (t j) := by
  refine Regs.store_all wf h (fun d e => C77_debug_div (wf a) (wf b) (wf i).len e) (fun e d hd => ?_)
  rw [divTo_left (wf a) (wf b) (wf i).len hd]; exact zero_tight.toWF

theorem step_debug {s t : Regs} (wf : ∀ j, WF (s j)) {a : Action} {r : Reply} (hr : a.InRange) (hp : PlainDebug a)
    (h : a.step .debug s = some (r, t)) : ∀ j, WF (t j) := by
  by_cases hw : PlainWF a
  · exact step_wf .debug wf hr hw h
  · have key : (∃ i x y incr, a = .call (.div i x y incr)) ∨ ∃ i x y, a = .op .div i x y := by
      cases a with
      | call c => cases c <;> first | exact Or.inl ⟨_, _, _, _, rfl⟩ | exact absurd hp hw
      | op o i x y => cases o <;> first | exact Or.inr ⟨_, _, _, rfl⟩ | exact absurd hp hw
      | _ => exact absurd hp hw
    rcases key with ⟨i, x, y, incr, rfl⟩ | ⟨i, x, y, rfl⟩
    · refine exec_div_debug wf (i := i) (a := x) (b := y) (incr := incr) ?_
      rw [← step_exec]
      exact congrArg (Option.map Prod.snd) (show (Call.div i x y incr).step .debug s = _ from h)
    · exact exec_div_debug wf (op_call (fun j => (wf j).len) h)

/-- **C77.** A debug session with division, remainder and rounding, in any order and of any length, is the session with the
reference machine, with no condition on the numbers that arise. -/
theorem C77_debug_session {s : Regs} (wf : ∀ j, WF (s j)) {as : List Action} (h : ∀ a ∈ as, a.InRange ∧ PlainDebug a) :
    trace (Action.step .debug) s as = trace (refStep .debug) s as := by
  induction as generalizing s with
  | nil => rfl
  | cons a as ih =>
    obtain ⟨hr, hp⟩ := h a (by simp)
    have e := C76_step .debug wf hr
    unfold trace
    rw [e]
    cases hx : refStep .debug s a with
    | none => rfl
    | some p =>
      obtain ⟨r, t⟩ := p
      dsimp only
      rw [ih (step_debug wf hr hp (e.trans hx)) (fun a ha => h a (by simp [ha]))]

/-- **C77.** After any such session every division and remainder of two registers ends, and panics only by a check the compiler
inserts: in particular units are never divided by zero. -/
theorem C77_debug_halts {s t : Regs} (wf : ∀ j, WF (s j)) {as : List Action} (h : ∀ a ∈ as, a.InRange ∧ PlainDebug a)
    (ht : (trace (Action.step .debug) s as).2 = some t) (a b i : Nat) (incr : Int) :
    (∀ j, WF (t j)) ∧ Halts .debug (FixedDecimal.divTo .debug (t a) (t b) (t i) incr) ∧
      Halts .debug (FixedDecimal.remTo .debug (t a) (t b) (t i)) := by
  have hw : ∀ j, WF (t j) := by
    induction as generalizing s with
    | nil => rw [← Option.some.inj (show some s = some t from ht)]; exact wf
    | cons a as ih =>
      obtain ⟨hr, hp⟩ := h a (by simp)
      unfold trace at ht
      cases hx : a.step .debug s with
      | none => rw [hx] at ht; cases ht
      | some p =>
        obtain ⟨r, u⟩ := p
        rw [hx] at ht
        exact ih (step_debug wf hr hp hx) (fun a ha => h a (by simp [ha])) ht
  exact ⟨hw, C71_div .debug (hw a) (hw b) (hw i).len incr, C71_rem .debug (hw a) (hw b) (hw i).len⟩

/-- A debug session of the kind the theorems are about: one third, rounded, and its remainder by another quotient. -/
def debugSession : List Action :=
  [.call (.parse 0 (Samples.bytes "-7.50")), .call (.fromI64 1 3), .op .div 2 0 1, .call (.div 3 1 0 4), .op .rem 4 2 3,
    .call (.round 2 5), .text 2 (-1), .text 3 (-1), .text 4 (-1), .cmp 2 4]

/-- Its actions meet the hypotheses, and this is what it prints. -/
example : (∀ a ∈ debugSession, a.InRange ∧ PlainDebug a) ∧ (∀ j, WF (blank j)) ∧
    (trace (refStep .debug) blank debugSession).1 =
      [.done, .done, .done, .done, .done, .done, .text (Samples.bytes "-2.50000"), .text (Samples.bytes "-0.400000000"),
        .text (Samples.bytes "-0.100000000"), .order .lt] := by
  have hp : ∀ a ∈ debugSession, a.InRange ∧ PlainDebug a := by
    intro a ha
    simp only [debugSession, List.mem_cons, List.not_mem_nil, or_false] at ha
    rcases ha with rfl | rfl | rfl | rfl | rfl | rfl | rfl | rfl | rfl | rfl <;>
      first
        | exact ⟨trivial, trivial⟩
        | exact ⟨by show (4 : Nat) < 2 ^ 64; norm_num, trivial⟩
        | exact ⟨by show (-2 ^ 63 : Int) ≤ -1 ∧ (-1 : Int) < 2 ^ 63; norm_num, trivial⟩
        | exact ⟨by show (-2 ^ 63 : Int) ≤ 3 ∧ (3 : Int) < 2 ^ 63; norm_num, trivial⟩
        | exact ⟨by show (-2 ^ 63 : Int) ≤ 5 ∧ (5 : Int) < 2 ^ 63; norm_num, by show (5 : Int) ≤ 127; norm_num⟩
  refine ⟨hp, fun j => zero_tight.toWF, ?_⟩
  rw [← C77_debug_session (s := blank) (fun j => zero_tight.toWF) hp]
  decide +kernel

/-- **C77** A release build has no such check. `500000000000000000077119559999999998 / 500000000000000000500000000` comes out with
a unit of 1999999999; taking away its integral part leaves a number whose digits say it is not zero, and dividing by it, or taking
a remainder, divides by zero in the arithmetic of the units.  A debug build stops at the first division. -/
theorem C77_release_witness :
    let a : FixedDecimal := ⟨36#8, 0, [999999998, 77119559, 0, 500000000, 0, 0, 0, 0, 0]⟩
    let b : FixedDecimal := ⟨27#8, 0, [500000000, 0, 500000000, 0, 0, 0, 0, 0, 0]⟩
    let c : FixedDecimal := ⟨9#8, 0, [999999999, 0, 0, 0, 0, 0, 0, 0, 0]⟩
    let q : FixedDecimal := ⟨9#8, 18, [154239116, 1999999999, 999999999, 0, 0, 0, 0, 0, 0]⟩
    let d : FixedDecimal := ⟨0#8, 18, [154239116, 1999999999, 0, 0, 0, 0, 0, 0, 0]⟩
    FixedDecimal.fromStr .release (Samples.bytes "500000000000000000077119559999999998") = .ok a ∧
    FixedDecimal.fromStr .release (Samples.bytes "500000000000000000500000000") = .ok b ∧
    FixedDecimal.fromStr .release (Samples.bytes "999999999") = .ok c ∧
    FixedDecimal.divTo .release a b FixedDecimal.zero 18 = .ok q ∧ QuoUnitWide a b 18 ∧ ¬ WF q ∧
    FixedDecimal.sub .release q c = .ok d ∧ d.isZero = false ∧
    FixedDecimal.div .release FixedDecimal.one d = .panic .divZero ∧
    FixedDecimal.rem .release c d = .panic .divZero ∧
    FixedDecimal.divTo .debug a b FixedDecimal.zero 18 = .panic .assert := by
  refine ⟨by decide +kernel, by decide +kernel, by decide +kernel, by decide +kernel, by decide +kernel, ?_, by decide +kernel,
    by decide +kernel, by decide +kernel, by decide +kernel, by decide +kernel⟩
  intro h
  have := h.units 1999999999 (by decide)
  omega

end Props
end Fxd
