import Verif.Props.Api
import Verif.Props.Product
import Verif.Props.Closed
import Verif.Spec.Trace
/-!
# Property C50: whole histories of calls

A program is a list of calls on numbered registers, each holding a decimal (as Rust variables do).  A call that returns
`Err` leaves in its output register what the function left there; a call that panics ends the run.
-/

namespace Fxd
open Spec

/-- Store the outcome of a function with an output parameter: a value or, on an error, what it left behind; no new state
after a panic. -/
def Regs.store (s : Regs) (i : Nat) : Out FixedDecimal FixedDecimal → Option Regs
  | .ok d => some (s.put i d)
  | .err _ d => some (s.put i d)
  | .panic _ => none

/-- The same for functions that have no error outcome. -/
def Regs.storeE (s : Regs) (i : Nat) : Out Empty FixedDecimal → Option Regs
  | .ok d => some (s.put i d)
  | .err _ x => nomatch x
  | .panic _ => none

/-- The state after a call, `none` if it panicked. Each case is one function of the API, see the citations there. -/
def Call.exec (m : Mode) (s : Regs) : Call → Option Regs
  | .parse i bs => s.store i (FixedDecimal.fromBytesStr m (s i) bs true)
  | .fromI64 i n => s.storeE i (FixedDecimal.fromI64 m n)
  | .fromU64 i n => s.storeE i (FixedDecimal.fromU64 n)
  | .setZero i => some (s.put i (s i).setZero)
  | .setOne i => some (s.put i (s i).setOne)
  | .setNeg i => some (s.put i (s i).setNeg)
  | .setPos i => some (s.put i (s i).setPos)
  | .copy i a => some (s.put i (s a))
  | .add i a b => s.store i (FixedDecimal.addTo m (s a) (s b) (s i))
  | .sub i a b => s.store i (FixedDecimal.subTo m (s a) (s b) (s i))
  | .mul i a b => s.store i (FixedDecimal.mulTo m (s a) (s b) (s i))
  | .div i a b incr => s.store i (FixedDecimal.divTo m (s a) (s b) (s i) incr)
  | .rem i a b => s.store i (FixedDecimal.remTo m (s a) (s b) (s i))
  | .roundTo i a k => s.storeE i ((s a).roundTo m (s i) k)
  | .round i k => s.storeE i ((s i).round m k)

/-- The calls that keep digit counts truthful in state `s`: everything but division, remainders that need the correction
step (C37), precisions of 128 and more (C55), and `round` in place that brings back old units (C41). -/
def Call.Clean (m : Mode) (s : Regs) : Call → Prop
  | .div _ _ _ _ => False
  | .rem i a b => ¬ RemGuessTooBig (s a) (s b)
  | .roundTo _ _ k => k ≤ 127
  | .round i k => k ≤ 127 ∧ ((s i).frac ≤ k → ∀ u ∈ (s i).lsu.take (extUnits (s i) k), u = 0)
  | _ => True

/-- The calls that keep units well-formed: also division none of whose units overflow and every remainder, multiplication
if the product fits the digit counts of its result (C28, C53; always so for operands with truthful digit counts), and
rounding to a precision whose cast to eight bits is not negative. Each condition is exact: when it fails and the call
succeeds, the result is not well-formed (`C50_sound_exact`). -/
def Call.Sound (m : Mode) (s : Regs) : Call → Prop
  | .div i a b incr => ∀ j, effIncr m (s a) (s b) incr = some j → ¬ QuoUnitWide (s a) (s b) j
  | .mul _ a b => val (s a) ≠ 0 → val (s b) ≠ 0 → MulFits m (s a) (s b) →
      codeMul (s a) (s b) < 1000000000 ^ (mulIU (s a) (s b) + mulFU (s a) (s b))
  | .roundTo _ a k => (s a).frac ≤ k → 0 ≤ castI8 k
  | .round i k => (s i).frac ≤ k → 0 ≤ castI8 k
  | _ => True

/-- `History ok m s t`: some sequence of calls, each in range and allowed by `ok`, none panicking, leads from `s` to
`t`. -/
inductive History (ok : Regs → Call → Prop) (m : Mode) (s : Regs) : Regs → Prop
  | start : History ok m s s
  | call {t u : Regs} (c : Call) : History ok m s t → c.InRange → ok t c → c.exec m t = some u → History ok m s u

theorem Regs.store_all {P : FixedDecimal → Prop} {s t : Regs} {i : Nat} {x : Out FixedDecimal FixedDecimal}
    (hs : ∀ j, P (s j)) (h : s.store i x = some t) (ho : ∀ d, x = .ok d → P d) (he : ∀ e d, x = .err e d → P d) :
    ∀ j, P (t j) := by
  intro j
  cases x with
  | ok d =>
    simp only [Regs.store, Option.some.injEq] at h
    subst h
    unfold Regs.put
    split_ifs
    · exact ho d rfl
    · exact hs j
  | err e d =>
    simp only [Regs.store, Option.some.injEq] at h
    subst h
    unfold Regs.put
    split_ifs
    · exact he e d rfl
    · exact hs j
  | panic p => simp [Regs.store] at h

theorem Regs.storeE_all {P : FixedDecimal → Prop} {s t : Regs} {i : Nat} {x : Out Empty FixedDecimal}
    (hs : ∀ j, P (s j)) (h : s.storeE i x = some t) (ho : ∀ d, x = .ok d → P d) : ∀ j, P (t j) := by
  intro j
  cases x with
  | ok d =>
    simp only [Regs.storeE, Option.some.injEq] at h
    subst h
    unfold Regs.put
    split_ifs
    · exact ho d rfl
    · exact hs j
  | err e d => exact nomatch d
  | panic p => simp [Regs.storeE] at h

theorem Regs.put_all {P : FixedDecimal → Prop} {s t : Regs} {i : Nat} {d : FixedDecimal}
    (hs : ∀ j, P (s j)) (h : some (s.put i d) = some t) (hd : P d) : ∀ j, P (t j) := by
  intro j
  simp only [Option.some.injEq] at h
  subst h
  unfold Regs.put
  split_ifs
  · exact hd
  · exact hs j

namespace Props

theorem zero_tight : Tight FixedDecimal.zero := by decide
theorem one_tight : Tight FixedDecimal.one := by decide

theorem seen_ok {σ α : Type} {o : Out σ α} {r : α} {f : Option α} (h : seen o = f.map .ok) (e : o = .ok r) : f = some r := by
  rw [e] at h
  cases f with
  | none => cases h
  | some x => injection h with h; injection h with h; rw [h]

theorem roundTo_lowest {σ : Type} (m : Mode) {d res r : FixedDecimal} (hd : WF d) (hres : res.lsu.length = 9) {k : Int}
    (hk : k = -2 ^ 63 ∨ k = -2 ^ 63 + 1) (h : (d.roundTo m res k : Out σ _) = .ok r) : Tight r :=
  lowest_tight hd hk (seen_ok (C74_round_to m hd hres (by rcases hk with rfl | rfl <;> norm_num)) h)

theorem round_lowest {σ : Type} (m : Mode) {d r : FixedDecimal} (hd : WF d) {k : Int}
    (hk : k = -2 ^ 63 ∨ k = -2 ^ 63 + 1) (h : (d.round m k : Out σ _) = .ok r) : Tight r :=
  lowest_tight hd hk (seen_ok (C74_round m hd (by rcases hk with rfl | rfl <;> norm_num)) h)

theorem lowest_frac {d : FixedDecimal} (hd : WF d) {k : Int} (hk : k = -2 ^ 63 ∨ k = -2 ^ 63 + 1) : ¬ d.frac ≤ k := by
  have := hd.frac_nonneg
  rcases hk with rfl | rfl <;> norm_num <;> omega

/-- `round_to` gives truthful digit counts for every precision in range. -/
theorem roundTo_tight {σ : Type} (m : Mode) {d res r : FixedDecimal} (hd : Tight d) (hres : res.lsu.length = 9) {k : Int}
    (h1 : -2 ^ 63 ≤ k) (h2 : k ≤ 127) (h : (d.roundTo m res k : Out σ _) = .ok r) : Tight r := by
  by_cases hlow : k = -2 ^ 63 ∨ k = -2 ^ 63 + 1
  · exact roundTo_lowest m hd.toWF hres hlow h
  rw [not_or] at hlow
  norm_num at h1 hlow
  by_cases h0 : 0 ≤ k
  · lift k to ℕ using h0
    exact (round_to_uniform m hd hres (by omega) h).2.2.2
  · obtain ⟨j, rfl⟩ : ∃ j : Nat, k = -(j : Int) := ⟨(-k).toNat, by omega⟩
    by_cases hi : j < intgDigits d
    · by_cases h9 : 9 ∣ j
      · obtain ⟨r', e, -, -, -, t⟩ := C42_edge_truncates (σ := σ) m hd.toWF hres (by omega) hi h9
        rw [e] at h; injection h with h; rw [← h]; exact t
      · exact (C42_round_neg_partial m hd.toWF hres (by omega) hi h9 h).2.2.2
    · rw [C42_large_zero m hd.toWF hres (by omega) (by omega) (by omega)] at h
      injection h with h; rw [← h]; exact zero_tight

/-- The same for well-formed decimals when something is rounded away; when nothing is, `round_to` keeps well-formedness
as long as the precision cast to eight bits is not negative. -/
theorem roundTo_wf {σ : Type} (m : Mode) {d res r : FixedDecimal} (hd : WF d) (hres : res.lsu.length = 9) {k : Int}
    (h1 : -2 ^ 63 ≤ k) (h : (d.roundTo m res k : Out σ _) = .ok r) : WF r ↔ (d.frac ≤ k → 0 ≤ castI8 k) := by
  by_cases hlow : k = -2 ^ 63 ∨ k = -2 ^ 63 + 1
  · exact iff_of_true (roundTo_lowest m hd hres hlow h).toWF (fun h => absurd h (lowest_frac hd hlow))
  rw [not_or] at hlow
  norm_num at h1 hlow
  by_cases hk : d.frac ≤ k
  · rw [(C55_code m hd hres hk h).2.2.1]
    exact ⟨fun h _ => h, fun h => h hk⟩
  · refine ⟨fun _ h => absurd h hk, fun _ => ?_⟩
    by_cases h0 : 0 ≤ k
    · lift k to ℕ using h0
      rw [hd.frac_eq] at hk
      exact (C39_round_to m hd hres (by omega) h).2.2.2.toWF
    · obtain ⟨j, rfl⟩ : ∃ j : Nat, k = -(j : Int) := ⟨(-k).toNat, by omega⟩
      by_cases hi : j < intgDigits d
      · by_cases h9 : 9 ∣ j
        · obtain ⟨r', e, -, -, -, t⟩ := C42_edge_truncates (σ := σ) m hd hres (by omega) hi h9
          rw [e] at h; injection h with h; rw [← h]; exact t.toWF
        · exact (C42_round_neg_partial m hd hres (by omega) hi h9 h).2.2.2.toWF
      · rw [C42_large_zero m hd hres (by omega) (by omega) (by omega)] at h
        injection h with h; rw [← h]; exact zero_tight.toWF

theorem round_wf {σ : Type} (m : Mode) {d r : FixedDecimal} (hd : WF d) {k : Int}
    (h1 : -2 ^ 63 ≤ k) (h : (d.round m k : Out σ _) = .ok r) : WF r ↔ (d.frac ≤ k → 0 ≤ castI8 k) := by
  by_cases hlow : k = -2 ^ 63 ∨ k = -2 ^ 63 + 1
  · exact iff_of_true (round_lowest m hd hlow h).toWF (fun h => absurd h (lowest_frac hd hlow))
  rw [not_or] at hlow
  have h1' := h1
  norm_num at h1' hlow
  by_cases hk : d.frac ≤ k
  · have hf := (C55_ok_iff m (σ := σ) hd (res := FixedDecimal.zero) rfl hk).2.mp ⟨r, h⟩
    rw [(C41_code m hd (res := FixedDecimal.zero) rfl hk h ((roundTo_wide m hd rfl hk).1 hf)).2.2.2.2.1]
    exact ⟨fun h _ => h, fun h => h hk⟩
  · rw [C41_round_eq_partial m hd (res := FixedDecimal.zero) rfl (by omega) (by omega)] at h
    exact roundTo_wf m hd rfl h1 h

theorem divTo_wf (m : Mode) {a b res r : FixedDecimal} (ha : WF a) (hb : WF b) (hres : res.lsu.length = 9) (za : val a ≠ 0)
    (zb : val b ≠ 0) {incr : Nat} (h : FixedDecimal.divTo m a b res incr = .ok r) :
    WF r ↔ ∀ j, effIncr m a b incr = some j → ¬ QuoUnitWide a b j := by
  have hE := divTo_eff m ha hb hres (mt val_eq_zero.mpr za) (mt val_eq_zero.mpr zb) incr
  cases hx : effIncr m a b incr with
  | none => rw [hx] at hE; dsimp only at hE; rw [hE] at h; cases h
  | some j =>
    rw [hx] at hE
    rw [hE.2] at h
    rw [(C36_code m ha hb hres za zb hE.1 h).2]
    exact ⟨fun hq i hi => Option.some.inj hi ▸ hq, fun hq => hq j rfl⟩

theorem mulTo_wf {m : Mode} {a b res r : FixedDecimal} (ha : WF a) (hb : WF b) (hres : res.lsu.length = 9)
    (h : FixedDecimal.mulTo m a b res = .ok r) :
    WF r ↔ (val a ≠ 0 → val b ≠ 0 → MulFits m a b → codeMul a b < 1000000000 ^ (mulIU a b + mulFU a b)) := by
  by_cases hz : val a = 0 ∨ val b = 0
  · have e := mulTo_zero m ha hb hres hz
    rw [h] at e; injection e with e
    refine ⟨fun _ h1 h2 => ?_, fun _ => by rw [e]; decide⟩
    rcases hz with h | h
    · exact absurd h h1
    · exact absurd h h2
  · push Not at hz
    rw [(C28_code m ha hb hres hz.1 hz.2 h).1]
    have hf := (mulTo_inv m ha hb hres hz.1 hz.2 h).1
    exact ⟨fun h _ _ _ => h, fun h => h hz.1 hz.2 hf⟩

theorem setZero_tight {d : FixedDecimal} (h : d.lsu.length = 9) : Tight d.setZero := by
  rw [setZero_eq h]; exact zero_tight

theorem remTo_tight {m : Mode} {a b res r : FixedDecimal} (ha : Tight a) (hb : Tight b) (hres : res.lsu.length = 9)
    (hn : ¬ RemGuessTooBig a b) (h : FixedDecimal.remTo m a b res = .ok r) : Tight r := by
  obtain ⟨q, hq, rfl⟩ := remTo_ok_iff.mp h
  obtain ⟨-, w, -, -, -, -, -, ht, -⟩ := remAbs_ok ha.toWF hb.toWF hres hq
  have t := ht hn ha hb
  unfold signed
  split_ifs
  · exact tight_setNegAndCheckZero t
  · exact t

theorem mulTo_tight {m : Mode} {a b res r : FixedDecimal} (ha : Tight a) (hb : Tight b) (hres : res.lsu.length = 9)
    (h : FixedDecimal.mulTo m a b res = .ok r) : Tight r := by
  by_cases hz : val a = 0 ∨ val b = 0
  · rw [mulTo_zero m ha.toWF hb.toWF hres hz] at h
    injection h with h; rw [← h]; exact zero_tight
  · push Not at hz
    by_cases hf : MulFits m a b
    · obtain ⟨r', e, t1, -⟩ := mulTo_ok m ha hb hres hz.1 hz.2 hf
      rw [e] at h; injection h with h; rw [← h]; exact t1
    · rcases mulTo_fail m ha.toWF hb.toWF hres hz.1 hz.2 hf with ⟨p, hp⟩ | ⟨_, _, _, hp⟩ <;> rw [hp] at h <;> cases h

/-- One clean call keeps every register's digit counts truthful. -/
theorem exec_tight (m : Mode) {s t : Regs} {c : Call} (hs : ∀ j, Tight (s j)) (hr : c.InRange) (hc : c.Clean m s)
    (h : c.exec m s = some t) : ∀ j, Tight (t j) := by
  have len : ∀ j, (s j).lsu.length = 9 := fun j => (hs j).len
  have wf : ∀ j, WF (s j) := fun j => (hs j).toWF
  cases c with
  | parse i bs =>
    refine Regs.store_all hs h (fun d e => (C09_parsed_always m bs (len i) e).1) (fun e d hd => ?_)
    rw [(C04_reset m bs (len i) (len i)).2 e d hd]; exact zero_tight
  | fromI64 i n =>
    refine Regs.storeE_all hs h (fun d e => ?_)
    obtain ⟨d', e', -, -, ht, -⟩ := C45_from_i64 (σ := Empty) m hr.1 hr.2
    rw [e] at e'; injection e' with e'; rw [e']; exact ht
  | fromU64 i n =>
    refine Regs.storeE_all hs h (fun d e => ?_)
    obtain ⟨d', e', -, -, ht, -⟩ := C45_from_u64 (σ := Empty) hr.1 hr.2
    rw [e] at e'; injection e' with e'; rw [e']; exact ht
  | setZero i => exact Regs.put_all hs h (setZero_tight (len i))
  | setOne i => exact Regs.put_all hs h (by rw [(C54_set_const (len i)).2]; exact one_tight)
  | setNeg i => exact Regs.put_all hs h (tight_setNeg.mpr (hs i))
  | setPos i => exact Regs.put_all hs h (tight_setPos.mpr (hs i))
  | copy i a => exact Regs.put_all hs h (hs a)
  | add i a b =>
    refine Regs.store_all hs h (fun d e => ((addTo_res (wf a) (wf b) (len i) e).tight (hs a) (hs b))) (fun e d hd => ?_)
    exact absurd hd (C22_never_err (m := m) (wf a) (wf b) (len i) e d).1
  | sub i a b =>
    refine Regs.store_all hs h (fun d e => ((subTo_res (wf a) (wf b) (len i) e).tight (hs a) (hs b))) (fun e d hd => ?_)
    exact absurd hd (C22_never_err (m := m) (wf a) (wf b) (len i) e d).2
  | mul i a b =>
    refine Regs.store_all hs h (fun d e => ?_) (fun e d hd => ?_)
    · exact mulTo_tight (hs a) (hs b) (len i) e
    · obtain ⟨-, -, -, -, -, h0⟩ := (C29_err_iff m (hs a) (hs b) (len i)).mp hd
      rw [h0]; exact zero_tight
  | div i a b incr => exact absurd hc (fun h => h)
  | rem i a b =>
    refine Regs.store_all hs h (fun d e => remTo_tight (hs a) (hs b) (len i) hc e) (fun e d hd => ?_)
    rw [(C33_rem_zero_only m (wf a) (wf b) (len i) hd).2.2]; exact zero_tight
  | roundTo i a k => exact Regs.storeE_all hs h (fun d e => roundTo_tight m (hs a) (len i) hr.1 hc e)
  | round i k =>
    refine Regs.storeE_all hs h (fun d e => ?_)
    obtain ⟨hk, hst⟩ := hc
    by_cases hf : (s i).frac ≤ k
    · have hfit := (C55_ok_iff m (σ := Empty) (wf i) (len i) hf).2.mp ⟨d, e⟩
      have hfr := (wf i).frac_nonneg
      have hfe := (wf i).frac_eq
      lift k to ℕ using (by omega)
      have hc8 : castI8 (k : Int) = k := castI8_small (by omega) (by omega)
      have h9 : iu (s i) + unitsFor k ≤ 9 := by have := hfit.2.2; rwa [hc8, Int.toNat_natCast] at this
      have hex : extUnits (s i) k = unitsFor k - fu (s i) := by unfold extUnits; rw [hc8, Int.toNat_natCast]
      have := (C41_extend_iff m (σ := Empty) (wf i) (len i) (by omega) h9).mpr (by rw [← hex]; exact hst hf)
      rw [this] at e
      exact roundTo_tight m (hs i) (len i) hr.1 hk e
    · by_cases hlow : k = -2 ^ 63 ∨ k = -2 ^ 63 + 1
      · exact round_lowest m (wf i) hlow e
      have hr1 := hr.1
      rw [not_or] at hlow
      norm_num at hr1 hlow
      rw [C41_round_eq_partial m (wf i) (len i) (by omega) (by omega)] at e
      exact roundTo_tight m (hs i) (len i) hr.1 hk e

/-- **C50.** Through any history of parsing, conversions, constants, signs, +, -, *, rounding, and remainders without
correction step, every decimal stays well-formed with truthful digit counts. -/
theorem C50_tight (m : Mode) {s t : Regs} (hs : ∀ j, Tight (s j)) (h : History (fun s c => c.Clean m s) m s t) :
    ∀ j, Tight (t j) := by
  induction h with
  | start => exact hs
  | call c _ hr hc he ih => exact exec_tight m ih hr hc he

/-- One sound call keeps every register well-formed. -/
theorem exec_wf (m : Mode) {s t : Regs} {c : Call} (wf : ∀ j, WF (s j)) (hr : c.InRange) (hc : c.Sound m s)
    (h : c.exec m s = some t) : ∀ j, WF (t j) := by
  have len : ∀ j, (s j).lsu.length = 9 := fun j => (wf j).len
  cases c with
  | parse i bs =>
    refine Regs.store_all wf h (fun d e => (C09_parsed_always m bs (len i) e).1.toWF) (fun e d hd => ?_)
    rw [(C04_reset m bs (len i) (len i)).2 e d hd]; exact zero_tight.toWF
  | fromI64 i n =>
    refine Regs.storeE_all wf h (fun d e => ?_)
    obtain ⟨d', e', -, -, ht, -⟩ := C45_from_i64 (σ := Empty) m hr.1 hr.2
    rw [e] at e'; injection e' with e'; rw [e']; exact ht.toWF
  | fromU64 i n =>
    refine Regs.storeE_all wf h (fun d e => ?_)
    obtain ⟨d', e', -, -, ht, -⟩ := C45_from_u64 (σ := Empty) hr.1 hr.2
    rw [e] at e'; injection e' with e'; rw [e']; exact ht.toWF
  | setZero i => exact Regs.put_all wf h (setZero_tight (len i)).toWF
  | setOne i => exact Regs.put_all wf h (by rw [(C54_set_const (len i)).2]; exact one_tight.toWF)
  | setNeg i => exact Regs.put_all wf h (wf_setNeg.mpr (wf i))
  | setPos i => exact Regs.put_all wf h (wf_setPos.mpr (wf i))
  | copy i a => exact Regs.put_all wf h (wf a)
  | add i a b =>
    refine Regs.store_all wf h (fun d e => (addTo_res (wf a) (wf b) (len i) e).wf) (fun e d hd => ?_)
    exact absurd hd (C22_never_err (m := m) (wf a) (wf b) (len i) e d).1
  | sub i a b =>
    refine Regs.store_all wf h (fun d e => (subTo_res (wf a) (wf b) (len i) e).wf) (fun e d hd => ?_)
    exact absurd hd (C22_never_err (m := m) (wf a) (wf b) (len i) e d).2
  | mul i a b =>
    refine Regs.store_all wf h (fun d e => ?_) (fun e d hd => ?_)
    · exact (mulTo_wf (wf a) (wf b) (len i) e).mpr hc
    · by_cases hz : val (s a) = 0 ∨ val (s b) = 0
      · rw [mulTo_zero m (wf a) (wf b) (len i) hz] at hd; cases hd
      · push Not at hz
        by_cases hf : MulFits m (s a) (s b)
        · have hlt := hc hz.1 hz.2 hf
          have hsh := (mul_shape hf.1).2
          have h9 : (1000000000 : Int) ^ (mulIU (s a) (s b) + mulFU (s a) (s b)) ≤ 1000000000 ^ 9 :=
            pow_le_pow_right₀ (by norm_num) hsh
          obtain ⟨l, e', -⟩ := mulTo_whole m (wf a) (wf b) (len i) hz.1 hz.2 hf (by omega)
          rw [e'] at hd; cases hd
        · rcases mulTo_fail m (wf a) (wf b) (len i) hz.1 hz.2 hf with ⟨p, hp⟩ | ⟨_, _, _, hp⟩
          · rw [hp] at hd; cases hd
          · rw [hp] at hd; injection hd with _ hd; rw [← hd]; exact zero_tight.toWF
  | div i a b incr =>
    refine Regs.store_all wf h (fun d e => ?_) (fun e d hd => ?_)
    · by_cases zb : val (s b) = 0
      · rw [C33_div_zero m (wf a) (wf b) (len i) zb] at e; cases e
      · by_cases za : val (s a) = 0
        · rw [C34_zero_div m (wf a) (wf b) (len i) za zb] at e
          injection e with e; rw [← e]; exact zero_tight.toWF
        · exact (divTo_wf m (wf a) (wf b) (len i) za zb e).mpr hc
    · by_cases zb : val (s b) = 0
      · rw [C33_div_zero m (wf a) (wf b) (len i) zb] at hd
        injection hd with _ hd; rw [← hd]; exact zero_tight.toWF
      · by_cases za : val (s a) = 0
        · rw [C34_zero_div m (wf a) (wf b) (len i) za zb] at hd; cases hd
        · have hE := divTo_eff m (wf a) (wf b) (len i) (mt val_eq_zero.mpr za) (mt val_eq_zero.mpr zb) incr
          cases hx : effIncr m (s a) (s b) incr with
          | none => rw [hx] at hE; dsimp only at hE; rw [hE] at hd; cases hd
          | some j =>
            rw [hx] at hE
            rw [hE.2] at hd
            rw [((C58_overflow_iff m (wf a) (wf b) (len i) za zb hE.1).mp hd).2.2.2]; exact zero_tight.toWF
  | rem i a b =>
    refine Regs.store_all wf h (fun d e => (C37_bounded m (wf a) (wf b) (len i) e).1) (fun e d hd => ?_)
    rw [(C33_rem_zero_only m (wf a) (wf b) (len i) hd).2.2]; exact zero_tight.toWF
  | roundTo i a k => exact Regs.storeE_all wf h (fun d e => (roundTo_wf m (wf a) (len i) hr.1 e).mpr hc)
  | round i k => exact Regs.storeE_all wf h (fun d e => (round_wf m (wf i) hr.1 e).mpr hc)

/-- **C50.** With division (none of whose units overflow), every remainder, and multiplication whose product fits the digit
counts of its result, every decimal stays well-formed. -/
theorem C50_wf (m : Mode) {s t : Regs} (hs : ∀ j, WF (s j)) (h : History (fun s c => c.Sound m s) m s t) :
    ∀ j, WF (t j) := by
  induction h with
  | start => exact hs
  | call c _ hr hc he ih => exact exec_wf m ih hr hc he

/-- **C50**: the conditions of `C50_wf` are exact for multiplication, division and rounding: a call on well-formed
decimals that returns `Ok` returns a well-formed decimal if and only if it was `Sound`. -/
theorem C50_sound_exact (m : Mode) {s : Regs} (wf : ∀ j, WF (s j)) {i a b incr : Nat} {k : Int} {r : FixedDecimal} :
    (FixedDecimal.mulTo m (s a) (s b) (s i) = .ok r → (WF r ↔ (Call.mul i a b).Sound m s)) ∧
    (val (s a) ≠ 0 → FixedDecimal.divTo m (s a) (s b) (s i) incr = .ok r →
      (WF r ↔ (Call.div i a b incr).Sound m s)) ∧
    (-2 ^ 63 ≤ k → ((s a).roundTo m (s i) k : Out Empty _) = .ok r → (WF r ↔ (Call.roundTo i a k).Sound m s)) ∧
    (-2 ^ 63 ≤ k → ((s i).round m k : Out Empty _) = .ok r → (WF r ↔ (Call.round i k).Sound m s)) := by
  refine ⟨fun h => mulTo_wf (wf a) (wf b) (wf i).len h, fun za h => ?_, fun hk h => roundTo_wf m (wf a) (wf i).len hk h,
    fun hk h => round_wf m (wf i) hk h⟩
  by_cases zb : val (s b) = 0
  · rw [C33_div_zero m (wf a) (wf b) (wf i).len zb] at h; cases h
  · exact divTo_wf m (wf a) (wf b) (wf i).len za zb h

/-- **C50 is false with unrestricted division**: the correction step of the long division leaves a unit above 10^9 - 1
(release builds), and an uncorrected quotient can make a later product ill-formed. -/
theorem C50_witness_div :
    FixedDecimal.divTo .release wA wB FixedDecimal.zero 4 = .ok ⟨1#8, 9, [1999999999, 1, 0, 0, 0, 0, 0, 0, 0]⟩ ∧
    Tight wA ∧ Tight wB ∧ ¬ WF ⟨1#8, 9, [1999999999, 1, 0, 0, 0, 0, 0, 0, 0]⟩ ∧
    (∀ m, FixedDecimal.divTo m ⟨10#8, 0, [0, 9, 0, 0, 0, 0, 0, 0, 0]⟩ ⟨2#8, 0, [10, 0, 0, 0, 0, 0, 0, 0, 0]⟩
        FixedDecimal.zero 4 = .ok ⟨8#8, 9, [0, 900000000, 0, 0, 0, 0, 0, 0, 0]⟩ ∧
      FixedDecimal.mulTo m ⟨8#8, 9, [0, 900000000, 0, 0, 0, 0, 0, 0, 0]⟩ ⟨1#8, 0, [9, 0, 0, 0, 0, 0, 0, 0, 0]⟩
        FixedDecimal.zero = .ok ⟨9#8, 9, [0, 100000000, 8, 0, 0, 0, 0, 0, 0]⟩) ∧
    ¬ WF ⟨9#8, 9, [0, 100000000, 8, 0, 0, 0, 0, 0, 0]⟩ := by
  refine ⟨by decide +kernel, by decide, by decide, by decide, ?_, by decide⟩
  intro m; cases m <;> decide +kernel

/-- A history: parse "123456789012.345" into 0 and "-7.50" into 1, multiply into 2, remainder into 3, add into 2, round
it to one digit. -/
example : ∃ t, History (fun s c => c.Clean .release s) .release (fun _ => FixedDecimal.zero) t ∧
    t 2 = ⟨0x92#8, 1, [700000000, 925917587, 925, 0, 0, 0, 0, 0, 0]⟩ := by
  refine ⟨_, .call (.round 2 1) (.call (.add 2 2 3) (.call (.rem 3 0 1) (.call (.mul 2 0 1)
    (.call (.parse 1 (Samples.bytes "-7.50")) (.call (.parse 0 (Samples.bytes "123456789012.345")) .start
      trivial trivial rfl) trivial trivial rfl) trivial trivial rfl) trivial ?_ rfl) trivial trivial rfl) ?_ ?_ rfl, ?_⟩
  · show ¬ RemGuessTooBig _ _; decide +kernel
  · show (-2 ^ 63 : Int) ≤ 1 ∧ (1 : Int) < 2 ^ 63; norm_num
  · show (1 : Int) ≤ 127 ∧ (_ → _); decide +kernel
  · decide +kernel

end Props
end Fxd
