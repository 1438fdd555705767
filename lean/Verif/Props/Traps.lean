import Verif.Props.NoWrap
import Verif.Props.Modes
import Verif.Props.ReferenceEdges
import Verif.Props.ReferenceParse
/-!
# C94: which panic, exactly

The reference implementations of C72 - C74 with the kind of the panic: a failed bounds check, an overflow check, a `debug_assert!`.
-/

namespace Fxd.Props
open Spec
open FixedDecimal (addTo subTo mulTo divTo remTo fromBytesStr fromStr)

variable {σ α : Type} {m : Mode} {a b d res : FixedDecimal}

theorem fate_eq {x : Out σ α} {r : Option (Except Error α)} {p : Panic} (h : seen x = r) (hp : ∀ q, x = .panic q → q = p) :
    fate x = withTrap r p := by
  subst h
  cases x with
  | ok a => rfl
  | err e s => rfl
  | panic q => rw [hp q rfl]; rfl

theorem of_release {x : Out σ α} (h : Halts .release x) {p : Panic} (hp : x = .panic p) : p = .index := C71_release h hp

/-! ## Addition, subtraction -/

/-- **C94** addition and subtraction: a panic is a failed bounds check. -/
theorem C94_add (m : Mode) (ha : WF a) (hb : WF b) (hres : res.lsu.length = 9) :
    fate (addTo m a b res) = withTrap ((refAdd a b).map .ok) .index := by
  refine fate_eq (C72_add m ha hb hres) fun q hq => ?_
  have := index_of_panic hq (C71_rest m a b res 0 []).1 (C93_add ha hb) (addTo_calm ha hb).ne
  rw [hq] at this; cases this; rfl

theorem C94_sub (m : Mode) (ha : WF a) (hb : WF b) (hres : res.lsu.length = 9) :
    fate (subTo m a b res) = withTrap ((refSub a b).map .ok) .index := by
  refine fate_eq (C72_sub m ha hb hres) fun q hq => ?_
  have := index_of_panic hq (C71_rest m a b res 0 []).2.1 (C93_sub ha hb) (subTo_calm ha hb).ne
  rw [hq] at this; cases this; rfl

/-! ## Multiplication -/

/-- A debug build multiplies, reports an overflow, or fails a check of its own. -/
theorem mulTo_debug (ha : WF a) (hb : WF b) (hres : res.lsu.length = 9) : mulTo .debug a b res ≠ .panic .index := by
  by_cases z : val a = 0 ∨ val b = 0
  · rw [mulTo_zero .debug ha hb hres z]; intro h; cases h
  rw [not_or] at z
  by_cases hfit : MulFits .debug a b
  · have h72 := C72_mul .debug ha hb hres
    unfold refMul at h72
    rw [if_neg (by rw [← val_eq_zero, ← val_eq_zero]; tauto)] at h72
    intro h
    rw [h, if_pos hfit] at h72
    change none = _ at h72
    split_ifs at h72
  · by_cases h120 : 120 ≤ intgDigits a + intgDigits b ∨ 120 ≤ fracDigits a + fracDigits b
    · rw [(C93_mul ha hb).mpr ⟨z.1, z.2, h120⟩]; intro h; cases h
    · push Not at h120
      rw [mulTo_nz _ ha hb z.1 z.2]
      by_cases h82 : 82 ≤ intgDigits a + intgDigits b
      · rw [mulAbs_overflow _ ha hb hres h82 h120.1 h120.2]; intro h; cases h
      · rw [mulAbs_lowrow_panic .debug ha hb hres (by omega) h120.2 (fun h => z.1 (val_eq_zero.mpr h))
          (fun h => z.2 (val_eq_zero.mpr h))
          (Or.inl ⟨rfl, by by_contra hc; exact hfit ⟨by omega, h120.2, Or.inl (by omega)⟩⟩)]
        intro h; cases h

/-- **C94** multiplication. -/
theorem C94_mul (m : Mode) (ha : WF a) (hb : WF b) (hres : res.lsu.length = 9) :
    fate (mulTo m a b res) = withTrap (refMul m a b) (mulTrap m a b) := by
  refine fate_eq (C72_mul m ha hb hres) fun q hq => ?_
  have hh := (C71_rest m a b res 0 []).2.2.1
  cases m with
  | release => exact of_release hh hq
  | debug =>
    have ho := C93_mul (res := res) ha hb
    unfold mulTrap
    dsimp only
    rcases hh q hq with rfl | ⟨-, rfl | rfl⟩
    · exact absurd hq (mulTo_debug ha hb hres)
    · rw [if_pos (ho.mp hq).2.2]
    · rw [if_neg]
      intro hc
      by_cases z : val a = 0 ∨ val b = 0
      · rw [mulTo_zero .debug ha hb hres z] at hq; cases hq
      · rw [not_or] at z
        rw [ho.mpr ⟨z.1, z.2, hc⟩] at hq; cases hq

/-! ## Division -/

/-- Division of non-zero decimals with any `incr` is an overflow, or division with the effective `incr`. -/
theorem divTo_effective (m : Mode) (ha : WF a) (hb : WF b) (hres : res.lsu.length = 9) (za : mant a ≠ 0) (zb : mant b ≠ 0) (incr : Nat) :
    (effIncr m a b incr = none → divTo m a b res incr = .panic .overflow) ∧
    (∀ j, effIncr m a b incr = some j → j < 2 ^ 62 ∧ divTo m a b res incr = divTo m a b res j) := by
  have hE := divFrac_eff m ha hb incr
  obtain ⟨nl, nr, tl, tr, e⟩ := divAbs_nz (m := m) ha hb hres za zb (wrap 64 incr)
  rw [divTo_wrap, e]
  cases hx : effIncr m a b incr with
  | none =>
    rw [hx] at hE
    dsimp only at hE
    refine ⟨fun _ => ?_, fun j h => nomatch h⟩
    rw [hE]; rfl
  | some j =>
    rw [hx] at hE
    dsimp only at hE
    refine ⟨fun h => (nomatch h), fun j' h => ?_⟩
    injection h with h
    subst h
    obtain ⟨nl', nr', tl', tr', e'⟩ := divAbs_nz (m := m) ha hb hres za zb j
    refine ⟨hE.1, ?_⟩
    rw [hE.2, divTo_eq hE.1, e', tl.unique tl', tr.unique tr']

/-- Division by or of zero does not panic. -/
theorem divTo_zero_fate (m : Mode) (ha : WF a) (hb : WF b) (hres : res.lsu.length = 9) (hz : mant a = 0 ∨ mant b = 0) (incr : Nat)
    (p : Panic) : divTo m a b res incr ≠ .panic p := by
  rw [divTo_wrap]
  by_cases zb : mant b = 0
  · rw [divAbs_zero ha hb hres zb]; intro h; cases h
  · rw [divAbs_of_zero ha hb hres zb (hz.resolve_right zb)]; intro h; cases h

/-- **C93** division in a debug build, for every `incr : usize`: the digit count overflows already while it is computed in 64 bits, or
when it is rounded up to whole units in eight. -/
theorem C93_div_full (ha : WF a) (hb : WF b) (hres : res.lsu.length = 9) (incr : Nat) :
    divTo .debug a b res incr = .panic .overflow ↔
      val a ≠ 0 ∧ val b ≠ 0 ∧ (∀ j, effIncr .debug a b incr = some j → QuoOverflows a b j) := by
  by_cases hz : mant a = 0 ∨ mant b = 0
  · refine ⟨fun h => absurd h (divTo_zero_fate _ ha hb hres hz _ _), fun h => ?_⟩
    rw [Ne, Ne, val_eq_zero, val_eq_zero] at h
    tauto
  rw [not_or] at hz
  obtain ⟨h1, h2⟩ := divTo_effective .debug ha hb hres hz.1 hz.2 incr
  have n1 : val a ≠ 0 := by rw [Ne, val_eq_zero]; exact hz.1
  have n2 : val b ≠ 0 := by rw [Ne, val_eq_zero]; exact hz.2
  cases hx : effIncr .debug a b incr with
  | none => exact ⟨fun _ => ⟨n1, n2, fun j h => nomatch h⟩, fun _ => h1 hx⟩
  | some j =>
    have hj := (h2 j hx).1
    rw [(h2 j hx).2, C93_div ha hb hres hj]
    refine and_congr_right fun _ => and_congr_right fun _ => ⟨fun h j' hj' => ?_, fun h => h j rfl⟩
    exact Option.some.inj hj' ▸ h

/-- Code without a `debug_assert!` does not fail one. -/
theorem no_assert {f : Mode → Out σ α} (h : Agrees OverflowCheck (f .debug) (f .release)) (hr : Halts .release (f .release)) (m : Mode) :
    f m ≠ .panic .assert := by
  have h0 : f .release ≠ .panic .assert := fun hp => by cases C71_release hr hp
  cases m with
  | release => exact h0
  | debug =>
    rcases agrees_overflow_iff.mp h with h | h
    · rw [h]; intro h; cases h
    · rw [h]; exact h0

theorem getUnits_no_assert (m : Mode) (x : Int) : (getUnits m x : Out σ Int) ≠ .panic .assert :=
  no_assert (f := fun m => getUnits m x) .getUnits .getUnits m

/-- Digit counts out of range: not an assertion. -/
theorem divAbs_range_kind (m : Mode) (ha : WF a) (hb : WF b) (hres : res.lsu.length = 9) (za : mant a ≠ 0)
    (zb : mant b ≠ 0) {incr : Nat} (hi : incr < 2 ^ 62) (h : ¬ QuoRange a b incr) : divAbs m a b res incr ≠ .panic .assert := by
  obtain ⟨nl, nr, tl, tr, e⟩ := divAbs_nz (m := m) ha hb hres za zb incr
  rw [e]
  have key : ∀ {β : Type} (x : Int) (f : Int → Out FixedDecimal β), (∃ p, getUnits m x = (.panic p : Out FixedDecimal Int)) →
      (getUnits m x >>= f) ≠ .panic .assert := by
    intro β x f ⟨p, hp⟩ h
    have h1 := getUnits_no_assert (σ := FixedDecimal) m x
    rw [hp] at h h1
    exact h1 (by injection h with h; rw [h])
  by_cases h1 : -8 ≤ quoFrac a b incr ∧ quoFrac a b incr ≤ 119
  · rw [divFrac_ok ha hb hi h1.1 h1.2, ok_bind]
    unfold QuoRange at h
    rw [quoIntg_eq ha hb tl tr] at h
    obtain ⟨h3, h4⟩ := divIntg_pos ha hb tl tr
    obtain ⟨h5, h6⟩ := divPos_range ha hb tl tr
    unfold divFit
    dsimp only
    by_cases hc : 119 < divIntg a b nl nr
    · rw [if_pos (by omega)]
      exact key _ _ (getUnits_wrap_oob hc (by omega))
    · rw [if_neg (by omega)]
      exact key _ _ (getUnits_wrap_oob (by omega) (by omega))
  · rw [divFrac_eq ha hb hi]
    obtain ⟨r1, r2⟩ := quoFrac_range a b incr
    generalize quoFrac a b incr = q at *
    have hp : ∃ p, getUnits m q = (.panic p : Out FixedDecimal Int) := by
      by_cases hc : q < -8
      · exact ⟨_, getUnits_neg r1 (by omega)⟩
      · exact getUnits_oob (by omega) (by omega)
    have h3 := getUnits_no_assert (σ := FixedDecimal) m q
    obtain ⟨p, hp⟩ := hp
    rw [hp] at h3 ⊢
    intro h
    exact h3 (by injection h with h; rw [h])

theorem divTrap_none {incr : Nat} (h : effIncr .debug a b incr = none) : divTrap .debug a b incr = .overflow := by
  unfold divTrap; rw [if_pos rfl, h]; rfl
theorem divTrap_some {incr j : Nat} (h : effIncr .debug a b incr = some j) : divTrap .debug a b incr =
    if QuoOverflows a b j then .overflow else if ¬ QuoRange a b j ∨ QuoSpill a b j then .index else .assert := by
  unfold divTrap; rw [if_pos rfl, h]; rfl

/-- **C94** division, for every `incr : usize`. -/
theorem C94_div (m : Mode) (ha : WF a) (hb : WF b) (hres : res.lsu.length = 9) (incr : Nat) :
    fate (divTo m a b res incr) = withTrap (refDivFull m a b incr) (divTrap m a b incr) := by
  refine fate_eq (C74_div m ha hb hres incr) fun q hq => ?_
  have hh := C71_div m ha hb hres incr
  cases m with
  | release => rw [of_release hh hq]; unfold divTrap; rw [if_neg (by decide)]
  | debug =>
    have hz : ¬ (mant a = 0 ∨ mant b = 0) := fun hz => divTo_zero_fate _ ha hb hres hz _ _ hq
    rw [not_or] at hz
    obtain ⟨h1, h2⟩ := divTo_effective .debug ha hb hres hz.1 hz.2 incr
    cases hx : effIncr .debug a b incr with
    | none =>
      rw [divTrap_none hx]
      have := h1 hx
      rw [hq] at this; cases this; rfl
    | some j =>
      rw [divTrap_some hx]
      have hj := (h2 j hx).1
      rw [(h2 j hx).2] at hq hh
      have ho := C93_div (res := res) ha hb hres hj
      by_cases hov : QuoOverflows a b j
      · rw [if_pos hov]
        have := ho.mpr ⟨by rw [Ne, val_eq_zero]; exact hz.1, by rw [Ne, val_eq_zero]; exact hz.2, hov⟩
        rw [hq] at this; cases this; rfl
      rw [if_neg hov]
      have hno : q ≠ .overflow := by rintro rfl; exact hov (ho.mp hq).2.2
      have hA : divAbs .debug a b res j = .panic q := by
        rw [divTo_eq hj] at hq
        cases hx : divAbs .debug a b res j with
        | ok v => rw [hx] at hq; cases hq
        | err e s => rw [hx] at hq; cases hq
        | panic p => rw [hx] at hq; exact hq
      by_cases hr : QuoRange a b j
      · by_cases h82 : 82 ≤ quoIntg a b
        · rw [divAbs_overflow ha hb hres hz.1 hz.2 hj hr h82] at hA; cases hA
        · obtain ⟨m1, m2⟩ := divAbs_main (m := .debug) ha hb hres hz.1 hz.2 hj hr (Int.lt_add_one_iff.mp (not_le.mp h82))
          by_cases hs : QuoSpill a b j
          · rw [if_pos (Or.inr hs)]
            rw [m1 hs] at hA; cases hA; rfl
          · rw [if_neg (not_or.mpr ⟨fun h => h hr, hs⟩)]
            rcases m2 hs with ⟨-, -, h3⟩ | ⟨-, l, -, h3, -⟩
            · rw [h3] at hA; cases hA; rfl
            · rw [h3] at hA; cases hA
      · rw [if_pos (Or.inl hr)]
        have hna := divAbs_range_kind .debug ha hb hres hz.1 hz.2 hj hr
        rcases hh q hq with rfl | ⟨-, rfl | rfl⟩
        · rfl
        · exact absurd rfl hno
        · exact absurd hA hna

/-! ## Remainder -/

/-- **C94** remainder. -/
theorem C94_rem (m : Mode) (ha : WF a) (hb : WF b) (hres : res.lsu.length = 9) :
    fate (remTo m a b res) = withTrap (refRem m a b) (remTrap m a b) := by
  refine fate_eq (C72_rem m ha hb hres) fun q hq => ?_
  have hh := C71_rem m ha hb hres
  cases m with
  | release => exact of_release hh hq
  | debug =>
    have hA : remAbs .debug a b res = .panic q := by
      rw [remTo_eq] at hq
      cases hx : remAbs .debug a b res with
      | ok v => rw [hx] at hq; cases hq
      | err e s => rw [hx] at hq; cases hq
      | panic p => rw [hx] at hq; injection hq with hq; rw [hq]
    unfold remTrap
    dsimp only
    by_cases zb : mant b = 0
    · rw [remAbs_zero ha hb hres zb] at hA; cases hA
    by_cases za : mant a = 0
    · rw [remAbs_of_zero ha hb hres zb za] at hA; cases hA
    rcases lt_trichotomy (absVal a) (absVal b) with h | h | h
    · rw [remAbs_lt ha hb hres za zb h] at hA
      have : ¬ remB a b < remA a b := by have := remA_lt_remB.mpr h; omega
      rw [if_neg (by tauto)]
      split_ifs at hA
      cases hA; rfl
    · rw [remAbs_eqv ha hb hres za zb h] at hA; cases hA
    · have hgt : remB a b < remA a b := by
        rcases lt_trichotomy (remA a b) (remB a b) with h' | h' | h'
        · exact absurd (remA_lt_remB.mp h') (by linarith [h])
        · exact absurd (remA_eq_remB.mp h') (ne_of_gt h)
        · exact h'
      obtain ⟨h1, h2⟩ := remAbs_gt (m := .debug) ha hb hres za zb h
      by_cases hf : RemFull a b ∧ LeadGe a b
      · rw [if_neg (by tauto)]
        rw [h1 hf] at hA; cases hA; rfl
      · rcases h2 hf with ⟨-, -, p, e, hp, -⟩ | ⟨-, r, e, -⟩
        · rw [e] at hA
          cases hA
          rcases hp with ⟨rfl, hp⟩ | ⟨rfl, hp⟩
          · rw [if_pos ⟨hgt, hf, hp⟩]
          · rw [if_neg (by tauto)]
        · rw [e] at hA; cases hA

/-! ## Rounding -/

/-- The assertion of the rounding functions, that dropping digits inside the last fractional unit keeps the number of units, holds. -/
theorem round_units (hd : WF d) {k : Int} (h0 : 0 ≤ k) (h1 : k < d.frac) :
    (i8 m (wrap 8 k + 1) : Out σ Int) = .ok (k + 1) ∧
    ∃ u : Int, (getUnits m (k + 1) : Out σ Int) = .ok u ∧ (u < fu d ∨ u = fu d) := by
  have := hd.frac_le
  have fe := hd.frac_eq
  refine ⟨by rw [wrap8_ok (by omega) (by omega), i8_ok (by omega) (by omega)], ?_⟩
  refine ⟨_, getUnits_eq (by omega) (by omega), ?_⟩
  have : unitsFor (k + 1).toNat ≤ fu d := by unfold fu unitsFor; omega
  omega

theorem dassert_true (m : Mode) {c : Bool} (h : c = true) : (dassert m c : Out σ Unit) = .ok () := by
  subst h; cases m <;> rfl

/-- On a well-formed decimal no assertion of `round` or `round_to` fails: the builds differ by overflow checks only. -/
theorem round_agrees (hd : WF d) (k : Int) :
    Agrees OverflowCheck (FixedDecimal.round .debug d k : Out σ _) (FixedDecimal.round .release d k) := by
  unfold FixedDecimal.round
  rw [hd.intgUnits, hd.fracUnits, hd.intgUnits, hd.fracUnits]
  simp only [ok_bind]
  by_cases h1 : k ≥ d.frac
  · rw [if_pos h1, if_pos h1]; modes
  rw [if_neg h1, if_neg h1]
  by_cases h0 : k < 0
  · rw [if_pos h0, if_pos h0]; modes
  rw [if_neg h0, if_neg h0]
  obtain ⟨e1, u, e2, e3⟩ := round_units (σ := σ) (m := .debug) hd (show 0 ≤ k by omega) (by omega)
  obtain ⟨e1', u', e2', e3'⟩ := round_units (σ := σ) (m := .release) hd (show 0 ≤ k by omega) (by omega)
  have hu : u = u' := by
    rw [getUnits_eq (by omega) (by have := hd.frac_le; have := hd.frac_eq; omega)] at e2 e2'
    injection e2 with e2; injection e2' with e2'
    rw [← e2, ← e2']
  subst hu
  rw [e1, e1', ok_bind, ok_bind, e2, e2', ok_bind, ok_bind]
  by_cases hc : u < fu d
  · rw [if_pos hc, if_pos hc]; modes
  · rw [if_neg hc, if_neg hc, dassert_true .debug (by simp; omega), dassert_true .release (by simp; omega)]
    simp only [ok_bind]
    modes

theorem roundTo_agrees (hd : WF d) (k : Int) :
    Agrees OverflowCheck (FixedDecimal.roundTo .debug d res k : Out σ _) (FixedDecimal.roundTo .release d res k) := by
  unfold FixedDecimal.roundTo
  rw [hd.intgUnits, hd.fracUnits, hd.intgUnits, hd.fracUnits]
  simp only [ok_bind]
  by_cases h1 : k ≥ d.frac
  · rw [if_pos h1, if_pos h1]; modes
  rw [if_neg h1, if_neg h1]
  by_cases h0 : k < 0
  · rw [if_pos h0, if_pos h0]; modes
  rw [if_neg h0, if_neg h0]
  obtain ⟨e1, u, e2, e3⟩ := round_units (σ := σ) (m := .debug) hd (show 0 ≤ k by omega) (by omega)
  obtain ⟨e1', u', e2', e3'⟩ := round_units (σ := σ) (m := .release) hd (show 0 ≤ k by omega) (by omega)
  have hu : u = u' := by
    rw [getUnits_eq (by omega) (by have := hd.frac_le; have := hd.frac_eq; omega)] at e2 e2'
    injection e2 with e2; injection e2' with e2'
    rw [← e2, ← e2']
  subst hu
  rw [e1, e1', ok_bind, ok_bind, e2, e2', ok_bind, ok_bind]
  by_cases hc : u < fu d
  · rw [if_pos hc, if_pos hc]; modes
  · rw [if_neg hc, if_neg hc, dassert_true .debug (by simp; omega), dassert_true .release (by simp; omega)]
    simp only [ok_bind]
    modes

/-- **C94** rounding in place, for every precision that is an `isize`. -/
theorem C94_round (m : Mode) (hd : WF d) {k : Int} (hk : -2 ^ 63 ≤ k) :
    fate (FixedDecimal.round m d k : Out σ _) = withTrap ((refRoundFull m d k).map .ok) (roundTrap m d k) := by
  refine fate_eq (C74_round m hd hk) fun q hq => ?_
  have hr : Halts .release (FixedDecimal.round .release d k : Out σ _) := .round
  unfold roundTrap
  cases m with
  | release => rw [of_release hr hq, if_neg (by rintro ⟨h, -⟩; cases h)]
  | debug =>
    rcases agrees_overflow_iff.mp (round_agrees (σ := σ) hd k) with h | h
    · have := (C93_round hd k).mp h
      rw [if_pos ⟨rfl, this⟩]
      rw [h] at hq; cases hq; rfl
    · have hi := of_release hr (h.symm.trans hq)
      subst hi
      rw [if_neg]
      rintro ⟨-, ho⟩
      rw [(C93_round hd k).mpr ho] at hq; cases hq

/-- **C94** rounding into another decimal. -/
theorem C94_round_to (m : Mode) (hd : WF d) (hres : res.lsu.length = 9) {k : Int} (hk : -2 ^ 63 ≤ k) :
    fate (FixedDecimal.roundTo m d res k : Out σ _) = withTrap ((refRoundToFull m d k).map .ok) (roundTrap m d k) := by
  refine fate_eq (C74_round_to m hd hres hk) fun q hq => ?_
  have hr : Halts .release (FixedDecimal.roundTo .release d res k : Out σ _) := .roundTo
  unfold roundTrap
  cases m with
  | release => rw [of_release hr hq, if_neg (by rintro ⟨h, -⟩; cases h)]
  | debug =>
    rcases agrees_overflow_iff.mp (roundTo_agrees (σ := σ) hd k) with h | h
    · have := (C93_round_to (res := res) hd k).mp h
      rw [if_pos ⟨rfl, this⟩]
      rw [h] at hq; cases hq; rfl
    · have hi := of_release hr (h.symm.trans hq)
      subst hi
      rw [if_neg]
      rintro ⟨-, ho⟩
      rw [(C93_round_to hd k).mpr ho] at hq; cases hq

/-! ## Parsing -/

/-- **C94** parsing: in a debug build every panic is an overflow check, in a release build a bounds check. -/
theorem C94_parse (self : FixedDecimal) (bs : List Nat) (reset : Bool) (hself : self.lsu.length = 9) :
    fate (fromBytesStr m self bs reset) = withTrap (refParse m (if reset then FixedDecimal.zero else self) bs) (parseTrap m) := by
  refine fate_eq (C73_parse self bs reset hself) fun q hq => ?_
  cases m with
  | release => exact of_release (C71_parse .release self bs reset).1 hq
  | debug =>
    show q = .overflow
    rcases agrees_overflow_iff.mp (Agrees.fromBytesStr (d := self) (bs := bs) (r := reset)) with h | h
    · rw [h] at hq; cases hq; rfl
    · -- only more than 127 digits make a release build panic, and then the debug build stops at the counter
      exfalso
      have h73 := C73_parse (m := .release) self bs reset hself
      rw [← h, hq] at h73
      obtain ⟨sg, ip, fp, rest, rfl, hip, hfp, hs⟩ := mantissa_split bs
      unfold refParse at h73
      rw [shapeOf_split hip hfp hs] at h73
      dsimp only at h73
      by_cases h127 : ip.length + (fp.getD []).length ≤ 127
      · rw [if_neg (by rintro ⟨h, -⟩; cases h)] at h73
        by_cases hne : ip ++ fp.getD [] = []
        · rw [if_pos hne] at h73; cases h73
        rw [if_neg hne] at h73
        cases hx : refExp .release rest with
        | none =>
          unfold refExp at hx
          cases rest with
          | nil => cases hx
          | cons c cs =>
            dsimp only at hx
            split_ifs at hx with g1 g2 g3 <;> first | (cases hx; done) | (obtain ⟨g, -⟩ := g2; cases g)
        | some r =>
          rw [hx] at h73
          cases r with
          | error e => cases h73
          | ok e =>
            dsimp only at h73
            unfold refNumber at h73
            dsimp only at h73
            rw [if_pos h127, if_neg (by rintro ⟨h, -⟩; cases h)] at h73
            change none = _ at h73
            split_ifs at h73
      · have h0 : fromBytesStr .debug self (sg.render ++ digitChars ip ++ dotPart fp ++ rest) reset = .panic .overflow := by
          unfold FixedDecimal.fromBytesStr
          dsimp only
          rw [if_neg, scan_over hip hfp (by omega)]
          · rfl
          · intro h0
            simp only [List.append_eq_nil_iff] at h0
            have e1 : ip = [] := List.map_eq_nil_iff.mp h0.1.1.2
            have e2 : fp = none := by
              cases fp with
              | none => rfl
              | some _ => simp [dotPart] at h0
            simp [e1, e2] at h127
        rw [h0] at h
        have := C71_release (C71_parse .release _ _ _).1 h.symm
        cases this

/-- **C94** the same for `str::parse`. -/
theorem C94_from_str (bs : List Nat) : fate (fromStr m bs) = withTrap (refParse m FixedDecimal.zero bs) (parseTrap m) := by
  refine fate_eq (C73_from_str bs) fun q hq => ?_
  cases m with
  | release => exact of_release (C71_parse .release .zero bs true).2 hq
  | debug =>
    have h := C94_parse (m := .debug) FixedDecimal.zero bs false rfl
    rw [if_neg (by simp)] at h
    have hx : fromBytesStr .debug .zero bs false = .panic q := by
      unfold FixedDecimal.fromStr at hq
      cases hy : fromBytesStr .debug .zero bs false with
      | ok v => rw [hy] at hq; cases hq
      | err e s => rw [hy] at hq; cases hq
      | panic p => rw [hy] at hq; cases hq; rfl
    rw [hx] at h
    cases hr : refParse .debug FixedDecimal.zero bs with
    | none => rw [hr] at h; cases h; rfl
    | some r => rw [hr] at h; cases h

/-! ## The operators -/

theorem fate_orPanic (f : Out FixedDecimal FixedDecimal) : fate (FixedDecimal.orPanic f) = raised (fate f) := by
  cases f <;> rfl

/-- **C94** the operators: the reference outcome, where an error is a panic carrying it. -/
theorem C94_operators (m : Mode) (ha : WF a) (hb : WF b) :
    fate (FixedDecimal.add m a b) = raised (withTrap ((refAdd a b).map .ok) .index) ∧
    fate (FixedDecimal.sub m a b) = raised (withTrap ((refSub a b).map .ok) .index) ∧
    fate (FixedDecimal.mul m a b) = raised (withTrap (refMul m a b) (mulTrap m a b)) ∧
    fate (FixedDecimal.div m a b) = raised (withTrap (refDivFull m a b 4) (divTrap m a b 4)) ∧
    fate (FixedDecimal.rem m a b) = raised (withTrap (refRem m a b) (remTrap m a b)) := by
  refine ⟨?_, ?_, ?_, ?_, ?_⟩
  · rw [← C94_add m ha hb blank_len]; exact fate_orPanic _
  · rw [← C94_sub m ha hb blank_len]; exact fate_orPanic _
  · rw [← C94_mul m ha hb blank_len]; exact fate_orPanic _
  · rw [← C94_div m ha hb blank_len 4]; exact fate_orPanic _
  · rw [← C94_rem m ha hb blank_len]; exact fate_orPanic _

/-- Non-vacuity: every kind of panic does occur, and the specification says which. -/
example (m : Mode) :
    WF big72 ∧ fate (addTo m big72 FixedDecimal.one .zero) = .error .index ∧ refAdd big72 FixedDecimal.one = none := by
  cases m <;> decide +kernel

example :
    mulTrap .debug big60 big60 = .overflow ∧ fate (mulTo .debug big60 big60 .zero) = .error .overflow ∧
    fate (mulTo .release big60 big60 .zero) = .error .index ∧
    (let h : FixedDecimal := ⟨0#8, 1, [500000000, 0, 0, 0, 0, 0, 0, 0, 0]⟩
     let s : FixedDecimal := ⟨1#8, 1, [500000000, 1, 0, 0, 0, 0, 0, 0, 0]⟩
     WF h ∧ WF s ∧ mulTrap .debug h s = .assert ∧ fate (mulTo .debug h s .zero) = .error .assert ∧
       fate (mulTo .release h s .zero) = .ok (.ok ⟨9#8, 2, [750000000, 0, 0, 0, 0, 0, 0, 0, 0]⟩)) := by decide +kernel

example :
    let t : FixedDecimal := ⟨1#8, 0, [3, 0, 0, 0, 0, 0, 0, 0, 0]⟩
    let x : FixedDecimal := ⟨10#8, 0, [0, 1, 0, 0, 0, 0, 0, 0, 0]⟩
    let y : FixedDecimal := ⟨10#8, 0, [1, 1, 0, 0, 0, 0, 0, 0, 0]⟩
    WF t ∧ WF x ∧ WF y ∧
    divTrap .debug big60 small60 0 = .overflow ∧ fate (divTo .debug big60 small60 .zero 0) = .error .overflow ∧
    divTrap .debug FixedDecimal.one t 200 = .index ∧ fate (divTo .debug FixedDecimal.one t .zero 200) = .error .index ∧
    divTrap .debug x y 4 = .assert ∧ fate (divTo .debug x y .zero 4) = .error .assert ∧
    fate (FixedDecimal.div .debug x FixedDecimal.zero) = .error (.operator .divisionByZero) := by decide +kernel

example :
    let a : FixedDecimal := ⟨81#8, 0, [0, 0, 0, 0, 0, 0, 0, 0, 100000000]⟩
    let b : FixedDecimal := ⟨0#8, 81, [1, 0, 0, 0, 0, 0, 0, 200000000, 0]⟩
    let c : FixedDecimal := ⟨27#8, 0, [0, 0, 500000000, 0, 0, 0, 0, 0, 0]⟩
    let d : FixedDecimal := ⟨18#8, 0, [1, 500000000, 0, 0, 0, 0, 0, 0, 0]⟩
    WF a ∧ WF b ∧ WF c ∧ WF d ∧
    remTrap .debug a b = .index ∧ fate (remTo .debug a b .zero) = .error .index ∧
    remTrap .debug c d = .assert ∧ fate (remTo .debug c d .zero) = .error .assert := by decide +kernel

example :
    roundTrap .debug Samples.a 256 = .overflow ∧ fate (FixedDecimal.round .debug Samples.a 256 : Out Unit _) = .error .overflow ∧
    roundTrap .debug Samples.a 100 = .index ∧ fate (FixedDecimal.round .debug Samples.a 100 : Out Unit _) = .error .index ∧
    fate (FixedDecimal.round .release Samples.a 256 : Out Unit _) = .error .index := by decide +kernel

end Fxd.Props
