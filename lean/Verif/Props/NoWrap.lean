import Verif.Proofs.NoTrapRem
import Verif.Props.Halts
import Verif.Props.Div
import Verif.Props.Samples
import Verif.Spec.Traps
/-!
# C93: which operations overflow an intermediate integer

A debug build checks every `+`, `-`, `*` and unary `-`, and panics when the result does not fit its type; a release build wraps
round silently.  So "`.debug` does not end in an overflow trap" says that no intermediate integer of that call wraps in a release
build either.
-/

namespace Fxd.Props
open Spec
open FixedDecimal hiding intgDigits

variable {m : Mode} {a b d res : FixedDecimal}

theorem addTo_calm {B : Panic} [NotIndex B] (ha : WF a) (hb : WF b) : NoTrap B (fun _ => True) (addTo m a b res) := by
  unfold addTo
  refine .ite (fun _ => trivial) fun _ => .ite (fun _ => trivial) fun _ => .ite (fun _ => ?_) fun _ => ?_
  · exact .bind (.addAbs ha hb _) fun _ _ => .pure trivial
  · exact .bind (.subAbs ha hb _) fun _ _ => .pure trivial

theorem subTo_calm {B : Panic} [NotIndex B] (ha : WF a) (hb : WF b) : NoTrap B (fun _ => True) (subTo m a b res) := by
  unfold subTo
  refine .ite (fun _ => .ite (fun _ => trivial) fun _ => trivial) fun _ => .ite (fun _ => trivial) fun _ =>
    .ite (fun _ => ?_) fun _ => ?_
  · exact .bind (.addAbs ha hb _) fun _ _ => .pure trivial
  · exact .bind (.subAbs ha hb _) fun _ _ => .pure trivial

/-- **C93** addition and subtraction of any two well-formed decimals: no intermediate integer overflows. -/
theorem C93_add (ha : WF a) (hb : WF b) : addTo m a b res ≠ .panic .overflow := (addTo_calm ha hb).ne
theorem C93_sub (ha : WF a) (hb : WF b) : subTo m a b res ≠ .panic .overflow := (subTo_calm ha hb).ne

theorem index_of_panic {σ α : Type} {x : Out σ α} {p : Panic} (hx : x = .panic p) (hh : Halts m x) (h1 : x ≠ .panic .overflow)
    (h2 : x ≠ .panic .assert) : x = .panic .index := by
  rcases hh p hx with rfl | ⟨-, rfl | rfl⟩
  · exact hx
  · exact absurd hx h1
  · exact absurd hx h2

/-- **C22** When the sum does not fit the call ends in an index panic, in both build modes. -/
theorem C22_add_fail (ha : WF a) (hb : WF b) (hres : res.lsu.length = 9) (h : ¬ SumFits a b (val a + val b)) :
    addTo m a b res = .panic .index := by
  obtain ⟨p, hp⟩ := addTo_fail m ha hb hres h
  exact index_of_panic hp (C71_rest m a b res 0 []).1 (C93_add ha hb) (addTo_calm ha hb).ne
theorem C22_sub_fail (ha : WF a) (hb : WF b) (hres : res.lsu.length = 9) (h : ¬ SumFits a b (val a - val b)) :
    subTo m a b res = .panic .index := by
  obtain ⟨p, hp⟩ := subTo_fail m ha hb hres h
  exact index_of_panic hp (C71_rest m a b res 0 []).2.1 (C93_sub ha hb) (subTo_calm ha hb).ne

theorem bind_overflow {σ α β : Type} {x : Out σ α} {f : α → Out σ β} (hf : ∀ v, f v ≠ .panic .overflow)
    (h : x ≠ .panic .overflow) : (x >>= f) ≠ .panic .overflow := by
  cases x with
  | ok v => exact hf v
  | err e s => intro h; cases h
  | panic p => exact fun hp => h (by injection hp with hp; rw [hp])

theorem bind_overflow' {σ α β : Type} {x : Out σ α} {f : α → Out σ β} (hf : ∀ v, x = .ok v → f v ≠ .panic .overflow)
    (h : x ≠ .panic .overflow) : (x >>= f) ≠ .panic .overflow := by
  cases x with
  | ok v => exact hf v rfl
  | err e s => intro h; cases h
  | panic p => exact fun hp => h (by injection hp with hp; rw [hp])

/-- **C93** multiplication in a debug build: exactly when the integral or the fractional digit counts of non-zero operands add up
to 120 or more. -/
theorem C93_mul (ha : WF a) (hb : WF b) :
    mulTo .debug a b res = .panic .overflow ↔
      val a ≠ 0 ∧ val b ≠ 0 ∧ (120 ≤ intgDigits a + intgDigits b ∨ 120 ≤ fracDigits a + fracDigits b) := by
  by_cases z : val a = 0 ∨ val b = 0
  · unfold mulTo
    rw [if_pos (by rw [Bool.or_eq_true, isZero_val ha, isZero_val hb]; exact z)]
    constructor
    · intro h; cases h
    · rintro ⟨h1, h2, -⟩
      exact absurd z (by tauto)
  · push Not at z
    rw [mulTo_nz _ ha hb z.1 z.2]
    constructor
    · intro h
      refine ⟨z.1, z.2, ?_⟩
      by_contra hc
      push Not at hc
      exact bind_overflow (fun v h => by cases h) (NoTrap.mulAbs ha hb res hc.1 hc.2).ne h
    · rintro ⟨-, -, h⟩
      have fa := ha.frac_eq
      have fb := hb.frac_eq
      have l1 := intgDigits_lt a
      have l2 := intgDigits_lt b
      suffices h : mulAbs .debug a b res = .panic .overflow by rw [h]; rfl
      have trap : ∀ {β : Type} {x : Int} {f : Int → Int → Out FixedDecimal β}, 120 ≤ x → x < 300 →
          (i8 .debug x >>= fun v => getUnits .debug v >>= f v) = .panic .overflow := by
        intro β x f h0 h1
        by_cases hx : x < 128
        · rw [i8_ok (by omega) hx, ok_bind, NoTrap.getUnits_trap h0 hx]; rfl
        · unfold i8 sarith
          rw [if_neg (by norm_num; omega)]
          rfl
      unfold mulAbs
      dsimp only
      rw [intgDigits_eq, intgDigits_eq]
      by_cases hi : 120 ≤ intgDigits a + intgDigits b
      · exact trap (f := fun _ => _) (by exact_mod_cast hi) (by omega)
      · have hi' : (intgDigits a : Int) + intgDigits b < 120 := by omega
        have hi0 : 0 ≤ (intgDigits a : Int) + intgDigits b := by positivity
        have e : (intgDigits a : Int) + intgDigits b = ((intgDigits a + intgDigits b : Nat) : Int) := by push_cast; rfl
        rw [i8_ok (by omega) (by omega), ok_bind, e, getUnits_nat (by omega), ok_bind]
        have := ha.frac_le
        have := hb.frac_le
        have f120 : 120 ≤ a.frac + b.frac ∧ a.frac + b.frac < 300 := by omega
        generalize a.frac + b.frac = s at f120 ⊢
        exact trap (f := fun _ => _) f120.1 f120.2

/-- **C93** division in a debug build: exactly when the fractional digits wanted, or the integral digits planned, fall into the
eight-bit counts that cannot be rounded up to whole units. -/
theorem C93_div (ha : WF a) (hb : WF b) (hres : res.lsu.length = 9) {incr : Nat} (hi : incr < 2 ^ 62) :
    divTo .debug a b res incr = .panic .overflow ↔
      val a ≠ 0 ∧ val b ≠ 0 ∧ QuoOverflows a b incr := by
  unfold QuoOverflows
  by_cases zb : val b = 0
  · obtain ⟨s, hs⟩ : ∃ e s, divTo .debug a b res incr = .err e s := by
      rw [divTo_eq hi, divAbs_zero ha hb hres (val_eq_zero.mp zb)]; exact ⟨_, _, rfl⟩
    obtain ⟨s', hs⟩ := hs
    rw [hs]
    exact ⟨fun h => (by cases h), fun h => absurd zb h.2.1⟩
  by_cases za : val a = 0
  · obtain ⟨s, hs⟩ : ∃ s, divTo .debug a b res incr = .ok s := by
      rw [divTo_eq hi, divAbs_of_zero ha hb hres (fun h => zb (val_eq_zero.mpr h)) (val_eq_zero.mp za)]; exact ⟨_, rfl⟩
    rw [hs]
    exact ⟨fun h => (by cases h), fun h => absurd za h.1⟩
  obtain ⟨nl, nr, tl, tr, e⟩ := divAbs_nz (m := .debug) ha hb hres (fun h => za (val_eq_zero.mpr h))
    (fun h => zb (val_eq_zero.mpr h)) incr
  rw [divTo_eq hi, e]
  have hq := quoFrac_range a b incr
  have hI := divIntg_pos ha hb tl tr
  unfold divPos at hI
  have t1 := tl.lt
  have t2 := tr.lt
  rw [ha.len] at t1
  rw [hb.len] at t2
  have h3 := ha.fits
  have h4 := hb.fits
  have h5 := divSh_cases a b nl nr
  have eI := quoIntg_eq ha hb tl tr
  constructor
  · intro h
    refine ⟨za, zb, ?_⟩
    by_contra hc
    push Not at hc
    refine bind_overflow (fun v h => by cases h) (bind_overflow' ?_ ?_) h
    · intro v hv
      have h8 : -8 ≤ quoFrac a b incr := by
        by_contra hn
        rw [divFrac_eq ha hb hi, getUnits_neg hq.1 (by omega)] at hv
        cases hv
      exact (NoTrap.divFit ha hb tl tr v (by have := hc.2 h8; omega) (by have := hc.2 h8; omega)).ne
    · rw [divFrac_eq ha hb hi]
      have hlt : quoFrac a b incr < 120 := by omega
      generalize quoFrac a b incr = q at hq hlt ⊢
      exact bind_overflow (fun v h => by cases h) (NoTrap.getUnits hq.1 hlt).ne
  · rintro ⟨-, -, h⟩
    by_cases h120 : 120 ≤ quoFrac a b incr
    · rw [divFrac_eq ha hb hi, NoTrap.getUnits_trap h120 hq.2]; rfl
    · obtain ⟨h8, h⟩ := h.resolve_left h120
      rw [divFrac_ok ha hb hi h8 (by omega), ok_bind]
      suffices h : ∀ rf, divFit .debug a b nl nr rf = .panic .overflow by rw [h]; rfl
      intro rf
      unfold divFit
      dsimp only
      rw [← eI]
      rcases h with h | h
      · rw [if_pos (by omega), wrap8_ok (by omega) (by omega), NoTrap.getUnits_trap h.1 (by omega)]; rfl
      · rw [if_neg (by omega), wrap8_ok (by omega) (by omega), NoTrap.getUnits_trap (by omega) (by omega)]; rfl

/-- **C93** the remainder of any two well-formed decimals: no intermediate integer overflows. -/
theorem C93_rem (ha : WF a) (hb : WF b) (hres : res.lsu.length = 9) : remTo m a b res ≠ .panic .overflow := by
  unfold remTo
  exact bind_overflow (fun v h => by cases h) (NoTrap.remAbs ha hb hres).ne

/-! ## Rounding -/

theorem neg_trap {σ β : Type} {k : Int} (h : k ≤ -(2 ^ 63 - 1)) {f : Int → Int → Out σ β} :
    (do let i ← isz .debug (-k); let j ← isz .debug (i + 1); f i j : Out σ β) = .panic .overflow := by
  by_cases hk : k = -(2 ^ 63 - 1)
  · rw [hk]; rfl
  · unfold isz sarith
    rw [if_neg (by norm_num at *; omega)]
    rfl

theorem usz_trap {σ : Type} {x : Int} (h : x < 0) : (usz .debug x : Out σ Int) = .panic .overflow := by
  unfold usz
  rw [if_neg (by omega)]

theorem getUnits_eq {σ : Type} {x : Int} (h : -8 ≤ x) (h1 : x < 120) : (getUnits m x : Out σ Int) = .ok (unitsFor x.toNat : Int) := by
  by_cases hx : 0 ≤ x
  · obtain ⟨n, rfl⟩ := Int.eq_ofNat_of_zero_le hx
    exact getUnits_nat (by omega)
  · rw [getUnits_small_neg h (by omega), show x.toNat = 0 by omega]; rfl

theorem narrow_range (k : Int) : -128 ≤ narrow k ∧ narrow k < 128 := by
  have h1 := Int.le_bmod (x := k) (m := 256) (by norm_num)
  have h2 := Int.bmod_lt (x := k) (m := 256) (by norm_num)
  unfold narrow
  omega

theorem narrow_small (hd : WF d) {k : Int} (h : d.frac ≤ k) (h1 : k < 120) :
    ¬ (120 ≤ narrow k ∨ -8 ≤ narrow k ∧ unitsFor (narrow k).toNat < fu d) := by
  have fe := hd.frac_eq
  have e : narrow k = k := Int.bmod_eq_of_le (by omega) (by omega)
  rw [e]
  unfold fu unitsFor
  omega

/-- **C93** rounding in a debug build, for every precision. -/
theorem C93_round {σ : Type} (hd : WF d) (k : Int) :
    (round .debug d k : Out σ _) = .panic .overflow ↔ RoundOverflows d k := by
  unfold RoundOverflows
  have fe := hd.frac_eq
  have f1 := fracDigits_le_fu d
  have hfits := hd.fits
  have fl := hd.frac_le
  by_cases h0 : k ≤ -(2 ^ 63 - 1)
  · refine ⟨fun _ => Or.inl h0, fun _ => ?_⟩
    unfold FixedDecimal.round
    rw [hd.intgUnits, ok_bind, hd.fracUnits, ok_bind, if_neg (by omega), if_pos (by omega)]
    exact neg_trap h0 (f := fun intg intg1 => _)
  by_cases h1 : k < 120
  · refine ⟨fun h => absurd h (NoTrap.round hd (by omega) h1).ne, ?_⟩
    rintro (h | ⟨h, h2⟩)
    · exact absurd h h0
    · exact absurd h2 (narrow_small hd h h1)
  · have hk : d.frac ≤ k := by omega
    have : (¬ k ≤ -(2 ^ 63 - 1)) := h0
    unfold FixedDecimal.round
    rw [hd.intgUnits, ok_bind, hd.fracUnits, ok_bind, if_pos hk]
    rw [show wrap 8 k = narrow k from rfl]
    constructor
    · intro h
      refine Or.inr ⟨hk, ?_⟩
      by_contra hc
      push Not at hc
      have hn := narrow_range k
      refine bind_overflow' ?_ ?_ h
      · intro u hu
        have h8 : -8 ≤ narrow k := by
          by_contra hn'
          rw [getUnits_neg hn.1 (by omega)] at hu
          cases hu
        have hu' : u = (unitsFor (narrow k).toNat : Int) := by
          rw [getUnits_eq h8 hc.1] at hu
          injection hu with hu
          exact hu.symm
        have := hc.2 h8
        have hle : unitsFor (narrow k).toNat ≤ 15 := by unfold unitsFor; omega
        refine (NoTrap.ite (B := .overflow) (P := fun _ => True) (fun _ => .pure trivial) fun _ => ?_).ne
        exact .bind (.usz (by omega) (by omega)) fun _ _ => .bind (.copyWithin hd.units) fun _ _ => .pure trivial
      · exact (NoTrap.getUnits hn.1 hc.1).ne
    · rintro (h | ⟨-, h | ⟨h8, h⟩⟩)
      · exact absurd h h0
      · rw [NoTrap.getUnits_trap h (narrow_range k).2]; rfl
      · by_cases h120 : 120 ≤ narrow k
        · rw [NoTrap.getUnits_trap h120 (narrow_range k).2]; rfl
        · rw [getUnits_eq h8 (by omega), ok_bind, if_neg (by omega), usz_trap (by omega)]; rfl

/-- **C93** the same for rounding into another decimal. -/
theorem C93_round_to {σ : Type} (hd : WF d) (k : Int) :
    (roundTo .debug d res k : Out σ _) = .panic .overflow ↔ RoundOverflows d k := by
  unfold RoundOverflows
  have fe := hd.frac_eq
  have f1 := fracDigits_le_fu d
  have hfits := hd.fits
  have fl := hd.frac_le
  by_cases h0 : k ≤ -(2 ^ 63 - 1)
  · refine ⟨fun _ => Or.inl h0, fun _ => ?_⟩
    unfold FixedDecimal.roundTo
    rw [hd.intgUnits, ok_bind, hd.fracUnits, ok_bind, if_neg (by omega), if_pos (by omega)]
    exact neg_trap h0 (f := fun intg intg1 => _)
  by_cases h1 : k < 120
  · refine ⟨fun h => absurd h (NoTrap.roundTo hd (by omega) h1).ne, ?_⟩
    rintro (h | ⟨h, h2⟩)
    · exact absurd h h0
    · exact absurd h2 (narrow_small hd h h1)
  · have hk : d.frac ≤ k := by omega
    have : (¬ k ≤ -(2 ^ 63 - 1)) := h0
    unfold FixedDecimal.roundTo
    rw [hd.intgUnits, ok_bind, hd.fracUnits, ok_bind, if_pos hk]
    rw [show wrap 8 k = narrow k from rfl]
    constructor
    · intro h
      refine Or.inr ⟨hk, ?_⟩
      by_contra hc
      push Not at hc
      have hn := narrow_range k
      refine bind_overflow' ?_ ?_ h
      · intro u hu
        have h8 : -8 ≤ narrow k := by
          by_contra hn'
          rw [getUnits_neg hn.1 (by omega)] at hu
          cases hu
        have hu' : u = (unitsFor (narrow k).toNat : Int) := by
          rw [getUnits_eq h8 hc.1] at hu
          injection hu with hu
          exact hu.symm
        have := hc.2 h8
        have hle : unitsFor (narrow k).toNat ≤ 15 := by unfold unitsFor; omega
        refine (NoTrap.ite (B := .overflow) (P := fun _ => True) (fun _ => .pure trivial) fun _ => ?_).ne
        exact .bind (.usz (by omega) (by omega)) fun _ _ => .bind (.slice hd.units) fun _ _ => .bind .copyAny fun _ _ => .pure trivial
      · exact (NoTrap.getUnits hn.1 hc.1).ne
    · rintro (h | ⟨-, h | ⟨h8, h⟩⟩)
      · exact absurd h h0
      · rw [NoTrap.getUnits_trap h (narrow_range k).2]; rfl
      · by_cases h120 : 120 ≤ narrow k
        · rw [NoTrap.getUnits_trap h120 (narrow_range k).2]; rfl
        · rw [getUnits_eq h8 (by omega), ok_bind, if_neg (by omega), usz_trap (by omega)]; rfl

/-- Ten to the 59th times itself has 120 integral digits; 10^-60 (as printed by the parser) times itself has 120 fractional ones;
rounding to 256 digits first forgets that it was asked for more than 0. -/
def big60 : FixedDecimal := ⟨60#8, 0, [0, 0, 0, 0, 0, 0, 100000, 0, 0]⟩
def small60 : FixedDecimal := ⟨0#8, 60, [1000, 0, 0, 0, 0, 0, 0, 0, 0]⟩

example : WF big60 ∧ WF small60 ∧ mulTo .debug big60 big60 zero = .panic .overflow ∧
    mulTo .debug small60 small60 zero = .panic .overflow ∧
    (FixedDecimal.round .debug Samples.a 256 : Out Unit _) = .panic .overflow ∧
    divTo .debug big60 small60 zero 0 = .panic .overflow ∧
    mulTo .debug Samples.a Samples.b zero ≠ .panic .overflow := by
  refine ⟨by decide, by decide, ?_, ?_, ?_, ?_, ?_⟩ <;> decide +kernel

end Fxd.Props
