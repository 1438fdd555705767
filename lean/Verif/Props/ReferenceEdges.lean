import Verif.Spec.ReferenceEdges
import Verif.Props.ReferenceDiv
import Verif.Props.ReferenceRound
/-!
# Property C74: division and rounding at the ends of the argument types

C72 with no restriction on the arguments: every `incr_frac : usize` and every precision `isize`.
-/

namespace Fxd
open Spec

theorem isz_cases {σ : Type} (m : Mode) (x : Int) :
    (isz m x : Out σ Int) = if m = .debug ∧ ¬ (-2 ^ 63 ≤ x ∧ x < 2 ^ 63) then .panic .overflow else .ok (Int.bmod x (2 ^ 64)) := by
  unfold isz sarith wrap
  norm_num
  by_cases h : -9223372036854775808 ≤ x ∧ x < 9223372036854775808
  · rw [if_pos h, if_neg (fun hc => by omega), Int.bmod_eq_of_le (by norm_num; omega) (by norm_num; omega)]
  · rw [if_neg h]
    cases m
    · rw [if_pos ⟨rfl, fun h1 => by omega⟩]
    · rw [if_neg (fun hc => by cases hc.1)]

/-- The scale of a quotient depends on the wanted digits only through `effIncr`. -/
theorem divFrac_eff (m : Mode) {a b : FixedDecimal} (ha : WF a) (hb : WF b) (incr : Nat) :
    match effIncr m a b incr with
    | none => divFrac m a b (wrap 64 incr) = .panic .overflow
    | some j => j < 2 ^ 62 ∧ divFrac m a b (wrap 64 incr) = divFrac m a b j := by
  have h1 := fu_le ha
  have h2 := fu_le hb
  have h3 := fracDigits_le_fu a
  have h4 := fracDigits_le_fu b
  have hpad : (fracPad a b : Int) = (fu a : Int) * 9 - fracDigits a + (fu b : Int) * 9 - fracDigits b := by
    unfold fracPad; omega
  have hp18 : (fracPad a b : Int) ≤ 162 := by omega
  have hw1 := Int.le_bmod (x := (incr : Int)) (m := 2 ^ 64) (by norm_num)
  have hw2 := Int.bmod_lt (x := (incr : Int)) (m := 2 ^ 64) (by norm_num)
  have key : ∀ x : Int, divFrac m a b x = ((isz m (x - fracPad a b) : Out FixedDecimal Int) >>= fun x =>
      (isz m (9 * ((fu a : Int) + fu b) + (if x < 0 then 0 else x)) : Out FixedDecimal Int) >>= fun s =>
      getUnits m (wrap 8 s) >>= fun u => .ok (if u > 4 then 4 else u)) := by
    intro x
    unfold divFrac DIGITS_PER_UNIT
    rw [ha.frac_eq, hb.frac_eq, ← hpad]
    apply bindF
    intro y
    dsimp only
    rw [show (fu a : Int) * 9 + (fu b : Int) * 9 = 9 * ((fu a : Int) + fu b) by ring]
    rfl
  have hj : ∀ n : Nat, n < 256 → divFrac m a b ((fracPad a b + n : Nat) : Int) =
      (getUnits m (wrap 8 (9 * ((fu a : Int) + fu b) + n)) >>= fun u => .ok (if u > 4 then 4 else u)) := by
    intro n hn
    rw [key, isz_ok (by omega) (by omega), ok_bind, if_neg (by omega), isz_ok (by omega) (by omega), ok_bind]
    push_cast; simp
  have h0 : divFrac m a b (0 : Nat) =
      (getUnits m (wrap 8 (9 * ((fu a : Int) + fu b))) >>= fun u => .ok (if u > 4 then 4 else u)) := by
    rw [key, isz_ok (by omega) (by omega), ok_bind]
    have : (if ((0 : Nat) : Int) - (fracPad a b : Int) < 0 then 0 else ((0 : Nat) : Int) - (fracPad a b : Int)) = 0 := by
      split_ifs <;> omega
    rw [this, isz_ok (by omega) (by omega), ok_bind, add_zero]
  unfold effIncr
  dsimp only
  have ew : wrap 64 (incr : Int) = Int.bmod incr (2 ^ 64) := rfl
  rw [ew]
  generalize Int.bmod incr (2 ^ 64) = w at *
  norm_num at hw1 hw2
  have hy1 := Int.le_bmod (x := w - fracPad a b) (m := 2 ^ 64) (by norm_num)
  have hy2 := Int.bmod_lt (x := w - fracPad a b) (m := 2 ^ 64) (by norm_num)
  norm_num at hy1 hy2
  by_cases hdb : m = .debug ∧ (w - fracPad a b < -2 ^ 63 ∨ 2 ^ 63 ≤ 9 * (fu a + fu b : Int) + (w - fracPad a b))
  · rw [if_pos hdb]
    dsimp only
    obtain ⟨rfl, hx⟩ := hdb
    norm_num at hx
    rw [key, isz_cases]
    by_cases hlo : w - (fracPad a b : Int) < -9223372036854775808
    · rw [if_pos ⟨rfl, by norm_num; omega⟩]; rfl
    · rw [if_neg (fun h => h.2 (by norm_num; omega)), ok_bind, Int.bmod_eq_of_le (by norm_num; omega) (by norm_num; omega),
        if_neg (by omega), isz_cases, if_pos ⟨rfl, by norm_num; omega⟩]
      rfl
  · rw [if_neg hdb, key, isz_cases]
    have hc1 : ¬ (m = .debug ∧ ¬ (-2 ^ 63 ≤ w - (fracPad a b : Int) ∧ w - (fracPad a b : Int) < 2 ^ 63)) := by
      rintro ⟨h, h'⟩
      exact hdb ⟨h, by norm_num at h' ⊢; omega⟩
    rw [if_neg hc1, ok_bind]
    generalize hy : Int.bmod (w - fracPad a b) (2 ^ 64) = y at *
    by_cases hneg : y < 0
    · rw [if_pos hneg, if_pos hneg]
      dsimp only
      refine ⟨by norm_num, ?_⟩
      rw [isz_ok (by omega) (by omega), ok_bind, h0, add_zero]
    · rw [if_neg hneg, if_neg hneg]
      dsimp only
      have hn : ((y % 256).toNat : Int) = y % 256 := Int.toNat_of_nonneg (by omega)
      refine ⟨by norm_num; omega, ?_⟩
      rw [hj _ (by omega), hn, isz_cases]
      have hno : ¬ (m = .debug ∧ ¬ (-2 ^ 63 ≤ 9 * ((fu a : Int) + fu b) + y ∧ 9 * ((fu a : Int) + fu b) + y < 2 ^ 63)) := by
        rintro ⟨rfl, h⟩
        apply hdb
        refine ⟨rfl, ?_⟩
        by_cases hlo : w - (fracPad a b : Int) < -9223372036854775808
        · left; norm_num; omega
        · rw [Int.bmod_eq_of_le (by norm_num; omega) (by norm_num; omega)] at hy
          norm_num at h ⊢; omega
      rw [if_neg hno, ok_bind]
      have : wrap 8 (Int.bmod (9 * ((fu a : Int) + fu b) + y) (2 ^ 64)) = wrap 8 (9 * ((fu a : Int) + fu b) + y % 256) := by
        unfold wrap
        have hq := Int.bmod_add_bdiv (9 * ((fu a : Int) + fu b) + y) (2 ^ 64)
        generalize Int.bmod (9 * ((fu a : Int) + fu b) + y) (2 ^ 64) = z at *
        generalize Int.bdiv (9 * ((fu a : Int) + fu b) + y) (2 ^ 64) = q at *
        norm_num at hq
        have : z % 256 = (9 * ((fu a : Int) + fu b) + y % 256) % 256 := by omega
        unfold Int.bmod
        simp only [show ((2 ^ 8 : Nat) : Int) = 256 by norm_num, this]
      rw [this]

theorem divTo_wrap (m : Mode) (a b res : FixedDecimal) (incr : Nat) :
    FixedDecimal.divTo m a b res incr =
      (divAbs m a b res (wrap 64 incr) >>= fun q => .ok (signed (neg a != neg b) q)) := by
  unfold FixedDecimal.divTo signed
  simp only [isNeg_eq]
  rfl

/-- `round_half_up` looks only at the low eight bits of its digit count. -/
theorem roundHalfUp_low {σ : Type} {m : Mode} {d : FixedDecimal} {I F t t' rf c : Int} (h : wrap 8 t = wrap 8 t') :
    (roundHalfUp m d I F t rf c : Out σ _) = roundHalfUp m d I F t' rf c := by
  unfold roundHalfUp
  rw [h]

/-- `round_half_up` on the shifted units with nothing to drop. -/
theorem roundHalfUp_none {σ : Type} (m : Mode) {d : FixedDecimal} (hd : WF d) :
    seen (roundHalfUp m { d with lsu := shiftDown d.lsu (fu d) } (iu d) (0 : Nat) (0 : Nat) (0 : Nat) 0 : Out σ _) =
      (refRounded d 0 (mant d / 10 ^ (9 * fu d))).map .ok := by
  have hfits := hd.fits
  have hf9 := fu_le hd
  have hps := psum_shiftDown hd hf9
  have hlen : (shiftDown d.lsu (fu d)).length = 9 := (len_shiftDown (by rw [hd.len]; exact hf9)).trans hd.len
  have hdig : DigL (shiftDown d.lsu (fu d)) := (hd.digL.drop _).append (DigL.replicate _)
  obtain ⟨h1, -⟩ := roundHalfUp_spec (σ := σ) m (fd := { d with lsu := shiftDown d.lsu (fu d) }) (I := iu d) (F := 0) (t := 0)
    (rf := ((0 : Nat) : Int)) (c := 0) hlen hdig (by omega)
    (fun p hp => by dsimp only; rw [dg_shiftDown]; exact hd.highDg (by omega)) (by omega) (by omega) (Or.inl rfl) (fun _ => rfl)
  have hW : (10 : Int) ^ 0 * roundQ (psum (dg (shiftDown d.lsu (fu d))) 9) 0 0 = mant d / 10 ^ (9 * fu d) := by
    unfold roundQ
    rw [if_pos (by norm_num), hps, ← pow9]; simp
  dsimp only at h1
  rw [hW] at h1
  have hlt : mant d / 10 ^ (9 * fu d) < 1000000000 ^ iu d := by
    have h2 := hd.mant_lt
    rw [pow_add (1000000000 : Int), pow9 (fu d)] at h2
    exact Int.ediv_lt_of_lt_mul (by positivity) h2
  have hlt9 : mant d / 10 ^ (9 * fu d) < 1000000000 ^ 9 :=
    lt_of_lt_of_le hlt (pow_le_pow_right₀ (by norm_num) (by omega))
  obtain ⟨l, I, e, w1, w2, w3, w4, w5, w6⟩ := h1 (Or.inr hlt9)
  rw [Nat.add_zero, if_pos hlt] at w6
  subst w6
  have hng : neg { d with lsu := shiftDown d.lsu (fu d) } = neg d := rfl
  rw [hng] at e
  rw [e]
  obtain ⟨v1, v2, v3, v4, v5, v6, v7, v8⟩ := roundOut_spec (sg := neg d) (I := iu d) (F := 0) (f := 0) w2 w3 (by decide) w1 w4
  have h := v1.eq_dec
  rw [v4, v5, v6, v8, w5] at h
  unfold refRounded
  rw [if_pos (Or.inr hlt9), if_pos (by rw [show unitsFor 0 = 0 by decide, Nat.add_zero]; exact hlt)]
  show some (Except.ok _) = some (Except.ok _)
  rw [h]

/-- A negative unit index. -/
theorem roundHalfUp_bad {σ : Type} (m : Mode) (d : FixedDecimal) {I F t rf c : Int} (h : wrap 8 t = -1) :
    seen (roundHalfUp m d I F t rf c : Out σ _) = none := by
  unfold roundHalfUp
  rw [h]
  rfl

namespace Props
open FixedDecimal (divTo)
variable {σ : Type} {m : Mode} {a b d res : FixedDecimal}

/-- **C74.** Division is exactly the reference for every `incr_frac : usize`. -/
theorem C74_div (m : Mode) (ha : WF a) (hb : WF b) (hres : res.lsu.length = 9) (incr : Nat) :
    seen (divTo m a b res incr) = refDivFull m a b incr := by
  unfold refDivFull
  by_cases hz : mant b = 0 ∨ mant a = 0
  · rw [if_pos hz]
    have e0 : divTo m a b res incr = divTo m a b res (0 : Nat) := by
      rw [divTo_wrap, divTo_wrap]
      by_cases zb : mant b = 0
      · rw [divAbs_zero ha hb hres zb, divAbs_zero ha hb hres zb]
      · have za := hz.resolve_left zb
        rw [divAbs_of_zero ha hb hres zb za, divAbs_of_zero ha hb hres zb za]
    rw [e0]
    exact C72_div m ha hb hres (by norm_num)
  · rw [if_neg hz]
    rw [not_or] at hz
    have hE := divFrac_eff m ha hb incr
    obtain ⟨nl, nr, tl, tr, e⟩ := divAbs_nz (m := m) ha hb hres hz.2 hz.1 (wrap 64 incr)
    rw [divTo_wrap, e]
    cases hx : effIncr m a b incr with
    | none =>
      rw [hx] at hE
      dsimp only at hE ⊢
      rw [hE]; rfl
    | some j =>
      rw [hx] at hE
      dsimp only at hE ⊢
      rw [hE.2, ← C72_div m ha hb hres hE.1, divTo_eq hE.1]
      obtain ⟨nl', nr', tl', tr', e'⟩ := divAbs_nz (m := m) ha hb hres hz.2 hz.1 j
      rw [e', tl.unique tl', tr.unique tr']

/-- At or next to `isize::MIN`, from the form that `round` and `round_to` share. -/
theorem lowest_seen (m : Mode) (hd : WF d) {k : Int} (hk : k = -2 ^ 63 ∨ k = -2 ^ 63 + 1) {o : Out σ FixedDecimal}
    {f : Option FixedDecimal}
    (h1 : (isz m (-k) : Out σ Int) = .panic .overflow → o = .panic .overflow)
    (h2 : ∀ i, (isz m (-k) : Out σ Int) = .ok i → (isz m (i + 1) : Out σ Int) = .panic .overflow → o = .panic .overflow)
    (h3 : ∀ i i1, (isz m (-k) : Out σ Int) = .ok i → (isz m (i + 1) : Out σ Int) = .ok i1 →
      o = if i1 > intgDigits d then .ok FixedDecimal.zero
        else roundHalfUp m { d with lsu := shiftDown d.lsu (fu d) } (iu d) (0 : Nat) i (0 : Nat) 0) :
    seen o = (refLowest m d k f).map .ok := by
  unfold refLowest
  rcases hk with rfl | rfl
  · rw [if_pos rfl]
    cases m
    · rw [if_pos rfl, h1 rfl]; rfl
    · rw [if_neg (by decide), h3 (-2 ^ 63) (-2 ^ 63 + 1) rfl rfl, if_neg (by norm_num),
        roundHalfUp_low (t := -2 ^ 63) (t' := ((0 : Nat) : Int)) rfl]
      exact roundHalfUp_none _ hd
  · rw [if_neg (by norm_num), if_pos rfl]
    cases m
    · rw [h2 _ rfl rfl]; rfl
    · rw [h3 (2 ^ 63 - 1) (-2 ^ 63) rfl rfl, if_neg (by norm_num)]
      exact roundHalfUp_bad _ _ rfl

theorem lowest_other {k : Int} (h1 : k ≠ -2 ^ 63) (h2 : k ≠ -2 ^ 63 + 1) (f : Option FixedDecimal) : refLowest m d k f = f := by
  unfold refLowest; rw [if_neg h1, if_neg h2]

/-- **C74.** `round_to` is exactly the reference for every precision that is an `isize`. -/
theorem C74_round_to (m : Mode) (hd : WF d) (hres : res.lsu.length = 9) {k : Int} (hk : -2 ^ 63 ≤ k) :
    seen (d.roundTo m res k : Out σ _) = (refRoundToFull m d k).map .ok := by
  unfold refRoundToFull
  by_cases hlow : k = -2 ^ 63 ∨ k = -2 ^ 63 + 1
  · have hk0 : k < 0 := by rcases hlow with rfl | rfl <;> norm_num
    have hfe := hd.frac_eq
    refine lowest_seen m hd hlow (fun z => ?_) (fun i z1 z2 => ?_) (fun i i1 z1 z2 => roundTo_negG m hd hres hk0 z1 z2)
    · unfold FixedDecimal.roundTo
      rw [setZero_eq hres]
      dsimp only
      rw [hd.intgUnits, hd.fracUnits]
      simp only [ok_bind]
      rw [if_neg (by omega), if_pos hk0, z]; rfl
    · unfold FixedDecimal.roundTo
      rw [setZero_eq hres]
      dsimp only
      rw [hd.intgUnits, hd.fracUnits]
      simp only [ok_bind]
      rw [if_neg (by omega), if_pos hk0, z1]
      simp only [ok_bind]
      rw [z2]; rfl
  · rw [not_or] at hlow
    rw [lowest_other hlow.1 hlow.2]
    exact C72_round_to m hd hres (by have := hlow.1; have := hlow.2; norm_num at *; omega)

/-- **C74.** `round` in place is exactly the reference for every precision that is an `isize`. -/
theorem C74_round (m : Mode) (hd : WF d) {k : Int} (hk : -2 ^ 63 ≤ k) :
    seen (d.round m k : Out σ _) = (refRoundFull m d k).map .ok := by
  unfold refRoundFull
  by_cases hlow : k = -2 ^ 63 ∨ k = -2 ^ 63 + 1
  · have hk0 : k < 0 := by rcases hlow with rfl | rfl <;> norm_num
    have hfe := hd.frac_eq
    refine lowest_seen m hd hlow (fun z => ?_) (fun i z1 z2 => ?_) (fun i i1 z1 z2 => round_negG m hd hk0 z1 z2)
    · unfold FixedDecimal.round
      dsimp only
      rw [hd.intgUnits, hd.fracUnits]
      simp only [ok_bind]
      rw [if_neg (by omega), if_pos hk0, z]; rfl
    · unfold FixedDecimal.round
      dsimp only
      rw [hd.intgUnits, hd.fracUnits]
      simp only [ok_bind]
      rw [if_neg (by omega), if_pos hk0, z1]
      simp only [ok_bind]
      rw [z2]; rfl
  · rw [not_or] at hlow
    rw [lowest_other hlow.1 hlow.2]
    exact C72_round m hd (by have := hlow.1; have := hlow.2; norm_num at *; omega)

/-- 123456789012.345 at the lowest precisions: `isize::MIN` cuts the fraction in a release build, one more is no result;
from `isize::MIN + 2` on the result is zero, as documented. -/
example : WF Samples.a ∧
    refRoundFull .debug Samples.a (-2 ^ 63) = none ∧
    refRoundFull .release Samples.a (-2 ^ 63) = some ⟨18#8, 0, [456789012, 123, 0, 0, 0, 0, 0, 0, 0]⟩ ∧
    refRoundFull .release Samples.a (-2 ^ 63 + 1) = none ∧
    refRoundFull .release Samples.a (-2 ^ 63 + 2) = some FixedDecimal.zero := by
  decide +kernel

/-- The effective number of extra digits for a / b, whose fractions fall 13 digits short of whole units: 4 make no
difference, 300 count as 44, `usize::MAX` is -1 and counts as 0; 2^63 - 1 and 2^63 overflow in a debug build and wrap in a
release build. -/
example : WF Samples.a ∧ WF Samples.b ∧ fracPad Samples.a Samples.b = 13 ∧
    effIncr .debug Samples.a Samples.b 4 = some 0 ∧
    effIncr .debug Samples.a Samples.b 14 = some 14 ∧
    effIncr .debug Samples.a Samples.b 300 = some 44 ∧
    effIncr .debug Samples.a Samples.b (2 ^ 64 - 1) = some 0 ∧
    effIncr .debug Samples.a Samples.b (2 ^ 63 - 1) = none ∧
    effIncr .release Samples.a Samples.b (2 ^ 63 - 1) = some 255 ∧
    effIncr .debug Samples.a Samples.b (2 ^ 63) = none ∧
    effIncr .release Samples.a Samples.b (2 ^ 63) = some 256 := by
  decide +kernel

end Props
end Fxd
