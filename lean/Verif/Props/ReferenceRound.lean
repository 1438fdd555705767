import Verif.Props.Reference
/-!
# Property C72: rounding is the reference implementation
-/

namespace Fxd
open Spec

theorem halfUp_floor {M D : Int} (hD : 0 < D) : ⌊(M : ℚ) / D + 1 / 2⌋ = halfUp M D := by
  unfold halfUp
  have h := Int.mul_ediv_add_emod (2 * M + D) (2 * D)
  have h0 := Int.emod_nonneg (2 * M + D) (show 2 * D ≠ 0 by omega)
  have h1 := Int.emod_lt_of_pos (2 * M + D) (show 0 < 2 * D by omega)
  refine floor_half hD (by omega) ?_
  rw [mul_add]; omega

theorem halfUp_nonneg {M D : Int} (hM : 0 ≤ M) (hD : 0 < D) : 0 ≤ halfUp M D :=
  Int.ediv_nonneg (by omega) (by omega)

theorem abs_halfAway {d : FixedDecimal} (h : WF d) {x : ℚ} (hx : 0 < x) {Q : Int} (hQ : ⌊absVal d * x + 1 / 2⌋ = Q)
    (h0 : 0 ≤ Q) : |(halfAway (val d * x) : ℚ)| = (Q : ℚ) := by
  have hq : (0 : ℚ) ≤ Q := by exact_mod_cast h0
  rw [halfAway_val h hx, hQ]
  split_ifs
  · push_cast; rw [abs_neg, abs_of_nonneg hq]
  · exact abs_of_nonneg hq

theorem lt_pow_scale {W : Int} {i F : Nat} {q : ℚ} (hq : q = (W : ℚ) / 10 ^ (9 * F)) :
    q < 10 ^ (9 * i) ↔ W < 1000000000 ^ (i + F) := by
  rw [hq, div_lt_iff₀ (by positivity), ← pow_add, ← mul_add, ← pow9q]
  exact_mod_cast Iff.rfl

/-- A rounded result, from its observable parts. -/
theorem eq_rounded {d r : FixedDecimal} (hr : WF r) {f : Nat} {W : Int} (hf : r.frac = (f : Int)) (hn : neg r = neg d)
    (hv : |val r| = (W : ℚ) / 10 ^ (9 * unitsFor f))
    (hi : intgDigits r = 9 * if |val r| < 10 ^ (9 * iu d) then iu d else iu d + 1) :
    r = dec (neg d) (9 * if W < 1000000000 ^ (iu d + unitsFor f) then iu d else iu d + 1) f W := by
  have hfd : fracDigits r = f := by have := hr.frac_eq; omega
  have hfu : fu r = unitsFor f := by unfold fu; rw [hfd]
  have hm : mant r = W := by
    rw [abs_val hr] at hv; unfold absVal at hv; rw [hfu] at hv
    have hp : (10 : ℚ) ^ (9 * unitsFor f) ≠ 0 := by positivity
    exact_mod_cast (div_left_inj' hp).mp hv
  have h := hr.eq_dec
  rw [hi, hn, hfd, hm] at h
  rw [h]
  simp only [lt_pow_scale hv]

theorem rounded_seen {σ : Type} {d : FixedDecimal} {f : Nat} {W : Int} {q : ℚ} {o : Out σ FixedDecimal}
    (hq : |q| = (W : ℚ) / 10 ^ (9 * unitsFor f)) (hN : iu d + unitsFor f ≤ 9)
    (h : (iu d + unitsFor f ≤ 8 ∨ |q| < 10 ^ (9 * iu d) →
      ∃ r, o = .ok r ∧ WF r ∧ r.frac = f ∧ neg r = neg d ∧ val r = q ∧
        intgDigits r = 9 * if |val r| < 10 ^ (9 * iu d) then iu d else iu d + 1) ∧
      (¬ (iu d + unitsFor f ≤ 8 ∨ |q| < 10 ^ (9 * iu d)) → o = .panic .index)) :
    seen o = (refRounded d f W).map .ok := by
  have hiff : (iu d + unitsFor f ≤ 8 ∨ |q| < 10 ^ (9 * iu d)) ↔ (iu d + unitsFor f ≤ 8 ∨ W < 1000000000 ^ 9) := by
    rw [lt_pow_scale hq]
    by_cases h8 : iu d + unitsFor f ≤ 8
    · simp [h8]
    · rw [show iu d + unitsFor f = 9 by omega]
  unfold refRounded
  by_cases hf : iu d + unitsFor f ≤ 8 ∨ |q| < 10 ^ (9 * iu d)
  · obtain ⟨r, e, w, a, b, c, g⟩ := h.1 hf
    rw [if_pos (hiff.mp hf), e]
    simp only [seen, Option.map_some]
    congr 2
    exact eq_rounded w a b (by rw [c]; exact hq) g
  · rw [if_neg (fun h => hf (hiff.mpr h)), h.2 hf]; rfl

theorem shorten_pos {σ : Type} (m : Mode) {d : FixedDecimal} (hd : WF d) {k : Nat} (hk : k < fracDigits d) :
    seen (roundPos m d k : Out σ _) = (refShorten d k).map .ok := by
  unfold refShorten
  rw [if_pos (Int.natCast_nonneg k), Int.toNat_natCast]
  have hfits := hd.fits
  have hkf : k < 9 * fu d := lt_of_lt_of_le hk (fracDigits_le_fu d)
  have hF : unitsFor k ≤ fu d := by unfold fu unitsFor; omega
  have hkF : k ≤ 9 * unitsFor k := by unfold unitsFor; omega
  have hD : (0 : Int) < 10 ^ (9 * fu d - k) := by positivity
  have hQ := abs_halfAway hd (x := 10 ^ k) (by positivity)
    (by rw [absVal_mul_pow (by omega)]; exact halfUp_floor hD) (halfUp_nonneg hd.mant_nonneg hD)
  refine rounded_seen (q := (halfAway (val d * 10 ^ k) : ℚ) / 10 ^ k) ?_ (by omega) ?_
  · rw [abs_div, hQ, abs_of_pos (show (0 : ℚ) < 10 ^ k by positivity)]
    have e : (10 : ℚ) ^ (9 * unitsFor k) = 10 ^ (9 * unitsFor k - k) * 10 ^ k := by
      rw [← pow_add]; congr 1; omega
    rw [e]; push_cast
    have : (10 : ℚ) ^ (9 * unitsFor k - k) ≠ 0 := by positivity
    field_simp
  · obtain ⟨h1, h2⟩ := roundPos_spec (σ := σ) m hd hk
    refine ⟨fun h => ?_, h2⟩
    obtain ⟨r, e, a, b, c, f, g⟩ := h1 h
    exact ⟨r, e, a.toWF, b, c, f, g⟩

theorem shorten_neg {σ : Type} (m : Mode) {d : FixedDecimal} (hd : WF d) {j : Nat} (hj : 0 < j) :
    seen (roundNeg m d j : Out σ _) = (refShorten d (-(j : Int))).map .ok := by
  unfold refShorten
  rw [if_neg (by omega), neg_neg, Int.toNat_natCast]
  by_cases hi : intgDigits d ≤ j
  · rw [if_pos (by exact_mod_cast hi), dec_zero]
    unfold roundNeg; rw [if_pos hi]; rfl
  rw [if_neg (by exact_mod_cast hi)]
  have hD : (0 : Int) < 10 ^ (9 * fu d + j) := by positivity
  have hfits := hd.fits
  have hdv : absVal d / 10 ^ j = (mant d : ℚ) / ((10 ^ (9 * fu d + j) : Int) : ℚ) := by
    unfold absVal; push_cast; rw [pow_add]; field_simp
  have e0 : (10 : ℚ) ^ (9 * unitsFor 0) = 1 := by norm_num [unitsFor]
  have u0 : unitsFor 0 = 0 := rfl
  by_cases h9 : 9 ∣ (j : Int)
  · rw [if_pos (by omega)]
    obtain ⟨r, e, a, b, c, f, g⟩ := roundNeg_edge (σ := σ) m hd hj (by omega) (by omega)
    have hfl : ⌊absVal d / 10 ^ j⌋ = mant d / 10 ^ (9 * fu d + j) := by
      rw [hdv]
      have := Rat.floor_intCast_div_natCast (mant d) (10 ^ (9 * fu d + j))
      push_cast at this ⊢
      exact this
    have hp := absVal_nonneg hd
    have hp' : 0 ≤ absVal d / 10 ^ j := by positivity
    have hW0 : (0 : Int) ≤ mant d / 10 ^ (9 * fu d + j) := Int.ediv_nonneg hd.mant_nonneg hD.le
    have hWq : (0 : ℚ) ≤ ((mant d / 10 ^ (9 * fu d + j) : Int) : ℚ) := by exact_mod_cast hW0
    have htr : |(truncZ (val d / 10 ^ j) : ℚ)| = ((mant d / 10 ^ (9 * fu d + j) : Int) : ℚ) := by
      unfold truncZ val
      split_ifs with h1 h2 h2
      · rw [neg_div, neg_neg, hfl]; push_cast; rw [abs_neg]; exact abs_of_nonneg hWq
      · have hz : absVal d / 10 ^ j = 0 := by
          rw [neg_div] at h2; linarith
        rw [← hfl, neg_div, hz]; simp
      · linarith
      · rw [hfl]; exact abs_of_nonneg hWq
    have hlt : (mant d / 10 ^ (9 * fu d + j) : Int) * 10 ^ j < 1000000000 ^ iu d := by
      have h1 := Int.mul_ediv_self_le (x := mant d) (k := 10 ^ (9 * fu d + j)) hD.ne'
      have h2 := hd.mant_lt
      rw [pow_add (1000000000 : Int), pow9 (fu d)] at h2
      have hpf : (0 : Int) < 10 ^ (9 * fu d) := by positivity
      rw [pow_add (10 : Int)] at h1 ⊢
      by_contra hc
      have h3 : (1000000000 : Int) ^ iu d * 10 ^ (9 * fu d) ≤ mant d / (10 ^ (9 * fu d) * 10 ^ j) * 10 ^ j * 10 ^ (9 * fu d) :=
        mul_le_mul_of_nonneg_right (not_lt.mp hc) hpf.le
      nlinarith
    have hval : |val r| = (((mant d / 10 ^ (9 * fu d + j)) * 10 ^ j : Int) : ℚ) / 10 ^ (9 * unitsFor 0) := by
      rw [f, abs_mul, htr, e0, abs_of_pos (show (0 : ℚ) < 10 ^ j by positivity)]; push_cast; ring
    refine rounded_seen (q := val r) hval (by omega) ⟨fun _ => ⟨r, e, a.toWF, b, c, rfl, ?_⟩, fun h => ?_⟩
    · rw [if_pos ((lt_pow_scale hval).mpr (by rw [u0, Nat.add_zero]; exact hlt))]; exact g
    · exact absurd (Or.inr ((lt_pow_scale hval).mpr (by rw [u0, Nat.add_zero]; exact hlt))) h
  · rw [if_neg (by omega)]
    have hQ := abs_halfAway hd (x := 1 / 10 ^ j) (by positivity)
      (by rw [← div_eq_mul_one_div, hdv]; exact halfUp_floor hD) (halfUp_nonneg hd.mant_nonneg hD)
    rw [← div_eq_mul_one_div] at hQ
    refine rounded_seen (q := (halfAway (val d / 10 ^ j) : ℚ) * 10 ^ j) ?_ (by omega) ?_
    · rw [abs_mul, hQ, abs_of_pos (show (0 : ℚ) < 10 ^ j by positivity), e0]; push_cast; ring
    · obtain ⟨h1, h2⟩ := roundNeg_spec (σ := σ) m hd hj (by omega) (by omega)
      rw [u0, Nat.add_zero]
      refine ⟨fun h => ?_, h2⟩
      obtain ⟨r, e, a, b, c, f, g⟩ := h1 h
      exact ⟨r, e, a.toWF, b, c, f, g⟩

theorem unitsOf_psum {l : List Int} (hl : l.length = 9) (hd : DigL l) {M : Int} (h : psum (dg l) 9 = M) : unitsOf 9 M = l := by
  rw [← h, ← hl, ← unitsVal_eq_psum]; exact unitsOf_unitsVal hd

theorem psum_up {d : FixedDecimal} (hd : WF d) {k : Int} (h : ExtFits d k) {l : List Int}
    (hup : ∀ i, extUnits d k ≤ i → i < 9 → dg l i = dg d.lsu (i - extUnits d k)) :
    psum (dg l) 9 = psum (dg l) (extUnits d k) + mant d * 1000000000 ^ extUnits d k := by
  have hs : extUnits d k ≤ 9 := by have := h.2.2; unfold extUnits; omega
  rw [psum_split hs, mul_comm (mant d)]
  congr 2
  rw [psum_congr (g := dg d.lsu) (fun i hi => by show dg l (extUnits d k + i) = _; rw [hup _ (by omega) (by omega)]; congr 1; omega),
    hd.mant_eq, psum_extend (f := dg d.lsu) (a := iu d + fu d) (n := 9 - extUnits d k) ?_ (fun i h1 _ => hd.highDg h1)]
  have := h.2.1; have := h.2.2; unfold extUnits; omega

namespace Props
variable {σ : Type} (m : Mode) {d res : FixedDecimal}

/-- **C72.** `round_to` is exactly the reference, for every precision whose negation is a representable `isize` with room for
one more. -/
theorem C72_round_to (hd : WF d) (hres : res.lsu.length = 9) {k : Int} (hk : -(2 ^ 63 - 1) < k) :
    seen (d.roundTo m res k : Out σ _) = (refRoundTo d k).map .ok := by
  norm_num at hk
  unfold refRoundTo
  by_cases hf : d.frac ≤ k
  · rw [if_pos hf]
    obtain ⟨h1, h2⟩ := roundTo_wide (σ := σ) m hd hres hf
    by_cases he : ExtFits d k
    · rw [if_pos he, h1 he]
      have hs : extUnits d k ≤ 9 := by have := he.2.2; unfold extUnits; omega
      have hup : ∀ i, extUnits d k ≤ i → i < 9 → dg (shiftUp d.lsu (extUnits d k)) i = dg d.lsu (i - extUnits d k) := by
        intro i h1 h2; rw [dg_shiftUp h2, if_neg (by omega)]
      have e := psum_up hd he hup
      rw [psum_zero_of (f := dg (shiftUp d.lsu (extUnits d k))) (n := extUnits d k) (fun i hi => by rw [dg_shiftUp (by omega), if_pos hi]),
        zero_add] at e
      rw [unitsOf_psum (len_shiftUp hd.len hs) ((DigL.replicate _).append (hd.digL.take _)) e]
      rfl
    · rw [if_neg he]
      obtain ⟨p, hp⟩ := h2 he
      rw [hp]; rfl
  · rw [if_neg hf]
    have hfe := hd.frac_eq
    by_cases h0 : 0 ≤ k
    · obtain ⟨n, rfl⟩ := Int.eq_ofNat_of_zero_le h0
      rw [roundTo_pos m hd hres (by omega)]
      exact shorten_pos m hd (by omega)
    · obtain ⟨j, hj⟩ := Int.eq_ofNat_of_zero_le (show 0 ≤ -k by omega)
      have : k = -(j : Int) := by omega
      subst this
      rw [roundTo_neg m hd hres (by omega) (by omega)]
      exact shorten_neg m hd (by omega)

/-- **C72.** `round` in place is exactly the reference, stale units included. -/
theorem C72_round (hd : WF d) {k : Int} (hk : -(2 ^ 63 - 1) < k) :
    seen (d.round m k : Out σ _) = (refRound d k).map .ok := by
  norm_num at hk
  unfold refRound
  by_cases hf : d.frac ≤ k
  · rw [if_pos hf]
    obtain ⟨h1, h2⟩ := round_wide (σ := σ) m hd hf
    by_cases he : ExtFits d k
    · rw [if_pos he, h1 he]
      have hs : extUnits d k ≤ 9 := by have := he.2.2; unfold extUnits; omega
      have hup : ∀ i, extUnits d k ≤ i → i < 9 → dg (shiftStale d.lsu (extUnits d k)) i = dg d.lsu (i - extUnits d k) := by
        intro i h1 h2; rw [dg_shiftStale hd.len hs h2, if_neg (by omega)]
      have e := psum_up hd he hup
      have e2 : psum (dg (shiftStale d.lsu (extUnits d k))) (extUnits d k) = mant d % 1000000000 ^ extUnits d k := by
        rw [psum_congr (g := dg d.lsu) (fun i hi => by rw [dg_shiftStale hd.len hs (by omega), if_pos hi]),
          hd.mant_eq9, psum_split (f := dg d.lsu) hs, Int.add_mul_emod_self_left,
          Int.emod_eq_of_lt (psum_nonneg hd.dig _) (psum_lt hd.dig _)]
      rw [e2, add_comm] at e
      rw [unitsOf_psum (len_shiftStale hd.len hs) ((hd.digL.take _).append (hd.digL.take _)) e]
      rfl
    · rw [if_neg he]
      obtain ⟨p, hp⟩ := h2 he
      rw [hp]; rfl
  · rw [if_neg hf]
    have hfe := hd.frac_eq
    by_cases h0 : 0 ≤ k
    · obtain ⟨n, rfl⟩ := Int.eq_ofNat_of_zero_le h0
      rw [round_pos m hd (by omega)]
      exact shorten_pos m hd (by omega)
    · obtain ⟨j, hj⟩ := Int.eq_ofNat_of_zero_le (show 0 ≤ -k by omega)
      have : k = -(j : Int) := by omega
      subst this
      rw [round_neg m hd (by omega) (by omega)]
      exact shorten_neg m hd (by omega)

/-- 123456789012.345 to 1 place and to hundreds; extended to 12 places, and in place, where the freed unit keeps its old
contents. -/
example : WF Samples.a ∧
    refRoundTo Samples.a 1 = some ⟨18#8, 1, [300000000, 456789012, 123, 0, 0, 0, 0, 0, 0]⟩ ∧
    refRound Samples.a (-2) = some ⟨18#8, 0, [456789000, 123, 0, 0, 0, 0, 0, 0, 0]⟩ ∧
    refRoundTo Samples.a 12 = some ⟨12#8, 12, [0, 345000000, 456789012, 123, 0, 0, 0, 0, 0]⟩ ∧
    refRound Samples.a 12 = some ⟨12#8, 12, [345000000, 345000000, 456789012, 123, 0, 0, 0, 0, 0]⟩ := by
  decide +kernel

end Props
end Fxd
