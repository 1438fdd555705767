import Verif.Proofs.RoundExt
/-!
# `round_to` and `round` for any precision not below the scale, including those that do not fit eight bits
-/

namespace Fxd
open Spec

theorem wrap8_castI8 (k : Int) : wrap 8 k = castI8 k := rfl

theorem castI8_range (k : Int) : -128 ≤ castI8 k ∧ castI8 k < 128 := by
  unfold castI8
  have h1 := Int.le_bmod (x := k) (m := 256) (by norm_num)
  have h2 := Int.bmod_lt (x := k) (m := 256) (by norm_num)
  omega

theorem castI8_small {k : Int} (h0 : -128 ≤ k) (h1 : k < 128) : castI8 k = k := wrap8_ok h0 h1

theorem getUnits_wide {σ : Type} (m : Mode) {w : Int} (h0 : -128 ≤ w) (h1 : w < 128) :
    (getUnits m w : Out σ Int) = .ok (unitsFor w.toNat : Int) ∧ -8 ≤ w ∧ w < 120 ∨
      (∃ p, (getUnits m w : Out σ Int) = .panic p) ∧ (w < -8 ∨ 120 ≤ w) := by
  by_cases h : 120 ≤ w
  · exact Or.inr ⟨getUnits_oob h h1, Or.inr h⟩
  · by_cases hn : 0 ≤ w
    · left
      obtain ⟨n, rfl⟩ := Int.eq_ofNat_of_zero_le hn
      exact ⟨getUnits_nat (by omega), by omega, by omega⟩
    · unfold getUnits
      rw [i8_ok (by omega) (by omega), ok_bind]
      by_cases h8 : -8 ≤ w
      · left
        have : w + 8 = ((w + 8).toNat : Int) := by omega
        rw [this, div9_nat (by omega)]
        refine ⟨?_, h8, by omega⟩
        congr 2
        unfold unitsFor; omega
      · right
        refine ⟨⟨.index, ?_⟩, Or.inl (by omega)⟩
        unfold div9 idx
        rw [if_neg (by omega)]

/-- The units moved up by `s`, the low `s` units left as they were. -/
def shiftStale (l : List Int) (s : Nat) : List Int := l.take s ++ l.take (9 - s)

theorem dg_shiftStale {l : List Int} {s p : Nat} (hl : l.length = 9) (hs : s ≤ 9) (hp : p < 9) :
    dg (shiftStale l s) p = if p < s then dg l p else dg l (p - s) := by
  unfold shiftStale
  rw [dg_append, List.length_take, hl, Nat.min_eq_left hs]
  split_ifs with h
  · rw [dg_take, if_pos h]
  · rw [dg_take, if_pos (by omega)]

theorem len_shiftStale {l : List Int} {s : Nat} (hl : l.length = 9) (hs : s ≤ 9) : (shiftStale l s).length = 9 := by
  unfold shiftStale; simp [hl]; omega

theorem usz_neg_copy {σ : Type} (m : Mode) {x : Int} (h0 : x < 0) (h1 : -100 < x) :
    (∃ p, (usz m x : Out σ Int) = .panic p) ∨ ∃ y : Int, (usz m x : Out σ Int) = .ok y ∧ 100 < y := by
  unfold usz
  rw [if_neg (by omega)]
  cases m
  · exact Or.inl ⟨_, rfl⟩
  · right
    refine ⟨_, rfl, ?_⟩
    have : x % (2 ^ 64) = x + 2 ^ 64 := by
      rw [← Int.add_emod_right, Int.emod_eq_of_lt] <;> norm_num <;> omega
    rw [this]; norm_num; omega

theorem roundTo_wide {σ : Type} (m : Mode) {d res : FixedDecimal} (hd : WF d) (hres : res.lsu.length = 9)
    {k : Int} (hk : d.frac ≤ k) :
    (ExtFits d k → (d.roundTo m res k : Out σ _) =
      .ok { d with frac := castI8 k, lsu := shiftUp d.lsu (extUnits d k) }) ∧
    (¬ ExtFits d k → ∃ p, (d.roundTo m res k : Out σ _) = .panic p) := by
  have hfits := hd.fits
  have hz9 : FixedDecimal.zero.lsu.length = 9 := rfl
  obtain ⟨w0, w1⟩ := castI8_range k
  unfold FixedDecimal.roundTo
  rw [setZero_eq hres]
  dsimp only
  rw [hd.intgUnits, hd.fracUnits]
  simp only [ok_bind]
  rw [if_pos (by omega), wrap8_castI8]
  rcases getUnits_wide (σ := σ) m w0 w1 with ⟨hg, g1, g2⟩ | ⟨⟨p, hp⟩, hw⟩
  · rw [hg]
    simp only [ok_bind]
    set U := unitsFor (castI8 k).toNat with hU
    have hU14 : U ≤ 14 := by rw [hU]; unfold unitsFor; omega
    by_cases he : U = fu d
    · rw [if_pos (by exact_mod_cast he)]
      constructor
      · intro _
        show Out.ok _ = _
        congr 1
        have : extUnits d k = 0 := by unfold extUnits; omega
        rw [this]
        have : shiftUp d.lsu 0 = d.lsu := by unfold shiftUp; simp [← hd.len]
        rw [this]
      · intro hn
        exact absurd ⟨g1, by omega, by omega⟩ hn
    · rw [if_neg (by exact_mod_cast he)]
      by_cases hF : fu d ≤ U
      · rw [usz_ok (by omega) (by omega)]
        simp only [ok_bind]
        rw [slice_ok (by omega) (by omega) (by rw [hd.len]; omega)]
        simp only [ok_bind]
        rw [Int.toNat_zero, List.drop_zero, show ((fu d : Int) + (iu d : Int) - 0).toNat = fu d + iu d by omega]
        have hlen : (d.lsu.take (fu d + iu d)).length = fu d + iu d := by
          rw [List.length_take, hd.len]; omega
        by_cases h9 : iu d + U ≤ 9
        · rw [copyFromSlice_ok (by omega) (by omega) (by rw [hz9]; omega) (by rw [hlen]; push_cast; omega)]
          simp only [ok_bind]
          refine ⟨fun _ => ?_, fun hn => absurd ⟨g1, hF, h9⟩ hn⟩
          show Out.ok _ = _
          have e1 : ((U : Int) - (fu d : Int)).toNat = U - fu d := by omega
          have e2 : ((U : Int) + (iu d : Int)).toNat = U + iu d := by omega
          rw [e1, e2]
          have e3 : extUnits d k = U - fu d := rfl
          have : List.take (U - fu d) FixedDecimal.zero.lsu ++ List.take (fu d + iu d) d.lsu ++
              List.drop (U + iu d) FixedDecimal.zero.lsu = shiftUp d.lsu (U - fu d) := by
            apply list_ext_dg
            · rw [len_shiftUp hd.len (by omega)]; simp [hz9, hd.len]; omega
            · intro i hi
              have hi9 : i < 9 := by simp [hz9, hd.len] at hi; omega
              rw [dg_shiftUp hi9, List.append_assoc, dg_append, List.length_take, hz9, dg_append, hlen, dg_take]
              rw [show min (U - fu d) 9 = U - fu d by omega]
              split_ifs with h1 h2
              · exact dg_replicate
              · rw [dg_take, if_pos h2]
              · rw [dg_drop, hd.highDg (by omega)]; exact dg_replicate
          rw [this, e3]
        · refine ⟨fun hn => absurd hn.2.2 h9, fun _ => ⟨.index, ?_⟩⟩
          unfold copyFromSlice
          rw [if_neg (by rw [hz9]; omega)]
          rfl
      · refine ⟨fun hn => absurd hn.2.1 hF, fun _ => ?_⟩
        rcases usz_neg_copy (σ := σ) m (x := (U : Int) - (fu d : Int)) (by omega) (by omega) with ⟨p, hp⟩ | ⟨y, hy, hy'⟩
        · rw [hp]; exact ⟨p, rfl⟩
        · rw [hy]
          simp only [ok_bind]
          rw [slice_ok (by omega) (by omega) (by rw [hd.len]; omega)]
          simp only [ok_bind]
          refine ⟨.index, ?_⟩
          unfold copyFromSlice
          rw [if_neg (by rw [hz9]; omega)]
          rfl
  · rw [hp]
    refine ⟨fun hn => absurd hn ?_, fun _ => ⟨p, rfl⟩⟩
    rintro ⟨h1, h2, h3⟩
    rcases hw with hw | hw
    · omega
    · have : 14 ≤ unitsFor (castI8 k).toNat := by unfold unitsFor; omega
      omega

theorem round_wide {σ : Type} (m : Mode) {d : FixedDecimal} (hd : WF d) {k : Int} (hk : d.frac ≤ k) :
    (ExtFits d k → (d.round m k : Out σ _) =
      .ok { d with frac := castI8 k, lsu := shiftStale d.lsu (extUnits d k) }) ∧
    (¬ ExtFits d k → ∃ p, (d.round m k : Out σ _) = .panic p) := by
  have hfits := hd.fits
  obtain ⟨w0, w1⟩ := castI8_range k
  unfold FixedDecimal.round
  dsimp only
  rw [hd.intgUnits, hd.fracUnits]
  simp only [ok_bind]
  rw [if_pos (by omega), wrap8_castI8]
  rcases getUnits_wide (σ := σ) m w0 w1 with ⟨hg, g1, g2⟩ | ⟨⟨p, hp⟩, hw⟩
  · rw [hg]
    simp only [ok_bind]
    set U := unitsFor (castI8 k).toNat with hU
    have hU14 : U ≤ 14 := by rw [hU]; unfold unitsFor; omega
    by_cases he : U = fu d
    · rw [if_pos (by exact_mod_cast he)]
      constructor
      · intro _
        show Out.ok _ = _
        congr 1
        have : extUnits d k = 0 := by unfold extUnits; omega
        rw [this]
        have : shiftStale d.lsu 0 = d.lsu := by unfold shiftStale; simp [← hd.len]
        rw [this]
      · intro hn
        exact absurd ⟨g1, by omega, by omega⟩ hn
    · rw [if_neg (by exact_mod_cast he)]
      by_cases hF : fu d ≤ U
      · rw [usz_ok (by omega) (by omega)]
        simp only [ok_bind]
        have hlen : (d.lsu.take (fu d + iu d)).length = fu d + iu d := by
          rw [List.length_take, hd.len]; omega
        by_cases h9 : iu d + U ≤ 9
        · rw [copyWithin_ok (by omega) (by omega) (by rw [hd.len]; omega) (by omega) (by rw [hd.len]; omega)]
          simp only [ok_bind]
          refine ⟨fun _ => ?_, fun hn => absurd ⟨g1, hF, h9⟩ hn⟩
          show Out.ok _ = _
          have e1 : ((U : Int) - (fu d : Int)).toNat = U - fu d := by omega
          have e2 : ((fu d : Int) + (iu d : Int) - 0).toNat = fu d + iu d := by omega
          rw [e1, e2, Int.toNat_zero, List.drop_zero]
          have e3 : extUnits d k = U - fu d := rfl
          have : d.lsu.take (U - fu d) ++ d.lsu.take (fu d + iu d) ++ d.lsu.drop (U - fu d + (fu d + iu d)) =
              shiftStale d.lsu (U - fu d) := by
            apply list_ext_dg
            · rw [len_shiftStale hd.len (by omega)]; simp [hd.len]; omega
            · intro i hi
              have hi9 : i < 9 := by simp [hd.len] at hi; omega
              rw [dg_shiftStale hd.len (by omega) hi9, List.append_assoc, dg_append, List.length_take, hd.len, dg_append,
                hlen, dg_take]
              rw [show min (U - fu d) 9 = U - fu d by omega]
              split_ifs with h1 h2
              · rfl
              · rw [dg_take, if_pos h2]
              · rw [dg_drop, hd.highDg (by omega), hd.highDg (by omega)]
          rw [this, e3]
        · refine ⟨fun hn => absurd hn.2.2 h9, fun _ => ⟨.index, ?_⟩⟩
          unfold copyWithin
          rw [if_neg (by rw [hd.len]; omega)]
          rfl
      · refine ⟨fun hn => absurd hn.2.1 hF, fun _ => ?_⟩
        rcases usz_neg_copy (σ := σ) m (x := (U : Int) - (fu d : Int)) (by omega) (by omega) with ⟨p, hp⟩ | ⟨y, hy, hy'⟩
        · rw [hp]; exact ⟨p, rfl⟩
        · rw [hy]
          simp only [ok_bind]
          refine ⟨.index, ?_⟩
          unfold copyWithin
          rw [if_neg (by rw [hd.len]; omega)]
          rfl
  · rw [hp]
    refine ⟨fun hn => absurd hn ?_, fun _ => ⟨p, rfl⟩⟩
    rintro ⟨h1, h2, h3⟩
    rcases hw with hw | hw
    · omega
    · have : 14 ≤ unitsFor (castI8 k).toNat := by unfold unitsFor; omega
      omega

/-- Well-formedness, mantissa and value of a decimal whose units were moved up, with something in the low units. -/
theorem lifted_spec {d : FixedDecimal} (hd : WF d) {k : Int} (h : ExtFits d k) (h0 : 0 ≤ castI8 k) {l : List Int}
    (hl : l.length = 9) (hdig : DigL l) (hup : ∀ i, extUnits d k ≤ i → i < 9 → dg l i = dg d.lsu (i - extUnits d k)) :
    WF { d with frac := castI8 k, lsu := l } ∧
      mant { d with frac := castI8 k, lsu := l } = psum (dg l) (extUnits d k) + 1000000000 ^ extUnits d k * mant d := by
  obtain ⟨-, hF, h9⟩ := h
  have hfits := hd.fits
  have e1 : iu { d with frac := castI8 k, lsu := l } = iu d := rfl
  have e2 : fu { d with frac := castI8 k, lsu := l } = unitsFor (castI8 k).toNat := rfl
  have es : extUnits d k = unitsFor (castI8 k).toNat - fu d := rfl
  set s := extUnits d k with hs
  have hz : ∀ i, iu d + unitsFor (castI8 k).toNat ≤ i → dg l i = 0 := by
    intro i hi
    by_cases hi9 : i < 9
    · rw [hup i (by omega) hi9]; exact hd.highDg (by omega)
    · exact dg_out (by rw [hl]; omega)
  have hwf : WF { d with frac := castI8 k, lsu := l } := by
    refine ⟨hl, hdig, h0, by rw [e1, e2]; exact h9, ?_⟩
    rw [e1, e2]; exact high_of_dg hz
  refine ⟨hwf, ?_⟩
  rw [hwf.mant_eq9]
  dsimp only
  rw [psum_split (f := dg l) (a := s) (n := 9) (by omega), hd.mant_eq9,
    psum_split (f := dg d.lsu) (a := 9 - s) (n := 9) (by omega), psum_zero_of (n := 9 - (9 - s)) (fun i hi => hd.highDg (by omega)),
    psum_congr (f := fun i => dg l (s + i)) (g := dg d.lsu) (fun i hi => by rw [hup (s + i) (by omega) (by omega), Nat.add_sub_cancel_left])]
  ring

end Fxd
