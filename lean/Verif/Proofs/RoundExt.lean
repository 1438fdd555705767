import Verif.Proofs.RoundVal
/-!
# `round_to` and `round` when the scale is extended
-/

namespace Fxd
open Spec

/-- Units moved up by `s` places, zeros below. -/
def shiftUp (l : List Int) (s : Nat) : List Int := List.replicate s 0 ++ l.take (9 - s)

theorem dg_shiftUp {l : List Int} {s p : Nat} (hp : p < 9) :
    dg (shiftUp l s) p = if p < s then 0 else dg l (p - s) := by
  unfold shiftUp
  rw [dg_append, List.length_replicate]
  split_ifs with h
  · exact dg_replicate
  · rw [dg_take, if_pos (by omega)]

theorem len_shiftUp {l : List Int} {s : Nat} (hl : l.length = 9) (hs : s ≤ 9) : (shiftUp l s).length = 9 := by
  unfold shiftUp; simp [hl]; omega

/-- The decimal with its scale extended to `k` digits. -/
def extended (d : FixedDecimal) (k : Nat) : FixedDecimal :=
  { d with frac := k, lsu := shiftUp d.lsu (unitsFor k - fu d) }

theorem extended_spec {d : FixedDecimal} (hd : WF d) {k : Nat} (hk : fracDigits d ≤ k)
    (h9 : iu d + unitsFor k ≤ 9) :
    WF (extended d k) ∧ mant (extended d k) = 1000000000 ^ (unitsFor k - fu d) * mant d := by
  have hF : fu d ≤ unitsFor k := unitsFor_mono hk
  have hfits := hd.fits
  set s := unitsFor k - fu d with hs
  have e1 : iu (extended d k) = iu d := rfl
  have e2 : fu (extended d k) = unitsFor k := by
    unfold fu fracDigits extended; simp
  have hl : (extended d k).lsu.length = 9 := len_shiftUp hd.len (by omega)
  have hz : ∀ i, iu d + unitsFor k ≤ i → dg (extended d k).lsu i = 0 := by
    intro i hi
    by_cases h : i < 9
    · show dg (shiftUp d.lsu s) i = 0
      rw [dg_shiftUp h]
      split_ifs with h2
      · rfl
      · exact hd.highDg (by omega)
    · exact dg_out (by rw [hl]; omega)
  have hwf : WF (extended d k) := by
    refine ⟨hl, ?_, ?_, by rw [e1, e2]; exact h9, ?_⟩
    · exact (DigL.replicate s).append (hd.digL.take _)
    · show (0 : Int) ≤ (k : Int); omega
    · rw [e1, e2]; exact high_of_dg hz
  refine ⟨hwf, ?_⟩
  rw [hwf.mant_eq9, psum_split (a := s) (by omega), psum_zero_of (n := s)]
  · rw [hd.mant_eq9]
    rw [psum_split (f := dg d.lsu) (a := 9 - s) (n := 9) (by omega)]
    rw [psum_zero_of (n := 9 - (9 - s))]
    · rw [psum_congr (g := dg d.lsu)]
      · ring
      · intro i hi
        show dg (shiftUp d.lsu s) (s + i) = _
        rw [dg_shiftUp (by omega), if_neg (by omega), Nat.add_sub_cancel_left]
    · intro i hi
      exact hd.highDg (by omega)
  · intro i hi
    show dg (shiftUp d.lsu s) i = 0
    rw [dg_shiftUp (by omega), if_pos hi]

theorem extended_val {d : FixedDecimal} (hd : WF d) {k : Nat} (hk : fracDigits d ≤ k)
    (h9 : iu d + unitsFor k ≤ 9) : val (extended d k) = val d := by
  have hF : fu d ≤ unitsFor k := unitsFor_mono hk
  have e : absVal (extended d k) = absVal d := by
    unfold absVal
    rw [(extended_spec hd hk h9).2, show fu (extended d k) = unitsFor k by unfold fu fracDigits extended; simp,
      pow9, show 9 * unitsFor k = 9 * (unitsFor k - fu d) + 9 * fu d by omega, pow_add]
    push_cast
    field_simp
  unfold val
  rw [e]; rfl

theorem extended_tight {d : FixedDecimal} (hd : Tight d) {k : Nat} (hk : fracDigits d ≤ k)
    (h9 : iu d + unitsFor k ≤ 9) : Tight (extended d k) := by
  have hF : fu d ≤ unitsFor k := unitsFor_mono hk
  have hs := extended_spec hd.toWF hk h9
  have e2 : fu (extended d k) = unitsFor k := by unfold fu fracDigits extended; simp
  have e3 : fracDigits (extended d k) = k := by unfold fracDigits extended; simp
  refine ⟨hs.1, ?_, ?_⟩
  · rw [hs.2, e2, show intgDigits (extended d k) = intgDigits d from rfl, pow9,
      show intgDigits d + 9 * unitsFor k = 9 * (unitsFor k - fu d) + (intgDigits d + 9 * fu d) by omega, pow_add]
    exact mul_lt_mul_of_pos_left hd.intg_ok (by positivity)
  · rw [hs.2, e2, e3, pow9]
    have h1 := hd.frac_ok
    have h2 : (10 ^ (9 * unitsFor k - k) : Int) ∣ 10 ^ (9 * (unitsFor k - fu d) + (9 * fu d - fracDigits d)) := by
      apply pow_dvd_pow
      have := fracDigits_le_fu d
      omega
    rw [pow_add] at h2
    exact h2.trans (mul_dvd_mul_left _ h1)

theorem roundTo_ext {σ : Type} (m : Mode) {d res : FixedDecimal} (hd : WF d) (hres : res.lsu.length = 9)
    {k : Nat} (hk : fracDigits d ≤ k) (hk' : k < 120) :
    (d.roundTo m res (k : Int) : Out σ _) =
      if iu d + unitsFor k ≤ 9 then .ok (extended d k) else .panic .index := by
  have hF : fu d ≤ unitsFor k := unitsFor_mono hk
  have hfits := hd.fits
  have hfle := hd.frac_le
  have hz9 : FixedDecimal.zero.lsu.length = 9 := rfl
  unfold FixedDecimal.roundTo
  rw [setZero_eq hres]
  dsimp only
  rw [hd.intgUnits, hd.fracUnits]
  simp only [ok_bind]
  rw [if_pos (by rw [hd.frac_eq]; omega), wrap8_ok (by omega) (by omega), getUnits_nat hk']
  simp only [ok_bind]
  by_cases he : unitsFor k = fu d
  · rw [if_pos (by exact_mod_cast he), if_pos (by omega)]
    show Out.ok _ = _
    congr 1
    unfold extended
    rw [he, Nat.sub_self]
    have : shiftUp d.lsu 0 = d.lsu := by
      unfold shiftUp; simp [← hd.len]
    rw [this]
  · rw [if_neg (by exact_mod_cast he), usz_ok (by unfold unitsFor at *; omega) (by unfold unitsFor at *; omega)]
    simp only [ok_bind]
    rw [slice_ok (by omega) (by omega) (by rw [hd.len]; omega)]
    simp only [ok_bind]
    rw [Int.toNat_zero, List.drop_zero, show ((fu d : Int) + (iu d : Int) - 0).toNat = fu d + iu d by omega]
    have hlen : (d.lsu.take (fu d + iu d)).length = fu d + iu d := by
      rw [List.length_take, hd.len]; omega
    split_ifs with h9
    · rw [copyFromSlice_ok (by omega) (by omega) (by rw [hz9]; omega) (by rw [hlen]; push_cast; omega)]
      simp only [ok_bind]
      show Out.ok _ = _
      have e1 : ((unitsFor k : Int) - (fu d : Int)).toNat = unitsFor k - fu d := by omega
      have e2 : ((unitsFor k : Int) + (iu d : Int)).toNat = unitsFor k + iu d := by omega
      rw [e1, e2]
      unfold extended
      have : List.take (unitsFor k - fu d) FixedDecimal.zero.lsu ++ List.take (fu d + iu d) d.lsu ++
          List.drop (unitsFor k + iu d) FixedDecimal.zero.lsu = shiftUp d.lsu (unitsFor k - fu d) := by
        apply list_ext_dg
        · rw [len_shiftUp hd.len (by omega)]; simp [hz9, hd.len]; omega
        · intro i hi
          have hi9 : i < 9 := by simp [hz9, hd.len] at hi; omega
          rw [dg_shiftUp hi9, List.append_assoc, dg_append, List.length_take, hz9, dg_append, hlen, dg_take]
          rw [show min (unitsFor k - fu d) 9 = unitsFor k - fu d by omega]
          split_ifs with h1 h2
          · exact dg_replicate
          · rw [dg_take, if_pos h2]
          · rw [dg_drop, hd.highDg (by omega)]; exact dg_replicate
      rw [this]
    · unfold copyFromSlice
      rw [if_neg (by rw [hz9]; omega)]
      rfl

/-- Precisions 120..127 overflow the unit count. -/
theorem roundTo_ext_big {σ : Type} (m : Mode) {d res : FixedDecimal} (hd : WF d) (hres : res.lsu.length = 9)
    {k : Nat} (hk : 120 ≤ k) (hk' : k < 128) : ∃ p, (d.roundTo m res (k : Int) : Out σ _) = .panic p := by
  have hfle := hd.frac_le
  unfold FixedDecimal.roundTo
  rw [setZero_eq hres]
  dsimp only
  rw [hd.intgUnits, hd.fracUnits]
  simp only [ok_bind]
  rw [if_pos (by rw [hd.frac_eq]; omega), wrap8_ok (by omega) (by omega)]
  obtain ⟨p, hp⟩ := getUnits_oob (σ := σ) (m := m) (x := (k : Int)) (by omega) (by omega)
  rw [hp]
  exact ⟨p, rfl⟩

theorem round_ext_same {σ : Type} (m : Mode) {d : FixedDecimal} (hd : WF d)
    {k : Nat} (hk : fracDigits d ≤ k) (he : unitsFor k = fu d) :
    (d.round m (k : Int) : Out σ _) = .ok (extended d k) := by
  have hfits := hd.fits
  have hk' : k < 120 := by unfold unitsFor at he; omega
  unfold FixedDecimal.round
  dsimp only
  rw [hd.intgUnits, hd.fracUnits]
  simp only [ok_bind]
  rw [if_pos (by rw [hd.frac_eq]; omega), wrap8_ok (by omega) (by omega), getUnits_nat hk']
  simp only [ok_bind]
  rw [if_pos (by exact_mod_cast he)]
  show Out.ok _ = _
  congr 1
  unfold extended
  rw [he, Nat.sub_self]
  have : shiftUp d.lsu 0 = d.lsu := by
    unfold shiftUp; simp [← hd.len]
  rw [this]

/-- Extending in place moves the units up but leaves the old low units where they were. -/
theorem round_ext_iff {σ : Type} (m : Mode) {d : FixedDecimal} (hd : WF d)
    {k : Nat} (hk : fracDigits d ≤ k) (h9 : iu d + unitsFor k ≤ 9) :
    (d.round m (k : Int) : Out σ _) = .ok (extended d k) ↔ ∀ i < unitsFor k - fu d, dg d.lsu i = 0 := by
  have hfits := hd.fits
  have hF : fu d ≤ unitsFor k := unitsFor_mono hk
  have hk' : k < 120 := by unfold unitsFor at h9; omega
  by_cases he : unitsFor k = fu d
  · rw [round_ext_same m hd hk he, he, Nat.sub_self]; simp
  unfold FixedDecimal.round
  dsimp only
  rw [hd.intgUnits, hd.fracUnits]
  simp only [ok_bind]
  rw [if_pos (by rw [hd.frac_eq]; omega), wrap8_ok (by omega) (by omega), getUnits_nat hk']
  simp only [ok_bind]
  rw [if_neg (by exact_mod_cast he), usz_ok (by unfold unitsFor at *; omega) (by unfold unitsFor at *; omega)]
  simp only [ok_bind]
  rw [copyWithin_ok (by omega) (by omega) (by rw [hd.len]; omega) (by omega) (by rw [hd.len]; omega)]
  simp only [ok_bind]
  have e1 : ((unitsFor k : Int) - (fu d : Int)).toNat = unitsFor k - fu d := by omega
  have e2 : ((fu d : Int) + (iu d : Int) - 0).toNat = fu d + iu d := by omega
  rw [e1, e2, Int.toNat_zero, List.drop_zero]
  set s := unitsFor k - fu d with hs
  have hlen : (d.lsu.take (fu d + iu d)).length = fu d + iu d := by
    rw [List.length_take, hd.len]; omega
  have hds : ∀ i < 9, dg (d.lsu.take s ++ d.lsu.take (fu d + iu d) ++ d.lsu.drop (s + (fu d + iu d))) i =
      if i < s then dg d.lsu i else dg (shiftUp d.lsu s) i := by
    intro i hi
    rw [dg_shiftUp hi, List.append_assoc, dg_append, List.length_take, hd.len, dg_append, hlen, dg_take]
    rw [show min s 9 = s by omega]
    split_ifs with h1 h2
    · rfl
    · rw [dg_take, if_pos h2]
    · rw [dg_drop, hd.highDg (by omega), hd.highDg (by omega)]
  have hl9 : (d.lsu.take s ++ d.lsu.take (fu d + iu d) ++ d.lsu.drop (s + (fu d + iu d))).length = 9 := by
    simp [hd.len]; omega
  constructor
  · intro h i hi
    have h1 := congrArg (fun o : Out σ FixedDecimal => match o with | .ok r => dg r.lsu i | _ => 0) h
    have h2 : dg (d.lsu.take s ++ d.lsu.take (fu d + iu d) ++ d.lsu.drop (s + (fu d + iu d))) i =
      dg (shiftUp d.lsu s) i := h1
    rw [hds i (by omega), if_pos hi, dg_shiftUp (by omega), if_pos hi] at h2
    exact h2
  · intro h
    show Out.ok _ = _
    have : d.lsu.take s ++ d.lsu.take (fu d + iu d) ++ d.lsu.drop (s + (fu d + iu d)) = shiftUp d.lsu s := by
      apply list_ext_dg
      · rw [hl9, len_shiftUp hd.len (by omega)]
      · intro i hi
        rw [hl9] at hi
        rw [hds i hi]
        split_ifs with h1
        · rw [h i h1, dg_shiftUp hi, if_pos h1]
        · rfl
    rw [this]
    rfl

end Fxd
