import Verif.Proofs.RoundLemmas
/-!
# `round` and `round_to` reduced to `round_half_up`
-/

namespace Fxd
open Spec

/-- Drop the `s` lowest units. -/
def shiftDown (l : List Int) (s : Nat) : List Int := l.drop s ++ List.replicate s 0

theorem dg_shiftDown {l : List Int} {s p : Nat} : dg (shiftDown l s) p = dg l (s + p) := by
  unfold shiftDown
  rw [dg_append]
  split_ifs with h
  · exact dg_drop
  · rw [dg_replicate, dg_out]; rw [List.length_drop] at h; omega

theorem len_shiftDown {l : List Int} {s : Nat} (h : s ≤ l.length) : (shiftDown l s).length = l.length := by
  unfold shiftDown; simp; omega

theorem DigL.shiftDown {l : List Int} (h : DigL l) (s : Nat) : DigL (shiftDown l s) :=
  (h.drop s).append (DigL.replicate s)

theorem eq_shiftDown {x l : List Int} {s : Nat} (hs : s ≤ 9) (hl : l.length = 9) (hx : x.length = 9)
    (h : ∀ p < 9, dg x p = dg l (s + p)) : x = shiftDown l s := by
  apply list_ext_dg
  · rw [len_shiftDown (by omega), hx, hl]
  · intro i hi; rw [dg_shiftDown]; exact h i (by omega)

theorem psum_shiftDown {d : FixedDecimal} (h : WF d) {s : Nat} (hs : s ≤ 9) :
    psum (dg (shiftDown d.lsu s)) 9 = mant d / 1000000000 ^ s := by
  rw [h.mant_eq9, psum_div_mod h.dig hs]
  have e : (dg (shiftDown d.lsu s)) = fun i => dg d.lsu (s + i) := by funext i; exact dg_shiftDown
  rw [e]
  exact psum_extend (by omega) (fun i h1 _ => by rw [dg_out]; rw [h.len]; omega)

/-- `round_half_up` looks only at the units and the sign flag. -/
theorem roundHalfUp_congr {σ : Type} {m : Mode} {a b : FixedDecimal} {I F t rf c : Int} (hl : a.lsu = b.lsu)
    (hs : a.isNeg = b.isNeg) : (roundHalfUp m a I F t rf c : Out σ _) = roundHalfUp m b I F t rf c := by
  unfold roundHalfUp
  rw [hl, hs]

/-- The rounding carry at a unit edge: is the first dropped unit at least one half? -/
def edgeCarry (d : FixedDecimal) (k : Nat) : Int :=
  if k % 9 = 0 then (if dg d.lsu (fu d - unitsFor k - 1) ≥ 500000000 then 1 else 0) else 0

/-- Common form of `round(k)` and `round_to(k)` for `0 ≤ k < frac`. -/
def roundPos {σ : Type} (m : Mode) (d : FixedDecimal) (k : Nat) : Out σ FixedDecimal :=
  roundHalfUp m { d with lsu := shiftDown d.lsu (fu d - unitsFor k) } (iu d) (unitsFor k)
    ((9 * unitsFor k - k : Nat) : Int) k (edgeCarry d k)

theorem getUnits_succ {σ : Type} {m : Mode} {k : Nat} (hk : k < 81) :
    (i8 m (wrap 8 (k : Int) + 1) >>= fun x => getUnits m x : Out σ Int) = .ok ((k / 9 + 1 : Nat) : Int) := by
  rw [wrap8_ok (by omega) (by omega), i8_ok (by omega) (by omega)]
  simp only [ok_bind]
  rw [show ((k : Int) + 1) = ((k + 1 : Nat) : Int) by push_cast; rfl, getUnits_nat (by omega)]
  unfold unitsFor
  rw [show (k + 1 + 8) / 9 = k / 9 + 1 by omega]

theorem unitsFor_edge {k : Nat} (h : k % 9 = 0) : unitsFor k = k / 9 := by unfold unitsFor; omega
theorem unitsFor_in {k : Nat} (h : k % 9 ≠ 0) : unitsFor k = k / 9 + 1 := by unfold unitsFor; omega
theorem unitsFor_le {k n : Nat} (h : k < n) : k / 9 + 1 ≤ unitsFor n := by unfold unitsFor; omega

theorem roundTo_pos {σ : Type} (m : Mode) {d res : FixedDecimal} (hd : WF d) (hres : res.lsu.length = 9)
    {k : Nat} (hk : k < fracDigits d) : (d.roundTo m res (k : Int) : Out σ _) = roundPos m d k := by
  have hkf := unitsFor_le hk
  have hfu : unitsFor (fracDigits d) = fu d := rfl
  rw [hfu] at hkf
  have hfits := hd.fits
  have hfle := hd.frac_le
  have hz9 : FixedDecimal.zero.lsu.length = 9 := rfl
  have hzz : ∀ p, dg FixedDecimal.zero.lsu p = 0 := fun p => dg_replicate
  unfold FixedDecimal.roundTo roundPos
  rw [setZero_eq hres]
  dsimp only
  rw [hd.intgUnits, hd.fracUnits]
  simp only [ok_bind]
  rw [if_neg (by rw [hd.frac_eq]; omega), if_neg (by omega)]
  have hg := getUnits_succ (σ := σ) (m := m) (show k < 81 by omega)
  obtain ⟨x, hx, hx'⟩ := bind_eq_ok.mp hg
  rw [hx]; simp only [ok_bind]
  rw [hx']; simp only [ok_bind]
  have hmod : (mod9 (wrap 8 (k : Int)) : Out σ Int) = .ok ((k % 9 : Nat) : Int) := by
    rw [wrap8_ok (by omega) (by omega), mod9_nat (by omega)]
  have hw : wrap 8 (k : Int) = k := wrap8_ok (by omega) (by omega)
  rw [hmod, hw]
  -- the copied units
  have hcopy : ∀ F : Nat, F ≤ fu d → ∃ sl, 
      ((slice d.lsu ((fu d : Int) - (F : Int)) ((fu d : Int) + (iu d : Int)) >>= fun src =>
        copyFromSlice FixedDecimal.zero.lsu 0 ((F : Int) + (iu d : Int)) src : Out σ _) = .ok sl) ∧
      sl = shiftDown d.lsu (fu d - F) := by
    intro F hF
    rw [slice_ok (by omega) (by omega) (by rw [hd.len]; omega)]
    simp only [ok_bind]
    have e1 : ((fu d : Int) - (F : Int)).toNat = fu d - F := by omega
    have e2 : ((fu d : Int) + (iu d : Int) - ((fu d : Int) - (F : Int))).toNat = F + iu d := by omega
    rw [e1, e2]
    have hlen : ((d.lsu.drop (fu d - F)).take (F + iu d)).length = F + iu d := by
      rw [List.length_take, List.length_drop, hd.len]; omega
    rw [copyFromSlice_ok (by omega) (by omega) (by rw [hz9]; omega) (by rw [hlen]; push_cast; omega)]
    refine ⟨_, rfl, eq_shiftDown (by omega) hd.len ?_ ?_⟩
    · have e3 : ((F : Int) + (iu d : Int)).toNat = F + iu d := by omega
      rw [e3]; simp [hz9, hd.len]; omega
    · intro p hp
      have e3 : ((F : Int) + (iu d : Int)).toNat = F + iu d := by omega
      rw [e3, Int.toNat_zero, List.take_zero, List.nil_append, dg_append, hlen]
      split_ifs with h
      · rw [dg_slice h]
      · rw [dg_drop, hzz, hd.highDg (by omega)]
  by_cases hlt : k / 9 + 1 < fu d
  · rw [if_pos (by omega)]
    simp only [ok_bind]
    by_cases hm : k % 9 = 0
    · rw [if_pos (by omega), idx_ok (by omega) (by rw [hd.len]; omega)]
      simp only [ok_bind]
      rw [usz_ok (by omega) (by omega)]
      simp only [ok_bind, pure_ok]
      have hF := unitsFor_edge hm
      obtain ⟨sl, hsl, hsl'⟩ := hcopy (unitsFor k) (by omega)
      obtain ⟨src, hs1, hs2⟩ := bind_eq_ok.mp hsl
      have e1 : (((k / 9 + 1 : Nat) : Int) - 1) = (unitsFor k : Int) := by omega
      rw [e1, hs1]; simp only [ok_bind]; rw [hs2]; simp only [ok_bind]
      rw [hsl']
      have e2 : ((fu d : Int) - ((k / 9 + 1 : Nat) : Int)).toNat = fu d - unitsFor k - 1 := by omega
      have e3 : (unitsFor k : Int) * DIGITS_PER_UNIT - (k : Int) = ((9 * unitsFor k - k : Nat) : Int) := by
        unfold DIGITS_PER_UNIT; omega
      rw [e2, e3]
      have e4 : edgeCarry d k = (if dg d.lsu (fu d - unitsFor k - 1) ≥ HALF_UNIT then 1 else 0) := by
        unfold edgeCarry HALF_UNIT; rw [if_pos hm]
      rw [e4]
      exact roundHalfUp_congr rfl rfl
    · rw [if_neg (by omega)]
      simp only [ok_bind, pure_ok]
      have hF := unitsFor_in hm
      obtain ⟨sl, hsl, hsl'⟩ := hcopy (unitsFor k) (by omega)
      obtain ⟨src, hs1, hs2⟩ := bind_eq_ok.mp hsl
      rw [← hF, hs1]; simp only [ok_bind]; rw [hs2]; simp only [ok_bind]
      rw [hsl']
      have e3 : (unitsFor k : Int) * DIGITS_PER_UNIT - (k : Int) = ((9 * unitsFor k - k : Nat) : Int) := by
        unfold DIGITS_PER_UNIT; omega
      have e4 : edgeCarry d k = 0 := by unfold edgeCarry; rw [if_neg hm]
      rw [e3, e4]
      exact roundHalfUp_congr rfl rfl
  · have heq : k / 9 + 1 = fu d := by omega
    rw [if_neg (by omega)]
    have hda : (dassert m (((k / 9 + 1 : Nat) : Int) == (fu d : Int)) : Out σ Unit) = .ok () := by
      cases m <;> simp [dassert, ← heq]
    rw [hda]
    simp only [ok_bind]
    by_cases hm : k % 9 = 0
    · rw [if_pos (by omega), idx_ok (by omega) (by rw [hd.len]; omega)]
      simp only [ok_bind]
      rw [usz_ok (by omega) (by omega)]
      simp only [ok_bind]
      have hF := unitsFor_edge hm
      obtain ⟨sl, hsl, hsl'⟩ := hcopy (unitsFor k) (by omega)
      obtain ⟨src, hs1, hs2⟩ := bind_eq_ok.mp hsl
      have e1 : ((fu d : Int) - (unitsFor k : Int)) = 1 := by omega
      have e2 : ((unitsFor k : Int) + (iu d : Int)) = (fu d : Int) + (iu d : Int) - 1 := by omega
      rw [e1] at hs1
      rw [e2] at hs2
      rw [hs1]; simp only [ok_bind]; rw [hs2]; simp only [ok_bind]
      rw [usz_ok (by omega) (by omega)]
      simp only [ok_bind]
      rw [hsl']
      have e3 : ((fu d : Int) - 1) = (unitsFor k : Int) := by omega
      have e4 : (unitsFor k : Int) * DIGITS_PER_UNIT - (k : Int) = ((9 * unitsFor k - k : Nat) : Int) := by
        unfold DIGITS_PER_UNIT; omega
      rw [e3, e4]
      have e5 : edgeCarry d k = (if dg d.lsu (Int.toNat 0) ≥ HALF_UNIT then 1 else 0) := by
        unfold edgeCarry HALF_UNIT; rw [if_pos hm]
        rw [show fu d - unitsFor k - 1 = Int.toNat 0 by simp; omega]
      rw [e5]
      exact roundHalfUp_congr rfl rfl
    · rw [if_neg (by omega)]
      have hF := unitsFor_in hm
      have e3 : (fu d : Int) * DIGITS_PER_UNIT - (k : Int) = ((9 * unitsFor k - k : Nat) : Int) := by
        unfold DIGITS_PER_UNIT; omega
      have e4 : edgeCarry d k = 0 := by unfold edgeCarry; rw [if_neg hm]
      have e6 : unitsFor k = fu d := by omega
      rw [e3, e4, e6, Nat.sub_self]
      have e5 : shiftDown d.lsu 0 = d.lsu := by simp [shiftDown]
      rw [e5]
      exact roundHalfUp_congr rfl rfl

theorem round_pos {σ : Type} (m : Mode) {d : FixedDecimal} (hd : WF d)
    {k : Nat} (hk : k < fracDigits d) : (d.round m (k : Int) : Out σ _) = roundPos m d k := by
  have hkf := unitsFor_le hk
  have hfu : unitsFor (fracDigits d) = fu d := rfl
  rw [hfu] at hkf
  have hfits := hd.fits
  have hfle := hd.frac_le
  unfold FixedDecimal.round roundPos
  dsimp only
  rw [hd.intgUnits, hd.fracUnits]
  simp only [ok_bind]
  rw [if_neg (by rw [hd.frac_eq]; omega), if_neg (by omega)]
  have hg := getUnits_succ (σ := σ) (m := m) (show k < 81 by omega)
  obtain ⟨x, hx, hx'⟩ := bind_eq_ok.mp hg
  rw [hx]; simp only [ok_bind]
  rw [hx']; simp only [ok_bind]
  have hmod : (mod9 (wrap 8 (k : Int)) : Out σ Int) = .ok ((k % 9 : Nat) : Int) := by
    rw [wrap8_ok (by omega) (by omega), mod9_nat (by omega)]
  have hw : wrap 8 (k : Int) = k := wrap8_ok (by omega) (by omega)
  rw [hmod, hw]
  -- the moved units
  have hmove : ∀ F : Nat, F ≤ fu d → ∃ l1, 
      (copyWithin d.lsu ((fu d : Int) - (F : Int)) ((fu d : Int) + (iu d : Int)) 0 : Out σ _) = .ok l1 ∧
      l1.length = 9 ∧ ∀ p, dg l1 p = if p < F + iu d then dg d.lsu (fu d - F + p) else dg d.lsu p := by
    intro F hF
    rw [copyWithin_ok (by omega) (by omega) (by rw [hd.len]; omega) (by omega) (by rw [hd.len]; omega)]
    have e1 : ((fu d : Int) - (F : Int)).toNat = fu d - F := by omega
    have e2 : ((fu d : Int) + (iu d : Int) - ((fu d : Int) - (F : Int))).toNat = F + iu d := by omega
    rw [e1, e2]
    have hlen : ((d.lsu.drop (fu d - F)).take (F + iu d)).length = F + iu d := by
      rw [List.length_take, List.length_drop, hd.len]; omega
    refine ⟨_, rfl, ?_, ?_⟩
    · rw [List.length_append, List.length_append, hlen]; simp [hd.len]; omega
    · intro p
      rw [Int.toNat_zero, List.take_zero, List.nil_append, dg_append, hlen]
      split_ifs with h
      · rw [dg_slice h]
      · rw [dg_drop]; rw [show 0 + (F + iu d) + (p - (F + iu d)) = p by omega]
  by_cases hlt : k / 9 + 1 < fu d
  · -- zeroing
    have hzr : ∀ F : Nat, F ≤ fu d → ∃ l1, 
      (copyWithin d.lsu ((fu d : Int) - (F : Int)) ((fu d : Int) + (iu d : Int)) 0 : Out σ _) = .ok l1 ∧
      (zeroRange l1 ((F : Int) + (iu d : Int)) ((fu d : Int) + (iu d : Int)) : Out σ _)
        = .ok (shiftDown d.lsu (fu d - F)) := by
      intro F hF
      obtain ⟨l1, h1, h2, h3⟩ := hmove F hF
      refine ⟨l1, h1, ?_⟩
      rw [zeroRange_ok (by omega) (by omega) (by omega)]
      have e1 : ((F : Int) + (iu d : Int)).toNat = F + iu d := by omega
      have e2 : ((fu d : Int) + (iu d : Int) - ((F : Int) + (iu d : Int))).toNat = fu d - F := by omega
      have e3 : ((fu d : Int) + (iu d : Int)).toNat = fu d + iu d := by omega
      rw [e1, e2, e3]
      apply congrArg Out.ok
      apply eq_shiftDown (by omega) hd.len
      · simp [h2]; omega
      · intro p hp
        have hlt' : (l1.take (F + iu d)).length = F + iu d := by rw [List.length_take]; omega
        rw [dg_append, dg_append, List.length_append, hlt', List.length_replicate]
        by_cases h4 : p < F + iu d
        · rw [if_pos (by omega), if_pos h4, dg_take, if_pos h4, h3, if_pos h4]
        · by_cases h5 : p < fu d + iu d
          · rw [if_pos (by omega), if_neg h4, dg_replicate, hd.highDg (by omega)]
          · rw [if_neg (by omega), dg_drop, h3, if_neg (by omega), hd.highDg (by omega), hd.highDg (by omega)]
    rw [if_pos (by omega)]
    simp only [ok_bind]
    by_cases hm : k % 9 = 0
    · rw [if_pos (by omega), idx_ok (by omega) (by rw [hd.len]; omega)]
      simp only [ok_bind]
      rw [usz_ok (by omega) (by omega)]
      simp only [ok_bind, pure_ok]
      have hF := unitsFor_edge hm
      obtain ⟨l1, hs1, hs2⟩ := hzr (unitsFor k) (by omega)
      have e1 : (((k / 9 + 1 : Nat) : Int) - 1) = (unitsFor k : Int) := by omega
      rw [e1, hs1]; simp only [ok_bind]; rw [hs2]; simp only [ok_bind]
      have e2 : ((fu d : Int) - ((k / 9 + 1 : Nat) : Int)).toNat = fu d - unitsFor k - 1 := by omega
      have e3 : (unitsFor k : Int) * DIGITS_PER_UNIT - (k : Int) = ((9 * unitsFor k - k : Nat) : Int) := by
        unfold DIGITS_PER_UNIT; omega
      rw [e2, e3]
      have e4 : edgeCarry d k = (if dg d.lsu (fu d - unitsFor k - 1) ≥ HALF_UNIT then 1 else 0) := by
        unfold edgeCarry HALF_UNIT; rw [if_pos hm]
      rw [e4]
    · rw [if_neg (by omega)]
      simp only [ok_bind, pure_ok]
      have hF := unitsFor_in hm
      obtain ⟨l1, hs1, hs2⟩ := hzr (unitsFor k) (by omega)
      rw [← hF, hs1]; simp only [ok_bind]; rw [hs2]; simp only [ok_bind]
      have e3 : (unitsFor k : Int) * DIGITS_PER_UNIT - (k : Int) = ((9 * unitsFor k - k : Nat) : Int) := by
        unfold DIGITS_PER_UNIT; omega
      have e4 : edgeCarry d k = 0 := by unfold edgeCarry; rw [if_neg hm]
      rw [e3, e4]
  · have heq : k / 9 + 1 = fu d := by omega
    rw [if_neg (by omega)]
    have hda : (dassert m (((k / 9 + 1 : Nat) : Int) == (fu d : Int)) : Out σ Unit) = .ok () := by
      cases m <;> simp [dassert, ← heq]
    rw [hda]
    simp only [ok_bind]
    by_cases hm : k % 9 = 0
    · rw [if_pos (by omega), idx_ok (by omega) (by rw [hd.len]; omega)]
      simp only [ok_bind]
      have hF := unitsFor_edge hm
      obtain ⟨l1, h1, h2, h3⟩ := hmove (unitsFor k) (by omega)
      have e1 : ((fu d : Int) - (unitsFor k : Int)) = 1 := by omega
      rw [e1] at h1
      rw [h1]; simp only [ok_bind]
      rw [usz_ok (by omega) (by omega)]; simp only [ok_bind]
      rw [upd_ok (by omega) (by rw [h2]; omega)]; simp only [ok_bind]
      rw [usz_ok (by omega) (by omega)]
      simp only [ok_bind]
      have e2 : ((fu d : Int) + (iu d : Int) - 1).toNat = fu d + iu d - 1 := by omega
      have hsl : l1.set (fu d + iu d - 1) 0 = shiftDown d.lsu (fu d - unitsFor k) := by
        apply eq_shiftDown (by omega) hd.len (by simp [h2])
        intro p hp
        rw [dg_set (by omega)]
        split_ifs with h5
        · rw [hd.highDg (by omega)]
        · rw [h3]
          split_ifs with h6
          · rfl
          · rw [hd.highDg (by omega), hd.highDg (by omega)]
      rw [e2, hsl]
      have e3 : ((fu d : Int) - 1) = (unitsFor k : Int) := by omega
      have e4 : (unitsFor k : Int) * DIGITS_PER_UNIT - (k : Int) = ((9 * unitsFor k - k : Nat) : Int) := by
        unfold DIGITS_PER_UNIT; omega
      rw [e3, e4]
      have e5 : edgeCarry d k = (if dg d.lsu (Int.toNat 0) ≥ HALF_UNIT then 1 else 0) := by
        unfold edgeCarry HALF_UNIT; rw [if_pos hm]
        rw [show fu d - unitsFor k - 1 = Int.toNat 0 by simp; omega]
      rw [e5]
    · rw [if_neg (by omega)]
      have hF := unitsFor_in hm
      have e3 : (fu d : Int) * DIGITS_PER_UNIT - (k : Int) = ((9 * unitsFor k - k : Nat) : Int) := by
        unfold DIGITS_PER_UNIT; omega
      have e4 : edgeCarry d k = 0 := by unfold edgeCarry; rw [if_neg hm]
      have e6 : unitsFor k = fu d := by omega
      rw [e3, e4, e6, Nat.sub_self]
      have e5 : shiftDown d.lsu 0 = d.lsu := by simp [shiftDown]
      rw [e5]

/-! ## Negative precision -/

/-- Common form of `round(-j)` and `round_to(-j)` for `0 < j`. -/
def roundNeg {σ : Type} (m : Mode) (d : FixedDecimal) (j : Nat) : Out σ FixedDecimal :=
  if intgDigits d ≤ j then .ok FixedDecimal.zero
  else roundHalfUp m { d with lsu := shiftDown d.lsu (fu d) } (iu d) (0 : Nat) (j : Int) (0 : Nat) 0

/-- `round_to` at a negative precision, whatever 64-bit negation and increment give. -/
theorem roundTo_negG {σ : Type} (m : Mode) {d res : FixedDecimal} (hd : WF d) (hres : res.lsu.length = 9)
    {k i i1 : Int} (hk : k < 0) (z1 : (isz m (-k) : Out σ Int) = .ok i) (z2 : (isz m (i + 1) : Out σ Int) = .ok i1) :
    (d.roundTo m res k : Out σ _) = if i1 > intgDigits d then .ok FixedDecimal.zero
      else roundHalfUp m { d with lsu := shiftDown d.lsu (fu d) } (iu d) (0 : Nat) i (0 : Nat) 0 := by
  have hfits := hd.fits
  have hfle := hd.frac_le
  have hz9 : FixedDecimal.zero.lsu.length = 9 := rfl
  have hzz : ∀ p, dg FixedDecimal.zero.lsu p = 0 := fun p => dg_replicate
  unfold FixedDecimal.roundTo
  rw [setZero_eq hres]
  dsimp only
  rw [hd.intgUnits, hd.fracUnits]
  simp only [ok_bind]
  rw [if_neg (by rw [hd.frac_eq]; omega), if_pos hk, z1]
  simp only [ok_bind]
  rw [z2, intgDigits_eq]
  simp only [ok_bind]
  by_cases h : i1 > intgDigits d
  · rw [if_pos h, if_pos h]
    simp only [pure_ok]
    congr 1
  · rw [if_neg h, if_neg h]
    rw [slice_ok (by omega) (by omega) (by rw [hd.len]; omega)]
    simp only [ok_bind]
    have e1 : ((fu d : Int)).toNat = fu d := by omega
    have e2 : ((fu d : Int) + (iu d : Int) - (fu d : Int)).toNat = iu d := by omega
    have e3 : ((iu d : Int)).toNat = iu d := by omega
    rw [e1, e2]
    have hlen : ((d.lsu.drop (fu d)).take (iu d)).length = iu d := by
      rw [List.length_take, List.length_drop, hd.len]; omega
    rw [copyFromSlice_ok (by omega) (by omega) (by rw [hz9]; omega) (by rw [hlen]; omega)]
    simp only [ok_bind]
    have hsl : FixedDecimal.zero.lsu.take (Int.toNat 0) ++ (d.lsu.drop (fu d)).take (iu d)
        ++ FixedDecimal.zero.lsu.drop (iu d : Int).toNat = shiftDown d.lsu (fu d) := by
      apply eq_shiftDown (by omega) hd.len
      · rw [e3]; simp [hz9, hd.len]; omega
      · intro p hp
        rw [e3, Int.toNat_zero, List.take_zero, List.nil_append, dg_append, hlen]
        split_ifs with h
        · rw [dg_slice h]
        · rw [dg_drop, hzz, hd.highDg (by omega)]
    rw [hsl]
    exact roundHalfUp_congr rfl rfl

theorem roundTo_neg {σ : Type} (m : Mode) {d res : FixedDecimal} (hd : WF d) (hres : res.lsu.length = 9)
    {j : Nat} (hj : 0 < j) (hj' : j < 9223372036854775807) :
    (d.roundTo m res (-(j : Int)) : Out σ _) = roundNeg m d j := by
  rw [roundTo_negG m hd hres (i := j) (i1 := j + 1) (by omega) (by rw [neg_neg, isz_ok (by omega) (by omega)])
    (by rw [isz_ok (by omega) (by omega)])]
  unfold roundNeg
  by_cases h : intgDigits d ≤ j
  · rw [if_pos (by omega), if_pos h]
  · rw [if_neg (by omega), if_neg h]

/-- `round` at a negative precision, whatever 64-bit negation and increment give. -/
theorem round_negG {σ : Type} (m : Mode) {d : FixedDecimal} (hd : WF d)
    {k i i1 : Int} (hk : k < 0) (z1 : (isz m (-k) : Out σ Int) = .ok i) (z2 : (isz m (i + 1) : Out σ Int) = .ok i1) :
    (d.round m k : Out σ _) = if i1 > intgDigits d then .ok FixedDecimal.zero
      else roundHalfUp m { d with lsu := shiftDown d.lsu (fu d) } (iu d) (0 : Nat) i (0 : Nat) 0 := by
  have hfits := hd.fits
  have hfle := hd.frac_le
  unfold FixedDecimal.round
  dsimp only
  rw [hd.intgUnits, hd.fracUnits]
  simp only [ok_bind]
  rw [if_neg (by rw [hd.frac_eq]; omega), if_pos hk, z1]
  simp only [ok_bind]
  rw [z2, intgDigits_eq]
  simp only [ok_bind]
  by_cases h : i1 > intgDigits d
  · rw [if_pos h, if_pos h, setZero_eq hd.len]
    rfl
  · rw [if_neg h, if_neg h]
    rw [copyWithin_ok (by omega) (by omega) (by rw [hd.len]; omega) (by omega) (by rw [hd.len]; omega)]
    simp only [ok_bind]
    have e1 : ((fu d : Int)).toNat = fu d := by omega
    have e2 : ((fu d : Int) + (iu d : Int) - (fu d : Int)).toNat = iu d := by omega
    have e3 : ((iu d : Int)).toNat = iu d := by omega
    rw [e1, e2]
    have hlen : ((d.lsu.drop (fu d)).take (iu d)).length = iu d := by
      rw [List.length_take, List.length_drop, hd.len]; omega
    have hl1 : (d.lsu.take (Int.toNat 0) ++ (d.lsu.drop (fu d)).take (iu d)
        ++ d.lsu.drop (Int.toNat 0 + iu d)).length = 9 := by
      rw [List.length_append, List.length_append, hlen]; simp [hd.len]; omega
    have hdg1 : ∀ p, dg (d.lsu.take (Int.toNat 0) ++ (d.lsu.drop (fu d)).take (iu d)
        ++ d.lsu.drop (Int.toNat 0 + iu d)) p = if p < iu d then dg d.lsu (fu d + p) else dg d.lsu p := by
      intro p
      rw [Int.toNat_zero, List.take_zero, List.nil_append, dg_append, hlen]
      split_ifs with h
      · rw [dg_slice h]
      · rw [dg_drop]; congr 1; omega
    set l1 := (d.lsu.take (Int.toNat 0) ++ (d.lsu.drop (fu d)).take (iu d)
        ++ d.lsu.drop (Int.toNat 0 + iu d))
    rw [zeroRange_ok (by omega) (by omega) (by omega)]
    simp only [ok_bind]
    have hsl : l1.take (iu d : Int).toNat ++ List.replicate ((fu d : Int) + (iu d : Int) - (iu d : Int)).toNat 0
        ++ l1.drop ((fu d : Int) + (iu d : Int)).toNat = shiftDown d.lsu (fu d) := by
      have e5 : ((fu d : Int) + (iu d : Int) - (iu d : Int)).toNat = fu d := by omega
      have e6 : ((fu d : Int) + (iu d : Int)).toNat = fu d + iu d := by omega
      rw [e3, e5, e6]
      apply eq_shiftDown (by omega) hd.len
      · simp [hl1]; omega
      · intro p hp
        have hlt' : (l1.take (iu d)).length = iu d := by rw [List.length_take]; omega
        rw [dg_append, dg_append, List.length_append, hlt', List.length_replicate]
        by_cases h4 : p < iu d
        · rw [if_pos (by omega), if_pos h4, dg_take, if_pos h4, hdg1, if_pos h4]
        · by_cases h5 : p < fu d + iu d
          · rw [if_pos (by omega), if_neg h4, dg_replicate, hd.highDg (by omega)]
          · rw [if_neg (by omega), dg_drop, hdg1, if_neg (by omega), hd.highDg (by omega), hd.highDg (by omega)]
    rw [hsl]
    exact roundHalfUp_congr rfl rfl

theorem round_neg {σ : Type} (m : Mode) {d : FixedDecimal} (hd : WF d)
    {j : Nat} (hj : 0 < j) (hj' : j < 9223372036854775807) :
    (d.round m (-(j : Int)) : Out σ _) = roundNeg m d j := by
  rw [round_negG m hd (i := j) (i1 := j + 1) (by omega) (by rw [neg_neg, isz_ok (by omega) (by omega)])
    (by rw [isz_ok (by omega) (by omega)])]
  unfold roundNeg
  by_cases h : intgDigits d ≤ j
  · rw [if_pos (by omega), if_pos h]
  · rw [if_neg (by omega), if_neg h]


end Fxd
