import Verif.Proofs.FormatLemmas
import Verif.Proofs.Dec
/-!
# `append_str_buf` as a whole
-/

namespace Fxd
open Spec

variable {σ : Type} {m : Mode}

theorem padDigits_mul (a b n : Nat) : padDigits (a + b) (n * 10 ^ b) = padDigits a n ++ List.replicate b 0 := by
  rw [padDigits_append, Nat.mul_div_cancel _ (by positivity)]
  congr 1
  have := padDigits_add_mul b n 0
  rw [Nat.zero_add] at this
  rw [this, padDigits_zero]

theorem cut_eq {d : FixedDecimal} (h : WF d) {M : Nat} (hM : mant d = (M : Int)) (k : Nat) :
    cut (val d) k = M * 10 ^ k / 10 ^ (9 * fu d) := by
  unfold cut
  rw [abs_val h, absVal, hM, Int.floor_toNat]
  have : (((M : Int) : ℚ) / 10 ^ (9 * fu d) * 10 ^ k) = ((M * 10 ^ k : Nat) : ℚ) / ((10 ^ (9 * fu d) : Nat) : ℚ) := by
    push_cast; ring
  rw [this, Rat.natFloor_natCast_div_natCast]

theorem decText_eq (ng : Bool) (N k : Nat) :
    decText ng N k = (if ng then [45] else []) ++ digitChars (natDigits (N / 10 ^ k)) ++
      (if k = 0 then [] else 46 :: digitChars (padDigits k N)) := by
  unfold decText decNumeral Numeral.render
  dsimp only
  rw [padDigits_mod]
  cases ng <;> by_cases h : k = 0 <;> simp [h, Sign.render]

/-- The number of digits after the point that `to_string(f)` shows. -/
def shownDigits (d : FixedDecimal) (f : Int) : Nat := if f < 0 then fracDigits d else f.toNat

/-- The whole formatter, as an equation. -/
theorem append_spec {d : FixedDecimal} (h : WF d) (buf : List Nat) (f : Int) :
    (FixedDecimal.appendStrBuf m d buf f : Out σ _) =
      .ok (buf ++ decText (neg d) (cut (val d) (shownDigits d f)) (shownDigits d f)) := by
  obtain ⟨M, hM⟩ := Int.eq_ofNat_of_zero_le h.mant_nonneg
  obtain ⟨P, hP⟩ := Int.eq_ofNat_of_zero_le (psum_nonneg h.dig (fu d))
  obtain ⟨I, hI⟩ := Int.eq_ofNat_of_zero_le
    (psum_nonneg (f := fun j => dg d.lsu (fu d + j)) (fun j => h.dig _) (iu d))
  have hfit := h.fits
  have hBn : 1000000000 ^ fu d = 10 ^ (9 * fu d) := by rw [pow_mul]; norm_num
  have hPl : P < 10 ^ (9 * fu d) := by
    have := psum_lt h.dig (fu d); rw [hP] at this; rw [← hBn]; exact_mod_cast this
  have hMeq : M = P + I * 10 ^ (9 * fu d) := by
    have := psum_add_len (dg d.lsu) (fu d) (iu d)
    rw [Nat.add_comm, ← h.mant_eq, hM, hP, hI] at this
    rw [← hBn]; zify; rw [this]; ring
  have hdiv : M / 10 ^ (9 * fu d) = I := by
    rw [hMeq, Nat.add_mul_div_right _ _ (by positivity), Nat.div_eq_of_lt hPl, Nat.zero_add]
  have hmod : M % 10 ^ (9 * fu d) = P := by
    rw [hMeq, Nat.add_mul_mod_self_right, Nat.mod_eq_of_lt hPl]
  -- the pieces of the expected text
  have hint : ∀ k, cut (val d) k / 10 ^ k = I := by
    intro k
    rw [cut_eq h hM, Nat.div_div_eq_div_mul, Nat.mul_comm (10 ^ (9 * fu d)), ← Nat.div_div_eq_div_mul,
      Nat.mul_div_cancel _ (by positivity), hdiv]
  have hlow : ∀ k, k ≤ 9 * fu d → padDigits k (cut (val d) k) = padDigits k (P / 10 ^ (9 * fu d - k)) := by
    intro k hk
    have e : cut (val d) k = M / 10 ^ (9 * fu d - k) := by
      rw [cut_eq h hM]
      conv_lhs => rw [← Nat.sub_add_cancel hk, pow_add]
      rw [Nat.mul_div_mul_right _ _ (by positivity)]
    have := padDigits_step (a := 0) (b := k) (c := 9 * fu d) (x := M) hk
    rw [Nat.zero_add, hmod] at this
    rw [e, this]; rfl
  have hhigh : ∀ k, 9 * fu d ≤ k → padDigits k (cut (val d) k) = padDigits (9 * fu d) P ++ List.replicate (k - 9 * fu d) 0 := by
    intro k hk
    have e : cut (val d) k = M * 10 ^ (k - 9 * fu d) := by
      rw [cut_eq h hM]
      conv_lhs => rw [← Nat.sub_add_cancel hk, pow_add, ← mul_assoc]
      rw [Nat.mul_div_cancel _ (by positivity)]
    have := padDigits_mul (9 * fu d) (k - 9 * fu d) M
    rw [Nat.add_sub_cancel' hk] at this
    rw [e, this, ← padDigits_mod (9 * fu d) M, hmod]
  have hnz : unitsFor (fracDigits d) = fu d := rfl
  have hfd : fracDigits d ≤ 9 * fu d := fracDigits_le_fu d
  have hfu0 : fu d = 0 ↔ fracDigits d = 0 := by unfold fu unitsFor; omega
  rw [decText_eq, hint]
  -- the integral part
  unfold FixedDecimal.appendStrBuf
  dsimp only
  rw [h.intgUnits, ok_bind, h.fracUnits, ok_bind]
  have hneg : d.isNeg = neg d := bv_isNeg d.intg
  rw [hneg]
  obtain ⟨buf0, hb⟩ : ∃ buf0, buf0 = (if neg d = true then buf ++ [45] else buf) := ⟨_, rfl⟩
  have hb' : buf0 = buf ++ (if neg d then [45] else []) := by rw [hb]; cases neg d <;> simp
  rw [← hb]
  have hintg : ((if (iu d : Int) > 0 then do
      let (buf, elim) ← intgStrLoop m d.lsu (fu d : Int) (iu d : Int).toNat buf0 true
      return if elim then buf ++ [48] else buf
    else return buf0 ++ [48] : Out σ (List Nat))) = .ok (buf0 ++ digitChars (natDigits I)) := by
    by_cases hi : iu d = 0
    · rw [if_neg (by omega)]
      have : I = 0 := by rw [hi, psum_zero] at hI; omega
      subst this; rfl
    · rw [if_pos (by omega), Int.toNat_natCast]
      have := intgStrLoop_spec (σ := σ) (m := m) h.dig (fu := fu d) (iu d) 0 I buf0 (by rw [h.len]; omega) hI.symm
      have e1 : (Written buf0 0).1 = buf0 := by unfold Written; rw [sigDigits_zero]; simp [digitChars]
      have e2 : (Written buf0 0).2 = true := rfl
      rw [e1, e2, Nat.zero_mul, Nat.zero_add] at this
      rw [this, ok_bind]
      dsimp only
      rw [pure_ok, natDigits_eq]
      unfold Written
      dsimp only
      by_cases h0 : I = 0
      · rw [h0, sigDigits_zero]; simp [digitChars]
      · rw [if_neg h0]; simp [h0]
  rw [hintg, ok_bind]
  have lsulen : fu d ≤ d.lsu.length := by rw [h.len]; omega
  have assemble : ∀ (k : Nat) (t : List Nat), t = (if k = 0 then [] else 46 :: digitChars (padDigits k (cut (val d) k))) →
      buf0 ++ digitChars (natDigits I) ++ t = buf ++ ((if neg d then [45] else []) ++ digitChars (natDigits I) ++
        (if k = 0 then [] else 46 :: digitChars (padDigits k (cut (val d) k)))) := by
    intro k t ht
    rw [ht, hb']; simp only [List.append_assoc]
  by_cases hf0 : f = 0
  · rw [if_pos hf0, hf0, pure_ok]
    have := assemble 0 [] rfl
    rw [List.append_nil] at this
    rw [this]; rfl
  rw [if_neg hf0]
  by_cases hfn : f < 0
  · have hk : shownDigits d f = fracDigits d := if_pos hfn
    rw [if_pos hfn, hk]
    by_cases hfu : fu d = 0
    · rw [if_neg (by omega), pure_ok, hfu0.mp hfu]
      have := assemble 0 [] rfl
      rw [List.append_nil] at this
      rw [this]
    · rw [if_pos (by omega), h.frac_eq, Int.toNat_natCast,
        appendFrac_spec h.dig (fu d) P (fracDigits d) _ lsulen hP.symm hfd (by have := h.frac_le; omega),
        ← assemble (fracDigits d) _ rfl, if_neg (by rw [← hfu0]; exact hfu), hlow _ hfd]
      simp only [List.append_assoc, List.cons_append, List.nil_append]
  rw [if_neg hfn]
  obtain ⟨k, rfl⟩ := Int.eq_ofNat_of_zero_le (show 0 ≤ f by omega)
  have hk : shownDigits d (k : Int) = k := by unfold shownDigits; rw [if_neg hfn, Int.toNat_natCast]
  have hk0 : k ≠ 0 := by omega
  rw [hk, ← assemble k _ rfl, if_neg hk0]
  by_cases hfu : fu d = 0
  · rw [if_pos (by omega), pure_ok, Int.toNat_natCast, hhigh k (by omega), hfu]
    simp only [Nat.mul_zero, padDigits, List.nil_append, digitChars_replicate, Nat.sub_zero, List.append_assoc, List.cons_append]
  rw [if_neg (by omega)]
  have hD : DIGITS_PER_UNIT = 9 := rfl
  rw [hD]
  by_cases hle : k ≤ 9 * fu d
  · rw [if_pos (by omega), wrap8_ok (by omega) (by omega), Int.toNat_natCast,
      appendFrac_spec h.dig (fu d) P k _ lsulen hP.symm hle (by omega), hlow _ hle]
    simp only [List.append_assoc, List.cons_append, List.nil_append]
  · rw [if_neg (by omega), wrap8_ok (by omega) (by omega), show (fu d : Int) * 9 = ((9 * fu d : Nat) : Int) by omega,
      Int.toNat_natCast, appendFrac_spec h.dig (fu d) P (9 * fu d) _ lsulen hP.symm le_rfl (by omega), ok_bind, pure_ok,
      hhigh k (by omega), digitChars_append, digitChars_replicate, Nat.sub_self, pow_zero, Nat.div_one,
      show ((k : Int) - ((9 * fu d : Nat) : Int)).toNat = k - 9 * fu d by omega]
    simp only [List.append_assoc, List.cons_append, List.nil_append]

end Fxd
