import Verif.Model.Div
import Verif.Proofs.AddLemmas
import Verif.Proofs.NoErr
/-!
# Lemmas for division: leading units, comparison of leading units, leading zeroes
-/

namespace Fxd
open Spec

variable {σ : Type} {m : Mode}

/-- `k` is the leading non-zero unit. -/
structure Top (l : List Int) (k : Nat) : Prop where
  lt : k < l.length
  pos : 0 < dg l k
  high : ∀ i, k < i → dg l i = 0

theorem findNonZero_spec {l : List Int} (hd : Dig (dg l)) :
    ∀ n, n ≤ l.length → (∃ k < n, (findNonZero l n : Out σ Int) = .ok (k : Int) ∧ 0 < dg l k ∧
      ∀ i, k < i → i < n → dg l i = 0) ∨
      ((findNonZero l n : Out σ Int) = .ok (-1) ∧ ∀ i < n, dg l i = 0)
  | 0, _ => Or.inr ⟨rfl, fun i hi => absurd hi (by omega)⟩
  | n + 1, hn => by
    unfold findNonZero
    rw [idx_nat (by omega), ok_bind]
    by_cases hp : 0 < dg l n
    · left
      refine ⟨n, by omega, ?_, hp, fun i h1 h2 => by omega⟩
      rw [if_pos hp]; rfl
    · have h0 : dg l n = 0 := by have := (hd n).1; omega
      rw [if_neg hp]
      rcases findNonZero_spec hd n (by omega) with ⟨k, hk, e, hpos, hh⟩ | ⟨e, hh⟩
      · left
        refine ⟨k, by omega, e, hpos, fun i h1 h2 => ?_⟩
        by_cases hi : i = n
        · rw [hi]; exact h0
        · exact hh i h1 (by omega)
      · right
        refine ⟨e, fun i hi => ?_⟩
        by_cases hi' : i = n
        · rw [hi']; exact h0
        · exact hh i (by omega)

theorem findNonZero_of_zero {d : FixedDecimal} (h : WF d) (hz : mant d = 0) :
    (findNonZero d.lsu ((iu d : Int) + (fu d : Int)).toNat : Out σ Int) = .ok (-1) := by
  rw [show ((iu d : Int) + (fu d : Int)).toNat = iu d + fu d by omega]
  rw [h.mant_eq, psum_eq_zero_iff h.dig] at hz
  rcases findNonZero_spec (σ := σ) h.dig (iu d + fu d) (by rw [h.len]; exact h.fits) with ⟨k, hk, _, hp, _⟩ | ⟨e, _⟩
  · exact absurd (hz k hk) (by omega)
  · exact e

theorem findNonZero_of_ne {d : FixedDecimal} (h : WF d) (hz : mant d ≠ 0) :
    ∃ k, k < iu d + fu d ∧ Top d.lsu k ∧
      ∀ σ : Type, (findNonZero d.lsu ((iu d : Int) + (fu d : Int)).toNat : Out σ Int) = .ok (k : Int) := by
  rw [show ((iu d : Int) + (fu d : Int)).toNat = iu d + fu d by omega]
  rw [Ne, h.mant_eq, psum_eq_zero_iff h.dig] at hz
  rcases findNonZero_spec (σ := Unit) h.dig (iu d + fu d) (by rw [h.len]; exact h.fits) with
    ⟨k, hk, e, hp, hh⟩ | ⟨_, hh⟩
  · refine ⟨k, hk, ⟨by rw [h.len]; have := h.fits; omega, hp, fun i hi => ?_⟩, fun σ => ?_⟩
    · by_cases hi' : i < iu d + fu d
      · exact hh i hi hi'
      · exact h.highDg (by omega)
    · rcases findNonZero_spec (σ := σ) h.dig (iu d + fu d) (by rw [h.len]; exact h.fits) with
        ⟨k', hk', e', hp', hh'⟩ | ⟨_, hh'⟩
      · have : k = k' := by
          by_contra hne
          rcases lt_or_gt_of_ne hne with h1 | h1
          · have := hh k' h1 hk'; omega
          · have := hh' k h1 hk; omega
        rw [this]; exact e'
      · exact absurd (hh' k hk) (by omega)
  · exact absurd hh hz

theorem Top.unique {l : List Int} {k k' : Nat} (h : Top l k) (h' : Top l k') : k = k' := by
  by_contra hne
  have a := h.pos
  have b := h'.pos
  rcases lt_or_gt_of_ne hne with h1 | h1
  · have := h.high k' h1; omega
  · have := h'.high k h1; omega

theorem Top.psum_eq {l : List Int} {k n : Nat} (h : Top l k) (hn : k < n) : psum (dg l) n = psum (dg l) (k + 1) :=
  psum_extend (by omega) fun i hi _ => h.high i (by omega)

theorem Top.psum_ge {l : List Int} {k : Nat} (h : Top l k) (hd : Dig (dg l)) : 1000000000 ^ k ≤ psum (dg l) (k + 1) :=
  psum_ge_of_pos hd (by omega) h.pos

theorem Top.mant {d : FixedDecimal} {k : Nat} (h : Top d.lsu k) (hw : WF d) : mant d = psum (dg d.lsu) (k + 1) := by
  rw [hw.mant_eq9, h.psum_eq (by have := h.lt; rw [hw.len] at this; exact this)]

theorem Top.mant_pos {d : FixedDecimal} {k : Nat} (h : Top d.lsu k) (hw : WF d) : 0 < Spec.mant d := by
  rw [h.mant hw]
  exact lt_of_lt_of_le (by positivity) (h.psum_ge hw.dig)

/-! ## Comparison of leading units -/

theorem unitsVal_append (a b : List Int) : unitsVal (a ++ b) = unitsVal a + 1000000000 ^ a.length * unitsVal b := by
  induction a with
  | nil => simp [unitsVal]
  | cons x xs ih => simp only [List.cons_append, unitsVal, ih, List.length_cons, pow_succ]; ring

theorem unitsVal_zeros (n : Nat) : unitsVal (List.replicate n 0) = 0 := by
  induction n with
  | zero => rfl
  | succ n ih => simp [List.replicate_succ, unitsVal, ih]

theorem unitsVal_bounds {l : List Int} (h : DigL l) : 0 ≤ unitsVal l ∧ unitsVal l < 1000000000 ^ l.length := by
  rw [unitsVal_eq_psum]; exact ⟨psum_nonneg h.dig _, psum_lt h.dig _⟩

theorem DigL.reverse {l : List Int} (h : DigL l) : DigL l.reverse := fun u hu => h u (List.mem_reverse.mp hu)

theorem geWalk_spec : ∀ {x y : List Int}, DigL x → DigL y → x.length = y.length →
    (geWalk x y = true ↔ unitsVal y.reverse ≤ unitsVal x.reverse)
  | [], [], _, _, _ => by simp [geWalk]
  | [], _ :: _, _, _, h => by simp at h
  | _ :: _, [], _, _, h => by simp at h
  | x :: xs, y :: ys, hx, hy, h => by
    have hl : xs.length = ys.length := by simpa using h
    have hxs : DigL xs := fun u hu => hx u (List.mem_cons_of_mem _ hu)
    have hys : DigL ys := fun u hu => hy u (List.mem_cons_of_mem _ hu)
    have ih := geWalk_spec hxs hys hl
    obtain ⟨bx0, bx1⟩ := unitsVal_bounds hxs.reverse
    obtain ⟨by0, by1⟩ := unitsVal_bounds hys.reverse
    simp only [List.reverse_cons, unitsVal_append, List.length_reverse, unitsVal, geWalk, mul_zero, add_zero] at *
    rw [← hl] at *
    set P : Int := 1000000000 ^ xs.length with hP
    have hP0 : 0 < P := by positivity
    by_cases h1 : x > y
    · rw [if_pos h1]
      simp only [true_iff]
      nlinarith
    · rw [if_neg h1]
      by_cases h2 : x < y
      · rw [if_pos h2]
        simp only [Bool.false_eq_true, false_iff, not_le]
        nlinarith
      · rw [if_neg h2, ih, show x = y by omega]
        constructor <;> intro h3 <;> linarith

theorem unitsGreaterEqual_spec {l r : List Int} (hl : DigL l) (hr : DigL r) :
    unitsGreaterEqual l r = true ↔ unitsVal r * 1000000000 ^ l.length ≤ unitsVal l * 1000000000 ^ r.length := by
  unfold unitsGreaterEqual
  split_ifs with h
  · rw [geWalk_spec hl.reverse (hr.reverse.append (.replicate _)) (by simp; omega)]
    rw [List.reverse_append, List.reverse_reverse, List.reverse_reverse, List.reverse_replicate, unitsVal_append,
      unitsVal_zeros, List.length_replicate, zero_add,
      show (1000000000 : Int) ^ l.length = 1000000000 ^ (l.length - r.length) * 1000000000 ^ r.length by
        rw [← pow_add]; congr 1; omega, ← mul_assoc, mul_comm (unitsVal r)]
    exact (mul_le_mul_iff_of_pos_right (by positivity)).symm
  · rw [geWalk_spec (hl.reverse.append (.replicate _)) hr.reverse (by simp; omega)]
    rw [List.reverse_append, List.reverse_reverse, List.reverse_reverse, List.reverse_replicate, unitsVal_append,
      unitsVal_zeros, List.length_replicate, zero_add,
      show (1000000000 : Int) ^ r.length = 1000000000 ^ (r.length - l.length) * 1000000000 ^ l.length by
        rw [← pow_add]; congr 1; omega, ← mul_assoc, mul_comm (unitsVal l)]
    exact (mul_le_mul_iff_of_pos_right (by positivity)).symm

/-! ## Leading zeroes of a unit -/

theorem ulz_nat {v : Int} (h0 : 0 < v) (h1 : v < 1000000000) :
    ∃ z : Nat, unitLeadingZeroes v = (z : Int) ∧ z ≤ 8 ∧ 10 ^ (8 - z) ≤ v ∧ v < 10 ^ (9 - z) := by
  unfold unitLeadingZeroes
  split_ifs
  · exact ⟨0, rfl, by norm_num, by norm_num; omega, by norm_num; omega⟩
  · exact ⟨1, rfl, by norm_num, by norm_num; omega, by norm_num; omega⟩
  · exact ⟨2, rfl, by norm_num, by norm_num; omega, by norm_num; omega⟩
  · exact ⟨3, rfl, by norm_num, by norm_num; omega, by norm_num; omega⟩
  · exact ⟨4, rfl, by norm_num, by norm_num; omega, by norm_num; omega⟩
  · exact ⟨5, rfl, by norm_num, by norm_num; omega, by norm_num; omega⟩
  · exact ⟨6, rfl, by norm_num, by norm_num; omega, by norm_num; omega⟩
  · exact ⟨7, rfl, by norm_num, by norm_num; omega, by norm_num; omega⟩
  · exact ⟨8, rfl, by norm_num, by norm_num; omega, by norm_num; omega⟩
  · omega

theorem ulz_anti {v w : Int} (h0 : 0 < v) (h : v ≤ w) (hw : w < 1000000000) :
    unitLeadingZeroes w ≤ unitLeadingZeroes v := by
  obtain ⟨a, ea, ha, a1, a2⟩ := ulz_nat h0 (lt_of_le_of_lt h hw)
  obtain ⟨b, eb, hb, b1, b2⟩ := ulz_nat (lt_of_lt_of_le h0 h) hw
  rw [ea, eb]
  have h3 : (10 : Int) ^ (8 - a) < 10 ^ (9 - b) := lt_of_le_of_lt (a1.trans h) b2
  rw [pow_lt_pow_iff_right₀ (by norm_num)] at h3
  omega

end Fxd
