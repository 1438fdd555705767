import Verif.Model.Cmp
import Verif.Proofs.Dec
import Mathlib.Order.Compare
/-!
# Lemmas about comparison
-/

namespace Fxd
open Spec

theorem cmpExtra_spec {σ : Type} (lsu : List Int) (fu riu : Nat) (hit : Ordering) (hd : Dig (dg lsu)) :
    ∀ n : Nat, fu + n ≤ lsu.length →
    ((cmpExtra lsu riu hit n ((n : Int) + fu - 1) : Out σ _) = .ok (.inl hit) ∧
      ∃ k, fu + riu ≤ k ∧ k < fu + n ∧ 0 < dg lsu k) ∨
    ((cmpExtra lsu riu hit n ((n : Int) + fu - 1) : Out σ _)
        = .ok (.inr (((min n riu : Nat) : Int), ((min n riu : Nat) : Int) + fu - 1)) ∧
      ∀ k, fu + riu ≤ k → k < fu + n → dg lsu k = 0) := by
  intro n
  induction n with
  | zero =>
    intro _; right
    refine ⟨by simp [cmpExtra], by intro k h1 h2; omega⟩
  | succ n ih =>
    intro hlen
    by_cases hgt : ((n + 1 : Nat) : Int) > riu
    · have hidx : ((n + 1 : Nat) : Int) + fu - 1 = ((n + fu : Nat) : Int) := by push_cast; ring
      have hstep : (cmpExtra lsu riu hit (n + 1) (((n + 1 : Nat) : Int) + fu - 1) : Out σ _) =
          if dg lsu (n + fu) > 0 then .ok (.inl hit)
          else cmpExtra lsu riu hit n ((n : Int) + fu - 1) := by
        rw [cmpExtra, if_pos hgt, hidx, idx_nat (by omega)]
        simp only [ok_bind]
        split_ifs
        · rfl
        · congr 1
      rw [hstep]
      by_cases hp : dg lsu (n + fu) > 0
      · left; rw [if_pos hp]
        exact ⟨rfl, n + fu, by omega, by omega, hp⟩
      · rw [if_neg hp]
        have h0 : dg lsu (n + fu) = 0 := by have := (hd (n + fu)).1; omega
        rcases ih (by omega) with ⟨h1, k, h2, h3, h4⟩ | ⟨h1, h2⟩
        · left; exact ⟨h1, k, h2, by omega, h4⟩
        · right
          have hm : min (n + 1) riu = min n riu := by omega
          rw [hm]
          refine ⟨h1, ?_⟩
          intro k hk1 hk2
          by_cases hk : k = n + fu
          · rw [hk]; exact h0
          · exact h2 k hk1 (by omega)
    · right
      rw [cmpExtra, if_neg hgt]
      have hm : min (n + 1) riu = n + 1 := by omega
      rw [hm]
      refine ⟨rfl, ?_⟩
      intro k h1 h2; omega

theorem cmpCommon_spec {σ : Type} (l r : List Int) (a b : Nat)
    (hl : Dig (dg l)) (hr : Dig (dg r)) :
    ∀ n : Nat, a + n ≤ l.length → b + n ≤ r.length →
    ((cmpCommon l r n ((a : Int) + n - 1) ((b : Int) + n - 1) : Out σ _) = .ok (.inl .gt) ∧
      psum (fun i => dg r (b + i)) n < psum (fun i => dg l (a + i)) n) ∨
    ((cmpCommon l r n ((a : Int) + n - 1) ((b : Int) + n - 1) : Out σ _) = .ok (.inl .lt) ∧
      psum (fun i => dg l (a + i)) n < psum (fun i => dg r (b + i)) n) ∨
    ((cmpCommon l r n ((a : Int) + n - 1) ((b : Int) + n - 1) : Out σ _)
        = .ok (.inr ((a : Int) - 1, (b : Int) - 1)) ∧
      psum (fun i => dg l (a + i)) n = psum (fun i => dg r (b + i)) n) := by
  intro n
  induction n with
  | zero => intro _ _; right; right; simp [cmpCommon]
  | succ n ih =>
    intro h1 h2
    have e1 : (a : Int) + ((n + 1 : Nat) : Int) - 1 = ((a + n : Nat) : Int) := by push_cast; ring
    have e2 : (b : Int) + ((n + 1 : Nat) : Int) - 1 = ((b + n : Nat) : Int) := by push_cast; ring
    have hstep : (cmpCommon l r (n + 1) ((a : Int) + ((n + 1 : Nat) : Int) - 1)
          ((b : Int) + ((n + 1 : Nat) : Int) - 1) : Out σ _) =
        if dg l (a + n) > dg r (b + n) then .ok (.inl .gt)
        else if dg l (a + n) < dg r (b + n) then .ok (.inl .lt)
        else cmpCommon l r n ((a : Int) + n - 1) ((b : Int) + n - 1) := by
      rw [cmpCommon, e1, e2, idx_nat (by omega), idx_nat (by omega)]
      simp only [ok_bind]
      split_ifs
      · rfl
      · rfl
      · congr 1
    rw [hstep]
    have bl := psum_lt (f := fun i => dg l (a + i)) (fun i => hl _) n
    have br := psum_lt (f := fun i => dg r (b + i)) (fun i => hr _) n
    have nl := psum_nonneg (f := fun i => dg l (a + i)) (fun i => hl _) n
    have nr := psum_nonneg (f := fun i => dg r (b + i)) (fun i => hr _) n
    have hB : (0 : Int) < 1000000000 ^ n := by positivity
    rw [psum_succ, psum_succ]
    by_cases c1 : dg l (a + n) > dg r (b + n)
    · left; rw [if_pos c1]; refine ⟨rfl, ?_⟩
      have : (dg r (b + n) + 1) * 1000000000 ^ n ≤ dg l (a + n) * 1000000000 ^ n :=
        mul_le_mul_of_nonneg_right (by omega) hB.le
      linarith
    · rw [if_neg c1]
      by_cases c2 : dg l (a + n) < dg r (b + n)
      · right; left; rw [if_pos c2]; refine ⟨rfl, ?_⟩
        have : (dg l (a + n) + 1) * 1000000000 ^ n ≤ dg r (b + n) * 1000000000 ^ n :=
          mul_le_mul_of_nonneg_right (by omega) hB.le
        linarith
      · rw [if_neg c2]
        have heq : dg l (a + n) = dg r (b + n) := by omega
        rw [heq]
        rcases ih (by omega) (by omega) with ⟨h3, h4⟩ | ⟨h3, h4⟩ | ⟨h3, h4⟩
        · left; exact ⟨h3, by linarith⟩
        · right; left; exact ⟨h3, by linarith⟩
        · right; right; exact ⟨h3, by linarith⟩

theorem cmpTail_spec {σ : Type} (l : List Int) (hit : Ordering) (hl : Dig (dg l)) :
    ∀ n : Nat, n ≤ l.length →
    ((cmpTail l hit n : Out σ _) = .ok (some hit) ∧ 0 < psum (dg l) n) ∨
    ((cmpTail l hit n : Out σ _) = .ok none ∧ psum (dg l) n = 0) := by
  intro n
  induction n with
  | zero => intro _; right; simp [cmpTail]
  | succ n ih =>
    intro h
    rw [cmpTail, idx_nat (by omega)]
    simp only [ok_bind]
    by_cases hp : dg l n > 0
    · left; rw [if_pos hp]; refine ⟨rfl, ?_⟩
      have := psum_ge_of_pos hl (Nat.lt_succ_self n) hp
      have hB : (0 : Int) < 1000000000 ^ n := by positivity
      linarith
    · rw [if_neg hp]
      have h0 : dg l n = 0 := by have := (hl n).1; omega
      rw [psum_succ, h0]
      simpa using ih (by omega)

/-- `cmp_abs_lsu` compares the two numbers (brought to a common scale). -/
theorem cmpAbsLsu_spec {σ : Type} (l r : List Int) (liu lfu riu rfu : Nat)
    (hl : Dig (dg l)) (hr : Dig (dg r)) (hll : liu + lfu ≤ l.length) (hrl : riu + rfu ≤ r.length) :
    (cmpAbsLsu (liu : Int) (lfu : Int) l (riu : Int) (rfu : Int) r : Out σ Ordering) =
      .ok (compare (psum (dg l) (liu + lfu) * 1000000000 ^ rfu)
        (psum (dg r) (riu + rfu) * 1000000000 ^ lfu)) := by
  have hBl : (0 : Int) < 1000000000 ^ lfu := by positivity
  have hBr : (0 : Int) < 1000000000 ^ rfu := by positivity
  have boundl := psum_lt hl (liu + lfu)
  have boundr := psum_lt hr (riu + rfu)
  unfold cmpAbsLsu
  dsimp only
  rw [Int.toNat_natCast, Int.toNat_natCast]
  rcases cmpExtra_spec (σ := σ) l lfu riu .gt hl liu (by omega) with ⟨h1, k, h2, h3, h4⟩ | ⟨h1, h2⟩
  · rw [h1]
    simp only [ok_bind, pure_ok]
    congr 1; symm; rw [compare_gt_iff_gt]
    have h5 := psum_ge_of_pos hl (n := liu + lfu) (i := k) (by omega) h4
    have h6 : (1000000000 : Int) ^ (lfu + riu) ≤ 1000000000 ^ k :=
      pow_le_pow_right₀ (by norm_num) h2
    calc psum (dg r) (riu + rfu) * 1000000000 ^ lfu
        < 1000000000 ^ (riu + rfu) * 1000000000 ^ lfu := mul_lt_mul_of_pos_right boundr hBl
      _ = 1000000000 ^ (lfu + riu) * 1000000000 ^ rfu := by rw [← pow_add, ← pow_add]; congr 1; omega
      _ ≤ psum (dg l) (liu + lfu) * 1000000000 ^ rfu :=
          mul_le_mul_of_nonneg_right (le_trans h6 h5) hBr.le
  · rw [h1]
    simp only [ok_bind]
    have hL : psum (dg l) (liu + lfu) = psum (dg l) (min liu riu + lfu) :=
      psum_extend (by omega) fun i h3 h4 => by
        by_cases hle : liu ≤ riu
        · omega
        · exact h2 i (by omega) (by omega)
    rcases cmpExtra_spec (σ := σ) r rfu (min liu riu) .lt hr riu (by omega)
      with ⟨h3, k, h4, h5, h6⟩ | ⟨h3, h4⟩
    · rw [h3]
      simp only [ok_bind, pure_ok]
      congr 1; symm; rw [compare_lt_iff_lt]
      have h7 := psum_ge_of_pos hr (n := riu + rfu) (i := k) (by omega) h6
      have h8 : (1000000000 : Int) ^ (rfu + min liu riu) ≤ 1000000000 ^ k :=
        pow_le_pow_right₀ (by norm_num) h4
      have boundl' := psum_lt hl (min liu riu + lfu)
      rw [hL]
      calc psum (dg l) (min liu riu + lfu) * 1000000000 ^ rfu
          < 1000000000 ^ (min liu riu + lfu) * 1000000000 ^ rfu := mul_lt_mul_of_pos_right boundl' hBr
        _ = 1000000000 ^ (rfu + min liu riu) * 1000000000 ^ lfu := by
            rw [← pow_add, ← pow_add]; congr 1; omega
        _ ≤ psum (dg r) (riu + rfu) * 1000000000 ^ lfu :=
            mul_le_mul_of_nonneg_right (le_trans h8 h7) hBl.le
    · rw [h3]
      simp only [ok_bind]
      have hmm : min riu (min liu riu) = min liu riu := by omega
      rw [hmm]
      have hR : psum (dg r) (riu + rfu) = psum (dg r) (min liu riu + rfu) :=
        psum_extend (by omega) fun i h5 h6 => by
          by_cases hle : riu ≤ liu
          · omega
          · exact h4 i (by omega) (by omega)
      generalize hk : min liu riu = k at *
      obtain ⟨a, b, mn, ha, hb, hab⟩ : ∃ a b mn : Nat, lfu = a + mn ∧ rfu = b + mn ∧ (a = 0 ∨ b = 0) := by
        refine ⟨lfu - min lfu rfu, rfu - min lfu rfu, min lfu rfu, by omega, by omega, by omega⟩
      have hcnt : (min ((k : Int) + lfu - 1 + 1) ((k : Int) + rfu - 1 + 1)).toNat = k + mn := by
        omega
      rw [hcnt]
      have e1 : (k : Int) + lfu - 1 = (a : Int) + ((k + mn : Nat) : Int) - 1 := by
        rw [ha]; push_cast; ring
      have e2 : (k : Int) + rfu - 1 = (b : Int) + ((k + mn : Nat) : Int) - 1 := by
        rw [hb]; push_cast; ring
      rw [e1, e2, hL, hR]
      have sL : psum (dg l) (k + lfu) = psum (dg l) a
          + 1000000000 ^ a * psum (fun i => dg l (a + i)) (k + mn) := by
        rw [← psum_add_len]; congr 1; omega
      have sR : psum (dg r) (k + rfu) = psum (dg r) b
          + 1000000000 ^ b * psum (fun i => dg r (b + i)) (k + mn) := by
        rw [← psum_add_len]; congr 1; omega
      have la := psum_nonneg hl a
      have la' := psum_lt hl a
      have rb := psum_nonneg hr b
      have rb' := psum_lt hr b
      have hBa : (0 : Int) < 1000000000 ^ a := by positivity
      have hBb : (0 : Int) < 1000000000 ^ b := by positivity
      have hBm : (0 : Int) < 1000000000 ^ mn := by positivity
      have XL : psum (dg l) (k + lfu) * 1000000000 ^ rfu =
          (psum (dg l) a * 1000000000 ^ b + 1000000000 ^ a * 1000000000 ^ b *
            psum (fun i => dg l (a + i)) (k + mn)) * 1000000000 ^ mn := by
        rw [sL, hb, pow_add]; ring
      have XR : psum (dg r) (k + rfu) * 1000000000 ^ lfu =
          (psum (dg r) b * 1000000000 ^ a + 1000000000 ^ a * 1000000000 ^ b *
            psum (fun i => dg r (b + i)) (k + mn)) * 1000000000 ^ mn := by
        rw [sR, ha, pow_add]; ring
      rw [XL, XR]
      rcases cmpCommon_spec (σ := σ) l r a b hl hr (k + mn) (by omega) (by omega)
        with ⟨h5, h6⟩ | ⟨h5, h6⟩ | ⟨h5, h6⟩
      · rw [h5]; simp only [ok_bind, pure_ok]; congr 1; symm; rw [compare_gt_iff_gt]
        apply mul_lt_mul_of_pos_right _ hBm
        generalize psum (fun i => dg l (a + i)) (k + mn) = L at *
        generalize psum (fun i => dg r (b + i)) (k + mn) = R at *
        have h7 : 1000000000 ^ a * 1000000000 ^ b * (R + 1) ≤ 1000000000 ^ a * 1000000000 ^ b * L :=
          mul_le_mul_of_nonneg_left (by omega) (by positivity)
        have h8 : psum (dg r) b * 1000000000 ^ a < 1000000000 ^ b * 1000000000 ^ a :=
          mul_lt_mul_of_pos_right rb' hBa
        have h9 : 0 ≤ psum (dg l) a * 1000000000 ^ b := by positivity
        linarith
      · rw [h5]; simp only [ok_bind, pure_ok]; congr 1; symm; rw [compare_lt_iff_lt]
        apply mul_lt_mul_of_pos_right _ hBm
        generalize psum (fun i => dg l (a + i)) (k + mn) = L at *
        generalize psum (fun i => dg r (b + i)) (k + mn) = R at *
        have h7 : 1000000000 ^ a * 1000000000 ^ b * (L + 1) ≤ 1000000000 ^ a * 1000000000 ^ b * R :=
          mul_le_mul_of_nonneg_left (by omega) (by positivity)
        have h8 : psum (dg l) a * 1000000000 ^ b < 1000000000 ^ a * 1000000000 ^ b :=
          mul_lt_mul_of_pos_right la' hBb
        have h9 : 0 ≤ psum (dg r) b * 1000000000 ^ a := by positivity
        linarith
      · rw [h5]; simp only [ok_bind]
        have ea : ((a : Int) - 1 + 1).toNat = a := by omega
        have eb : ((b : Int) - 1 + 1).toNat = b := by omega
        rw [ea, eb, h6]
        generalize psum (fun i => dg r (b + i)) (k + mn) = R at *
        rcases cmpTail_spec (σ := σ) l .gt hl a (by omega) with ⟨h7, h8⟩ | ⟨h7, h8⟩
        · rw [h7]; simp only [ok_bind, pure_ok]; congr 1; symm; rw [compare_gt_iff_gt]
          have hb0 : b = 0 := by
            rcases hab with h | h
            · subst h; simp at h8
            · exact h
          subst hb0
          apply mul_lt_mul_of_pos_right _ hBm
          simp; exact h8
        · rw [h7]; simp only [ok_bind]
          rw [h8]
          rcases cmpTail_spec (σ := σ) r .lt hr b (by omega) with ⟨h9, h10⟩ | ⟨h9, h10⟩
          · rw [h9]; simp only [ok_bind, pure_ok]; congr 1; symm; rw [compare_lt_iff_lt]
            apply mul_lt_mul_of_pos_right _ hBm
            have : 0 < psum (dg r) b * 1000000000 ^ a := by positivity
            linarith
          · rw [h9]; simp only [ok_bind, pure_ok]; congr 1; symm; rw [compare_eq_iff_eq, h10]; ring

/-- Comparing scaled integers is comparing the fractions. -/
theorem compare_scaled (x y : Int) (a b : Nat) :
    compare (x * 1000000000 ^ b) (y * 1000000000 ^ a) =
      compare ((x : ℚ) / 10 ^ (9 * a)) ((y : ℚ) / 10 ^ (9 * b)) := by
  have h1 : (x : ℚ) / 10 ^ (9 * a) - (y : ℚ) / 10 ^ (9 * b) =
      ((x * 1000000000 ^ b - y * 1000000000 ^ a : Int) : ℚ) / (10 ^ (9 * a) * 10 ^ (9 * b)) := by
    push_cast; rw [pow9q, pow9q]; field_simp
  have hp : (0 : ℚ) < 10 ^ (9 * a) * 10 ^ (9 * b) := by positivity
  rcases lt_trichotomy (x * 1000000000 ^ b) (y * 1000000000 ^ a) with h | h | h
  · rw [compare_lt_iff_lt.mpr h, eq_comm, compare_lt_iff_lt, ← sub_neg, h1]
    apply div_neg_of_neg_of_pos _ hp
    exact_mod_cast sub_neg.mpr h
  · rw [compare_eq_iff_eq.mpr h, eq_comm, compare_eq_iff_eq, ← sub_eq_zero, h1, h]; simp
  · rw [compare_gt_iff_gt.mpr h, eq_comm, compare_gt_iff_gt, ← sub_pos, h1]
    apply div_pos _ hp
    exact_mod_cast sub_pos.mpr h

theorem cmpAbs_spec {σ : Type} (m : Mode) {a b : FixedDecimal} (ha : WF a) (hb : WF b) :
    (cmpAbs m a b : Out σ Ordering) = .ok (compare (absVal a) (absVal b)) := by
  unfold cmpAbs
  rw [ha.intgUnits, ha.fracUnits, hb.intgUnits, hb.fracUnits]
  simp only [ok_bind]
  rw [cmpAbsLsu_spec _ _ _ _ _ _ ha.dig hb.dig (by rw [ha.len]; exact ha.fits)
    (by rw [hb.len]; exact hb.fits), compare_scaled, ← ha.mant_eq, ← hb.mant_eq]
  rfl

end Fxd
