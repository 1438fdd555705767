import Verif.Proofs.DivTail
/-!
# The steps of the long division
-/

namespace Fxd
open Spec

variable {σ : Type} {m : Mode}

/-! ## Normalisation -/

theorem normLoop_spec {f : Int} (hf0 : 0 < f) (hf1 : f ≤ 1000000000) : ∀ (l : List Int) (c : Int), DigL l → 0 ≤ c → c < f →
    ∃ l' c', (normLoop m f l c : Out σ _) = .ok (l', c') ∧ l'.length = l.length ∧ DigL l' ∧ 0 ≤ c' ∧ c' < f ∧
      unitsVal l * f + c = unitsVal l' + 1000000000 ^ l.length * c'
  | [], c, _, h0, h1 => ⟨[], c, rfl, rfl, fun u hu => by simp at hu, h0, h1, by simp [unitsVal]⟩
  | v :: vs, c, hl, h0, h1 => by
    have hv := hl v (by simp)
    have hvs : DigL vs := fun u hu => hl u (List.mem_cons_of_mem _ hu)
    have p0 : 0 ≤ v * f := mul_nonneg hv.1 hf0.le
    have p1 : v * f ≤ 999999999 * f := mul_le_mul_of_nonneg_right (by omega) hf0.le
    unfold normLoop UNIT
    rw [i64_ok (by omega) (by omega), ok_bind, i64_ok (by omega) (by omega), ok_bind]
    dsimp only
    rw [Int.tdiv_eq_ediv_of_nonneg (by omega)]
    obtain ⟨u, hu⟩ : ∃ u, u = v * f + c := ⟨_, rfl⟩
    rw [← hu]
    have hu0 : 0 ≤ u := by omega
    have hu1 : u < 1000000000 * f := by omega
    rw [i64_ok (by omega) (by omega), ok_bind, i64_ok (by omega) (by omega), ok_bind]
    obtain ⟨l', c', e, hlen, hd, c0, c1, heq⟩ := normLoop_spec hf0 hf1 vs (u / 1000000000) hvs (by omega)
      (by omega)
    rw [e, ok_bind, wrap32_ok (by omega) (by omega)]
    refine ⟨_, _, rfl, by simp [hlen], ?_, c0, c1, ?_⟩
    · intro x hx
      rcases List.mem_cons.mp hx with rfl | hx
      · omega
      · exact hd x hx
    · simp only [unitsVal, List.length_cons, pow_succ]
      have : (v + 1000000000 * unitsVal vs) * f + c = u + 1000000000 * (unitsVal vs * f) := by rw [hu]; ring
      rw [this]
      have h3 : unitsVal vs * f = unitsVal l' + 1000000000 ^ vs.length * c' - u / 1000000000 := by linarith
      rw [h3]
      ring_nf

/-! ## Guessing a quotient unit -/

theorem qhatLoop_spec {d0 d1 u u2 T : Int} (hd0 : 0 < d0) (hd0' : d0 < 1000000000) (hd1 : 0 ≤ d1 ∧ d1 < 1000000000)
    (hu2 : 0 ≤ u2 ∧ u2 < 1000000000)
    (hT0 : 0 ≤ T) (hTB : T ≤ 2000000000) (hT1 : T * (d0 * 1000000000 + d1) ≤ u * 1000000000 + u2)
    (hT2 : u * 1000000000 + u2 < (T + 1) * (d0 * 1000000000 + d1)) :
    ∀ (fuel : Nat) (q r : Int), q < fuel → T ≤ q → q < 2000000001 → r = u - q * d0 → 0 ≤ r →
      (qhatLoop m d0 d1 u2 fuel q r : Out σ Int) = .ok T
  | 0, q, r, hf, hq, _, _, _ => by
    push_cast at hf; omega
  | fuel + 1, q, r, hf, hq, hq2, hr, hr0 => by
    have a0 : 0 ≤ q * d1 := mul_nonneg (by omega) hd1.1
    have a1 : q * d1 ≤ 2000000001 * 999999999 :=
      mul_le_mul (by omega) (by omega) hd1.1 (by norm_num)
    have hTd : T * d1 ≤ 2000000000 * 999999999 := mul_le_mul hTB (by omega) hd1.1 (by norm_num)
    have b0 : r ≤ u - T * d0 := by rw [hr]; nlinarith
    have b1 : (u - T * d0) * 1000000000 < 4000000000 * 1000000000 := by nlinarith
    have b2 : r < 4000000000 := by omega
    unfold qhatLoop UNIT
    rw [i64_ok (by omega) (by omega), ok_bind, i64_ok (by omega) (by omega), ok_bind, i64_ok (by omega) (by omega), ok_bind]
    by_cases hc : q * d1 > r * 1000000000 + u2
    · rw [if_pos hc, i64_ok (by omega) (by omega), ok_bind, i64_ok (by omega) (by omega), ok_bind]
      have hqT : T < q := by
        by_contra hle
        have : q = T := by omega
        subst this
        rw [hr] at hc
        nlinarith
      exact qhatLoop_spec hd0 hd0' hd1 hu2 hT0 hTB hT1 hT2 fuel (q - 1) (r + d0) (by push_cast at hf; omega) (by omega)
        (by omega) (by rw [hr]; ring) (by omega)
    · rw [if_neg hc]
      have : q = T := by
        by_contra hne
        have h1 : T + 1 ≤ q := by omega
        have h2 : (T + 1) * (d0 * 1000000000 + d1) ≤ q * (d0 * 1000000000 + d1) :=
          mul_le_mul_of_nonneg_right h1 (by omega)
        rw [hr] at hc
        nlinarith
      rw [this]; rfl

/-- The guess is the quotient of the three leading units by the two leading units of the divisor. -/
theorem guessQ_spec {buf1 : List Int} (hb : Dig (dg buf1)) {i : Int} (hi : 0 ≤ i) (hi1 : i + 1 < buf1.length) {d0 d1 : Int}
    (hn : 500000000 ≤ d0) (hd0' : d0 < 1000000000) (hd1 : 0 ≤ d1 ∧ d1 < 1000000000) :
    (guessQ m buf1 i d0 d1 : Out σ Int) =
      if m = .debug ∧ 1000000000 ≤ (ext buf1 (i + 1) * 1000000000 + ext buf1 i) / d0 then .panic .assert
      else .ok (((ext buf1 (i + 1) * 1000000000 + ext buf1 i) * 1000000000 + ext buf1 (i - 1)) /
        (d0 * 1000000000 + d1)) := by
  have hd0 : 0 < d0 := by omega
  have g0 := ext_dig hb (i + 1)
  have g1 := ext_dig hb i
  have g2 := ext_dig hb (i - 1)
  have e0 : (idx buf1 (i + 1) : Out σ Int) = .ok (ext buf1 (i + 1)) := by
    rw [idx_ok (by omega) hi1]; unfold ext; rw [if_pos (by omega)]
  have e1 : (idx buf1 i : Out σ Int) = .ok (ext buf1 i) := by
    rw [idx_ok (by omega) (by omega)]; unfold ext; rw [if_pos (by omega)]
  have e2 : (if i > 0 then idx buf1 (i - 1) else .ok 0 : Out σ Int) = .ok (ext buf1 (i - 1)) := by
    split_ifs with h
    · rw [idx_ok (by omega) (by omega)]; unfold ext; rw [if_pos (by omega)]
    · rw [ext_neg (by omega)]
  unfold guessQ UNIT
  rw [e0, ok_bind, if_pos (by omega), e1, ok_bind, e2]
  clear e0 e1 e2
  generalize ext buf1 (i + 1) = u0 at *
  generalize ext buf1 i = u1 at *
  generalize ext buf1 (i - 1) = u2 at *
  rw [i64_ok (by omega) (by omega), ok_bind, i64_ok (by omega) (by omega), ok_bind, idiv_ok (by omega) hd0, ok_bind]
  obtain ⟨u, hu'⟩ : ∃ u, u0 * 1000000000 + u1 = u := ⟨_, rfl⟩
  rw [hu']
  have hu01 : u < 1000000000000000000 := by omega
  have hu00 : 0 ≤ u := by omega
  have hm := Int.mul_ediv_add_emod u d0
  have hm0 := Int.emod_nonneg u hd0.ne'
  have hm1 := Int.emod_lt_of_pos u hd0
  have hq0 : 0 ≤ u / d0 := Int.ediv_nonneg hu00 hd0.le
  have hcomm : u / d0 * d0 = d0 * (u / d0) := mul_comm _ _
  have hq1 : u / d0 < 2000000001 := by
    apply Int.ediv_lt_of_lt_mul hd0
    omega
  rw [i64_ok (by omega) (by omega), ok_bind, i64_ok (by omega) (by omega), ok_bind]
  set D := d0 * 1000000000 + d1 with hD
  have hD0 : 0 < D := by omega
  have hN0 : 0 ≤ u * 1000000000 + u2 := by omega
  have hT1 := Int.ediv_mul_le (u * 1000000000 + u2) hD0.ne'
  have hT2 := Int.lt_ediv_add_one_mul_self (u * 1000000000 + u2) hD0
  have hT0 : 0 ≤ (u * 1000000000 + u2) / D := Int.ediv_nonneg hN0 hD0.le
  have hTB : (u * 1000000000 + u2) / D ≤ 2000000000 := by
    have : (u * 1000000000 + u2) / D < 2000000001 := by
      apply Int.ediv_lt_of_lt_mul hD0
      omega
    omega
  have hTq : (u * 1000000000 + u2) / D ≤ u / d0 := by
    rw [Int.le_ediv_iff_mul_le hd0]
    have h1 : (u * 1000000000 + u2) / D * d0 * 1000000000 ≤ (u * 1000000000 + u2) / D * D := by
      have : (u * 1000000000 + u2) / D * D = (u * 1000000000 + u2) / D * d0 * 1000000000 +
        (u * 1000000000 + u2) / D * d1 := by rw [hD]; ring
      rw [this]
      have := mul_nonneg hT0 hd1.1
      omega
    omega
  have hloop := qhatLoop_spec (σ := σ) (m := m) (u := u) (u2 := u2) hd0 hd0' hd1 g2 hT0 hTB hT1 hT2 qhatFuel (u / d0)
    (u - u / d0 * d0) (by unfold qhatFuel; push_cast; omega) hTq hq1 rfl (by omega)
  cases m
  · unfold dassert
    dsimp only
    by_cases hlt : u / d0 < 1000000000
    · rw [if_pos (by simpa using hlt), if_neg (by omega), ok_bind, ok_bind, hloop]
    · rw [if_neg (by simpa using hlt), if_pos ⟨rfl, by omega⟩]; rfl
  · unfold dassert
    rw [if_neg (show ¬ (Mode.release = Mode.debug ∧ 1000000000 ≤ u / d0) by simp), ok_bind, ok_bind, hloop]

/-! ## Multiply and subtract -/

theorem psum_head (f : Nat → Int) (n : Nat) : psum f (n + 1) = f 0 + 1000000000 * psum (fun t => f (t + 1)) n := by
  rw [show n + 1 = 1 + n by ring, psum_add_len]
  simp only [psum_succ, psum_zero, pow_zero, mul_one, zero_add, pow_one, add_comm]

theorem mulSub_spec {q : Int} (hq0 : 0 ≤ q) (hq1 : q ≤ 2000000000) {buf2 : List Int} (hb2 : Dig (dg buf2)) :
    ∀ (n k : Nat) (ms : Int) (buf1 : List Int) (c b : Int), k + n ≤ buf2.length → ms + n ≤ buf1.length →
      Dig (dg buf1) → 0 ≤ c → c ≤ 2000000000 → (b = 0 ∨ b = -1) →
      ∃ buf1' c' b' D, (mulSub m q buf2 n (k : Int) ms buf1 c b : Out σ _) = .ok (buf1', c', b') ∧
        buf1'.length = buf1.length ∧ (∀ t, 0 ≤ D t ∧ D t < 1000000000) ∧
        (∀ p : Nat, dg buf1' p = if ms ≤ p ∧ (p : Int) < ms + n then D (p - ms).toNat else dg buf1 p) ∧
        0 ≤ c' ∧ c' ≤ 2000000000 ∧ (b' = 0 ∨ b' = -1) ∧
        psum (fun t => ext buf1 (ms + t)) n + b - q * psum (fun t => dg buf2 (k + t)) n - c =
          psum D n + 1000000000 ^ n * (b' - c')
  | 0, k, ms, buf1, c, b, _, _, _, hc0, hc1, hb => by
    refine ⟨buf1, c, b, fun _ => 0, rfl, rfl, fun _ => by norm_num, fun p => ?_, hc0, hc1, hb, by simp⟩
    rw [if_neg (by push_cast; omega)]
  | n + 1, k, ms, buf1, c, b, hk, hms, hd, hc0, hc1, hb => by
    have hv := hb2 k
    have p0 : 0 ≤ q * dg buf2 k := mul_nonneg hq0 hv.1
    have p1 : q * dg buf2 k ≤ 2000000000 * 999999999 := mul_le_mul hq1 (by omega) hv.1 (by norm_num)
    unfold mulSub UNIT
    rw [idx_nat (by omega), ok_bind, i64_ok (by omega) (by omega), ok_bind, i64_ok (by omega) (by omega), ok_bind]
    dsimp only
    rw [Int.tdiv_eq_ediv_of_nonneg (by omega)]
    obtain ⟨u, hu⟩ : ∃ u, u = q * dg buf2 k + c := ⟨_, rfl⟩
    rw [← hu]
    have hu0 : 0 ≤ u := by omega
    have hu1 : u ≤ 2000000000 * 1000000000 := by omega
    rw [i64_ok (by omega) (by omega), ok_bind, i64_ok (by omega) (by omega), ok_bind, wrap32_ok (by omega) (by omega)]
    have hext := ext_dig hd ms
    obtain ⟨s, b1, es, hs, hb1, heq⟩ := subWithBorrow_spec (σ := σ) m hext
      (show 0 ≤ u - u / 1000000000 * 1000000000 ∧ u - u / 1000000000 * 1000000000 < 1000000000 by omega) hb
    push_cast at hms
    by_cases hneg : ms < 0
    · rw [if_pos hneg]
      rw [ext_neg hneg] at es heq
      rw [es, ok_bind]
      obtain ⟨buf1', c', b', D, e, hl, hD, hp, c0, c1, hb', hsum⟩ := mulSub_spec hq0 hq1 hb2 n (k + 1) (ms + 1) buf1
        (u / 1000000000) b1 (by omega) (by omega) hd (by omega) (by omega) hb1
      refine ⟨buf1', c', b', fun t => if t = 0 then s else D (t - 1), by push_cast at e; exact e, hl, fun t => ?_, fun p => ?_,
        c0, c1, hb', ?_⟩
      · dsimp only; split_ifs
        · exact hs
        · exact hD _
      · rw [hp p]
        push_cast
        by_cases h1 : ms + 1 ≤ (p : Int) ∧ (p : Int) < ms + 1 + n
        · rw [if_pos h1, if_pos (by omega), if_neg (by omega)]; congr 1; omega
        · rw [if_neg h1, if_neg (by omega)]
      · rw [psum_head, psum_head, psum_head (fun t => if t = 0 then s else D (t - 1))]
        simp only [Nat.cast_zero, add_zero, if_true, Nat.add_sub_cancel, if_neg (Nat.succ_ne_zero _)]
        rw [ext_neg hneg]
        have e1 : (fun t : Nat => ext buf1 (ms + ((t + 1 : Nat) : Int))) = fun t : Nat => ext buf1 (ms + 1 + (t : Int)) := by
          funext t; congr 1; push_cast; ring
        have e2 : (fun t : Nat => dg buf2 (k + (t + 1))) = fun t => dg buf2 (k + 1 + t) := by
          funext t; congr 1; ring
        rw [e1, e2]
        generalize psum (fun t : Nat => ext buf1 (ms + 1 + (t : Int))) n = X at *
        generalize psum (fun t => dg buf2 (k + 1 + t)) n = Y at *
        generalize psum D n = Z at *
        have hq' : q * (dg buf2 k + 1000000000 * Y) = (u - c) + 1000000000 * (q * Y) := by rw [hu]; ring
        rw [hq', pow_succ]
        generalize (1000000000 : Int) ^ n = P at *
        have : P * 1000000000 * (b' - c') = 1000000000 * (P * (b' - c')) := by ring
        rw [this]
        omega
    · rw [if_neg hneg]
      have hidx : (idx buf1 ms : Out σ Int) = .ok (ext buf1 ms) := by
        rw [idx_ok (by omega) (by omega)]; unfold ext; rw [if_pos (by omega)]
      rw [hidx, ok_bind, es, ok_bind, upd_ok (by omega) (by omega), ok_bind]
      have hd' : Dig (dg (buf1.set ms.toNat s)) := by
        intro p
        rw [dg_set (by omega)]
        split_ifs
        · exact hs
        · exact hd p
      obtain ⟨buf1', c', b', D, e, hl, hD, hp, c0, c1, hb', hsum⟩ := mulSub_spec hq0 hq1 hb2 n (k + 1) (ms + 1)
        (buf1.set ms.toNat s) (u / 1000000000) b1 (by omega) (by rw [List.length_set]; omega) hd' (by omega) (by omega) hb1
      refine ⟨buf1', c', b', fun t => if t = 0 then s else D (t - 1), by push_cast at e; exact e,
        by rw [hl, List.length_set], fun t => ?_, fun p => ?_, c0, c1, hb', ?_⟩
      · dsimp only; split_ifs
        · exact hs
        · exact hD _
      · rw [hp p]
        push_cast
        by_cases h1 : ms + 1 ≤ (p : Int) ∧ (p : Int) < ms + 1 + n
        · rw [if_pos h1, if_pos (by omega), if_neg (by omega)]; congr 1; omega
        · rw [if_neg h1, dg_set (by omega)]
          by_cases h2 : p = ms.toNat
          · rw [if_pos h2, if_pos (by omega), if_pos (by omega)]
          · rw [if_neg h2, if_neg (by omega)]
      · rw [psum_head, psum_head, psum_head (fun t => if t = 0 then s else D (t - 1))]
        simp only [Nat.cast_zero, add_zero, if_true, Nat.add_sub_cancel, if_neg (Nat.succ_ne_zero _)]
        have e1 : (fun t : Nat => ext buf1 (ms + ((t + 1 : Nat) : Int))) =
            fun t : Nat => ext (buf1.set ms.toNat s) (ms + 1 + (t : Int)) := by
          funext t
          unfold ext
          rw [if_pos (by omega), if_pos (by omega), dg_set_ne (by omega)]; congr 1; push_cast; omega
        have e2 : (fun t : Nat => dg buf2 (k + (t + 1))) = fun t => dg buf2 (k + 1 + t) := by
          funext t; congr 1; ring
        rw [e1, e2]
        generalize psum (fun t : Nat => ext (buf1.set ms.toNat s) (ms + 1 + (t : Int))) n = X at *
        generalize psum (fun t => dg buf2 (k + 1 + t)) n = Y at *
        generalize psum D n = Z at *
        have hq' : q * (dg buf2 k + 1000000000 * Y) = (u - c) + 1000000000 * (q * Y) := by rw [hu]; ring
        rw [hq', pow_succ]
        generalize (1000000000 : Int) ^ n = P at *
        have : P * 1000000000 * (b' - c') = 1000000000 * (P * (b' - c')) := by ring
        rw [this]
        omega

end Fxd
