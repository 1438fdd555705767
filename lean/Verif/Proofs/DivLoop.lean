import Verif.Proofs.DivLong
/-!
# The loop of the long division
-/

namespace Fxd
open Spec

variable {σ : Type} {m : Mode}

/-- Window of `nr + 2` units ending at position `i + 1`. -/
def win2 (buf1 : List Int) (nr : Nat) (i : Int) : Int := psum (fun t => ext buf1 (i - nr + t)) (nr + 2)

theorem ext_digf {l : List Int} (h : Dig (dg l)) (i : Int) : Dig fun t => ext l (i + t) := fun _ => ext_dig h _

/-- Bounds on the window, the divisor and the guess, from their leading parts. -/
theorem guess_bounds {P U d lw lr W R q : Int} (hP : 0 < P) (hW : W = lw + P * U) (hR : R = lr + P * d) (l0 : 0 ≤ lw)
    (l1 : lw < P) (r0 : 0 ≤ lr) (r1 : lr < P) (hq0 : 0 ≤ q) (hqB : q ≤ 2000000000) (hT1 : q * d ≤ U)
    (hT2 : U < (q + 1) * d) :
    W < (q + 1) * R ∧ q * R - W < P * 1000000000 ^ 2 ∧ (lr = 0 → q * R ≤ W) ∧ q * R - W < 2000000000 * P := by
  have e1 : P * (U + 1) ≤ P * ((q + 1) * d) := mul_le_mul_of_nonneg_left (by omega) hP.le
  have e2 : 0 ≤ (q + 1) * lr := mul_nonneg (by omega) r0
  have e3 : P * (q * d) ≤ P * U := mul_le_mul_of_nonneg_left hT1 hP.le
  have e4 : q * lr ≤ q * P := mul_le_mul_of_nonneg_left r1.le hq0
  have e5 : q * P ≤ 2000000000 * P := mul_le_mul_of_nonneg_right hqB hP.le
  have e6 : (q + 1) * R = (q + 1) * lr + P * ((q + 1) * d) := by rw [hR]; ring
  have e7 : q * R = q * lr + P * (q * d) := by rw [hR]; ring
  have e8 : P * (U + 1) = P * U + P := by ring
  have e9 : P * 1000000000 ^ 2 = 1000000000000000000 * P := by ring
  refine ⟨by rw [e6]; omega, by rw [e7, e9]; omega, fun hz => ?_, ?_⟩
  · rw [e7, hz, mul_zero]; omega
  · have e10 : q * lr ≤ q * (P - 1) := mul_le_mul_of_nonneg_left (by omega) hq0
    have e11 : q * (P - 1) ≤ 2000000000 * (P - 1) := mul_le_mul_of_nonneg_right hqB (by omega)
    rw [e7]; omega

theorem sign_bounds {X W q R z s : Int} (hX : 0 < X) (hs : W - q * R = z + X * s) (z0 : 0 ≤ z) (z1 : z < X)
    (h1 : W < (q + 1) * R) (h2 : q * R - W < X) (hR : R < X) :
    (W < q * R → s = -1) ∧ (q * R ≤ W → s = 0 ∧ z = W - q * R) := by
  have e0 : (q + 1) * R = q * R + R := by ring
  have a1 : s < 1 := by
    by_contra h
    have : X * 1 ≤ X * s := mul_le_mul_of_nonneg_left (by omega) hX.le
    omega
  have a2 : -2 < s := by
    by_contra h
    have : X * s ≤ X * (-2) := mul_le_mul_of_nonneg_left (by omega) hX.le
    omega
  constructor
  · intro h
    have : s ≠ 0 := by rintro rfl; simp at hs; omega
    omega
  · intro h
    have : s ≠ -1 := by rintro rfl; simp at hs; omega
    have hs0 : s = 0 := by omega
    exact ⟨hs0, by rw [hs0] at hs; simp at hs; omega⟩

/-- One step: the guess, the multiply-and-subtract, and when the guess was too large. -/
theorem longStepX {buf1 buf2 : List Int} (hb1 : Dig (dg buf1)) (hb2 : Dig (dg buf2)) {nr : Nat} (hnr : 1 ≤ nr)
    (hlen2 : nr < buf2.length) (hd0 : 500000000 ≤ dg buf2 nr) {i : Int} (hi : 0 ≤ i) (hi1 : i + 1 < buf1.length) :
    ∃ q, (guessQ m buf1 i (dg buf2 nr) (dg buf2 (nr - 1)) : Out σ Int) =
        (if m = .debug ∧ 1000000000 ≤ (ext buf1 (i + 1) * 1000000000 + ext buf1 i) / dg buf2 nr then .panic .assert
         else .ok q) ∧
      0 ≤ q ∧ q ≤ 2000000000 ∧ win2 buf1 nr i < (q + 1) * psum (dg buf2) (nr + 1) ∧
      (psum (dg buf2) (nr - 1) = 0 → q * psum (dg buf2) (nr + 1) ≤ win2 buf1 nr i) ∧
      ∃ buf1' c' b' D, (mulSub m q buf2 (nr + 1) 0 (i - nr) buf1 0 0 : Out σ _) = .ok (buf1', c', b') ∧
        buf1'.length = buf1.length ∧ (∀ t, 0 ≤ D t ∧ D t < 1000000000) ∧
        (∀ p : Nat, dg buf1' p = if i - nr ≤ p ∧ (p : Int) < i + 1 then D (p - (i - nr)).toNat else dg buf1 p) ∧
        0 ≤ c' ∧ c' ≤ 2000000000 ∧ (b' = 0 ∨ b' = -1) ∧
        (win2 buf1 nr i < q * psum (dg buf2) (nr + 1) → b' + (ext buf1 (i + 1) - c') = -1) ∧
        (q * psum (dg buf2) (nr + 1) ≤ win2 buf1 nr i → b' + (ext buf1 (i + 1) - c') = 0 ∧
          psum D (nr + 1) = win2 buf1 nr i - q * psum (dg buf2) (nr + 1)) ∧
        win2 buf1 nr i - q * psum (dg buf2) (nr + 1) =
          psum D (nr + 1) + 1000000000 ^ (nr + 1) * (b' + (ext buf1 (i + 1) - c')) ∧
        q * psum (dg buf2) (nr + 1) - win2 buf1 nr i < psum (dg buf2) (nr + 1) ∧
        q = win2 buf1 nr i / 1000000000 ^ (nr - 1) / (psum (dg buf2) (nr + 1) / 1000000000 ^ (nr - 1)) := by
  obtain ⟨k, rfl⟩ : ∃ k, nr = k + 1 := ⟨nr - 1, by omega⟩
  simp only [Nat.add_sub_cancel] at *
  have g0 := ext_dig hb1 (i + 1)
  have g1 := ext_dig hb1 i
  have g2 := ext_dig hb1 (i - 1)
  have h0 := hb2 (k + 1)
  have h1 := hb2 k
  -- split off the leading units
  have hWs : win2 buf1 (k + 1) i = psum (fun t => ext buf1 (i - (k + 1 : Nat) + t)) k +
      1000000000 ^ k * ((ext buf1 (i + 1) * 1000000000 + ext buf1 i) * 1000000000 + ext buf1 (i - 1)) := by
    unfold win2
    rw [psum_succ, psum_succ, psum_succ]
    have e1 : i - ((k + 1 : Nat) : Int) + (k : Nat) = i - 1 := by push_cast; ring
    have e2 : i - ((k + 1 : Nat) : Int) + ((k + 1 : Nat) : Int) = i := by ring
    have e3 : i - ((k + 1 : Nat) : Int) + ((k + 1 + 1 : Nat) : Int) = i + 1 := by push_cast; ring
    rw [e1, e2, e3, pow_succ, pow_succ]
    ring
  have hRs : psum (dg buf2) (k + 1 + 1) = psum (dg buf2) k + 1000000000 ^ k * (dg buf2 (k + 1) * 1000000000 + dg buf2 k) := by
    rw [psum_succ, psum_succ, pow_succ]; ring
  have l0 := psum_nonneg (ext_digf hb1 (i - (k + 1 : Nat))) k
  have l1 := psum_lt (ext_digf hb1 (i - (k + 1 : Nat))) k
  have r0 := psum_nonneg hb2 k
  have r1 := psum_lt hb2 k
  have hWlow : psum (fun t => ext buf1 (i - (k + 1 : Nat) + t)) (k + 1 + 1) =
      win2 buf1 (k + 1) i - ext buf1 (i + 1) * 1000000000 ^ (k + 2) := by
    unfold win2
    rw [psum_succ _ (k + 1 + 1)]
    have e3 : i - ((k + 1 : Nat) : Int) + ((k + 1 + 1 : Nat) : Int) = i + 1 := by push_cast; ring
    rw [e3]; ring
  have hRlt := psum_lt hb2 (k + 1 + 1)
  set U := (ext buf1 (i + 1) * 1000000000 + ext buf1 i) * 1000000000 + ext buf1 (i - 1) with hU
  set d01 := dg buf2 (k + 1) * 1000000000 + dg buf2 k with hd01
  set lw := psum (fun t => ext buf1 (i - (k + 1 : Nat) + t)) k
  set lr := psum (dg buf2) k
  set W := win2 buf1 (k + 1) i with hWdef
  set R := psum (dg buf2) (k + 1 + 1) with hR
  set P : Int := 1000000000 ^ k with hP
  have hP0 : 0 < P := by positivity
  have hd : 0 < d01 := by omega
  have hU0 : 0 ≤ U := by omega
  have hU1 : U < 1000000000000000000000000000 := by omega
  have hguess := guessQ_spec (σ := σ) (m := m) hb1 hi hi1 hd0 h0.2 h1
  have hT1 := Int.ediv_mul_le U hd.ne'
  have hT2 := Int.lt_ediv_add_one_mul_self U hd
  have hT0 : 0 ≤ U / d01 := Int.ediv_nonneg hU0 hd.le
  have hTB : U / d01 ≤ 2000000000 := by
    have : U / d01 < 2000000001 := Int.ediv_lt_of_lt_mul hd (by omega)
    omega
  rw [← hU, ← hd01] at hguess
  obtain ⟨q, hq⟩ : ∃ q, q = U / d01 := ⟨_, rfl⟩
  rw [← hq] at hguess hT1 hT2 hT0 hTB
  obtain ⟨hqlt, hqge, hqz, hqs⟩ := guess_bounds hP0 hWs hRs l0 l1 r0 r1 hT0 hTB hT1 hT2
  obtain ⟨buf1', c', b', D, e, hl, hD, hp, c0, c1, hb', hsum⟩ := mulSub_spec (σ := σ) (m := m) hT0 hTB hb2 (k + 1 + 1) 0
    (i - (k + 1 : Nat)) buf1 0 0 (by omega) (by push_cast; omega) hb1 (le_refl _) (by norm_num) (Or.inl rfl)
  simp only [zero_add, add_zero, sub_zero] at hsum
  rw [hWlow] at hsum
  change W - _ - q * R = _ at hsum
  have hDlt : psum D (k + 1 + 1) < 1000000000 ^ (k + 1 + 1) := psum_lt hD _
  have hDge : 0 ≤ psum D (k + 1 + 1) := psum_nonneg hD _
  have hPP : (1000000000 : Int) ^ (k + 1 + 1) = P * 1000000000 ^ 2 := by rw [hP]; ring
  have hsum' : W - q * R = psum D (k + 1 + 1) + P * 1000000000 ^ 2 * (b' + (ext buf1 (i + 1) - c')) := by
    rw [show k + 2 = k + 1 + 1 from rfl, hPP] at hsum
    have : P * 1000000000 ^ 2 * (b' + (ext buf1 (i + 1) - c')) =
      P * 1000000000 ^ 2 * (b' - c') + ext buf1 (i + 1) * (P * 1000000000 ^ 2) := by ring
    rw [this]
    linarith
  rw [hPP] at hDlt hRlt
  have hR0 : 0 < R := by rw [hRs]; have := mul_pos hP0 hd; omega
  obtain ⟨s1, s2⟩ := sign_bounds (by positivity) hsum' hDge hDlt hqlt hqge hRlt
  refine ⟨q, hguess, hT0, hTB, hqlt, hqz, buf1', c', b', D, e, hl, hD, fun p => ?_, c0, c1, hb', s1, s2,
    by rw [hPP]; exact hsum', ?_, ?_⟩
  · rw [hp p]
    have : i - ((k + 1 : Nat) : Int) + ((k + 1 + 1 : Nat) : Int) = i + 1 := by push_cast; ring
    rw [this]
  · rw [hRs] at hqs ⊢
    have : P * 2000000000 ≤ P * d01 := mul_le_mul_of_nonneg_left (by omega) hP0.le
    omega
  · have e1 : W / P = U := by
      rw [hWs, Int.add_mul_ediv_left _ _ hP0.ne', Int.ediv_eq_zero_of_lt l0 l1, zero_add]
    have e2 : R / P = d01 := by
      rw [hRs, Int.add_mul_ediv_left _ _ hP0.ne', Int.ediv_eq_zero_of_lt r0 r1, zero_add]
    rw [e1, e2, hq]

/-- The two leading units of a window. -/
theorem win2_top {buf1 : List Int} (hb1 : Dig (dg buf1)) {nr : Nat} {i : Int} :
    win2 buf1 nr i / 1000000000 ^ nr = ext buf1 (i + 1) * 1000000000 + ext buf1 i := by
  have hP : (0 : Int) < 1000000000 ^ nr := by positivity
  have e : win2 buf1 nr i = psum (fun t => ext buf1 (i - nr + t)) nr +
      1000000000 ^ nr * (ext buf1 (i + 1) * 1000000000 + ext buf1 i) := by
    unfold win2
    rw [psum_succ, psum_succ, show i - (nr : Int) + (nr : Int) = i by ring,
      show i - (nr : Int) + ((nr + 1 : Nat) : Int) = i + 1 by push_cast; ring, pow_succ]
    ring
  rw [e, Int.add_mul_ediv_left _ _ hP.ne', Int.ediv_eq_zero_of_lt (psum_nonneg (ext_digf hb1 _) _) (psum_lt (ext_digf hb1 _) _),
    zero_add]

/-- The leading unit. -/
theorem psum_top {f : Nat → Int} (hf : Dig f) {n : Nat} : psum f (n + 1) / 1000000000 ^ n = f n := by
  have hP : (0 : Int) < 1000000000 ^ n := by positivity
  rw [psum_succ, mul_comm, Int.add_mul_ediv_left _ _ hP.ne', Int.ediv_eq_zero_of_lt (psum_nonneg hf _) (psum_lt hf _), zero_add]

end Fxd
