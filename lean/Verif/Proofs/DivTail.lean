import Verif.Proofs.DivFit
/-!
# The short division gives the truncated quotient
-/

namespace Fxd
open Spec

variable {σ : Type} {m : Mode}

/-- The decimal built at the end of a division. -/
def quoMk (l : List Int) (I rf : Nat) : FixedDecimal :=
  { lsu := l, intg := BitVec.ofInt 8 (I : Int), frac := wrap 8 ((rf : Int) * DIGITS_PER_UNIT) }

theorem quoMk_frac {l : List Int} {I rf : Nat} (hrf : rf ≤ 9) : (quoMk l I rf).frac = 9 * rf := by
  unfold quoMk DIGITS_PER_UNIT; dsimp only; rw [wrap8_ok (by omega) (by omega)]; ring
theorem quoMk_fracDigits {l : List Int} {I rf : Nat} (hrf : rf ≤ 9) : fracDigits (quoMk l I rf) = 9 * rf := by
  unfold fracDigits; rw [quoMk_frac hrf]; omega
theorem quoMk_fu {l : List Int} {I rf : Nat} (hrf : rf ≤ 9) : fu (quoMk l I rf) = rf := by
  unfold fu; rw [quoMk_fracDigits hrf, unitsFor_mul9]
theorem quoMk_intgDigits {l : List Int} {I rf : Nat} (hI : I ≤ 81) : intgDigits (quoMk l I rf) = I :=
  intgDigits_mk (by omega)
theorem quoMk_neg {l : List Int} {I rf : Nat} (hI : I ≤ 81) : neg (quoMk l I rf) = false :=
  neg_mk (by omega)
theorem quoMk_iu {l : List Int} {I rf : Nat} (hI : I ≤ 81) : iu (quoMk l I rf) = unitsFor I := by
  unfold iu; rw [quoMk_intgDigits hI]

theorem quoMk_spec {l : List Int} {I rf n : Nat} (hI : I ≤ 81) (hf : unitsFor I + rf ≤ 9) (hn : n ≤ unitsFor I + rf)
    (hl : l.length = 9) (hlo : ∀ k < n, 0 ≤ dg l k ∧ dg l k < 1000000000) (hhi : ∀ k, n ≤ k → dg l k = 0) :
    WF (quoMk l I rf) ∧ mant (quoMk l I rf) = psum (dg l) n := by
  have hw : WF (quoMk l I rf) := by
    refine ⟨hl, ?_, ?_, ?_, ?_⟩
    · refine DigL.of_dig fun i _ => ?_
      show 0 ≤ dg l i ∧ dg l i < 1000000000
      by_cases h : i < n
      · exact hlo i h
      · rw [hhi i (by omega)]; norm_num
    · rw [quoMk_frac (by omega)]; positivity
    · rw [quoMk_iu hI, quoMk_fu (by omega)]; exact hf
    · rw [quoMk_iu hI, quoMk_fu (by omega)]
      exact high_of_dg fun i hi => hhi i (by omega)
  refine ⟨hw, ?_⟩
  rw [hw.mant_eq9]
  exact psum_extend (by omega) fun i hi _ => hhi i hi

theorem unitsFor_divIntg {a b : FixedDecimal} (ha : WF a) (hb : WF b) {nl nr : Nat} (tl : Top a.lsu nl)
    (tr : Top b.lsu nr) : unitsFor (divIntg a b nl nr).toNat = divRI a b nl nr := by
  obtain ⟨h1, h2⟩ := divIntg_pos ha hb tl tr
  unfold unitsFor divRI
  omega

theorem dg_zeroUnits (k : Nat) : dg zeroUnits k = 0 := dg_replicate

theorem divTail_short {a b : FixedDecimal} (ha : WF a) (hb : WF b) {nl : Nat} (tl : Top a.lsu nl) (tr : Top b.lsu 0)
    {rf : Nat} (hI : divIntg a b nl 0 ≤ 81) (hrf : divRI a b nl 0 + rf ≤ 9) :
    ∃ l, divTail m a b nl (0 : Nat) (divSh a b nl 0) ((divIntg a b nl 0).toNat : Nat) (divRI a b nl 0 : Nat) rf
        (rf + divPos a b nl 0) = .ok (quoMk l (divIntg a b nl 0).toNat rf) ∧
      WF (quoMk l (divIntg a b nl 0).toNat rf) ∧
      mant (quoMk l (divIntg a b nl 0).toNat rf) * mant b * 1000000000 ^ fu a ≤ mant a * 1000000000 ^ (rf + fu b) ∧
      mant a * 1000000000 ^ (rf + fu b) <
        (mant (quoMk l (divIntg a b nl 0).toNat rf) + 1) * mant b * 1000000000 ^ fu a := by
  have hD : mant b = dg b.lsu 0 := by rw [tr.mant hb, psum_succ]; simp
  have hsh : divSh a b nl 0 = 0 ∨ divSh a b nl 0 = -1 ∧ dg a.lsu nl < dg b.lsu 0 := by
    unfold divSh
    split_ifs with hg
    · exact Or.inl rfl
    · refine Or.inr ⟨rfl, ?_⟩
      unfold divGe at hg
      rw [not_le, hD, tl.mant ha, zero_add, pow_one, pow_succ, ← mul_assoc] at hg
      have h1 := (top_bounds (k := nl) ha.dig).1
      have h2 := lt_of_le_of_lt h1 (lt_of_mul_lt_mul_right hg (by norm_num))
      exact lt_of_mul_lt_mul_right h2 (by positivity)
  set n := ((rf : Int) + divPos a b nl 0 + 1).toNat with hn
  have hRI : divRI a b nl 0 = (divPos a b nl 0 + 1).toNat := rfl
  have hn' : n ≤ divRI a b nl 0 + rf := by omega
  obtain ⟨l, e, hl, hhi, hlo, q1, q2⟩ := shortDiv_total (σ := FixedDecimal) (m := m) ha.dig tl.lt tr.pos (hb.dig 0).2
    hsh n zeroUnits (by simp [zeroUnits]; omega)
  have hu := unitsFor_divIntg ha hb tl tr
  have hl9 : l.length = 9 := by rw [hl]; rfl
  obtain ⟨hw, hm⟩ := quoMk_spec (l := l) (I := (divIntg a b nl 0).toNat) (rf := rf) (n := n) (by omega) (by omega)
    (by omega) hl9 hlo (fun k hk => by rw [hhi k hk, dg_zeroUnits])
  refine ⟨l, ?_, hw, ?_⟩
  · unfold divTail
    dsimp only
    have := tr.lt
    rw [if_pos (by rfl), idx_ok (by norm_num) (by omega), ok_bind]
    have : (if divSh a b nl 0 < 0 then .ok (dg a.lsu (nl : Int).toNat) else .ok 0 : Out FixedDecimal Int) =
        .ok (if divSh a b nl 0 < 0 then dg a.lsu nl else 0) := by
      split_ifs <;> simp
    rw [this, ok_bind, ← hn]
    change (shortDivLoop m a.lsu (dg b.lsu 0) n _ _ _ >>= _) = _
    rw [e]
    rfl
  · rw [hm, hD]
    rw [← tl.mant ha] at q1 q2
    by_cases hneg : 0 ≤ (rf : Int) + divPos a b nl 0 + 1
    · have he : n + fu a = rf + fu b + ((nl : Int) + 1 + divSh a b nl 0).toNat := by
        have : (n : Int) = (rf : Int) + divPos a b nl 0 + 1 := by omega
        unfold divPos at this
        rcases divSh_cases a b nl 0 with h | h <;> rw [h] at this ⊢ <;> omega
      have hP : (0 : Int) < 1000000000 := by norm_num
      have hx : (0 : Int) < 1000000000 ^ ((nl : Int) + 1 + divSh a b nl 0).toNat := by positivity
      have hy : (0 : Int) < 1000000000 ^ fu a := by positivity
      have e1 : mant a * 1000000000 ^ (rf + fu b) * 1000000000 ^ ((nl : Int) + 1 + divSh a b nl 0).toNat =
          mant a * 1000000000 ^ n * 1000000000 ^ fu a := by
        rw [mul_assoc, mul_assoc, ← pow_add, ← pow_add, he]
      constructor
      · refine le_of_mul_le_mul_right ?_ hx
        rw [e1]
        calc _ = psum (dg l) n * dg b.lsu 0 * 1000000000 ^ ((nl : Int) + 1 + divSh a b nl 0).toNat * 1000000000 ^ fu a := by
              ring
          _ ≤ _ := mul_le_mul_of_nonneg_right q1 hy.le
      · refine lt_of_mul_lt_mul_right ?_ hx.le
        rw [e1]
        calc _ < (psum (dg l) n + 1) * dg b.lsu 0 * 1000000000 ^ ((nl : Int) + 1 + divSh a b nl 0).toNat *
              1000000000 ^ fu a := mul_lt_mul_of_pos_right q2 hy
          _ = _ := by ring
    · have hn0 : n = 0 := by omega
      have hlead := div_lead ha hb tl tr
      have hA : 0 ≤ mant a := ha.mant_nonneg
      rw [hn0, psum_zero, zero_mul, zero_mul]
      refine ⟨by positivity, ?_⟩
      rw [pow_zero, mul_one, hD] at hlead
      have hle : rf + fu b + ((nl : Int) + 1 + divSh a b nl 0).toNat ≤ fu a := by
        unfold divPos at hneg
        rcases divSh_cases a b nl 0 with h | h <;> rw [h] at hneg ⊢ <;> omega
      calc mant a * 1000000000 ^ (rf + fu b)
          < dg b.lsu 0 * 1000000000 ^ ((nl : Int) + 1 + divSh a b nl 0).toNat * 1000000000 ^ (rf + fu b) :=
            mul_lt_mul_of_pos_right hlead (by positivity)
        _ = dg b.lsu 0 * 1000000000 ^ (rf + fu b + ((nl : Int) + 1 + divSh a b nl 0).toNat) := by
            rw [mul_assoc, ← pow_add, add_comm]
        _ ≤ dg b.lsu 0 * 1000000000 ^ fu a :=
            mul_le_mul_of_nonneg_left (pow_le_pow_right₀ (by norm_num) hle) (hb.dig 0).1
        _ = (0 + 1) * dg b.lsu 0 * 1000000000 ^ fu a := by ring

end Fxd
