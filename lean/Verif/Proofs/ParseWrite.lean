import Verif.Proofs.ParseLoops
/-!
# Writing the digits: `writeDigits`
-/

namespace Fxd
open Spec

variable {σ : Type} {m : Mode}

/-- The integral part: reading `min c ds.length` digits and writing `⌈c/9⌉` units above `fu`. -/
theorem intgPart_spec {last : Int} {cs : List Nat} {i : Int} {ds : List Nat} (ht : Text last cs i ds)
    {fu c : Nat} {lsu : List Int} (hc : 1 ≤ c) (hc127 : c ≤ 119) (hlen : fu + unitsFor c ≤ lsu.length) :
    ∃ (rest : List Nat) (lsu' : List Int),
      (do
        let (rest, out, cut, up, lsu) ← (intgLoop m last cs i 0 (c : Int) ((fu + unitsFor c : Nat) - 1 : Int) lsu : Out σ _)
        let re ← mod9 cut
        let p ← idx POW10 re
        let v ← i32 m (out * p)
        let lsu ← upd lsu up v
        let cut ← i8 m (cut - re)
        let (up, lsu) ← zeroUnitsLoop m (cut.toNat + 1) cut (up - 1) lsu
        return (lsu, rest, (n : Int) - rest.length, up)) =
        .ok (lsu', rest, n - rest.length, (fu : Int) - 1) ∧
      Wrote lsu lsu' fu (fu + unitsFor c) ∧
      seg lsu' fu (fu + unitsFor c) = digitsVal (ds.take c) * 10 ^ (c - ds.length) ∧
      (c < ds.length → rest.length ≤ cs.length ∧
        Text last rest (i + ((cs.length : Int) - rest.length)) (ds.drop c)) := by
  set r := c - 9 * (unitsFor c - 1) with hr
  have hu1 : 1 ≤ unitsFor c := by unfold unitsFor; omega
  have hr1 : 1 ≤ r ∧ r ≤ 9 := by unfold unitsFor at *; omega
  have hcr : c = 9 * (unitsFor c - 1) + r := by unfold unitsFor at *; omega
  set up := fu + unitsFor c - 1 with hup
  have hupc : ((fu + unitsFor c : Nat) - 1 : Int) = (up : Int) := by omega
  obtain ⟨rest, out', c', up', r', lsu', e, a1, a2, a3, a4, a5, a6, a7, a8, a9, a10⟩ :=
    intgLoop_spec (m := m) (σ := σ) ht (fu := fu) (up := up) (r := r) (top := up + 1) (out := 0) (lsu := lsu) (P := 0) (c := c)
      hr1.1 hr1.2 (by omega) (by omega) (by omega) (by omega) (by omega) (by rw [seg_self]; simp) (le_refl _) (by positivity)
  rw [zero_mul, zero_add] at a9
  have hmod : c' % 9 = r' := by omega
  have hpr : (10 : Int) ^ (9 - r') * 10 ^ r' = 1000000000 := by
    rw [← pow_add, show 9 - r' + r' = 9 by omega]; norm_num
  have hp0 : (0 : Int) < 10 ^ r' := by positivity
  have hv1 : out' * 10 ^ r' < 1000000000 := by
    rw [← hpr]; exact mul_lt_mul_of_pos_right a8 hp0
  have hv0 : 0 ≤ out' * 10 ^ r' := by positivity
  have hl' : up' < lsu'.length := by rw [a6.len]; omega
  have hw : Wrote lsu' (lsu'.set up' (out' * 10 ^ r')) up' (up' + 1) := Wrote.one hl' ⟨hv0, hv1⟩
  obtain ⟨lsu'', e2, w2, hs2⟩ := zeroUnitsLoop_spec (m := m) (σ := σ) (k := up' - fu) (fu := fu) (fuel := 9 * (up' - fu) + 1)
    (lsu := lsu'.set up' (out' * 10 ^ r')) (by simp; omega) (by omega) (Nat.lt_succ_self _)
  rw [show fu + (up' - fu) = up' by omega] at w2 hs2 e2
  have htop : up + 1 = fu + unitsFor c := by omega
  refine ⟨rest, lsu'', ?_, ?_, ?_, a10⟩
  · rw [hupc, e, ok_bind]
    dsimp only
    rw [mod9_nat (by omega), ok_bind, hmod, pow10_nat (by omega), ok_bind, i32_ok (by omega) (by omega), ok_bind,
      upd_nat hl', ok_bind, i8_ok (by omega) (by omega), ok_bind]
    rw [show (c' : Int) - (r' : Int) = ((9 * (up' - fu) : Nat) : Int) by omega, Int.toNat_natCast, e2, ok_bind]
    rfl
  · rw [← htop]
    exact (a6.trans hw (by omega) (by omega)).trans w2 (by omega) (by omega)
  · rw [← htop, seg_split (show fu ≤ up' by omega) (show up' ≤ up + 1 by omega), hs2, zero_add,
      seg_cons (by omega), w2.same _ (by omega), dg_set_self hl']
    have : seg lsu'' (up' + 1) (up + 1) = seg lsu' (up' + 1) (up + 1) :=
      seg_congr fun j h1 h2 => by rw [w2.same _ (by omega), dg_set_ne (by omega)]
    rw [this, show (out' * 10 ^ r' + 1000000000 * seg lsu' (up' + 1) (up + 1)) =
      (seg lsu' (up' + 1) (up + 1) * 10 ^ (9 - r') + out') * 10 ^ r' by rw [← hpr]; ring, ← a9, pow9,
      show c - ds.length = 9 * (up' - fu) + r' by omega, pow_add]
    ring

/-- The fractional part: heading zeroes, digits, last write. -/
theorem fracPart_spec {last : Int} {cs : List Nat} {i : Int} {ds : List Nat} (ht : Text last cs i ds)
    {hz fr : Nat} {lsu : List Int} (hfr : fr = hz + ds.length) (h127 : fr ≤ 119) (hlen : unitsFor fr ≤ lsu.length) :
    ∃ lsu', (do
        let (hz, up, lsu) ← (headZeroLoop m ((hz : Int).toNat + 1) (hz : Int) ((unitsFor fr : Int) - 1) lsu : Out σ _)
        let cut ← i8 m (DIGITS_PER_UNIT - hz)
        let (out, up, lsu) ← fracLoop m last cs i 0 cut up lsu
        upd lsu up out) = .ok lsu' ∧
      Wrote lsu lsu' 0 (unitsFor fr) ∧
      seg lsu' 0 (unitsFor fr) = digitsVal ds * 10 ^ (9 * unitsFor fr - fr) := by
  have hd1 : 1 ≤ ds.length := by
    rcases ds with _ | _
    · exact absurd rfl ht.ne_nil
    · simp
  set u := unitsFor fr - hz / 9 with hu
  have hu1 : 1 ≤ u ∧ u + hz / 9 = unitsFor fr := by unfold unitsFor at *; omega
  obtain ⟨lsu1, e1, w1, s1⟩ := headZeroLoop_spec (m := m) (σ := σ) (k := hz / 9) (u := u) (hz := hz) (fuel := hz + 1)
    (lsu := lsu) rfl (by omega) (Nat.lt_succ_self _) (by omega)
  rw [hu1.2] at w1 s1 e1
  obtain ⟨lsu2, e2, w2, s2⟩ := fracLoop_spec (m := m) (σ := σ) ht (fu := unitsFor fr) (up := u - 1) (r := 9 - hz % 9)
    (pad := 9 * unitsFor fr - fr) (out := 0) (lsu := lsu1) (P := 0) (by omega) (by omega) (by omega) (by rw [w1.len]; omega)
    (by unfold unitsFor at *; omega) (by unfold unitsFor; omega)
    (by rw [show u - 1 + 1 = u by omega, s1]; simp) (le_refl _)
    (by
      have : (10 : Int) ^ (9 - hz % 9) ≤ 10 ^ 9 := pow_le_pow_right₀ (by norm_num) (by omega)
      norm_num at this ⊢; linarith)
  rw [show u - 1 + 1 = u by omega] at w2
  refine ⟨lsu2, ?_, w1.trans w2 (by omega) (by omega), ?_⟩
  · rw [Int.toNat_natCast, e1, ok_bind]
    dsimp only
    rw [i8_ok (by unfold DIGITS_PER_UNIT; omega) (by unfold DIGITS_PER_UNIT; omega), ok_bind, ← e2]
    rw [show DIGITS_PER_UNIT - ((hz % 9 : Nat) : Int) = ((9 - hz % 9 : Nat) : Int) by unfold DIGITS_PER_UNIT; omega,
      show (u : Int) - 1 = ((u - 1 : Nat) : Int) by omega]
  · rw [s2]; ring

/-- What the writing part produces: `di` integral and `fr` fractional digits; `z` zeroes are appended to the
digits when they all are integral, `hz` heading zeroes when they all are fractional. -/
theorem writeDigits_spec {self : FixedDecimal} {bs : List Nat} {st : Scan} {ds : List Nat}
    (hself : self.lsu.length = 9) (hcf : 0 ≤ st.cfirst)
    (ht : Text st.last (bs.drop st.cfirst.toNat) st.cfirst ds) (hcl : st.cfirst ≤ bs.length)
    {fr di hz : Nat} (hsum : fr + di ≤ 65)
    (hshape : (fr = 0 ∧ ds.length ≤ di ∧ hz = 0) ∨ (ds.length = fr + di ∧ hz = 0) ∨ (di = 0 ∧ fr = ds.length + hz)) :
    ∃ r : FixedDecimal, (writeDigits m self bs st fr (fr + di : Nat) hz : Out σ _) = .ok r ∧
      neg r = st.neg ∧ intgDigits r = di ∧ r.frac = fr ∧ r.lsu.length = 9 ∧
      (∀ j, unitsFor di + unitsFor fr ≤ j → dg r.lsu j = dg self.lsu j) ∧
      (∀ j, j < unitsFor di + unitsFor fr → 0 ≤ dg r.lsu j ∧ dg r.lsu j < 1000000000) ∧
      seg r.lsu (unitsFor fr) (unitsFor fr + unitsFor di) = digitsVal (ds.take di) * 10 ^ (di - ds.length) ∧
      seg r.lsu 0 (unitsFor fr) = digitsVal (ds.drop di) * 10 ^ (9 * unitsFor fr - fr) := by
  have hd1 : 1 ≤ ds.length := by
    rcases ds with _ | _
    · exact absurd rfl ht.ne_nil
    · simp
  have hiu : unitsFor di + unitsFor fr ≤ 9 ∧ 1 ≤ unitsFor di + unitsFor fr := by unfold unitsFor; omega
  -- the integral stage
  have stage1 : ∃ (lsu1 : List Int) (rest : List Nat) (off : Int),
      ((if (unitsFor di : Int) > 0 then do
          let cs := bs.drop st.cfirst.toNat
          let (rest, out, cut, up, lsu) ← intgLoop m st.last cs st.cfirst 0 (di : Int)
            ((unitsFor di : Int) + (unitsFor fr : Int) - 1) self.lsu
          let re ← mod9 cut
          let p ← idx POW10 re
          let v ← i32 m (out * p)
          let lsu ← upd lsu up v
          let cut ← i8 m (cut - re)
          let (up, lsu) ← zeroUnitsLoop m (cut.toNat + 1) cut (up - 1) lsu
          return (lsu, rest, (bs.length : Int) - rest.length, up)
        else return (self.lsu, bs.drop st.cfirst.toNat, st.cfirst, (unitsFor di : Int) + (unitsFor fr : Int) - 1)
        : Out σ (List Int × List Nat × Int × Int))) = .ok (lsu1, rest, off, (unitsFor fr : Int) - 1) ∧
      Wrote self.lsu lsu1 (unitsFor fr) (unitsFor fr + unitsFor di) ∧
      seg lsu1 (unitsFor fr) (unitsFor fr + unitsFor di) = digitsVal (ds.take di) * 10 ^ (di - ds.length) ∧
      (0 < fr → Text st.last rest off (ds.drop di)) := by
    by_cases hdi : di = 0
    · subst hdi
      refine ⟨self.lsu, bs.drop st.cfirst.toNat, st.cfirst, ?_, ?_, ?_, ?_⟩
      · rw [if_neg (by unfold unitsFor; simp)]; simp [unitsFor]
      · simpa [unitsFor] using Wrote.refl self.lsu (unitsFor fr)
      · simp [unitsFor, seg_self, digitsVal_nil]
      · intro _; simpa using ht
    · have hpos : 0 < unitsFor di := by unfold unitsFor; omega
      obtain ⟨rest, lsu', e, w, s, t⟩ := intgPart_spec (m := m) (σ := σ) (n := (bs.length : Int)) ht (fu := unitsFor fr) (c := di)
        (lsu := self.lsu) (by omega) (by omega) (by omega)
      refine ⟨lsu', rest, (bs.length : Int) - rest.length, ?_, w, s, ?_⟩
      · rw [if_pos (by omega), ← e,
          show (unitsFor di : Int) + (unitsFor fr : Int) - 1 = ((unitsFor fr + unitsFor di : Nat) - 1 : Int) by push_cast; ring]
      · intro hf
        obtain ⟨t1, t2⟩ := t (by omega)
        convert t2 using 1
        rw [List.length_drop] at t1 ⊢
        omega
  obtain ⟨lsu1, rest, off, e1, w1, s1, t1⟩ := stage1
  have stage2 : ∃ lsu2 : List Int,
      ((if (unitsFor fr : Int) > 0 then do
        let (hz, up, lsu) ← headZeroLoop m ((hz : Int).toNat + 1) (hz : Int) ((unitsFor fr : Int) - 1) lsu1
        let cut ← i8 m (DIGITS_PER_UNIT - hz)
        let (out, up, lsu) ← fracLoop m st.last rest off 0 cut up lsu
        upd lsu up out
      else return lsu1 : Out σ (List Int))) = .ok lsu2 ∧
      Wrote lsu1 lsu2 0 (unitsFor fr) ∧
      seg lsu2 0 (unitsFor fr) = digitsVal (ds.drop di) * 10 ^ (9 * unitsFor fr - fr) := by
    by_cases hfr : fr = 0
    · subst hfr
      refine ⟨lsu1, by simp [unitsFor], by simpa [unitsFor] using Wrote.refl lsu1 0, ?_⟩
      rw [List.drop_eq_nil_of_le (by omega)]
      simp [unitsFor, seg_self, digitsVal_nil]
    · obtain ⟨lsu2, e, w, s⟩ := fracPart_spec (m := m) (σ := σ) (t1 (by omega)) (hz := hz) (fr := fr) (lsu := lsu1)
        (by rw [List.length_drop]; omega) (by omega) (by rw [w1.len]; omega)
      refine ⟨lsu2, ?_, w, s⟩
      rw [if_pos (by unfold unitsFor; omega), ← e]
  obtain ⟨lsu2, e2, w2, s2⟩ := stage2
  have w := w1.trans w2 (by omega) (by omega)
  have hrun : (writeDigits m self bs st fr (fr + di : Nat) hz : Out σ _) =
      .ok (if st.neg then FixedDecimal.setNeg ⟨BitVec.ofInt 8 (di : Int), fr, lsu2⟩ else ⟨BitVec.ofInt 8 (di : Int), fr, lsu2⟩) := by
    unfold writeDigits
    rw [show ((fr + di : Nat) : Int) - fr = (di : Int) by push_cast; ring, i8_ok (by omega) (by omega), ok_bind,
      getUnits_nat (by omega), ok_bind, getUnits_nat (by omega), ok_bind, usz_ok (by omega) (by omega), ok_bind]
    dsimp only
    rw [wrap64_ok (by omega) (by omega), e1, ok_bind]
    dsimp only
    rw [e2, ok_bind]; rfl
  have hi : intgDigits ⟨BitVec.ofInt 8 (di : Int), fr, lsu2⟩ = di := intgDigits_mk (by omega)
  have hn : neg ⟨BitVec.ofInt 8 (di : Int), fr, lsu2⟩ = false := neg_mk (by omega)
  refine ⟨_, hrun, ?_⟩
  have hl : ∀ b : Bool, (if b then FixedDecimal.setNeg ⟨BitVec.ofInt 8 (di : Int), fr, lsu2⟩
      else ⟨BitVec.ofInt 8 (di : Int), fr, lsu2⟩).lsu = lsu2 := by intro b; cases b <;> rfl
  rw [hl]
  refine ⟨?_, ?_, ?_, by rw [w.len, hself], fun j hj => w.same j (by omega), fun j hj => w.rng j (by omega) (by omega), ?_, s2⟩
  · cases st.neg
    · exact hn
    · exact neg_setNeg _
  · cases st.neg
    · exact hi
    · simpa using hi
  · cases st.neg <;> rfl
  · rw [← s1]; exact seg_congr fun j h1 h2 => w2.same j (by omega)

end Fxd
