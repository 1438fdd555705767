import Verif.Proofs.DivLoop
/-!
# The long division as a whole
-/

namespace Fxd
open Spec

variable {σ : Type} {m : Mode}

/-- The normalisation factor. -/
theorem norm_facts {v : Int} (h0 : 0 < v) (h1 : v < 1000000000) :
    0 < 1000000000 / (v + 1) ∧ 1000000000 / (v + 1) ≤ 500000000 ∧ 1000000000 / (v + 1) * (v + 1) ≤ 1000000000 ∧
      500000000 ≤ 1000000000 / (v + 1) * v := by
  have e1 := Int.ediv_mul_le 1000000000 (show v + 1 ≠ 0 by omega)
  have e2 := Int.lt_ediv_add_one_mul_self 1000000000 (show 0 < v + 1 by omega)
  obtain ⟨f, hf⟩ : ∃ f, 1000000000 / (v + 1) = f := ⟨_, rfl⟩
  rw [hf] at e1 e2 ⊢
  have f0 : 0 < f := by
    by_contra h
    have : (f + 1) * (v + 1) ≤ 1 * (v + 1) := mul_le_mul_of_nonneg_right (by omega) (by omega)
    omega
  refine ⟨f0, ?_, e1, ?_⟩
  · by_contra h
    have : 500000001 * (v + 1) ≤ f * (v + 1) := mul_le_mul_of_nonneg_right (by omega) (by omega)
    omega
  · by_cases hv : 500000000 ≤ v
    · have : 1 * v ≤ f * v := mul_le_mul_of_nonneg_right (by omega) (by omega)
      omega
    · by_contra h
      have h3 : 2 * (f * v) ≤ 999999999 := by omega
      have h4 : 1000000000 - v ≤ f * (v + 1) := by
        have : (f + 1) * (v + 1) = f * (v + 1) + (v + 1) := by ring
        omega
      have h5 : 2 * v * (1000000000 - v) ≤ 2 * v * (f * (v + 1)) := mul_le_mul_of_nonneg_left h4 (by omega)
      have h6 : 2 * v * (f * (v + 1)) = 2 * (f * v) * (v + 1) := by ring
      have h7 : 2 * (f * v) * (v + 1) ≤ 999999999 * (v + 1) := mul_le_mul_of_nonneg_right h3 (by omega)
      by_cases hv1 : v = 1
      · subst hv1; omega
      · have h8 : 0 ≤ (v - 2) * (499999999 - v) := mul_nonneg (by omega) (by omega)
        nlinarith

/-- Writing units into a zeroed buffer. -/
theorem copy_buf {N a : Nat} {l : List Int} (h : a + l.length ≤ N) (b : Int) (hb : b = a + l.length) :
    (copyFromSlice (List.replicate N 0) (a : Int) b l : Out σ _) =
      .ok (List.replicate a 0 ++ l ++ List.replicate (N - (a + l.length)) 0) := by
  rw [copyFromSlice_ok (by omega) (by omega) (by simp; omega) (by omega)]
  rw [show (a : Int).toNat = a by omega, show b.toNat = a + l.length by omega, List.take_replicate, List.drop_replicate,
    Nat.min_eq_left (by omega)]

theorem buf_dg {a b : Nat} {l : List Int} (p : Nat) : dg (List.replicate a 0 ++ l ++ List.replicate b 0) p =
    if a ≤ p ∧ p < a + l.length then dg l (p - a) else 0 := by
  rw [dg_append, dg_append]
  simp only [List.length_append, List.length_replicate, dg_replicate]
  by_cases h1 : p < a + l.length
  · rw [if_pos h1]
    by_cases h2 : p < a
    · rw [if_pos h2, if_neg (by omega)]
    · rw [if_neg h2, if_pos (by omega)]
  · rw [if_neg h1, if_neg (by omega)]

theorem buf_psum {a b : Nat} {l : List Int} {n : Nat} (hn : a + l.length ≤ n) :
    psum (dg (List.replicate a 0 ++ l ++ List.replicate b 0)) n = 1000000000 ^ a * unitsVal l := by
  rw [psum_extend hn (fun p h1 _ => by rw [buf_dg, if_neg (by omega)]), psum_add_len,
    psum_zero_of (fun p hp => by rw [buf_dg, if_neg (by omega)]), zero_add, unitsVal_eq_psum]
  congr 1
  refine psum_congr fun p hp => ?_
  rw [buf_dg, if_pos (by omega)]
  congr 1; omega

/-- The buffers prepared for the long division. -/
def divPrep (m : Mode) (f : Int) (lseg rseg : List Int) (ru : Int) (bufEnd : Int) (nr : Int) :
    Out σ (List Int × List Int) :=
  if f = 1 then do
    let buf1 ← copyFromSlice (List.replicate 18 0) ru bufEnd lseg
    let buf2 ← copyFromSlice zeroUnits 0 (nr + 1) rseg
    return (buf1, buf2)
  else do
    let (l, carry) ← normLoop m f lseg 0
    let buf1 ← copyFromSlice (List.replicate 18 0) ru bufEnd l
    let buf1 ← (if carry > 0 then upd buf1 bufEnd (wrap 32 carry) else .ok buf1)
    let (r, carry) ← normLoop m f rseg (if carry > 0 then 0 else carry)
    let buf2 ← copyFromSlice zeroUnits 0 (nr + 1) r
    dassert m (carry == 0)
    return (buf1, buf2)

theorem divPrep_spec {f : Int} {lseg rseg : List Int} (hf0 : 0 < f) (hf1 : f ≤ 500000000) (hl : DigL lseg) (hr : DigL rseg)
    {ru : Nat} {nr : Nat} (hrl : rseg.length = nr + 1) (hnr : nr < 9)
    (hfr : f * unitsVal rseg < 1000000000 ^ (nr + 1))
    (hfit : ru + lseg.length ≤ 18)
    (hcar : ru + lseg.length ≤ 17 ∨ f * unitsVal lseg < 1000000000 ^ lseg.length) :
    ∃ buf1 buf2, (divPrep m f lseg rseg ru ((ru : Int) + lseg.length) nr : Out σ _) = .ok (buf1, buf2) ∧
      buf1.length = 18 ∧ Dig (dg buf1) ∧ psum (dg buf1) 18 = 1000000000 ^ ru * (f * unitsVal lseg) ∧
      buf2.length = 9 ∧ Dig (dg buf2) ∧ psum (dg buf2) (nr + 1) = f * unitsVal rseg ∧
      (∀ p, nr + 1 ≤ p → dg buf2 p = 0) := by
  have hz : zeroUnits = List.replicate 9 0 := rfl
  unfold divPrep
  by_cases h1 : f = 1
  · subst h1
    rw [if_pos rfl, copy_buf hfit _ rfl, ok_bind, hz]
    have := copy_buf (σ := σ) (N := 9) (a := 0) (l := rseg) (by omega) ((nr : Int) + 1) (by rw [hrl]; push_cast; ring)
    rw [Nat.cast_zero] at this
    rw [this, ok_bind]
    refine ⟨_, _, rfl, by simp; omega, ?_, ?_, by simp; omega, ?_, ?_, ?_⟩
    · exact DigL.dig (((DigL.replicate _).append hl).append (DigL.replicate _))
    · rw [buf_psum hfit, one_mul]
    · exact DigL.dig (((DigL.replicate _).append hr).append (DigL.replicate _))
    · rw [buf_psum (by omega)]; simp
    · intro p hp
      rw [buf_dg, if_neg (by omega)]
  · rw [if_neg h1]
    obtain ⟨l', c', e1, hl1, hd1, c0, c1, heq1⟩ := normLoop_spec (σ := σ) (m := m) hf0 (by omega) lseg 0 hl (le_refl _) hf0
    obtain ⟨r', c2', e2, hl2, hd2, c20, c21, heq2⟩ := normLoop_spec (σ := σ) (m := m) hf0 (by omega) rseg 0 hr (le_refl _) hf0
    have hc2 : c2' = 0 := by
      by_contra hne
      have := (unitsVal_bounds hd2).1
      have h3 : (1000000000 : Int) ^ rseg.length * 1 ≤ 1000000000 ^ rseg.length * c2' :=
        mul_le_mul_of_nonneg_left (by omega) (by positivity)
      rw [hrl] at heq2 h3
      have : unitsVal rseg * f = f * unitsVal rseg := mul_comm _ _
      omega
    have hb1 := copy_buf (σ := σ) (N := 18) (a := ru) (l := l') (by omega) ((ru : Int) + lseg.length) (by rw [hl1])
    have hb2 := copy_buf (σ := σ) (N := 9) (a := 0) (l := r') (by omega) ((nr : Int) + 1) (by rw [hl2, hrl]; push_cast; ring)
    rw [Nat.cast_zero] at hb2
    rw [e1, ok_bind]
    dsimp only
    have hcz : (if c' > 0 then 0 else c') = 0 := by by_cases hc : c' > 0 <;> simp [hc]; omega
    rw [hb1, ok_bind, hcz, e2, hz]
    set B1 := List.replicate ru (0 : Int) ++ l' ++ List.replicate (18 - (ru + l'.length)) 0 with hB1
    have hB1len : B1.length = 18 := by simp [hB1]; omega
    have hB1d : DigL B1 := (((DigL.replicate _).append hd1).append (DigL.replicate _))
    -- the carry unit
    have hcarry : ∃ B2, (if c' > 0 then upd B1 ((ru : Int) + lseg.length) (wrap 32 c') else .ok B1 : Out σ _) = .ok B2 ∧
        B2.length = 18 ∧ DigL B2 ∧ psum (dg B2) 18 = 1000000000 ^ ru * (f * unitsVal lseg) := by
      by_cases hc : c' > 0
      · have hne : ru + lseg.length ≤ 17 := by
          rcases hcar with h | h
          · exact h
          · exfalso
            have := (unitsVal_bounds hd1).1
            have h3 : (1000000000 : Int) ^ lseg.length * 1 ≤ 1000000000 ^ lseg.length * c' :=
              mul_le_mul_of_nonneg_left (by omega) (by positivity)
            have : unitsVal lseg * f = f * unitsVal lseg := mul_comm _ _
            omega
        rw [if_pos hc, upd_ok (by omega) (by omega), wrap32_ok (by omega) (by omega)]
        refine ⟨_, rfl, by rw [List.length_set]; exact hB1len, hB1d.set ⟨by omega, by omega⟩, ?_⟩
        set k := ((ru : Int) + lseg.length).toNat with hk
        have hk' : k = ru + l'.length := by omega
        rw [psum_split (show k + 1 ≤ 18 by omega), psum_zero_of (n := 18 - (k + 1)) (fun p _ => by
          rw [dg_set_ne (by omega), hB1, buf_dg, if_neg (by omega)]), mul_zero, add_zero, psum_succ,
          dg_set_self (by omega), psum_set_ge (le_refl _), hB1, buf_psum (by omega), hk', pow_add, hl1]
        have : 1000000000 ^ ru * (f * unitsVal lseg) = (1000000000 : Int) ^ ru * (unitsVal lseg * f + 0) := by ring
        rw [this, heq1]; ring
      · rw [if_neg hc]
        refine ⟨_, rfl, hB1len, hB1d, ?_⟩
        have hc0 : c' = 0 := by omega
        rw [hB1, buf_psum (by omega)]
        rw [hc0] at heq1
        have : unitsVal l' = f * unitsVal lseg := by linarith
        rw [this]
    obtain ⟨B2, eB2, hB2len, hB2d, hB2v⟩ := hcarry
    rw [eB2, ok_bind, ok_bind]
    dsimp only
    rw [hb2, ok_bind, hc2]
    have hda : (dassert m ((0 : Int) == 0) : Out σ Unit) = .ok () := by cases m <;> rfl
    rw [hda, ok_bind]
    refine ⟨_, _, rfl, hB2len, hB2d.dig, hB2v, by simp; omega, ?_, ?_, ?_⟩
    · exact DigL.dig (((DigL.replicate _).append hd2).append (DigL.replicate _))
    · rw [buf_psum (by omega)]
      rw [hc2] at heq2
      have : unitsVal r' = f * unitsVal rseg := by linarith
      rw [this]; simp
    · intro p hp
      rw [buf_dg, if_neg (by omega)]

theorem psum_trim {g : Nat → Int} (hg : Dig g) {k n : Nat} (hk : k ≤ n) (h : psum g n < 1000000000 ^ k) :
    psum g k = psum g n := by
  rw [psum_split hk] at h ⊢
  have h0 := psum_nonneg hg k
  have h1 : 0 ≤ psum (fun t => g (k + t)) (n - k) := psum_nonneg (fun t => hg _) _
  have h2 : psum (fun t => g (k + t)) (n - k) = 0 := by
    by_contra hne
    have : (1000000000 : Int) ^ k * 1 ≤ 1000000000 ^ k * psum (fun t => g (k + t)) (n - k) :=
      mul_le_mul_of_nonneg_left (by omega) (by positivity)
    omega
  rw [h2]; ring

/-- Normalised divisor: at least half a unit at the top. -/
theorem norm_div {b : FixedDecimal} (hb : WF b) {nr : Nat} (tr : Top b.lsu nr) {f : Int}
    (hf : 1000000000 / (dg b.lsu nr + 1) = f) :
    0 < f ∧ f ≤ 500000000 ∧ f * mant b < 1000000000 ^ (nr + 1) ∧ 500000000 * 1000000000 ^ nr ≤ f * mant b := by
  obtain ⟨f0, f1, f2, f3⟩ := norm_facts tr.pos (hb.dig nr).2
  rw [hf] at f0 f1 f2 f3
  obtain ⟨t1, t2⟩ := top_bounds (k := nr) hb.dig
  rw [← tr.mant hb] at t1 t2
  have hP : (0 : Int) < 1000000000 ^ nr := by positivity
  refine ⟨f0, f1, ?_, ?_⟩
  · calc f * mant b < f * ((dg b.lsu nr + 1) * 1000000000 ^ nr) := mul_lt_mul_of_pos_left t2 f0
      _ = f * (dg b.lsu nr + 1) * 1000000000 ^ nr := by ring
      _ ≤ 1000000000 * 1000000000 ^ nr := mul_le_mul_of_nonneg_right f2 hP.le
      _ = _ := by ring
  · calc (500000000 : Int) * 1000000000 ^ nr ≤ f * dg b.lsu nr * 1000000000 ^ nr := mul_le_mul_of_nonneg_right f3 hP.le
      _ = f * (dg b.lsu nr * 1000000000 ^ nr) := by ring
      _ ≤ _ := mul_le_mul_of_nonneg_left t1 f0.le

/-- The top unit of a normalised divisor. -/
theorem norm_top {buf2 : List Int} (hb2 : Dig (dg buf2)) {nr : Nat} {X : Int} (h : psum (dg buf2) (nr + 1) = X)
    (h5 : 500000000 * 1000000000 ^ nr ≤ X) : 500000000 ≤ dg buf2 nr := by
  rw [psum_succ] at h
  have := psum_lt hb2 nr
  by_contra hlt
  have : dg buf2 nr * 1000000000 ^ nr ≤ 499999999 * 1000000000 ^ nr :=
    mul_le_mul_of_nonneg_right (by omega) (by positivity)
  omega

theorem norm_left {a b : FixedDecimal} (ha : WF a) {nl nr : Nat} (tl : Top a.lsu nl)
    {f : Int} (f0 : 0 < f) (f1 : f ≤ 500000000) (h : f * mant b < 1000000000 ^ (nr + 1)) :
    f * mant a < 1000000000 ^ ((nl : Int) + 2 + divSh a b nl nr).toNat := by
  have hA : 0 ≤ mant a := ha.mant_nonneg
  unfold divSh
  split_ifs with hg
  · have h1 := psum_lt ha.dig (nl + 1)
    rw [← tl.mant ha] at h1
    rw [show ((nl : Int) + 2 + 0).toNat = nl + 1 + 1 by omega, pow_succ]
    calc f * mant a ≤ 1000000000 * mant a := mul_le_mul_of_nonneg_right (by omega) hA
      _ < 1000000000 * 1000000000 ^ (nl + 1) := mul_lt_mul_of_pos_left h1 (by norm_num)
      _ = _ := by ring
  · unfold divGe at hg
    rw [not_le] at hg
    rw [show ((nl : Int) + 2 + -1).toNat = nl + 1 by omega]
    have hP : (0 : Int) < 1000000000 ^ (nr + 1) := by positivity
    have hQ : (0 : Int) < 1000000000 ^ (nl + 1) := by positivity
    refine lt_of_mul_lt_mul_right (a := 1000000000 ^ (nr + 1)) ?_ hP.le
    calc f * mant a * 1000000000 ^ (nr + 1) = f * (mant a * 1000000000 ^ (nr + 1)) := by ring
      _ < f * (mant b * 1000000000 ^ (nl + 1)) := mul_lt_mul_of_pos_left hg f0
      _ = f * mant b * 1000000000 ^ (nl + 1) := by ring
      _ < 1000000000 ^ (nr + 1) * 1000000000 ^ (nl + 1) := mul_lt_mul_of_pos_right h hQ
      _ = _ := by ring

/-- The normalised dividend is smaller than the divisor at the place of the first quotient unit. -/
theorem tail_lead {a b : FixedDecimal} (ha : WF a) (hb : WF b) {nl nr : Nat} (tl : Top a.lsu nl) (tr : Top b.lsu nr)
    {f : Int} (f0 : 0 < f) {rf n : Nat} (hn : (n : Int) = (rf : Int) + divPos a b nl nr + 1) {c : Int}
    (hc : c = (divRI a b nl nr : Int) + fu a - fu b) :
    ((1000000000 ^ (divRI a b nl nr + rf) * (f * mant a) : Int) : ℚ) <
      ((f * mant b : Int) : ℚ) * 1000000000 ^ ((n : Int) + c) := by
  have hlead := div_lead ha hb tl tr
  have hsh := divSh_cases a b nl nr
  unfold divPos at hn
  have hq : ((mant a : ℚ)) * 1000000000 ^ nr < mant b * 1000000000 ^ ((nl : Int) + 1 + divSh a b nl nr).toNat := by
    exact_mod_cast hlead
  have hfq : (0 : ℚ) < f := by exact_mod_cast f0
  have hsplit : (1000000000 : ℚ) ^ ((n : Int) + c) * 1000000000 ^ nr =
      1000000000 ^ (divRI a b nl nr + rf) * 1000000000 ^ ((nl : Int) + 1 + divSh a b nl nr).toNat := by
    rw [← zpow_natCast, ← zpow_natCast, ← zpow_natCast, ← zpow_add₀ (by norm_num), ← zpow_add₀ (by norm_num)]
    congr 1
    omega
  refine lt_of_mul_lt_mul_right (a := (1000000000 : ℚ) ^ nr) ?_ (by positivity)
  calc _ = (1000000000 : ℚ) ^ (divRI a b nl nr + rf) * f * ((mant a : ℚ) * 1000000000 ^ nr) := by push_cast; ring
    _ < (1000000000 : ℚ) ^ (divRI a b nl nr + rf) * f *
        (mant b * 1000000000 ^ ((nl : Int) + 1 + divSh a b nl nr).toNat) :=
        mul_lt_mul_of_pos_left hq (by positivity)
    _ = f * mant b * (1000000000 ^ (divRI a b nl nr + rf) * 1000000000 ^ ((nl : Int) + 1 + divSh a b nl nr).toNat) := by ring
    _ = _ := by rw [← hsplit]; push_cast; ring

/-- The state in which the loop of the long division starts. -/
structure LongStart (a b : FixedDecimal) (nl nr rf n : Nat) (i c f : Int) (buf1 buf2 : List Int) : Prop where
  hf : f = 1000000000 / (dg b.lsu nr + 1)
  f0 : 0 < f
  len1 : buf1.length = 18
  dig1 : Dig (dg buf1)
  len2 : buf2.length = 9
  dig2 : Dig (dg buf2)
  hR : psum (dg buf2) (nr + 1) = f * mant b
  top : 500000000 ≤ dg buf2 nr
  hn : (n : Int) = (rf : Int) + divPos a b nl nr + 1
  hi : i = (n : Int) - 1 + nr + c
  hc : c = (divRI a b nl nr : Int) + fu a - fu b
  hK : 0 ≤ (nr : Int) + c
  hi1 : i + 1 < 18
  hV : psum (dg buf1) (i + 2).toNat = 1000000000 ^ (divRI a b nl nr + rf) * (f * mant a)
  hVR : (psum (dg buf1) (i + 2).toNat : ℚ) < psum (dg buf2) (nr + 1) * 1000000000 ^ ((n : Int) + c)

theorem divTail_start {a b : FixedDecimal} (ha : WF a) (hb : WF b) {nl nr : Nat} (tl : Top a.lsu nl) (tr : Top b.lsu nr)
    (hnr : 1 ≤ nr) {rf : Nat} (hrf : divRI a b nl nr + rf ≤ 9)
    (hfit : ((divRI a b nl nr + rf : Nat) : Int) + nl + divSh a b nl nr < 17) (I : Int) :
    ∃ n i c f buf1 buf2, (0 ≤ (rf : Int) + divPos a b nl nr + 1 → LongStart a b nl nr rf n i c f buf1 buf2) ∧
      n = ((rf : Int) + divPos a b nl nr + 1).toNat ∧
      divTail m a b nl nr (divSh a b nl nr) I (divRI a b nl nr : Nat) rf (rf + divPos a b nl nr) = do
        let l ← longDivLoop m buf2 nr (dg buf2 nr) (dg buf2 (nr - 1)) n i buf1 zeroUnits
        return ({ lsu := l, intg := BitVec.ofInt 8 I, frac := wrap 8 ((rf : Int) * DIGITS_PER_UNIT) } : FixedDecimal) := by
  have h1 := tl.lt
  have h2 := tr.lt
  rw [ha.len] at h1
  rw [hb.len] at h2
  have haL := ha.len
  have hbL := hb.len
  obtain ⟨f, hf⟩ : ∃ f, 1000000000 / (dg b.lsu nr + 1) = f := ⟨_, rfl⟩
  obtain ⟨f0, f1, f2, f3⟩ := norm_div hb tr hf
  have hL := norm_left (b := b) ha tl f0 f1 f2
  have hl1 : unitsVal (a.lsu.take (nl + 1)) = mant a := by rw [unitsVal_take (by omega), tl.mant ha]
  have hr1 : unitsVal (b.lsu.take (nr + 1)) = mant b := by rw [unitsVal_take (by omega), tr.mant hb]
  have hll : (a.lsu.take (nl + 1)).length = nl + 1 := by rw [List.length_take]; omega
  have hrl : (b.lsu.take (nr + 1)).length = nr + 1 := by rw [List.length_take]; omega
  have hsh := divSh_cases a b nl nr
  have hRIp : divRI a b nl nr = (divPos a b nl nr + 1).toNat := rfl
  obtain ⟨buf1, buf2, e, len1, dig1, v1, len2, dig2, v2, hz⟩ := divPrep_spec (σ := FixedDecimal) (m := m) (f := f)
    (lseg := a.lsu.take (nl + 1)) (rseg := b.lsu.take (nr + 1)) f0 f1 (ha.digL.take _) (hb.digL.take _)
    (ru := divRI a b nl nr + rf) (nr := nr) hrl (by omega) (by rw [hr1]; exact f2) (by omega)
    (by
      rcases hsh with h | h
      · left; omega
      · right; rw [hl1, hll]; rw [h] at hL; rwa [show ((nl : Int) + 2 + -1).toNat = nl + 1 by omega] at hL)
  rw [hl1] at v1
  rw [hr1] at v2
  set i : Int := (divRI a b nl nr : Int) + rf + nl + divSh a b nl nr with hi
  set c : Int := (divRI a b nl nr : Int) + fu a - fu b with hc
  set n := ((rf : Int) + divPos a b nl nr + 1).toNat with hn
  have hS : 0 ≤ (rf : Int) + divPos a b nl nr + 1 → LongStart a b nl nr rf n i c f buf1 buf2 := by
    intro hpos
    have hn' : (n : Int) = (rf : Int) + divPos a b nl nr + 1 := by omega
    have hinc : i = (n : Int) - 1 + nr + c := by
      rw [hn']; unfold divPos; omega
    have hK : 0 ≤ (nr : Int) + c := by
      rw [hc, hRIp]; unfold divPos; omega
    have hV : psum (dg buf1) (i + 2).toNat = 1000000000 ^ (divRI a b nl nr + rf) * (f * mant a) := by
      rw [← v1]
      refine psum_trim dig1 (by omega) ?_
      rw [v1]
      have : (i + 2).toNat = (divRI a b nl nr + rf) + ((nl : Int) + 2 + divSh a b nl nr).toNat := by omega
      rw [this, pow_add _ (divRI a b nl nr + rf)]
      exact mul_lt_mul_of_pos_left hL (pow_pos (by norm_num) _)
    have hVR : (psum (dg buf1) (i + 2).toNat : ℚ) < psum (dg buf2) (nr + 1) * 1000000000 ^ ((n : Int) + c) := by
      rw [hV, v2]
      exact tail_lead ha hb tl tr f0 hn' hc
    exact ⟨hf.symm, f0, len1, dig1, len2, dig2, v2, norm_top dig2 v2 f3, hn', hinc, hc, hK, by omega, hV, hVR⟩
  refine ⟨n, i, c, f, buf1, buf2, hS, hn, ?_⟩
  unfold divTail
  dsimp only
  rw [if_neg (by omega)]
  have hidiv : (idiv UNIT (dg b.lsu (nr : Int).toNat + 1) : Out FixedDecimal Int) = .ok f := by
    rw [show (nr : Int).toNat = nr from rfl]
    have := tr.pos
    rw [idiv_ok (by unfold UNIT; norm_num) (by omega), ← hf]
    rfl
  rw [hidiv, ok_bind]
  have hend : (divRI a b nl nr : Int) + rf + nl + 1 = ((divRI a b nl nr + rf : Nat) : Int) + (a.lsu.take (nl + 1)).length := by
    rw [hll]; push_cast; ring
  have hprep : divPrep m f (a.lsu.take (nl + 1)) (b.lsu.take (nr + 1)) ((divRI a b nl nr + rf : Nat) : Int)
      (((divRI a b nl nr + rf : Nat) : Int) + (a.lsu.take (nl + 1)).length) nr = (.ok (buf1, buf2) : Out FixedDecimal _) := e
  rw [← hend, show ((divRI a b nl nr + rf : Nat) : Int) = (divRI a b nl nr : Int) + rf by push_cast; ring] at hprep
  unfold divPrep at hprep
  rw [show ((nl : Int) + 1).toNat = nl + 1 by omega, show ((nr : Int) + 1).toNat = nr + 1 by omega, hprep, ok_bind]
  dsimp only
  rw [idx_ok (by omega) (by omega), ok_bind, idx_ok (by omega) (by omega), ok_bind]
  rw [show (nr : Int).toNat = nr from rfl, show ((nr : Int) - 1).toNat = nr - 1 by omega]

end Fxd
