import Verif.Proofs.RemTop
/-!
# The remainder: results of the branches of `rem_abs`
-/

namespace Fxd
open Spec

variable {σ : Type} {m : Mode}

theorem remPrep_spec {f : Int} {lseg rseg : List Int} (hf0 : 0 < f) (hf1 : f ≤ 500000000) (hl : DigL lseg) (hr : DigL rseg)
    {ru rs : Nat} {nr : Nat} (hrl : rseg.length = nr + 1) (hnr : rs + nr < 18)
    (hfr : f * unitsVal rseg < 1000000000 ^ (nr + 1))
    (hfit : ru + lseg.length ≤ 18)
    (hcar : ru + lseg.length ≤ 17 ∨ f * unitsVal lseg < 1000000000 ^ lseg.length) :
    ∃ buf1 buf2, (remPrep m f lseg rseg ru rs (lseg.length + (ru : Int)) (nr + 1 + (rs : Int)) : Out σ _) = .ok (buf1, buf2) ∧
      buf1.length = 18 ∧ Dig (dg buf1) ∧ psum (dg buf1) 18 = 1000000000 ^ ru * (f * unitsVal lseg) ∧
      buf2.length = 18 ∧ Dig (dg buf2) ∧ psum (dg buf2) (rs + nr + 1) = 1000000000 ^ rs * (f * unitsVal rseg) ∧
      (∀ p < rs, dg buf2 p = 0) := by
  unfold remPrep
  by_cases h1 : f = 1
  · subst h1
    rw [if_pos rfl, copy_buf hfit _ (by ring), ok_bind]
    have := copy_buf (σ := σ) (N := 18) (a := rs) (l := rseg) (by omega) ((nr : Int) + 1 + rs) (by rw [hrl]; push_cast; ring)
    rw [this, ok_bind]
    refine ⟨_, _, rfl, by simp; omega, ?_, ?_, by simp; omega, ?_, ?_, ?_⟩
    · exact DigL.dig (((DigL.replicate _).append hl).append (DigL.replicate _))
    · rw [buf_psum hfit, one_mul]
    · exact DigL.dig (((DigL.replicate _).append hr).append (DigL.replicate _))
    · rw [buf_psum (by omega), one_mul]
    · intro p hp
      rw [buf_dg, if_neg (by omega)]
  · rw [if_neg h1]
    obtain ⟨l', c', e1, hl1, hd1, c0, c1, heq1⟩ := normLoop_spec (σ := σ) (m := m) hf0 (by omega) lseg 0 hl (le_refl _) hf0
    obtain ⟨r', c2', e2, hl2, hd2, c20, c21, heq2⟩ := normLoop_spec (σ := σ) (m := m) hf0 (by omega) rseg 0 hr (le_refl _) hf0
    have hc2 : c2' = 0 := by
      by_contra hne
      have := (unitsVal_bounds hd2).1
      have h3 : (1000000000 : Int) ^ rseg.length * 1 ≤ 1000000000 ^ rseg.length * c2' :=
        mul_le_mul_of_nonneg_left (by omega) (by positivity)
      rw [hrl] at heq2 h3
      have : unitsVal rseg * f = f * unitsVal rseg := mul_comm _ _
      omega
    have hb1 := copy_buf (σ := σ) (N := 18) (a := ru) (l := l') (by omega) ((lseg.length : Int) + ru) (by rw [hl1]; ring)
    have hb2 := copy_buf (σ := σ) (N := 18) (a := rs) (l := r') (by omega) ((nr : Int) + 1 + rs) (by rw [hl2, hrl]; push_cast; ring)
    rw [e1, ok_bind]
    dsimp only
    have hcz : (if c' > 0 then 0 else c') = 0 := by by_cases hc : c' > 0 <;> simp [hc]; omega
    rw [hb1, ok_bind, hcz, e2]
    set B1 := List.replicate ru (0 : Int) ++ l' ++ List.replicate (18 - (ru + l'.length)) 0 with hB1
    have hB1len : B1.length = 18 := by simp [hB1]; omega
    have hB1d : DigL B1 := (((DigL.replicate _).append hd1).append (DigL.replicate _))
    -- the carry unit
    have hcarry : ∃ B2, (if c' > 0 then upd B1 ((lseg.length : Int) + ru) (wrap 32 c') else .ok B1 : Out σ _) = .ok B2 ∧
        B2.length = 18 ∧ DigL B2 ∧ psum (dg B2) 18 = 1000000000 ^ ru * (f * unitsVal lseg) := by
      by_cases hc : c' > 0
      · have hne : ru + lseg.length ≤ 17 := by
          rcases hcar with h | h
          · exact h
          · exfalso
            have := (unitsVal_bounds hd1).1
            have h3 : (1000000000 : Int) ^ lseg.length * 1 ≤ 1000000000 ^ lseg.length * c' :=
              mul_le_mul_of_nonneg_left (by omega) (by positivity)
            have : unitsVal lseg * f = f * unitsVal lseg := mul_comm _ _
            omega
        rw [if_pos hc, upd_ok (by omega) (by omega), wrap32_ok (by omega) (by omega)]
        refine ⟨_, rfl, by rw [List.length_set]; exact hB1len, hB1d.set ⟨by omega, by omega⟩, ?_⟩
        set k := ((lseg.length : Int) + ru).toNat with hk
        have hk' : k = ru + l'.length := by omega
        rw [psum_split (show k + 1 ≤ 18 by omega), psum_zero_of (n := 18 - (k + 1)) (fun p _ => by
          rw [dg_set_ne (by omega), hB1, buf_dg, if_neg (by omega)]), mul_zero, add_zero, psum_succ,
          dg_set_self (by omega), psum_set_ge (le_refl _), hB1, buf_psum (by omega), hk', pow_add, hl1]
        have : 1000000000 ^ ru * (f * unitsVal lseg) = (1000000000 : Int) ^ ru * (unitsVal lseg * f + 0) := by ring
        rw [this, heq1]; ring
      · rw [if_neg hc]
        refine ⟨_, rfl, hB1len, hB1d, ?_⟩
        have hc0 : c' = 0 := by omega
        rw [hB1, buf_psum (by omega)]
        rw [hc0] at heq1
        have : unitsVal l' = f * unitsVal lseg := by linarith
        rw [this]
    obtain ⟨B2, eB2, hB2len, hB2d, hB2v⟩ := hcarry
    rw [eB2, ok_bind, ok_bind]
    dsimp only
    rw [hb2, ok_bind, hc2]
    have hda : (dassert m ((0 : Int) == 0) : Out σ Unit) = .ok () := by cases m <;> rfl
    rw [hda, ok_bind]
    refine ⟨_, _, rfl, hB2len, hB2d.dig, hB2v, by simp; omega, ?_, ?_, ?_⟩
    · exact DigL.dig (((DigL.replicate _).append hd2).append (DigL.replicate _))
    · rw [buf_psum (by omega)]
      rw [hc2] at heq2
      have : unitsVal r' = f * unitsVal rseg := by linarith
      rw [this]
    · intro p hp
      rw [buf_dg, if_neg (by omega)]


/-- The remainder starts at or below the top unit of the dividend. -/
theorem rem_n {a b : FixedDecimal} (ha : WF a) (hb : WF b) {nl nr : Nat} (tl : Top a.lsu nl) (tr : Top b.lsu nr)
    (h : remB a b < remA a b) :
    (nr : Int) + (fu a - fu b : Nat) < (nl : Int) + 1 + divSh a b nl nr + (fu b - fu a : Nat) := by
  have h1 := div_lead ha hb tl tr
  have hbp := tr.mant_pos hb
  have hsh := divSh_cases a b nl nr
  unfold remA remB at h
  set e := ((nl : Int) + 1 + divSh a b nl nr).toNat with he
  set ls := fu b - fu a
  set rs := fu a - fu b
  have h2 : mant b * 1000000000 ^ (rs + nr) < mant b * 1000000000 ^ (e + ls) := by
    calc mant b * 1000000000 ^ (rs + nr) = mant b * 1000000000 ^ rs * 1000000000 ^ nr := by rw [pow_add _ rs nr]; ring
      _ < mant a * 1000000000 ^ ls * 1000000000 ^ nr := mul_lt_mul_of_pos_right h (by positivity)
      _ = mant a * 1000000000 ^ nr * 1000000000 ^ ls := by ring
      _ < mant b * 1000000000 ^ e * 1000000000 ^ ls := mul_lt_mul_of_pos_right h1 (by positivity)
      _ = _ := by rw [pow_add _ e ls]; ring
  have h3 := (pow_lt_pow_iff_right₀ (show (1 : Int) < 1000000000 by norm_num)).mp (lt_of_mul_lt_mul_left h2 hbp.le)
  omega

/-- What every result of the long and short branch satisfies. -/
structure RemRes (a b r : FixedDecimal) : Prop where
  wf : WF r
  pos : neg r = false
  frac : fracDigits r = max (fracDigits a) (fracDigits b)
  tight : mant r < 10 ^ (intgDigits r + 9 * fu r)
  sharp : intgDigits r = 0 ∨ 10 ^ (intgDigits r - 1 + 9 * fu r) ≤ mant r
  lt : mant r < remB a b

theorem RemRes.fu {a b r : FixedDecimal} (h : RemRes a b r) : fu r = max (fu a) (fu b) := by
  unfold Spec.fu; rw [h.frac, unitsFor_max]

theorem remShort_spec {a b : FixedDecimal} (ha : WF a) (hb : WF b) {nl : Nat} (tl : Top a.lsu nl) (tr : Top b.lsu 0)
    (h : remB a b < remA a b) :
    ∃ r, remShort m a b (a.lsu.take (nl + 1)) nl (divSh a b nl 0) ((fu b - fu a : Nat) : Int)
        ((fu a - fu b : Nat) : Int) (max a.frac b.frac) ((max (fu a) (fu b) : Nat) : Int) = .ok r ∧
      RemRes a b r ∧ mant r = remA a b % remB a b := by
  have hn := rem_n ha hb tl tr h
  have h1 := tl.lt
  have haL := ha.len
  have hfa := ha.fits
  have hfb := hb.fits
  have hsh := divSh_cases a b nl 0
  set ls := fu b - fu a with hls
  set rs := fu a - fu b with hrs
  set d := dg b.lsu 0 with hd
  have hdp : 0 < d := tr.pos
  have hd9 : d < 1000000000 := (hb.dig 0).2
  have hmb : mant b = d := by rw [tr.mant hb]; simp [psum_succ, hd]
  have hl1 : unitsVal (a.lsu.take (nl + 1)) = mant a := by rw [unitsVal_take (by omega), tl.mant ha]
  have hll : (a.lsu.take (nl + 1)).length = nl + 1 := by rw [List.length_take]; omega
  set buf := List.replicate ls (0 : Int) ++ a.lsu.take (nl + 1) ++ List.replicate (18 - (ls + (nl + 1))) 0 with hbuf
  have hbufd : Dig (dg buf) := DigL.dig (((DigL.replicate _).append (ha.digL.take _)).append (DigL.replicate _))
  have hbufl : buf.length = 18 := by simp [hbuf]; omega
  have hbufv : ∀ n, ls + (nl + 1) ≤ n → psum (dg buf) n = remA a b := by
    intro n hn
    rw [hbuf, buf_psum (by rw [hll]; exact hn), hl1]; unfold remA; ring
  have hcopy : (copyFromSlice (List.replicate 18 0) (ls : Int) ((ls : Int) + nl + 1) (a.lsu.take (nl + 1)) :
      Out FixedDecimal _) = .ok buf := by
    rw [copy_buf (by omega) _ (by rw [hll]; push_cast; ring), hll]
  -- the initial remainder
  set rem0 : Int := if divSh a b nl 0 < 0 then dg a.lsu nl else 0 with hrem0
  have hrem : (if divSh a b nl 0 < 0 then idx a.lsu (nl : Int) else .ok 0 : Out FixedDecimal Int) = .ok rem0 := by
    rw [hrem0]; split_ifs
    · rw [idx_nat h1]
    · rfl
  have hr00 : 0 ≤ rem0 := by
    rw [hrem0]; split_ifs
    · exact tl.pos.le
    · exact le_refl _
  have hr01 : rem0 < d := by
    rw [hrem0]; split_ifs with hs
    · have hg : ¬ divGe a b nl 0 := by
        intro hg; unfold divSh at hs; rw [if_pos hg] at hs; omega
      unfold divGe at hg
      rw [not_le, hmb, zero_add, pow_one, pow_succ, ← mul_assoc] at hg
      have h3 := lt_of_mul_lt_mul_right hg (by norm_num)
      have h4 := (top_bounds (k := nl) ha.dig).1
      rw [← tl.mant ha] at h4
      exact lt_of_mul_lt_mul_right (lt_of_le_of_lt h4 h3) (by positivity)
    · exact hdp
  obtain ⟨n, hnn⟩ : ∃ n : Nat, (n : Int) = (nl : Int) + 1 + divSh a b nl 0 + ls - rs := ⟨_, Int.toNat_of_nonneg (by omega)⟩
  have hn1 : 1 ≤ n := by omega
  obtain ⟨r, Q, er, r0, r1, req⟩ := shortRemLoop_spec (σ := FixedDecimal) (m := m) hbufd hd9 n rs rem0 (by omega) hr00 hr01
  have hV : remA a b = psum (dg buf) rs + 1000000000 ^ rs * (Q * d + r) := by
    rw [← req, ← hbufv (ls + (nl + 1)) (le_refl _), hrem0]
    rcases hsh with h0 | h0
    · rw [if_neg (by omega), show ls + (nl + 1) = rs + n by omega, psum_add_len]; ring
    · have ht : dg a.lsu nl = dg buf (rs + n) := by
        rw [hbuf, buf_dg, hll, if_pos (by omega), show rs + n - ls = nl by omega, dg_take, if_pos (by omega)]
      rw [if_pos (by omega), show ls + (nl + 1) = rs + n + 1 by omega, psum_succ, psum_add_len, ht, pow_add _ rs n]; ring
  have hlow0 := psum_nonneg hbufd rs
  have hlow1 := psum_lt hbufd rs
  have hB : remB a b = d * 1000000000 ^ rs := by unfold remB; rw [hmb]
  have hP : (0 : Int) < 1000000000 ^ rs := by positivity
  have hval : remA a b % remB a b = psum (dg buf) rs + 1000000000 ^ rs * r := by
    refine emod_of_bounds (Q := Q) ?_ (by positivity) ?_
    · rw [hV, hB]; ring
    · rw [hB]; nlinarith
  have hrs8 : rs ≤ 8 := by omega
  unfold remShort
  rw [idx_ok (le_refl 0) (show (0 : Int) < b.lsu.length by rw [hb.len]; norm_num), ok_bind, Int.toNat_zero]
  dsimp only
  rw [hcopy, ok_bind, hrem, ok_bind,
    show (ls : Int) + nl + 1 - 1 + divSh a b nl 0 = (rs : Int) + n - 1 by omega,
    show ((rs : Int) + n - 1 - (0 + rs) + 1).toNat = n by omega, er, ok_bind,
    show (rs : Int) + n - 1 - n + 1 = rs by ring]
  have hz9 : zeroUnits.length = 9 := rfl
  have hzd : ∀ p, dg zeroUnits p = 0 := fun p => dg_replicate
  have hinit : ∃ l0 rnz0, (if r > 0 then do
        let l ← upd zeroUnits (rs : Int) (wrap 32 r)
        return (l, (rs : Int))
      else return (zeroUnits, -1) : Out FixedDecimal (List Int × Int)) = .ok (l0, rnz0) ∧ l0.length = 9 ∧
      (∀ p, dg l0 p = if p = rs then r else 0) ∧ ((0 < r ∧ rnz0 = rs) ∨ (r = 0 ∧ rnz0 = -1)) := by
    by_cases hr : r > 0
    · rw [if_pos hr, wrap32_ok (by omega) (by omega), upd_nat (by omega), ok_bind]
      refine ⟨_, _, rfl, by rw [List.length_set, hz9], fun p => ?_, Or.inl ⟨hr, rfl⟩⟩
      rw [dg_set (by omega), hzd]
    · rw [if_neg hr]
      refine ⟨_, _, rfl, hz9, fun p => ?_, Or.inr ⟨by omega, rfl⟩⟩
      rw [hzd]; split_ifs <;> omega
  obtain ⟨l0, rnz0, e0, hl0, hl0d, hrnz⟩ := hinit
  obtain ⟨l, rnz, el, hll', hld, hk0, hk1⟩ := remCopyLoop_spec (σ := FixedDecimal) hbufd rs l0 rnz0 (by omega) (by omega)
  rw [e0, ok_bind]
  dsimp only
  rw [show ((rs : Int)).toNat = rs from rfl, el, ok_bind]
  dsimp only
  have hl9 : l.length = 9 := by omega
  have hlp : ∀ p, dg l p = if p < rs then dg buf p else if p = rs then r else 0 := fun p => by rw [hld, hl0d]
  have hLead : Lead l 9 rnz := by
    rcases hrnz with ⟨hr, e⟩ | ⟨hr, e⟩
    · refine Or.inr ⟨rs, by rw [← e]; exact hk0 (by omega), by omega, ?_, fun p h1 h2 => ?_⟩
      · rw [hlp, if_neg (by omega), if_pos rfl]; exact hr
      · rw [hlp, if_neg (by omega), if_neg (by omega)]
    · have hhi : ∀ p, rs ≤ p → dg l p = 0 := fun p hp => by
        rw [hlp, if_neg (by omega)]; split_ifs <;> omega
      rcases hk1 e with ⟨hr', hh⟩ | ⟨k, hr', hk, hpos, hh⟩
      · refine Or.inl ⟨hr', fun p hp => ?_⟩
        by_cases hc : p < rs
        · exact hh p hc
        · exact hhi p (by omega)
      · refine Or.inr ⟨k, hr', by omega, hpos, fun p h1 h2 => ?_⟩
        by_cases hc : p < rs
        · exact hh p h1 hc
        · exact hhi p (by omega)
  have hldig : DigL l := DigL.of_dig fun p _ => by
    rw [hlp]; split_ifs
    · exact hbufd p
    · omega
    · norm_num
  have hlv : psum (dg l) 9 = psum (dg buf) rs + 1000000000 ^ rs * r := by
    rw [psum_extend (show rs + 1 ≤ 9 by omega) fun p h1 _ => by rw [hlp, if_neg (by omega), if_neg (by omega)], psum_succ,
      hlp rs, if_neg (by omega), if_pos rfl, psum_congr fun p hp => by rw [hlp p, if_pos hp]]
    ring
  obtain ⟨q, eq, -, q1, q2, q3, q4, q5, q6⟩ := remFinish_spec (σ := FixedDecimal) (m := m) hl9 hldig
    (f := max (fracDigits a) (fracDigits b)) (by have := ha.frac_le; have := hb.frac_le; omega) hLead
  rw [maxfrac_eq ha hb]
  have hu : unitsFor (max (fracDigits a) (fracDigits b)) = max (fu a) (fu b) := unitsFor_max _ _
  rw [hu] at eq
  rw [eq]
  refine ⟨q, rfl, ⟨q1, q2, q3, q5, q6, ?_⟩, by rw [q4, hlv, hval]⟩
  rw [q4, hlv, ← hval]
  exact Int.emod_lt_of_pos _ (by rw [hB]; positivity)

end Fxd
