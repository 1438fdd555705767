import Verif.Proofs.RemRes
/-!
# The remainder: the long branch
-/

namespace Fxd
open Spec

variable {σ : Type} {m : Mode}

theorem idiv_norm {b : FixedDecimal} (hb : WF b) {nr : Nat} (tr : Top b.lsu nr) {f : Int}
    (hf : 1000000000 / (dg b.lsu nr + 1) = f) : (idiv UNIT (dg b.lsu nr + 1) : Out σ Int) = .ok f := by
  have := tr.pos
  rw [idiv_ok (by unfold UNIT; norm_num) (by omega), ← hf]
  rfl

/-- The one case in which the dividend does not fit the buffer. -/
theorem remLong_panic {a b : FixedDecimal} (ha : WF a) (hb : WF b) {nl nr : Nat} (tl : Top a.lsu nl)
    (tr : Top b.lsu nr) (hnr : 1 ≤ nr) (h : remB a b < remA a b)
    (hfit : nl + 1 + (fu b - fu a) = 18) (hsh : divSh a b nl nr = 0) :
    remLong m b (a.lsu.take (nl + 1)) (b.lsu.take (nr + 1)) nl nr (divSh a b nl nr) ((fu b - fu a : Nat) : Int)
        ((fu a - fu b : Nat) : Int) (max a.frac b.frac) ((max (fu a) (fu b) : Nat) : Int) = .panic .index := by
  have hn := rem_n ha hb tl tr h
  have h1 := tl.lt
  have h2 := tr.lt
  have haL := ha.len
  have hbL := hb.len
  have hfb := hb.fits
  obtain ⟨f, hf⟩ : ∃ f, 1000000000 / (dg b.lsu nr + 1) = f := ⟨_, rfl⟩
  obtain ⟨f0, f1, f2, f3⟩ := norm_div hb tr hf
  have hr1 : unitsVal (b.lsu.take (nr + 1)) = mant b := by rw [unitsVal_take (by omega), tr.mant hb]
  have hll : (a.lsu.take (nl + 1)).length = nl + 1 := by rw [List.length_take]; omega
  have hrl : (b.lsu.take (nr + 1)).length = nr + 1 := by rw [List.length_take]; omega
  have hnl : nl = 8 := by omega
  have hls : fu b - fu a = 9 := by omega
  have hrs : fu a - fu b = 0 := by omega
  unfold remLong
  dsimp only
  rw [idx_nat (by omega), ok_bind, idiv_norm hb tr hf, ok_bind]
  rw [hls, hrs]
  by_cases hcar : f * unitsVal (a.lsu.take (nl + 1)) < 1000000000 ^ (a.lsu.take (nl + 1)).length
  · obtain ⟨buf1, buf2, e, len1, dig1, v1, len2, dig2, v2, hz⟩ := remPrep_spec (σ := FixedDecimal) (m := m) (f := f)
      (lseg := a.lsu.take (nl + 1)) (rseg := b.lsu.take (nr + 1)) f0 f1 (ha.digL.take _) (hb.digL.take _)
      (ru := 9) (rs := 0) (nr := nr) hrl (by omega) (by rw [hr1]; exact f2) (by omega) (Or.inr hcar)
    rw [hll, show (((nl + 1 : Nat) : Int) + ((9 : Nat) : Int)) = (nl : Int) + 1 + ((9 : Nat) : Int) by push_cast; ring] at e
    rw [e, ok_bind]
    dsimp only
    rw [idx_ok (by omega) (by omega), ok_bind, idx_ok (by omega) (by omega), ok_bind, slice_ok (by omega) (by omega) (by omega),
      ok_bind, hsh]
    obtain ⟨k, hk⟩ : ∃ k, ((nl : Int) + 1 + ((9 : Nat) : Int) + 0 - 1 - ((nr : Int) + 1 + ((0 : Nat) : Int) - 1) + 1).toNat = k + 1 :=
      ⟨(17 - (nr : Int)).toNat, by omega⟩
    rw [hk]
    unfold longRemLoop guessQ
    rw [idx_oob (by omega)]
    rfl
  · have hne : f ≠ 1 := by
      rintro rfl
      rw [one_mul] at hcar
      exact hcar (unitsVal_bounds (ha.digL.take _)).2
    obtain ⟨l', c', e1, hl1, hd1, c0, c1, heq1⟩ := normLoop_spec (σ := FixedDecimal) (m := m) f0 (by omega)
      (a.lsu.take (nl + 1)) 0 (ha.digL.take _) (le_refl _) f0
    have hc : 0 < c' := by
      by_contra hle
      have h0 : c' = 0 := by omega
      rw [h0, mul_zero, add_zero, add_zero, mul_comm] at heq1
      rw [heq1] at hcar
      have := (unitsVal_bounds hd1).2
      rw [hl1] at this
      exact hcar this
    unfold remPrep
    rw [if_neg hne, e1, ok_bind]
    dsimp only
    rw [copy_buf (by omega) _ (by rw [hl1, hll]; push_cast; ring), ok_bind, if_pos hc]
    have : (upd (List.replicate 9 (0 : Int) ++ l' ++ List.replicate (18 - (9 + l'.length)) 0) ((nl : Int) + 1 + ((9 : Nat) : Int))
        (wrap 32 c') : Out FixedDecimal _) = .panic .index := by
      unfold upd
      rw [if_neg]
      simp only [List.length_append, List.length_replicate]
      omega
    rw [this]
    rfl

/-- The long branch in all other cases. -/
theorem remLong_spec {a b : FixedDecimal} (ha : WF a) (hb : WF b) {nl nr : Nat} (tl : Top a.lsu nl)
    (tr : Top b.lsu nr) (hnr : 1 ≤ nr) (h : remB a b < remA a b) {f : Int} (hf : 1000000000 / (dg b.lsu nr + 1) = f) {n : Nat}
    (hnn : (n : Int) = (nl : Int) + 1 + divSh a b nl nr + (fu b - fu a : Nat) - (fu a - fu b : Nat) - nr)
    (hfit : nl + 1 + (fu b - fu a) = 18 → divSh a b nl nr = -1) {X : Out FixedDecimal FixedDecimal}
    (hX : remLong m b (a.lsu.take (nl + 1)) (b.lsu.take (nr + 1)) nl nr (divSh a b nl nr) ((fu b - fu a : Nat) : Int)
        ((fu a - fu b : Nat) : Int) (max a.frac b.frac) ((max (fu a) (fu b) : Nat) : Int) = X) :
    (m = .debug ∧ ((∃ W ∈ remWins (f * remB a b) (1000000000 ^ (nr + (fu a - fu b) - 1)) n (f * remA a b),
          FirstGuessWide (f * remB a b) (1000000000 ^ (nr + (fu a - fu b) - 1)) W) ∨
        ¬ f ∣ remRun (f * remB a b) (1000000000 ^ (nr + (fu a - fu b) - 1)) n (f * remA a b) ∨
        nl + 1 + (fu b - fu a) = 18) ∧
      ∃ p, X = .panic p ∧ (p = .assert ∧ ((∃ W ∈ remWins (f * remB a b) (1000000000 ^ (nr + (fu a - fu b) - 1)) n (f * remA a b),
          FirstGuessWide (f * remB a b) (1000000000 ^ (nr + (fu a - fu b) - 1)) W) ∨ nl + 1 + (fu b - fu a) ≠ 18) ∨
        p = .index ∧ nl + 1 + (fu b - fu a) = 18 ∧ ¬ (∃ W ∈ remWins (f * remB a b) (1000000000 ^ (nr + (fu a - fu b) - 1)) n (f * remA a b),
          FirstGuessWide (f * remB a b) (1000000000 ^ (nr + (fu a - fu b) - 1)) W))) ∨
    ¬ (m = .debug ∧ ((∃ W ∈ remWins (f * remB a b) (1000000000 ^ (nr + (fu a - fu b) - 1)) n (f * remA a b),
          FirstGuessWide (f * remB a b) (1000000000 ^ (nr + (fu a - fu b) - 1)) W) ∨
        ¬ f ∣ remRun (f * remB a b) (1000000000 ^ (nr + (fu a - fu b) - 1)) n (f * remA a b) ∨
        nl + 1 + (fu b - fu a) = 18)) ∧
    ∃ r, X = .ok r ∧ RemRes a b r ∧
      mant r = remRun (f * remB a b) (1000000000 ^ (nr + (fu a - fu b) - 1)) n (f * remA a b) / f := by
  have hn := rem_n ha hb tl tr h
  have h1 := tl.lt
  have h2 := tr.lt
  have haL := ha.len
  have hbL := hb.len
  have hfa := ha.fits
  have hfb := hb.fits
  have hsh := divSh_cases a b nl nr
  obtain ⟨f0, f1, f2, f3⟩ := norm_div hb tr hf
  have hL := norm_left (b := b) ha tl f0 f1 f2
  have hlead := div_lead ha hb tl tr
  have hl1 : unitsVal (a.lsu.take (nl + 1)) = mant a := by rw [unitsVal_take (by omega), tl.mant ha]
  have hr1 : unitsVal (b.lsu.take (nr + 1)) = mant b := by rw [unitsVal_take (by omega), tr.mant hb]
  have hll : (a.lsu.take (nl + 1)).length = nl + 1 := by rw [List.length_take]; omega
  have hrl : (b.lsu.take (nr + 1)).length = nr + 1 := by rw [List.length_take]; omega
  have hmA : remA a b = 1000000000 ^ (fu b - fu a) * mant a := by unfold remA; ring
  have hmB : remB a b = 1000000000 ^ (fu a - fu b) * mant b := by unfold remB; ring
  have hfrac := maxfrac_eq ha hb
  have hfl := ha.frac_le
  have hfl' := hb.frac_le
  have hu : unitsFor (max (fracDigits a) (fracDigits b)) = max (fu a) (fu b) := unitsFor_max _ _
  set ls := fu b - fu a with hls
  set rs := fu a - fu b with hrs
  rw [show nr + rs - 1 = rs + nr - 1 by omega]
  obtain ⟨buf1, buf2, e, len1, dig1, v1, len2, dig2, v2, hz⟩ := remPrep_spec (σ := FixedDecimal) (m := m) (f := f)
    (lseg := a.lsu.take (nl + 1)) (rseg := b.lsu.take (nr + 1)) f0 f1 (ha.digL.take _) (hb.digL.take _)
    (ru := ls) (rs := rs) (nr := nr) hrl (by omega) (by rw [hr1]; exact f2) (by omega)
    (by
      by_cases hs : divSh a b nl nr = -1
      · right; rw [hl1, hll]; rw [hs] at hL; rwa [show ((nl : Int) + 2 + -1).toNat = nl + 1 by omega] at hL
      · left; omega)
  rw [hll, show (((nl + 1 : Nat) : Int) + (ls : Int)) = (nl : Int) + 1 + (ls : Int) by push_cast; ring] at e
  rw [hl1] at v1
  rw [hr1] at v2
  have v1' : psum (dg buf1) 18 = f * remA a b := by rw [v1, hmA]; ring
  have v2' : psum (dg buf2) (rs + nr + 1) = f * remB a b := by rw [v2, hmB]; ring
  have hP : (0 : Int) < 1000000000 ^ rs := by positivity
  have h5 : 500000000 ≤ dg buf2 (rs + nr) := by
    refine norm_top dig2 v2 ?_
    rw [pow_add _ rs nr]
    calc 500000000 * ((1000000000 : Int) ^ rs * 1000000000 ^ nr) = 1000000000 ^ rs * (500000000 * 1000000000 ^ nr) := by ring
      _ ≤ _ := mul_le_mul_of_nonneg_left f3 hP.le
  have hn1 : 1 ≤ n := by omega
  have hnr8 : rs + nr ≤ 8 := by omega
  -- the window covers the dividend
  have hE : n + (rs + nr + 1) = ls + ((nl : Int) + 2 + divSh a b nl nr).toNat := by omega
  have hA : f * remA a b < 1000000000 ^ (n + (rs + nr + 1)) := by
    rw [hE, pow_add _ ls, hmA]
    calc f * ((1000000000 : Int) ^ ls * mant a) = 1000000000 ^ ls * (f * mant a) := by ring
      _ < _ := mul_lt_mul_of_pos_left hL (by positivity)
  have hV : psum (dg buf1) (n + (rs + nr + 1)) = f * remA a b := by
    rw [← v1']; exact psum_trim dig1 (by omega) (by rw [v1']; exact hA)
  have hhigh : ∀ p, n + (rs + nr + 1) ≤ p → dg buf1 p = 0 := by
    intro p hp
    by_cases hp18 : p < 18
    · by_contra hne
      have hpos : 0 < dg buf1 p := lt_of_le_of_ne (dig1 p).1 (Ne.symm hne)
      have h3 := psum_ge_of_pos dig1 hp18 hpos
      have h4 : (1000000000 : Int) ^ (n + (rs + nr + 1)) ≤ 1000000000 ^ p := pow_le_pow_right₀ (by norm_num) hp
      rw [v1'] at h3
      omega
    · exact dg_out (by omega)
  have hVR : psum (dg buf1) (n + (rs + nr + 1)) < f * remB a b * 1000000000 ^ n := by
    rw [hV, hmA, hmB]
    refine lt_of_mul_lt_mul_right (a := (1000000000 : Int) ^ nr) ?_ (by positivity)
    have hsplit : (1000000000 : Int) ^ rs * 1000000000 ^ n * 1000000000 ^ nr =
        1000000000 ^ ls * 1000000000 ^ ((nl : Int) + 1 + divSh a b nl nr).toNat := by
      rw [← pow_add, ← pow_add, ← pow_add]; congr 1; omega
    calc f * (1000000000 ^ ls * mant a) * 1000000000 ^ nr = f * 1000000000 ^ ls * (mant a * 1000000000 ^ nr) := by ring
      _ < f * 1000000000 ^ ls * (mant b * 1000000000 ^ ((nl : Int) + 1 + divSh a b nl nr).toNat) :=
          mul_lt_mul_of_pos_left hlead (by positivity)
      _ = f * mant b * (1000000000 ^ ls * 1000000000 ^ ((nl : Int) + 1 + divSh a b nl nr).toNat) := by ring
      _ = _ := by rw [← hsplit]; ring
  -- the segment of the divisor
  set seg2 := buf2.take (rs + nr + 1) with hseg
  have hseg2 : ∀ p, p < rs + nr + 1 → dg seg2 p = dg buf2 p := fun p hp => by rw [hseg, dg_take, if_pos hp]
  have hsegd : Dig (dg seg2) := fun p => by
    rw [hseg, dg_take]; split_ifs
    · exact dig2 p
    · norm_num
  have hsegv : psum (dg seg2) (rs + nr + 1) = f * remB a b := by
    rw [← v2']; exact psum_congr fun p hp => hseg2 p hp
  set R := f * remB a b with hRdef
  set V := f * remA a b with hVdef
  obtain ⟨P, hPdef⟩ : ∃ P, P = (1000000000 : Int) ^ (rs + nr - 1) := ⟨_, rfl⟩
  rw [← hPdef]
  have hloop := longRemLoop_spec (σ := FixedDecimal) (m := m) hsegd (nr := rs + nr) (by omega)
    (by rw [hseg, List.length_take]; omega) (by rw [hseg2 _ (by omega)]; omega) hsegv.symm hPdef n
    ((n : Int) + ((rs + nr : Nat) : Int) - 1) buf1 V rfl (by omega) dig1 hV (by rw [← hV]; exact hVR)
  rw [hseg2 _ (by omega), hseg2 _ (by omega)] at hloop
  unfold remLong at hX
  dsimp only at hX
  rw [idx_nat (by omega), ok_bind, idiv_norm hb tr hf, ok_bind, e, ok_bind] at hX
  dsimp only at hX
  rw [idx_ok (by omega) (by omega), ok_bind, idx_ok (by omega) (by omega), ok_bind, slice_ok (by omega) (by omega) (by omega),
    ok_bind] at hX
  rw [show ((nr : Int) + rs).toNat = rs + nr by omega, show ((nr : Int) + rs - 1).toNat = rs + nr - 1 by omega,
    Int.toNat_zero, List.drop_zero, show ((nr : Int) + 1 + rs - 0).toNat = rs + nr + 1 by omega, ← hseg,
    show ((nl : Int) + 1 + ls + divSh a b nl nr - 1 - ((nr : Int) + 1 + rs - 1) + 1).toNat = n by omega,
    show (nl : Int) + 1 + ls + divSh a b nl nr - 1 = (n : Int) + ((rs + nr : Nat) : Int) - 1 by push_cast; omega] at hX
  rcases hloop with ⟨hm, hw, ep⟩ | ⟨hnw, l, el, hres, hrun⟩
  · left
    rw [ep] at hX
    exact ⟨hm, Or.inl hw, _, hX.symm, Or.inl ⟨rfl, Or.inl hw⟩⟩
  rw [el, ok_bind] at hX
  have hlz : ∀ p, rs + nr + 1 ≤ p → dg l p = 0 := by
    intro p hp
    by_cases hc : p < n + (rs + nr) + 1
    · exact hres.zero p hp hc
    · rw [hres.high p (by omega)]; exact hhigh p (by omega)
  have hll18 : l.length = 18 := by rw [hres.len, len1]
  have hchk : (m = .debug ∧ nl + 1 + ls = 18 ∧ (remCheck m l ((nl : Int) + 1 + ls) : Out FixedDecimal Unit) = .panic .index) ∨
      (remCheck m l ((nl : Int) + 1 + ls) : Out FixedDecimal Unit) = .ok () := by
    unfold remCheck
    cases m
    · by_cases h18 : nl + 1 + ls = 18
      · left
        refine ⟨rfl, h18, ?_⟩
        dsimp only
        rw [idx_oob (by omega)]; rfl
      · right
        dsimp only
        rw [idx_ok (by omega) (by omega), ok_bind, show ((nl : Int) + 1 + ls).toNat = nl + 1 + ls by omega, hlz _ (by omega)]
        rfl
    · right; rfl
  rcases hchk with ⟨hm, h18, ep⟩ | ec
  · left
    rw [ep] at hX
    exact ⟨hm, Or.inr (Or.inr h18), _, hX.symm, Or.inr ⟨rfl, h18, fun hw => hnw ⟨hm, hw⟩⟩⟩
  rw [ec, ok_bind] at hX
  obtain ⟨j, hj⟩ : ∃ j, nl + 1 + ls = rs + nr + 1 + j := ⟨nl + 1 + ls - (rs + nr + 1), by omega⟩
  rw [show ((nl : Int) + 1 + ls).toNat = rs + nr + 1 + j by omega,
    unnormLoop_skip j (by omega) (fun p h1 _ => hlz p h1)] at hX
  obtain ⟨u, rem', rnz, eu, hul, huhi, hulo, r0, r1, hueq, -, hlead'⟩ := unnormLoop_spec (σ := FixedDecimal) (m := m) hres.dig
    f0 (by omega) (rs + nr + 1) 0 (-1) zeroUnits (by omega) (by rw [show zeroUnits.length = 9 from rfl]; omega)
    (fun p _ => dg_zeroUnits p) (le_refl _) f0
  rw [eu, ok_bind] at hX
  dsimp only at hX
  rw [zero_mul, zero_add, hrun] at hueq
  have hdvd : f ∣ remRun R P n V ↔ rem' = 0 := by
    rw [hueq]
    constructor
    · intro hd
      exact Int.eq_zero_of_dvd_of_nonneg_of_lt r0 r1 ((Int.dvd_add_right (Dvd.intro_left _ rfl)).mp hd)
    · rintro rfl; exact ⟨psum (dg u) (rs + nr + 1), by ring⟩
  have hquo : remRun R P n V / f = psum (dg u) (rs + nr + 1) := by
    rw [hueq, add_comm, Int.add_mul_ediv_right _ _ f0.ne', Int.ediv_eq_zero_of_lt r0 r1, zero_add]
  have h18 : m = .debug → nl + 1 + ls ≠ 18 := by
    rintro rfl h18
    unfold remCheck at ec
    dsimp only at ec
    rw [idx_oob (by omega)] at ec
    cases ec
  by_cases hr' : m = .debug ∧ rem' ≠ 0
  · left
    obtain ⟨rfl, hne⟩ := hr'
    have : (dassert .debug (rem' == 0) : Out FixedDecimal Unit) = .panic .assert := by
      unfold dassert; simp [hne]
    rw [this] at hX
    exact ⟨rfl, Or.inr (Or.inl fun hd => hne (hdvd.mp hd)), _, hX.symm, Or.inl ⟨rfl, Or.inr (h18 rfl)⟩⟩
  right
  have hda : (dassert m (rem' == 0) : Out FixedDecimal Unit) = .ok () := by
    cases m
    · have : rem' = 0 := by by_contra hc; exact hr' ⟨rfl, hc⟩
      rw [this]; rfl
    · rfl
  rw [hda, ok_bind] at hX
  have hul9 : u.length = 9 := hul
  have huz : ∀ p, rs + nr + 1 ≤ p → dg u p = 0 := fun p hp => by rw [huhi p hp, dg_zeroUnits]
  have hud : DigL u := DigL.of_dig fun p _ => by
    by_cases hc : p < rs + nr + 1
    · exact hulo p hc
    · rw [huz p (by omega)]; norm_num
  have hLead : Lead u 9 rnz := by
    rcases hlead' rfl with ⟨hr', hh⟩ | ⟨k, hr', hk, hpos, hh⟩
    · refine Or.inl ⟨hr', fun p hp => ?_⟩
      by_cases hc : p < rs + nr + 1
      · exact hh p hc
      · exact huz p (by omega)
    · refine Or.inr ⟨k, hr', by omega, hpos, fun p h1 h2 => ?_⟩
      by_cases hc : p < rs + nr + 1
      · exact hh p h1 hc
      · exact huz p (by omega)
  obtain ⟨q, eq, -, q1, q2, q3, q4, q5, q6⟩ := remFinish_spec (σ := FixedDecimal) (m := m) hul9 hud
    (f := max (fracDigits a) (fracDigits b)) (by omega) hLead
  rw [hu] at eq
  rw [hfrac, eq] at hX
  have hu9 : psum (dg u) 9 = psum (dg u) (rs + nr + 1) := psum_extend (by omega) fun p hp _ => huz p hp
  have hlt := hres.lt
  rw [hsegv, hrun] at hlt
  have hqlt : mant q < remB a b := by
    rw [q4, hu9]
    have : f * psum (dg u) (rs + nr + 1) < f * remB a b := by
      linarith [mul_comm f (psum (dg u) (rs + nr + 1))]
    exact lt_of_mul_lt_mul_left this f0.le
  refine ⟨?_, q, hX.symm, ⟨q1, q2, q3, q5, q6, hqlt⟩, by rw [hquo, q4, hu9]⟩
  rintro ⟨hm, h3 | h3 | h3⟩
  · exact hnw ⟨hm, h3⟩
  · exact h3 (hdvd.mpr (by by_contra hc; exact hr' ⟨hm, hc⟩))
  · exact h18 hm h3

end Fxd
