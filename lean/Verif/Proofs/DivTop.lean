import Verif.Proofs.DivLongRes
import Verif.Proofs.NoErr
/-!
# Division as a whole
-/

namespace Fxd
open Spec

variable {σ : Type} {m : Mode}

theorem topUnit_eq {d : FixedDecimal} (h : WF d) {k : Nat} (t : Top d.lsu k) : topUnit d = k := by
  unfold topUnit
  have h1 := t.psum_ge h.dig
  have h2 := psum_lt h.dig (k + 1)
  rw [← t.mant h] at h1 h2
  have h0 := t.mant_pos h
  refine Nat.log_eq_of_pow_le_of_lt_pow ?_ ?_
  · zify; rw [Int.toNat_of_nonneg h0.le]; exact h1
  · zify; rw [Int.toNat_of_nonneg h0.le]; exact h2

theorem digitCount_eq {d : FixedDecimal} (h : WF d) {k : Nat} (t : Top d.lsu k) :
    (digitCount d : Int) = ((k : Int) + 1) * 9 - unitLeadingZeroes (dg d.lsu k) := by
  obtain ⟨z, ez, hz, z1, z2⟩ := ulz_nat t.pos (h.dig k).2
  obtain ⟨t1, t2⟩ := top_bounds (k := k) h.dig
  rw [← t.mant h] at t1 t2
  have h0 := t.mant_pos h
  have hP : (0 : Int) < 1000000000 ^ k := by positivity
  have e : Nat.log 10 (mant d).toNat = 8 - z + 9 * k := by
    refine Nat.log_eq_of_pow_le_of_lt_pow ?_ ?_
    · zify; rw [Int.toNat_of_nonneg h0.le, pow_add, ← pow9]
      exact le_trans (mul_le_mul_of_nonneg_right z1 hP.le) t1
    · zify; rw [Int.toNat_of_nonneg h0.le, show 8 - z + 9 * k + 1 = 9 - z + 9 * k by omega, pow_add, ← pow9]
      exact lt_of_lt_of_le t2 (mul_le_mul_of_nonneg_right (by omega) hP.le)
  unfold digitCount
  rw [e, ez]
  push_cast
  omega

theorem leadGe_iff {a b : FixedDecimal} (ha : WF a) (hb : WF b) {nl nr : Nat} (tl : Top a.lsu nl) (tr : Top b.lsu nr) :
    LeadGe a b ↔ divGe a b nl nr := by
  unfold LeadGe divGe
  rw [topUnit_eq ha tl, topUnit_eq hb tr, pow_succ, pow_succ, ← mul_assoc, ← mul_assoc]
  exact (mul_le_mul_iff_of_pos_right (by norm_num)).symm

theorem quoIntg_eq {a b : FixedDecimal} (ha : WF a) (hb : WF b) {nl nr : Nat} (tl : Top a.lsu nl) (tr : Top b.lsu nr) :
    quoIntg a b = divIntg a b nl nr := by
  unfold quoIntg divIntg DIGITS_PER_UNIT
  rw [digitCount_eq ha tl, digitCount_eq hb tr]
  by_cases h : divGe a b nl nr
  · rw [if_pos ((leadGe_iff ha hb tl tr).mpr h), if_pos h]; ring
  · rw [if_neg (fun hc => h ((leadGe_iff ha hb tl tr).mp hc)), if_neg h]; ring

theorem quoIU_eq {a b : FixedDecimal} (ha : WF a) (hb : WF b) {nl nr : Nat} (tl : Top a.lsu nl) (tr : Top b.lsu nr) :
    quoIU a b = divRI a b nl nr := by
  unfold quoIU; rw [quoIntg_eq ha hb tl tr, unitsFor_divIntg ha hb tl tr]

theorem fu_le {a : FixedDecimal} (ha : WF a) : fu a ≤ 9 := by have := ha.fits; omega

/-- The number of fractional units planned. -/
theorem divFrac_eq {a b : FixedDecimal} (ha : WF a) (hb : WF b) {incr : Nat} (hi : incr < 2 ^ 62) :
    divFrac m a b incr = (getUnits m (quoFrac a b incr) >>= fun u => .ok (if u > 4 then 4 else u)) := by
  have h1 := fu_le ha
  have h2 := fu_le hb
  have h3 := fracDigits_le_fu a
  have h4 := fracDigits_le_fu b
  unfold divFrac DIGITS_PER_UNIT
  rw [ha.frac_eq, hb.frac_eq]
  rw [isz_ok (by norm_num at hi ⊢; omega) (by norm_num at hi ⊢; omega), ok_bind]
  have e : ∀ x : Int, x = (incr : Int) - ((fu a : Int) * 9 - fracDigits a + (fu b : Int) * 9 - fracDigits b) →
      (fu a : Int) * 9 + (fu b : Int) * 9 + (if x < 0 then 0 else x) = (quoWant a b incr : Int) := by
    intro x hx
    unfold quoWant
    split_ifs <;> omega
  dsimp only
  rw [e _ rfl, isz_ok (by unfold quoWant; norm_num at hi ⊢; omega) (by unfold quoWant; norm_num at hi ⊢; omega), ok_bind]
  rfl

theorem quoFrac_range (a b : FixedDecimal) (incr : Nat) : -128 ≤ quoFrac a b incr ∧ quoFrac a b incr < 128 := by
  unfold quoFrac
  have h1 := Int.le_bmod (x := quoWant a b incr) (m := 256) (by norm_num)
  have h2 := Int.bmod_lt (x := quoWant a b incr) (m := 256) (by norm_num)
  norm_num at h1 h2
  omega

theorem divFrac_ok {a b : FixedDecimal} (ha : WF a) (hb : WF b) {incr : Nat} (hi : incr < 2 ^ 62)
    (h1 : -8 ≤ quoFrac a b incr) (h2 : quoFrac a b incr ≤ 119) :
    divFrac m a b incr = .ok ((min (unitsFor (quoFrac a b incr).toNat) 4 : Nat) : Int) := by
  rw [divFrac_eq ha hb hi]
  by_cases h : 0 ≤ quoFrac a b incr
  · obtain ⟨k, hk⟩ : ∃ k : Nat, quoFrac a b incr = k := ⟨_, (Int.toNat_of_nonneg h).symm⟩
    rw [hk] at h2 ⊢
    rw [getUnits_nat (by omega), ok_bind]
    have : (if (unitsFor k : Int) > 4 then 4 else (unitsFor k : Int)) = ((min (unitsFor (k : Int).toNat) 4 : Nat) : Int) := by
      rw [Int.toNat_natCast]
      split_ifs <;> omega
    rw [this]
  · rw [getUnits_small_neg h1 (by omega), ok_bind, show (quoFrac a b incr).toNat = 0 by omega]
    rfl

theorem divFrac_panic {a b : FixedDecimal} (ha : WF a) (hb : WF b) {incr : Nat} (hi : incr < 2 ^ 62)
    (h : quoFrac a b incr < -8 ∨ 119 < quoFrac a b incr) : ∃ p, divFrac m a b incr = .panic p := by
  rw [divFrac_eq ha hb hi]
  obtain ⟨r1, r2⟩ := quoFrac_range a b incr
  rcases h with h | h
  · rw [getUnits_neg r1 (by omega)]; exact ⟨_, rfl⟩
  · obtain ⟨p, e⟩ := getUnits_oob (σ := FixedDecimal) (m := m) (show 119 < quoFrac a b incr by omega) (by omega)
    rw [e]; exact ⟨p, rfl⟩

/-- Division by zero. -/
theorem divAbs_zero {a b res : FixedDecimal} (ha : WF a) (hb : WF b) (hres : res.lsu.length = 9) (hz : mant b = 0)
    (incr : Int) : divAbs m a b res incr = .err .divisionByZero FixedDecimal.zero := by
  unfold divAbs
  simp only [setZero_eq hres, ha.getIntg, ha.getFrac, hb.getIntg, hb.getFrac, ok_bind, findNonZero_of_zero hb hz]
  rw [if_pos (by norm_num)]

/-- Zero divided. -/
theorem divAbs_of_zero {a b res : FixedDecimal} (ha : WF a) (hb : WF b) (hres : res.lsu.length = 9) (hz : mant b ≠ 0)
    (hz' : mant a = 0) (incr : Int) : divAbs m a b res incr = .ok FixedDecimal.zero := by
  obtain ⟨k, _, _, e⟩ := findNonZero_of_ne hb hz
  unfold divAbs
  simp only [setZero_eq hres, ha.getIntg, ha.getFrac, hb.getIntg, hb.getFrac, ok_bind, findNonZero_of_zero ha hz', e]
  rw [if_neg (show ¬ ((k : Int) < 0) by omega), if_pos (by norm_num)]

theorem divAbs_nz {a b res : FixedDecimal} (ha : WF a) (hb : WF b) (hres : res.lsu.length = 9) (za : mant a ≠ 0)
    (zb : mant b ≠ 0) (incr : Int) : ∃ nl nr, Top a.lsu nl ∧ Top b.lsu nr ∧
    divAbs m a b res incr = (divFrac m a b incr >>= divFit m a b nl nr) := by
  obtain ⟨nl, h1, tl, _⟩ := findNonZero_of_ne ha za
  obtain ⟨nr, h2, tr, _⟩ := findNonZero_of_ne hb zb
  exact ⟨nl, nr, tl, tr, divAbs_eq ha hb hres h1 h2 tl tr incr⟩

/-- Nothing but panics when the digit counts are out of range. -/
theorem divAbs_range {a b res : FixedDecimal} (ha : WF a) (hb : WF b) (hres : res.lsu.length = 9) (za : mant a ≠ 0)
    (zb : mant b ≠ 0) {incr : Nat} (hi : incr < 2 ^ 62) (h : ¬ QuoRange a b incr) :
    ∃ p, divAbs m a b res incr = .panic p := by
  obtain ⟨nl, nr, tl, tr, e⟩ := divAbs_nz (m := m) ha hb hres za zb incr
  rw [e]
  by_cases h1 : -8 ≤ quoFrac a b incr ∧ quoFrac a b incr ≤ 119
  · rw [divFrac_ok ha hb hi h1.1 h1.2, ok_bind]
    unfold QuoRange at h
    rw [quoIntg_eq ha hb tl tr] at h
    exact divFit_panic ha hb tl tr _ (by omega)
  · obtain ⟨p, e⟩ := divFrac_panic (m := m) ha hb hi (by omega)
    exact ⟨p, by rw [e]; rfl⟩

theorem divAbs_overflow {a b res : FixedDecimal} (ha : WF a) (hb : WF b) (hres : res.lsu.length = 9) (za : mant a ≠ 0)
    (zb : mant b ≠ 0) {incr : Nat} (hi : incr < 2 ^ 62) (h : QuoRange a b incr) (h82 : 82 ≤ quoIntg a b) :
    divAbs m a b res incr = .err .overflow FixedDecimal.zero := by
  obtain ⟨nl, nr, tl, tr, e⟩ := divAbs_nz (m := m) ha hb hres za zb incr
  unfold QuoRange at h
  rw [e, divFrac_ok ha hb hi h.1 h.2.1, ok_bind]
  rw [quoIntg_eq ha hb tl tr] at h h82
  exact divFit_err _ (by omega) h.2.2.2

theorem tailF_eq {b : FixedDecimal} (hb : WF b) {nr : Nat} (tr : Top b.lsu nr) : tailF b nr = normFac b := by
  unfold tailF normFac; rw [topUnit_eq hb tr]

theorem quoSteps_eq {a b : FixedDecimal} (ha : WF a) (hb : WF b) {nl nr : Nat} (tl : Top a.lsu nl) (tr : Top b.lsu nr)
    (incr : Nat) : quoSteps a b incr = tailN a b nl nr (quoFU a b incr) := by
  unfold quoSteps tailN divPos divSh
  rw [topUnit_eq ha tl, topUnit_eq hb tr]
  by_cases h : divGe a b nl nr
  · rw [if_pos ((leadGe_iff ha hb tl tr).mpr h), if_pos h]; congr 1; ring
  · rw [if_neg (fun hc => h ((leadGe_iff ha hb tl tr).mp hc)), if_neg h]; congr 1; ring

theorem quoWindows_eq {a b : FixedDecimal} (ha : WF a) (hb : WF b) {nl nr : Nat} (tl : Top a.lsu nl) (tr : Top b.lsu nr)
    (incr : Nat) : quoWindows a b incr = tailWins a b nl nr (quoFU a b incr) := by
  unfold quoWindows tailWins quoLow tailC
  rw [tailF_eq hb tr, quoSteps_eq ha hb tl tr, topUnit_eq hb tr, quoIU_eq ha hb tl tr]

theorem codeQuo_eq {a b : FixedDecimal} (ha : WF a) (hb : WF b) {nl nr : Nat} (tl : Top a.lsu nl) (tr : Top b.lsu nr)
    (hnr : nr ≠ 0) (incr : Nat) : codeQuo a b incr = tailQuo a b nl nr (quoFU a b incr) := by
  unfold codeQuo tailQuo quoLow tailC
  rw [tailF_eq hb tr, quoSteps_eq ha hb tl tr, topUnit_eq hb tr, quoIU_eq ha hb tl tr, if_neg hnr]

/-- The quotient of the short division. -/
theorem codeQuo_short {a b : FixedDecimal} {incr : Nat} (h : topUnit b = 0) {Q : Int} (hD : 0 < mant b)
    (h1 : Q * mant b * 1000000000 ^ fu a ≤ mant a * 1000000000 ^ (quoFU a b incr + fu b))
    (h2 : mant a * 1000000000 ^ (quoFU a b incr + fu b) < (Q + 1) * mant b * 1000000000 ^ fu a) :
    codeQuo a b incr = Q := by
  unfold codeQuo
  rw [if_pos h]
  have hP : 0 < mant b * 1000000000 ^ fu a := by positivity
  rw [mul_assoc] at h1 h2
  have g1 := (Int.le_ediv_iff_mul_le hP).mpr h1
  have g2 := (Int.ediv_lt_iff_lt_mul hP).mpr h2
  omega

/-- The main case. -/
theorem divAbs_main {a b res : FixedDecimal} (ha : WF a) (hb : WF b) (hres : res.lsu.length = 9) (za : mant a ≠ 0)
    (zb : mant b ≠ 0) {incr : Nat} (hi : incr < 2 ^ 62) (h : QuoRange a b incr) (h82 : quoIntg a b ≤ 81) :
    (QuoSpill a b incr → divAbs m a b res incr = .panic .index) ∧
    (¬ QuoSpill a b incr →
      (m = .debug ∧ QuoGuessWide a b incr ∧ divAbs m a b res incr = .panic .assert) ∨
      ¬ (m = .debug ∧ QuoGuessWide a b incr) ∧ ∃ l, l.length = 9 ∧
        divAbs m a b res incr = .ok (quoMk l (quoIntg a b).toNat (quoFU a b incr)) ∧
        mant (quoMk l (quoIntg a b).toNat (quoFU a b incr)) = codeQuo a b incr ∧
        (WF (quoMk l (quoIntg a b).toNat (quoFU a b incr)) ↔ ¬ QuoUnitWide a b incr) ∧
        (topUnit b ≠ 0 → l = ((quoWindows a b incr).map (· / (normFac b * mant b))).reverse ++
          List.replicate (9 - quoSteps a b incr) 0)) := by
  obtain ⟨nl, nr, tl, tr, e⟩ := divAbs_nz (m := m) ha hb hres za zb incr
  unfold QuoRange at h
  have hI : divIntg a b nl nr ≤ 81 := by rwa [← quoIntg_eq ha hb tl tr]
  obtain ⟨hRI, efit⟩ := divFit_ok (m := m) ha hb tl tr (min (unitsFor (quoFrac a b incr).toNat) 4) (by omega) hI
    (by rw [← quoIntg_eq ha hb tl tr]; exact h.2.2.1)
  rw [divFrac_ok ha hb hi h.1 h.2.1, ok_bind, efit] at e
  have hFU : min (min (unitsFor (quoFrac a b incr).toNat) 4) (9 - divRI a b nl nr) = quoFU a b incr := by
    unfold quoFU; rw [quoIU_eq ha hb tl tr]
  rw [hFU] at e
  have hF4 : quoFU a b incr ≤ 4 := by unfold quoFU; omega
  have hF9 : divRI a b nl nr + quoFU a b incr ≤ 9 := by rw [← hFU]; omega
  have hsp : QuoSpill a b incr ↔ nr ≠ 0 ∧ ¬ ((divRI a b nl nr + quoFU a b incr : Nat) : Int) + nl + divSh a b nl nr < 17 := by
    unfold QuoSpill
    rw [topUnit_eq ha tl, topUnit_eq hb tr, leadGe_iff ha hb tl tr, quoIU_eq ha hb tl tr]
    have := tl.lt
    rw [ha.len] at this
    unfold divSh
    by_cases hg : divGe a b nl nr
    · rw [if_pos hg]; simp only [hg, true_and]; omega
    · rw [if_neg hg]; simp only [hg, false_and, and_false, false_iff]; omega
  rw [e, quoIntg_eq ha hb tl tr]
  refine ⟨fun hs => ?_, fun hs => ?_⟩
  · obtain ⟨s1, s2⟩ := hsp.mp hs
    exact divTail_long_panic ha hb tl tr (by omega) hF9 hF4 s2 _
  · rw [hsp] at hs
    have hwins := quoWindows_eq ha hb tl tr incr
    have hWide : QuoGuessWide a b incr ↔ nr ≠ 0 ∧ ∃ W ∈ tailWins a b nl nr (quoFU a b incr),
        FirstGuessWide (tailF b nr * mant b) (1000000000 ^ (nr - 1)) W := by
      unfold QuoGuessWide; rw [hwins, topUnit_eq hb tr, tailF_eq hb tr]
    have hUnit : QuoUnitWide a b incr ↔ nr ≠ 0 ∧ ∃ W ∈ tailWins a b nl nr (quoFU a b incr),
        1000000000 ≤ W / (tailF b nr * mant b) := by
      unfold QuoUnitWide; rw [hwins, topUnit_eq hb tr, tailF_eq hb tr]
    by_cases hnr : nr = 0
    · subst hnr
      obtain ⟨l, el, hw, q1, q2⟩ := divTail_short (m := m) ha hb tl tr hI hF9
      rw [el]
      refine Or.inr ⟨by rw [hWide]; simp, l, hw.len, rfl, ?_, by rw [hUnit]; simpa using hw,
        fun h => absurd (topUnit_eq hb tr) h⟩
      exact (codeQuo_short (topUnit_eq hb tr) (lt_of_le_of_ne hb.mant_nonneg (Ne.symm zb)) q1 q2).symm
    · rw [hWide, hUnit, codeQuo_eq ha hb tl tr hnr]
      simp only [ne_eq, hnr, not_false_eq_true, true_and]
      rcases divTail_long (m := m) ha hb tl tr (by omega) hI hF9 (by
        by_contra hc; exact hs ⟨hnr, hc⟩) with ⟨k1, k2, k3⟩ | ⟨k0, l, k1, k2, k3, k4, k5⟩
      · exact Or.inl ⟨k1, k2, k3⟩
      · refine Or.inr ⟨k0, l, k2, k1, k3, ?_, fun _ => ?_⟩
        · rw [k4]; push Not; rfl
        · rw [hwins, quoSteps_eq ha hb tl tr, ← tailF_eq hb tr]; exact k5

/-- Without a wrong correction: the bounds on the quotient. -/
theorem codeQuo_ok {a b : FixedDecimal} (ha : WF a) (hb : WF b) (za : mant a ≠ 0)
    (zb : mant b ≠ 0) {incr : Nat} (h82 : quoIntg a b ≤ 81) (hno : ¬ QuoGuessTooBig a b incr) :
    QuoOk a b (quoIU a b) (quoFU a b incr) (codeQuo a b incr) ∧ ¬ QuoUnitWide a b incr := by
  obtain ⟨nl, h1, tl, _⟩ := findNonZero_of_ne ha za
  obtain ⟨nr, h2, tr, _⟩ := findNonZero_of_ne hb zb
  have hbp : 0 < mant b := lt_of_le_of_ne hb.mant_nonneg (Ne.symm zb)
  by_cases hnr : nr = 0
  · subst hnr
    have ht := topUnit_eq hb tr
    refine ⟨?_, fun h => h.1 ht⟩
    have hP : 0 < mant b * 1000000000 ^ fu a := by positivity
    unfold codeQuo
    rw [if_pos ht]
    have g1 := Int.ediv_mul_le (mant a * 1000000000 ^ (quoFU a b incr + fu b)) hP.ne'
    have g2 := Int.lt_ediv_add_one_mul_self (mant a * 1000000000 ^ (quoFU a b incr + fu b)) hP
    rw [← mul_assoc] at g1 g2
    exact QuoOk.of_sharp hb g1 g2
  · have hwins := quoWindows_eq ha hb tl tr incr
    have hu := quoIU_eq ha hb tl tr
    have h9 : quoIU a b ≤ 9 := by unfold quoIU unitsFor; omega
    rw [codeQuo_eq ha hb tl tr hnr, hu]
    have hF9 : divRI a b nl nr + quoFU a b incr ≤ 9 := by rw [← hu]; unfold quoFU; omega
    obtain ⟨k1, k2⟩ := tail_ok ha hb tl tr hF9 (fun W hW hT => hno ⟨by rw [topUnit_eq hb tr]; exact hnr, W,
      by rw [hwins]; exact hW, by rw [topUnit_eq hb tr, ← tailF_eq hb tr]; exact hT⟩)
    refine ⟨k1, ?_⟩
    rintro ⟨-, W, hW, hWb⟩
    rw [hwins] at hW
    rw [← tailF_eq hb tr] at hWb
    have := k2 W hW
    omega

/-- With at most two significant units in the divisor no guess is too large. -/
theorem not_tooBig_of_twoUnits {a b : FixedDecimal} {incr : Nat} (h : TwoUnits b) : ¬ QuoGuessTooBig a b incr := by
  rintro ⟨-, W, -, hT⟩
  exact not_tooBig_of_dvd (by positivity) (Dvd.dvd.mul_left h _) hT

end Fxd
