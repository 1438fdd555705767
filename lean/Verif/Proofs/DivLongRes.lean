import Verif.Proofs.DivRun
/-!
# The long division: its result
-/

namespace Fxd
open Spec

variable {σ : Type} {m : Mode}

/-- What a division without a wrong correction gives: never more than the exact quotient at its scale, and less than
`1 + 18 / 10^9` units of the last place below it; below it by less than one when nothing is cut off the divisor. -/
def QuoOk (a b : FixedDecimal) (ri rf : Nat) (Q : Int) : Prop :=
  Q * mant b * 1000000000 ^ fu a ≤ mant a * 1000000000 ^ (rf + fu b) ∧
  1000000000 * (mant a * 1000000000 ^ (rf + fu b)) < (1000000000 * (Q + 1) + 18) * mant b * 1000000000 ^ fu a ∧
  (fu b ≤ ri + fu a → mant a * 1000000000 ^ (rf + fu b) < (Q + 1) * mant b * 1000000000 ^ fu a)

/-- From the sharp bounds. -/
theorem QuoOk.of_sharp {a b : FixedDecimal} (hb : WF b) {ri rf : Nat} {Q : Int}
    (h1 : Q * mant b * 1000000000 ^ fu a ≤ mant a * 1000000000 ^ (rf + fu b))
    (h2 : mant a * 1000000000 ^ (rf + fu b) < (Q + 1) * mant b * 1000000000 ^ fu a) : QuoOk a b ri rf Q := by
  refine ⟨h1, ?_, fun _ => h2⟩
  have : 0 ≤ 18 * mant b * 1000000000 ^ fu a := by
    have := hb.mant_nonneg
    positivity
  have e : (1000000000 * (Q + 1) + 18) * mant b * 1000000000 ^ fu a =
    1000000000 * ((Q + 1) * mant b * 1000000000 ^ fu a) + 18 * mant b * 1000000000 ^ fu a := by ring
  rw [e]; omega

/-- Arithmetic: from the bounds on the normalised buffers to the bounds on the operands. -/
theorem quo_bounds {f R L Q c e : ℚ} {ri rf fa fb : Nat} (hf : 0 < f)
    (hc : c = 1000000000 ^ ((ri : Int) + fa - fb)) (hρ : 500000000 ≤ f * R * c) (he : e ≤ 9)
    (h1 : f * R * c * Q ≤ 1000000000 ^ (ri + rf) * (f * L))
    (h2 : 1000000000 ^ (ri + rf) * (f * L) < f * R * c * (Q + 1) + e) :
    Q * R * 1000000000 ^ fa ≤ L * 1000000000 ^ (rf + fb) ∧
    1000000000 * (L * 1000000000 ^ (rf + fb)) < (1000000000 * (Q + 1) + 18) * R * 1000000000 ^ fa ∧
    (e = 0 → L * 1000000000 ^ (rf + fb) < (Q + 1) * R * 1000000000 ^ fa) := by
  have hcm : c * 1000000000 ^ fb = 1000000000 ^ ri * 1000000000 ^ fa := by
    rw [hc, ← zpow_natCast, ← zpow_natCast, ← zpow_natCast, ← zpow_add₀ (by norm_num), ← zpow_add₀ (by norm_num)]
    congr 1; omega
  have hk : (0 : ℚ) < f * 1000000000 ^ ri := by positivity
  have hfb : (0 : ℚ) < 1000000000 ^ fb := by positivity
  have e1 : (1000000000 : ℚ) ^ (ri + rf) * (f * L) * 1000000000 ^ fb = f * 1000000000 ^ ri * (L * 1000000000 ^ (rf + fb)) := by
    rw [pow_add, pow_add]; ring
  have e2 : ∀ x : ℚ, f * R * c * x * 1000000000 ^ fb = f * 1000000000 ^ ri * (x * R * 1000000000 ^ fa) := by
    intro x
    have : f * R * c * x * 1000000000 ^ fb = f * R * x * (c * 1000000000 ^ fb) := by ring
    rw [this, hcm]; ring
  have g1 : f * 1000000000 ^ ri * (Q * R * 1000000000 ^ fa) ≤ f * 1000000000 ^ ri * (L * 1000000000 ^ (rf + fb)) := by
    rw [← e1, ← e2]; exact mul_le_mul_of_nonneg_right h1 hfb.le
  refine ⟨le_of_mul_le_mul_left g1 hk, ?_, ?_⟩
  · have h3 : 1000000000 * (1000000000 ^ (ri + rf) * (f * L)) < f * R * c * (1000000000 * (Q + 1) + 18) := by
      have : 1000000000 * e ≤ f * R * c * 18 := by linarith
      have e3 : f * R * c * (1000000000 * (Q + 1) + 18) = 1000000000 * (f * R * c * (Q + 1)) + f * R * c * 18 := by ring
      rw [e3]; linarith
    refine lt_of_mul_lt_mul_left (a := f * 1000000000 ^ ri) ?_ hk.le
    rw [← e2]
    have e4 : f * 1000000000 ^ ri * (1000000000 * (L * 1000000000 ^ (rf + fb))) =
      1000000000 * (1000000000 ^ (ri + rf) * (f * L)) * 1000000000 ^ fb := by
      rw [mul_assoc (1000000000 : ℚ) (1000000000 ^ (ri + rf) * (f * L)), e1]; ring
    rw [e4]; exact mul_lt_mul_of_pos_right h3 hfb
  · intro he0
    rw [he0, add_zero] at h2
    refine lt_of_mul_lt_mul_left (a := f * 1000000000 ^ ri) ?_ hk.le
    rw [← e1, ← e2]; exact mul_lt_mul_of_pos_right h2 hfb

/-- The normalisation factor is that of the specification. -/
theorem normFac_top {b : FixedDecimal} (hb : WF b) {nr : Nat} (tr : Top b.lsu nr) :
    1000000000 / (dg b.lsu nr + 1) = 1000000000 / (mant b / 1000000000 ^ nr + 1) := by
  rw [tr.mant hb, psum_top hb.dig]

/-- Quotient units to compute. -/
def tailN (a b : FixedDecimal) (nl nr rf : Nat) : Nat := ((rf : Int) + divPos a b nl nr + 1).toNat
def tailC (a b : FixedDecimal) (nl nr : Nat) : Int := (divRI a b nl nr : Int) + fu a - fu b
def tailF (b : FixedDecimal) (nr : Nat) : Int := 1000000000 / (mant b / 1000000000 ^ nr + 1)
def tailWins (a b : FixedDecimal) (nl nr rf : Nat) : List Int :=
  quoWins (tailF b nr * mant b) (1000000000 ^ (nr - 1)) nr (tailC a b nl nr) (tailN a b nl nr rf)
    (1000000000 ^ (divRI a b nl nr + rf) * (tailF b nr * mant a))
def tailQuo (a b : FixedDecimal) (nl nr rf : Nat) : Int :=
  quoRun (tailF b nr * mant b) (1000000000 ^ (nr - 1)) nr (tailC a b nl nr) (tailN a b nl nr rf)
    (1000000000 ^ (divRI a b nl nr + rf) * (tailF b nr * mant a))

/-- A quotient whose units may be too large. -/
theorem quoMk_run {l : List Int} {I rf n : Nat} (hI : I ≤ 81) (hf : unitsFor I + rf ≤ 9) (hn : n ≤ unitsFor I + rf)
    (hl : l.length = 9) (hlo : ∀ k < n, 0 ≤ dg l k) (hhi : ∀ k, n ≤ k → dg l k = 0) :
    mant (quoMk l I rf) = psum (dg l) n ∧ (WF (quoMk l I rf) ↔ ∀ k < n, dg l k < 1000000000) := by
  constructor
  · unfold mant
    rw [quoMk_iu hI, quoMk_fu (by omega)]
    rw [unitsVal_take (show unitsFor I + rf ≤ (quoMk l I rf).lsu.length by change _ ≤ l.length; omega)]
    exact psum_extend hn fun i hi _ => hhi i hi
  · constructor
    · intro h k hk
      exact (h.dig k).2
    · intro h
      exact (quoMk_spec hI hf hn hl (fun k hk => ⟨hlo k hk, h k hk⟩) hhi).1

/-- What the long division returns, whatever its guesses. -/
theorem divTail_long {a b : FixedDecimal} (ha : WF a) (hb : WF b) {nl nr : Nat} (tl : Top a.lsu nl) (tr : Top b.lsu nr)
    (hnr : 1 ≤ nr) {rf : Nat} (hI : divIntg a b nl nr ≤ 81) (hrf : divRI a b nl nr + rf ≤ 9)
    (hfit : ((divRI a b nl nr + rf : Nat) : Int) + nl + divSh a b nl nr < 17) :
    (m = .debug ∧ (∃ W ∈ tailWins a b nl nr rf, FirstGuessWide (tailF b nr * mant b) (1000000000 ^ (nr - 1)) W) ∧
      divTail m a b nl nr (divSh a b nl nr) ((divIntg a b nl nr).toNat : Nat) (divRI a b nl nr : Nat) rf
        (rf + divPos a b nl nr) = .panic .assert) ∨
    ¬ (m = .debug ∧ ∃ W ∈ tailWins a b nl nr rf, FirstGuessWide (tailF b nr * mant b) (1000000000 ^ (nr - 1)) W) ∧
      ∃ l, divTail m a b nl nr (divSh a b nl nr) ((divIntg a b nl nr).toNat : Nat) (divRI a b nl nr : Nat) rf
          (rf + divPos a b nl nr) = .ok (quoMk l (divIntg a b nl nr).toNat rf) ∧ l.length = 9 ∧
        mant (quoMk l (divIntg a b nl nr).toNat rf) = tailQuo a b nl nr rf ∧
        (WF (quoMk l (divIntg a b nl nr).toNat rf) ↔
          ∀ W ∈ tailWins a b nl nr rf, W / (tailF b nr * mant b) < 1000000000) ∧
        l = ((tailWins a b nl nr rf).map (· / (tailF b nr * mant b))).reverse ++ List.replicate (9 - tailN a b nl nr rf) 0 := by
  have h2 := tr.lt
  rw [hb.len] at h2
  have hu := unitsFor_divIntg ha hb tl tr
  have hRI : divRI a b nl nr = (divPos a b nl nr + 1).toNat := rfl
  obtain ⟨n, i, c, f, buf1, buf2, S, hnn, e⟩ := divTail_start (m := m) ha hb tl tr hnr hrf hfit
    ((divIntg a b nl nr).toNat : Nat)
  rw [e]
  have hz9 : zeroUnits.length = 9 := rfl
  have hN : tailN a b nl nr rf = n := hnn.symm
  unfold tailWins tailQuo
  rw [hN]
  by_cases hneg : 0 ≤ (rf : Int) + divPos a b nl nr + 1
  · obtain ⟨hf, f0, len1, dig1, len2, dig2, hR, top, hn, hi, hc, hK, hi1, hV, hVR⟩ := S hneg
    have hf' : f = tailF b nr := by rw [hf, normFac_top hb tr]; rfl
    have hc' : c = tailC a b nl nr := hc
    rw [hf'] at hR hV
    rw [hc'] at hi hK
    rcases longDivLoop_run (σ := FixedDecimal) (m := m) dig2 hnr (by omega) top hR.symm rfl n i buf1 zeroUnits _ hi
      (fun _ => hK) (by omega) (by omega) dig1 (by omega) hV with ⟨hm, hw, ep⟩ | ⟨hno, l, el, r1, r2, r3, r4, r5, r6⟩
    · left; rw [ep]; exact ⟨hm, hw, rfl⟩
    · right
      refine ⟨hno, l, by rw [el]; rfl, by omega, ?_⟩
      rw [← r4, ← r5]
      refine and_assoc.mp ⟨quoMk_run (by omega) (by omega) (by omega) (by omega) r3
        (fun k hk => by rw [r2 k hk, dg_zeroUnits]), ?_⟩
      have hd : l.drop n = List.replicate (9 - n) 0 := by
        refine list_ext_dg (by simp; omega) fun k _ => ?_
        rw [dg_drop, r2 _ (by omega), dg_zeroUnits, dg_replicate]
      rw [← r6, ← hd, List.take_append_drop]
  · have hn0 : n = 0 := by omega
    subst hn0
    right
    refine ⟨by simp [quoWins], zeroUnits, rfl, rfl, ?_⟩
    obtain ⟨g1, g2⟩ := quoMk_run (l := zeroUnits) (I := (divIntg a b nl nr).toNat) (rf := rf) (n := 0) (by omega) (by omega)
      (by omega) rfl (fun k hk => absurd hk (by omega)) (fun k _ => dg_zeroUnits k)
    rw [g1, g2]
    simp [quoWins, quoRun, zeroUnits]

/-- Without a wrong correction the quotient is right, up to the last place. -/
theorem tail_ok {a b : FixedDecimal} (ha : WF a) (hb : WF b) {nl nr : Nat} (tl : Top a.lsu nl) (tr : Top b.lsu nr)
    {rf : Nat} (hrf : divRI a b nl nr + rf ≤ 9)
    (hno : ∀ W ∈ (tailWins a b nl nr rf).dropLast, ¬ TooBig (tailF b nr * mant b) (1000000000 ^ (nr - 1)) W) :
    QuoOk a b (divRI a b nl nr) rf (tailQuo a b nl nr rf) ∧
      ∀ W ∈ tailWins a b nl nr rf, W / (tailF b nr * mant b) < 1000000000 := by
  have hRI : divRI a b nl nr = (divPos a b nl nr + 1).toNat := rfl
  have hA : 0 ≤ mant a := ha.mant_nonneg
  obtain ⟨f0, f1, f2, f3⟩ := norm_div hb tr (normFac_top hb tr)
  change 0 < tailF b nr at f0
  change 500000000 * 1000000000 ^ nr ≤ tailF b nr * mant b at f3
  have hfq : (0 : ℚ) < tailF b nr := by exact_mod_cast f0
  by_cases hneg : 0 ≤ (rf : Int) + divPos a b nl nr + 1
  · have hn : (tailN a b nl nr rf : Int) = (rf : Int) + divPos a b nl nr + 1 := by unfold tailN; omega
    have hcdef : tailC a b nl nr = (divRI a b nl nr : Int) + fu a - fu b := rfl
    have hsh := divSh_cases a b nl nr
    have hK : 0 ≤ (nr : Int) + tailC a b nl nr := by
      rw [hcdef, hRI]; unfold divPos; omega
    have hVR := tail_lead ha hb tl tr (f := tailF b nr) f0 (rf := rf) (n := tailN a b nl nr rf) hn (c := tailC a b nl nr) hcdef
    unfold tailWins at hno ⊢
    unfold tailQuo
    set n := tailN a b nl nr rf
    set c := tailC a b nl nr
    have hV0 : (0 : Int) ≤ 1000000000 ^ (divRI a b nl nr + rf) * (tailF b nr * mant a) := by positivity
    have hR0 : 0 < tailF b nr * mant b := lt_of_lt_of_le (by positivity) f3
    obtain ⟨r4, r5, r6⟩ := quoRun_bounds (P := 1000000000 ^ (nr - 1)) (k := nr) hR0 n _ hV0 hVR hno
    refine ⟨?_, fun W hW => (r6 W hW).2⟩
    have h5 : (500000000 : ℚ) ≤ (tailF b nr * mant b : ℚ) * 1000000000 ^ c := by
      have t2 : (500000000 : ℚ) * 1000000000 ^ nr ≤ tailF b nr * mant b := by exact_mod_cast f3
      have hcp : (0 : ℚ) < 1000000000 ^ c := zpow_pos (by norm_num) _
      have t3 : (1 : ℚ) ≤ 1000000000 ^ nr * 1000000000 ^ c := by
        rw [← zpow_natCast, ← zpow_add₀ (by norm_num)]
        exact one_le_zpow₀ (by norm_num) hK
      calc (500000000 : ℚ) = 500000000 * 1 := by ring
        _ ≤ 500000000 * (1000000000 ^ nr * 1000000000 ^ c) := mul_le_mul_of_nonneg_left t3 (by norm_num)
        _ = 500000000 * 1000000000 ^ nr * 1000000000 ^ c := by ring
        _ ≤ _ := mul_le_mul_of_nonneg_right t2 hcp.le
    have he : ((min n (-c).toNat : Nat) : ℚ) ≤ 9 := by
      have : min n (-c).toNat ≤ 9 := by omega
      exact_mod_cast this
    push_cast at r4 r5
    rw [← Nat.cast_min] at r5
    obtain ⟨k1, k2, k3⟩ := quo_bounds (fa := fu a) (fb := fu b) (ri := divRI a b nl nr) (rf := rf) (R := mant b)
      (L := mant a) (Q := _) hfq (by rw [hcdef]) h5 he r4 r5
    refine ⟨by exact_mod_cast k1, by exact_mod_cast k2, fun hle => ?_⟩
    have : ((min n (-c).toNat : Nat) : ℚ) = 0 := by
      have : min n (-c).toNat = 0 := by omega
      rw [this]; rfl
    exact_mod_cast k3 this
  · -- the quotient has no unit at all
    have hn0 : tailN a b nl nr rf = 0 := by unfold tailN; omega
    have hlead := div_lead ha hb tl tr
    unfold tailWins tailQuo
    rw [hn0]
    refine ⟨?_, by simp [quoWins]⟩
    have hq : quoRun (tailF b nr * mant b) (1000000000 ^ (nr - 1)) nr (tailC a b nl nr) 0
      (1000000000 ^ (divRI a b nl nr + rf) * (tailF b nr * mant a)) = 0 := rfl
    rw [hq]
    have hB : 0 ≤ mant b := hb.mant_nonneg
    refine QuoOk.of_sharp hb (by rw [zero_mul, zero_mul]; positivity) ?_
    have hle : rf + fu b + ((nl : Int) + 1 + divSh a b nl nr).toNat ≤ fu a + nr := by
      unfold divPos at hneg
      rcases divSh_cases a b nl nr with h | h <;> rw [h] at hneg ⊢ <;> omega
    have hP : (0 : Int) < 1000000000 ^ nr := by positivity
    refine lt_of_mul_lt_mul_right (a := (1000000000 : Int) ^ nr) ?_ hP.le
    calc mant a * 1000000000 ^ (rf + fu b) * 1000000000 ^ nr
        = mant a * 1000000000 ^ nr * 1000000000 ^ (rf + fu b) := by ring
      _ < mant b * 1000000000 ^ ((nl : Int) + 1 + divSh a b nl nr).toNat * 1000000000 ^ (rf + fu b) :=
          mul_lt_mul_of_pos_right hlead (by positivity)
      _ = mant b * 1000000000 ^ (rf + fu b + ((nl : Int) + 1 + divSh a b nl nr).toNat) := by
          rw [mul_assoc, ← pow_add, add_comm]
      _ ≤ mant b * 1000000000 ^ (fu a + nr) :=
          mul_le_mul_of_nonneg_left (pow_le_pow_right₀ (by norm_num) hle) hB
      _ = (0 + 1) * mant b * 1000000000 ^ fu a * 1000000000 ^ nr := by rw [pow_add]; ring

/-- The one case in which the dividend does not fit the buffer. -/
theorem divTail_long_panic {a b : FixedDecimal} (ha : WF a) (hb : WF b) {nl nr : Nat} (tl : Top a.lsu nl)
    (tr : Top b.lsu nr) (hnr : 1 ≤ nr) {rf : Nat} (hrf : divRI a b nl nr + rf ≤ 9) (hrf4 : rf ≤ 4)
    (hfit : ¬ ((divRI a b nl nr + rf : Nat) : Int) + nl + divSh a b nl nr < 17) (I : Int) :
    divTail m a b nl nr (divSh a b nl nr) I (divRI a b nl nr : Nat) rf (rf + divPos a b nl nr) = .panic .index := by
  have h1 := tl.lt
  have h2 := tr.lt
  have haL := ha.len
  have hbL := hb.len
  obtain ⟨f, hf⟩ : ∃ f, 1000000000 / (dg b.lsu nr + 1) = f := ⟨_, rfl⟩
  obtain ⟨f0, f1, f2, f3⟩ := norm_div hb tr hf
  have hr1 : unitsVal (b.lsu.take (nr + 1)) = mant b := by rw [unitsVal_take (by omega), tr.mant hb]
  have hll : (a.lsu.take (nl + 1)).length = nl + 1 := by rw [List.length_take]; omega
  have hrl : (b.lsu.take (nr + 1)).length = nr + 1 := by rw [List.length_take]; omega
  have hsh : divSh a b nl nr = 0 := by rcases divSh_cases a b nl nr with h | h <;> omega
  have hRIp : divRI a b nl nr = (divPos a b nl nr + 1).toNat := rfl
  have hnl : nl = 8 := by omega
  have hru : divRI a b nl nr + rf = 9 := by omega
  have hend : (divRI a b nl nr : Int) + rf + nl + 1 = 18 := by omega
  unfold divTail
  dsimp only
  rw [if_neg (by omega)]
  have hidiv : (idiv UNIT (dg b.lsu (nr : Int).toNat + 1) : Out FixedDecimal Int) = .ok f := by
    rw [show (nr : Int).toNat = nr from rfl]
    have := tr.pos
    rw [idiv_ok (by unfold UNIT; norm_num) (by omega), ← hf]
    rfl
  rw [hidiv, ok_bind, hend, show (divRI a b nl nr : Int) + rf = ((9 : Nat) : Int) by omega,
    show ((nl : Int) + 1).toNat = nl + 1 by omega, show ((nr : Int) + 1).toNat = nr + 1 by omega]
  change (divPrep m f (a.lsu.take (nl + 1)) (b.lsu.take (nr + 1)) ((9 : Nat) : Int) 18 nr >>= _) = _
  by_cases hcar : f * unitsVal (a.lsu.take (nl + 1)) < 1000000000 ^ (a.lsu.take (nl + 1)).length
  · obtain ⟨buf1, buf2, e, len1, dig1, v1, len2, dig2, v2, hz⟩ := divPrep_spec (σ := FixedDecimal) (m := m) (f := f)
      (lseg := a.lsu.take (nl + 1)) (rseg := b.lsu.take (nr + 1)) f0 f1 (ha.digL.take _) (hb.digL.take _)
      (ru := 9) (nr := nr) hrl (by omega) (by rw [hr1]; exact f2) (by omega) (Or.inr hcar)
    rw [hll, show ((9 : Nat) : Int) + ((nl + 1 : Nat) : Int) = 18 by omega] at e
    rw [e, ok_bind]
    dsimp only
    rw [idx_ok (by omega) (by omega), ok_bind, idx_ok (by omega) (by omega), ok_bind]
    obtain ⟨k, hk⟩ : ∃ k, ((rf : Int) + divPos a b nl nr + 1).toNat = k + 1 :=
      ⟨((rf : Int) + divPos a b nl nr).toNat, by omega⟩
    rw [hk]
    unfold longDivLoop guessQ
    rw [idx_oob (by omega)]
    rfl
  · have hne : f ≠ 1 := by
      rintro rfl
      rw [one_mul] at hcar
      exact hcar (unitsVal_bounds (ha.digL.take _)).2
    obtain ⟨l', c', e1, hl1, hd1, c0, c1, heq1⟩ := normLoop_spec (σ := FixedDecimal) (m := m) f0 (by omega)
      (a.lsu.take (nl + 1)) 0 (ha.digL.take _) (le_refl _) f0
    have hc : 0 < c' := by
      by_contra hle
      have h0 : c' = 0 := by omega
      rw [h0, mul_zero, add_zero, add_zero, mul_comm] at heq1
      rw [heq1] at hcar
      have := (unitsVal_bounds hd1).2
      rw [hl1] at this
      exact hcar this
    unfold divPrep
    rw [if_neg hne, e1, ok_bind]
    dsimp only
    rw [copy_buf (by omega) _ (by omega), ok_bind, if_pos hc]
    have : (upd (List.replicate 9 (0 : Int) ++ l' ++ List.replicate (18 - (9 + l'.length)) 0) 18 (wrap 32 c') :
        Out FixedDecimal _) = .panic .index := by
      unfold upd
      rw [if_neg]
      simp only [List.length_append, List.length_replicate]
      omega
    rw [this]
    rfl

end Fxd
