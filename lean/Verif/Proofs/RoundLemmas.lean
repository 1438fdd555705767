import Verif.Model.Round
import Verif.Proofs.AddLemmas
import Verif.Proofs.NoErr
/-!
# Lemmas about rounding
-/

namespace Fxd
open Spec

theorem carryLoop_spec {σ : Type} (m : Mode) : ∀ (l : List Int) (c : Int), DigL l → (c = 0 ∨ c = 1) →
    ∃ l' c', (carryLoop m l c : Out σ _) = .ok (l', c') ∧ l'.length = l.length ∧ DigL l' ∧
      (c' = 0 ∨ c' = 1) ∧ unitsVal l' + c' * 1000000000 ^ l.length = unitsVal l + c := by
  intro l
  induction l with
  | nil => intro c _ hc; exact ⟨[], c, rfl, rfl, by intro u hu; simp at hu, hc, by simp [unitsVal]⟩
  | cons v vs ih =>
    intro c hd hc
    rw [carryLoop]
    obtain ⟨r0, c0, h1, h2, h3, h4⟩ := addWithCarry_spec (σ := σ) m (hd v (by simp)) (b := 0) (by norm_num) hc
    rw [h1]; simp only [ok_bind]
    have hvs : DigL vs := fun u hu => hd u (by simp [hu])
    split_ifs with h0
    · refine ⟨r0 :: vs, c0, rfl, by simp, ?_, h3, ?_⟩
      · intro u hu
        rcases List.mem_cons.mp hu with h | h
        · rw [h]; exact h2
        · exact hvs u h
      · rw [unitsVal, unitsVal, h0]; rw [h0] at h4; linarith
    · obtain ⟨low, c', h5, h6, h7, h8, h9⟩ := ih c0 hvs h3
      rw [h5]; simp only [ok_bind, pure_ok]
      refine ⟨r0 :: low, c', rfl, by simp [h6], ?_, h8, ?_⟩
      · intro u hu
        rcases List.mem_cons.mp hu with h | h
        · rw [h]; exact h2
        · exact h7 u h
      · rw [unitsVal, unitsVal, List.length_cons, pow_succ]
        linarith

theorem roundUnit_spec {σ : Type} (m : Mode) {u unit half : Int} (hu : 0 ≤ u ∧ u < 1000000000)
    (h1 : unit = 2 * half) (h2 : 0 < half) (h3 : unit ≤ 1000000000) :
    (roundUnit m u unit half : Out σ Int) = .ok (unit * ((u + half) / unit)) := by
  unfold roundUnit
  have e1 : u.tmod unit = u % unit := Int.tmod_eq_emod_of_nonneg hu.1
  have e2 := Int.emod_nonneg u (show unit ≠ 0 by omega)
  have e3 := Int.emod_lt_of_pos u (show 0 < unit by omega)
  have e4 := Int.mul_ediv_add_emod u unit
  have e5 : 0 ≤ unit * (u / unit) := mul_nonneg (by omega) (Int.ediv_nonneg hu.1 (by omega))
  rw [e1]
  dsimp only
  rw [i32_ok (by omega) (by omega)]
  simp only [ok_bind]
  split_ifs with h
  · rw [i32_ok (by omega) (by omega)]
    have : (u + half) / unit = u / unit + 1 := by
      rw [Int.ediv_eq_iff_of_pos (by omega)]
      constructor <;> rw [add_mul, mul_comm (u / unit)] <;> omega
    rw [this, mul_add]; congr 1; omega
  · have : (u + half) / unit = u / unit := by
      rw [Int.ediv_eq_iff_of_pos (by omega), mul_comm (u / unit)]
      constructor <;> omega
    rw [this]; simp only [pure_ok]; congr 1; omega

/-- The decimal `round_half_up` leaves behind. -/
def roundOut (sg : Bool) (I : Nat) (rf : Int) (l : List Int) : FixedDecimal :=
  let d : FixedDecimal := ⟨BitVec.ofInt 8 ((I : Int) * DIGITS_PER_UNIT), rf, l⟩
  if sg then d.setNeg else d

theorem roundOut_spec {sg : Bool} {I F f : Nat} {l : List Int} (hl : l.length = 9) (hd : DigL l)
    (hF : unitsFor f = F) (ht : I + F ≤ 9) (hz : ∀ p, I + F ≤ p → dg l p = 0) :
    WF (roundOut sg I f l) ∧ iu (roundOut sg I f l) = I ∧ fu (roundOut sg I f l) = F ∧
      mant (roundOut sg I f l) = psum (dg l) 9 ∧ neg (roundOut sg I f l) = sg ∧
      fracDigits (roundOut sg I f l) = f ∧ (roundOut sg I f l).frac = f ∧
      intgDigits (roundOut sg I f l) = 9 * I := by
  obtain ⟨b1, b2, b3, b4, b5, b6, b7⟩ := built_wf (f := f) hl hd hF ht hz
  have e : (I : Int) * DIGITS_PER_UNIT = ((9 * I : Nat) : Int) := by
    unfold DIGITS_PER_UNIT; push_cast; ring
  unfold roundOut
  rw [e]
  cases sg
  · simp only [Bool.false_eq_true, if_false]
    exact ⟨b1, b2, b3, b4, b5, b6, trivial, b7⟩
  · simp only [if_true]
    exact ⟨wf_setNeg.mpr b1, by rw [iu_setNeg]; exact b2, b3, by rw [mant_setNeg]; exact b4,
      by simp, b6, rfl, by rw [intgDigits_setNeg]; exact b7⟩

/-- The digits of a slice. -/
theorem dg_slice {l : List Int} {a n i : Nat} (hi : i < n) : dg ((l.drop a).take n) i = dg l (a + i) := by
  rw [dg_take, if_pos hi, dg_drop]

/-- What the rounding quotient is: half-up inside a unit, truncation plus carry at a unit edge. -/
def roundQ (V : Int) (t : Nat) (c : Int) : Int :=
  if t % 9 = 0 then V / 10 ^ t + c else (V + 5 * 10 ^ (t - 1)) / 10 ^ t

/-- Splitting off the part below unit `k`. -/
theorem psum_div_mod {f : Nat → Int} (hf : Dig f) {k n : Nat} (h : k ≤ n) :
    psum f n / 1000000000 ^ k = psum (fun i => f (k + i)) (n - k) := by
  rw [Int.ediv_eq_iff_of_pos (by positivity), psum_split h]
  have h0 := psum_nonneg hf k
  have h1 := psum_lt hf k
  constructor <;> linarith

theorem dig_shift {f : Nat → Int} (hf : Dig f) (k : Nat) : Dig (fun i => f (k + i)) := fun i => hf _

theorem roundQ_at {V : Int} {t : Nat} (h : t % 9 ≠ 0) (c : Int) :
    roundQ V t c = (V / 1000000000 ^ (t / 9) + 5 * 10 ^ (t % 9 - 1)) / 10 ^ (t % 9) := by
  unfold roundQ
  rw [if_neg h]
  have e : (10 : Int) ^ t = 1000000000 ^ (t / 9) * 10 ^ (t % 9) := by
    rw [pow9, ← pow_add]; congr 1; omega
  have e2 : (5 : Int) * 10 ^ (t - 1) = 5 * 10 ^ (t % 9 - 1) * 1000000000 ^ (t / 9) := by
    rw [pow9, mul_assoc, ← pow_add]; congr 2; omega
  rw [e, ← Int.ediv_ediv_of_nonneg (by positivity), e2, Int.add_mul_ediv_right _ _ (by positivity)]

theorem roundQ_edge {V : Int} {t : Nat} (h : t % 9 = 0) (c : Int) :
    roundQ V t c = V / 1000000000 ^ (t / 9) + c := by
  unfold roundQ
  rw [if_pos h, pow9]; congr 3; omega

/-- The tail of `round_half_up` once the unit at the rounding position has been fixed: carry, clear, set the
fields. Nothing in `/repo` has this name; it is lines 236-264 of `/repo/src/round.rs`. -/
def roundTail {σ : Type} (m : Mode) (sg : Bool) (lsu : List Int) (roundIdx clearIdx intgUnits fracUnits roundFrac carry : Int) :
    Out σ FixedDecimal := do
  let endIdx := intgUnits + fracUnits
  let (lsu, intgUnits) ← (
    if carry > 0 then do
      let seg ← slice lsu roundIdx endIdx
      let (seg, carry) ← carryLoop m seg carry
      let lsu ← copyFromSlice lsu roundIdx endIdx seg
      if carry > 0 then do
        let lsu ← upd lsu endIdx 1
        return (lsu, intgUnits + 1)
      else return (lsu, intgUnits)
    else return (lsu, intgUnits) : Out σ (List Int × Int))
  let lsu ← zeroRange lsu 0 clearIdx
  let fd : FixedDecimal :=
    { lsu := lsu, intg := BitVec.ofInt 8 (intgUnits * DIGITS_PER_UNIT), frac := roundFrac }
  return if sg then fd.setNeg else fd

/-- Clearing the low units. -/
theorem zeroRange_dg {l : List Int} {k : Nat} (hk : k ≤ l.length) (p : Nat) :
    dg (l.take 0 ++ List.replicate k 0 ++ l.drop k) p = if p < k then 0 else dg l p := by
  rw [List.take_zero, List.nil_append, dg_append, List.length_replicate]
  split_ifs with h
  · exact dg_replicate
  · rw [dg_drop]; congr 1; omega

theorem psum_cleared {f g : Nat → Int} {k n : Nat} (h : k ≤ n) (h0 : ∀ p < k, g p = 0)
    (h1 : ∀ p, k ≤ p → g p = f p) : psum g n = 1000000000 ^ k * psum (fun i => f (k + i)) (n - k) := by
  rw [psum_split h, psum_zero_of h0, zero_add]
  congr 1
  exact psum_congr fun i _ => h1 _ (by omega)

/-- The tail: from `l` (whose units from `ci` on matter) with carry `c` into unit `ri`. -/
theorem roundTail_spec {σ : Type} (m : Mode) (sg : Bool) {l : List Int} {ri ci I F : Nat} {rf c : Int}
    (hl : l.length = 9) (hd : DigL l) (hN : I + F ≤ 9) (hz : ∀ p, I + F ≤ p → dg l p = 0)
    (hri : ci ≤ ri) (hrN : ri ≤ I + F) (hc : c = 0 ∨ c = 1) :
    let W := 1000000000 ^ ci * psum (fun i => dg l (ci + i)) (9 - ci) + c * 1000000000 ^ ri
    (I + F ≤ 8 ∨ W < 1000000000 ^ 9 →
    ∃ l' I', (roundTail m sg l ri ci I F rf c : Out σ _) = .ok (roundOut sg I' rf l') ∧ I' + F ≤ 9 ∧
      l'.length = 9 ∧ DigL l' ∧ (∀ p, I' + F ≤ p → dg l' p = 0) ∧ psum (dg l') 9 = W ∧
      I' = if W < 1000000000 ^ (I + F) then I else I + 1) ∧
    (I + F = 9 → 1000000000 ^ 9 ≤ W → (roundTail m sg l ri ci I F rf c : Out σ _) = .panic .index) := by
  intro W
  have zr : ∀ (l' : List Int), l'.length = 9 → DigL l' →
      ∃ l'', (zeroRange l' 0 (ci : Int) : Out σ _) = .ok l'' ∧ l''.length = 9 ∧ DigL l'' ∧
        (∀ p, dg l'' p = if p < ci then 0 else dg l' p) := by
    intro l' h1 h2
    refine ⟨l'.take 0 ++ List.replicate ci 0 ++ l'.drop ci, ?_, ?_, ?_, ?_⟩
    · rw [zeroRange_ok (by omega) (by omega) (by omega)]; simp
    · simp; omega
    · exact ((h2.take 0).append (DigL.replicate ci)).append (h2.drop ci)
    · intro p; exact zeroRange_dg (by omega) p
  have eN : (I : Int) + (F : Int) = ((I + F : Nat) : Int) := by push_cast; rfl
  have below : ∀ (l' : List Int), DigL l' → (∀ p, I + F ≤ p → dg l' p = 0) → psum (dg l') 9 = W →
      I = if W < 1000000000 ^ (I + F) then I else I + 1 := by
    intro l' h1 h2 h3
    rw [if_pos]
    rw [← h3, psum_extend hN (fun i hi _ => h2 i hi)]
    exact psum_lt h1.dig _
  rcases hc with h0 | h0
  · -- no carry
    subst h0
    have hW : W = 1000000000 ^ ci * psum (fun i => dg l (ci + i)) (9 - ci) := by simp [W]
    obtain ⟨l'', z1, z2, z3, z4⟩ := zr l hl hd
    have hsum : psum (dg l'') 9 = W := by
      rw [hW]
      refine psum_cleared (by omega) (fun p hp => by rw [z4, if_pos hp]) (fun p hp => by rw [z4, if_neg (by omega)])
    constructor
    · intro _
      refine ⟨l'', I, ?_, hN, z2, z3, ?_, hsum, below l'' z3 (fun p hp => by rw [z4, hz p hp]; split_ifs <;> rfl) hsum⟩
      · unfold roundTail
        dsimp only
        rw [if_neg (show ¬ (0 : Int) > 0 by norm_num)]
        simp only [pure_ok, ok_bind]
        rw [z1]; rfl
      · intro p hp; rw [z4, hz p hp]; split_ifs <;> rfl
    · intro _ h
      have := psum_lt z3.dig 9
      rw [hsum] at this; omega
  · subst h0
    have hslen : ((l.drop ri).take (I + F - ri)).length = I + F - ri := by
      rw [List.length_take, List.length_drop]; omega
    obtain ⟨sg', c', s1, s2, s3, s4, s5⟩ := carryLoop_spec (σ := σ) m ((l.drop ri).take (I + F - ri)) 1
      ((hd.drop _).take _) (Or.inr rfl)
    rw [hslen] at s2 s5
    -- the list after the carry loop
    have hl2 : (l.take ri ++ sg' ++ l.drop (I + F)).length = 9 := by simp; omega
    have hdl2 : DigL (l.take ri ++ sg' ++ l.drop (I + F)) := ((hd.take _).append s3).append (hd.drop _)
    have hdg2 : ∀ p, dg (l.take ri ++ sg' ++ l.drop (I + F)) p =
        if p < ri then dg l p else if p < I + F then dg sg' (p - ri) else 0 := by
      intro p
      have e1 : (l.take ri).length = ri := by rw [List.length_take]; omega
      rw [dg_append, dg_append, List.length_append, e1, s2]
      by_cases h1 : p < ri
      · rw [if_pos (by omega), if_pos h1, dg_take, if_pos h1, if_pos h1]
      · by_cases h2 : p < I + F
        · rw [if_pos (by omega), if_neg h1, if_neg h1, if_pos h2]
        · rw [if_neg (by omega), if_neg h1, if_neg h2, dg_drop]
          exact hz _ (by omega)
    -- its value above ci
    have hval : 1000000000 ^ ci * psum (fun i => dg (l.take ri ++ sg' ++ l.drop (I + F)) (ci + i)) (9 - ci)
        + c' * 1000000000 ^ (I + F) = W := by
      have ha : ∀ (g : Nat → Int), (∀ p, I + F ≤ p → g p = 0) →
          psum (fun i => g (ci + i)) (9 - ci) = psum (fun i => g (ci + i)) (ri - ci)
            + 1000000000 ^ (ri - ci) * psum (fun i => g (ri + i)) (I + F - ri) := by
        intro g hg
        rw [psum_extend (a := I + F - ci) (by omega) (fun i h1 _ => hg _ (by omega)),
          psum_split (show ri - ci ≤ I + F - ci by omega)]
        congr 2
        rw [show I + F - ci - (ri - ci) = I + F - ri by omega]
        exact psum_congr fun i _ => by congr 1; omega
      have hb1 : psum (fun i => dg l (ri + i)) (I + F - ri) = unitsVal ((l.drop ri).take (I + F - ri)) := by
        rw [unitsVal_eq_psum, hslen]
        exact psum_congr fun i hi => (dg_slice hi).symm
      have hb2 : psum (fun i => dg (l.take ri ++ sg' ++ l.drop (I + F)) (ri + i)) (I + F - ri) = unitsVal sg' := by
        rw [unitsVal_eq_psum, s2]
        refine psum_congr fun i hi => ?_
        rw [hdg2, if_neg (by omega), if_pos (by omega)]; congr 1; omega
      have hlow : psum (fun i => dg (l.take ri ++ sg' ++ l.drop (I + F)) (ci + i)) (ri - ci)
          = psum (fun i => dg l (ci + i)) (ri - ci) :=
        psum_congr fun i hi => by rw [hdg2, if_pos (by omega)]
      show _ = 1000000000 ^ ci * psum (fun i => dg l (ci + i)) (9 - ci) + 1 * 1000000000 ^ ri
      rw [ha (dg l) hz, ha _ (fun p hp => by rw [hdg2, if_neg (by omega), if_neg (by omega)]), hb1, hb2, hlow]
      have p1 : (1000000000 : Int) ^ ri = 1000000000 ^ ci * 1000000000 ^ (ri - ci) := by
        rw [← pow_add]; congr 1; omega
      have p2 : (1000000000 : Int) ^ (I + F) = 1000000000 ^ ri * 1000000000 ^ (I + F - ri) := by
        rw [← pow_add]; congr 1; omega
      rw [p2, p1]
      have := congrArg (fun x => 1000000000 ^ ci * 1000000000 ^ (ri - ci) * x) s5
      linarith
    have step : (roundTail m sg l ri ci I F rf 1 : Out σ _) =
        (do let (lsu, intgUnits) ← (if c' > 0 then do
              let lsu ← upd (l.take ri ++ sg' ++ l.drop (I + F)) ((I + F : Nat) : Int) 1
              return (lsu, (I : Int) + 1)
            else return (l.take ri ++ sg' ++ l.drop (I + F), (I : Int)) : Out σ (List Int × Int))
            let lsu ← zeroRange lsu 0 (ci : Int)
            return if sg then ({ lsu := lsu, intg := BitVec.ofInt 8 (intgUnits * DIGITS_PER_UNIT), frac := rf } : FixedDecimal).setNeg
              else { lsu := lsu, intg := BitVec.ofInt 8 (intgUnits * DIGITS_PER_UNIT), frac := rf }) := by
      unfold roundTail
      dsimp only
      rw [if_pos (show (1 : Int) > 0 by norm_num)]
      rw [slice_ok (by omega) (by omega) (by omega)]
      simp only [ok_bind, eN]
      have e3 : (((I + F : Nat) : Int) - (ri : Int)).toNat = I + F - ri := by omega
      rw [e3, Int.toNat_natCast, s1]
      simp only [ok_bind]
      rw [copyFromSlice_ok (by omega) (by omega) (by omega) (by omega)]
      simp only [ok_bind, Int.toNat_natCast]
    rw [step]
    rcases s4 with h4 | h4
    · subst h4
      rw [if_neg (show ¬ (0 : Int) > 0 by norm_num)]
      simp only [pure_ok, ok_bind]
      obtain ⟨l'', z1, z2, z3, z4⟩ := zr _ hl2 hdl2
      have hsum : psum (dg l'') 9 = W := by
        rw [← hval, zero_mul, add_zero]
        exact psum_cleared (by omega) (fun p hp => by rw [z4, if_pos hp]) (fun p hp => by rw [z4, if_neg (by omega)])
      constructor
      · intro _
        refine ⟨l'', I, ?_, hN, z2, z3, ?_, hsum, below l'' z3 (fun p hp => by
          rw [z4, hdg2, if_neg (by omega : ¬ p < ri), if_neg (by omega : ¬ p < I + F)]; split_ifs <;> rfl) hsum⟩
        · rw [z1]; rfl
        · intro p hp; rw [z4, hdg2, if_neg (by omega : ¬ p < ri), if_neg (by omega : ¬ p < I + F)]; split_ifs <;> rfl
      · intro _ h
        have := psum_lt z3.dig 9
        rw [hsum] at this; omega
    · subst h4
      rw [if_pos (show (1 : Int) > 0 by norm_num)]
      constructor
      · intro hfit
        have h8 : I + F ≤ 8 := by
          rcases hfit with h | h
          · exact h
          · by_contra hcon
            have h9 : I + F = 9 := by omega
            rw [← hval, h9] at h
            have : 0 ≤ psum (fun i => dg (l.take ri ++ sg' ++ l.drop 9) (ci + i)) (9 - ci) := by
              rw [← h9]; exact psum_nonneg (dig_shift hdl2.dig ci) _
            have : 0 ≤ 1000000000 ^ ci * psum (fun i => dg (l.take ri ++ sg' ++ l.drop 9) (ci + i)) (9 - ci) := by
              positivity
            linarith
        rw [upd_nat (by rw [hl2]; omega)]
        simp only [pure_ok, ok_bind]
        obtain ⟨l'', z1, z2, z3, z4⟩ := zr ((l.take ri ++ sg' ++ l.drop (I + F)).set (I + F) 1)
          (by rw [List.length_set]; exact hl2) (hdl2.set (by norm_num))
        rw [z1]
        refine ⟨l'', I + 1, ?_, by omega, z2, z3, ?_, ?_, ?_⟩
        · unfold roundOut; simp
        · intro p hp
          rw [z4, dg_set_ne (by omega), hdg2, if_neg (by omega : ¬ p < ri), if_neg (by omega : ¬ p < I + F)]
          split_ifs <;> rfl
        · rw [← hval]
          rw [psum_cleared (f := dg ((l.take ri ++ sg' ++ l.drop (I + F)).set (I + F) 1)) (k := ci) (by omega)
            (fun p hp => by rw [z4, if_pos hp]) (fun p hp => by rw [z4, if_neg (by omega)])]
          rw [psum_extend (a := I + F - ci + 1) (by omega) (fun i h1 _ => by
            rw [dg_set_ne (by omega), hdg2, if_neg (by omega), if_neg (by omega)]), psum_succ]
          rw [psum_extend (f := fun i => dg (l.take ri ++ sg' ++ l.drop (I + F)) (ci + i)) (a := I + F - ci) (n := 9 - ci) (by omega)
            (fun i h1 _ => by rw [hdg2, if_neg (by omega), if_neg (by omega)])]
          rw [show ci + (I + F - ci) = I + F by omega, dg_set_self (by rw [hl2]; omega)]
          have p2 : (1000000000 : Int) ^ (I + F) = 1000000000 ^ ci * 1000000000 ^ (I + F - ci) := by
            rw [← pow_add]; congr 1; omega
          rw [p2]
          rw [psum_congr (g := fun i => dg (l.take ri ++ sg' ++ l.drop (I + F)) (ci + i))
            (fun i hi => dg_set_ne (by omega))]
          ring
        · rw [if_neg]
          rw [← hval]
          have : 0 ≤ psum (fun i => dg (l.take ri ++ sg' ++ l.drop (I + F)) (ci + i)) (9 - ci) :=
            psum_nonneg (dig_shift hdl2.dig ci) _
          have : 0 ≤ 1000000000 ^ ci * psum (fun i => dg (l.take ri ++ sg' ++ l.drop (I + F)) (ci + i)) (9 - ci) := by
            positivity
          linarith
      · intro h9 _
        rw [upd_oob (by right; rw [hl2]; omega)]
        rfl

/-- The arm of the match for position `q` (`1 ≤ q ≤ 8`). -/
theorem roundArm_spec {σ : Type} (m : Mode) {u : Int} (hu : 0 ≤ u ∧ u < 1000000000) {q : Nat} (h0 : q ≠ 0) (h9 : q < 9) :
    (roundArm m u (q : Int) : Out σ Int) = .ok (10 ^ q * ((u + 5 * 10 ^ (q - 1)) / 10 ^ q)) := by
  have : q = 1 ∨ q = 2 ∨ q = 3 ∨ q = 4 ∨ q = 5 ∨ q = 6 ∨ q = 7 ∨ q = 8 := by omega
  rcases this with h | h | h | h | h | h | h | h <;> subst h <;>
    exact roundUnit_spec m hu (by norm_num) (by norm_num) (by norm_num)

theorem roundUnit_range {u : Int} (hu : 0 ≤ u ∧ u < 1000000000) {q : Nat} (h9 : q < 9) (h0 : q ≠ 0) :
    0 ≤ 10 ^ q * ((u + 5 * 10 ^ (q - 1)) / 10 ^ q) ∧ 10 ^ q * ((u + 5 * 10 ^ (q - 1)) / 10 ^ q) ≤ 1000000000 := by
  have : q = 1 ∨ q = 2 ∨ q = 3 ∨ q = 4 ∨ q = 5 ∨ q = 6 ∨ q = 7 ∨ q = 8 := by omega
  rcases this with h | h | h | h | h | h | h | h <;> subst h <;> norm_num <;> omega

/-- `round_half_up`: either the rounded mantissa, or (nine full units and a carry) a panic. -/
theorem roundHalfUp_spec {σ : Type} (m : Mode) {fd : FixedDecimal} {I F t : Nat} {rf c : Int}
    (hl : fd.lsu.length = 9) (hd : DigL fd.lsu) (hN : I + F ≤ 9) (hz : ∀ p, I + F ≤ p → dg fd.lsu p = 0)
    (ht : t / 9 ≤ I + F) (ht' : t % 9 ≠ 0 → t / 9 < I + F) (hc : c = 0 ∨ c = 1) (hc' : t % 9 ≠ 0 → c = 0) :
    let W := 10 ^ t * roundQ (psum (dg fd.lsu) 9) t c
    (I + F ≤ 8 ∨ W < 1000000000 ^ 9 →
    ∃ l' I', (roundHalfUp m fd I F t rf c : Out σ _) = .ok (roundOut (neg fd) I' rf l') ∧ I' + F ≤ 9 ∧
      l'.length = 9 ∧ DigL l' ∧ (∀ p, I' + F ≤ p → dg l' p = 0) ∧ psum (dg l') 9 = W ∧
      I' = if W < 1000000000 ^ (I + F) then I else I + 1) ∧
    (I + F = 9 → 1000000000 ^ 9 ≤ W → (roundHalfUp m fd I F t rf c : Out σ _) = .panic .index) := by
  intro W
  have htb : t < 90 := by omega
  have eri : (div9 (wrap 8 (t : Int)) : Out σ Int) = .ok ((t / 9 : Nat) : Int) := by
    rw [wrap8_ok (x := (t : Int)) (by omega) (by omega), div9_nat (by omega)]
  have epos : (mod9 (wrap 8 (t : Int)) : Out σ Int) = .ok ((t % 9 : Nat) : Int) := by
    rw [wrap8_ok (x := (t : Int)) (by omega) (by omega), mod9_nat (by omega)]
  have hpow : (10 : Int) ^ t = 1000000000 ^ (t / 9) * 10 ^ (t % 9) := by
    rw [pow9, ← pow_add, show 9 * (t / 9) + t % 9 = t by omega]
  by_cases hp : t % 9 = 0
  · have step : (roundHalfUp m fd I F t rf c : Out σ _) =
        roundTail m (neg fd) fd.lsu ((t / 9 : Nat) : Int) ((t / 9 : Nat) : Int) I F rf c := by
      unfold roundHalfUp roundTail
      rw [eri, epos]
      simp only [ok_bind]
      rw [if_neg (by omega)]
      simp only [pure_ok, ok_bind, isNeg_eq]
    rw [step]
    have := roundTail_spec (σ := σ) m (neg fd) (rf := rf) hl hd hN hz (le_refl (t / 9)) ht hc
    have hW : 1000000000 ^ (t / 9) * psum (fun i => dg fd.lsu (t / 9 + i)) (9 - t / 9) + c * 1000000000 ^ (t / 9) = W := by
      show _ = 10 ^ t * roundQ (psum (dg fd.lsu) 9) t c
      rw [roundQ_edge hp, psum_div_mod hd.dig (by omega), hpow, hp]; ring
    dsimp only at this
    rw [hW] at this
    exact this
  · have hri := ht' hp
    have hc0 := hc' hp
    subst hc0
    have hu := hd.dig (t / 9)
    set u' := 10 ^ (t % 9) * ((dg fd.lsu (t / 9) + 5 * 10 ^ (t % 9 - 1)) / 10 ^ (t % 9)) with hu'
    have hr := roundUnit_range hu (show t % 9 < 9 by omega) hp
    rw [← hu'] at hr
    -- unit and carry after the match
    obtain ⟨u2, c2, hmk, hu2, hc2, hsum⟩ : ∃ u2 c2 : Int,
        ((if u' ≥ UNIT then do
            let u ← i32 m (u' - UNIT)
            return (u, (1 : Int))
          else return (u', 0) : Out σ (Int × Int)) = .ok (u2, c2)) ∧ (0 ≤ u2 ∧ u2 < 1000000000) ∧
          (c2 = 0 ∨ c2 = 1) ∧ u2 + c2 * 1000000000 = u' := by
      unfold UNIT
      split_ifs with h
      · rw [i32_ok (by omega) (by omega)]
        exact ⟨_, _, rfl, by omega, by omega, by omega⟩
      · exact ⟨_, _, rfl, by omega, by omega, by omega⟩
    have step : (roundHalfUp m fd I F t rf 0 : Out σ _) =
        roundTail m (neg fd) (fd.lsu.set (t / 9) u2) ((t / 9 + 1 : Nat) : Int) ((t / 9 : Nat) : Int) I F rf c2 := by
      unfold roundHalfUp roundTail
      rw [eri, epos]
      simp only [ok_bind]
      rw [if_pos (by omega), idx_nat (by omega)]
      simp only [ok_bind]
      rw [roundArm_spec m hu hp (by omega), ← hu']
      simp only [ok_bind]
      rw [hmk]
      simp only [ok_bind]
      rw [upd_nat (by omega)]
      simp only [pure_ok, ok_bind, isNeg_eq]
      push_cast
      rfl
    rw [step]
    have := roundTail_spec (σ := σ) m (neg fd) (rf := rf) (l := fd.lsu.set (t / 9) u2) (by simp [hl]) (hd.set hu2) hN
      (fun p hp => by rw [dg_set_ne (by omega)]; exact hz p hp) (show t / 9 ≤ t / 9 + 1 by omega) (by omega) hc2
    have hW : 1000000000 ^ (t / 9) * psum (fun i => dg (fd.lsu.set (t / 9) u2) (t / 9 + i)) (9 - t / 9)
        + c2 * 1000000000 ^ (t / 9 + 1) = W := by
      show _ = 10 ^ t * roundQ (psum (dg fd.lsu) 9) t 0
      rw [roundQ_at hp, psum_div_mod hd.dig (by omega), hpow]
      rw [psum_split (show 1 ≤ 9 - t / 9 by omega), psum_split (f := fun i => dg fd.lsu (t / 9 + i)) (show 1 ≤ 9 - t / 9 by omega)]
      simp only [psum_succ, psum_zero, pow_zero, mul_one, zero_add, pow_one, Nat.add_zero]
      rw [dg_set_self (by omega)]
      rw [psum_congr (g := fun i => dg fd.lsu (t / 9 + (1 + i))) (fun i _ => dg_set_ne (by omega))]
      set H := psum (fun i => dg fd.lsu (t / 9 + (1 + i))) (9 - t / 9 - 1)
      have e9 : (1000000000 : Int) = 10 ^ (t % 9) * 10 ^ (9 - t % 9) := by
        rw [← pow_add, show t % 9 + (9 - t % 9) = 9 by omega]; norm_num
      have hdiv : (dg fd.lsu (t / 9) + 1000000000 * H + 5 * 10 ^ (t % 9 - 1)) / 10 ^ (t % 9) =
          (dg fd.lsu (t / 9) + 5 * 10 ^ (t % 9 - 1)) / 10 ^ (t % 9) + 10 ^ (9 - t % 9) * H := by
        rw [show dg fd.lsu (t / 9) + 1000000000 * H + 5 * 10 ^ (t % 9 - 1)
            = dg fd.lsu (t / 9) + 5 * 10 ^ (t % 9 - 1) + 10 ^ (t % 9) * (10 ^ (9 - t % 9) * H) by
          rw [← mul_assoc, ← e9]; ring, Int.add_mul_ediv_left _ _ (by positivity)]
      rw [hdiv, pow_succ]
      have h3 : 10 ^ (t % 9) * ((dg fd.lsu (t / 9) + 5 * 10 ^ (t % 9 - 1)) / 10 ^ (t % 9) + 10 ^ (9 - t % 9) * H)
          = u2 + c2 * 1000000000 + 1000000000 * H := by
        rw [mul_add, ← hu', hsum, ← mul_assoc, ← e9]
      rw [mul_assoc, h3]; ring
    dsimp only at this
    rw [hW] at this
    exact this

end Fxd
