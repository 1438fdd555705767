import Verif.Model.Mul
import Verif.Proofs.AddLemmas
/-!
# The loops of `mul_abs`
-/

namespace Fxd
open Spec

/-- Inner loop, positions at or above 0. -/
theorem mulInner_hi {σ : Type} (m : Mode) {rv rhsIdx shift : Int} (hrv : 0 ≤ rv ∧ rv < 1000000000) :
    ∀ (lvs : List Int) (lhsIdx r0 carry : Int) (res : List Int) (p : Nat), lhsIdx + rhsIdx - shift = p →
    DigL lvs → p + lvs.length ≤ 9 → 0 ≤ carry ∧ carry < 1000000000 → DigL res → res.length = 9 →
    ∃ c' res', (mulInner m rv rhsIdx shift lvs lhsIdx r0 carry res : Out σ _) =
        .ok (if lvs = [] then r0 else ((p + lvs.length : Nat) : Int) - 1, c', res') ∧
      (0 ≤ c' ∧ c' < 1000000000) ∧ DigL res' ∧ res'.length = 9 ∧
      (∀ q, q < p ∨ p + lvs.length ≤ q → dg res' q = dg res q) ∧
      psum (dg res') (p + lvs.length) + c' * 1000000000 ^ (p + lvs.length) =
        psum (dg res) (p + lvs.length) + carry * 1000000000 ^ p + rv * unitsVal lvs * 1000000000 ^ p := by
  intro lvs
  induction lvs with
  | nil =>
    intro lhsIdx r0 carry res p _ _ _ hc hd hl
    exact ⟨carry, res, rfl, hc, hd, hl, fun _ _ => rfl, by simp [unitsVal]⟩
  | cons lv lvs ih =>
    intro lhsIdx r0 carry res p hp hlv h9 hc hd hl
    have hv0 := hlv lv (by simp)
    simp only [List.length_cons] at h9
    have hold := hd.dig p
    unfold mulInner
    dsimp only
    rw [hp, if_neg (by omega), if_neg (by omega)]
    have b1 : 0 ≤ lv * rv := mul_nonneg hv0.1 hrv.1
    have b2 : lv * rv ≤ 999999999 * 999999999 :=
      mul_le_mul (by omega) (by omega) hrv.1 (by norm_num)
    norm_num at b2
    set pr := lv * rv with hpr
    rw [i64_ok (by omega) (by omega), ok_bind, idx_nat (by omega), ok_bind, i64_ok (by omega) (by omega), ok_bind,
      i64_ok (by omega) (by omega), ok_bind]
    have hv : 0 ≤ pr + dg res p + carry := by omega
    rw [Int.tdiv_eq_ediv_of_nonneg hv]
    have e1 := Int.mul_ediv_add_emod (pr + dg res p + carry) UNIT
    have e2 := Int.emod_nonneg (pr + dg res p + carry) (show UNIT ≠ 0 by decide)
    have e3 := Int.emod_lt_of_pos (pr + dg res p + carry) (show 0 < UNIT by decide)
    have hU : UNIT = 1000000000 := rfl
    set v := pr + dg res p + carry with hvdef
    set c := v / UNIT
    set r := v % UNIT
    rw [hU] at e1 e3 ⊢
    have hc2 : 0 ≤ c ∧ c < 1000000000 := by omega
    rw [i64_ok (by omega) (by omega), ok_bind, i64_ok (by omega) (by omega), ok_bind]
    have er : v - c * 1000000000 = r := by omega
    rw [er, wrap32_ok (by omega) (by omega), upd_nat (by omega), ok_bind]
    obtain ⟨c', res', k1, k2, k3, k4, k5, k6⟩ := ih (lhsIdx + 1) (p : Int) c (res.set p r) (p + 1)
      (by push_cast; omega) (fun u hu => hlv u (by simp [hu])) (by omega) hc2 (hd.set ⟨e2, e3⟩)
      (by rw [List.length_set]; exact hl)
    refine ⟨c', res', ?_, k2, k3, k4, ?_, ?_⟩
    · rw [k1]
      rw [if_neg (show ¬ (lv :: lvs = []) by simp)]
      by_cases hn : lvs = []
      · subst hn; simp
      · rw [if_neg hn, List.length_cons, show p + 1 + lvs.length = p + (lvs.length + 1) by omega]
    · intro q hq
      simp only [List.length_cons] at hq
      rw [k5 q (by omega), dg_set_ne (by omega)]
    · simp only [List.length_cons]
      have ea : p + (lvs.length + 1) = p + 1 + lvs.length := by ring
      rw [ea, k6]
      have e7 : psum (dg (res.set p r)) (p + 1 + lvs.length) =
          psum (dg res) (p + 1 + lvs.length) + (r - dg res p) * 1000000000 ^ p := by
        rw [psum_split (f := dg (res.set p r)) (show p + 1 ≤ p + 1 + lvs.length by omega),
          psum_split (f := dg res) (show p + 1 ≤ p + 1 + lvs.length by omega),
          psum_succ, psum_succ, psum_set_ge (le_refl p), dg_set_self (by omega)]
        rw [psum_congr (f := fun j => dg (res.set p r) (p + 1 + j)) (g := fun j => dg res (p + 1 + j))]
        · ring
        · intro j _
          show dg (res.set p r) (p + 1 + j) = dg res (p + 1 + j)
          rw [dg_set_ne (by omega)]
      rw [e7]
      simp only [unitsVal]
      have e8 : r + 1000000000 * c = lv * rv + dg res p + carry := by omega
      have e9 : r = lv * rv + dg res p + carry - 1000000000 * c := by omega
      rw [e9, pow_succ]
      ring

/-- Inner loop, positions below 0: nothing is stored; the carry into position 0 comes from position -1 alone. -/
theorem mulInner_lo {σ : Type} (m : Mode) {rv rhsIdx shift : Int} (hrv : 0 ≤ rv ∧ rv < 1000000000) :
    ∀ (lvs : List Int) (lhsIdx r0 : Int) (res : List Int) (t : Nat), lhsIdx + rhsIdx - shift = -((t : Int) + 1) →
    DigL lvs → 
    (mulInner m rv rhsIdx shift lvs lhsIdx r0 0 res : Out σ _) =
      if lvs.length ≤ t then .ok (if lvs = [] then r0 else (lvs.length : Int) - 1 - (t + 1), 0, res)
      else mulInner m rv rhsIdx shift (lvs.drop (t + 1)) (lhsIdx + t + 1) (-1) (dg lvs t * rv / 1000000000) res := by
  intro lvs
  induction lvs with
  | nil => intro lhsIdx r0 res t _ _; rfl
  | cons lv lvs ih =>
    intro lhsIdx r0 res t ht hlv
    have hv0 := hlv lv (by simp)
    have hlv' : DigL lvs := fun u hu => hlv u (by simp [hu])
    conv_lhs => unfold mulInner
    dsimp only
    rw [ht]
    by_cases h0 : t = 0
    · subst h0
      have b1 : 0 ≤ lv * rv := mul_nonneg hv0.1 hrv.1
      have b2 : lv * rv ≤ 999999999 * 999999999 :=
        mul_le_mul (by omega) (by omega) hrv.1 (by norm_num)
      norm_num at b2
      rw [if_neg (by norm_num), if_pos (by norm_num), i64_ok (by omega) (by omega), ok_bind,
        if_neg (show ¬ ((lv :: lvs).length ≤ 0) by simp)]
      rw [Int.tdiv_eq_ediv_of_nonneg b1]
      simp only [List.drop_succ_cons, List.drop_zero, dg_cons_zero]
      have hU : UNIT = 1000000000 := rfl
      by_cases hlt : lv * rv < UNIT
      · rw [if_pos hlt]
        have : lv * rv / 1000000000 = 0 := by
          apply Int.ediv_eq_zero_of_lt b1; rw [← hU]; exact hlt
        rw [this]
        simp
      · rw [if_neg hlt, hU]
        simp
    · rw [if_pos (by omega)]
      obtain ⟨t', rfl⟩ : ∃ t', t = t' + 1 := ⟨t - 1, by omega⟩
      rw [ih (lhsIdx + 1) _ res t' (by push_cast at ht ⊢; omega) hlv']
      simp only [List.length_cons, List.drop_succ_cons, dg_cons_succ]
      by_cases hle : lvs.length ≤ t'
      · rw [if_pos hle, if_pos (show lvs.length + 1 ≤ t' + 1 by omega), if_neg (show ¬ (lv :: lvs = []) by simp)]
        by_cases hn : lvs = []
        · subst hn; simp
        · rw [if_neg hn, show ((lvs.length : Int) - 1 - ((t' : Int) + 1)) =
            ((lvs.length + 1 : Nat) : Int) - 1 - (((t' + 1 : Nat) : Int) + 1) by push_cast; ring]
      · rw [if_neg hle, if_neg (show ¬ lvs.length + 1 ≤ t' + 1 by omega)]
        rw [show lhsIdx + 1 + (t' : Int) + 1 = lhsIdx + ((t' + 1 : Nat) : Int) + 1 by push_cast; ring]

/-- What row `j` adds to the result, when `S` low units are cut off. -/
def rowVal (L : List Int) (S j : Nat) (rv : Int) : Int :=
  if S ≤ j then rv * unitsVal L * 1000000000 ^ (j - S)
  else rv * unitsVal (L.drop (S - j)) + dg L (S - j - 1) * rv / 1000000000

/-- One row: the inner loop from the start. -/
theorem mulInner_row {σ : Type} (m : Mode) {rv : Int} (hrv : 0 ≤ rv ∧ rv < 1000000000) {L res : List Int}
    {S j : Nat} (hL : DigL L) (hne : L ≠ []) (h1 : S ≤ L.length + j) (h2 : L.length + j ≤ S + 9) (hd : DigL res)
    (hl : res.length = 9) (hz : ∀ p, L.length + j ≤ S + p → dg res p = 0) :
    ∃ c' res', (mulInner m rv (j : Int) (S : Int) L 0 (-1) 0 res : Out σ _) =
        .ok (((L.length + j : Nat) : Int) - S - 1, c', res') ∧
      (0 ≤ c' ∧ c' < 1000000000) ∧ DigL res' ∧ res'.length = 9 ∧
      (∀ p, L.length + j ≤ S + p → dg res' p = 0) ∧
      psum (dg res') 9 + c' * 1000000000 ^ (L.length + j - S) = psum (dg res) 9 + rowVal L S j rv := by
  unfold rowVal
  by_cases hSj : S ≤ j
  · rw [if_pos hSj]
    obtain ⟨c', res', k1, k2, k3, k4, k5, k6⟩ := mulInner_hi (σ := σ) m (rhsIdx := (j : Int)) (shift := (S : Int)) hrv L 0 (-1) 0
      res (j - S) (by omega) hL (by omega) ⟨by norm_num, by norm_num⟩ hd hl
    rw [if_neg hne] at k1
    refine ⟨c', res', ?_, k2, k3, k4, ?_, ?_⟩
    · rw [k1]; congr 2; omega
    · intro p hp; rw [k5 p (by omega)]; exact hz p hp
    · have e : L.length + j - S = j - S + L.length := by omega
      rw [e]
      rw [psum_extend (f := dg res') (show j - S + L.length ≤ 9 by omega) (fun i hi _ => by rw [k5 i (by omega)]; exact hz i (by omega)),
        psum_extend (f := dg res) (show j - S + L.length ≤ 9 by omega) (fun i hi _ => hz i (by omega)), k6]
      ring
  · rw [if_neg hSj]
    obtain ⟨t, ht⟩ : ∃ t, S = j + t + 1 := ⟨S - j - 1, by omega⟩
    have lo := mulInner_lo (σ := σ) m (rhsIdx := (j : Int)) (shift := (S : Int)) hrv L 0 (-1) res t (by omega) hL
    rw [if_neg (by omega)] at lo
    rw [lo]
    have hL' : DigL (L.drop (t + 1)) := hL.drop _
    have a1 := hL.dig t
    have b1 : 0 ≤ dg L t * rv := mul_nonneg a1.1 hrv.1
    have b2 : dg L t * rv ≤ 999999999 * 999999999 := mul_le_mul (by omega) (by omega) hrv.1 (by norm_num)
    have b3 : 0 ≤ dg L t * rv / 1000000000 ∧ dg L t * rv / 1000000000 < 1000000000 := by omega
    have hlen : (L.drop (t + 1)).length = L.length - (t + 1) := by simp
    obtain ⟨c', res', k1, k2, k3, k4, k5, k6⟩ := mulInner_hi (σ := σ) m (rhsIdx := (j : Int)) (shift := (S : Int)) hrv
      (L.drop (t + 1)) (0 + t + 1) (-1) (dg L t * rv / 1000000000) res 0 (by omega) hL' (by rw [hlen]; omega)
      b3 hd hl
    refine ⟨c', res', ?_, k2, k3, k4, ?_, ?_⟩
    · rw [k1]
      by_cases hn : L.drop (t + 1) = []
      · rw [if_pos hn]
        have : L.length ≤ t + 1 := by simpa using hn
        congr 2; omega
      · rw [if_neg hn, hlen]
        congr 2; omega
    · intro p hp
      rw [k5 p (by rw [hlen]; omega)]; exact hz p hp
    · rw [hlen, Nat.zero_add] at k6
      have e : L.length + j - S = L.length - (t + 1) := by omega
      rw [e]
      rw [psum_extend (f := dg res') (show L.length - (t + 1) ≤ 9 by omega) (fun i hi _ => by rw [k5 i (by rw [hlen]; omega)]; exact hz i (by omega)),
        psum_extend (f := dg res) (show L.length - (t + 1) ≤ 9 by omega) (fun i hi _ => hz i (by omega)), k6]
      rw [show S - j = t + 1 by omega, show t + 1 - 1 = t by omega]
      ring

/-- All rows from `j` on. -/
def rowSum (L : List Int) (S : Nat) : List Int → Nat → Int
  | [], _ => 0
  | rv :: rvs, j => rowVal L S j rv + rowSum L S rvs (j + 1)

theorem unitsVal_nonneg {l : List Int} (h : DigL l) : 0 ≤ unitsVal l := by
  rw [unitsVal_eq_psum]; exact psum_nonneg h.dig _

theorem rowVal_nonneg {L : List Int} {S j : Nat} {rv : Int} (hL : DigL L) (h : 0 ≤ rv) : 0 ≤ rowVal L S j rv := by
  unfold rowVal
  split_ifs
  · have := unitsVal_nonneg hL
    positivity
  · have h1 := unitsVal_nonneg (hL.drop (S - j))
    have h2 : 0 ≤ dg L (S - j - 1) * rv / 1000000000 :=
      Int.ediv_nonneg (mul_nonneg (hL.dig _).1 h) (by norm_num)
    have h3 := mul_nonneg h h1
    omega

theorem rowSum_nonneg {L : List Int} {S : Nat} (hL : DigL L) : ∀ (R : List Int) (j : Nat), DigL R → 0 ≤ rowSum L S R j := by
  intro R
  induction R with
  | nil => intro j _; exact le_refl _
  | cons rv R ih =>
    intro j hR
    have h1 := rowVal_nonneg (S := S) (j := j) hL (hR rv (by simp)).1
    have h2 := ih (j + 1) (fun u hu => hR u (by simp [hu]))
    unfold rowSum; omega

/-- The outer loop: the sum of the rows when it fits nine units; when not, `Err(Overflow)`, and its low nine units are left. -/
theorem mulOuter_spec {σ : Type} (m : Mode) {L : List Int} {S : Nat} (back : List Int → σ) (hL : DigL L) (hne : L ≠ []) :
    ∀ (R : List Int) (j : Nat) (res : List Int), DigL R → (m = .debug → S < L.length + j) → S ≤ L.length + j →
    L.length + j + R.length ≤ S + 10 → DigL res → res.length = 9 → (∀ p, L.length + j ≤ S + p → dg res p = 0) →
    (psum (dg res) 9 + rowSum L S R j < 1000000000 ^ 9 →
      ∃ res', (mulOuter m L (S : Int) back R (j : Int) res : Out σ _) = .ok res' ∧ DigL res' ∧ res'.length = 9 ∧
        psum (dg res') 9 = psum (dg res) 9 + rowSum L S R j) ∧
    (1000000000 ^ 9 ≤ psum (dg res) 9 + rowSum L S R j →
      ∃ l, (mulOuter m L (S : Int) back R (j : Int) res : Out σ _) = .err .overflow (back l) ∧ l.length = 9 ∧ DigL l ∧
        psum (dg l) 9 = (psum (dg res) 9 + rowSum L S R j) % 1000000000 ^ 9) := by
  intro R
  induction R with
  | nil =>
    intro j res _ _ _ _ hd hl _
    unfold rowSum mulOuter
    refine ⟨fun _ => ⟨res, rfl, hd, hl, by ring⟩, fun h => ?_⟩
    have := psum_lt hd.dig 9
    omega
  | cons rv R ih =>
    intro j res hR hdbg h1 h2 hd hl hz
    simp only [List.length_cons] at h2
    have hrv := hR rv (by simp)
    have hR' : DigL R := fun u hu => hR u (by simp [hu])
    obtain ⟨c', res', k1, k2, k3, k4, k5, k6⟩ := mulInner_row (σ := σ) m hrv hL hne h1 (by omega) hd hl hz
    unfold mulOuter
    rw [k1, ok_bind]
    dsimp only
    have hda : (dassert m (decide (((L.length + j : Nat) : Int) - S - 1 ≥ 0)) : Out σ Unit) = .ok () := by
      cases m
      · unfold dassert; simp only [ge_iff_le, decide_eq_true_eq]; rw [if_pos (by have := hdbg rfl; omega)]
      · rfl
    rw [hda, ok_bind]
    have hM : MAX_UNITS = 9 := rfl
    rw [hM]
    by_cases h9 : ((L.length + j : Nat) : Int) - S - 1 + 1 < 9
    · rw [if_pos h9]
      obtain ⟨q, hq⟩ : ∃ q : Nat, ((L.length + j : Nat) : Int) - S - 1 + 1 = q := ⟨L.length + j - S, by omega⟩
      rw [hq, wrap32_ok (by omega) (by omega), upd_nat (by omega), ok_bind]
      have hqe : L.length + j - S = q := by omega
      have hps : psum (dg (res'.set q c')) 9 = psum (dg res) 9 + rowVal L S j rv := by
        rw [← k6, hqe]
        rw [psum_split (f := dg (res'.set q c')) (show q + 1 ≤ 9 by omega),
          psum_split (f := dg res') (show q + 1 ≤ 9 by omega),
          psum_succ, psum_succ, psum_set_ge (le_refl q), dg_set_self (by omega), k5 q (by omega)]
        rw [psum_congr (f := fun j => dg (res'.set q c') (q + 1 + j)) (g := fun j => dg res' (q + 1 + j))]
        · ring
        · intro i _
          show dg (res'.set q c') (q + 1 + i) = dg res' (q + 1 + i)
          rw [dg_set_ne (by omega)]
      have := ih (j + 1) (res'.set q c') hR' (fun _ => by omega) (by omega) (by omega) (k3.set k2)
        (by rw [List.length_set]; exact k4) (fun p hp => by rw [dg_set_ne (by omega)]; exact k5 p (by omega))
      rw [hps] at this
      unfold rowSum
      rw [show ((j : Int) + 1) = ((j + 1 : Nat) : Int) by push_cast; rfl, ← add_assoc]
      exact this
    · rw [if_neg h9]
      have hR0 : R = [] := by
        have : R.length = 0 := by omega
        simpa using this
      subst hR0
      have hqe : L.length + j - S = 9 := by omega
      rw [hqe] at k6
      have hlt := psum_lt k3.dig 9
      have hge := psum_nonneg k3.dig 9
      by_cases hc : c' > 0
      · rw [if_pos hc]
        refine ⟨fun h => ?_, fun _ => ⟨res', rfl, k4, k3, ?_⟩⟩
        swap
        · simp only [rowSum, add_zero]
          rw [← k6, Int.add_mul_emod_self_right, Int.emod_eq_of_lt hge hlt]
        simp only [rowSum, add_zero] at h
        exfalso
        norm_num at k6 h hlt; omega
      · rw [if_neg hc]
        have hc0 : c' = 0 := by omega
        subst hc0
        simp only [rowSum, add_zero, mulOuter]
        refine ⟨fun _ => ⟨res', rfl, k3, k4, by omega⟩, fun h => ?_⟩
        omega

/-- A row entirely below the cut: debug builds assert, release builds index out of bounds. -/
theorem mulOuter_panic {σ : Type} (m : Mode) {L : List Int} {S : Nat} (back : List Int → σ) (hL : DigL L) (hne : L ≠ [])
    {rv : Int} {R : List Int} {res : List Int} (hrv : 0 ≤ rv ∧ rv < 1000000000) (hl : res.length = 9)
    (hd : DigL res) (hz : ∀ p, dg res p = 0)
    (h : (m = .debug ∧ L.length ≤ S) ∨ L.length < S) :
    (mulOuter m L (S : Int) back (rv :: R) 0 res : Out σ _) = .panic (if m = .debug then .assert else .index) := by
  unfold mulOuter
  have key : ∃ c' res', (mulInner m rv (0 : Int) (S : Int) L 0 (-1) 0 res : Out σ _) =
      .ok ((L.length : Int) - S - 1, c', res') ∧ res'.length = 9 := by
    by_cases he : L.length = S
    · obtain ⟨c', res', k1, -, -, k4, -, -⟩ := mulInner_row (σ := σ) m (S := S) (j := 0) hrv hL hne (by omega) (by omega) hd hl
        (fun p _ => hz p)
      exact ⟨c', res', by simpa using k1, k4⟩
    · obtain ⟨t, ht⟩ : ∃ t, S = t + 1 := ⟨S - 1, by omega⟩
      have lo := mulInner_lo (σ := σ) m (rhsIdx := (0 : Int)) (shift := (S : Int)) hrv L 0 (-1) res t (by omega) hL
      rw [if_pos (by omega), if_neg hne] at lo
      refine ⟨0, res, ?_, hl⟩
      rw [lo]; congr 2; omega
  obtain ⟨c', res', k1, k4⟩ := key
  rw [k1, ok_bind]
  dsimp only
  cases m
  · have : (dassert .debug (decide ((L.length : Int) - S - 1 ≥ 0)) : Out σ Unit) = .panic .assert := by
      unfold dassert; simp only [ge_iff_le, decide_eq_true_eq]; rw [if_neg (by omega)]
    rw [this]; rfl
  · have hlt : L.length < S := by
      rcases h with ⟨h, _⟩ | h
      · cases h
      · exact h
    have hda : (dassert .release (decide ((L.length : Int) - S - 1 ≥ 0)) : Out σ Unit) = .ok () := rfl
    rw [hda, ok_bind, if_pos (show (L.length : Int) - S - 1 + 1 < MAX_UNITS by have : MAX_UNITS = 9 := rfl; omega), upd_oob (by left; omega)]
    rfl

/-! ## How far the rows are from the full product -/

theorem unitsVal_split (L : List Int) (k : Nat) :
    unitsVal L = psum (dg L) k + 1000000000 ^ k * unitsVal (L.drop k) := by
  by_cases h : k ≤ L.length
  · rw [unitsVal_eq_psum, unitsVal_eq_psum, psum_split h, List.length_drop]
    congr 2
    exact psum_congr fun i _ => dg_drop.symm
  · rw [List.drop_eq_nil_of_le (by omega), unitsVal_eq_psum,
      psum_extend (f := dg L) (a := L.length) (n := k) (by omega) (fun i hi _ => dg_out hi)]
    simp [unitsVal]

theorem rowVal_bounds {L : List Int} {S j : Nat} {rv : Int} (hL : DigL L) (hrv : 0 ≤ rv ∧ rv < 1000000000) :
    1000000000 ^ S * rowVal L S j rv ≤ rv * unitsVal L * 1000000000 ^ j ∧
      rv * unitsVal L * 1000000000 ^ j ≤ 1000000000 ^ S * rowVal L S j rv + (2 * 1000000000 ^ S - 1) := by
  have hS : (0 : Int) < 1000000000 ^ S := by positivity
  unfold rowVal
  split_ifs with h
  · have e : (1000000000 : Int) ^ j = 1000000000 ^ S * 1000000000 ^ (j - S) := by rw [← pow_add]; congr 1; omega
    rw [e]
    constructor
    · apply le_of_eq; ring
    · have : rv * unitsVal L * (1000000000 ^ S * 1000000000 ^ (j - S)) =
        1000000000 ^ S * (rv * unitsVal L * 1000000000 ^ (j - S)) := by ring
      omega
  · obtain ⟨t, ht⟩ : ∃ t, S - j = t + 1 := ⟨S - j - 1, by omega⟩
    have e : (1000000000 : Int) ^ S = 1000000000 ^ j * (1000000000 ^ t * 1000000000) := by
      rw [← pow_succ, ← pow_add]; congr 1; omega
    rw [ht, show t + 1 - 1 = t by omega, unitsVal_split L (t + 1), psum_succ, pow_succ]
    have p0 := psum_nonneg hL.dig t
    have p1 := psum_lt hL.dig t
    have q := Int.mul_ediv_add_emod (dg L t * rv) 1000000000
    have q0 := Int.emod_nonneg (dg L t * rv) (show (1000000000 : Int) ≠ 0 by decide)
    have q1 := Int.emod_lt_of_pos (dg L t * rv) (show (0 : Int) < 1000000000 by decide)
    set c := dg L t * rv / 1000000000
    set r := dg L t * rv % 1000000000
    set P := psum (dg L) t
    set U := unitsVal (L.drop (t + 1))
    have hB : (0 : Int) < 1000000000 ^ t := by positivity
    have hJ : (0 : Int) < 1000000000 ^ j := by positivity
    rw [e]
    set X := (1000000000 : Int) ^ t
    set J := (1000000000 : Int) ^ j
    have key : rv * (P + dg L t * X + X * 1000000000 * U) * J =
        J * (X * 1000000000) * (rv * U + c) + J * (rv * P + r * X) := by
      have : rv * (P + dg L t * X + X * 1000000000 * U) * J = J * (rv * P + (dg L t * rv) * X + X * 1000000000 * U * rv) := by ring
      rw [this, ← q]; ring
    have h1 : rv * P ≤ 999999999 * (X - 1) := mul_le_mul (by omega) (by omega) p0 (by norm_num)
    have h2 : r * X ≤ 999999999 * X := mul_le_mul_of_nonneg_right (by omega) hB.le
    have h3 : 0 ≤ rv * P := mul_nonneg hrv.1 p0
    have h4 : 0 ≤ r * X := mul_nonneg q0 hB.le
    rw [key]
    constructor
    · have : 0 ≤ J * (rv * P + r * X) := by positivity
      linarith
    · have h5 : J * (rv * P + r * X) ≤ J * (2 * (X * 1000000000) - 1) :=
        mul_le_mul_of_nonneg_left (by omega) hJ.le
      have h6 : J * (2 * (X * 1000000000) - 1) = 2 * (J * (X * 1000000000)) - J := by ring
      linarith

theorem rowSum_bounds {L : List Int} {S : Nat} (hL : DigL L) : ∀ (R : List Int) (j : Nat), DigL R →
    1000000000 ^ S * rowSum L S R j ≤ unitsVal L * unitsVal R * 1000000000 ^ j ∧
      unitsVal L * unitsVal R * 1000000000 ^ j ≤
        1000000000 ^ S * rowSum L S R j + R.length * (2 * 1000000000 ^ S - 1) := by
  intro R
  induction R with
  | nil => intro j _; simp [rowSum, unitsVal]
  | cons rv R ih =>
    intro j hR
    obtain ⟨a1, a2⟩ := rowVal_bounds (S := S) (j := j) hL (hR rv (by simp))
    obtain ⟨b1, b2⟩ := ih (j + 1) (fun u hu => hR u (by simp [hu]))
    simp only [rowSum, unitsVal, List.length_cons]
    have e : unitsVal L * (rv + 1000000000 * unitsVal R) * 1000000000 ^ j =
        rv * unitsVal L * 1000000000 ^ j + unitsVal L * unitsVal R * 1000000000 ^ (j + 1) := by
      rw [pow_succ]; ring
    rw [e]
    push_cast
    constructor
    · linarith
    · linarith

/-- Nothing cut off: the rows are the product. -/
theorem rowSum_zero {L : List Int} : ∀ (R : List Int) (j : Nat), rowSum L 0 R j = unitsVal L * unitsVal R * 1000000000 ^ j := by
  intro R
  induction R with
  | nil => intro j; simp [rowSum, unitsVal]
  | cons rv R ih =>
    intro j
    simp only [rowSum, unitsVal, ih, rowVal]
    rw [if_pos (Nat.zero_le _), Nat.sub_zero, pow_succ]; ring

theorem rowSum_one {L : List Int} : ∀ (R : List Int) (j : Nat), 1 ≤ j →
    1000000000 * rowSum L 1 R j = unitsVal L * unitsVal R * 1000000000 ^ j := by
  intro R
  induction R with
  | nil => intro j _; simp [rowSum, unitsVal]
  | cons rv R ih =>
    intro j hj
    simp only [rowSum, unitsVal, mul_add, ih (j + 1) (by omega), rowVal]
    rw [if_pos hj]
    obtain ⟨i, rfl⟩ : ∃ i, j = i + 1 := ⟨j - 1, by omega⟩
    rw [Nat.add_sub_cancel, pow_succ, pow_succ]; ring

/-- One unit cut off, but only zeros in it: the rows are the product. -/
theorem rowSum_one_exact {L R : List Int} (h : 1000000000 ∣ dg L 0 * dg R 0) :
    1000000000 * rowSum L 1 R 0 = unitsVal L * unitsVal R := by
  cases R with
  | nil => simp [rowSum, unitsVal]
  | cons rv R =>
    rw [dg_cons_zero] at h
    simp only [rowSum, unitsVal, mul_add, rowVal]
    rw [if_neg (by norm_num), rowSum_one R 1 (le_refl 1)]
    rw [show 1 - 0 = 1 from rfl, show 1 - 1 = 0 from rfl, mul_add, Int.mul_ediv_cancel' h]
    rw [unitsVal_split L 1]
    simp only [psum]
    ring

end Fxd
