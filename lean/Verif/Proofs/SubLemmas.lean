import Verif.Proofs.AddLemmas
import Verif.Proofs.NoErr
/-!
# Lemmas about subtraction of magnitudes, and failures of addition and subtraction
-/

namespace Fxd
open Spec

/-- Loop invariant of subtraction: `c` is the (negative) borrow out of the first `k` units. -/
structure SubInv (f g : Nat → Int) (res : List Int) (c : Int) (k : Nat) : Prop where
  len : res.length = 9
  dig : DigL res
  carry : c = 0 ∨ c = -1
  sum : psum (dg res) k + c * 1000000000 ^ k = psum f k - psum g k
  rest : ∀ p, k ≤ p → dg res p = 0

theorem SubInv.step {f g : Nat → Int} {res : List Int} {c r c' : Int} {k : Nat} (h : SubInv f g res c k)
    (hk : k < 9) (hr : 0 ≤ r ∧ r < 1000000000) (hc' : c' = 0 ∨ c' = -1)
    (he : r + c' * 1000000000 = f k - g k + c) : SubInv f g (res.set k r) c' (k + 1) := by
  refine ⟨by simp [h.len], h.dig.set hr, hc', ?_, ?_⟩
  · rw [psum_succ, psum_succ, psum_succ, psum_set_ge (le_refl k), dg_set_self (by rw [h.len]; exact hk),
      pow_succ]
    have := h.sum
    have he' : (r + c' * 1000000000) * 1000000000 ^ k = (f k - g k + c) * 1000000000 ^ k := by rw [he]
    linarith
  · intro p hp; rw [dg_set_ne (by omega)]; exact h.rest p (by omega)

theorem subCommon_spec {σ : Type} (m : Mode) (l r : List Int) (f g : Nat → Int)
    (hf : Dig f) (hg : Dig g) : ∀ (n i j k : Nat) (res : List Int) (c : Int),
    SubInv f g res c k → k + n ≤ 9 → i + n ≤ l.length → j + n ≤ r.length →
    (∀ t < n, dg l (i + t) = f (k + t)) → (∀ t < n, dg r (j + t) = g (k + t)) →
    ∃ res' c', (subCommon m l r n (i : Int) (j : Int) (k : Int) res c : Out σ _) = .ok (res', c') ∧
      SubInv f g res' c' (k + n) := by
  intro n
  induction n with
  | zero => intro i j k res c h _ _ _ _ _; exact ⟨res, c, rfl, h⟩
  | succ n ih =>
    intro i j k res c h hk hi hj hl hr
    rw [subCommon, idx_nat (by omega), idx_nat (by omega)]
    have e1 : dg l i = f k := hl 0 (by omega)
    have e2 : dg r j = g k := hr 0 (by omega)
    simp only [ok_bind, e1, e2]
    obtain ⟨r0, c0, h1, h2, h3, h4⟩ := subWithBorrow_spec (σ := σ) m (hf k) (hg k) h.carry
    rw [h1]; simp only [ok_bind]
    rw [upd_nat (by rw [h.len]; omega)]; simp only [ok_bind]
    obtain ⟨res', c', h5, h6⟩ := ih (i + 1) (j + 1) (k + 1) _ c0 (h.step (by omega) h2 h3 h4)
      (by omega) (by omega) (by omega)
      (fun t ht => by rw [show i + 1 + t = i + (t + 1) by omega, hl (t + 1) (by omega)]; congr 1; omega)
      (fun t ht => by rw [show j + 1 + t = j + (t + 1) by omega, hr (t + 1) (by omega)]; congr 1; omega)
    refine ⟨res', c', ?_, by rw [show k + (n + 1) = k + 1 + n by omega]; exact h6⟩
    rw [← h5]; push_cast; rfl

theorem subExtraL_spec {σ : Type} (m : Mode) (l : List Int) (f g : Nat → Int)
    (hf : Dig f) : ∀ (n i k : Nat) (res : List Int) (c : Int),
    SubInv f g res c k → k + n ≤ 9 → i + n ≤ l.length →
    (∀ t < n, dg l (i + t) = f (k + t)) → (∀ t < n, g (k + t) = 0) →
    ∃ res' c', (subExtraL m l n (i : Int) (k : Int) res c : Out σ _) = .ok (res', c') ∧
      SubInv f g res' c' (k + n) := by
  intro n
  induction n with
  | zero => intro i k res c h _ _ _ _; exact ⟨res, c, rfl, h⟩
  | succ n ih =>
    intro i k res c h hk hi hl hr
    rw [subExtraL, idx_nat (by omega)]
    have e1 : dg l i = f k := hl 0 (by omega)
    have e2 : g k = 0 := hr 0 (by omega)
    simp only [ok_bind, e1]
    obtain ⟨r0, c0, h1, h2, h3, h4⟩ := subWithBorrow_spec (σ := σ) m (hf k) (b := 0) (by norm_num) h.carry
    rw [h1]; simp only [ok_bind]
    rw [upd_nat (by rw [h.len]; omega)]; simp only [ok_bind]
    obtain ⟨res', c', h5, h6⟩ := ih (i + 1) (k + 1) _ c0 (h.step (by omega) h2 h3 (by rw [e2]; exact h4))
      (by omega) (by omega)
      (fun t ht => by rw [show i + 1 + t = i + (t + 1) by omega, hl (t + 1) (by omega)]; congr 1; omega)
      (fun t ht => by rw [show k + 1 + t = k + (t + 1) by omega]; exact hr (t + 1) (by omega))
    refine ⟨res', c', ?_, by rw [show k + (n + 1) = k + 1 + n by omega]; exact h6⟩
    rw [← h5]; push_cast; rfl

theorem subExtraR_spec {σ : Type} (m : Mode) (l : List Int) (f g : Nat → Int)
    (hg : Dig g) : ∀ (n i k : Nat) (res : List Int) (c : Int),
    SubInv f g res c k → k + n ≤ 9 → i + n ≤ l.length →
    (∀ t < n, dg l (i + t) = g (k + t)) → (∀ t < n, f (k + t) = 0) →
    ∃ res' c', (subExtraR m l n (i : Int) (k : Int) res c : Out σ _) = .ok (res', c') ∧
      SubInv f g res' c' (k + n) := by
  intro n
  induction n with
  | zero => intro i k res c h _ _ _ _; exact ⟨res, c, rfl, h⟩
  | succ n ih =>
    intro i k res c h hk hi hl hr
    rw [subExtraR, idx_nat (by omega)]
    have e1 : dg l i = g k := hl 0 (by omega)
    have e2 : f k = 0 := hr 0 (by omega)
    simp only [ok_bind, e1]
    obtain ⟨r0, c0, h1, h2, h3, h4⟩ := subWithBorrow_spec (σ := σ) m (a := 0) (by norm_num) (hg k) h.carry
    rw [h1]; simp only [ok_bind]
    rw [upd_nat (by rw [h.len]; omega)]; simp only [ok_bind]
    obtain ⟨res', c', h5, h6⟩ := ih (i + 1) (k + 1) _ c0 (h.step (by omega) h2 h3 (by rw [e2]; exact h4))
      (by omega) (by omega)
      (fun t ht => by rw [show i + 1 + t = i + (t + 1) by omega, hl (t + 1) (by omega)]; congr 1; omega)
      (fun t ht => by rw [show k + 1 + t = k + (t + 1) by omega]; exact hr (t + 1) (by omega))
    refine ⟨res', c', ?_, by rw [show k + (n + 1) = k + 1 + n by omega]; exact h6⟩
    rw [← h5]; push_cast; rfl

theorem subLow_spec {σ : Type} (m : Mode) : ∀ (rv : List Int) (c : Int), DigL rv → (c = 0 ∨ c = -1) →
    ∃ low c', (subLow m rv c : Out σ _) = .ok (low, c') ∧ low.length = rv.length ∧ DigL low ∧
      (c' = 0 ∨ c' = -1) ∧ unitsVal low + c' * 1000000000 ^ rv.length = c - unitsVal rv := by
  intro rv
  induction rv with
  | nil => intro c _ hc; exact ⟨[], c, rfl, rfl, by intro u hu; simp at hu, hc, by simp [unitsVal]⟩
  | cons v vs ih =>
    intro c hd hc
    rw [subLow]
    obtain ⟨r0, c0, h1, h2, h3, h4⟩ := subWithBorrow_spec (σ := σ) m (a := 0) (by norm_num)
      (hd v (by simp)) hc
    rw [h1]; simp only [ok_bind]
    obtain ⟨low, c', h5, h6, h7, h8, h9⟩ := ih c0 (fun u hu => hd u (by simp [hu])) h3
    rw [h5]; simp only [ok_bind, pure_ok]
    refine ⟨r0 :: low, c', rfl, by simp [h6], ?_, h8, ?_⟩
    · intro u hu
      rcases List.mem_cons.mp hu with h | h
      · rw [h]; exact h2
      · exact h7 u h
    · rw [unitsVal, unitsVal, List.length_cons, pow_succ]
      linarith

/-- Invariant of the negation pass. -/
theorem negLoop_spec {σ : Type} (m : Mode) (g : Nat → Int) (hg : Dig g) :
    ∀ (n i : Nat) (res : List Int) (c : Int), res.length = 9 → DigL res → (c = 0 ∨ c = -1) →
    i + n ≤ 9 → (∀ p, i ≤ p → dg res p = g p) →
    psum (dg res) i + c * 1000000000 ^ i = - psum g i →
    ∃ res' c', (negLoop m n (i : Int) res c : Out σ _) = .ok res' ∧ res'.length = 9 ∧ DigL res' ∧
      (c' = 0 ∨ c' = -1) ∧ psum (dg res') (i + n) + c' * 1000000000 ^ (i + n) = - psum g (i + n) ∧
      (∀ p, i + n ≤ p → dg res' p = g p) := by
  intro n
  induction n with
  | zero => intro i res c hl hd hc _ hr hs; exact ⟨res, c, rfl, hl, hd, hc, hs, hr⟩
  | succ n ih =>
    intro i res c hl hd hc hi hr hs
    rw [negLoop, idx_nat (by omega)]
    simp only [ok_bind]
    rw [hr i (le_refl _)]
    obtain ⟨r0, c0, h1, h2, h3, h4⟩ := subWithBorrow_spec (σ := σ) m (a := 0) (by norm_num) (hg i) hc
    rw [h1]; simp only [ok_bind]
    rw [upd_nat (by omega)]; simp only [ok_bind]
    obtain ⟨res', c', h5, h6, h7, h8, h9, h10⟩ := ih (i + 1) (res.set i r0) c0 (by simp [hl]) (hd.set h2) h3
      (by omega) (fun p hp => by rw [dg_set_ne (by omega)]; exact hr p (by omega))
      (by
        rw [psum_succ, psum_succ, psum_set_ge (le_refl i), dg_set_self (by omega), pow_succ]
        have he' : (r0 + c0 * 1000000000) * 1000000000 ^ i = (0 - g i + c) * 1000000000 ^ i := by rw [h4]
        linarith)
    refine ⟨res', c', ?_, h6, h7, h8, ?_, ?_⟩
    · rw [← h5]; push_cast; rfl
    · rw [show i + (n + 1) = i + 1 + n by omega]; exact h9
    · rw [show i + (n + 1) = i + 1 + n by omega]; exact h10

/-- The difference of the magnitudes, aligned to the larger number of fractional units. -/
def subMant (a b : FixedDecimal) : Int :=
  1000000000 ^ (max (fu a) (fu b) - fu a) * mant a - 1000000000 ^ (max (fu a) (fu b) - fu b) * mant b

theorem subAbs_spec (m : Mode) {a b res : FixedDecimal} (ha : WF a) (hb : WF b)
    (hres : res.lsu.length = 9) (hfit : max (iu a) (iu b) + max (fu a) (fu b) ≤ 8) :
    ∃ r, subAbs m a b res = .ok (r, decide (subMant a b < 0)) ∧ WF r ∧ neg r = false ∧
      fracDigits r = max (fracDigits a) (fracDigits b) ∧
      intgDigits r = 9 * iu r ∧ mant r = |subMant a b| ∧ (0 < iu r → 0 < dg r.lsu (iu r - 1 + fu r)) := by
  have hfu : unitsFor (max (fracDigits a) (fracDigits b)) = max (fu a) (fu b) := unitsFor_max _ _
  have hsmdef : subMant a b = 1000000000 ^ (max (fu a) (fu b) - fu a) * mant a
    - 1000000000 ^ (max (fu a) (fu b) - fu b) * mant b := rfl
  set F := max (fu a) (fu b) with hFdef
  set I := max (iu a) (iu b) with hIdef
  have hfa : fu a ≤ F := le_max_left _ _
  have hfb : fu b ≤ F := le_max_right _ _
  have hia : iu a ≤ I := le_max_left _ _
  have hib : iu b ≤ I := le_max_right _ _
  have sfa := psum_al ha hfa (show iu a + F ≤ I + F by omega)
  have sfb := psum_al hb hfb (show iu b + F ≤ I + F by omega)
  have fit_a := ha.fits
  have fit_b := hb.fits
  have hsm : psum (al a F) (I + F) - psum (al b F) (I + F) = subMant a b := by
    rw [sfa, sfb]; rfl
  have stage1 : ∃ (rl : List Int) (li ri k : Nat) (c : Int),
      (if (fu a : Int) - (fu b : Int) > 0 then do
          let src ← slice a.lsu 0 ((fu a : Int) - (fu b : Int))
          let rl ← copyFromSlice FixedDecimal.zero.lsu 0 ((fu a : Int) - (fu b : Int)) src
          return (rl, (fu a : Int) - (fu b : Int), 0, (fu a : Int) - (fu b : Int), 0)
        else if (fu a : Int) - (fu b : Int) < 0 then do
          let (low, bw) ← subLow m (b.lsu.take (min (-((fu a : Int) - (fu b : Int))).toNat
            FixedDecimal.zero.lsu.length)) 0
          return (low ++ FixedDecimal.zero.lsu.drop low.length, 0, -((fu a : Int) - (fu b : Int)),
            -((fu a : Int) - (fu b : Int)), bw)
        else return (FixedDecimal.zero.lsu, 0, 0, 0, 0) :
          Out FixedDecimal (List Int × Int × Int × Int × Int)) =
            .ok (rl, (li : Int), (ri : Int), (k : Int), c) ∧
      SubInv (al a F) (al b F) rl c k ∧ k + min (fu a) (fu b) = F ∧
      li + (F - fu a) = k ∧ ri + (F - fu b) = k := by
    have hz9 : FixedDecimal.zero.lsu.length = 9 := rfl
    have hzz : ∀ p, dg FixedDecimal.zero.lsu p = 0 := fun p => dg_replicate
    rcases lt_trichotomy (fu a) (fu b) with h | h | h
    · rw [if_neg (by omega), if_pos (by omega)]
      have e : (-((fu a : Int) - (fu b : Int))) = ((fu b - fu a : Nat) : Int) := by omega
      rw [e, Int.toNat_natCast, hz9, min_eq_left (show fu b - fu a ≤ 9 by omega)]
      have hlt : (b.lsu.take (fu b - fu a)).length = fu b - fu a := by
        rw [List.length_take, hb.len]; omega
      obtain ⟨low, c', h5, h6, h7, h8, h9⟩ := subLow_spec (σ := FixedDecimal) m
        (b.lsu.take (fu b - fu a)) 0 (hb.digL.take _) (Or.inl rfl)
      rw [h5]; simp only [ok_bind, pure_ok]
      rw [hlt] at h6 h9
      have hdgl : ∀ p, dg (low ++ FixedDecimal.zero.lsu.drop low.length) p = dg low p := by
        intro p; rw [dg_append]
        split_ifs with hp
        · rfl
        · rw [dg_drop, hzz, dg_out (by omega)]
      refine ⟨_, 0, fu b - fu a, fu b - fu a, c', rfl, ?_, by omega, by omega, by omega⟩
      refine ⟨?_, h7.append (DigL.zeroUnits.drop _), h8, ?_, ?_⟩
      · rw [List.length_append, List.length_drop, hz9, h6]; omega
      · rw [psum_zero_of (f := al a F) (fun p hp => al_low (by omega))]
        rw [psum_congr (g := dg low) (fun p _ => hdgl p)]
        rw [unitsVal_eq_psum, h6] at h9
        rw [h9, unitsVal_take (by rw [hb.len]; omega)]
        congr 1
        exact psum_congr (fun p hp => (al_at (by omega)).symm)
      · intro p hp; rw [hdgl, dg_out (by omega)]
    · rw [if_neg (by omega), if_neg (by omega)]
      refine ⟨_, 0, 0, 0, 0, rfl, ⟨hz9, DigL.zeroUnits, Or.inl rfl, by simp, fun p _ => hzz p⟩,
        by omega, by omega, by omega⟩
    · rw [if_pos (by omega)]
      rw [slice_ok (by omega) (by omega) (by rw [ha.len]; omega)]
      simp only [ok_bind]
      have e : ((fu a : Int) - (fu b : Int)) = ((fu a - fu b : Nat) : Int) := by omega
      rw [e]
      simp only [Int.toNat_zero, List.drop_zero, Int.sub_zero, Int.toNat_natCast]
      rw [copyFromSlice_ok (by omega) (by omega) (by rw [hz9]; omega)
        (by rw [List.length_take, ha.len]; omega)]
      simp only [ok_bind, pure_ok, Int.toNat_zero, Int.toNat_natCast]
      have hlt : (a.lsu.take (fu a - fu b)).length = fu a - fu b := by
        rw [List.length_take, ha.len]; omega
      have hdg : ∀ p, dg (FixedDecimal.zero.lsu.take 0 ++ a.lsu.take (fu a - fu b)
          ++ FixedDecimal.zero.lsu.drop (fu a - fu b)) p =
          if p < fu a - fu b then dg a.lsu p else 0 := by
        intro p
        rw [List.take_zero, List.nil_append, dg_append, hlt]
        split_ifs with h1
        · rw [dg_take, if_pos h1]
        · rw [dg_drop]; exact hzz _
      refine ⟨FixedDecimal.zero.lsu.take 0 ++ a.lsu.take (fu a - fu b)
        ++ FixedDecimal.zero.lsu.drop (fu a - fu b), fu a - fu b, 0, fu a - fu b, 0, rfl, ?_,
        by omega, by omega, by omega⟩
      refine ⟨by simp [hlt, hz9]; omega, ?_, Or.inl rfl, ?_, ?_⟩
      · exact ((DigL.zeroUnits.take 0).append (ha.digL.take _)).append (DigL.zeroUnits.drop _)
      · rw [psum_zero_of (f := al b F) (fun p hp => al_low (by omega)), psum_congr (g := al a F)]
        · ring
        · intro p hp; rw [hdg, if_pos hp]; symm; exact al_at (by omega)
      · intro p hp; rw [hdg, if_neg (by omega)]
  obtain ⟨rl, li, ri, k, c1, hs1, hinv1, hk, hli, hri⟩ := stage1
  unfold subAbs
  rw [setZero_eq hres, ha.intgUnits, ha.fracUnits, hb.intgUnits, hb.fracUnits]
  simp only [ok_bind]
  rw [hs1]
  simp only [ok_bind]
  have hn : (min (iu a : Int) (iu b : Int) + min (fu a : Int) (fu b : Int)).toNat
      = min (iu a) (iu b) + min (fu a) (fu b) := by omega
  rw [hn]
  obtain ⟨rl2, c2, hs2, hinv2⟩ := subCommon_spec (σ := FixedDecimal) m a.lsu b.lsu (al a F) (al b F)
    (al_dig ha F) (al_dig hb F) (min (iu a) (iu b) + min (fu a) (fu b)) li ri k rl c1 hinv1
    (by omega) (by rw [ha.len]; omega) (by rw [hb.len]; omega)
    (fun t ht => (al_at (by omega)).symm) (fun t ht => (al_at (by omega)).symm)
  rw [hs2]
  simp only [ok_bind]
  have hk2 : k + (min (iu a) (iu b) + min (fu a) (fu b)) = min (iu a) (iu b) + F := by omega
  rw [hk2] at hinv2
  have en : (min (iu a : Int) (iu b : Int) + min (fu a : Int) (fu b : Int))
      = ((min (iu a) (iu b) + min (fu a) (fu b) : Nat) : Int) := by push_cast; rfl
  have ek : (k : Int) + (min (iu a : Int) (iu b : Int) + min (fu a : Int) (fu b : Int))
      = ((min (iu a) (iu b) + F : Nat) : Int) := by rw [en, ← hk2]; push_cast; ring
  rw [ek]
  have stage3 : ∃ rl3 c3, SubInv (al a F) (al b F) rl3 c3 (I + F) ∧
      (if (iu a : Int) - (iu b : Int) > 0 then do
        let (rl, c) ← subExtraL m a.lsu ((iu a : Int) - (iu b : Int)).toNat
          ((li : Int) + (min (iu a : Int) (iu b : Int) + min (fu a : Int) (fu b : Int)))
          ((min (iu a) (iu b) + F : Nat) : Int) rl2 c2
        return (rl, c, ((min (iu a) (iu b) + F : Nat) : Int) + ((iu a : Int) - (iu b : Int)))
      else if (iu a : Int) - (iu b : Int) < 0 then do
        let (rl, c) ← subExtraR m b.lsu (-((iu a : Int) - (iu b : Int))).toNat
          ((ri : Int) + (min (iu a : Int) (iu b : Int) + min (fu a : Int) (fu b : Int)))
          ((min (iu a) (iu b) + F : Nat) : Int) rl2 c2
        return (rl, c, ((min (iu a) (iu b) + F : Nat) : Int) - ((iu a : Int) - (iu b : Int)))
      else return (rl2, c2, ((min (iu a) (iu b) + F : Nat) : Int)) :
        Out FixedDecimal (List Int × Int × Int)) =
          .ok (rl3, c3, ((I + F : Nat) : Int)) := by
    rcases lt_trichotomy (iu a) (iu b) with h | h | h
    · rw [if_neg (by omega), if_pos (by omega)]
      obtain ⟨rl3, c3, hs3, hinv3⟩ := subExtraR_spec (σ := FixedDecimal) m b.lsu (al a F) (al b F)
        (al_dig hb F) (iu b - iu a) (ri + (min (iu a) (iu b) + min (fu a) (fu b)))
        (min (iu a) (iu b) + F) rl2 c2 hinv2 (by omega) (by rw [hb.len]; omega)
        (fun t ht => (al_at (by omega)).symm) (fun t ht => al_high ha hfa (by omega))
      have e1 : (-((iu a : Int) - (iu b : Int))).toNat = iu b - iu a := by omega
      have e2 : (ri : Int) + (min (iu a : Int) (iu b : Int) + min (fu a : Int) (fu b : Int))
        = ((ri + (min (iu a) (iu b) + min (fu a) (fu b)) : Nat) : Int) := by push_cast; rfl
      have e3 : ((min (iu a) (iu b) + F : Nat) : Int) - ((iu a : Int) - (iu b : Int)) = ((I + F : Nat) : Int) := by
        omega
      have e4 : min (iu a) (iu b) + F + (iu b - iu a) = I + F := by omega
      rw [e4] at hinv3
      refine ⟨rl3, c3, hinv3, ?_⟩
      rw [e1, e2, hs3]; simp only [ok_bind]
      rw [e3]; rfl
    · rw [if_neg (by omega), if_neg (by omega)]
      have e4 : min (iu a) (iu b) + F = I + F := by omega
      rw [e4] at hinv2
      refine ⟨rl2, c2, hinv2, ?_⟩
      rw [e4]; rfl
    · rw [if_pos (by omega)]
      obtain ⟨rl3, c3, hs3, hinv3⟩ := subExtraL_spec (σ := FixedDecimal) m a.lsu (al a F) (al b F)
        (al_dig ha F) (iu a - iu b) (li + (min (iu a) (iu b) + min (fu a) (fu b)))
        (min (iu a) (iu b) + F) rl2 c2 hinv2 (by omega) (by rw [ha.len]; omega)
        (fun t ht => (al_at (by omega)).symm) (fun t ht => al_high hb hfb (by omega))
      have e1 : ((iu a : Int) - (iu b : Int)).toNat = iu a - iu b := by omega
      have e2 : (li : Int) + (min (iu a : Int) (iu b : Int) + min (fu a : Int) (fu b : Int))
        = ((li + (min (iu a) (iu b) + min (fu a) (fu b)) : Nat) : Int) := by push_cast; rfl
      have e3 : ((min (iu a) (iu b) + F : Nat) : Int) + ((iu a : Int) - (iu b : Int)) = ((I + F : Nat) : Int) := by
        omega
      have e4 : min (iu a) (iu b) + F + (iu a - iu b) = I + F := by omega
      rw [e4] at hinv3
      refine ⟨rl3, c3, hinv3, ?_⟩
      rw [e1, e2, hs3]; simp only [ok_bind]
      rw [e3]; rfl
  obtain ⟨rl3, c3, hinv3, hs3⟩ := stage3
  rw [hs3]
  simp only [ok_bind]
  rw [Int.toNat_natCast]
  have hs := hinv3.sum
  rw [hsm] at hs
  have hlt := psum_lt hinv3.dig.dig (I + F)
  have hge := psum_nonneg hinv3.dig.dig (I + F)
  have hBpos : (0 : Int) < 1000000000 ^ (I + F) := by positivity
  -- the negation pass
  have stage4 : ∃ lf, (if (c3 == -1) = true then negLoop m (I + F) 0 rl3 0 else .ok rl3 :
      Out FixedDecimal (List Int)) = .ok lf ∧ lf.length = 9 ∧ DigL lf ∧
      (c3 == -1) = decide (subMant a b < 0) ∧ psum (dg lf) (I + F) = |subMant a b| ∧
      ∀ p, I + F ≤ p → dg lf p = 0 := by
    rcases hinv3.carry with h | h
    · subst h
      have h0 : 0 ≤ subMant a b := by linarith
      refine ⟨rl3, by simp, hinv3.len, hinv3.dig, ?_, ?_, hinv3.rest⟩
      · symm; simpa using h0
      · rw [abs_of_nonneg h0]; linarith
    · subst h
      have h0 : subMant a b < 0 := by linarith
      obtain ⟨res', c', n1, n2, n3, n4, n5, n6⟩ := negLoop_spec (σ := FixedDecimal) m (dg rl3) hinv3.dig.dig
        (I + F) 0 rl3 0 hinv3.len hinv3.dig (Or.inl rfl) (by omega) (fun p _ => rfl) (by simp)
      rw [Nat.zero_add] at n5 n6
      refine ⟨res', by simpa using n1, n2, n3, ?_, ?_, ?_⟩
      · simp [h0]
      · rw [abs_of_neg h0]
        have hb1 := psum_lt n3.dig (I + F)
        have hb2 := psum_nonneg n3.dig (I + F)
        have hbb := psum_lt (al_dig hb F) (I + F)
        have haa := psum_nonneg (al_dig ha F) (I + F)
        rcases n4 with n4 | n4
        · subst n4; exfalso
          linarith
        · subst n4; linarith
      · intro p hp; rw [n6 p hp]; exact hinv3.rest p hp
  obtain ⟨lf, hs4, hlen, hdigL, hneg, hmant, hzero⟩ := stage4
  rw [hs4]
  simp only [ok_bind]
  rw [maxfrac_eq ha hb]
  have hcnt : (max (iu a : Int) (iu b : Int) + 1).toNat = I + 1 := by omega
  rw [hcnt]
  have hmax : max (fracDigits a) (fracDigits b) ≤ 81 := by
    have := ha.frac_le; have := hb.frac_le; omega
  obtain ⟨r, h1, h2, h3, h4, h5, h6, h7⟩ := addTail_spec m (lf := lf) (f := max (fracDigits a) (fracDigits b))
    (n := I + 1) hlen hdigL hmax (by rw [hfu]; omega) (fun p hp => hzero p (by rw [hfu] at hp; omega))
  refine ⟨r, ?_, h2, h3, h4, h5, ?_, h7⟩
  · rw [← hneg]
    unfold addTail at h1
    rw [addTail_fu m hmax] at h1 ⊢
    simp only [ok_bind] at h1 ⊢
    obtain ⟨t, ht, ht'⟩ := bind_eq_ok.mp h1
    rw [ht]
    simp only [ok_bind]
    split_ifs at ht' ⊢ with h
    · simp only [pure_ok, Out.ok.injEq] at ht' ⊢
      rw [← ht']
    · simp only [pure_ok, Out.ok.injEq] at ht' ⊢
      rw [← ht']
  · rw [h6, ← hmant]
    exact psum_extend (by omega) (fun i h1 _ => hzero i h1)

/-! ## Failures -/

theorem addWithCarry_carry {σ : Type} {m : Mode} {a b c r c' : Int}
    (h : (addWithCarry m a b c : Out σ _) = .ok (r, c')) : c' = 0 ∨ c' = 1 := by
  unfold addWithCarry at h
  obtain ⟨x, _, h⟩ := bind_eq_ok.mp h
  obtain ⟨y, _, h⟩ := bind_eq_ok.mp h
  split_ifs at h
  · obtain ⟨z, _, h⟩ := bind_eq_ok.mp h
    simp at h; omega
  · simp at h; omega

theorem addCommon_inv {σ : Type} {m : Mode} {l r : List Int} : ∀ {n : Nat} {i j k : Int} {res res' : List Int}
    {c c' : Int}, (c = 0 ∨ c = 1) → (addCommon m l r n i j k res c : Out σ _) = .ok (res', c') →
    res'.length = res.length ∧ (c' = 0 ∨ c' = 1) := by
  intro n
  induction n with
  | zero => intro i j k res res' c c' hc h; simp [addCommon] at h; rw [← h.1, ← h.2]; exact ⟨rfl, hc⟩
  | succ n ih =>
    intro i j k res res' c c' hc h
    rw [addCommon] at h
    obtain ⟨x, _, h⟩ := bind_eq_ok.mp h
    obtain ⟨y, _, h⟩ := bind_eq_ok.mp h
    obtain ⟨⟨r0, c0⟩, h1, h⟩ := bind_eq_ok.mp h
    obtain ⟨z, h2, h⟩ := bind_eq_ok.mp h
    obtain ⟨_, _, hz⟩ := upd_eq_ok h2
    obtain ⟨e1, e2⟩ := ih (addWithCarry_carry h1) h
    exact ⟨by rw [e1, hz, List.length_set], e2⟩

theorem addExtra_inv {σ : Type} {m : Mode} {l : List Int} : ∀ {n : Nat} {i k : Int} {res res' : List Int}
    {c c' : Int}, (c = 0 ∨ c = 1) → (addExtra m l n i k res c : Out σ _) = .ok (res', c') →
    res'.length = res.length ∧ (c' = 0 ∨ c' = 1) := by
  intro n
  induction n with
  | zero => intro i k res res' c c' hc h; simp [addExtra] at h; rw [← h.1, ← h.2]; exact ⟨rfl, hc⟩
  | succ n ih =>
    intro i k res res' c c' hc h
    rw [addExtra] at h
    obtain ⟨x, _, h⟩ := bind_eq_ok.mp h
    obtain ⟨⟨r0, c0⟩, h1, h⟩ := bind_eq_ok.mp h
    obtain ⟨z, h2, h⟩ := bind_eq_ok.mp h
    obtain ⟨_, _, hz⟩ := upd_eq_ok h2
    obtain ⟨e1, e2⟩ := ih (addWithCarry_carry h1) h
    exact ⟨by rw [e1, hz, List.length_set], e2⟩

theorem copyFromSlice_len {σ : Type} {d d' s : List Int} {a b : Int}
    (h : (copyFromSlice d a b s : Out σ _) = .ok d') : d'.length = d.length := by
  unfold copyFromSlice at h
  split_ifs at h with hc
  simp at h
  rw [← h]; simp; omega

theorem findTop_first {σ : Type} {l : List Int} {F : Nat} {n : Nat} {t : Int}
    (h : (findTop l (F : Int) (n + 1) : Out σ Int) = .ok t) : n + F < l.length := by
  rw [findTop] at h
  obtain ⟨v, h1, h⟩ := bind_eq_ok.mp h
  have := idx_eq_ok h1
  omega

/-- `add_abs` completes only when the result, with a spare unit, fits in nine units. -/
theorem addAbs_inv {m : Mode} {a b res r : FixedDecimal} (ha : WF a) (hb : WF b)
    (hres : res.lsu.length = 9) (h : addAbs m a b res = .ok r) :
    max (iu a) (iu b) + max (fu a) (fu b) ≤ 8 := by
  have hfu : unitsFor (max (fracDigits a) (fracDigits b)) = max (fu a) (fu b) := unitsFor_max _ _
  have hmax : max (fracDigits a) (fracDigits b) ≤ 81 := by
    have := ha.frac_le; have := hb.frac_le; omega
  unfold addAbs at h
  rw [setZero_eq hres, ha.intgUnits, ha.fracUnits, hb.intgUnits, hb.fracUnits] at h
  simp only [ok_bind] at h
  obtain ⟨⟨rl, li, ri, k⟩, h1, h⟩ := bind_eq_ok.mp h
  have hl1 : rl.length = 9 := by
    split_ifs at h1
    · obtain ⟨s, _, h1⟩ := bind_eq_ok.mp h1
      obtain ⟨d, h2, h1⟩ := bind_eq_ok.mp h1
      simp at h1; rw [← h1.1, copyFromSlice_len h2]; rfl
    · obtain ⟨s, _, h1⟩ := bind_eq_ok.mp h1
      obtain ⟨d, h2, h1⟩ := bind_eq_ok.mp h1
      simp at h1; rw [← h1.1, copyFromSlice_len h2]; rfl
    · simp at h1; rw [← h1.1]; rfl
  dsimp only at h
  obtain ⟨⟨rl2, c2⟩, h2, h⟩ := bind_eq_ok.mp h
  obtain ⟨hl2, hc2⟩ := addCommon_inv (Or.inl rfl) h2
  dsimp only at h
  obtain ⟨⟨rl3, c3⟩, h3, h⟩ := bind_eq_ok.mp h
  have hl3 : rl3.length = 9 ∧ (c3 = 0 ∨ c3 = 1) := by
    split_ifs at h3
    all_goals try
      obtain ⟨⟨rl4, c4⟩, h4, h3⟩ := bind_eq_ok.mp h3
      obtain ⟨hl4, hc4⟩ := addExtra_inv hc2 h4
      dsimp only at h3
      obtain ⟨rl5, h5, h3⟩ := bind_eq_ok.mp h3
      simp at h3
      rw [← h3.1, ← h3.2]
      refine ⟨?_, hc4⟩
      split_ifs at h5
      · obtain ⟨_, _, hz⟩ := upd_eq_ok h5
        rw [hz, List.length_set, hl4, hl2, hl1]
      · simp at h5; rw [← h5, hl4, hl2, hl1]
    all_goals
      obtain ⟨rl5, h5, h3⟩ := bind_eq_ok.mp h3
      simp at h3
      rw [← h3.1, ← h3.2]
      refine ⟨?_, hc2⟩
      first
        | (obtain ⟨_, _, hz⟩ := upd_eq_ok h5
           rw [hz, List.length_set, hl2, hl1])
        | (simp at h5; rw [← h5, hl2, hl1])
  dsimp only at h
  rw [maxfrac_eq ha hb, addTail_fu m hmax, hfu] at h
  simp only [ok_bind] at h
  obtain ⟨t, h6, _⟩ := bind_eq_ok.mp h
  have hcnt : (max (iu a : Int) (iu b : Int) + c3 + 1).toNat = max (iu a) (iu b) + c3.toNat + 1 := by
    rcases hl3.2 with h | h <;> rw [h] <;> omega
  rw [hcnt] at h6
  have := findTop_first h6
  omega

theorem subLow_len {σ : Type} {m : Mode} : ∀ {rv low : List Int} {c c' : Int},
    (subLow m rv c : Out σ _) = .ok (low, c') → low.length = rv.length := by
  intro rv
  induction rv with
  | nil => intro low c c' h; simp [subLow] at h; rw [← h.1]
  | cons v vs ih =>
    intro low c c' h
    rw [subLow] at h
    obtain ⟨⟨r0, c0⟩, h1, h⟩ := bind_eq_ok.mp h
    obtain ⟨⟨l0, c1⟩, h2, h⟩ := bind_eq_ok.mp h
    simp at h
    rw [← h.1, List.length_cons, List.length_cons, ih h2]

theorem subCommon_inv {σ : Type} {m : Mode} {l r : List Int} : ∀ {n : Nat} {i j k : Int} {res res' : List Int}
    {c c' : Int}, (subCommon m l r n i j k res c : Out σ _) = .ok (res', c') →
    res'.length = res.length := by
  intro n
  induction n with
  | zero => intro i j k res res' c c' h; simp [subCommon] at h; rw [← h.1]
  | succ n ih =>
    intro i j k res res' c c' h
    rw [subCommon] at h
    obtain ⟨x, _, h⟩ := bind_eq_ok.mp h
    obtain ⟨y, _, h⟩ := bind_eq_ok.mp h
    obtain ⟨⟨r0, c0⟩, h1, h⟩ := bind_eq_ok.mp h
    obtain ⟨z, h2, h⟩ := bind_eq_ok.mp h
    obtain ⟨_, _, hz⟩ := upd_eq_ok h2
    rw [ih h, hz, List.length_set]

theorem subExtraL_inv {σ : Type} {m : Mode} {l : List Int} : ∀ {n : Nat} {i k : Int} {res res' : List Int}
    {c c' : Int}, (subExtraL m l n i k res c : Out σ _) = .ok (res', c') →
    res'.length = res.length := by
  intro n
  induction n with
  | zero => intro i k res res' c c' h; simp [subExtraL] at h; rw [← h.1]
  | succ n ih =>
    intro i k res res' c c' h
    rw [subExtraL] at h
    obtain ⟨x, _, h⟩ := bind_eq_ok.mp h
    obtain ⟨⟨r0, c0⟩, h1, h⟩ := bind_eq_ok.mp h
    obtain ⟨z, h2, h⟩ := bind_eq_ok.mp h
    obtain ⟨_, _, hz⟩ := upd_eq_ok h2
    rw [ih h, hz, List.length_set]

theorem subExtraR_inv {σ : Type} {m : Mode} {l : List Int} : ∀ {n : Nat} {i k : Int} {res res' : List Int}
    {c c' : Int}, (subExtraR m l n i k res c : Out σ _) = .ok (res', c') →
    res'.length = res.length := by
  intro n
  induction n with
  | zero => intro i k res res' c c' h; simp [subExtraR] at h; rw [← h.1]
  | succ n ih =>
    intro i k res res' c c' h
    rw [subExtraR] at h
    obtain ⟨x, _, h⟩ := bind_eq_ok.mp h
    obtain ⟨⟨r0, c0⟩, h1, h⟩ := bind_eq_ok.mp h
    obtain ⟨z, h2, h⟩ := bind_eq_ok.mp h
    obtain ⟨_, _, hz⟩ := upd_eq_ok h2
    rw [ih h, hz, List.length_set]

theorem negLoop_inv {σ : Type} {m : Mode} : ∀ {n : Nat} {i : Int} {res res' : List Int}
    {c : Int}, (negLoop m n i res c : Out σ _) = .ok res' → res'.length = res.length := by
  intro n
  induction n with
  | zero => intro i res res' c h; simp [negLoop] at h; rw [← h]
  | succ n ih =>
    intro i res res' c h
    rw [negLoop] at h
    obtain ⟨x, _, h⟩ := bind_eq_ok.mp h
    obtain ⟨⟨r0, c0⟩, h1, h⟩ := bind_eq_ok.mp h
    obtain ⟨z, h2, h⟩ := bind_eq_ok.mp h
    obtain ⟨_, _, hz⟩ := upd_eq_ok h2
    rw [ih h, hz, List.length_set]

theorem subAbs_inv {m : Mode} {a b res r : FixedDecimal} {ng : Bool} (ha : WF a) (hb : WF b)
    (hres : res.lsu.length = 9) (h : subAbs m a b res = .ok (r, ng)) :
    max (iu a) (iu b) + max (fu a) (fu b) ≤ 8 := by
  have hfu : unitsFor (max (fracDigits a) (fracDigits b)) = max (fu a) (fu b) := unitsFor_max _ _
  have hmax : max (fracDigits a) (fracDigits b) ≤ 81 := by
    have := ha.frac_le; have := hb.frac_le; omega
  unfold subAbs at h
  rw [setZero_eq hres, ha.intgUnits, ha.fracUnits, hb.intgUnits, hb.fracUnits] at h
  simp only [ok_bind] at h
  obtain ⟨⟨rl, li, ri, k, bw⟩, h1, h⟩ := bind_eq_ok.mp h
  have hz9 : FixedDecimal.zero.lsu.length = 9 := rfl
  have hl1 : rl.length = 9 := by
    split_ifs at h1
    · obtain ⟨s, _, h1⟩ := bind_eq_ok.mp h1
      obtain ⟨d, h2, h1⟩ := bind_eq_ok.mp h1
      simp at h1; rw [← h1.1, copyFromSlice_len h2]; rfl
    · obtain ⟨⟨s, c⟩, h2, h1⟩ := bind_eq_ok.mp h1
      simp at h1
      have := subLow_len h2
      rw [List.length_take, hb.len, hz9] at this
      rw [← h1.1, List.length_append, List.length_drop, hz9]; omega
    · simp at h1; rw [← h1.1]; rfl
  dsimp only at h
  obtain ⟨⟨rl2, c2⟩, h2, h⟩ := bind_eq_ok.mp h
  have hl2 := subCommon_inv h2
  dsimp only at h
  obtain ⟨⟨rl3, c3, ix⟩, h3, h⟩ := bind_eq_ok.mp h
  have hl3 : rl3.length = 9 := by
    split_ifs at h3
    · obtain ⟨⟨rl4, c4⟩, h4, h3⟩ := bind_eq_ok.mp h3
      simp at h3
      rw [← h3.1, subExtraL_inv h4, hl2, hl1]
    · obtain ⟨⟨rl4, c4⟩, h4, h3⟩ := bind_eq_ok.mp h3
      simp at h3
      rw [← h3.1, subExtraR_inv h4, hl2, hl1]
    · simp at h3
      rw [← h3.1, hl2, hl1]
  dsimp only at h
  obtain ⟨lf, h4, h⟩ := bind_eq_ok.mp h
  have hl4 : lf.length = 9 := by
    split_ifs at h4
    · rw [negLoop_inv h4, hl3]
    · simp at h4; rw [← h4, hl3]
  rw [maxfrac_eq ha hb, addTail_fu m hmax, hfu] at h
  simp only [ok_bind] at h
  obtain ⟨t, h6, _⟩ := bind_eq_ok.mp h
  have hcnt : (max (iu a : Int) (iu b : Int) + 1).toNat = max (iu a) (iu b) + 1 := by omega
  rw [hcnt] at h6
  have := findTop_first h6
  omega

/-! ## No `Err` -/

section
variable {σ : Type} {m : Mode}
theorem NoErr.addWithCarry {a b c : Int} : NoErr (addWithCarry m a b c : Out σ _) :=
  .bind .i32 fun _ _ => .bind .i32 fun _ _ => .ite (fun _ => .bind .i32 fun _ _ => .ok) (fun _ => .ok)
theorem NoErr.subWithBorrow {a b c : Int} : NoErr (subWithBorrow m a b c : Out σ _) :=
  .bind .i32 fun _ _ => .bind .i32 fun _ _ => .ite (fun _ => .bind .i32 fun _ _ => .ok) (fun _ => .ok)
theorem NoErr.addCommon {l r : List Int} : ∀ {n : Nat} {i j k : Int} {res : List Int} {c : Int},
    NoErr (addCommon m l r n i j k res c : Out σ _)
  | 0, _, _, _, _, _ => .ok
  | _ + 1, _, _, _, _, _ => .bind .idx fun _ _ => .bind .idx fun _ _ => .bind .addWithCarry fun _ _ =>
      .bind .upd fun _ _ => NoErr.addCommon
theorem NoErr.addExtra {l : List Int} : ∀ {n : Nat} {i k : Int} {res : List Int} {c : Int},
    NoErr (addExtra m l n i k res c : Out σ _)
  | 0, _, _, _, _ => .ok
  | _ + 1, _, _, _, _ => .bind .idx fun _ _ => .bind .addWithCarry fun _ _ =>
      .bind .upd fun _ _ => NoErr.addExtra
theorem NoErr.findTop {l : List Int} {F : Int} : ∀ {n : Nat}, NoErr (findTop l F n : Out σ _)
  | 0 => .ok
  | _ + 1 => .bind .idx fun _ _ => .ite (fun _ => .ok) (fun _ => NoErr.findTop)
theorem NoErr.subLow : ∀ {l : List Int} {c : Int}, NoErr (subLow m l c : Out σ _)
  | [], _ => .ok
  | _ :: _, _ => .bind .subWithBorrow fun _ _ => .bind NoErr.subLow fun _ _ => .ok
theorem NoErr.subCommon {l r : List Int} : ∀ {n : Nat} {i j k : Int} {res : List Int} {c : Int},
    NoErr (subCommon m l r n i j k res c : Out σ _)
  | 0, _, _, _, _, _ => .ok
  | _ + 1, _, _, _, _, _ => .bind .idx fun _ _ => .bind .idx fun _ _ => .bind .subWithBorrow fun _ _ =>
      .bind .upd fun _ _ => NoErr.subCommon
theorem NoErr.subExtraL {l : List Int} : ∀ {n : Nat} {i k : Int} {res : List Int} {c : Int},
    NoErr (subExtraL m l n i k res c : Out σ _)
  | 0, _, _, _, _ => .ok
  | _ + 1, _, _, _, _ => .bind .idx fun _ _ => .bind .subWithBorrow fun _ _ =>
      .bind .upd fun _ _ => NoErr.subExtraL
theorem NoErr.subExtraR {l : List Int} : ∀ {n : Nat} {i k : Int} {res : List Int} {c : Int},
    NoErr (subExtraR m l n i k res c : Out σ _)
  | 0, _, _, _, _ => .ok
  | _ + 1, _, _, _, _ => .bind .idx fun _ _ => .bind .subWithBorrow fun _ _ =>
      .bind .upd fun _ _ => NoErr.subExtraR
theorem NoErr.negLoop : ∀ {n : Nat} {i : Int} {res : List Int} {c : Int},
    NoErr (negLoop m n i res c : Out σ _)
  | 0, _, _, _ => .ok
  | _ + 1, _, _, _ => .bind .idx fun _ _ => .bind .subWithBorrow fun _ _ =>
      .bind .upd fun _ _ => NoErr.negLoop

theorem NoErr.addAbs {a b res : FixedDecimal} : NoErr (addAbs m a b res) :=
  .bind .intgUnits fun _ _ => .bind .fracUnits fun _ _ => .bind .intgUnits fun _ _ =>
  .bind .fracUnits fun _ _ => .bind
    (.ite (fun _ => .bind .slice fun _ _ => .bind .copyFromSlice fun _ _ => .ok)
      (fun _ => .ite (fun _ => .bind .slice fun _ _ => .bind .copyFromSlice fun _ _ => .ok) (fun _ => .ok)))
  fun _ _ => .bind .addCommon fun _ _ => .bind
    (.ite (fun _ => .bind .addExtra fun _ _ => .bind (.ite (fun _ => .upd) (fun _ => .ok)) fun _ _ => .ok)
      (fun _ => .ite
        (fun _ => .bind .addExtra fun _ _ => .bind (.ite (fun _ => .upd) (fun _ => .ok)) fun _ _ => .ok)
        (fun _ => .bind (.ite (fun _ => .upd) (fun _ => .ok)) fun _ _ => .ok)))
  fun _ _ => .bind .fracUnits fun _ _ => .bind .findTop fun _ _ => .ite (fun _ => .ok) (fun _ => .ok)

theorem NoErr.subAbs {a b res : FixedDecimal} : NoErr (subAbs m a b res) :=
  .bind .intgUnits fun _ _ => .bind .fracUnits fun _ _ => .bind .intgUnits fun _ _ =>
  .bind .fracUnits fun _ _ => .bind
    (.ite (fun _ => .bind .slice fun _ _ => .bind .copyFromSlice fun _ _ => .ok)
      (fun _ => .ite (fun _ => .bind .subLow fun _ _ => .ok) (fun _ => .ok)))
  fun _ _ => .bind .subCommon fun _ _ => .bind
    (.ite (fun _ => .bind .subExtraL fun _ _ => .ok)
      (fun _ => .ite (fun _ => .bind .subExtraR fun _ _ => .ok) (fun _ => .ok)))
  fun _ _ => .bind (.ite (fun _ => .negLoop) (fun _ => .ok)) fun _ _ =>
  .bind .fracUnits fun _ _ => .bind .findTop fun _ _ => .ite (fun _ => .ok) (fun _ => .ok)
end

end Fxd
