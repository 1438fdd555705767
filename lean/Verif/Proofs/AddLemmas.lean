import Verif.Model.AddSub
import Verif.Proofs.Dec
/-!
# Lemmas about addition and subtraction of magnitudes
-/

namespace Fxd
open Spec

/-! ## One unit -/

theorem addWithCarry_spec {σ : Type} (m : Mode) {a b c : Int} (ha : 0 ≤ a ∧ a < 1000000000)
    (hb : 0 ≤ b ∧ b < 1000000000) (hc : c = 0 ∨ c = 1) :
    ∃ r c', (addWithCarry m a b c : Out σ _) = .ok (r, c') ∧ (0 ≤ r ∧ r < 1000000000) ∧
      (c' = 0 ∨ c' = 1) ∧ r + c' * 1000000000 = a + b + c := by
  unfold addWithCarry UNIT
  rw [i32_ok (by omega) (by omega)]
  simp only [ok_bind]
  rw [i32_ok (by omega) (by omega)]
  simp only [ok_bind]
  split_ifs with h
  · rw [i32_ok (by omega) (by omega)]
    exact ⟨_, _, rfl, by omega, by omega, by omega⟩
  · exact ⟨_, _, rfl, by omega, by omega, by omega⟩

theorem subWithBorrow_spec {σ : Type} (m : Mode) {a b c : Int} (ha : 0 ≤ a ∧ a < 1000000000)
    (hb : 0 ≤ b ∧ b < 1000000000) (hc : c = 0 ∨ c = -1) :
    ∃ r c', (subWithBorrow m a b c : Out σ _) = .ok (r, c') ∧ (0 ≤ r ∧ r < 1000000000) ∧
      (c' = 0 ∨ c' = -1) ∧ r + c' * 1000000000 = a - b + c := by
  unfold subWithBorrow UNIT
  rw [i32_ok (by omega) (by omega)]
  simp only [ok_bind]
  rw [i32_ok (by omega) (by omega)]
  simp only [ok_bind]
  split_ifs with h
  · rw [i32_ok (by omega) (by omega)]
    exact ⟨_, _, rfl, by omega, by omega, by omega⟩
  · exact ⟨_, _, rfl, by omega, by omega, by omega⟩

/-! ## Aligned digits -/

/-- Digit `p` of decimal `d` when written with `F` fractional units. -/
def al (d : FixedDecimal) (F p : Nat) : Int := if p < F - fu d then 0 else dg d.lsu (p - (F - fu d))

theorem al_dig {d : FixedDecimal} (h : WF d) (F : Nat) : Dig (al d F) := by
  intro i; unfold al; split_ifs
  · norm_num
  · exact h.dig _

theorem psum_al {d : FixedDecimal} (h : WF d) {F n : Nat} (hF : fu d ≤ F) (hn : iu d + F ≤ n) :
    psum (al d F) n = 1000000000 ^ (F - fu d) * mant d := by
  rw [psum_split (show F - fu d ≤ n by omega), psum_zero_of (fun i hi => by simp [al, hi]), zero_add]
  congr 1
  rw [h.mant_eq, ← psum_extend (show iu d + fu d ≤ n - (F - fu d) by omega)
    (fun i h1 _ => h.highDg h1)]
  apply psum_congr
  intro i hi
  unfold al
  rw [if_neg (by omega)]
  congr 1; omega

theorem al_high {d : FixedDecimal} (h : WF d) {F p : Nat} (hF : fu d ≤ F) (hp : iu d + F ≤ p) :
    al d F p = 0 := by
  unfold al; rw [if_neg (by omega)]; exact h.highDg (by omega)

theorem al_at {d : FixedDecimal} {F p i : Nat} (hp : p = i + (F - fu d)) : al d F p = dg d.lsu i := by
  unfold al; rw [if_neg (by omega)]; congr 1; omega

theorem al_low {d : FixedDecimal} {F p : Nat} (hp : p < F - fu d) : al d F p = 0 := by
  unfold al; rw [if_pos hp]

/-! ## The addition loops -/

/-- Loop invariant: `c` carried out of the first `k` units; `k` units done; the rest of `res` untouched. -/
structure AddInv (f g : Nat → Int) (res : List Int) (c : Int) (k : Nat) : Prop where
  len : res.length = 9
  dig : DigL res
  carry : c = 0 ∨ c = 1
  sum : psum (dg res) k + c * 1000000000 ^ k = psum f k + psum g k
  rest : ∀ p, k ≤ p → dg res p = 0

theorem AddInv.step {f g : Nat → Int} {res : List Int} {c r c' : Int} {k : Nat} (h : AddInv f g res c k)
    (hk : k < 9) (hr : 0 ≤ r ∧ r < 1000000000) (hc' : c' = 0 ∨ c' = 1)
    (he : r + c' * 1000000000 = f k + g k + c) : AddInv f g (res.set k r) c' (k + 1) := by
  refine ⟨by simp [h.len], h.dig.set hr, hc', ?_, ?_⟩
  · rw [psum_succ, psum_succ, psum_succ, psum_set_ge (le_refl k), dg_set_self (by rw [h.len]; exact hk),
      pow_succ]
    have := h.sum
    have he' : (r + c' * 1000000000) * 1000000000 ^ k = (f k + g k + c) * 1000000000 ^ k := by rw [he]
    linarith
  · intro p hp; rw [dg_set_ne (by omega)]; exact h.rest p (by omega)

theorem addCommon_spec {σ : Type} (m : Mode) (l r : List Int) (f g : Nat → Int)
    (hf : Dig f) (hg : Dig g) : ∀ (n i j k : Nat) (res : List Int) (c : Int),
    AddInv f g res c k → k + n ≤ 9 → i + n ≤ l.length → j + n ≤ r.length →
    (∀ t < n, dg l (i + t) = f (k + t)) → (∀ t < n, dg r (j + t) = g (k + t)) →
    ∃ res' c', (addCommon m l r n (i : Int) (j : Int) (k : Int) res c : Out σ _) = .ok (res', c') ∧
      AddInv f g res' c' (k + n) := by
  intro n
  induction n with
  | zero => intro i j k res c h _ _ _ _ _; exact ⟨res, c, rfl, h⟩
  | succ n ih =>
    intro i j k res c h hk hi hj hl hr
    rw [addCommon, idx_nat (by omega), idx_nat (by omega)]
    have e1 : dg l i = f k := hl 0 (by omega)
    have e2 : dg r j = g k := hr 0 (by omega)
    simp only [ok_bind, e1, e2]
    obtain ⟨r0, c0, h1, h2, h3, h4⟩ := addWithCarry_spec (σ := σ) m (hf k) (hg k) h.carry
    rw [h1]; simp only [ok_bind]
    rw [upd_nat (by rw [h.len]; omega)]; simp only [ok_bind]
    obtain ⟨res', c', h5, h6⟩ := ih (i + 1) (j + 1) (k + 1) _ c0 (h.step (by omega) h2 h3 h4)
      (by omega) (by omega) (by omega)
      (fun t ht => by rw [show i + 1 + t = i + (t + 1) by omega, hl (t + 1) (by omega)]; congr 1; omega)
      (fun t ht => by rw [show j + 1 + t = j + (t + 1) by omega, hr (t + 1) (by omega)]; congr 1; omega)
    refine ⟨res', c', ?_, by rw [show k + (n + 1) = k + 1 + n by omega]; exact h6⟩
    rw [← h5]; push_cast; rfl

theorem addExtra_spec {σ : Type} (m : Mode) (l : List Int) (f g : Nat → Int)
    (hf : Dig f) : ∀ (n i k : Nat) (res : List Int) (c : Int),
    AddInv f g res c k → k + n ≤ 9 → i + n ≤ l.length →
    (∀ t < n, dg l (i + t) = f (k + t)) → (∀ t < n, g (k + t) = 0) →
    ∃ res' c', (addExtra m l n (i : Int) (k : Int) res c : Out σ _) = .ok (res', c') ∧
      AddInv f g res' c' (k + n) := by
  intro n
  induction n with
  | zero => intro i k res c h _ _ _ _; exact ⟨res, c, rfl, h⟩
  | succ n ih =>
    intro i k res c h hk hi hl hr
    rw [addExtra, idx_nat (by omega)]
    have e1 : dg l i = f k := hl 0 (by omega)
    have e2 : g k = 0 := hr 0 (by omega)
    simp only [ok_bind, e1]
    obtain ⟨r0, c0, h1, h2, h3, h4⟩ := addWithCarry_spec (σ := σ) m (hf k) (b := 0) (by norm_num) h.carry
    rw [h1]; simp only [ok_bind]
    rw [upd_nat (by rw [h.len]; omega)]; simp only [ok_bind]
    obtain ⟨res', c', h5, h6⟩ := ih (i + 1) (k + 1) _ c0 (h.step (by omega) h2 h3 (by rw [e2]; exact h4))
      (by omega) (by omega)
      (fun t ht => by rw [show i + 1 + t = i + (t + 1) by omega, hl (t + 1) (by omega)]; congr 1; omega)
      (fun t ht => by rw [show k + 1 + t = k + (t + 1) by omega]; exact hr (t + 1) (by omega))
    refine ⟨res', c', ?_, by rw [show k + (n + 1) = k + 1 + n by omega]; exact h6⟩
    rw [← h5]; push_cast; rfl

theorem AddInv.swap {f g : Nat → Int} {res : List Int} {c : Int} {k : Nat} (h : AddInv f g res c k) :
    AddInv g f res c k := ⟨h.len, h.dig, h.carry, by rw [h.sum]; ring, h.rest⟩

/-! ## The leading unit -/

theorem findTop_spec {σ : Type} (l : List Int) (F : Nat) (hd : Dig (dg l)) : ∀ n : Nat, n + F ≤ l.length →
    ∃ t : Nat, t ≤ n ∧ (findTop l (F : Int) n : Out σ Int) = .ok ((t : Int) - 1) ∧
      (∀ p, t ≤ p → p < n → dg l (p + F) = 0) ∧ (0 < t → 0 < dg l (t - 1 + F)) := by
  intro n
  induction n with
  | zero => intro _; exact ⟨0, le_refl _, by simp [findTop], fun p h1 h2 => by omega, fun h => by omega⟩
  | succ n ih =>
    intro hn
    rw [findTop]
    have e : ((n : Int) + (F : Int)) = ((n + F : Nat) : Int) := by push_cast; ring
    rw [e, idx_nat (by omega)]
    simp only [ok_bind]
    by_cases hp : dg l (n + F) > 0
    · rw [if_pos hp]
      refine ⟨n + 1, le_refl _, by simp, fun p h1 h2 => by omega, fun _ => by simpa using hp⟩
    · rw [if_neg hp]
      obtain ⟨t, h1, h2, h3, h4⟩ := ih (by omega)
      refine ⟨t, by omega, h2, ?_, h4⟩
      intro p hp1 hp2
      by_cases h : p = n
      · rw [h]; have := (hd (n + F)).1; omega
      · exact h3 p hp1 (by omega)

/-- The decimal built at the end of `add_abs`/`sub_abs`: `t` integral units, `f` fractional digits. -/
theorem built_wf {l : List Int} {t f F : Nat} (hl : l.length = 9) (hd : DigL l) (hF : unitsFor f = F)
    (ht : t + F ≤ 9) (hz : ∀ p, t + F ≤ p → dg l p = 0) :
    let d : FixedDecimal := ⟨BitVec.ofInt 8 ((9 * t : Nat) : Int), (f : Int), l⟩
    WF d ∧ iu d = t ∧ fu d = F ∧ mant d = psum (dg l) 9 ∧ neg d = false ∧ fracDigits d = f ∧
      intgDigits d = 9 * t := by
  intro d
  have h1 : intgDigits d = 9 * t := intgDigits_mk (by omega)
  have h2 : iu d = t := by unfold iu; rw [h1, unitsFor_mul9]
  have h3 : fracDigits d = f := by simp [fracDigits, d]
  have h4 : fu d = F := by unfold fu; rw [h3, hF]
  have hw : WF d := ⟨hl, hd, by simp [d], by omega, by rw [h2, h4]; exact high_of_dg hz⟩
  exact ⟨hw, h2, h4, hw.mant_eq9, neg_mk (by omega), h3, h1⟩

theorem maxfrac_eq {a b : FixedDecimal} (ha : WF a) (hb : WF b) :
    max a.frac b.frac = ((max (fracDigits a) (fracDigits b) : Nat) : Int) := by
  rw [ha.frac_eq, hb.frac_eq]; push_cast; rfl
theorem unitsFor_max (a b : Nat) : unitsFor (max a b) = max (unitsFor a) (unitsFor b) := by
  unfold unitsFor; omega

/-! ## The tail shared by `add_abs` and `sub_abs` -/

/-- The end of `add_abs` and `sub_abs`, `/repo/src/arith.rs:261-279` and `369-384`: set `frac`, look for
the leading unit among the `n` candidates, set `intg`. -/
def addTail (m : Mode) (lf : List Int) (frac : Int) (n : Nat) : Out FixedDecimal FixedDecimal := do
  let fu ← FixedDecimal.fracUnits m { FixedDecimal.zero with lsu := lf, frac := frac }
  let top ← findTop lf fu n
  if top ≥ 0 then
    return ⟨BitVec.ofInt 8 ((top + 1) * DIGITS_PER_UNIT), frac, lf⟩
  else return ⟨0#8, frac, lf⟩

theorem addTail_fu {σ : Type} (m : Mode) {lf : List Int} {f : Nat} (hf : f ≤ 81) :
    (FixedDecimal.fracUnits m { FixedDecimal.zero with lsu := lf, frac := (f : Int) } : Out σ Int) =
      .ok (unitsFor f : Int) := by
  unfold FixedDecimal.fracUnits
  dsimp only
  exact getUnits_nat (by omega)

theorem addTail_spec (m : Mode) {lf : List Int} {f n : Nat} (hl : lf.length = 9) (hd : DigL lf)
    (hf : f ≤ 81) (hn : n + unitsFor f ≤ 9) (hz : ∀ p, n + unitsFor f ≤ p → dg lf p = 0) :
    ∃ r, addTail m lf (f : Int) n = .ok r ∧ WF r ∧ neg r = false ∧ fracDigits r = f ∧
      intgDigits r = 9 * iu r ∧ mant r = psum (dg lf) 9 ∧ (0 < iu r → 0 < dg r.lsu (iu r - 1 + fu r)) := by
  unfold addTail
  rw [addTail_fu m hf]
  simp only [ok_bind]
  obtain ⟨t, ht1, ht2, ht3, ht4⟩ := findTop_spec (σ := FixedDecimal) lf (unitsFor f) hd.dig n (by omega)
  rw [ht2]
  simp only [ok_bind]
  have hz' : ∀ p, t + unitsFor f ≤ p → dg lf p = 0 := by
    intro p hp
    by_cases h1 : p < n + unitsFor f
    · have := ht3 (p - unitsFor f) (by omega) (by omega)
      rwa [show p - unitsFor f + unitsFor f = p by omega] at this
    · exact hz p (by omega)
  obtain ⟨b1, b2, b3, b4, b5, b6, b7⟩ := built_wf (f := f) hl hd rfl (show t + unitsFor f ≤ 9 by omega) hz'
  refine ⟨⟨BitVec.ofInt 8 ((9 * t : Nat) : Int), (f : Int), lf⟩, ?_, b1, b5, b6, by rw [b7, b2], b4,
    by rw [b2, b3]; exact ht4⟩
  split_ifs with h
  · have : (((t : Int) - 1 + 1) * DIGITS_PER_UNIT) = ((9 * t : Nat) : Int) := by
      unfold DIGITS_PER_UNIT; push_cast; ring
    rw [this]; rfl
  · have : t = 0 := by omega
    subst this; rfl

theorem addTail_panic (m : Mode) {lf : List Int} {f n : Nat} (hl : lf.length = 9)
    (hf : f ≤ 81) (hn : 9 ≤ n + unitsFor f) : addTail m lf (f : Int) (n + 1) = .panic .index := by
  unfold addTail
  rw [addTail_fu m hf]
  simp only [ok_bind]
  rw [findTop, idx_oob (by right; rw [hl]; push_cast; omega)]
  rfl

/-! ## `add_abs` -/

theorem addAbs_core (m : Mode) {a b res : FixedDecimal} (ha : WF a) (hb : WF b)
    (hres : res.lsu.length = 9) (hfit : max (iu a) (iu b) + max (fu a) (fu b) ≤ 8) :
    ∃ rl c, AddInv (al a (max (fu a) (fu b))) (al b (max (fu a) (fu b))) rl c
        (max (iu a) (iu b) + max (fu a) (fu b)) ∧
      addAbs m a b res = addTail m
        (if c = 0 then rl else rl.set (max (iu a) (iu b) + max (fu a) (fu b)) c)
        ((max (fracDigits a) (fracDigits b) : Nat) : Int) (max (iu a) (iu b) + c.toNat + 1) := by
  set F := max (fu a) (fu b) with hFdef
  set I := max (iu a) (iu b) with hIdef
  have hfa : fu a ≤ F := le_max_left _ _
  have hfb : fu b ≤ F := le_max_right _ _
  have hia : iu a ≤ I := le_max_left _ _
  have hib : iu b ≤ I := le_max_right _ _
  have sfa := psum_al ha hfa (show iu a + F ≤ I + F by omega)
  have sfb := psum_al hb hfb (show iu b + F ≤ I + F by omega)
  have fit_a := ha.fits
  have fit_b := hb.fits
  -- first stage: low fractional units of the operand with more of them
  have stage1 : ∃ (rl : List Int) (li ri k : Nat),
      (if (fu a : Int) - (fu b : Int) > 0 then do
          let src ← slice a.lsu 0 ((fu a : Int) - (fu b : Int))
          let rl ← copyFromSlice FixedDecimal.zero.lsu 0 ((fu a : Int) - (fu b : Int)) src
          return (rl, (fu a : Int) - (fu b : Int), 0, (fu a : Int) - (fu b : Int))
        else if (fu a : Int) - (fu b : Int) < 0 then do
          let src ← slice b.lsu 0 (-((fu a : Int) - (fu b : Int)))
          let rl ← copyFromSlice FixedDecimal.zero.lsu 0 (-((fu a : Int) - (fu b : Int))) src
          return (rl, 0, -((fu a : Int) - (fu b : Int)), -((fu a : Int) - (fu b : Int)))
        else return (FixedDecimal.zero.lsu, 0, 0, 0) :
          Out FixedDecimal (List Int × Int × Int × Int)) = .ok (rl, (li : Int), (ri : Int), (k : Int)) ∧
      AddInv (al a F) (al b F) rl 0 k ∧ k + min (fu a) (fu b) = F ∧
      li + (F - fu a) = k ∧ ri + (F - fu b) = k := by
    have hz9 : FixedDecimal.zero.lsu.length = 9 := rfl
    have hzz : ∀ p, dg FixedDecimal.zero.lsu p = 0 := fun p => dg_replicate
    have low : ∀ (d : FixedDecimal) (g : Nat → Int) (k : Nat), WF d → fu d = F → k ≤ fu d → 
        (∀ p < k, g p = 0) →
        AddInv (al d F) g (FixedDecimal.zero.lsu.take 0 ++ d.lsu.take k ++ FixedDecimal.zero.lsu.drop k) 0 k := by
      intro d g k hd hdF hk hg
      have hk9 : k ≤ 9 := by have := hd.fits; omega
      have hlt : (d.lsu.take k).length = k := by rw [List.length_take, hd.len]; omega
      have hdg : ∀ p, dg (FixedDecimal.zero.lsu.take 0 ++ d.lsu.take k ++ FixedDecimal.zero.lsu.drop k) p =
          if p < k then dg d.lsu p else 0 := by
        intro p
        rw [List.take_zero, List.nil_append, dg_append, hlt]
        split_ifs with h1
        · rw [dg_take, if_pos h1]
        · rw [dg_drop]; exact hzz _
      refine ⟨by simp [hlt, hz9]; omega, ?_, Or.inl rfl, ?_, ?_⟩
      · exact ((DigL.zeroUnits.take 0).append (hd.digL.take k)).append (DigL.zeroUnits.drop k)
      · rw [psum_zero_of hg, psum_congr (g := al d F)]
        · ring
        · intro p hp; rw [hdg, if_pos hp]; symm; exact al_at (by omega)
      · intro p hp; rw [hdg, if_neg (by omega)]
    rcases lt_trichotomy (fu a) (fu b) with h | h | h
    · rw [if_neg (by omega), if_pos (by omega)]
      rw [slice_ok (by omega) (by omega) (by rw [hb.len]; omega)]
      simp only [ok_bind]
      have e : (-((fu a : Int) - (fu b : Int))) = ((fu b - fu a : Nat) : Int) := by omega
      rw [e]
      simp only [Int.toNat_zero, List.drop_zero, Int.sub_zero, Int.toNat_natCast]
      rw [copyFromSlice_ok (by omega) (by omega) (by rw [hz9]; omega)
        (by rw [List.length_take, hb.len]; omega)]
      simp only [ok_bind, pure_ok, Int.toNat_zero, Int.toNat_natCast]
      refine ⟨FixedDecimal.zero.lsu.take 0 ++ b.lsu.take (fu b - fu a) ++ FixedDecimal.zero.lsu.drop (fu b - fu a), 0, fu b - fu a, fu b - fu a, rfl, ?_, by omega, by omega, by omega⟩
      exact (low b (al a F) (fu b - fu a) hb (by omega) (by omega) (fun p hp => al_low (by omega))).swap
    · rw [if_neg (by omega), if_neg (by omega)]
      refine ⟨_, 0, 0, 0, rfl, ⟨hz9, DigL.zeroUnits, Or.inl rfl, by simp, fun p _ => hzz p⟩, by omega, by omega, by omega⟩
    · rw [if_pos (by omega)]
      rw [slice_ok (by omega) (by omega) (by rw [ha.len]; omega)]
      simp only [ok_bind]
      have e : ((fu a : Int) - (fu b : Int)) = ((fu a - fu b : Nat) : Int) := by omega
      rw [e]
      simp only [Int.toNat_zero, List.drop_zero, Int.sub_zero, Int.toNat_natCast]
      rw [copyFromSlice_ok (by omega) (by omega) (by rw [hz9]; omega)
        (by rw [List.length_take, ha.len]; omega)]
      simp only [ok_bind, pure_ok, Int.toNat_zero, Int.toNat_natCast]
      refine ⟨FixedDecimal.zero.lsu.take 0 ++ a.lsu.take (fu a - fu b) ++ FixedDecimal.zero.lsu.drop (fu a - fu b), fu a - fu b, 0, fu a - fu b, rfl, ?_, by omega, by omega, by omega⟩
      exact low a (al b F) (fu a - fu b) ha (by omega) (by omega) (fun p hp => al_low (by omega))
  obtain ⟨rl, li, ri, k, hs1, hinv1, hk, hli, hri⟩ := stage1
  unfold addAbs
  rw [setZero_eq hres, ha.intgUnits, ha.fracUnits, hb.intgUnits, hb.fracUnits]
  simp only [ok_bind]
  rw [hs1]
  simp only [ok_bind]
  -- common loop
  have hn : (min (iu a : Int) (iu b : Int) + min (fu a : Int) (fu b : Int)).toNat
      = min (iu a) (iu b) + min (fu a) (fu b) := by omega
  rw [hn]
  obtain ⟨rl2, c2, hs2, hinv2⟩ := addCommon_spec (σ := FixedDecimal) m a.lsu b.lsu (al a F) (al b F)
    (al_dig ha F) (al_dig hb F) (min (iu a) (iu b) + min (fu a) (fu b)) li ri k rl 0 hinv1
    (by omega) (by rw [ha.len]; omega) (by rw [hb.len]; omega)
    (fun t ht => (al_at (by omega)).symm) (fun t ht => (al_at (by omega)).symm)
  rw [hs2]
  simp only [ok_bind]
  have hk2 : k + (min (iu a) (iu b) + min (fu a) (fu b)) = min (iu a) (iu b) + F := by omega
  rw [hk2] at hinv2
  have en : (min (iu a : Int) (iu b : Int) + min (fu a : Int) (fu b : Int))
      = ((min (iu a) (iu b) + min (fu a) (fu b) : Nat) : Int) := by push_cast; rfl
  have ek : (k : Int) + (min (iu a : Int) (iu b : Int) + min (fu a : Int) (fu b : Int))
      = ((min (iu a) (iu b) + F : Nat) : Int) := by rw [en, ← hk2]; push_cast; ring
  -- extra loop: reaches AddInv at I + F, then the carry unit is written
  have stage3 : ∃ rl3 c3, AddInv (al a F) (al b F) rl3 c3 (I + F) ∧
      (if (iu a : Int) - (iu b : Int) > 0 then do
        let (rl, carry) ← addExtra m a.lsu ((iu a : Int) - (iu b : Int)).toNat
          ((li : Int) + (min (iu a : Int) (iu b : Int) + min (fu a : Int) (fu b : Int)))
          ((k : Int) + (min (iu a : Int) (iu b : Int) + min (fu a : Int) (fu b : Int))) rl2 c2
        let rl ← (if carry > 0 then upd rl ((k : Int) + (min (iu a : Int) (iu b : Int)
          + min (fu a : Int) (fu b : Int)) + ((iu a : Int) - (iu b : Int))) carry else .ok rl)
        return (rl, carry)
      else if (iu a : Int) - (iu b : Int) < 0 then do
        let (rl, carry) ← addExtra m b.lsu (-((iu a : Int) - (iu b : Int))).toNat
          ((ri : Int) + (min (iu a : Int) (iu b : Int) + min (fu a : Int) (fu b : Int)))
          ((k : Int) + (min (iu a : Int) (iu b : Int) + min (fu a : Int) (fu b : Int))) rl2 c2
        let rl ← (if carry > 0 then upd rl ((k : Int) + (min (iu a : Int) (iu b : Int)
          + min (fu a : Int) (fu b : Int)) - ((iu a : Int) - (iu b : Int))) carry else .ok rl)
        return (rl, carry)
      else do
        let rl ← (if c2 ≠ 0 then upd rl2 ((k : Int) + (min (iu a : Int) (iu b : Int)
          + min (fu a : Int) (fu b : Int))) c2 else .ok rl2)
        return (rl, c2) : Out FixedDecimal (List Int × Int)) =
          .ok (if c3 = 0 then rl3 else rl3.set (I + F) c3, c3) := by
    rw [ek]
    rcases lt_trichotomy (iu a) (iu b) with h | h | h
    · rw [if_neg (by omega), if_pos (by omega)]
      obtain ⟨rl3, c3, hs3, hinv3⟩ := addExtra_spec (σ := FixedDecimal) m b.lsu (al b F) (al a F)
        (al_dig hb F) (iu b - iu a) (ri + (min (iu a) (iu b) + min (fu a) (fu b)))
        (min (iu a) (iu b) + F) rl2 c2 hinv2.swap (by omega) (by rw [hb.len]; omega)
        (fun t ht => (al_at (by omega)).symm) (fun t ht => al_high ha hfa (by omega))
      have e1 : (-((iu a : Int) - (iu b : Int))).toNat = iu b - iu a := by omega
      have e2 : (ri : Int) + (min (iu a : Int) (iu b : Int) + min (fu a : Int) (fu b : Int))
        = ((ri + (min (iu a) (iu b) + min (fu a) (fu b)) : Nat) : Int) := by push_cast; rfl
      have e3 : ((min (iu a) (iu b) + F : Nat) : Int) - ((iu a : Int) - (iu b : Int)) = ((I + F : Nat) : Int) := by
        omega
      have e4 : min (iu a) (iu b) + F + (iu b - iu a) = I + F := by omega
      rw [e4] at hinv3
      refine ⟨rl3, c3, hinv3.swap, ?_⟩
      rw [e1, e2, hs3]; simp only [ok_bind]
      rw [e3]
      rcases hinv3.carry with hc | hc
      · subst hc; simp
      · subst hc; rw [if_pos (by norm_num), upd_nat (by rw [hinv3.len]; omega)]; simp
    · rw [if_neg (by omega), if_neg (by omega)]
      have e4 : min (iu a) (iu b) + F = I + F := by omega
      rw [e4] at hinv2
      refine ⟨rl2, c2, hinv2, ?_⟩
      rw [e4]
      rcases hinv2.carry with hc | hc
      · subst hc; simp
      · subst hc; rw [if_pos (by norm_num), upd_nat (by rw [hinv2.len]; omega)]; simp
    · rw [if_pos (by omega)]
      obtain ⟨rl3, c3, hs3, hinv3⟩ := addExtra_spec (σ := FixedDecimal) m a.lsu (al a F) (al b F)
        (al_dig ha F) (iu a - iu b) (li + (min (iu a) (iu b) + min (fu a) (fu b)))
        (min (iu a) (iu b) + F) rl2 c2 hinv2 (by omega) (by rw [ha.len]; omega)
        (fun t ht => (al_at (by omega)).symm) (fun t ht => al_high hb hfb (by omega))
      have e1 : ((iu a : Int) - (iu b : Int)).toNat = iu a - iu b := by omega
      have e2 : (li : Int) + (min (iu a : Int) (iu b : Int) + min (fu a : Int) (fu b : Int))
        = ((li + (min (iu a) (iu b) + min (fu a) (fu b)) : Nat) : Int) := by push_cast; rfl
      have e3 : ((min (iu a) (iu b) + F : Nat) : Int) + ((iu a : Int) - (iu b : Int)) = ((I + F : Nat) : Int) := by
        omega
      have e4 : min (iu a) (iu b) + F + (iu a - iu b) = I + F := by omega
      rw [e4] at hinv3
      refine ⟨rl3, c3, hinv3, ?_⟩
      rw [e1, e2, hs3]; simp only [ok_bind]
      rw [e3]
      rcases hinv3.carry with hc | hc
      · subst hc; simp
      · subst hc; rw [if_pos (by norm_num), upd_nat (by rw [hinv3.len]; omega)]; simp
  obtain ⟨rl3, c3, hinv3, hs3⟩ := stage3
  refine ⟨rl3, c3, hinv3, ?_⟩
  rw [hs3]
  simp only [ok_bind]
  rw [maxfrac_eq ha hb]
  have hcnt : (max (iu a : Int) (iu b : Int) + c3 + 1).toNat = I + c3.toNat + 1 := by
    rcases hinv3.carry with h | h <;> rw [h] <;> omega
  rw [hcnt]
  rfl

/-- The sum of the magnitudes, aligned to the larger number of fractional units. -/
def sumMant (a b : FixedDecimal) : Int :=
  1000000000 ^ (max (fu a) (fu b) - fu a) * mant a + 1000000000 ^ (max (fu a) (fu b) - fu b) * mant b

theorem addAbs_spec (m : Mode) {a b res : FixedDecimal} (ha : WF a) (hb : WF b)
    (hres : res.lsu.length = 9) (hfit : max (iu a) (iu b) + max (fu a) (fu b) ≤ 8)
    (hcar : max (iu a) (iu b) + max (fu a) (fu b) = 8 → sumMant a b < 1000000000 ^ 8) :
    ∃ r, addAbs m a b res = .ok r ∧ WF r ∧ neg r = false ∧
      fracDigits r = max (fracDigits a) (fracDigits b) ∧
      intgDigits r = 9 * iu r ∧ mant r = sumMant a b ∧ (0 < iu r → 0 < dg r.lsu (iu r - 1 + fu r)) := by
  obtain ⟨rl, c, hinv, he⟩ := addAbs_core m ha hb hres hfit
  rw [he]
  have hfu : unitsFor (max (fracDigits a) (fracDigits b)) = max (fu a) (fu b) := unitsFor_max _ _
  set F := max (fu a) (fu b) with hFdef
  set I := max (iu a) (iu b) with hIdef
  have hfa : fu a ≤ F := le_max_left _ _
  have hfb : fu b ≤ F := le_max_right _ _
  have hia : iu a ≤ I := le_max_left _ _
  have hib : iu b ≤ I := le_max_right _ _
  have sfa := psum_al ha hfa (show iu a + F ≤ I + F by omega)
  have sfb := psum_al hb hfb (show iu b + F ≤ I + F by omega)
  have hsm : psum (al a F) (I + F) + psum (al b F) (I + F) = sumMant a b := by
    rw [sfa, sfb]; rfl
  set lf := (if c = 0 then rl else rl.set (I + F) c) with hlf
  have hlen : lf.length = 9 := by rw [hlf]; split_ifs <;> simp [hinv.len]
  have hdigL : DigL lf := by
    rw [hlf]; split_ifs with h
    · exact hinv.dig
    · exact hinv.dig.set (by rcases hinv.carry with h | h <;> subst h <;> norm_num)
  have hsum : psum (dg lf) (I + F + 1) = sumMant a b := by
    rw [← hsm, ← hinv.sum, psum_succ, hlf]
    split_ifs with h
    · rw [h, hinv.rest _ (le_refl _)]
    · rw [psum_set_ge (le_refl _), dg_set_self (by rw [hinv.len]; omega)]
  have hzero : ∀ p, I + F + 1 ≤ p → dg lf p = 0 := by
    intro p hp; rw [hlf]; split_ifs with h
    · exact hinv.rest p (by omega)
    · rw [dg_set_ne (by omega)]; exact hinv.rest p (by omega)
  have hc3b : I + F + c.toNat ≤ 8 := by
    rcases hinv.carry with h | h
    · rw [h]; simpa using hfit
    · by_contra hcon
      have h8 : I + F = 8 := by rw [h] at hcon; simp at hcon; omega
      have hs := hinv.sum
      rw [hsm, h, h8] at hs
      have := hcar h8
      have h0 := psum_nonneg hinv.dig.dig 8
      linarith
  have hmax : max (fracDigits a) (fracDigits b) ≤ 81 := by
    have := ha.frac_le; have := hb.frac_le; omega
  obtain ⟨r, h1, h2, h3, h4, h5, h6, h7⟩ := addTail_spec m (lf := lf) (f := max (fracDigits a) (fracDigits b))
    (n := I + c.toNat + 1) hlen hdigL hmax (by rw [hfu]; omega) (fun p hp => hzero p (by rw [hfu] at hp; omega))
  refine ⟨r, h1, h2, h3, h4, h5, ?_, h7⟩
  rw [h6, ← hsum]
  exact psum_extend (by omega) (fun i h1 _ => hzero i h1)

theorem addAbs_carry_panic (m : Mode) {a b res : FixedDecimal} (ha : WF a) (hb : WF b)
    (hres : res.lsu.length = 9) (h8 : max (iu a) (iu b) + max (fu a) (fu b) = 8)
    (hcar : 1000000000 ^ 8 ≤ sumMant a b) : addAbs m a b res = .panic .index := by
  obtain ⟨rl, c, hinv, he⟩ := addAbs_core m ha hb hres (by omega)
  rw [he]
  have hfu : unitsFor (max (fracDigits a) (fracDigits b)) = max (fu a) (fu b) := unitsFor_max _ _
  have sfa := psum_al ha (le_max_left (fu a) (fu b)) (n := max (iu a) (iu b) + max (fu a) (fu b)) (by omega)
  have sfb := psum_al hb (le_max_right (fu a) (fu b)) (n := max (iu a) (iu b) + max (fu a) (fu b)) (by omega)
  have hs := hinv.sum
  rw [sfa, sfb] at hs
  have hc : c = 1 := by
    rcases hinv.carry with h | h
    · rw [h] at hs
      have := psum_lt hinv.dig.dig (max (iu a) (iu b) + max (fu a) (fu b))
      rw [h8] at this hs
      have hcar' := hcar
      unfold sumMant at hcar'
      linarith
    · exact h
  have hmax : max (fracDigits a) (fracDigits b) ≤ 81 := by
    have := ha.frac_le; have := hb.frac_le; omega
  apply addTail_panic m
  · split_ifs <;> simp [hinv.len]
  · exact hmax
  · rw [hfu, hc]; simp; omega

end Fxd
