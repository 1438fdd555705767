import Verif.Spec.Stale
import Verif.Proofs.Dec
import Verif.Model.Ops
import Verif.Model.Format
import Verif.Model.Convert
/-!
# Functions that read only the units within the digit counts
-/

namespace Fxd
open Spec

/-- The lists agree below `n`. -/
structure Agree (n : Nat) (l k : List Int) : Prop where
  len : l.length = k.length
  below : ∀ i < n, l[i]? = k[i]?

namespace Agree
variable {σ : Type} {n : Nat} {l k : List Int}

theorem refl (n : Nat) (l : List Int) : Agree n l l := ⟨rfl, fun _ _ => rfl⟩
theorem symm (h : Agree n l k) : Agree n k l := ⟨h.len.symm, fun i hi => (h.below i hi).symm⟩
theorem mono {n' : Nat} (h : Agree n l k) (hn : n' ≤ n) : Agree n' l k := ⟨h.len, fun i hi => h.below i (by omega)⟩

theorem idx (h : Agree n l k) {i : Int} (hi : i < n) : (Fxd.idx l i : Out σ Int) = Fxd.idx k i := by
  unfold Fxd.idx
  by_cases h0 : 0 ≤ i
  · rw [if_pos h0, if_pos h0, h.below _ (by omega)]
  · rw [if_neg h0, if_neg h0]

theorem take (h : Agree n l k) {j : Nat} (hj : j ≤ n) : l.take j = k.take j := by
  apply List.ext_getElem?
  intro i
  rw [List.getElem?_take, List.getElem?_take]
  by_cases hi : i < j
  · rw [if_pos hi, if_pos hi, h.below _ (by omega)]
  · rw [if_neg hi, if_neg hi]

theorem slice (h : Agree n l k) {a b : Int} (hb : b ≤ n) : (Fxd.slice l a b : Out σ (List Int)) = Fxd.slice k a b := by
  unfold Fxd.slice
  rw [h.len]
  by_cases hc : 0 ≤ a ∧ a ≤ b ∧ b ≤ (k.length : Int)
  · rw [if_pos hc, if_pos hc]
    congr 1
    apply List.ext_getElem?
    intro i
    rw [List.getElem?_take, List.getElem?_take, List.getElem?_drop, List.getElem?_drop]
    by_cases hi : i < (b - a).toNat
    · rw [if_pos hi, if_pos hi, h.below _ (by omega)]
    · rw [if_neg hi, if_neg hi]
  · rw [if_neg hc, if_neg hc]

theorem of_take {j : Nat} (hl : l.length = k.length) (h : l.take j = k.take j) : Agree j l k := by
  refine ⟨hl, fun i hi => ?_⟩
  have := congrArg (fun x => x[i]?) h
  simpa [List.getElem?_take, hi] using this

end Agree

theorem bind_agree {σ α β : Type} {x y : Out σ α} {f g : α → Out σ β} (h : x = y) (hf : ∀ a, x = .ok a → f a = g a) :
    (x >>= f) = (y >>= g) := by
  subst h
  cases x with
  | ok a => exact hf a rfl
  | err e s => rfl
  | panic p => rfl

variable {σ : Type} {m : Mode}

/-! ## Comparison -/

theorem cmpExtra_agree {n : Nat} {l k : List Int} (h : Agree n l k) (riu : Int) (hit : Ordering) (c : Nat) (i : Int) (hi : i < n) :
    (cmpExtra l riu hit c i : Out σ _) = cmpExtra k riu hit c i := by
  induction c generalizing i with
  | zero => rfl
  | succ c ih =>
    unfold cmpExtra
    rw [h.idx hi, ih (i - 1) (by omega)]

theorem cmpExtra_le {l : List Int} {riu : Int} {hit : Ordering} {c : Nat} {i : Int} {x : Int × Int}
    (h : (cmpExtra l riu hit c i : Out σ _) = .ok (.inr x)) : x.2 ≤ i := by
  induction c generalizing i with
  | zero => unfold cmpExtra at h; injection h with h; injection h with h; rw [← h]
  | succ c ih =>
    unfold cmpExtra at h
    split_ifs at h with h1
    · obtain ⟨v, hv, h⟩ := bind_eq_ok.mp h
      split_ifs at h with h2
      · cases h
      · have := ih h; omega
    · injection h with h; injection h with h; rw [← h]

theorem cmpCommon_agree {n p : Nat} {l k r t : List Int} (h : Agree n l k) (h' : Agree p r t) (c : Nat) (i j : Int) (hi : i < n)
    (hj : j < p) : (cmpCommon l r c i j : Out σ _) = cmpCommon k t c i j := by
  induction c generalizing i j with
  | zero => rfl
  | succ c ih =>
    unfold cmpCommon
    rw [h.idx hi, h'.idx hj, ih (i - 1) (j - 1) (by omega) (by omega)]

theorem cmpCommon_le {l r : List Int} {c : Nat} {i j : Int} {x : Int × Int}
    (h : (cmpCommon l r c i j : Out σ _) = .ok (.inr x)) : x.1 ≤ i ∧ x.2 ≤ j := by
  induction c generalizing i j with
  | zero => unfold cmpCommon at h; injection h with h; injection h with h; rw [← h]; exact ⟨le_refl _, le_refl _⟩
  | succ c ih =>
    unfold cmpCommon at h
    obtain ⟨v, hv, h⟩ := bind_eq_ok.mp h
    obtain ⟨w, hw, h⟩ := bind_eq_ok.mp h
    split_ifs at h with h2 h3
    · cases h
    · cases h
    · have := ih h; omega

theorem cmpTail_agree {n : Nat} {l k : List Int} (h : Agree n l k) (hit : Ordering) (c : Nat) (hc : c ≤ n) :
    (cmpTail l hit c : Out σ _) = cmpTail k hit c := by
  induction c with
  | zero => rfl
  | succ c ih =>
    unfold cmpTail
    rw [h.idx (by omega), ih (by omega)]

theorem cmpAbsLsu_agree {l k r t : List Int} {liu lfu riu rfu : Nat} (h : Agree (liu + lfu) l k) (h' : Agree (riu + rfu) r t) :
    (cmpAbsLsu liu lfu l riu rfu r : Out σ _) = cmpAbsLsu liu lfu k riu rfu t := by
  unfold cmpAbsLsu
  refine bind_agree (cmpExtra_agree h _ _ _ _ (by omega)) (fun x hx => ?_)
  rcases x with o | ⟨liu', i⟩
  · rfl
  · have hi := cmpExtra_le hx
    dsimp only at hi ⊢
    refine bind_agree (cmpExtra_agree h' _ _ _ _ (by omega)) (fun x hx => ?_)
    rcases x with o | ⟨riu', j⟩
    · rfl
    · have hj := cmpExtra_le hx
      dsimp only at hj ⊢
      refine bind_agree (cmpCommon_agree h h' _ _ _ (by omega) (by omega)) (fun x hx => ?_)
      rcases x with o | ⟨i', j'⟩
      · rfl
      · have hij := cmpCommon_le hx
        dsimp only at hij ⊢
        rw [cmpTail_agree h .gt _ (by omega), cmpTail_agree h' .lt _ (by omega)]

/-! ## Decimals -/

/-- Usable decimals that differ at most in stale units. -/
structure Sim (a b : FixedDecimal) : Prop where
  left : Usable a
  right : Usable b
  alike : Alike a b

namespace Sim
variable {a b : FixedDecimal}

theorem iu_eq (h : Sim a b) : iu a = iu b := by unfold iu Spec.intgDigits; rw [h.alike.intg]
theorem fu_eq (h : Sim a b) : fu a = fu b := by unfold fu fracDigits; rw [h.alike.frac]
theorem neg_eq (h : Sim a b) : neg a = neg b := by unfold neg; rw [h.alike.intg]
theorem isNeg_eq (h : Sim a b) : a.isNeg = b.isNeg := by rw [Fxd.isNeg_eq, Fxd.isNeg_eq, h.neg_eq]
theorem dig_eq (h : Sim a b) : a.intgDigits = b.intgDigits := by unfold FixedDecimal.intgDigits; rw [h.alike.intg]
theorem mant_eq (h : Sim a b) : mant a = mant b := by unfold mant; rw [h.alike.digits]
theorem val_eq (h : Sim a b) : val a = val b := by unfold val absVal; rw [h.neg_eq, h.mant_eq, h.fu_eq]
theorem agree (h : Sim a b) : Agree (iu a + fu a) a.lsu b.lsu :=
  .of_take (by rw [h.left.len, h.right.len]) (by rw [h.alike.digits, h.iu_eq, h.fu_eq])

end Sim

theorem Spec.Usable.intgUnits {d : FixedDecimal} (h : Usable d) : (d.intgUnits m : Out σ Int) = .ok (iu d) := by
  have h9 := h.fits
  unfold FixedDecimal.intgUnits
  rw [intgDigits_eq, getUnits_nat (by unfold iu unitsFor at h9; omega)]; rfl
theorem Spec.Usable.frac_eq {d : FixedDecimal} (h : Usable d) : d.frac = (fracDigits d : Int) := by
  have := h.frac_nonneg; unfold fracDigits; omega
theorem Spec.Usable.fracUnits {d : FixedDecimal} (h : Usable d) : (d.fracUnits m : Out σ Int) = .ok (fu d) := by
  have h9 := h.fits
  unfold FixedDecimal.fracUnits
  rw [h.frac_eq, getUnits_nat (by unfold fu unitsFor at h9; omega)]; rfl

theorem Sim.intgUnits {a b : FixedDecimal} (h : Sim a b) : (a.intgUnits m : Out σ Int) = b.intgUnits m := by
  unfold FixedDecimal.intgUnits; rw [h.dig_eq]
theorem Sim.fracUnits {a b : FixedDecimal} (h : Sim a b) : (a.fracUnits m : Out σ Int) = b.fracUnits m := by
  unfold FixedDecimal.fracUnits; rw [h.alike.frac]

theorem cmpAbs_sim {a a' b b' : FixedDecimal} (ha : Sim a a') (hb : Sim b b') :
    (cmpAbs m a b : Out σ _) = cmpAbs m a' b' := by
  unfold cmpAbs
  rw [← ha.intgUnits, ← ha.fracUnits, ← hb.intgUnits, ← hb.fracUnits, ha.left.intgUnits, ha.left.fracUnits, hb.left.intgUnits,
    hb.left.fracUnits]
  exact cmpAbsLsu_agree ha.agree hb.agree

theorem cmp_sim {a a' b b' : FixedDecimal} (ha : Sim a a') (hb : Sim b b') :
    (FixedDecimal.cmp m a b : Out σ _) = FixedDecimal.cmp m a' b' := by
  unfold FixedDecimal.cmp
  rw [ha.isNeg_eq, hb.isNeg_eq, cmpAbs_sim ha hb, cmpAbs_sim hb ha]

theorem eq_sim {a a' b b' : FixedDecimal} (ha : Sim a a') (hb : Sim b b') :
    (FixedDecimal.eq m a b : Out σ _) = FixedDecimal.eq m a' b' := by
  unfold FixedDecimal.eq; rw [cmp_sim ha hb]

theorem hash_sim {a a' : FixedDecimal} (h : Sim a a') : (FixedDecimal.hash m a : Out σ _) = FixedDecimal.hash m a' := by
  unfold FixedDecimal.hash
  rw [← h.intgUnits, ← h.fracUnits, h.left.intgUnits, h.left.fracUnits, h.isNeg_eq]
  simp only [ok_bind]
  rw [h.agree.slice (by push_cast; omega)]

/-! ## Text -/

theorem intgStrLoop_agree {n : Nat} {l k : List Int} (h : Agree n l k) (f : Int) (c : Nat) (hc : f + c ≤ n) (buf : List Nat)
    (e : Bool) : (intgStrLoop m l f c buf e : Out σ _) = intgStrLoop m k f c buf e := by
  induction c generalizing buf e with
  | zero => rfl
  | succ c ih =>
    unfold intgStrLoop
    rw [h.idx (by omega)]
    simp only [ih (by omega)]

theorem appendFrac_agree {n : Nat} {l k : List Int} (h : Agree n l k) (c : Nat) (hc : c ≤ n) (buf : List Nat) (d : Int) :
    (appendFrac m l c buf d : Out σ _) = appendFrac m k c buf d := by
  induction c generalizing buf d with
  | zero => rfl
  | succ c ih =>
    unfold appendFrac
    rw [h.idx (by omega)]
    simp only [ih (by omega)]

theorem appendStrBuf_sim {a a' : FixedDecimal} (h : Sim a a') (buf : List Nat) (k : Int) :
    (FixedDecimal.appendStrBuf m a buf k : Out σ _) = FixedDecimal.appendStrBuf m a' buf k := by
  unfold FixedDecimal.appendStrBuf
  rw [← h.intgUnits, ← h.fracUnits, h.left.intgUnits, h.left.fracUnits, h.isNeg_eq, h.alike.frac]
  simp only [ok_bind]
  have e1 : ∀ buf e, (intgStrLoop m a.lsu (fu a) (iu a : Int).toNat buf e : Out σ _) =
      intgStrLoop m a'.lsu (fu a) (iu a : Int).toNat buf e := fun _ _ => intgStrLoop_agree h.agree _ _ (by omega) _ _
  have e2 : ∀ buf d, (appendFrac m a.lsu (fu a : Int).toNat buf d : Out σ _) = appendFrac m a'.lsu (fu a : Int).toNat buf d :=
    fun _ _ => appendFrac_agree h.agree _ (by omega) _ _
  simp only [e1, e2]

theorem toStr_sim {a a' : FixedDecimal} (h : Sim a a') (k : Int) :
    (FixedDecimal.toStr m a k : Out σ _) = FixedDecimal.toStr m a' k := appendStrBuf_sim h [] k

/-! ## Division and remainder -/

theorem findNonZero_agree {n : Nat} {l k : List Int} (h : Agree n l k) (c : Nat) (hc : c ≤ n) :
    (findNonZero l c : Out σ _) = findNonZero k c := by
  induction c with
  | zero => rfl
  | succ c ih =>
    unfold findNonZero
    rw [h.idx (by omega), ih (by omega)]

theorem findNonZero_lt {l : List Int} {c : Nat} {x : Int} (h : (findNonZero l c : Out σ _) = .ok x) : x < c := by
  induction c with
  | zero => unfold findNonZero at h; injection h with h; omega
  | succ c ih =>
    unfold findNonZero at h
    obtain ⟨v, -, h⟩ := bind_eq_ok.mp h
    split_ifs at h with h1
    · injection h with h; omega
    · have := ih h; omega

theorem shortDivLoop_agree {n : Nat} {l k : List Int} (h : Agree n l k) (d : Int) (c : Nat) (i : Int) (hi : i < n) (r : Int)
    (res : List Int) : (shortDivLoop m l d c i r res : Out σ _) = shortDivLoop m k d c i r res := by
  induction c generalizing i r res with
  | zero => rfl
  | succ c ih =>
    unfold shortDivLoop
    rw [h.idx hi]
    simp only [ih (i - 1) (by omega)]

end Fxd
