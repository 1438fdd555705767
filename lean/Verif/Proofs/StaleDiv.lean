import Verif.Proofs.Stale
/-!
# Division and remainder do not read stale units
-/

namespace Fxd
open Spec
variable {σ : Type} {m : Mode}

theorem divAbs_sim {a a' b b' : FixedDecimal} (ha : Sim a a') (hb : Sim b b') (res : FixedDecimal) (incr : Int) :
    divAbs m a b res incr = divAbs m a' b' res incr := by
  have ua : (getUnits m a'.intgDigits : Out FixedDecimal Int) = .ok (iu a : Int) := by
    rw [ha.iu_eq]; exact ha.right.intgUnits
  have fa : (getUnits m a'.frac : Out FixedDecimal Int) = .ok (fu a : Int) := by
    rw [ha.fu_eq]; exact ha.right.fracUnits
  have ub : (getUnits m b'.intgDigits : Out FixedDecimal Int) = .ok (iu b : Int) := by
    rw [hb.iu_eq]; exact hb.right.intgUnits
  have fb : (getUnits m b'.frac : Out FixedDecimal Int) = .ok (fu b : Int) := by
    rw [hb.fu_eq]; exact hb.right.fracUnits
  unfold divAbs
  simp only [ha.dig_eq, hb.dig_eq, ha.alike.frac, hb.alike.frac, ua, ub, fa, fb, ok_bind]
  refine bind_agree (findNonZero_agree hb.agree _ (by omega)) (fun rn hr => ?_)
  have hrn := findNonZero_lt hr
  have hrn' : rn < (iu b + fu b : Nat) := by omega
  by_cases h0 : rn < 0
  · rw [if_pos h0, if_pos h0]
  rw [if_neg h0, if_neg h0]
  refine bind_agree (findNonZero_agree ha.agree _ (by omega)) (fun ln hl => ?_)
  have hln := findNonZero_lt hl
  have hln' : ln < (iu a + fu a : Nat) := by omega
  by_cases h1 : ln < 0
  · rw [if_pos h1, if_pos h1]
  rw [if_neg h1, if_neg h1]
  have i1 : ∀ i : Int, i ≤ rn → (idx b.lsu i : Out FixedDecimal Int) = idx b'.lsu i := fun i hi => hb.agree.idx (by omega)
  have i2 : ∀ i : Int, i ≤ ln → (idx a.lsu i : Out FixedDecimal Int) = idx a'.lsu i := fun i hi => ha.agree.idx (by omega)
  have s1 : (slice b.lsu 0 (rn + 1) : Out FixedDecimal _) = slice b'.lsu 0 (rn + 1) := hb.agree.slice (by omega)
  have s2 : (slice a.lsu 0 (ln + 1) : Out FixedDecimal _) = slice a'.lsu 0 (ln + 1) := ha.agree.slice (by omega)
  have d1 : ∀ (d : Int) (c : Nat) (i : Int) (hi : i ≤ ln) (r : Int) (t : List Int),
      (shortDivLoop m a.lsu d c i r t : Out FixedDecimal _) = shortDivLoop m a'.lsu d c i r t :=
    fun d c i hi r t => shortDivLoop_agree ha.agree d c i (by omega) r t
  rw [i1 rn le_rfl, i2 ln le_rfl, i1 0 (by omega), s1, s2]
  refine bind_agree rfl (fun rtop _ => ?_)
  refine bind_agree rfl (fun ltop _ => ?_)
  refine bind_agree rfl (fun x1 _ => ?_)
  refine bind_agree rfl (fun x2 _ => ?_)
  refine bind_agree rfl (fun x3 _ => ?_)
  refine bind_agree rfl (fun lseg _ => ?_)
  refine bind_agree rfl (fun rseg _ => ?_)
  refine bind_agree rfl (fun x4 _ => ?_)
  obtain ⟨ri, riu, rfu, rs⟩ := x4
  dsimp only
  by_cases h2 : rn = 0
  · rw [if_pos h2, if_pos h2]
    refine bind_agree rfl (fun d _ => ?_)
    refine bind_agree rfl (fun r _ => ?_)
    rw [d1]
    split_ifs <;> omega
  · rw [if_neg h2, if_neg h2]

theorem divTo_sim {a a' b b' : FixedDecimal} (ha : Sim a a') (hb : Sim b b') (res : FixedDecimal) (incr : Int) :
    FixedDecimal.divTo m a b res incr = FixedDecimal.divTo m a' b' res incr := by
  unfold FixedDecimal.divTo
  rw [ha.isNeg_eq, hb.isNeg_eq, divAbs_sim ha hb]

theorem remAbs_sim {a a' b b' : FixedDecimal} (ha : Sim a a') (hb : Sim b b') (res : FixedDecimal) :
    remAbs m a b res = remAbs m a' b' res := by
  have ua : (getUnits m a'.intgDigits : Out FixedDecimal Int) = .ok (iu a : Int) := by
    rw [ha.iu_eq]; exact ha.right.intgUnits
  have fa : (getUnits m a'.frac : Out FixedDecimal Int) = .ok (fu a : Int) := by
    rw [ha.fu_eq]; exact ha.right.fracUnits
  have ub : (getUnits m b'.intgDigits : Out FixedDecimal Int) = .ok (iu b : Int) := by
    rw [hb.iu_eq]; exact hb.right.intgUnits
  have fb : (getUnits m b'.frac : Out FixedDecimal Int) = .ok (fu b : Int) := by
    rw [hb.fu_eq]; exact hb.right.fracUnits
  unfold remAbs
  simp only [ha.dig_eq, hb.dig_eq, ha.alike.frac, hb.alike.frac, ua, ub, fa, fb, ok_bind]
  refine bind_agree (findNonZero_agree hb.agree _ (by omega)) (fun rn hr => ?_)
  have hrn := findNonZero_lt hr
  by_cases h0 : rn < 0
  · rw [if_pos h0, if_pos h0]
  rw [if_neg h0, if_neg h0]
  refine bind_agree (findNonZero_agree ha.agree _ (by omega)) (fun ln hl => ?_)
  have hln := findNonZero_lt hl
  by_cases h1 : ln < 0
  · rw [if_pos h1, if_pos h1]
  rw [if_neg h1, if_neg h1]
  have i1 : ∀ i : Int, i ≤ rn → (idx b.lsu i : Out FixedDecimal Int) = idx b'.lsu i := fun i hi => hb.agree.idx (by omega)
  have i2 : ∀ i : Int, i ≤ ln → (idx a.lsu i : Out FixedDecimal Int) = idx a'.lsu i := fun i hi => ha.agree.idx (by omega)
  have s1 : (slice b.lsu 0 (rn + 1) : Out FixedDecimal _) = slice b'.lsu 0 (rn + 1) := hb.agree.slice (by omega)
  have s2 : (slice a.lsu 0 (ln + 1) : Out FixedDecimal _) = slice a'.lsu 0 (ln + 1) := ha.agree.slice (by omega)
  have s3 : (slice a.lsu 0 ((fu a : Int) + iu a) : Out FixedDecimal _) = slice a'.lsu 0 ((fu a : Int) + iu a) :=
    ha.agree.slice (by omega)
  rw [i1 rn le_rfl, i2 ln le_rfl, i1 0 (by omega), s1, s2, s3, cmpAbsLsu_agree ha.agree hb.agree]

theorem remTo_sim {a a' b b' : FixedDecimal} (ha : Sim a a') (hb : Sim b b') (res : FixedDecimal) :
    FixedDecimal.remTo m a b res = FixedDecimal.remTo m a' b' res := by
  unfold FixedDecimal.remTo
  rw [ha.isNeg_eq, remAbs_sim ha hb]

/-! ## Addition, subtraction, multiplication -/

theorem addCommon_agree {n p : Nat} {l k r t : List Int} (h : Agree n l k) (h' : Agree p r t) (c : Nat) (i j x : Int)
    (hi : i + c ≤ n) (hj : j + c ≤ p) (res : List Int) (cy : Int) :
    (addCommon m l r c i j x res cy : Out σ _) = addCommon m k t c i j x res cy := by
  induction c generalizing i j x res cy with
  | zero => rfl
  | succ c ih =>
    unfold addCommon
    rw [h.idx (by omega), h'.idx (by omega)]
    simp only [ih (i + 1) (j + 1) (x + 1) (by omega) (by omega)]

theorem addExtra_agree {n : Nat} {l k : List Int} (h : Agree n l k) (c : Nat) (i x : Int) (hi : i + c ≤ n) (res : List Int)
    (cy : Int) : (addExtra m l c i x res cy : Out σ _) = addExtra m k c i x res cy := by
  induction c generalizing i x res cy with
  | zero => rfl
  | succ c ih =>
    unfold addExtra
    rw [h.idx (by omega)]
    simp only [ih (i + 1) (x + 1) (by omega)]

theorem subCommon_agree {n p : Nat} {l k r t : List Int} (h : Agree n l k) (h' : Agree p r t) (c : Nat) (i j x : Int)
    (hi : i + c ≤ n) (hj : j + c ≤ p) (res : List Int) (cy : Int) :
    (subCommon m l r c i j x res cy : Out σ _) = subCommon m k t c i j x res cy := by
  induction c generalizing i j x res cy with
  | zero => rfl
  | succ c ih =>
    unfold subCommon
    rw [h.idx (by omega), h'.idx (by omega)]
    simp only [ih (i + 1) (j + 1) (x + 1) (by omega) (by omega)]

theorem subExtraL_agree {n : Nat} {l k : List Int} (h : Agree n l k) (c : Nat) (i x : Int) (hi : i + c ≤ n) (res : List Int)
    (cy : Int) : (subExtraL m l c i x res cy : Out σ _) = subExtraL m k c i x res cy := by
  induction c generalizing i x res cy with
  | zero => rfl
  | succ c ih =>
    unfold subExtraL
    rw [h.idx (by omega)]
    simp only [ih (i + 1) (x + 1) (by omega)]

theorem subExtraR_agree {n : Nat} {l k : List Int} (h : Agree n l k) (c : Nat) (i x : Int) (hi : i + c ≤ n) (res : List Int)
    (cy : Int) : (subExtraR m l c i x res cy : Out σ _) = subExtraR m k c i x res cy := by
  induction c generalizing i x res cy with
  | zero => rfl
  | succ c ih =>
    unfold subExtraR
    rw [h.idx (by omega)]
    simp only [ih (i + 1) (x + 1) (by omega)]

theorem addAbs_sim {a a' b b' : FixedDecimal} (ha : Sim a a') (hb : Sim b b') (res : FixedDecimal) :
    addAbs m a b res = addAbs m a' b' res := by
  unfold addAbs
  simp only [← ha.intgUnits, ← ha.fracUnits, ← hb.intgUnits, ← hb.fracUnits, ha.left.intgUnits, ha.left.fracUnits,
    hb.left.intgUnits, hb.left.fracUnits, ok_bind, ha.alike.frac, hb.alike.frac]
  generalize hA : iu a = A at *
  generalize hF : fu a = F at *
  generalize hB : iu b = B at *
  generalize hG : fu b = G at *
  have aa := ha.agree
  have ab := hb.agree
  rw [hA, hF] at aa
  rw [hB, hG] at ab
  refine bind_agree (y := _) ?_ (fun x hx => ?_)
  · split_ifs with h1 h2
    · rw [aa.slice (by omega)]
    · rw [ab.slice (by omega)]
    · rfl
  · obtain ⟨rl, i, j, x⟩ := x
    have hij : i = max 0 ((F : Int) - G) ∧ j = max 0 ((G : Int) - F) := by
      split_ifs at hx with h1 h2
      · obtain ⟨y, -, hx⟩ := bind_eq_ok.mp hx
        obtain ⟨z, -, hx⟩ := bind_eq_ok.mp hx
        injection hx with hx
        obtain ⟨-, e1, e2, -⟩ := Prod.mk.inj hx |>.2 |> fun h => (⟨trivial, (Prod.mk.inj h).1, (Prod.mk.inj (Prod.mk.inj h).2).1, trivial⟩ : True ∧ _ ∧ _ ∧ True)
        omega
      · obtain ⟨y, -, hx⟩ := bind_eq_ok.mp hx
        obtain ⟨z, -, hx⟩ := bind_eq_ok.mp hx
        injection hx with hx
        obtain ⟨-, e1, e2, -⟩ := Prod.mk.inj hx |>.2 |> fun h => (⟨trivial, (Prod.mk.inj h).1, (Prod.mk.inj (Prod.mk.inj h).2).1, trivial⟩ : True ∧ _ ∧ _ ∧ True)
        omega
      · injection hx with hx
        obtain ⟨-, e1, e2, -⟩ := Prod.mk.inj hx |>.2 |> fun h => (⟨trivial, (Prod.mk.inj h).1, (Prod.mk.inj (Prod.mk.inj h).2).1, trivial⟩ : True ∧ _ ∧ _ ∧ True)
        omega
    obtain ⟨hi, hj⟩ := hij
    dsimp only
    rw [addCommon_agree aa ab _ _ _ _ (by omega) (by omega)]
    refine bind_agree rfl (fun y _ => ?_)
    obtain ⟨rl, cy⟩ := y
    dsimp only
    refine bind_agree ?_ (fun _ _ => rfl)
    by_cases h1 : (A : Int) - B > 0
    · rw [if_pos h1, if_pos h1, addExtra_agree aa _ _ _ (by omega)]
    · rw [if_neg h1, if_neg h1]
      by_cases h2 : (A : Int) - B < 0
      · rw [if_pos h2, if_pos h2, addExtra_agree ab _ _ _ (by omega)]
      · rw [if_neg h2, if_neg h2]

theorem subAbs_sim {a a' b b' : FixedDecimal} (ha : Sim a a') (hb : Sim b b') (res : FixedDecimal) :
    subAbs m a b res = subAbs m a' b' res := by
  unfold subAbs
  simp only [← ha.intgUnits, ← ha.fracUnits, ← hb.intgUnits, ← hb.fracUnits, ha.left.intgUnits, ha.left.fracUnits,
    hb.left.intgUnits, hb.left.fracUnits, ok_bind, ha.alike.frac, hb.alike.frac]
  generalize hA : iu a = A at *
  generalize hF : fu a = F at *
  generalize hB : iu b = B at *
  generalize hG : fu b = G at *
  have aa := ha.agree
  have ab := hb.agree
  rw [hA, hF] at aa
  rw [hB, hG] at ab
  refine bind_agree (y := _) ?_ (fun x hx => ?_)
  · split_ifs with h1 h2
    · rw [aa.slice (by omega)]
    · rw [ab.take (j := min (-((F : Int) - G)).toNat _) (by omega)]
    · rfl
  · obtain ⟨rl, i, j, x, br⟩ := x
    have hij : i = max 0 ((F : Int) - G) ∧ j = max 0 ((G : Int) - F) := by
      have fin : ∀ {l l' : List Int} {i i' j j' x x' b b' : Int},
          (.ok (l, i, j, x, b) : Out FixedDecimal (List Int × Int × Int × Int × Int)) = .ok (l', i', j', x', b') → i = i' ∧ j = j' := by
        intro l l' i i' j j' x x' b b' h
        injection h with h
        obtain ⟨-, h⟩ := Prod.mk.inj h
        obtain ⟨e1, h⟩ := Prod.mk.inj h
        exact ⟨e1, (Prod.mk.inj h).1⟩
      split_ifs at hx with h1 h2
      · obtain ⟨y, -, hx⟩ := bind_eq_ok.mp hx
        obtain ⟨z, -, hx⟩ := bind_eq_ok.mp hx
        have := fin hx
        omega
      · obtain ⟨y, -, hx⟩ := bind_eq_ok.mp hx
        have := fin hx
        omega
      · have := fin hx
        omega
    obtain ⟨hi, hj⟩ := hij
    dsimp only
    rw [subCommon_agree aa ab _ _ _ _ (by omega) (by omega)]
    refine bind_agree rfl (fun y _ => ?_)
    obtain ⟨rl, cy⟩ := y
    dsimp only
    refine bind_agree ?_ (fun _ _ => rfl)
    by_cases h1 : (A : Int) - B > 0
    · rw [if_pos h1, if_pos h1, subExtraL_agree aa _ _ _ (by omega)]
    · rw [if_neg h1, if_neg h1]
      by_cases h2 : (A : Int) - B < 0
      · rw [if_pos h2, if_pos h2, subExtraR_agree ab _ _ _ (by omega)]
      · rw [if_neg h2, if_neg h2]

theorem mulAbs_sim {a a' b b' : FixedDecimal} (ha : Sim a a') (hb : Sim b b') (res : FixedDecimal) :
    mulAbs m a b res = mulAbs m a' b' res := by
  unfold mulAbs
  simp only [← ha.intgUnits, ← ha.fracUnits, ← hb.intgUnits, ← hb.fracUnits, ha.left.intgUnits, ha.left.fracUnits,
    hb.left.intgUnits, hb.left.fracUnits, ok_bind, ha.alike.frac, hb.alike.frac, ha.dig_eq, hb.dig_eq]
  have e : ∀ R : List Int, (mulUnits a.lsu ((iu a : Int) + fu a) R : Out FixedDecimal _) = mulUnits a'.lsu ((iu a : Int) + fu a) R := by
    intro R
    cases R with
    | nil => rfl
    | cons r rs => exact ha.agree.slice (b := (iu a : Int) + fu a) (by omega)
  simp only [hb.agree.slice (b := (iu b : Int) + fu b) (by omega), e]

end Fxd
