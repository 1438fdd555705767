import Verif.Proofs.Limited
/-!
# Walks that exclude arithmetic overflow

`NoTrap B P x`: if `x` finishes its value satisfies `P`, and `x` does not panic in the way `B`
(an overflow trap, say).  The primitives below are
those of `Proofs/Limited.lean` with this stronger postcondition.
-/

namespace Fxd
open Spec

/-- A kind of panic other than a failed bounds check. -/
class NotIndex (B : Panic) : Prop where
  ne : B ≠ .index
instance : NotIndex .overflow := ⟨fun h => by cases h⟩
instance : NotIndex .assert := ⟨fun h => by cases h⟩

/-- See the head of the file. -/
def NoTrap {σ α : Type} (B : Panic) (P : α → Prop) : Out σ α → Prop
  | .ok a => P a
  | .err _ _ => True
  | .panic p => p ≠ B

namespace NoTrap
variable {σ α β : Type} {m : Mode} {B : Panic} [NotIndex B] {P : α → Prop} {R : β → Prop}

theorem ne {x : Out σ α} (h : NoTrap B P x) : x ≠ .panic B := by
  rintro rfl
  exact h rfl
theorem of_eq {x : Out σ α} {a : α} (h : x = .ok a) (hp : P a) : NoTrap B P x := by rw [h]; exact hp
theorem ok {a : α} (h : P a) : NoTrap B P (.ok a : Out σ α) := h
theorem pure {a : α} (h : P a) : NoTrap B P (pure a : Out σ α) := h
theorem err {e : Error} {s : σ} : NoTrap B P (.err e s : Out σ α) := trivial
theorem index : NoTrap B P (.panic .index : Out σ α) := fun h => NotIndex.ne h.symm
theorem bind {x : Out σ α} {f : α → Out σ β} (h : NoTrap B P x) (hf : ∀ a, P a → NoTrap B R (f a)) : NoTrap B R (x >>= f) := by
  cases x with
  | ok a => exact hf a h
  | err e s => trivial
  | panic p => exact h
theorem ite {c : Prop} [Decidable c] {x y : Out σ α} (h : c → NoTrap B P x) (h' : ¬ c → NoTrap B P y) :
    NoTrap B P (if c then x else y) := by
  by_cases hc : c
  · rw [if_pos hc]; exact h hc
  · rw [if_neg hc]; exact h' hc
theorem mono {P' : α → Prop} {x : Out σ α} (h : NoTrap B P x) (hp : ∀ a, P a → P' a) : NoTrap B P' x := by
  cases x with
  | ok a => exact hp a h
  | err e s => trivial
  | panic p => exact h
/-- A postcondition known from elsewhere can be added. -/
theorem of_ret {x : Out σ α} (h : NoTrap B (fun _ => True) x) (hr : Ret P (fun _ => True) x) : NoTrap B P x := by
  cases x with
  | ok a => exact hr
  | err e s => trivial
  | panic p => exact h

/-! ## Primitives -/

theorem i64 {x : Int} (h0 : -9223372036854775808 ≤ x) (h1 : x < 9223372036854775808) :
    NoTrap B (fun v => v = x) (Fxd.i64 m x : Out σ Int) := .of_eq (i64_ok h0 h1) rfl
theorem i32 {x : Int} (h0 : -2147483648 ≤ x) (h1 : x < 2147483648) :
    NoTrap B (fun v => v = x) (Fxd.i32 m x : Out σ Int) := .of_eq (i32_ok h0 h1) rfl
theorem i8 {x : Int} (h0 : -128 ≤ x) (h1 : x < 128) :
    NoTrap B (fun v => v = x) (Fxd.i8 m x : Out σ Int) := .of_eq (i8_ok h0 h1) rfl
theorem isz {x : Int} (h0 : -9223372036854775808 ≤ x) (h1 : x < 9223372036854775808) :
    NoTrap B (fun v => v = x) (Fxd.isz m x : Out σ Int) := .of_eq (isz_ok h0 h1) rfl
theorem usz {x : Int} (h0 : 0 ≤ x) (h1 : x < 18446744073709551616) :
    NoTrap B (fun v => v = x) (Fxd.usz m x : Out σ Int) := .of_eq (usz_ok h0 h1) rfl
theorem dassert {c : Bool} : NoTrap .overflow (fun _ => True) (Fxd.dassert m c : Out σ Unit) := by
  cases m
  · cases c
    · intro h; cases h
    · trivial
  · trivial
theorem any {l : List α} {i : Int} : NoTrap B (fun _ => True) (Fxd.idx l i : Out σ α) := by
  unfold Fxd.idx
  refine ite (fun h => ?_) (fun _ => index)
  cases l[i.toNat]?
  · exact index
  · trivial
theorem idx {l : List Int} {i : Int} :
    NoTrap B (fun v => 0 ≤ i ∧ i < l.length ∧ v = dg l i.toNat) (Fxd.idx l i : Out σ Int) := .of_ret .any .idxEq
theorem dig {l : List Int} (h : DigL l) {i : Int} : NoTrap B (fun v => 0 ≤ v ∧ v < 1000000000) (Fxd.idx l i : Out σ Int) :=
  .of_ret .any (.idxDig h)
theorem idiv {a b : Int} (ha : 0 ≤ a) : NoTrap .overflow (fun q => b ≠ 0 ∧ q = a.tdiv b) (Fxd.idiv a b : Out σ Int) :=
  .ite (fun _ h => by cases h) fun h => .ite (fun h => absurd h.1 (by omega)) fun _ => ⟨h, rfl⟩
theorem updAny {l : List α} {i : Int} {v : α} :
    NoTrap B (fun r => 0 ≤ i ∧ i < l.length ∧ r = l.set i.toNat v) (Fxd.upd l i v : Out σ (List α)) :=
  .ite (fun h => ⟨h.1, by omega, rfl⟩) fun _ => index
theorem upd {l : List Int} (h : DigL l) {i v : Int} (hv : 0 ≤ v ∧ v < 1000000000) :
    NoTrap B DigL (Fxd.upd l i v : Out σ (List Int)) := updAny.mono fun r hr => by rw [hr.2.2]; exact h.set hv
theorem sliceAny {l : List α} {a b : Int} :
    NoTrap B (fun r => 0 ≤ a ∧ a ≤ b ∧ b ≤ l.length ∧ r = (l.drop a.toNat).take (b - a).toNat) (Fxd.slice l a b : Out σ (List α)) :=
  .ite (fun h => ⟨h.1, h.2.1, h.2.2, rfl⟩) fun _ => index
theorem slice {l : List Int} (h : DigL l) {a b : Int} : NoTrap B DigL (Fxd.slice l a b : Out σ (List Int)) :=
  sliceAny.mono fun r hr => by rw [hr.2.2.2]; exact (h.drop _).take _
theorem copyAny {l s : List Int} {a b : Int} : NoTrap B (fun _ => True) (Fxd.copyFromSlice l a b s : Out σ (List Int)) :=
  .ite (fun _ => trivial) fun _ => index
theorem copy {l s : List Int} (h : DigL l) (hs : DigL s) {a b : Int} :
    NoTrap B (fun r => DigL r ∧ 0 ≤ a ∧ ∀ k < s.length, dg r (a.toNat + k) = dg s k) (Fxd.copyFromSlice l a b s : Out σ (List Int)) :=
  .of_ret copyAny (.copyDig h hs)
theorem copyWithin {l : List Int} (h : DigL l) {a b d : Int} : NoTrap B DigL (Fxd.copyWithin l a b d : Out σ (List Int)) :=
  .ite (fun _ => ((h.take _).append ((h.drop _).take _)).append (h.drop _)) fun _ => index
theorem zeroRange {l : List Int} (h : DigL l) {a b : Int} : NoTrap B DigL (Fxd.zeroRange l a b : Out σ (List Int)) :=
  .ite (fun _ => ((h.take _).append (DigL.replicate _)).append (h.drop _)) fun _ => index
theorem findNonZero {l : List Int} : (n : Nat) →
    NoTrap B (fun r : Int => r = -1 ∨ ∃ k : Nat, r = k ∧ k < n ∧ k < l.length ∧ 0 < dg l k) (Fxd.findNonZero l n : Out σ Int)
  | 0 => Or.inl rfl
  | n + 1 => by
    unfold Fxd.findNonZero
    refine .bind .idx fun v hv => .ite (fun h => .pure (Or.inr ⟨n, rfl, by omega, by omega, ?_⟩)) fun _ => (findNonZero n).mono ?_
    · obtain ⟨-, -, rfl⟩ := hv
      simpa using h
    · rintro r (h | ⟨k, h1, h2, h3⟩)
      · exact Or.inl h
      · exact Or.inr ⟨k, h1, by omega, h3⟩
theorem findTop {l : List Int} {f : Int} : (n : Nat) → NoTrap B (fun _ => True) (Fxd.findTop l f n : Out σ Int)
  | 0 => trivial
  | n + 1 => by
    unfold Fxd.findTop
    exact .bind .any fun v _ => .ite (fun _ => .pure trivial) fun _ => findTop n

/-- A digit count below 120. -/
theorem getUnits {x : Int} (h0 : -128 ≤ x) (h : x < 120) : NoTrap B (fun v => 0 ≤ v ∧ 9 * v ≤ x + 8 ∧ x ≤ 9 * v) (Fxd.getUnits m x : Out σ Int) := by
  unfold Fxd.getUnits
  rw [i8_ok (by omega) (by omega), ok_bind]
  by_cases hx : 0 ≤ x + 8
  · rw [div9_ok hx (by omega)]
    show _ ∧ _ ∧ _
    omega
  · unfold div9 Fxd.idx
    rw [if_neg hx]
    exact index
theorem intgUnits {d : FixedDecimal} (h : WF d) : NoTrap B (fun v : Int => v = iu d) (d.intgUnits m : Out σ Int) := .of_eq h.intgUnits rfl
theorem fracUnits {d : FixedDecimal} (h : WF d) : NoTrap B (fun v : Int => v = fu d) (d.fracUnits m : Out σ Int) := .of_eq h.fracUnits rfl

theorem addCarry {a b c : Int} (ha : 0 ≤ a ∧ a < 1000000000) (hb : 0 ≤ b ∧ b < 1000000000) (hc : c = 0 ∨ c = 1) :
    NoTrap B (fun p => (0 ≤ p.1 ∧ p.1 < 1000000000) ∧ (p.2 = 0 ∨ p.2 = 1)) (addWithCarry m a b c : Out σ (Int × Int)) := by
  unfold Fxd.addWithCarry
  refine .bind (.i32 (by omega) (by omega)) ?_
  rintro _ rfl
  refine .bind (.i32 (by omega) (by omega)) ?_
  rintro _ rfl
  refine .ite (fun h => .bind (.i32 ?_ ?_) ?_) fun h => .pure ⟨⟨?_, ?_⟩, Or.inl rfl⟩
  · unfold UNIT; omega
  · unfold UNIT; omega
  · rintro _ rfl
    refine .pure ⟨?_, Or.inr rfl⟩
    unfold UNIT at h ⊢; dsimp only; omega
  · dsimp only; omega
  · unfold UNIT at h; dsimp only; omega
theorem subBorrow {a b c : Int} (ha : 0 ≤ a ∧ a < 1000000000) (hb : 0 ≤ b ∧ b < 1000000000) (hc : c = 0 ∨ c = -1) :
    NoTrap B (fun p => (0 ≤ p.1 ∧ p.1 < 1000000000) ∧ (p.2 = 0 ∨ p.2 = -1)) (subWithBorrow m a b c : Out σ (Int × Int)) := by
  unfold Fxd.subWithBorrow
  refine .bind (.i32 (by omega) (by omega)) ?_
  rintro _ rfl
  refine .bind (.i32 (by omega) (by omega)) ?_
  rintro _ rfl
  refine .ite (fun h => .bind (.i32 ?_ ?_) ?_) fun h => .pure ⟨⟨?_, ?_⟩, Or.inl rfl⟩
  · unfold UNIT; omega
  · unfold UNIT; omega
  · rintro _ rfl
    refine .pure ⟨?_, Or.inr rfl⟩
    unfold UNIT; dsimp only; omega
  · dsimp only; omega
  · dsimp only; omega

/-! ## Addition and subtraction -/

theorem addCommon {a b : List Int} (ha : DigL a) (hb : DigL b) : ∀ (n : Nat) (i j k : Int) (res : List Int) (c : Int), DigL res →
    (c = 0 ∨ c = 1) → NoTrap B (fun r => DigL r.1 ∧ (r.2 = 0 ∨ r.2 = 1)) (Fxd.addCommon m a b n i j k res c : Out σ _)
  | 0, _, _, _, _, _, h, hc => ⟨h, hc⟩
  | n + 1, i, j, k, res, c, h, hc => by
    unfold Fxd.addCommon
    refine .bind (.dig ha) fun x hx => .bind (.dig hb) fun y hy => .bind (.addCarry hx hy hc) ?_
    rintro ⟨r, c⟩ ⟨hr, hc⟩
    exact .bind (.upd h hr) fun res h => addCommon ha hb n _ _ _ _ _ h hc
theorem addExtra {a : List Int} (ha : DigL a) : ∀ (n : Nat) (i k : Int) (res : List Int) (c : Int), DigL res →
    (c = 0 ∨ c = 1) → NoTrap B (fun r => DigL r.1 ∧ (r.2 = 0 ∨ r.2 = 1)) (Fxd.addExtra m a n i k res c : Out σ _)
  | 0, _, _, _, _, h, hc => ⟨h, hc⟩
  | n + 1, i, k, res, c, h, hc => by
    unfold Fxd.addExtra
    refine .bind (.dig ha) fun x hx => .bind (.addCarry hx (by omega) hc) ?_
    rintro ⟨r, c⟩ ⟨hr, hc⟩
    exact .bind (.upd h hr) fun res h => addExtra ha n _ _ _ _ h hc
theorem subLow : ∀ (l : List Int) (c : Int), DigL l → (c = 0 ∨ c = -1) →
    NoTrap B (fun r => DigL r.1 ∧ (r.2 = 0 ∨ r.2 = -1)) (Fxd.subLow m l c : Out σ _)
  | [], _, h, hc => ⟨h, hc⟩
  | v :: l, c, h, hc => by
    unfold Fxd.subLow
    refine .bind (.subBorrow (by omega) (h v (by simp)) hc) ?_
    rintro ⟨r, c⟩ ⟨hr, hc⟩
    refine .bind (subLow l c (fun u hu => h u (by simp [hu])) hc) ?_
    rintro ⟨rs, c⟩ ⟨hrs, hc⟩
    exact .pure ⟨DigL.cons hr hrs, hc⟩
theorem subCommon {a b : List Int} (ha : DigL a) (hb : DigL b) : ∀ (n : Nat) (i j k : Int) (res : List Int) (c : Int), DigL res →
    (c = 0 ∨ c = -1) → NoTrap B (fun r => DigL r.1 ∧ (r.2 = 0 ∨ r.2 = -1)) (Fxd.subCommon m a b n i j k res c : Out σ _)
  | 0, _, _, _, _, _, h, hc => ⟨h, hc⟩
  | n + 1, i, j, k, res, c, h, hc => by
    unfold Fxd.subCommon
    refine .bind (.dig ha) fun x hx => .bind (.dig hb) fun y hy => .bind (.subBorrow hx hy hc) ?_
    rintro ⟨r, c⟩ ⟨hr, hc⟩
    exact .bind (.upd h hr) fun res h => subCommon ha hb n _ _ _ _ _ h hc
theorem subExtraL {a : List Int} (ha : DigL a) : ∀ (n : Nat) (i k : Int) (res : List Int) (c : Int), DigL res →
    (c = 0 ∨ c = -1) → NoTrap B (fun r => DigL r.1 ∧ (r.2 = 0 ∨ r.2 = -1)) (Fxd.subExtraL m a n i k res c : Out σ _)
  | 0, _, _, _, _, h, hc => ⟨h, hc⟩
  | n + 1, i, k, res, c, h, hc => by
    unfold Fxd.subExtraL
    refine .bind (.dig ha) fun x hx => .bind (.subBorrow hx (by omega) hc) ?_
    rintro ⟨r, c⟩ ⟨hr, hc⟩
    exact .bind (.upd h hr) fun res h => subExtraL ha n _ _ _ _ h hc
theorem subExtraR {a : List Int} (ha : DigL a) : ∀ (n : Nat) (i k : Int) (res : List Int) (c : Int), DigL res →
    (c = 0 ∨ c = -1) → NoTrap B (fun r => DigL r.1 ∧ (r.2 = 0 ∨ r.2 = -1)) (Fxd.subExtraR m a n i k res c : Out σ _)
  | 0, _, _, _, _, h, hc => ⟨h, hc⟩
  | n + 1, i, k, res, c, h, hc => by
    unfold Fxd.subExtraR
    refine .bind (.dig ha) fun x hx => .bind (.subBorrow (by omega) hx hc) ?_
    rintro ⟨r, c⟩ ⟨hr, hc⟩
    exact .bind (.upd h hr) fun res h => subExtraR ha n _ _ _ _ h hc
theorem negLoop : ∀ (n : Nat) (i : Int) (res : List Int) (c : Int), DigL res →
    (c = 0 ∨ c = -1) → NoTrap B DigL (Fxd.negLoop m n i res c : Out σ _)
  | 0, _, _, _, h, hc => h
  | n + 1, i, res, c, h, hc => by
    unfold Fxd.negLoop
    refine .bind (.dig h) fun x hx => .bind (.subBorrow (by omega) hx hc) ?_
    rintro ⟨r, c⟩ ⟨hr, hc⟩
    exact .bind (.upd h hr) fun res h => negLoop n _ _ _ h hc

theorem setZero_dig {d : FixedDecimal} : DigL d.setZero.lsu := by
  intro u hu
  obtain ⟨_, -, rfl⟩ := List.mem_map.mp hu
  exact ⟨le_refl _, by norm_num⟩

theorem addAbs {a b : FixedDecimal} (ha : WF a) (hb : WF b) (res : FixedDecimal) : NoTrap B (fun _ => True) (Fxd.addAbs m a b res) := by
  have da : DigL a.lsu := ha.units
  have db : DigL b.lsu := hb.units
  unfold Fxd.addAbs
  dsimp only
  refine .bind (.intgUnits ha) ?_; rintro _ rfl
  refine .bind (.fracUnits ha) ?_; rintro _ rfl
  refine .bind (.intgUnits hb) ?_; rintro _ rfl
  refine .bind (.fracUnits hb) ?_; rintro _ rfl
  refine .bind (P := fun r => DigL r.1) ?_ ?_
  · refine .ite (fun _ => ?_) fun _ => .ite (fun _ => ?_) fun _ => .pure setZero_dig
    · exact .bind (.slice da) fun s hs => .bind (.copy setZero_dig hs) fun r hr => .pure hr.1
    · exact .bind (.slice db) fun s hs => .bind (.copy setZero_dig hs) fun r hr => .pure hr.1
  rintro ⟨l, i, j, k⟩ hl
  dsimp only
  refine .bind (.addCommon da db _ _ _ _ _ _ hl (Or.inl rfl)) ?_
  rintro ⟨l, c⟩ ⟨hl, hc⟩
  dsimp only at hl hc ⊢
  have hc' : 0 ≤ c ∧ c < 1000000000 := by omega
  refine .bind (P := fun r => DigL r.1 ∧ (r.2 = 0 ∨ r.2 = 1)) ?_ ?_
  · refine .ite (fun _ => ?_) fun _ => .ite (fun _ => ?_) fun _ => ?_
    · refine .bind (.addExtra da _ _ _ _ _ hl hc) ?_
      rintro ⟨l, c⟩ ⟨hl, hc⟩
      dsimp only at hl hc ⊢
      exact .bind (.ite (fun _ => .upd hl (by omega)) fun _ => hl) fun l hl => .pure ⟨hl, hc⟩
    · refine .bind (.addExtra db _ _ _ _ _ hl hc) ?_
      rintro ⟨l, c⟩ ⟨hl, hc⟩
      dsimp only at hl hc ⊢
      exact .bind (.ite (fun _ => .upd hl (by omega)) fun _ => hl) fun l hl => .pure ⟨hl, hc⟩
    · exact .bind (.ite (fun _ => .upd hl (by omega)) fun _ => hl) fun l hl => .pure ⟨hl, hc⟩
  rintro ⟨l, c⟩ ⟨hl, hc⟩
  dsimp only at hl hc ⊢
  have fa := ha.frac_eq
  have fb := hb.frac_eq
  have f1 := ha.frac_le
  have f2 := hb.frac_le
  refine .bind (P := fun _ => True) ((NoTrap.getUnits ?_ ?_).mono fun _ _ => trivial) fun _ _ => ?_
  · dsimp only; omega
  · dsimp only; omega
  exact .bind (.findTop _) fun _ _ => .ite (fun _ => .pure trivial) fun _ => .pure trivial

theorem subAbs {a b : FixedDecimal} (ha : WF a) (hb : WF b) (res : FixedDecimal) : NoTrap B (fun _ => True) (Fxd.subAbs m a b res) := by
  have da : DigL a.lsu := ha.units
  have db : DigL b.lsu := hb.units
  unfold Fxd.subAbs
  dsimp only
  refine .bind (.intgUnits ha) ?_; rintro _ rfl
  refine .bind (.fracUnits ha) ?_; rintro _ rfl
  refine .bind (.intgUnits hb) ?_; rintro _ rfl
  refine .bind (.fracUnits hb) ?_; rintro _ rfl
  refine .bind (P := fun r => DigL r.1 ∧ (r.2.2.2.2 = 0 ∨ r.2.2.2.2 = -1)) ?_ ?_
  · refine .ite (fun _ => ?_) fun _ => .ite (fun _ => ?_) fun _ => .pure ⟨setZero_dig, Or.inl rfl⟩
    · exact .bind (.slice da) fun s hs => .bind (.copy setZero_dig hs) fun r hr => .pure ⟨hr.1, Or.inl rfl⟩
    · refine .bind (.subLow _ _ (db.take _) (Or.inl rfl)) ?_
      rintro ⟨low, c⟩ ⟨hl, hc⟩
      exact .pure ⟨hl.append (setZero_dig.drop _), hc⟩
  rintro ⟨l, i, j, k, c⟩ ⟨hl, hc⟩
  dsimp only at hl hc ⊢
  refine .bind (.subCommon da db _ _ _ _ _ _ hl hc) ?_
  rintro ⟨l, c⟩ ⟨hl, hc⟩
  dsimp only at hl hc ⊢
  refine .bind (P := fun r => DigL r.1) ?_ ?_
  · refine .ite (fun _ => ?_) fun _ => .ite (fun _ => ?_) fun _ => .pure hl
    · refine .bind (.subExtraL da _ _ _ _ _ hl hc) ?_
      rintro ⟨l, c⟩ ⟨hl, hc⟩
      exact .pure hl
    · refine .bind (.subExtraR db _ _ _ _ _ hl hc) ?_
      rintro ⟨l, c⟩ ⟨hl, hc⟩
      exact .pure hl
  rintro ⟨l, c, k⟩ hl
  dsimp only at hl ⊢
  refine .bind (P := DigL) (.ite (fun _ => .negLoop _ _ _ _ hl (Or.inl rfl)) fun _ => hl) fun l hl => ?_
  have fa := ha.frac_eq
  have fb := hb.frac_eq
  have f1 := ha.frac_le
  have f2 := hb.frac_le
  refine .bind (P := fun _ => True) ((NoTrap.getUnits ?_ ?_).mono fun _ _ => trivial) fun _ _ => ?_
  · dsimp only; omega
  · dsimp only; omega
  exact .bind (.findTop _) fun _ _ => .ite (fun _ => .pure trivial) fun _ => .pure trivial

end NoTrap
end Fxd
