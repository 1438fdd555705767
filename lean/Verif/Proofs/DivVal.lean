import Verif.Proofs.DivTop
import Verif.Props.Mul
/-!
# Division: sign, shape and value of the result
-/

namespace Fxd
open Spec

variable {σ : Type} {m : Mode}

/-! ## No `Err` inside the loops -/

theorem NoErr.findNonZero {l : List Int} : ∀ n, NoErr (findNonZero l n : Out σ _)
  | 0 => .ok
  | n + 1 => by
    unfold Fxd.findNonZero
    exact .bind .idx fun _ _ => .ite (fun _ => .ok) (fun _ => NoErr.findNonZero n)

theorem NoErr.normLoop {f : Int} : ∀ (l : List Int) (c : Int), NoErr (normLoop m f l c : Out σ _)
  | [], _ => .ok
  | v :: vs, c => by
    unfold Fxd.normLoop
    refine .bind .i64 fun _ _ => .bind .i64 fun _ _ => .bind .i64 fun _ _ => .bind .i64 fun _ _ => ?_
    exact .bind (NoErr.normLoop vs _) fun _ _ => .ok

theorem NoErr.shortDivLoop {l : List Int} {d : Int} : ∀ (n : Nat) (i r : Int) (res : List Int),
    NoErr (shortDivLoop m l d n i r res : Out σ _)
  | 0, _, _, _ => .ok
  | n + 1, i, r, res => by
    unfold Fxd.shortDivLoop
    refine .bind .i64 fun _ _ => .bind (.ite (fun _ => .bind .idx fun _ _ => .i64) (fun _ => .ok)) fun _ _ => ?_
    refine .bind .idiv fun _ _ => .bind .i64 fun _ _ => .bind .i64 fun _ _ => .bind .upd fun _ _ => ?_
    exact NoErr.shortDivLoop n _ _ _

theorem NoErr.qhatLoop {d0 d1 u2 : Int} : ∀ (n : Nat) (q r : Int), NoErr (qhatLoop m d0 d1 u2 n q r : Out σ _)
  | 0, _, _ => .panic
  | n + 1, q, r => by
    unfold Fxd.qhatLoop
    refine .bind .i64 fun _ _ => .bind .i64 fun _ _ => .bind .i64 fun _ _ => ?_
    exact .ite (fun _ => .bind .i64 fun _ _ => .bind .i64 fun _ _ => NoErr.qhatLoop n _ _) (fun _ => .ok)

theorem NoErr.guessQ {buf1 : List Int} {i d0 d1 : Int} : NoErr (guessQ m buf1 i d0 d1 : Out σ _) := by
  unfold Fxd.guessQ
  refine .bind .idx fun _ _ => .bind (.ite (fun _ => .idx) (fun _ => .ok)) fun _ _ => ?_
  refine .bind .i64 fun _ _ => .bind .i64 fun _ _ => .bind .idiv fun _ _ => .bind .i64 fun _ _ => .bind .i64 fun _ _ => ?_
  exact .bind .dassert fun _ _ => .bind (.ite (fun _ => .idx) (fun _ => .ok)) fun _ _ => .qhatLoop _ _ _

theorem NoErr.mulSub {q : Int} {buf2 : List Int} : ∀ (n : Nat) (k ms : Int) (buf1 : List Int) (c b : Int),
    NoErr (mulSub m q buf2 n k ms buf1 c b : Out σ _)
  | 0, _, _, _, _, _ => .ok
  | n + 1, k, ms, buf1, c, b => by
    unfold Fxd.mulSub
    refine .bind .idx fun _ _ => .bind .i64 fun _ _ => .bind .i64 fun _ _ => .bind .i64 fun _ _ => .bind .i64 fun _ _ => ?_
    exact .ite (fun _ => .bind .subWithBorrow fun _ _ => NoErr.mulSub n _ _ _ _ _)
      (fun _ => .bind .idx fun _ _ => .bind .subWithBorrow fun _ _ => .bind .upd fun _ _ => NoErr.mulSub n _ _ _ _ _)

theorem NoErr.divAddBack {j : Int} : ∀ (n : Nat) (i : Int) (buf1 : List Int) (b : Int),
    NoErr (divAddBack m j n i buf1 b : Out σ _)
  | 0, _, _, _ => .ok
  | n + 1, i, buf1, b => by
    unfold Fxd.divAddBack
    exact .bind .idx fun _ _ => .bind .subWithBorrow fun _ _ => .bind .upd fun _ _ => NoErr.divAddBack n _ _ _

theorem NoErr.longDivLoop {buf2 : List Int} {nr d0 d1 : Int} : ∀ (n : Nat) (i : Int) (buf1 res : List Int),
    NoErr (longDivLoop m buf2 nr d0 d1 n i buf1 res : Out σ _)
  | 0, _, _, _ => .ok
  | n + 1, i, buf1, res => by
    unfold Fxd.longDivLoop
    refine .bind .guessQ fun _ _ => .bind (.mulSub _ _ _ _ _ _) fun _ _ => .bind .idx fun _ _ => .bind .i32 fun _ _ =>
      .bind .i32 fun _ _ => ?_
    exact .ite (fun _ => .bind .i64 fun _ _ => .bind (.divAddBack _ _ _ _) fun _ _ => .bind .upd fun _ _ =>
        NoErr.longDivLoop n _ _ _)
      (fun _ => .bind .upd fun _ _ => .bind .upd fun _ _ => NoErr.longDivLoop n _ _ _)

theorem NoErr.divPrep {f : Int} {l r : List Int} {u e n : Int} : NoErr (divPrep m f l r u e n : Out σ _) := by
  unfold Fxd.divPrep
  refine .ite (fun _ => .bind .copyFromSlice fun _ _ => .bind .copyFromSlice fun _ _ => .ok) (fun _ => ?_)
  refine .bind (.normLoop _ _) fun _ _ => .bind .copyFromSlice fun _ _ => .bind (.ite (fun _ => .upd) (fun _ => .ok))
    fun _ _ => ?_
  exact .bind (.normLoop _ _) fun _ _ => .bind .copyFromSlice fun _ _ => .bind .dassert fun _ _ => .ok

theorem NoErr.divTail {a b : FixedDecimal} {nl nr sh I ri rf st : Int} :
    NoErr (divTail m a b nl nr sh I ri rf st) := by
  unfold Fxd.divTail
  refine .ite (fun _ => .bind .idx fun _ _ => .bind (.ite (fun _ => .ok) (fun _ => .ok)) fun _ _ =>
    .bind (.shortDivLoop _ _ _ _) fun _ _ => .ok) (fun _ => .bind .idiv fun _ _ => ?_)
  change NoErr (Fxd.divPrep m _ _ _ _ _ _ >>= _)
  exact .bind .divPrep fun _ _ => .bind .idx fun _ _ => .bind .idx fun _ _ => .bind (.longDivLoop _ _ _ _) fun _ _ => .ok

theorem NoErr.divFrac {a b : FixedDecimal} {i : Int} : NoErr (divFrac m a b i) := by
  unfold Fxd.divFrac
  exact .bind .isz fun _ _ => .bind .isz fun _ _ => .bind .getUnits fun _ _ => .ok

/-- Fitting the result gives no error other than an overflow. -/
theorem divFit_err_only {a b : FixedDecimal} {nl nr : Nat} {rf : Int} {e : Error} {s : FixedDecimal}
    (h : divFit m a b nl nr rf = .err e s) : e = .overflow ∧ s = FixedDecimal.zero := by
  unfold divFit at h
  dsimp only at h
  by_cases hp : divIntg a b nl nr > 0
  · rw [if_pos hp] at h
    cases hg : (getUnits m (wrap 8 (divIntg a b nl nr)) : Out FixedDecimal Int) with
    | ok u =>
      rw [hg, ok_bind] at h
      by_cases hu : u > MAX_UNITS
      · rw [if_pos hu] at h
        injection h with h1 h2; exact ⟨h1.symm, h2.symm⟩
      · rw [if_neg hu] at h
        exact absurd h (NoErr.divTail _ _)
    | err e s => exact absurd hg (NoErr.getUnits _ _)
    | panic p => rw [hg] at h; simp at h
  · rw [if_neg hp] at h
    exact absurd h ((NoErr.bind .getUnits fun _ _ => .divTail) _ _)

/-! ## Shape of the result -/

/-- Everything about a successful division of magnitudes. -/
theorem divAbs_shape {a b res : FixedDecimal} (ha : WF a) (hb : WF b) (hres : res.lsu.length = 9) (za : mant a ≠ 0)
    (zb : mant b ≠ 0) {incr : Nat} (hi : incr < 2 ^ 62) {q : FixedDecimal}
    (h : divAbs m a b res incr = .ok q) :
    QuoRange a b incr ∧ quoIntg a b ≤ 81 ∧ ¬ QuoSpill a b incr ∧
      (∃ l, l.length = 9 ∧ q = quoMk l (quoIntg a b).toNat (quoFU a b incr)) ∧
      mant q = codeQuo a b incr ∧ (WF q ↔ ¬ QuoUnitWide a b incr) ∧ ¬ (m = .debug ∧ QuoGuessWide a b incr) := by
  have hr : QuoRange a b incr := by
    by_contra hc
    obtain ⟨p, e⟩ := divAbs_range (m := m) ha hb hres za zb hi hc
    rw [e] at h; simp at h
  have h81 : quoIntg a b ≤ 81 := by
    by_contra hc
    rw [divAbs_overflow ha hb hres za zb hi hr (by omega)] at h; simp at h
  have hs : ¬ QuoSpill a b incr := by
    intro hc
    rw [(divAbs_main (m := m) ha hb hres za zb hi hr h81).1 hc] at h; simp at h
  refine ⟨hr, h81, hs, ?_⟩
  rcases (divAbs_main (m := m) ha hb hres za zb hi hr h81).2 hs with ⟨-, -, e⟩ | ⟨h0, l, h1, e, h2, h3, -⟩
  · rw [e] at h; cases h
  · rw [e] at h
    injection h with h
    subst h
    exact ⟨⟨l, h1, rfl⟩, h2, h3, h0⟩

/-! ## From magnitudes to values -/

/-- The sign given to a magnitude. -/
def signed (s : Bool) (q : FixedDecimal) : FixedDecimal := if s then q.setNegAndCheckZero else q

theorem divTo_eq {a b res : FixedDecimal} {incr : Nat} (hi : incr < 2 ^ 62) :
    FixedDecimal.divTo m a b res incr =
      (divAbs m a b res incr >>= fun q => .ok (signed (neg a != neg b) q)) := by
  unfold FixedDecimal.divTo signed
  simp only [isNeg_eq]
  have : wrap 64 (incr : Int) = incr := by
    unfold wrap
    apply Int.bmod_eq_of_le <;> norm_num at hi ⊢ <;> omega
  rw [this]
  rfl

theorem signed_lsu (s : Bool) (q : FixedDecimal) : (signed s q).lsu = q.lsu := by
  unfold signed FixedDecimal.setNegAndCheckZero
  cases s
  · rfl
  · simp only [if_true]; split_ifs <;> rfl

theorem signed_frac (s : Bool) (q : FixedDecimal) : (signed s q).frac = q.frac := by
  unfold signed FixedDecimal.setNegAndCheckZero
  cases s
  · rfl
  · simp only [if_true]; split_ifs <;> rfl

theorem signed_fu (s : Bool) (q : FixedDecimal) : fu (signed s q) = fu q := by
  unfold fu fracDigits; rw [signed_frac]

theorem signed_intgDigits (s : Bool) (q : FixedDecimal) : intgDigits (signed s q) = intgDigits q := by
  unfold signed FixedDecimal.setNegAndCheckZero
  cases s
  · rfl
  · simp only [if_true]; split_ifs <;> simp

theorem signed_wf {s : Bool} {q : FixedDecimal} (h : WF q) : WF (signed s q) := by
  unfold signed; split_ifs
  · exact wf_setNegAndCheckZero h
  · exact h

theorem signed_mant (s : Bool) (q : FixedDecimal) : mant (signed s q) = mant q := by
  unfold mant iu; rw [signed_intgDigits, signed_fu, signed_lsu]

theorem signed_absVal (s : Bool) (q : FixedDecimal) : absVal (signed s q) = absVal q := by
  unfold absVal; rw [signed_mant, signed_fu]

theorem signed_neg {s : Bool} {q : FixedDecimal} (hn : neg q = false) :
    neg (signed s q) = true ↔ s = true ∧ ∃ u ∈ (signed s q).lsu, u ≠ 0 := by
  rw [signed_lsu]
  unfold signed FixedDecimal.setNegAndCheckZero
  cases s
  · simp [hn]
  · simp only [if_true, true_and]
    have hz : q.setNeg.isZero = true ↔ ∀ u ∈ q.lsu, u = 0 := by
      unfold FixedDecimal.isZero
      rw [List.all_eq_true]
      simp [FixedDecimal.setNeg]
    split_ifs with h
    · simp only [neg_setPos, Bool.false_eq_true, false_iff, not_exists, not_and, not_not]
      exact hz.mp h
    · simp only [neg_setNeg, true_iff]
      rw [hz] at h
      push Not at h
      exact h

/-- Also for decimals that are not well-formed. -/
theorem signed_val {s : Bool} {q : FixedDecimal} (hn : neg q = false) :
    val (signed s q) = if s then - absVal q else absVal q := by
  have h1 := signed_neg (s := s) hn
  unfold val
  rw [signed_absVal]
  cases s
  · have : neg (signed false q) = false := by rw [← Bool.not_eq_true, h1]; simp
    rw [this]
  · by_cases hz : ∃ u ∈ (signed true q).lsu, u ≠ 0
    · rw [h1.mpr ⟨rfl, hz⟩]
    · have h2 : neg (signed true q) = false := by rw [← Bool.not_eq_true, h1]; simp [hz]
      rw [h2]
      push Not at hz
      rw [signed_lsu] at hz
      have h3 : mant q = 0 := by
        unfold mant
        have : ∀ l : List Int, (∀ u ∈ l, u = 0) → unitsVal l = 0 := by
          intro l
          induction l with
          | nil => intro _; rfl
          | cons x l ih =>
            intro h
            unfold unitsVal
            rw [h x List.mem_cons_self, ih fun u hu => h u (List.mem_cons_of_mem _ hu)]; rfl
        exact this _ fun u hu => hz u (List.mem_of_mem_take hu)
      unfold absVal
      rw [h3]; simp

theorem truncZ_neg (q : ℚ) : truncZ (-q) = - truncZ q := by
  unfold truncZ
  rcases lt_trichotomy q 0 with h | h | h
  · rw [if_neg (by linarith), if_pos h]; simp
  · subst h; norm_num
  · rw [if_pos (by linarith), if_neg (by linarith)]; simp

theorem truncQuot_neg (x y : ℚ) (s : Nat) : truncQuot (-x) y s = - truncQuot x y s := by
  unfold truncQuot
  rw [show -x / y * 10 ^ s = -(x / y * 10 ^ s) by ring, truncZ_neg]
  push_cast; ring

theorem truncQuot_val (a b : FixedDecimal) (s : Nat) : truncQuot (val a) (val b) s =
    if neg a != neg b then - truncQuot (absVal a) (absVal b) s else truncQuot (absVal a) (absVal b) s := by
  have hd : ∀ x y : ℚ, ∀ s, truncQuot x (-y) s = - truncQuot x y s := by
    intro x y s
    rw [← truncQuot_neg]
    unfold truncQuot
    rw [div_neg, neg_div]
  unfold val
  cases neg a <;> cases neg b <;> simp [truncQuot_neg, hd]

theorem quot_scaled {a b : FixedDecimal} {rf : Nat} :
    absVal a / absVal b * 10 ^ (9 * rf) = (mant a * 1000000000 ^ (rf + fu b) : ℚ) / (mant b * 1000000000 ^ fu a) := by
  unfold absVal
  rw [pow9q, pow9q, show 9 * (rf + fu b) = 9 * rf + 9 * fu b by ring, pow_add]
  by_cases hb : (mant b : ℚ) = 0
  · rw [hb]; simp
  · field_simp

/-- The sharp bounds say "truncated". -/
theorem trunc_of_sharp {a b : FixedDecimal} (ha : WF a) (hb : WF b) (zb : mant b ≠ 0) {rf : Nat} {Q : Int}
    (h1 : Q * mant b * 1000000000 ^ fu a ≤ mant a * 1000000000 ^ (rf + fu b))
    (h2 : mant a * 1000000000 ^ (rf + fu b) < (Q + 1) * mant b * 1000000000 ^ fu a) :
    truncQuot (absVal a) (absVal b) (9 * rf) = (Q : ℚ) / 10 ^ (9 * rf) := by
  have hbp : 0 < mant b := lt_of_le_of_ne hb.mant_nonneg (Ne.symm zb)
  have hD : (0 : ℚ) < mant b * 1000000000 ^ fu a := by
    have : (0 : ℚ) < mant b := by exact_mod_cast hbp
    positivity
  unfold truncQuot truncZ
  rw [quot_scaled]
  have hnn : ¬ ((mant a * 1000000000 ^ (rf + fu b) : ℚ) / (mant b * 1000000000 ^ fu a) < 0) := by
    rw [not_lt]
    have : (0 : ℚ) ≤ mant a := by exact_mod_cast ha.mant_nonneg
    positivity
  rw [if_neg hnn]
  congr 2
  rw [Int.floor_eq_iff, le_div_iff₀ hD, div_lt_iff₀ hD, ← mul_assoc, ← mul_assoc]
  constructor
  · exact_mod_cast h1
  · exact_mod_cast h2

end Fxd
