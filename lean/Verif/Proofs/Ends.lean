import Verif.Proofs.Guess
import Verif.Proofs.NoTrapOps
/-!
# Division and remainder end, on any stored operands

Walks over `div_abs` and `rem_abs` for units that need not be below `10^9`: the loops end, no 64-bit quotient overflows, and the
only panic that is not a check of C71 is a division by a zero unit.
-/

namespace Fxd
open Spec

/-- If the computation finishes its value satisfies `P`; if it panics, then by an ordinary check or,
provided `Z`, by a division by zero. -/
def Ends {σ α : Type} (m : Mode) (Z : Prop) (P : α → Prop) : Out σ α → Prop
  | .ok a => P a
  | .err _ _ => True
  | .panic p => Ordinary m p ∨ Z ∧ p = .divZero

namespace Ends
variable {σ α β : Type} {m : Mode} {Z : Prop} {P : α → Prop} {R : β → Prop}

theorem ok {a : α} (h : P a) : Ends m Z P (.ok a : Out σ α) := h
theorem pure {a : α} (h : P a) : Ends m Z P (pure a : Out σ α) := h
theorem err {e : Error} {s : σ} : Ends m Z P (.err e s : Out σ α) := trivial
theorem bind {x : Out σ α} {f : α → Out σ β} (h : Ends m Z P x) (hf : ∀ a, P a → Ends m Z R (f a)) : Ends m Z R (x >>= f) := by
  cases x with
  | ok a => exact hf a h
  | err e s => trivial
  | panic p => exact h
theorem ite {c : Prop} [Decidable c] {x y : Out σ α} (h : c → Ends m Z P x) (h' : ¬ c → Ends m Z P y) :
    Ends m Z P (if c then x else y) := by
  by_cases hc : c
  · rw [if_pos hc]; exact h hc
  · rw [if_neg hc]; exact h' hc
theorem of_ret {x : Out σ α} (h : Halts m x) (hr : Ret P (fun _ => True) x) : Ends m Z P x := by
  cases x with
  | ok a => exact hr
  | err e s => trivial
  | panic p => exact Or.inl (h p rfl)
theorem of_halts {x : Out σ α} (h : Halts m x) : Ends m Z (fun _ => True) x := by
  cases x with
  | ok a => trivial
  | err e s => trivial
  | panic p => exact Or.inl (h p rfl)
theorem of_ok {x : Out σ α} (h : ∃ v, x = .ok v) : Ends m Z (fun _ => True) x := by
  obtain ⟨v, rfl⟩ := h; trivial
theorem elim {x : Out σ α} (h : Ends m Z P x) {p : Panic} (hp : x = .panic p) : Ordinary m p ∨ Z ∧ p = .divZero := by
  rw [hp] at h; exact h

/-- An `i64` operation on values in range. -/
theorem i64 {x : Int} (h0 : -9223372036854775808 ≤ x) (h1 : x < 9223372036854775808) :
    Ends m Z (fun v => v = x) (Fxd.i64 m x : Out σ Int) := by rw [i64_ok h0 h1]; rfl
theorem any64 {x : Int} : Ends m Z (fun _ => True) (Fxd.i64 m x : Out σ Int) := .of_halts .i64
theorem any32 {x : Int} : Ends m Z (fun _ => True) (Fxd.i32 m x : Out σ Int) := .of_halts .i32
theorem idx {l : List Int} (h : Units32 l) {i : Int} : Ends m Z I32 (Fxd.idx l i : Out σ Int) := .of_ret .idx (.idx h)
theorem upd {n : Nat} {l : List Int} {i v : Int} (h : Buf n l) (hv : I32 v) : Ends m Z (Buf n) (Fxd.upd l i v : Out σ (List Int)) :=
  .of_ret .upd (.upd h hv)
theorem slice {l : List Int} {a b : Int} (h : Units32 l) : Ends m Z Units32 (Fxd.slice l a b : Out σ (List Int)) :=
  .of_ret .slice (.slice h)
theorem copy {n : Nat} {l s : List Int} {a b : Int} (h : Buf n l) (hs : Units32 s) :
    Ends m Z (Buf n) (Fxd.copyFromSlice l a b s : Out σ (List Int)) := .of_ret .copyFromSlice (.copyFromSlice h hs)
theorem dassert {c : Bool} : Ends m Z (fun _ => m = .debug → c = true) (Fxd.dassert m c : Out σ Unit) := by
  cases m
  · cases c
    · exact Or.inl (Or.inr ⟨rfl, Or.inr rfl⟩)
    · intro _; rfl
  · intro h; cases h

/-- One step of a short division: the dividend is small, so nothing overflows, and the remainder is small again. -/
theorem divStep {u d : Int} (hz : d = 0 → Z) (h0 : -9223372036854775808 < u) (h1 : u < 9223372036854775808) {f : Int → Int → Out σ β}
    (hf : ∀ q r, q = u.tdiv d → d ≠ 0 → r.natAbs < d.natAbs → Ends m Z R (f q r)) :
    Ends m Z R (do
      let q ← Fxd.idiv u d
      let w ← Fxd.i64 m (q * d)
      let r ← Fxd.i64 m (u - w)
      f q r) := by
  by_cases hd : d = 0
  · rw [show (Fxd.idiv u d : Out σ Int) = .panic .divZero from if_pos hd]
    exact Or.inr ⟨hz hd, rfl⟩
  · have e : (Fxd.idiv u d : Out σ Int) = .ok (u.tdiv d) := by
      unfold Fxd.idiv; rw [if_neg hd, if_neg (by omega)]
    rw [e, ok_bind]
    have h2 := Int.natAbs_tdiv u d
    have h3 : (u.tdiv d * d).natAbs ≤ u.natAbs := by rw [Int.natAbs_mul, h2]; exact Nat.div_mul_le_self _ _
    have h4 : (u - u.tdiv d * d) = u.tmod d := by have := Int.tmod_add_tdiv_mul u d; omega
    have h5 : (u.tmod d).natAbs < d.natAbs := by rw [Int.natAbs_tmod]; exact Nat.mod_lt _ (by omega)
    have h6 : (u.tmod d).natAbs ≤ u.natAbs := by rw [Int.natAbs_tmod]; exact Nat.mod_le _ _
    rw [i64_ok (by omega) (by omega), ok_bind, i64_ok (by omega) (by omega), ok_bind]
    exact hf _ _ rfl hd (by rw [h4]; exact h5)

/-- The bound kept by the remainders. -/
theorem small {v : Int} (h : I32 v) : v.natAbs ≤ 2147483648 := by have := h.1; have := h.2; omega

theorem shortDivLoop {l : List Int} (hl : Units32 l) {d : Int} (hd : I32 d) (hz : d = 0 → Z) : ∀ (n : Nat) (i r : Int) (res : List Int),
    r.natAbs ≤ 2147483648 → Ends m Z (fun _ => True) (Fxd.shortDivLoop m l d n i r res : Out σ _)
  | 0, _, _, _, _ => trivial
  | n + 1, i, r, res, hr => by
    unfold Fxd.shortDivLoop UNIT
    refine .bind (.i64 (by omega) (by omega)) ?_
    rintro _ rfl
    refine .bind (P := fun u => u.natAbs ≤ 2147483651000000000) ?_ fun u hu => ?_
    · refine .ite (fun _ => .bind (.idx hl) fun v hv => ?_) fun _ => ?_
      · have := small hv
        refine .of_ret .i64 ?_
        rw [i64_ok (by omega) (by omega)]
        show (_ : Int).natAbs ≤ _
        omega
      · show (_ : Int).natAbs ≤ _
        omega
    have := small hd
    exact divStep hz (by omega) (by omega) fun q r _ _ h => .bind (.of_halts .upd) fun res _ =>
      shortDivLoop hl hd hz n _ _ _ (by omega)

theorem guessQ {buf : List Int} (hb : Units32 buf) {i d0 d1 : Int} (hz : d0 = 0 → Z) (h0 : I32 d0) (h1 : I32 d1) :
    Ends m Z (fun _ => True) (Fxd.guessQ m buf i d0 d1 : Out σ Int) := by
  unfold Fxd.guessQ UNIT
  refine .bind (.idx hb) fun u0 hu0 => ?_
  refine .bind (P := I32) (.ite (fun _ => .idx hb) fun _ => I32.zero) fun u1 hu1 => ?_
  have s0 := small hu0
  have s1 := small hu1
  refine .bind (.i64 (by omega) (by omega)) ?_
  rintro _ rfl
  refine .bind (.i64 (by omega) (by omega)) ?_
  rintro _ rfl
  refine divStep hz (by omega) (by omega) fun q r _ hd _ => ?_
  refine .bind .dassert fun _ hq => ?_
  refine .bind (P := fun _ => True) (.ite (fun _ => .of_halts .idx) fun _ => trivial) fun u2 _ => ?_
  cases m
  · have := hq rfl
    rw [decide_eq_true_eq] at this
    refine .of_halts (qhat_debug qhatFuel q r (by decide) ?_)
    unfold qhatFuel; norm_num; omega
  · exact .of_ok (qhat_release_ok hd h0 h1 _ _ _)

theorem longDivLoop {b2 : List Int} {rn d0 d1 : Int} (hz : d0 = 0 → Z) (h0 : I32 d0) (h1 : I32 d1) : ∀ (n : Nat) (i : Int) (b1 res : List Int),
    Buf 18 b1 → Ends m Z (fun _ => True) (Fxd.longDivLoop m b2 rn d0 d1 n i b1 res : Out σ _)
  | 0, _, _, _, _ => trivial
  | n + 1, i, b1, res, hb => by
    unfold Fxd.longDivLoop
    refine .bind (.guessQ hb.2 hz h0 h1) fun q _ => .bind (.of_ret (.mulSub _ _ _ _ _ _ _ _) (.mulSub _ _ _ hb _ _)) ?_
    rintro ⟨b1, c, b⟩ hb
    refine .bind (.of_halts .idx) fun _ _ => .bind any32 fun _ _ => .bind any32 fun _ _ => .ite (fun _ => .bind any64 fun _ _ => ?_) fun _ => ?_
    · exact .bind (.of_ret (.divAddBack _ _ _ _ _) (.divAddBack _ _ hb _)) fun b1 hb => .bind (.of_halts .upd) fun _ _ =>
        longDivLoop hz h0 h1 n _ _ _ hb
    · exact .bind (.upd hb .zero) fun b1 hb => .bind (.of_halts .upd) fun _ _ => longDivLoop hz h0 h1 n _ _ _ hb

theorem findNonZero {l : List Int} : ∀ n : Nat, Halts m (Fxd.findNonZero l n : Out σ Int)
  | 0 => .ok
  | n + 1 => by
    unfold Fxd.findNonZero
    exact .bind .idx fun _ => .ite .ok (findNonZero n)

theorem findPos {l : List Int} {n : Nat} : Ends m Z (fun r : Int => r = -1 ∨ ∃ k : Nat, r = k ∧ k < l.length ∧ 0 < dg l k)
    (Fxd.findNonZero l n : Out σ Int) := .of_ret (findNonZero n) (.findNonZeroP n)

theorem top {l : List Int} (h : Units32 l) {i : Int} : Ends m Z (fun v => I32 v ∧ v = dg l i.toNat) (Fxd.idx l i : Out σ Int) := by
  refine .of_ret .idx ?_
  have h1 := Ret.idx (Q := fun _ : σ => True) (i := i) h
  have h2 := Ret.idxEq (Q := fun _ : σ => True) (l := l) (i := i)
  cases hx : (Fxd.idx l i : Out σ Int) with
  | ok v => rw [hx] at h1 h2; exact ⟨h1, h2.2.2⟩
  | err e t => trivial
  | panic p => trivial

theorem normFactor {v : Int} (hv : 0 < v) : Ends m Z (fun f => f = 1000000000 / (v + 1)) (Fxd.idiv UNIT (v + 1) : Out σ Int) := by
  unfold Fxd.idiv UNIT
  refine .ite (fun h => absurd h (by omega)) fun _ => .ite (fun h => absurd h.1 (by norm_num)) fun _ => ?_
  exact Int.tdiv_eq_ediv_of_nonneg (by norm_num)

theorem normFactor_range {v f : Int} (hv : 0 < v) (hf : f = 1000000000 / (v + 1)) : 0 ≤ f ∧ f ≤ 1000000000 := by
  rw [hf]
  exact ⟨Int.ediv_nonneg (by norm_num) (by omega), Int.ediv_le_self _ (by norm_num)⟩

/-- The carry out of the normalised dividend is bounded. -/
theorem normCarry {f : Int} (hf : 0 ≤ f ∧ f ≤ 1000000000) : ∀ (l : List Int) (c : Int), Units32 l → c.natAbs ≤ 3000000000 →
    Ends m Z (fun p => Units32 p.1 ∧ p.2.natAbs ≤ 3000000000) (Fxd.normLoop m f l c : Out σ (List Int × Int))
  | [], c, _, hc => ⟨Units32.nil, hc⟩
  | v :: vs, c, hl, hc => by
    unfold Fxd.normLoop UNIT
    have hv := small hl.head
    have hp : (v * f).natAbs ≤ 2147483648 * 1000000000 := by
      rw [Int.natAbs_mul]; exact Nat.mul_le_mul hv (by omega)
    refine .bind (.i64 (by omega) (by omega)) ?_
    rintro _ rfl
    refine .bind (.i64 (by omega) (by omega)) ?_
    rintro _ rfl
    dsimp only
    have hq : ((v * f + c).tdiv 1000000000).natAbs ≤ 3000000000 := by
      rw [Int.natAbs_tdiv]
      exact (Nat.div_le_div_right (show (v * f + c).natAbs ≤ 3000000000 * 1000000000 by omega)).trans (by norm_num)
    refine .bind (.of_halts .i64) fun w _ => .bind (.of_halts .i64) fun d _ => .bind (normCarry hf vs _ hl.tail hq) ?_
    rintro ⟨r, c⟩ ⟨h1, h2⟩
    exact .pure ⟨Units32.cons (.wrap _) h1, h2⟩

/-- The leading unit of the normalised divisor is not zero, whatever the dividend left as carry. -/
theorem normTop {f v : Int} (f0 : 0 < f) (hf : f * (v + 1) ≤ 1000000000) (hh : 500000000 ≤ f * v) : ∀ (l : List Int) (c : Int),
    DigL l → -3000000000 ≤ c → c < f → (l = [] → -3 ≤ c) →
    Ret (fun p => dg p.1 l.length ≠ 0 ∧ p.1.length = l.length + 1) (fun _ => True)
      (Fxd.normLoop m f (l ++ [v]) c : Out σ (List Int × Int))
  | [], c, _, h0, h1, hn => by
    have hn := hn rfl
    have e1 : f * (v + 1) = v * f + f := by ring
    have e2 : f * v = v * f := by ring
    rw [List.nil_append]
    unfold Fxd.normLoop Fxd.normLoop UNIT
    obtain ⟨p, hp⟩ : ∃ p, v * f = p := ⟨_, rfl⟩
    rw [e1] at hf
    rw [e2] at hh
    rw [hp] at hf hh ⊢
    rw [i64_ok (by omega) (by omega), ok_bind, i64_ok (by omega) (by omega), ok_bind]
    have hq : (p + c).tdiv 1000000000 = 0 := by rw [Int.tdiv_eq_ediv_of_nonneg (by omega)]; omega
    dsimp only
    rw [hq, i64_ok (by norm_num) (by norm_num), ok_bind, i64_ok (by omega) (by omega), ok_bind, ok_bind]
    refine ⟨?_, rfl⟩
    show dg [wrap 32 _] 0 ≠ 0
    rw [dg_cons_zero, wrap32_ok (by omega) (by omega)]
    omega
  | x :: l, c, hl, h0, h1, _ => by
    have hx := hl x (by simp)
    rw [List.cons_append]
    unfold Fxd.normLoop UNIT
    have p0 : 0 ≤ x * f := mul_nonneg hx.1 f0.le
    have p1 : x * f ≤ 999999999 * f := mul_le_mul_of_nonneg_right (by omega) f0.le
    have f1 : f ≤ 1000000000 := by
      have : f * 1 ≤ f * (v + 1) := mul_le_mul_of_nonneg_left (by
        by_contra hc
        have : f * v ≤ 0 := mul_nonpos_of_nonneg_of_nonpos f0.le (by omega)
        omega) f0.le
      omega
    obtain ⟨p, hp⟩ : ∃ p, x * f = p := ⟨_, rfl⟩
    rw [hp] at p0 p1 ⊢
    rw [i64_ok (by omega) (by omega), ok_bind, i64_ok (by omega) (by omega), ok_bind]
    dsimp only
    have hq : -3 ≤ (p + c).tdiv 1000000000 ∧ (p + c).tdiv 1000000000 < f := by
      by_cases hs : 0 ≤ p + c
      · rw [Int.tdiv_eq_ediv_of_nonneg hs]; omega
      · have : (p + c).tdiv 1000000000 = -((-(p + c)) / 1000000000) := by
          rw [← Int.tdiv_eq_ediv_of_nonneg (by omega), Int.neg_tdiv, neg_neg]
        rw [this]; omega
    refine .bind .i64 fun w _ => .bind .i64 fun d _ => .bind (normTop f0 hf hh l _ (fun u hu => hl u (by simp [hu])) (by omega)
      (by omega) (fun _ => by omega)) ?_
    rintro ⟨r, c⟩ ⟨hr, hr'⟩
    dsimp only at hr hr'
    refine ⟨?_, by show (_ :: r).length = _; simp only [List.length_cons]; omega⟩
    show dg (_ :: r) (l.length + 1) ≠ 0
    rw [dg_cons_succ]; exact hr

/-- Copying keeps the units, and puts them where it says. -/
theorem copyAt {n : Nat} {l s : List Int} {a b : Int} (h : Buf n l) (hs : Units32 s) :
    Ends m Z (fun r => Buf n r ∧ ∀ k < s.length, dg r (a.toNat + k) = dg s k) (Fxd.copyFromSlice l a b s : Out σ (List Int)) := by
  have h1 := Ret.copyFromSlice (Q := fun _ : σ => True) (a := a) (b := b) h hs
  refine .of_ret .copyFromSlice ?_
  revert h1
  unfold Fxd.copyFromSlice
  by_cases hc : 0 ≤ a ∧ a ≤ b ∧ b ≤ l.length ∧ b - a = s.length
  · rw [if_pos hc]
    refine fun h1 => ⟨h1, fun k hk => ?_⟩
    have hl : (l.take a.toNat).length = a.toNat := by rw [List.length_take]; omega
    rw [dg_append, dg_append, hl, if_pos (by rw [List.length_append, hl]; omega), if_neg (by omega), Nat.add_sub_cancel_left]
  · rw [if_neg hc]; exact fun _ => trivial

/-- The two buffers of a long division. -/
theorem prepare {B : List Int} (hB : Units32 B) {nr w : Nat} {z1 z2 : List Int} (hz1 : Buf 18 z1) (hz2 : Buf w z2)
    (hr : nr < B.length) (hr0 : nr ≠ 0) (ht : 0 < dg B nr) {f : Int} (hf : f = 1000000000 / (dg B nr + 1)) {p1 e1 p2 e2 : Int}
    {lseg rseg : List Int} (hl : Units32 lseg) (hrs : rseg = B.take (nr + 1)) :
    Ends m Z (fun r => Buf 18 r.1 ∧ Buf w r.2 ∧ (DigL B → dg r.2 (p2.toNat + nr) ≠ 0)) (
      if f = 1 then do
        let buf1 ← Fxd.copyFromSlice z1 p1 e1 lseg
        let buf2 ← Fxd.copyFromSlice z2 p2 e2 rseg
        return (buf1, buf2)
      else do
        let (l, carry) ← Fxd.normLoop m f lseg 0
        let buf1 ← Fxd.copyFromSlice z1 p1 e1 l
        let buf1 ← (if carry > 0 then Fxd.upd buf1 e1 (wrap 32 carry) else .ok buf1)
        let (r, carry) ← Fxd.normLoop m f rseg (if carry > 0 then 0 else carry)
        let buf2 ← Fxd.copyFromSlice z2 p2 e2 r
        Fxd.dassert m (carry == 0)
        return (buf1, buf2) : Out σ (List Int × List Int)) := by
  have hfr := normFactor_range ht hf
  have hrl : rseg.length = nr + 1 := by rw [hrs, List.length_take]; omega
  have hrd : Units32 rseg := by rw [hrs]; exact hB.take _
  have hrt : dg rseg nr = dg B nr := by rw [hrs, dg_take, if_pos (by omega)]
  refine .ite (fun _ => ?_) fun _ => ?_
  · refine .bind (.copy hz1 hl) fun buf1 h1 => .bind (copyAt hz2 hrd) fun buf2 h2 => .pure ⟨h1, h2.1, fun _ => ?_⟩
    dsimp only
    rw [h2.2 nr (by omega), hrt]
    omega
  · refine .bind (normCarry hfr _ _ hl (by decide)) ?_
    rintro ⟨l, c⟩ ⟨hl', hc⟩
    dsimp only at hl' hc ⊢
    refine .bind (.copy hz1 hl') fun buf1 h1 => .bind (.ite (fun _ => .upd h1 (.wrap _)) fun _ => .ok h1) fun buf1 h1 => ?_
    refine .bind (P := fun p => Units32 p.1 ∧ (DigL B → dg p.1 nr ≠ 0 ∧ p.1.length = nr + 1)) (.of_ret (.normLoop _ _ _) ?_) ?_
    · have h2 := Ret.normLoop (m := m) (Q := fun _ : σ => True) (f := f) rseg (if c > 0 then 0 else c)
      by_cases hD : DigL B
      · obtain ⟨f0, f1, f2, f3⟩ := norm_facts ht (hD.dig nr).2
        rw [← hf] at f0 f1 f2 f3
        have hsplit : rseg = B.take nr ++ [dg B nr] := by
          rw [hrs, List.take_succ]
          congr 1
          unfold dg
          rw [List.getElem?_eq_getElem hr]
          simp [hr]
        have hln : (B.take nr).length = nr := by rw [List.length_take]; omega
        have h3 := normTop (m := m) (σ := σ) f0 f2 f3 (B.take nr) (if c > 0 then 0 else c) (hD.take _)
          (by split_ifs <;> omega) (by split_ifs <;> omega) (fun h => by
            rw [h] at hln; simp at hln; omega)
        rw [← hsplit, hln] at h3
        cases hx : (Fxd.normLoop m f rseg (if c > 0 then 0 else c) : Out σ _) with
        | ok v => rw [hx] at h2 h3; exact ⟨h2, fun _ => h3⟩
        | err e t => trivial
        | panic p => trivial
      · exact h2.mono fun p hp => ⟨hp, fun h => absurd h hD⟩
    rintro ⟨r, c2⟩ ⟨hr', hr2⟩
    dsimp only at hr' hr2 ⊢
    refine .bind (copyAt hz2 hr') fun buf2 h2 => .bind .dassert fun _ _ => .pure ⟨h1, h2.1, fun hD => ?_⟩
    dsimp only
    rw [h2.2 nr (by have := (hr2 hD).2; omega)]
    exact (hr2 hD).1

theorem divAbs {a b res : FixedDecimal} (ha : Stored a) (hb : Stored b) (hZ : ¬ DigL b.lsu → Z) (k : Int) :
    Ends m Z (fun _ => True) (divAbs m a b res k) := by
  unfold Fxd.divAbs
  refine .bind (.of_halts .getUnits) fun li _ => .bind (.of_halts .getUnits) fun lf _ => .bind (.of_halts .getUnits) fun ri _ =>
    .bind (.of_halts .getUnits) fun rf _ => .bind findPos fun rn hrn => .ite (fun _ => .err) fun hr0 =>
    .bind findPos fun ln hln => .ite (fun _ => .ok trivial) fun _ => ?_
  obtain ⟨nr, rfl, hrb, hrp⟩ := hrn.resolve_left (by omega)
  refine .bind (top hb.units) fun rt hrt => .bind (.of_halts .idx) fun lt _ => .bind (.of_halts .isz) fun k _ => .bind (.of_halts .isz) fun s _ =>
    .bind (.of_halts .getUnits) fun fu _ => .bind (.slice ha.units) fun ls hls => .bind (.of_ret .slice .sliceLen) fun rs hrs => ?_
  replace hrs := hrs.1
  dsimp only
  refine .bind (P := fun _ => True) (.ite (fun _ => .bind (.of_halts .getUnits) fun _ _ => .ite (fun _ => .err) fun _ => trivial)
    fun _ => .bind (.of_halts .getUnits) fun _ _ => .pure trivial) ?_
  rintro ⟨i, u, f, st⟩ -
  dsimp only
  refine .ite (fun h0 => .bind (top hb.units) fun d hd => .bind (.ite (fun _ => .idx ha.units) fun _ => I32.zero) fun r hr =>
    .bind (.shortDivLoop ha.units hd.1 ?_ _ _ _ _ (small hr)) fun l _ => .pure trivial) fun h0 => ?_
  · have : nr = 0 := by omega
    subst this
    have := hd.2
    rw [Int.toNat_zero] at this
    omega
  rw [hrt.2, Int.toNat_natCast]
  refine .bind (normFactor hrp) fun nf hnf => ?_
  refine .bind (prepare hb.units buf_zero18 buf_zero hrb (by omega) hrp hnf hls (hrs.trans (by congr 1))) ?_
  rintro ⟨b1, b2⟩ ⟨h1, h2, h3⟩
  refine .bind (top h2.2) fun _ g0 => .bind (.idx h2.2) fun _ g1 => .bind (.longDivLoop (fun hz => hZ fun hD => ?_) g0.1 g1 _ _ _ _ h1)
    fun l _ => .pure trivial
  have := h3 hD
  rw [Int.toNat_zero, zero_add] at this
  rw [g0.2, Int.toNat_natCast] at hz
  exact this hz

theorem divTo {a b res : FixedDecimal} (ha : Stored a) (hb : Stored b) (hZ : ¬ DigL b.lsu → Z) (k : Int) :
    Ends m Z (fun _ => True) (a.divTo m b res k) := by
  unfold FixedDecimal.divTo
  exact .bind (.divAbs ha hb hZ _) fun _ _ => .pure trivial

/-! ## Remainder -/

theorem shortRemLoop {l : List Int} (hl : Units32 l) {d : Int} (hd : I32 d) (hz : d = 0 → Z) : ∀ (n : Nat) (i r : Int),
    r.natAbs ≤ 2147483648 → Ends m Z (fun _ => True) (Fxd.shortRemLoop m l d n i r : Out σ _)
  | 0, _, _, _ => trivial
  | n + 1, i, r, hr => by
    unfold Fxd.shortRemLoop UNIT
    refine .bind (.i64 (by omega) (by omega)) ?_
    rintro _ rfl
    refine .bind (.idx hl) fun v hv => ?_
    have := small hv
    refine .bind (.i64 (by omega) (by omega)) ?_
    rintro _ rfl
    have := small hd
    exact divStep hz (by omega) (by omega) fun q r _ _ h => shortRemLoop hl hd hz n _ _ (by omega)

theorem remCopyLoop {l : List Int} : ∀ (n : Nat) (res : List Int) (z : Int),
    Ends m Z (fun _ => True) (Fxd.remCopyLoop l n res z : Out σ _)
  | 0, _, _ => trivial
  | n + 1, res, z => by
    unfold Fxd.remCopyLoop
    exact .bind (.of_halts .idx) fun _ _ => .bind (.of_halts .upd) fun _ _ => remCopyLoop n _ _

theorem mulSubSeg {q : Int} : ∀ (s1 s2 : List Int) (c b : Int), Units32 s1 →
    Ret (fun p => Units32 p.1) (fun _ => True) (Fxd.mulSubSeg m q s1 s2 c b : Out σ (List Int × Int × Int))
  | [], s2, c, b, h => by unfold Fxd.mulSubSeg; exact h
  | x :: xs, [], c, b, h => by unfold Fxd.mulSubSeg; exact h
  | x :: xs, y :: ys, c, b, h => by
    unfold Fxd.mulSubSeg
    refine .bind .i64 fun _ _ => .bind .i64 fun _ _ => .bind .i64 fun _ _ => .bind .i64 fun _ _ => .bind .subWithBorrow ?_
    rintro ⟨s, b⟩ ⟨hs, -⟩
    refine .bind (mulSubSeg xs ys _ _ h.tail) ?_
    rintro ⟨r, c, b⟩ hr
    exact Units32.cons hs hr

theorem negSeg : ∀ (s : List Int) (b : Int), Ret Units32 (fun _ => True) (Fxd.negSeg m s b : Out σ (List Int))
  | [], b => Units32.nil
  | x :: xs, b => by
    unfold Fxd.negSeg
    refine .bind .subWithBorrow ?_
    rintro ⟨s, b⟩ ⟨hs, -⟩
    exact .bind (negSeg xs _) fun r hr => Units32.cons hs hr

theorem longRemLoop {b2 : List Int} {d0 d1 : Int} (hz : d0 = 0 → Z) (h0 : I32 d0) (h1 : I32 d1) : ∀ (n : Nat) (i : Int) (b1 : List Int),
    Buf 18 b1 → Ends m Z (Buf 18) (Fxd.longRemLoop m b2 d0 d1 n i b1 : Out σ _)
  | 0, _, _, h => h
  | n + 1, i, b1, hb => by
    unfold Fxd.longRemLoop
    refine .bind (.guessQ hb.2 hz h0 h1) fun q _ => .bind (.slice hb.2) fun s hs =>
      .bind (.of_ret (.mulSubSeg _ _ _ _ _) (mulSubSeg _ _ _ _ hs)) ?_
    rintro ⟨s, c, b⟩ hs
    exact .bind (.copy hb hs) fun b1 hb => .bind (.of_halts .idx) fun _ _ => .bind any32 fun _ _ => .bind any32 fun _ _ =>
      .ite (fun _ => .bind (.slice hb.2) fun s hs => .bind (.of_ret (.negSeg _ _) (negSeg _ _)) fun s hs =>
        .bind (.copy hb hs) fun b1 hb => .bind (.upd hb .zero) fun b1 hb => longRemLoop hz h0 h1 n _ _ hb)
      fun _ => .bind (.upd hb .zero) fun b1 hb => longRemLoop hz h0 h1 n _ _ hb

theorem unnormLoop {b1 : List Int} (hb : Units32 b1) {f : Int} (hz : f = 0 → Z) (hf : f.natAbs ≤ 1000000000) : ∀ (n : Nat) (r z : Int) (res : List Int),
    r.natAbs ≤ 1000000000 → Ends m Z (fun _ => True) (Fxd.unnormLoop m b1 f n r z res : Out σ _)
  | 0, _, _, _, _ => trivial
  | n + 1, r, z, res, hr => by
    unfold Fxd.unnormLoop UNIT
    refine .bind (.i64 (by omega) (by omega)) ?_
    rintro _ rfl
    refine .bind (.idx hb) fun v hv => ?_
    have := small hv
    refine .bind (.i64 (by omega) (by omega)) ?_
    rintro _ rfl
    refine .ite (fun _ => unnormLoop hb hz hf n _ _ _ hr) fun _ => ?_
    exact divStep hz (by omega) (by omega) fun q r _ _ h => .ite (fun _ => .bind (.of_halts .upd) fun _ _ =>
      unnormLoop hb hz hf n _ _ _ (by omega)) fun _ => unnormLoop hb hz hf n _ _ _ (by omega)

theorem remAbs {a b res : FixedDecimal} (ha : Stored a) (hb : Stored b) (hZ : ¬ DigL b.lsu → Z) :
    Ends m Z (fun _ => True) (remAbs m a b res) := by
  unfold Fxd.remAbs
  refine .bind (.of_halts .getUnits) fun li _ => .bind (.of_halts .getUnits) fun lf _ => .bind (.of_halts .getUnits) fun ri _ =>
    .bind (.of_halts .getUnits) fun rf _ => .bind findPos fun rn hrn => .ite (fun _ => .err) fun hr0 =>
    .bind findPos fun ln hln => .ite (fun _ => .ok trivial) fun _ => .bind (.of_halts (.cmpAbsLsu _ _ _ _ _ _)) fun o _ => ?_
  cases o with
  | lt =>
    exact .ite (fun _ => .bind (.of_halts .slice) fun s _ => .bind (.of_halts .copyFromSlice) fun l _ => .pure trivial)
      fun _ => .bind (.of_halts .slice) fun s _ => .bind (.of_halts .copyFromSlice) fun l _ => .pure trivial
  | eq => exact .pure trivial
  | gt =>
    dsimp only
    obtain ⟨nr, rfl, hrb, hrp⟩ := hrn.resolve_left (by omega)
    refine .bind (.of_halts .getUnits) fun fu _ => .bind (.slice ha.units) fun ls hls => .bind (.of_ret .slice .sliceLen) fun rs hrs =>
      .ite (fun h0 => ?_) fun h0 => ?_
    · refine .bind (top hb.units) fun d hd => .bind (.copy buf_zero18 hls) fun buf hbuf => .bind
        (.ite (fun _ => .idx ha.units) fun _ => I32.zero) fun _ hr => .bind (.shortRemLoop hbuf.2 hd.1 ?_ _ _ _ (small hr)) fun r _ =>
        .bind (P := fun _ => True) (.ite (fun _ => .bind (.of_halts .upd) fun l _ => .pure trivial) fun _ => .pure trivial) ?_
      · have : nr = 0 := by omega
        subst this
        have := hd.2
        rw [Int.toNat_zero] at this
        omega
      rintro ⟨l, z⟩ -
      refine .bind (remCopyLoop _ _ _) ?_
      rintro ⟨l, z⟩ -
      exact .of_halts .remFinish
    · refine .bind (top hb.units) fun t hrt => ?_
      rw [hrt.2, Int.toNat_natCast]
      refine .bind (normFactor hrp) fun nf hnf => ?_
      refine .bind (prepare hb.units buf_zero18 buf_zero18 hrb (by omega) hrp hnf hls (hrs.1.trans (by congr 1))) ?_
      rintro ⟨b1, b2⟩ ⟨h1, h2, h3⟩
      have hnr := normFactor_range hrp hnf
      have hnz : nf = 0 → Z := fun h => hZ fun hD => by
        have := (norm_facts hrp (hD.dig nr).2).1
        omega
      refine .bind (top h2.2) fun _ g0 => .bind (.idx h2.2) fun _ g1 => .bind (.of_halts .slice) fun _ _ =>
        .bind (.longRemLoop (fun hz => hZ fun hD => ?_) g0.1 g1 _ _ _ h1) fun b1 h1 => ?_
      · have := h3 hD
        rw [g0.2] at hz
        refine this (hz ▸ congrArg _ ?_)
        omega
      have tl : ∀ p : List Int × Int × Int, Ends m Z (fun _ => True)
          (Fxd.dassert m (p.2.1 == 0) >>= fun _ => (Fxd.remFinish m p.1 p.2.2 (max a.frac b.frac) fu : Out FixedDecimal _)) :=
        fun p => .bind .dassert fun _ _ => .of_halts .remFinish
      cases m
      · exact .bind (.of_halts .idx) fun _ _ => .bind .dassert fun _ _ => .bind (unnormLoop h1.2 hnz (by omega) _ _ _ _ (by decide)) fun p _ => tl p
      · exact .bind (P := fun _ => True) trivial fun _ _ => .bind (unnormLoop h1.2 hnz (by omega) _ _ _ _ (by decide)) fun p _ => tl p

theorem remTo {a b res : FixedDecimal} (ha : Stored a) (hb : Stored b) (hZ : ¬ DigL b.lsu → Z) : Ends m Z (fun _ => True) (a.remTo m b res) := by
  unfold FixedDecimal.remTo
  exact .bind (.remAbs ha hb hZ) fun _ _ => .pure trivial

end Ends
end Fxd
