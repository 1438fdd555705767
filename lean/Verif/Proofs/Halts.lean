import Verif.Model.Ops
import Verif.Model.Parse
import Verif.Model.Format
import Verif.Model.Convert
import Verif.Proofs.NoErr
import Verif.Spec.Panics
/-!
# Code that panics only in ordinary ways

A structural walk over the functions, like `Verif/Proofs/Modes.lean`; the functions that divide by a unit or run a loop
without a syntactic bound need an argument and are treated where that argument is available.
-/

namespace Fxd
open Spec

namespace Spec.Halts
variable {σ α β γ δ ε ζ : Type} {m : Mode}

theorem ok {a : α} : Halts m (.ok a : Out σ α) := by intro p h; cases h
theorem pure {a : α} : Halts m (pure a : Out σ α) := ok
theorem err {e : Error} {s : σ} : Halts m (.err e s : Out σ α) := by intro p h; cases h
theorem index : Halts m (.panic .index : Out σ α) := by intro p h; cases h; exact Or.inl rfl
theorem overflow : Halts .debug (.panic .overflow : Out σ α) := by intro p h; cases h; exact Or.inr ⟨rfl, Or.inl rfl⟩
theorem assert : Halts .debug (.panic .assert : Out σ α) := by intro p h; cases h; exact Or.inr ⟨rfl, Or.inr rfl⟩

theorem bind' {x : Out σ α} {f : α → Out σ β} (h : Halts m x) (hf : ∀ a, x = .ok a → Halts m (f a)) :
    Halts m (x >>= f) := by
  cases x with
  | ok a => exact hf a rfl
  | err e s => exact err
  | panic p => intro q hq; exact h q (by cases hq; rfl)
theorem bind {x : Out σ α} {f : α → Out σ β} (h : Halts m x) (hf : ∀ a, Halts m (f a)) : Halts m (x >>= f) :=
  bind' h fun a _ => hf a
theorem bind2 {x : Out σ (α × β)} {f : α × β → Out σ ζ} (h : Halts m x)
    (hf : ∀ a b, Halts m (f (a, b))) : Halts m (x >>= f) := bind h fun ⟨a, b⟩ => hf a b
theorem bind3 {x : Out σ (α × β × γ)} {f : α × β × γ → Out σ ζ} (h : Halts m x)
    (hf : ∀ a b c, Halts m (f (a, b, c))) : Halts m (x >>= f) := bind h fun ⟨a, b, c⟩ => hf a b c
theorem bind4 {x : Out σ (α × β × γ × δ)} {f : α × β × γ × δ → Out σ ζ} (h : Halts m x)
    (hf : ∀ a b c d, Halts m (f (a, b, c, d))) : Halts m (x >>= f) := bind h fun ⟨a, b, c, d⟩ => hf a b c d
theorem bind5 {x : Out σ (α × β × γ × δ × ε)} {f : α × β × γ × δ × ε → Out σ ζ} (h : Halts m x)
    (hf : ∀ a b c d e, Halts m (f (a, b, c, d, e))) : Halts m (x >>= f) := bind h fun ⟨a, b, c, d, e⟩ => hf a b c d e

theorem ite {c : Prop} [Decidable c] {x y : Out σ α} (h : Halts m x) (h' : Halts m y) : Halts m (if c then x else y) := by
  by_cases hc : c
  · rw [if_pos hc]; exact h
  · rw [if_neg hc]; exact h'

theorem sarith {b : Nat} {x : Int} : Halts m (sarith m b x : Out σ Int) := by
  unfold Fxd.sarith
  cases m
  · exact ite ok overflow
  · exact ite ok ok
theorem i8 {x : Int} : Halts m (i8 m x : Out σ Int) := sarith
theorem i32 {x : Int} : Halts m (i32 m x : Out σ Int) := sarith
theorem i64 {x : Int} : Halts m (i64 m x : Out σ Int) := sarith
theorem isz {x : Int} : Halts m (isz m x : Out σ Int) := sarith
theorem usz {x : Int} : Halts m (usz m x : Out σ Int) := by
  unfold Fxd.usz
  cases m
  · exact ite ok overflow
  · exact ite ok ok
theorem dassert {c : Bool} : Halts m (dassert m c : Out σ Unit) := by
  cases m
  · cases c
    · exact assert
    · exact ok
  · exact ok
theorem idx {l : List α} {i : Int} : Halts m (idx l i : Out σ α) := by
  unfold Fxd.idx; split_ifs
  · cases l[i.toNat]?
    · exact index
    · exact ok
  · exact index
theorem upd {l : List α} {i : Int} {v : α} : Halts m (upd l i v : Out σ (List α)) := ite ok index
theorem slice {l : List α} {a b : Int} : Halts m (slice l a b : Out σ (List α)) := ite ok index
theorem copyFromSlice {l s : List α} {a b : Int} : Halts m (copyFromSlice l a b s : Out σ (List α)) := ite ok index
theorem copyWithin {l : List α} {a b d : Int} : Halts m (copyWithin l a b d : Out σ (List α)) := ite ok index
theorem zeroRange {l : List Int} {a b : Int} : Halts m (zeroRange l a b : Out σ (List Int)) := ite ok index
theorem div9 {d : Int} : Halts m (div9 d : Out σ Int) := idx
theorem mod9 {d : Int} : Halts m (mod9 d : Out σ Int) := idx

end Spec.Halts

/-- Closes a goal about a function already treated. -/
syntax "hleaf" : tactic
macro_rules | `(tactic| hleaf) => `(tactic| with_reducible assumption)
macro_rules | `(tactic| hleaf) => `(tactic| with_reducible exact Halts.ok)
macro_rules | `(tactic| hleaf) => `(tactic| with_reducible exact Halts.pure)
macro_rules | `(tactic| hleaf) => `(tactic| with_reducible exact Halts.err)
macro_rules | `(tactic| hleaf) => `(tactic| with_reducible exact Halts.index)
macro_rules | `(tactic| hleaf) => `(tactic| with_reducible exact Halts.i8)
macro_rules | `(tactic| hleaf) => `(tactic| with_reducible exact Halts.i32)
macro_rules | `(tactic| hleaf) => `(tactic| with_reducible exact Halts.i64)
macro_rules | `(tactic| hleaf) => `(tactic| with_reducible exact Halts.isz)
macro_rules | `(tactic| hleaf) => `(tactic| with_reducible exact Halts.usz)
macro_rules | `(tactic| hleaf) => `(tactic| with_reducible exact Halts.dassert)
macro_rules | `(tactic| hleaf) => `(tactic| with_reducible exact Halts.idx)
macro_rules | `(tactic| hleaf) => `(tactic| with_reducible exact Halts.upd)
macro_rules | `(tactic| hleaf) => `(tactic| with_reducible exact Halts.slice)
macro_rules | `(tactic| hleaf) => `(tactic| with_reducible exact Halts.copyFromSlice)
macro_rules | `(tactic| hleaf) => `(tactic| with_reducible exact Halts.copyWithin)
macro_rules | `(tactic| hleaf) => `(tactic| with_reducible exact Halts.zeroRange)
macro_rules | `(tactic| hleaf) => `(tactic| with_reducible exact Halts.div9)
macro_rules | `(tactic| hleaf) => `(tactic| with_reducible exact Halts.mod9)

/-- Walks through `do` blocks and `if`s. -/
macro "halts" : tactic => `(tactic| repeat' (first
      | hleaf
      | with_reducible refine Halts.bind5 ?_ ?_
      | with_reducible refine Halts.bind4 ?_ ?_
      | with_reducible refine Halts.bind3 ?_ ?_
      | with_reducible refine Halts.bind2 ?_ ?_
      | with_reducible refine Halts.bind ?_ ?_
      | with_reducible refine Halts.ite ?_ ?_
      | with_reducible intro _
      | dsimp only))

variable {σ : Type} {m : Mode}
theorem Spec.Halts.getUnits {d : Int} :
    Halts m (Fxd.getUnits m d : Out σ _) := by
  unfold Fxd.getUnits; halts
macro_rules | `(tactic| hleaf) => `(tactic| with_reducible exact Halts.getUnits)
theorem Spec.Halts.intgUnits {d : FixedDecimal} :
    Halts m (FixedDecimal.intgUnits m d : Out σ _) := by
  unfold FixedDecimal.intgUnits; halts
macro_rules | `(tactic| hleaf) => `(tactic| with_reducible exact Halts.intgUnits)
theorem Spec.Halts.fracUnits {d : FixedDecimal} :
    Halts m (FixedDecimal.fracUnits m d : Out σ _) := by
  unfold FixedDecimal.fracUnits; halts
macro_rules | `(tactic| hleaf) => `(tactic| with_reducible exact Halts.fracUnits)
theorem Spec.Halts.hash {d : FixedDecimal} :
    Halts m (FixedDecimal.hash m d : Out σ _) := by
  unfold FixedDecimal.hash; halts
macro_rules | `(tactic| hleaf) => `(tactic| with_reducible exact Halts.hash)
theorem Spec.Halts.cmpExtra (l : List Int) (o : Int) (r : Ordering) (n : Nat) (i : Int) :
    Halts m (Fxd.cmpExtra l o r n i : Out σ _) := by
  induction n generalizing i with
  | zero => unfold Fxd.cmpExtra; exact Halts.ok
  | succ n ih => unfold Fxd.cmpExtra; halts; exact ih _
theorem Spec.Halts.cmpCommon (l r : List Int) (n : Nat) (i j : Int) :
    Halts m (Fxd.cmpCommon l r n i j : Out σ _) := by
  induction n generalizing i j with
  | zero => unfold Fxd.cmpCommon; exact Halts.ok
  | succ n ih =>
    unfold Fxd.cmpCommon
    refine .bind .idx fun _ => .bind .idx fun _ => ?_
    halts
    all_goals try exact ih _ _
theorem Spec.Halts.cmpTail (l : List Int) (r : Ordering) (n : Nat) :
    Halts m (Fxd.cmpTail l r n : Out σ _) := by
  induction n with
  | zero => unfold Fxd.cmpTail; exact Halts.ok
  | succ n ih => unfold Fxd.cmpTail; halts
theorem Spec.Halts.cmpAbsLsu (a b : Int) (l : List Int) (c d : Int) (r : List Int) :
    Halts m (Fxd.cmpAbsLsu a b l c d r : Out σ _) := by
  unfold Fxd.cmpAbsLsu
  refine .bind (.cmpExtra _ _ _ _ _) fun x => ?_
  rcases x with o | ⟨x, y⟩
  · exact .ok
  refine .bind (.cmpExtra _ _ _ _ _) fun x => ?_
  rcases x with o | ⟨x, y⟩
  · exact .ok
  refine .bind (.cmpCommon _ _ _ _ _) fun x => ?_
  rcases x with o | ⟨x, y⟩
  · exact .ok
  refine .bind (.cmpTail _ _ _) fun x => ?_
  rcases x with _ | o
  · refine .bind (.cmpTail _ _ _) fun x => ?_
    rcases x with _ | o <;> exact .ok
  · exact .ok
macro_rules | `(tactic| hleaf) => `(tactic| with_reducible apply Halts.cmpAbsLsu)
theorem Spec.Halts.findTop (l : List Int) (f : Int) (n : Nat) :
    Halts m (Fxd.findTop l f n : Out σ _) := by
  induction n with
  | zero => unfold Fxd.findTop; exact Halts.ok
  | succ n ih => unfold Fxd.findTop; halts
macro_rules | `(tactic| hleaf) => `(tactic| with_reducible apply Halts.findTop)
theorem Spec.Halts.cmpAbs {a b : FixedDecimal} :
    Halts m (Fxd.cmpAbs m a b : Out σ _) := by
  unfold Fxd.cmpAbs; halts
macro_rules | `(tactic| hleaf) => `(tactic| with_reducible exact Halts.cmpAbs)
theorem Spec.Halts.cmp {a b : FixedDecimal} :
    Halts m (FixedDecimal.cmp m a b : Out σ _) := by
  unfold FixedDecimal.cmp; halts
macro_rules | `(tactic| hleaf) => `(tactic| with_reducible exact Halts.cmp)
theorem Spec.Halts.eq {a b : FixedDecimal} :
    Halts m (FixedDecimal.eq m a b : Out σ _) := by
  unfold FixedDecimal.eq; halts
macro_rules | `(tactic| hleaf) => `(tactic| with_reducible exact Halts.eq)
theorem Spec.Halts.lt {a b : FixedDecimal} :
    Halts m (FixedDecimal.lt m a b : Out σ _) := by
  unfold FixedDecimal.lt; halts
macro_rules | `(tactic| hleaf) => `(tactic| with_reducible exact Halts.lt)
theorem Spec.Halts.gt {a b : FixedDecimal} :
    Halts m (FixedDecimal.gt m a b : Out σ _) := by
  unfold FixedDecimal.gt; halts
macro_rules | `(tactic| hleaf) => `(tactic| with_reducible exact Halts.gt)
theorem Spec.Halts.addWithCarry {a b c : Int} :
    Halts m (Fxd.addWithCarry m a b c : Out σ _) := by
  unfold Fxd.addWithCarry; halts
macro_rules | `(tactic| hleaf) => `(tactic| with_reducible exact Halts.addWithCarry)
theorem Spec.Halts.subWithBorrow {a b c : Int} :
    Halts m (Fxd.subWithBorrow m a b c : Out σ _) := by
  unfold Fxd.subWithBorrow; halts
macro_rules | `(tactic| hleaf) => `(tactic| with_reducible exact Halts.subWithBorrow)
theorem Spec.Halts.roundUnit {u v h : Int} :
    Halts m (Fxd.roundUnit m u v h : Out σ _) := by
  unfold Fxd.roundUnit; halts
macro_rules | `(tactic| hleaf) => `(tactic| with_reducible exact Halts.roundUnit)
theorem Spec.Halts.carryLoop (l : List Int) (c : Int) :
    Halts m (Fxd.carryLoop m l c : Out σ _) := by
  induction l generalizing c with
  | nil => exact Halts.ok
  | cons u us ih =>
    unfold Fxd.carryLoop
    refine .bind2 .addWithCarry fun _ _ => .ite .ok (.bind2 (ih _) fun _ _ => .ok)
macro_rules | `(tactic| hleaf) => `(tactic| with_reducible exact Halts.carryLoop _ _)

theorem mod9_range {d r : Int} (h : (Fxd.mod9 d : Out σ Int) = .ok r) : 0 ≤ r ∧ r ≤ 8 := by
  unfold Fxd.mod9 Fxd.idx at h
  split_ifs at h with h0
  cases hv : MOD9_TABLE[d.toNat]? with
  | none => rw [hv] at h; cases h
  | some v =>
    rw [hv] at h; cases h
    have hm := List.mem_of_getElem? hv
    have : ∀ x ∈ MOD9_TABLE, 0 ≤ x ∧ x ≤ 8 := by decide +kernel
    exact this _ hm

theorem Spec.Halts.roundArm {u p : Int} (h0 : 1 ≤ p) (h8 : p ≤ 8) : Halts m (Fxd.roundArm m u p : Out σ _) := by
  have : p = 1 ∨ p = 2 ∨ p = 3 ∨ p = 4 ∨ p = 5 ∨ p = 6 ∨ p = 7 ∨ p = 8 := by omega
  rcases this with rfl | rfl | rfl | rfl | rfl | rfl | rfl | rfl <;> exact Halts.roundUnit

theorem Spec.Halts.roundHalfUp {d : FixedDecimal} {a b c e f : Int} :
    Halts m (Fxd.roundHalfUp m d a b c e f : Out σ _) := by
  unfold Fxd.roundHalfUp
  refine .bind .div9 fun _ => .bind' .mod9 fun r hr => ?_
  obtain ⟨r0, r8⟩ := mod9_range hr
  by_cases h : r = 0
  · simp only [ne_eq, h, not_true_eq_false, if_false]
    halts
  · simp only [ne_eq, h, not_false_eq_true, if_true]
    refine .bind3 (.bind .idx fun _ => .bind (.roundArm (by omega) r8) fun _ => ?_) fun _ _ _ => ?_
    · halts
    · halts
macro_rules | `(tactic| hleaf) => `(tactic| with_reducible exact Halts.roundHalfUp)
theorem Spec.Halts.round {d : FixedDecimal} {k : Int} :
    Halts m (FixedDecimal.round m d k : Out σ _) := by
  unfold FixedDecimal.round; halts
macro_rules | `(tactic| hleaf) => `(tactic| with_reducible exact Halts.round)
theorem Spec.Halts.roundTo {d r : FixedDecimal} {k : Int} :
    Halts m (FixedDecimal.roundTo m d r k : Out σ _) := by
  unfold FixedDecimal.roundTo; halts
macro_rules | `(tactic| hleaf) => `(tactic| with_reducible exact Halts.roundTo)
theorem Spec.Halts.lsuToI64 {d : FixedDecimal} :
    Halts m (FixedDecimal.lsuToI64 m d : Out σ _) := by
  unfold FixedDecimal.lsuToI64; halts
macro_rules | `(tactic| hleaf) => `(tactic| with_reducible exact Halts.lsuToI64)
theorem Spec.Halts.asI64 {d : FixedDecimal} :
    Halts m (FixedDecimal.asI64 m d) := by
  unfold FixedDecimal.asI64; halts
macro_rules | `(tactic| hleaf) => `(tactic| with_reducible exact Halts.asI64)
theorem Spec.Halts.lsuToU64 {d : FixedDecimal} :
    Halts m (FixedDecimal.lsuToU64 m d : Out σ _) := by
  unfold FixedDecimal.lsuToU64; halts
macro_rules | `(tactic| hleaf) => `(tactic| with_reducible exact Halts.lsuToU64)
theorem Spec.Halts.asU64 {d : FixedDecimal} :
    Halts m (FixedDecimal.asU64 m d) := by
  unfold FixedDecimal.asU64; halts
macro_rules | `(tactic| hleaf) => `(tactic| with_reducible exact Halts.asU64)
theorem Spec.Halts.addCommon (l r : List Int) (n : Nat) (a b c : Int) (res : List Int) (k : Int) :
    Halts m (Fxd.addCommon m l r n a b c res k : Out σ _) := by
  induction n generalizing a b c res k with
  | zero => unfold Fxd.addCommon; exact Halts.ok
  | succ n ih => unfold Fxd.addCommon; halts <;> exact ih _ _ _ _ _
macro_rules | `(tactic| hleaf) => `(tactic| with_reducible apply Halts.addCommon)
theorem Spec.Halts.addExtra (l : List Int) (n : Nat) (a b : Int) (res : List Int) (k : Int) :
    Halts m (Fxd.addExtra m l n a b res k : Out σ _) := by
  induction n generalizing a b res k with
  | zero => unfold Fxd.addExtra; exact Halts.ok
  | succ n ih => unfold Fxd.addExtra; halts <;> exact ih _ _ _ _
macro_rules | `(tactic| hleaf) => `(tactic| with_reducible apply Halts.addExtra)
theorem Spec.Halts.subCommon (l r : List Int) (n : Nat) (a b c : Int) (res : List Int) (k : Int) :
    Halts m (Fxd.subCommon m l r n a b c res k : Out σ _) := by
  induction n generalizing a b c res k with
  | zero => unfold Fxd.subCommon; exact Halts.ok
  | succ n ih => unfold Fxd.subCommon; halts <;> exact ih _ _ _ _ _
macro_rules | `(tactic| hleaf) => `(tactic| with_reducible apply Halts.subCommon)
theorem Spec.Halts.subExtraL (l : List Int) (n : Nat) (a b : Int) (res : List Int) (k : Int) :
    Halts m (Fxd.subExtraL m l n a b res k : Out σ _) := by
  induction n generalizing a b res k with
  | zero => unfold Fxd.subExtraL; exact Halts.ok
  | succ n ih => unfold Fxd.subExtraL; halts <;> exact ih _ _ _ _
macro_rules | `(tactic| hleaf) => `(tactic| with_reducible apply Halts.subExtraL)
theorem Spec.Halts.subExtraR (l : List Int) (n : Nat) (a b : Int) (res : List Int) (k : Int) :
    Halts m (Fxd.subExtraR m l n a b res k : Out σ _) := by
  induction n generalizing a b res k with
  | zero => unfold Fxd.subExtraR; exact Halts.ok
  | succ n ih => unfold Fxd.subExtraR; halts <;> exact ih _ _ _ _
macro_rules | `(tactic| hleaf) => `(tactic| with_reducible apply Halts.subExtraR)
theorem Spec.Halts.negLoop  (n : Nat) (a : Int) (res : List Int) (k : Int) :
    Halts m (Fxd.negLoop m  n a res k : Out σ _) := by
  induction n generalizing a res k with
  | zero => unfold Fxd.negLoop; exact Halts.ok
  | succ n ih => unfold Fxd.negLoop; halts <;> exact ih _ _ _
macro_rules | `(tactic| hleaf) => `(tactic| with_reducible apply Halts.negLoop)
theorem Spec.Halts.subLow  (l : List Int) (b : Int) :
    Halts m (Fxd.subLow m  l b : Out σ _) := by
  induction l generalizing b with
  | nil => unfold Fxd.subLow; exact Halts.ok
  | cons v vs ih => unfold Fxd.subLow; halts <;> exact ih _
macro_rules | `(tactic| hleaf) => `(tactic| with_reducible apply Halts.subLow)
theorem Spec.Halts.addAbs {a b r : FixedDecimal} :
    Halts m (Fxd.addAbs m a b r) := by
  unfold Fxd.addAbs; halts
macro_rules | `(tactic| hleaf) => `(tactic| with_reducible exact Halts.addAbs)
theorem Spec.Halts.subAbs {a b r : FixedDecimal} :
    Halts m (Fxd.subAbs m a b r) := by
  unfold Fxd.subAbs; halts
macro_rules | `(tactic| hleaf) => `(tactic| with_reducible exact Halts.subAbs)
theorem Spec.Halts.addTo {a b r : FixedDecimal} :
    Halts m (FixedDecimal.addTo m a b r) := by
  unfold FixedDecimal.addTo; halts
macro_rules | `(tactic| hleaf) => `(tactic| with_reducible exact Halts.addTo)
theorem Spec.Halts.subTo {a b r : FixedDecimal} :
    Halts m (FixedDecimal.subTo m a b r) := by
  unfold FixedDecimal.subTo; halts
macro_rules | `(tactic| hleaf) => `(tactic| with_reducible exact Halts.subTo)
theorem Spec.Halts.mulInner (a b c : Int) (l : List Int) (d e f : Int) (res : List Int) :
    Halts m (Fxd.mulInner m a b c l d e f res : Out σ _) := by
  induction l generalizing d e f res with
  | nil => unfold Fxd.mulInner; exact Halts.ok
  | cons v vs ih => unfold Fxd.mulInner; halts <;> exact ih _ _ _ _
macro_rules | `(tactic| hleaf) => `(tactic| with_reducible apply Halts.mulInner)
theorem Spec.Halts.mulOuter (lu : List Int) (s : Int) (back : List Int → σ) (l : List Int) (d : Int) (res : List Int) :
    Halts m (Fxd.mulOuter m lu s back l d res : Out σ _) := by
  induction l generalizing d res with
  | nil => unfold Fxd.mulOuter; exact Halts.ok
  | cons v vs ih => unfold Fxd.mulOuter; halts <;> exact ih _ _
macro_rules | `(tactic| hleaf) => `(tactic| with_reducible apply Halts.mulOuter)
theorem Spec.Halts.mulUnits {l : List Int} {n : Int} {r : List Int} : Halts m (Fxd.mulUnits l n r : Out σ _) := by
  cases r
  · exact Halts.ok
  · exact Halts.slice
macro_rules | `(tactic| hleaf) => `(tactic| with_reducible exact Halts.mulUnits)
theorem Spec.Halts.mulAbs {a b r : FixedDecimal} :
    Halts m (Fxd.mulAbs m a b r) := by
  unfold Fxd.mulAbs; halts
macro_rules | `(tactic| hleaf) => `(tactic| with_reducible exact Halts.mulAbs)
theorem Spec.Halts.mulTo {a b r : FixedDecimal} :
    Halts m (FixedDecimal.mulTo m a b r) := by
  unfold FixedDecimal.mulTo; halts
macro_rules | `(tactic| hleaf) => `(tactic| with_reducible exact Halts.mulTo)
theorem Spec.Halts.normLoop (f : Int) (l : List Int) (c : Int) :
    Halts m (Fxd.normLoop m f l c : Out σ _) := by
  induction l generalizing c with
  | nil => unfold Fxd.normLoop; exact Halts.ok
  | cons v vs ih => unfold Fxd.normLoop; halts <;> exact ih _
macro_rules | `(tactic| hleaf) => `(tactic| with_reducible apply Halts.normLoop)
theorem Spec.Halts.mulSub (q : Int) (l : List Int) (n : Nat) (a b : Int) (buf : List Int) (c d : Int) :
    Halts m (Fxd.mulSub m q l n a b buf c d : Out σ _) := by
  induction n generalizing a b buf c d with
  | zero => unfold Fxd.mulSub; exact Halts.ok
  | succ n ih => unfold Fxd.mulSub; halts <;> exact ih _ _ _ _ _
macro_rules | `(tactic| hleaf) => `(tactic| with_reducible apply Halts.mulSub)
theorem Spec.Halts.divAddBack (j : Int) (n : Nat) (i : Int) (buf : List Int) (c : Int) :
    Halts m (Fxd.divAddBack m j n i buf c : Out σ _) := by
  induction n generalizing i buf c with
  | zero => unfold Fxd.divAddBack; exact Halts.ok
  | succ n ih => unfold Fxd.divAddBack; halts <;> exact ih _ _ _
macro_rules | `(tactic| hleaf) => `(tactic| with_reducible apply Halts.divAddBack)
theorem Spec.Halts.mulSubSeg (q : Int) (l r : List Int) (c b : Int) :
    Halts m (Fxd.mulSubSeg m q l r c b : Out σ _) := by
  induction l generalizing r c b with
  | nil => unfold Fxd.mulSubSeg; exact Halts.ok
  | cons v vs ih =>
    cases r with
    | nil => unfold Fxd.mulSubSeg; exact Halts.ok
    | cons w ws => unfold Fxd.mulSubSeg; halts <;> exact ih _ _ _
macro_rules | `(tactic| hleaf) => `(tactic| with_reducible apply Halts.mulSubSeg)
theorem Spec.Halts.negSeg  (l : List Int) (c : Int) :
    Halts m (Fxd.negSeg m  l c : Out σ _) := by
  induction l generalizing c with
  | nil => unfold Fxd.negSeg; exact Halts.ok
  | cons v vs ih => unfold Fxd.negSeg; halts <;> exact ih _
macro_rules | `(tactic| hleaf) => `(tactic| with_reducible apply Halts.negSeg)
theorem Spec.Halts.remFinish {l : List Int} {a b c : Int} :
    Halts m (Fxd.remFinish m l a b c : Out σ _) := by
  unfold Fxd.remFinish; halts
macro_rules | `(tactic| hleaf) => `(tactic| with_reducible exact Halts.remFinish)
theorem Spec.Halts.scanLoop  (l : List Nat) (i : Int) (st : Scan) :
    Halts m (Fxd.scanLoop m  l i st : Out σ _) := by
  induction l generalizing i st with
  | nil => unfold Fxd.scanLoop; exact Halts.ok
  | cons v vs ih => unfold Fxd.scanLoop; halts <;> exact ih _ _
macro_rules | `(tactic| hleaf) => `(tactic| with_reducible apply Halts.scanLoop)
theorem Spec.Halts.expLoop (err : σ) (l : List Nat) (e : Int) :
    Halts m (Fxd.expLoop m err l e : Out σ _) := by
  induction l generalizing e with
  | nil => unfold Fxd.expLoop; exact Halts.ok
  | cons v vs ih => unfold Fxd.expLoop; halts <;> exact ih _
macro_rules | `(tactic| hleaf) => `(tactic| with_reducible apply Halts.expLoop)
theorem Spec.Halts.parseExp {err : σ} {l : List Nat} : Halts m (Fxd.parseExp m err l) := by
  unfold Fxd.parseExp
  cases l with
  | nil => exact Halts.ok
  | cons c cs =>
    cases cs with
    | nil => exact .ite .err .err
    | cons s ds => halts
macro_rules | `(tactic| hleaf) => `(tactic| with_reducible exact Halts.parseExp)
theorem Spec.Halts.intgLoop (la : Int) (l : List Nat) (a b c d : Int) (lsu : List Int) :
    Halts m (Fxd.intgLoop m la l a b c d lsu : Out σ _) := by
  induction l generalizing a b c d lsu with
  | nil => unfold Fxd.intgLoop; exact Halts.index
  | cons v vs ih => unfold Fxd.intgLoop; halts <;> exact ih _ _ _ _ _
macro_rules | `(tactic| hleaf) => `(tactic| with_reducible apply Halts.intgLoop)
theorem Spec.Halts.fracLoop (la : Int) (l : List Nat) (a b c d : Int) (lsu : List Int) :
    Halts m (Fxd.fracLoop m la l a b c d lsu : Out σ _) := by
  induction l generalizing a b c d lsu with
  | nil => unfold Fxd.fracLoop; exact Halts.index
  | cons v vs ih => unfold Fxd.fracLoop; halts <;> exact ih _ _ _ _ _
macro_rules | `(tactic| hleaf) => `(tactic| with_reducible apply Halts.fracLoop)
theorem Spec.Halts.applyExp {a b c : Int} :
    Halts m (Fxd.applyExp m a b c : Out σ _) := by
  unfold Fxd.applyExp; halts
macro_rules | `(tactic| hleaf) => `(tactic| with_reducible exact Halts.applyExp)
theorem Spec.Halts.d3ToStr {v : Int} {buf : List Nat} {e : Bool} :
    Halts m (Fxd.d3ToStr m v buf e : Out σ _) := by
  unfold Fxd.d3ToStr; halts
macro_rules | `(tactic| hleaf) => `(tactic| with_reducible exact Halts.d3ToStr)
theorem Spec.Halts.intgUnitStr {v : Int} {buf : List Nat} {e : Bool} :
    Halts m (Fxd.intgUnitStr m v buf e : Out σ _) := by
  unfold Fxd.intgUnitStr; halts
macro_rules | `(tactic| hleaf) => `(tactic| with_reducible exact Halts.intgUnitStr)
theorem Spec.Halts.intgStrLoop (l : List Int) (f : Int) (n : Nat) (buf : List Nat) (e : Bool) :
    Halts m (Fxd.intgStrLoop m l f n buf e : Out σ _) := by
  induction n generalizing buf e with
  | zero => unfold Fxd.intgStrLoop; exact Halts.ok
  | succ n ih => unfold Fxd.intgStrLoop; halts <;> exact ih _ _
macro_rules | `(tactic| hleaf) => `(tactic| with_reducible apply Halts.intgStrLoop)
theorem Spec.Halts.fracGroup {v : Int} {buf : List Nat} {e : Int} :
    Halts m (Fxd.fracGroup m v buf e : Out σ _) := by
  unfold Fxd.fracGroup; halts
macro_rules | `(tactic| hleaf) => `(tactic| with_reducible exact Halts.fracGroup)
theorem Spec.Halts.fracGroupZero {buf : List Nat} {e : Int} :
    Halts m (Fxd.fracGroupZero m buf e : Out σ _) := by
  unfold Fxd.fracGroupZero; halts
macro_rules | `(tactic| hleaf) => `(tactic| with_reducible exact Halts.fracGroupZero)
theorem Spec.Halts.appendFrac (l : List Int) (n : Nat) (buf : List Nat) (e : Int) :
    Halts m (Fxd.appendFrac m l n buf e : Out σ _) := by
  induction n generalizing buf e with
  | zero => unfold Fxd.appendFrac; exact Halts.ok
  | succ n ih => unfold Fxd.appendFrac; halts <;> exact ih _ _
macro_rules | `(tactic| hleaf) => `(tactic| with_reducible apply Halts.appendFrac)
theorem Spec.Halts.appendStrBuf {d : FixedDecimal} {buf : List Nat} {e : Int} :
    Halts m (FixedDecimal.appendStrBuf m d buf e : Out σ _) := by
  unfold FixedDecimal.appendStrBuf; halts
macro_rules | `(tactic| hleaf) => `(tactic| with_reducible exact Halts.appendStrBuf)
theorem Spec.Halts.toStr {d : FixedDecimal} {e : Int} :
    Halts m (FixedDecimal.toStr m d e : Out σ _) := by
  unfold FixedDecimal.toStr; halts
macro_rules | `(tactic| hleaf) => `(tactic| with_reducible exact Halts.toStr)

theorem Spec.Halts.zeroUnitsLoop : ∀ (n : Nat) (c u : Int) (lsu : List Int), c < n → c ≤ 127 → 0 < n →
    Halts m (Fxd.zeroUnitsLoop m n c u lsu : Out σ _)
  | 0, _, _, _, _, _, h => absurd h (by omega)
  | n + 1, c, u, lsu, h, h', _ => by
    unfold Fxd.zeroUnitsLoop
    by_cases hc : c > 0
    · rw [if_pos hc]
      refine .bind .upd fun _ => .bind' .i8 fun v hv => ?_
      have e : v = c - 9 := by
        unfold Fxd.i8 Fxd.sarith DIGITS_PER_UNIT at hv
        rw [if_pos (by norm_num; omega)] at hv
        cases hv; rfl
      exact Halts.zeroUnitsLoop n _ _ _ (by push_cast at h; omega) (by omega) (by push_cast at h; omega)
    · rw [if_neg hc]; exact .ok

theorem Spec.Halts.headZeroLoop : ∀ (n : Nat) (c u : Int) (lsu : List Int), c < n → c ≤ 127 → 0 < n →
    Halts m (Fxd.headZeroLoop m n c u lsu : Out σ _)
  | 0, _, _, _, _, _, h => absurd h (by omega)
  | n + 1, c, u, lsu, h, h', _ => by
    unfold Fxd.headZeroLoop
    by_cases hc : c ≥ DIGITS_PER_UNIT
    · rw [if_pos hc]
      unfold DIGITS_PER_UNIT at hc ⊢
      refine .bind .upd fun _ => .bind' .i8 fun v hv => ?_
      have e : v = c - 9 := by
        unfold Fxd.i8 Fxd.sarith at hv
        rw [if_pos (by norm_num; omega)] at hv
        cases hv; rfl
      exact Halts.headZeroLoop n _ _ _ (by push_cast at h; omega) (by omega) (by push_cast at h; omega)
    · rw [if_neg hc]; exact .ok

theorem i8_range {x r : Int} (h : (Fxd.i8 m x : Out σ Int) = .ok r) : -128 ≤ r ∧ r ≤ 127 := by
  unfold Fxd.i8 Fxd.sarith at h
  split_ifs at h with hr
  · cases h; norm_num at hr; omega
  · cases m
    · cases h
    · cases h
      unfold wrap
      have h1 := Int.le_bmod (x := x) (m := 2 ^ 8) (by norm_num)
      have h2 := Int.bmod_lt (x := x) (m := 2 ^ 8) (by norm_num)
      constructor
      · exact h1
      · have : Int.bmod x (2 ^ 8) < 128 := h2
        omega

theorem Spec.Halts.writeDigits {d : FixedDecimal} {bs : List Nat} {st : Scan} {a b c : Int} (hc : c ≤ 127) :
    Halts m (Fxd.writeDigits m d bs st a b c : Out σ _) := by
  unfold Fxd.writeDigits
  refine .bind .i8 fun _ => .bind .getUnits fun _ => .bind .getUnits fun _ => .bind .usz fun _ => ?_
  dsimp only
  refine .bind4 (.ite ?_ .ok) fun _ _ _ _ => .bind (.ite ?_ .ok) fun _ => ?_
  · refine .bind5 (.intgLoop _ _ _ _ _ _ _) fun _ _ _ _ _ => .bind .mod9 fun _ => .bind .idx fun _ => .bind .i32 fun _ =>
      .bind .upd fun _ => .bind' .i8 fun v hv => ?_
    have := i8_range hv
    exact .bind2 (Halts.zeroUnitsLoop _ _ _ _ (by push_cast; omega) (by omega) (by omega)) fun _ _ => .ok
  · refine .bind3 (Halts.headZeroLoop _ _ _ _ (by push_cast; omega) hc (by omega)) fun _ _ _ => ?_
    exact .bind .i8 fun _ => .bind3 (.fracLoop _ _ _ _ _ _ _) fun _ _ _ => .upd
  · exact .ok

theorem fromU64Loop_halts : ∀ (n : Nat) (s i : Int) (l : List Int), 0 ≤ s → s < n →
    Halts m (FixedDecimal.fromU64Loop n s i l : Out σ _)
  | 0, s, _, _, h0, h => absurd h (by push_cast; omega)
  | n + 1, s, i, l, h0, h => by
    unfold FixedDecimal.fromU64Loop
    by_cases hs : s = 0
    · rw [if_pos hs]; exact .ok
    · rw [if_neg hs]
      dsimp only
      refine .bind .upd fun _ => fromU64Loop_halts n _ _ _ ?_ ?_
      · rw [Int.tdiv_eq_ediv_of_nonneg h0]; unfold UNIT; omega
      · rw [Int.tdiv_eq_ediv_of_nonneg h0]; unfold UNIT; push_cast at h; omega

end Fxd
