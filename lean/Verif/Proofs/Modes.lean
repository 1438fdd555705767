import Verif.Model.Ops
import Verif.Model.Parse
import Verif.Model.Format
import Verif.Model.Convert
/-!
# Debug and release builds

`Agrees B d r`: the debug outcome `d` is a panic of kind `B` or the same as the release outcome `r`, panics included.  All the code differs between the
modes only in `sarith`, `usz` and `dassert`, so this is a structural walk over every function.
-/

namespace Fxd

/-- `B` includes the panic a debug build adds almost everywhere: integer overflow. -/
class Checks (B : Panic → Prop) : Prop where
  overflow : B .overflow
/-- `B` includes the other panic a debug build adds: a failed `debug_assert!`. -/
class Asserts (B : Panic → Prop) : Prop where
  assert : B .assert

/-- The debug run failed a check of kind `B` that release builds do not make, or did exactly what the release run did. -/
def Agrees {σ α : Type} (B : Panic → Prop) (d r : Out σ α) : Prop := (∃ p, B p ∧ d = .panic p) ∨ d = r

variable {B : Panic → Prop} [Checks B]

namespace Agrees
variable {σ α β γ δ ε ζ : Type}

theorem refl (x : Out σ α) : Agrees B x x := Or.inr rfl
theorem panicL {p : Panic} {r : Out σ α} (h : B p) : Agrees B (.panic p) r := Or.inl ⟨p, h, rfl⟩

theorem bind {x y : Out σ α} {f g : α → Out σ β} (h : Agrees B x y) (hf : ∀ a, Agrees B (f a) (g a)) :
    Agrees B (x >>= f) (y >>= g) := by
  rcases h with ⟨p, hp, rfl⟩ | rfl
  · exact Or.inl ⟨p, hp, rfl⟩
  · cases x with
    | ok a => exact hf a
    | err e s => exact Or.inr rfl
    | panic p => exact Or.inr rfl

theorem bind2 {x y : Out σ (α × β)} {f g : α × β → Out σ ζ} (h : Agrees B x y)
    (hf : ∀ a b, Agrees B (f (a, b)) (g (a, b))) : Agrees B (x >>= f) (y >>= g) := bind h fun ⟨a, b⟩ => hf a b
theorem bind3 {x y : Out σ (α × β × γ)} {f g : α × β × γ → Out σ ζ} (h : Agrees B x y)
    (hf : ∀ a b c, Agrees B (f (a, b, c)) (g (a, b, c))) : Agrees B (x >>= f) (y >>= g) := bind h fun ⟨a, b, c⟩ => hf a b c
theorem bind4 {x y : Out σ (α × β × γ × δ)} {f g : α × β × γ × δ → Out σ ζ} (h : Agrees B x y)
    (hf : ∀ a b c d, Agrees B (f (a, b, c, d)) (g (a, b, c, d))) : Agrees B (x >>= f) (y >>= g) :=
  bind h fun ⟨a, b, c, d⟩ => hf a b c d
theorem bind5 {x y : Out σ (α × β × γ × δ × ε)} {f g : α × β × γ × δ × ε → Out σ ζ} (h : Agrees B x y)
    (hf : ∀ a b c d e, Agrees B (f (a, b, c, d, e)) (g (a, b, c, d, e))) : Agrees B (x >>= f) (y >>= g) :=
  bind h fun ⟨a, b, c, d, e⟩ => hf a b c d e

theorem ite {c : Prop} [Decidable c] {x y x' y' : Out σ α} (h : Agrees B x x') (h' : Agrees B y y') :
    Agrees B (if c then x else y) (if c then x' else y') := by
  by_cases hc : c
  · rw [if_pos hc, if_pos hc]; exact h
  · rw [if_neg hc, if_neg hc]; exact h'

theorem sarith {b : Nat} {x : Int} : Agrees B (sarith .debug b x : Out σ Int) (Fxd.sarith .release b x) := by
  unfold Fxd.sarith
  exact ite (refl _) (panicL Checks.overflow)
theorem i8 {x : Int} : Agrees B (i8 .debug x : Out σ Int) (Fxd.i8 .release x) := sarith
theorem i32 {x : Int} : Agrees B (i32 .debug x : Out σ Int) (Fxd.i32 .release x) := sarith
theorem i64 {x : Int} : Agrees B (i64 .debug x : Out σ Int) (Fxd.i64 .release x) := sarith
theorem isz {x : Int} : Agrees B (isz .debug x : Out σ Int) (Fxd.isz .release x) := sarith
theorem usz {x : Int} : Agrees B (usz .debug x : Out σ Int) (Fxd.usz .release x) := by
  unfold Fxd.usz
  exact ite (refl _) (panicL Checks.overflow)
theorem dassert [Asserts B] {c : Bool} : Agrees B (dassert .debug c : Out σ Unit) (Fxd.dassert .release c) := by
  cases c
  · exact panicL Asserts.assert
  · exact refl _

/-- A check that only debug builds make. -/
theorem guard [Asserts B] (hB : B .index) {l : List Int} {i : Int} {x y : Out σ α} (h : Agrees B x y) :
    Agrees B (idx l i >>= fun chk => Fxd.dassert .debug (chk == 0) >>= fun _ => x) (.ok () >>= fun _ => y) := by
  cases hi : (idx l i : Out σ Int) with
  | ok v =>
    show Agrees B (Fxd.dassert .debug (v == 0) >>= fun _ => x) y
    cases hv : (v == 0)
    · exact panicL Asserts.assert
    · exact h
  | err e s =>
    exfalso
    unfold idx at hi
    by_cases h0 : 0 ≤ i
    · rw [if_pos h0] at hi
      split at hi <;> cases hi
    · rw [if_neg h0] at hi; cases hi
  | panic p =>
    have : p = .index := by
      unfold idx at hi
      by_cases h0 : 0 ≤ i
      · rw [if_pos h0] at hi
        split at hi <;> cases hi
        rfl
      · rw [if_neg h0] at hi; cases hi; rfl
    subst this
    exact panicL hB

end Agrees

/-- Closes a goal about a function already treated. -/
syntax "mleaf" : tactic
macro_rules | `(tactic| mleaf) => `(tactic| with_reducible assumption)
macro_rules | `(tactic| mleaf) => `(tactic| with_reducible exact Agrees.refl _)
macro_rules | `(tactic| mleaf) => `(tactic| with_reducible exact Agrees.i8)
macro_rules | `(tactic| mleaf) => `(tactic| with_reducible exact Agrees.i32)
macro_rules | `(tactic| mleaf) => `(tactic| with_reducible exact Agrees.i64)
macro_rules | `(tactic| mleaf) => `(tactic| with_reducible exact Agrees.isz)
macro_rules | `(tactic| mleaf) => `(tactic| with_reducible exact Agrees.usz)
macro_rules | `(tactic| mleaf) => `(tactic| with_reducible apply Agrees.dassert)

/-- Walks through `do` blocks and `if`s. -/
macro "modes" : tactic => `(tactic| repeat' (first
      | mleaf
      | with_reducible refine Agrees.bind5 ?_ ?_
      | with_reducible refine Agrees.bind4 ?_ ?_
      | with_reducible refine Agrees.bind3 ?_ ?_
      | with_reducible refine Agrees.bind2 ?_ ?_
      | with_reducible refine Agrees.bind ?_ ?_
      | with_reducible refine Agrees.ite ?_ ?_
      | with_reducible intro _
      | dsimp only))

variable {σ : Type}
theorem Agrees.getUnits {d : Int} :
    Agrees B (Fxd.getUnits .debug d : Out σ _) (Fxd.getUnits .release d : Out σ _) := by
  unfold Fxd.getUnits; modes
macro_rules | `(tactic| mleaf) => `(tactic| with_reducible exact Agrees.getUnits)
theorem Agrees.intgUnits {d : FixedDecimal} :
    Agrees B (FixedDecimal.intgUnits .debug d : Out σ _) (FixedDecimal.intgUnits .release d : Out σ _) := by
  unfold FixedDecimal.intgUnits; modes
macro_rules | `(tactic| mleaf) => `(tactic| with_reducible exact Agrees.intgUnits)
theorem Agrees.fracUnits {d : FixedDecimal} :
    Agrees B (FixedDecimal.fracUnits .debug d : Out σ _) (FixedDecimal.fracUnits .release d : Out σ _) := by
  unfold FixedDecimal.fracUnits; modes
macro_rules | `(tactic| mleaf) => `(tactic| with_reducible exact Agrees.fracUnits)
theorem Agrees.hash {d : FixedDecimal} :
    Agrees B (FixedDecimal.hash .debug d : Out σ _) (FixedDecimal.hash .release d : Out σ _) := by
  unfold FixedDecimal.hash; modes
macro_rules | `(tactic| mleaf) => `(tactic| with_reducible exact Agrees.hash)
theorem Agrees.fromI64 {n : Int} :
    Agrees B (FixedDecimal.fromI64 .debug n : Out σ _) (FixedDecimal.fromI64 .release n : Out σ _) := by
  unfold FixedDecimal.fromI64; modes
macro_rules | `(tactic| mleaf) => `(tactic| with_reducible exact Agrees.fromI64)
theorem Agrees.cmpAbs {a b : FixedDecimal} :
    Agrees B (Fxd.cmpAbs .debug a b : Out σ _) (Fxd.cmpAbs .release a b : Out σ _) := by
  unfold Fxd.cmpAbs; modes
macro_rules | `(tactic| mleaf) => `(tactic| with_reducible exact Agrees.cmpAbs)
theorem Agrees.cmp {a b : FixedDecimal} :
    Agrees B (FixedDecimal.cmp .debug a b : Out σ _) (FixedDecimal.cmp .release a b) := by
  unfold FixedDecimal.cmp; modes
macro_rules | `(tactic| mleaf) => `(tactic| with_reducible exact Agrees.cmp)
theorem Agrees.eq {a b : FixedDecimal} :
    Agrees B (FixedDecimal.eq .debug a b : Out σ _) (FixedDecimal.eq .release a b : Out σ _) := by
  unfold FixedDecimal.eq; modes
macro_rules | `(tactic| mleaf) => `(tactic| with_reducible exact Agrees.eq)
theorem Agrees.lt {a b : FixedDecimal} :
    Agrees B (FixedDecimal.lt .debug a b : Out σ _) (FixedDecimal.lt .release a b : Out σ _) := by
  unfold FixedDecimal.lt; modes
macro_rules | `(tactic| mleaf) => `(tactic| with_reducible exact Agrees.lt)
theorem Agrees.gt {a b : FixedDecimal} :
    Agrees B (FixedDecimal.gt .debug a b : Out σ _) (FixedDecimal.gt .release a b : Out σ _) := by
  unfold FixedDecimal.gt; modes
macro_rules | `(tactic| mleaf) => `(tactic| with_reducible exact Agrees.gt)
theorem Agrees.addWithCarry {a b c : Int} :
    Agrees B (Fxd.addWithCarry .debug a b c : Out σ _) (Fxd.addWithCarry .release a b c : Out σ _) := by
  unfold Fxd.addWithCarry; modes
macro_rules | `(tactic| mleaf) => `(tactic| with_reducible exact Agrees.addWithCarry)
theorem Agrees.subWithBorrow {a b c : Int} :
    Agrees B (Fxd.subWithBorrow .debug a b c : Out σ _) (Fxd.subWithBorrow .release a b c : Out σ _) := by
  unfold Fxd.subWithBorrow; modes
macro_rules | `(tactic| mleaf) => `(tactic| with_reducible exact Agrees.subWithBorrow)
theorem Agrees.carryLoop (l : List Int) (c : Int) :
    Agrees B (Fxd.carryLoop .debug l c : Out σ _) (Fxd.carryLoop .release l c : Out σ _) := by
  induction l generalizing c with
  | nil => exact Agrees.refl _
  | cons u us ih =>
    unfold Fxd.carryLoop
    refine .bind2 .addWithCarry fun _ _ => .ite (.refl _) (.bind2 (ih _) fun _ _ => .refl _)
macro_rules | `(tactic| mleaf) => `(tactic| with_reducible exact Agrees.carryLoop _ _)
theorem Agrees.roundUnit {u v h : Int} :
    Agrees B (Fxd.roundUnit .debug u v h : Out σ _) (Fxd.roundUnit .release u v h : Out σ _) := by
  unfold Fxd.roundUnit; modes
macro_rules | `(tactic| mleaf) => `(tactic| with_reducible exact Agrees.roundUnit)
theorem Agrees.roundArm {u p : Int} : Agrees B (Fxd.roundArm .debug u p : Out σ _) (Fxd.roundArm .release u p) := by
  unfold Fxd.roundArm; split <;> mleaf
macro_rules | `(tactic| mleaf) => `(tactic| with_reducible exact Agrees.roundArm)
theorem Agrees.roundHalfUp {d : FixedDecimal} {a b c e f : Int} :
    Agrees B (Fxd.roundHalfUp .debug d a b c e f : Out σ _) (Fxd.roundHalfUp .release d a b c e f : Out σ _) := by
  unfold Fxd.roundHalfUp; modes
macro_rules | `(tactic| mleaf) => `(tactic| with_reducible exact Agrees.roundHalfUp)
theorem Agrees.round [Asserts B] {d : FixedDecimal} {k : Int} :
    Agrees B (FixedDecimal.round .debug d k : Out σ _) (FixedDecimal.round .release d k : Out σ _) := by
  unfold FixedDecimal.round; modes
macro_rules | `(tactic| mleaf) => `(tactic| with_reducible exact Agrees.round)
theorem Agrees.roundTo [Asserts B] {d r : FixedDecimal} {k : Int} :
    Agrees B (FixedDecimal.roundTo .debug d r k : Out σ _) (FixedDecimal.roundTo .release d r k : Out σ _) := by
  unfold FixedDecimal.roundTo; modes
macro_rules | `(tactic| mleaf) => `(tactic| with_reducible exact Agrees.roundTo)
theorem Agrees.lsuToI64 {d : FixedDecimal} :
    Agrees B (FixedDecimal.lsuToI64 .debug d : Out σ _) (FixedDecimal.lsuToI64 .release d : Out σ _) := by
  unfold FixedDecimal.lsuToI64; modes
macro_rules | `(tactic| mleaf) => `(tactic| with_reducible exact Agrees.lsuToI64)
theorem Agrees.asI64 [Asserts B] {d : FixedDecimal} :
    Agrees B (FixedDecimal.asI64 .debug d) (FixedDecimal.asI64 .release d) := by
  unfold FixedDecimal.asI64; modes
macro_rules | `(tactic| mleaf) => `(tactic| with_reducible exact Agrees.asI64)
theorem Agrees.lsuToU64 {d : FixedDecimal} :
    Agrees B (FixedDecimal.lsuToU64 .debug d : Out σ _) (FixedDecimal.lsuToU64 .release d : Out σ _) := by
  unfold FixedDecimal.lsuToU64; modes
macro_rules | `(tactic| mleaf) => `(tactic| with_reducible exact Agrees.lsuToU64)
theorem Agrees.asU64 [Asserts B] {d : FixedDecimal} :
    Agrees B (FixedDecimal.asU64 .debug d) (FixedDecimal.asU64 .release d) := by
  unfold FixedDecimal.asU64; modes
macro_rules | `(tactic| mleaf) => `(tactic| with_reducible exact Agrees.asU64)
theorem Agrees.addCommon (l r : List Int) (n : Nat) (a b c : Int) (res : List Int) (k : Int) :
    Agrees B (Fxd.addCommon .debug l r n a b c res k : Out σ _) (Fxd.addCommon .release l r n a b c res k) := by
  induction n generalizing a b c res k with
  | zero => unfold Fxd.addCommon; exact Agrees.refl _
  | succ n ih => unfold Fxd.addCommon; modes <;> exact ih _ _ _ _ _
macro_rules | `(tactic| mleaf) => `(tactic| with_reducible apply Agrees.addCommon)
theorem Agrees.addExtra (l : List Int) (n : Nat) (a b : Int) (res : List Int) (k : Int) :
    Agrees B (Fxd.addExtra .debug l n a b res k : Out σ _) (Fxd.addExtra .release l n a b res k) := by
  induction n generalizing a b res k with
  | zero => unfold Fxd.addExtra; exact Agrees.refl _
  | succ n ih => unfold Fxd.addExtra; modes <;> exact ih _ _ _ _
macro_rules | `(tactic| mleaf) => `(tactic| with_reducible apply Agrees.addExtra)
theorem Agrees.subCommon (l r : List Int) (n : Nat) (a b c : Int) (res : List Int) (k : Int) :
    Agrees B (Fxd.subCommon .debug l r n a b c res k : Out σ _) (Fxd.subCommon .release l r n a b c res k) := by
  induction n generalizing a b c res k with
  | zero => unfold Fxd.subCommon; exact Agrees.refl _
  | succ n ih => unfold Fxd.subCommon; modes <;> exact ih _ _ _ _ _
macro_rules | `(tactic| mleaf) => `(tactic| with_reducible apply Agrees.subCommon)
theorem Agrees.subExtraL (l : List Int) (n : Nat) (a b : Int) (res : List Int) (k : Int) :
    Agrees B (Fxd.subExtraL .debug l n a b res k : Out σ _) (Fxd.subExtraL .release l n a b res k) := by
  induction n generalizing a b res k with
  | zero => unfold Fxd.subExtraL; exact Agrees.refl _
  | succ n ih => unfold Fxd.subExtraL; modes <;> exact ih _ _ _ _
macro_rules | `(tactic| mleaf) => `(tactic| with_reducible apply Agrees.subExtraL)
theorem Agrees.subExtraR (l : List Int) (n : Nat) (a b : Int) (res : List Int) (k : Int) :
    Agrees B (Fxd.subExtraR .debug l n a b res k : Out σ _) (Fxd.subExtraR .release l n a b res k) := by
  induction n generalizing a b res k with
  | zero => unfold Fxd.subExtraR; exact Agrees.refl _
  | succ n ih => unfold Fxd.subExtraR; modes <;> exact ih _ _ _ _
macro_rules | `(tactic| mleaf) => `(tactic| with_reducible apply Agrees.subExtraR)
theorem Agrees.negLoop  (n : Nat) (a : Int) (res : List Int) (k : Int) :
    Agrees B (Fxd.negLoop .debug  n a res k : Out σ _) (Fxd.negLoop .release  n a res k) := by
  induction n generalizing a res k with
  | zero => unfold Fxd.negLoop; exact Agrees.refl _
  | succ n ih => unfold Fxd.negLoop; modes <;> exact ih _ _ _
macro_rules | `(tactic| mleaf) => `(tactic| with_reducible apply Agrees.negLoop)
theorem Agrees.subLow  (l : List Int) (b : Int) :
    Agrees B (Fxd.subLow .debug  l b : Out σ _) (Fxd.subLow .release  l b) := by
  induction l generalizing b with
  | nil => unfold Fxd.subLow; exact Agrees.refl _
  | cons v vs ih => unfold Fxd.subLow; modes <;> exact ih _
macro_rules | `(tactic| mleaf) => `(tactic| with_reducible apply Agrees.subLow)
theorem Agrees.addAbs {a b r : FixedDecimal} :
    Agrees B (Fxd.addAbs .debug a b r) (Fxd.addAbs .release a b r) := by
  unfold Fxd.addAbs; modes
macro_rules | `(tactic| mleaf) => `(tactic| with_reducible exact Agrees.addAbs)
theorem Agrees.subAbs {a b r : FixedDecimal} :
    Agrees B (Fxd.subAbs .debug a b r) (Fxd.subAbs .release a b r) := by
  unfold Fxd.subAbs; modes
macro_rules | `(tactic| mleaf) => `(tactic| with_reducible exact Agrees.subAbs)
theorem Agrees.addTo {a b r : FixedDecimal} :
    Agrees B (FixedDecimal.addTo .debug a b r) (FixedDecimal.addTo .release a b r) := by
  unfold FixedDecimal.addTo; modes
macro_rules | `(tactic| mleaf) => `(tactic| with_reducible exact Agrees.addTo)
theorem Agrees.subTo {a b r : FixedDecimal} :
    Agrees B (FixedDecimal.subTo .debug a b r) (FixedDecimal.subTo .release a b r) := by
  unfold FixedDecimal.subTo; modes
macro_rules | `(tactic| mleaf) => `(tactic| with_reducible exact Agrees.subTo)
theorem Agrees.mulInner (a b c : Int) (l : List Int) (d e f : Int) (res : List Int) :
    Agrees B (Fxd.mulInner .debug a b c l d e f res : Out σ _) (Fxd.mulInner .release a b c l d e f res) := by
  induction l generalizing d e f res with
  | nil => unfold Fxd.mulInner; exact Agrees.refl _
  | cons v vs ih => unfold Fxd.mulInner; modes <;> exact ih _ _ _ _
macro_rules | `(tactic| mleaf) => `(tactic| with_reducible apply Agrees.mulInner)
theorem Agrees.mulOuter [Asserts B] (lu : List Int) (s : Int) (back : List Int → σ) (l : List Int) (d : Int) (res : List Int) :
    Agrees B (Fxd.mulOuter .debug lu s back l d res : Out σ _) (Fxd.mulOuter .release lu s back l d res) := by
  induction l generalizing d res with
  | nil => unfold Fxd.mulOuter; exact Agrees.refl _
  | cons v vs ih => unfold Fxd.mulOuter; modes <;> exact ih _ _
macro_rules | `(tactic| mleaf) => `(tactic| with_reducible apply Agrees.mulOuter)
theorem Agrees.mulUnits {l : List Int} {n : Int} {r : List Int} :
    Agrees B (Fxd.mulUnits l n r : Out σ _) (Fxd.mulUnits l n r) := Agrees.refl _
macro_rules | `(tactic| mleaf) => `(tactic| with_reducible exact Agrees.mulUnits)
theorem Agrees.mulAbs [Asserts B] {a b r : FixedDecimal} :
    Agrees B (Fxd.mulAbs .debug a b r) (Fxd.mulAbs .release a b r) := by
  unfold Fxd.mulAbs; modes
macro_rules | `(tactic| mleaf) => `(tactic| with_reducible exact Agrees.mulAbs)
theorem Agrees.mulTo [Asserts B] {a b r : FixedDecimal} :
    Agrees B (FixedDecimal.mulTo .debug a b r) (FixedDecimal.mulTo .release a b r) := by
  unfold FixedDecimal.mulTo; modes
macro_rules | `(tactic| mleaf) => `(tactic| with_reducible exact Agrees.mulTo)
theorem Agrees.normLoop (f : Int) (l : List Int) (c : Int) :
    Agrees B (Fxd.normLoop .debug f l c : Out σ _) (Fxd.normLoop .release f l c) := by
  induction l generalizing c with
  | nil => unfold Fxd.normLoop; exact Agrees.refl _
  | cons v vs ih => unfold Fxd.normLoop; modes <;> exact ih _
macro_rules | `(tactic| mleaf) => `(tactic| with_reducible apply Agrees.normLoop)
theorem Agrees.shortDivLoop (l : List Int) (d : Int) (n : Nat) (i rm : Int) (res : List Int) :
    Agrees B (Fxd.shortDivLoop .debug l d n i rm res : Out σ _) (Fxd.shortDivLoop .release l d n i rm res) := by
  induction n generalizing i rm res with
  | zero => unfold Fxd.shortDivLoop; exact Agrees.refl _
  | succ n ih => unfold Fxd.shortDivLoop; modes <;> exact ih _ _ _
macro_rules | `(tactic| mleaf) => `(tactic| with_reducible apply Agrees.shortDivLoop)
theorem Agrees.qhatLoop (a b c : Int) (n : Nat) (i rm : Int) :
    Agrees B (Fxd.qhatLoop .debug a b c n i rm : Out σ _) (Fxd.qhatLoop .release a b c n i rm) := by
  induction n generalizing i rm with
  | zero => unfold Fxd.qhatLoop; exact Agrees.refl _
  | succ n ih => unfold Fxd.qhatLoop; modes <;> exact ih _ _
macro_rules | `(tactic| mleaf) => `(tactic| with_reducible apply Agrees.qhatLoop)
theorem Agrees.guessQ [Asserts B] {l : List Int} {i a b : Int} :
    Agrees B (Fxd.guessQ .debug l i a b : Out σ _) (Fxd.guessQ .release l i a b : Out σ _) := by
  unfold Fxd.guessQ; modes
macro_rules | `(tactic| mleaf) => `(tactic| with_reducible exact Agrees.guessQ)
theorem Agrees.mulSub (q : Int) (l : List Int) (n : Nat) (a b : Int) (buf : List Int) (c d : Int) :
    Agrees B (Fxd.mulSub .debug q l n a b buf c d : Out σ _) (Fxd.mulSub .release q l n a b buf c d) := by
  induction n generalizing a b buf c d with
  | zero => unfold Fxd.mulSub; exact Agrees.refl _
  | succ n ih => unfold Fxd.mulSub; modes <;> exact ih _ _ _ _ _
macro_rules | `(tactic| mleaf) => `(tactic| with_reducible apply Agrees.mulSub)
theorem Agrees.divAddBack (j : Int) (n : Nat) (i : Int) (buf : List Int) (c : Int) :
    Agrees B (Fxd.divAddBack .debug j n i buf c : Out σ _) (Fxd.divAddBack .release j n i buf c) := by
  induction n generalizing i buf c with
  | zero => unfold Fxd.divAddBack; exact Agrees.refl _
  | succ n ih => unfold Fxd.divAddBack; modes <;> exact ih _ _ _
macro_rules | `(tactic| mleaf) => `(tactic| with_reducible apply Agrees.divAddBack)
theorem Agrees.longDivLoop [Asserts B] (l : List Int) (a b c : Int) (n : Nat) (i : Int) (buf res : List Int) :
    Agrees B (Fxd.longDivLoop .debug l a b c n i buf res : Out σ _) (Fxd.longDivLoop .release l a b c n i buf res) := by
  induction n generalizing i buf res with
  | zero => unfold Fxd.longDivLoop; exact Agrees.refl _
  | succ n ih => unfold Fxd.longDivLoop; modes <;> exact ih _ _ _
macro_rules | `(tactic| mleaf) => `(tactic| with_reducible apply Agrees.longDivLoop)
theorem Agrees.divAbs [Asserts B] {a b r : FixedDecimal} {i : Int} :
    Agrees B (Fxd.divAbs .debug a b r i) (Fxd.divAbs .release a b r i) := by
  unfold Fxd.divAbs; modes
macro_rules | `(tactic| mleaf) => `(tactic| with_reducible exact Agrees.divAbs)
theorem Agrees.divTo [Asserts B] {a b r : FixedDecimal} {i : Int} :
    Agrees B (FixedDecimal.divTo .debug a b r i) (FixedDecimal.divTo .release a b r i) := by
  unfold FixedDecimal.divTo; modes
macro_rules | `(tactic| mleaf) => `(tactic| with_reducible exact Agrees.divTo)
theorem Agrees.shortRemLoop (l : List Int) (d : Int) (n : Nat) (i rm : Int) :
    Agrees B (Fxd.shortRemLoop .debug l d n i rm : Out σ _) (Fxd.shortRemLoop .release l d n i rm) := by
  induction n generalizing i rm with
  | zero => unfold Fxd.shortRemLoop; exact Agrees.refl _
  | succ n ih => unfold Fxd.shortRemLoop; modes <;> exact ih _ _
macro_rules | `(tactic| mleaf) => `(tactic| with_reducible apply Agrees.shortRemLoop)
theorem Agrees.mulSubSeg (q : Int) (l r : List Int) (c b : Int) :
    Agrees B (Fxd.mulSubSeg .debug q l r c b : Out σ _) (Fxd.mulSubSeg .release q l r c b) := by
  induction l generalizing r c b with
  | nil => unfold Fxd.mulSubSeg; exact Agrees.refl _
  | cons v vs ih =>
    cases r with
    | nil => unfold Fxd.mulSubSeg; exact Agrees.refl _
    | cons w ws => unfold Fxd.mulSubSeg; modes <;> exact ih _ _ _
macro_rules | `(tactic| mleaf) => `(tactic| with_reducible apply Agrees.mulSubSeg)
theorem Agrees.negSeg  (l : List Int) (c : Int) :
    Agrees B (Fxd.negSeg .debug  l c : Out σ _) (Fxd.negSeg .release  l c) := by
  induction l generalizing c with
  | nil => unfold Fxd.negSeg; exact Agrees.refl _
  | cons v vs ih => unfold Fxd.negSeg; modes <;> exact ih _
macro_rules | `(tactic| mleaf) => `(tactic| with_reducible apply Agrees.negSeg)
theorem Agrees.longRemLoop [Asserts B] (l : List Int) (a b : Int) (n : Nat) (i : Int) (buf : List Int) :
    Agrees B (Fxd.longRemLoop .debug l a b n i buf : Out σ _) (Fxd.longRemLoop .release l a b n i buf) := by
  induction n generalizing i buf with
  | zero => unfold Fxd.longRemLoop; exact Agrees.refl _
  | succ n ih => unfold Fxd.longRemLoop; modes <;> exact ih _ _
macro_rules | `(tactic| mleaf) => `(tactic| with_reducible apply Agrees.longRemLoop)
theorem Agrees.unnormLoop (l : List Int) (f : Int) (n : Nat) (a b : Int) (res : List Int) :
    Agrees B (Fxd.unnormLoop .debug l f n a b res : Out σ _) (Fxd.unnormLoop .release l f n a b res) := by
  induction n generalizing a b res with
  | zero => unfold Fxd.unnormLoop; exact Agrees.refl _
  | succ n ih => unfold Fxd.unnormLoop; modes <;> exact ih _ _ _
macro_rules | `(tactic| mleaf) => `(tactic| with_reducible apply Agrees.unnormLoop)
theorem Agrees.remFinish {l : List Int} {a b c : Int} :
    Agrees B (Fxd.remFinish .debug l a b c : Out σ _) (Fxd.remFinish .release l a b c : Out σ _) := by
  unfold Fxd.remFinish; modes
macro_rules | `(tactic| mleaf) => `(tactic| with_reducible exact Agrees.remFinish)
theorem Agrees.remAbs [Asserts B] (hB : B .index) {a b r : FixedDecimal} : Agrees B (Fxd.remAbs .debug a b r) (Fxd.remAbs .release a b r) := by
  unfold Fxd.remAbs
  modes
  rename_i o
  cases o <;> dsimp only <;> modes
  exact Agrees.guard hB (by modes)
macro_rules | `(tactic| mleaf) => `(tactic| with_reducible exact Agrees.remAbs (by assumption))
theorem Agrees.remTo [Asserts B] (hB : B .index) {a b r : FixedDecimal} :
    Agrees B (FixedDecimal.remTo .debug a b r) (FixedDecimal.remTo .release a b r) := by
  unfold FixedDecimal.remTo; modes
macro_rules | `(tactic| mleaf) => `(tactic| with_reducible exact Agrees.remTo (by assumption))
theorem Agrees.scanLoop  (l : List Nat) (i : Int) (st : Scan) :
    Agrees B (Fxd.scanLoop .debug  l i st : Out σ _) (Fxd.scanLoop .release  l i st) := by
  induction l generalizing i st with
  | nil => unfold Fxd.scanLoop; exact Agrees.refl _
  | cons v vs ih => unfold Fxd.scanLoop; modes <;> exact ih _ _
macro_rules | `(tactic| mleaf) => `(tactic| with_reducible apply Agrees.scanLoop)
theorem Agrees.expLoop (err : σ) (l : List Nat) (e : Int) :
    Agrees B (Fxd.expLoop .debug err l e : Out σ _) (Fxd.expLoop .release err l e) := by
  induction l generalizing e with
  | nil => unfold Fxd.expLoop; exact Agrees.refl _
  | cons v vs ih => unfold Fxd.expLoop; modes <;> exact ih _
macro_rules | `(tactic| mleaf) => `(tactic| with_reducible apply Agrees.expLoop)
theorem Agrees.parseExp {err : σ} {l : List Nat} : Agrees B (Fxd.parseExp .debug err l) (Fxd.parseExp .release err l) := by
  unfold Fxd.parseExp
  cases l with
  | nil => exact Agrees.refl _
  | cons c cs =>
    cases cs with
    | nil => exact Agrees.refl _
    | cons s ds => modes
macro_rules | `(tactic| mleaf) => `(tactic| with_reducible exact Agrees.parseExp)
theorem Agrees.intgLoop (la : Int) (l : List Nat) (a b c d : Int) (lsu : List Int) :
    Agrees B (Fxd.intgLoop .debug la l a b c d lsu : Out σ _) (Fxd.intgLoop .release la l a b c d lsu) := by
  induction l generalizing a b c d lsu with
  | nil => unfold Fxd.intgLoop; exact Agrees.refl _
  | cons v vs ih => unfold Fxd.intgLoop; modes <;> exact ih _ _ _ _ _
macro_rules | `(tactic| mleaf) => `(tactic| with_reducible apply Agrees.intgLoop)
theorem Agrees.zeroUnitsLoop  (n : Nat) (c u : Int) (lsu : List Int) :
    Agrees B (Fxd.zeroUnitsLoop .debug  n c u lsu : Out σ _) (Fxd.zeroUnitsLoop .release  n c u lsu) := by
  induction n generalizing c u lsu with
  | zero => unfold Fxd.zeroUnitsLoop; exact Agrees.refl _
  | succ n ih => unfold Fxd.zeroUnitsLoop; modes <;> exact ih _ _ _
macro_rules | `(tactic| mleaf) => `(tactic| with_reducible apply Agrees.zeroUnitsLoop)
theorem Agrees.headZeroLoop  (n : Nat) (c u : Int) (lsu : List Int) :
    Agrees B (Fxd.headZeroLoop .debug  n c u lsu : Out σ _) (Fxd.headZeroLoop .release  n c u lsu) := by
  induction n generalizing c u lsu with
  | zero => unfold Fxd.headZeroLoop; exact Agrees.refl _
  | succ n ih => unfold Fxd.headZeroLoop; modes <;> exact ih _ _ _
macro_rules | `(tactic| mleaf) => `(tactic| with_reducible apply Agrees.headZeroLoop)
theorem Agrees.fracLoop (la : Int) (l : List Nat) (a b c d : Int) (lsu : List Int) :
    Agrees B (Fxd.fracLoop .debug la l a b c d lsu : Out σ _) (Fxd.fracLoop .release la l a b c d lsu) := by
  induction l generalizing a b c d lsu with
  | nil => unfold Fxd.fracLoop; exact Agrees.refl _
  | cons v vs ih => unfold Fxd.fracLoop; modes <;> exact ih _ _ _ _ _
macro_rules | `(tactic| mleaf) => `(tactic| with_reducible apply Agrees.fracLoop)
theorem Agrees.applyExp {a b c : Int} :
    Agrees B (Fxd.applyExp .debug a b c : Out σ _) (Fxd.applyExp .release a b c : Out σ _) := by
  unfold Fxd.applyExp; modes
macro_rules | `(tactic| mleaf) => `(tactic| with_reducible exact Agrees.applyExp)
theorem Agrees.writeDigits {d : FixedDecimal} {bs : List Nat} {st : Scan} {a b c : Int} :
    Agrees B (Fxd.writeDigits .debug d bs st a b c : Out σ _) (Fxd.writeDigits .release d bs st a b c : Out σ _) := by
  unfold Fxd.writeDigits; modes
macro_rules | `(tactic| mleaf) => `(tactic| with_reducible exact Agrees.writeDigits)
theorem Agrees.fromBytesStr {d : FixedDecimal} {bs : List Nat} {r : Bool} :
    Agrees B (FixedDecimal.fromBytesStr .debug d bs r) (FixedDecimal.fromBytesStr .release d bs r) := by
  unfold FixedDecimal.fromBytesStr; modes
macro_rules | `(tactic| mleaf) => `(tactic| with_reducible exact Agrees.fromBytesStr)
theorem Agrees.fromStr {bs : List Nat} : Agrees B (FixedDecimal.fromStr .debug bs) (FixedDecimal.fromStr .release bs) := by
  unfold FixedDecimal.fromStr
  rcases Agrees.fromBytesStr (B := B) (d := FixedDecimal.zero) (bs := bs) (r := false) with ⟨p, hp, h⟩ | h
  · rw [h]; exact Agrees.panicL hp
  · rw [h]; exact Agrees.refl _
macro_rules | `(tactic| mleaf) => `(tactic| with_reducible exact Agrees.fromStr)
theorem Agrees.d3ToStr {v : Int} {buf : List Nat} {e : Bool} :
    Agrees B (Fxd.d3ToStr .debug v buf e : Out σ _) (Fxd.d3ToStr .release v buf e : Out σ _) := by
  unfold Fxd.d3ToStr; modes
macro_rules | `(tactic| mleaf) => `(tactic| with_reducible exact Agrees.d3ToStr)
theorem Agrees.intgUnitStr {v : Int} {buf : List Nat} {e : Bool} :
    Agrees B (Fxd.intgUnitStr .debug v buf e : Out σ _) (Fxd.intgUnitStr .release v buf e : Out σ _) := by
  unfold Fxd.intgUnitStr; modes
macro_rules | `(tactic| mleaf) => `(tactic| with_reducible exact Agrees.intgUnitStr)
theorem Agrees.intgStrLoop (l : List Int) (f : Int) (n : Nat) (buf : List Nat) (e : Bool) :
    Agrees B (Fxd.intgStrLoop .debug l f n buf e : Out σ _) (Fxd.intgStrLoop .release l f n buf e) := by
  induction n generalizing buf e with
  | zero => unfold Fxd.intgStrLoop; exact Agrees.refl _
  | succ n ih => unfold Fxd.intgStrLoop; modes <;> exact ih _ _
macro_rules | `(tactic| mleaf) => `(tactic| with_reducible apply Agrees.intgStrLoop)
theorem Agrees.fracGroup {v : Int} {buf : List Nat} {e : Int} :
    Agrees B (Fxd.fracGroup .debug v buf e : Out σ _) (Fxd.fracGroup .release v buf e : Out σ _) := by
  unfold Fxd.fracGroup; modes
macro_rules | `(tactic| mleaf) => `(tactic| with_reducible exact Agrees.fracGroup)
theorem Agrees.fracGroupZero {buf : List Nat} {e : Int} :
    Agrees B (Fxd.fracGroupZero .debug buf e : Out σ _) (Fxd.fracGroupZero .release buf e : Out σ _) := by
  unfold Fxd.fracGroupZero; modes
macro_rules | `(tactic| mleaf) => `(tactic| with_reducible exact Agrees.fracGroupZero)
theorem Agrees.appendFrac (l : List Int) (n : Nat) (buf : List Nat) (e : Int) :
    Agrees B (Fxd.appendFrac .debug l n buf e : Out σ _) (Fxd.appendFrac .release l n buf e) := by
  induction n generalizing buf e with
  | zero => unfold Fxd.appendFrac; exact Agrees.refl _
  | succ n ih => unfold Fxd.appendFrac; modes <;> exact ih _ _
macro_rules | `(tactic| mleaf) => `(tactic| with_reducible apply Agrees.appendFrac)
theorem Agrees.appendStrBuf {d : FixedDecimal} {buf : List Nat} {e : Int} :
    Agrees B (FixedDecimal.appendStrBuf .debug d buf e : Out σ _) (FixedDecimal.appendStrBuf .release d buf e : Out σ _) := by
  unfold FixedDecimal.appendStrBuf; modes
macro_rules | `(tactic| mleaf) => `(tactic| with_reducible exact Agrees.appendStrBuf)
theorem Agrees.toStr {d : FixedDecimal} {e : Int} :
    Agrees B (FixedDecimal.toStr .debug d e : Out σ _) (FixedDecimal.toStr .release d e : Out σ _) := by
  unfold FixedDecimal.toStr; modes
macro_rules | `(tactic| mleaf) => `(tactic| with_reducible exact Agrees.toStr)
theorem Agrees.orPanic {α : Type} {x y : Out FixedDecimal α} (h : Agrees B x y) :
    Agrees B (FixedDecimal.orPanic x) (FixedDecimal.orPanic y) := by
  rcases h with ⟨p, hp, h⟩ | h
  · rw [h]; exact Agrees.panicL hp
  · rw [h]; exact Agrees.refl _

end Fxd
