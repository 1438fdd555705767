import Verif.Proofs.Dec
/-!
# Code that never returns `Err`
-/

namespace Fxd

/-- The outcome is not `Err`. -/
def NoErr {σ α : Type} (x : Out σ α) : Prop := ∀ e s, x ≠ .err e s

variable {σ α β : Type} {m : Mode}

theorem NoErr.bind {x : Out σ α} {f : α → Out σ β} (hx : NoErr x) (hf : ∀ a, x = .ok a → NoErr (f a)) :
    NoErr (x >>= f) := by
  cases x with
  | ok a => exact hf a rfl
  | err e s => exact absurd rfl (hx e s)
  | panic p => intro e s h; simp at h

theorem NoErr.ok {a : α} : NoErr (.ok a : Out σ α) := by intro e s h; simp at h
theorem NoErr.pure {a : α} : NoErr (pure a : Out σ α) := NoErr.ok
theorem NoErr.panic {p : Panic} : NoErr (.panic p : Out σ α) := by intro e s h; simp at h
theorem NoErr.ite {c : Prop} [Decidable c] {x y : Out σ α} (hx : c → NoErr x) (hy : ¬ c → NoErr y) :
    NoErr (if c then x else y) := by split_ifs with h; exacts [hx h, hy h]
theorem NoErr.sarith {b : Nat} {x : Int} : NoErr (sarith m b x : Out σ Int) := by
  unfold Fxd.sarith; split_ifs
  · exact .ok
  · cases m
    · exact .panic
    · exact .ok
theorem NoErr.i8 {x : Int} : NoErr (i8 m x : Out σ Int) := .sarith
theorem NoErr.i32 {x : Int} : NoErr (i32 m x : Out σ Int) := .sarith
theorem NoErr.i64 {x : Int} : NoErr (i64 m x : Out σ Int) := .sarith
theorem NoErr.isz {x : Int} : NoErr (isz m x : Out σ Int) := .sarith
theorem NoErr.usz {x : Int} : NoErr (usz m x : Out σ Int) := by
  unfold Fxd.usz; split_ifs
  · exact .ok
  · cases m
    · exact .panic
    · exact .ok
theorem NoErr.dassert {c : Bool} : NoErr (dassert m c : Out σ Unit) := by
  cases m
  · unfold Fxd.dassert; dsimp only; exact .ite (fun _ => .ok) (fun _ => .panic)
  · exact .ok
theorem NoErr.idiv {a b : Int} : NoErr (idiv a b : Out σ Int) :=
  .ite (fun _ => .panic) fun _ => .ite (fun _ => .panic) fun _ => .ok
theorem NoErr.idx {l : List α} {i : Int} : NoErr (idx l i : Out σ α) := by
  unfold Fxd.idx; split_ifs
  · cases l[i.toNat]?
    · exact .panic
    · exact .ok
  · exact .panic
theorem NoErr.upd {l : List α} {i : Int} {v : α} : NoErr (upd l i v : Out σ (List α)) :=
  .ite (fun _ => .ok) (fun _ => .panic)
theorem NoErr.slice {l : List α} {a b : Int} : NoErr (slice l a b : Out σ (List α)) :=
  .ite (fun _ => .ok) (fun _ => .panic)
theorem NoErr.copyFromSlice {l s : List α} {a b : Int} : NoErr (copyFromSlice l a b s : Out σ (List α)) :=
  .ite (fun _ => .ok) (fun _ => .panic)
theorem NoErr.copyWithin {l : List α} {a b d : Int} : NoErr (copyWithin l a b d : Out σ (List α)) :=
  .ite (fun _ => .ok) (fun _ => .panic)
theorem NoErr.zeroRange {l : List Int} {a b : Int} : NoErr (zeroRange l a b : Out σ (List Int)) :=
  .ite (fun _ => .ok) (fun _ => .panic)
theorem NoErr.div9 {x : Int} : NoErr (div9 x : Out σ Int) := .idx
theorem NoErr.mod9 {x : Int} : NoErr (mod9 x : Out σ Int) := .idx
theorem NoErr.getUnits {x : Int} : NoErr (getUnits m x : Out σ Int) := .bind .i8 (fun _ _ => .div9)
theorem NoErr.intgUnits {d : FixedDecimal} : NoErr (d.intgUnits m : Out σ Int) := .getUnits
theorem NoErr.fracUnits {d : FixedDecimal} : NoErr (d.fracUnits m : Out σ Int) := .getUnits

/-- Neither `ok` nor `err` leaves only a panic. -/
theorem panic_of {x : Out σ α} (h : NoErr x) (h' : ∀ a, x ≠ .ok a) : ∃ p, x = .panic p := by
  cases x with
  | ok a => exact absurd rfl (h' a)
  | err e s => exact absurd rfl (h e s)
  | panic p => exact ⟨p, rfl⟩

end Fxd
