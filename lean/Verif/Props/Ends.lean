import Verif.Proofs.Ends
import Verif.Props.Stored
import Verif.Props.Halts
/-!
# Property C95: division and remainder always end, on whatever the fields can hold

C71 is about well-formed operands. Here the operands are arbitrary: nine arbitrary `i32` units and arbitrary digit counts
(`Spec.Stored`), such as a release build can produce (C36, C77, C91).
-/

namespace Fxd
open Spec

namespace Props

/-- A panic that C95 allows: a bounds check; in debug builds also an overflow check or an assertion; or a division by zero, and
that only if the divisor has a unit outside `0 ..= 999999999`. -/
def Tame (m : Mode) (divisor : FixedDecimal) (p : Panic) : Prop :=
  Ordinary m p ∨ p = .divZero ∧ ∃ u ∈ divisor.lsu, ¬ (0 ≤ u ∧ u < 1000000000)

theorem tame_of {m : Mode} {b : FixedDecimal} {p : Panic} (h : Ordinary m p ∨ (¬ DigL b.lsu) ∧ p = .divZero) : Tame m b p := by
  rcases h with h | ⟨h, e⟩
  · exact Or.inl h
  · refine Or.inr ⟨e, ?_⟩
    by_contra hc
    exact h fun u hu => by
      by_contra hn
      exact hc ⟨u, hu, hn⟩

/-- **C95.** The loop that corrects a guessed quotient unit ends in a release build, for all 32-bit leading units `d0 ≠ 0` and
`d1` of the divisor and all 64-bit values of everything else; in a debug build it ends for every guess that the assertion before
it lets through. -/
theorem C95_guess {d0 d1 : Int} (hd : d0 ≠ 0) (h0 : I32 d0) (h1 : I32 d1) (u2 q r : Int) :
    (∃ v, (qhatLoop .release d0 d1 u2 qhatFuel q r : Out Unit Int) = .ok v) ∧
      (q < 1000000000 → Halts .debug (qhatLoop .debug d0 d1 u2 qhatFuel q r : Out Unit Int)) := by
  refine ⟨qhat_release_ok hd h0 h1 u2 q r, fun hq => qhat_debug _ _ _ (by decide) ?_⟩
  unfold qhatFuel; norm_num; omega

/-- **C95.** Division ends, for any operands whose fields hold values of their types and any precision asked for. -/
theorem C95_div (m : Mode) {a b : FixedDecimal} (ha : Stored a) (hb : Stored b) (res : FixedDecimal) (incr : Int) {p : Panic}
    (h : FixedDecimal.divTo m a b res incr = .panic p) : Tame m b p :=
  tame_of ((Ends.divTo ha hb (fun h => h) incr).elim h)

/-- **C95.** So does the remainder. -/
theorem C95_rem (m : Mode) {a b : FixedDecimal} (ha : Stored a) (hb : Stored b) (res : FixedDecimal) {p : Panic}
    (h : FixedDecimal.remTo m a b res = .panic p) : Tame m b p :=
  tame_of ((Ends.remTo ha hb (fun h => h)).elim h)

/-- **C95** for the operators `/` and `%`. -/
theorem C95_operators (m : Mode) {a b : FixedDecimal} (ha : Stored a) (hb : Stored b) {p : Panic}
    (h : FixedDecimal.div m a b = .panic p ∨ FixedDecimal.rem m a b = .panic p) : Tame m b p ∨ ∃ e, p = .operator e := by
  have aux : ∀ {x : Out FixedDecimal FixedDecimal}, (∀ p, x = .panic p → Tame m b p) → FixedDecimal.orPanic x = .panic p →
      Tame m b p ∨ ∃ e, p = .operator e := by
    intro x hx hp
    cases x with
    | ok a => cases hp
    | err e s => cases hp; exact Or.inr ⟨e, rfl⟩
    | panic q => cases hp; exact Or.inl (hx _ rfl)
  rcases h with h | h
  · exact aux (fun p => C95_div m ha hb _ _) h
  · exact aux (fun p => C95_rem m ha hb _) h

/-- **C95.** After any session at all, in either build, from any registers: every division and remainder ends. -/
theorem C95_session (m : Mode) {s t : Regs} (hs : ∀ j, Stored (s j)) {as : List Action}
    (ht : (trace (Action.step m) s as).2 = some t) (a b i : Nat) (incr : Int) {p : Panic}
    (h : FixedDecimal.divTo m (t a) (t b) (t i) incr = .panic p ∨ FixedDecimal.remTo m (t a) (t b) (t i) = .panic p) :
    Tame m (t b) p := by
  have st := C91_stored m hs ht
  rcases h with h | h
  · exact C95_div m (st a) (st b) _ _ h
  · exact C95_rem m (st a) (st b) _ h

/-- Operands that are far from well-formed: negative units, and units of more than nine digits. A division of
them does return; and the division by zero of C77 is among the cases. -/
example : let a : FixedDecimal := ⟨27#8, 0, [5, -7, 1, 0, 0, 0, 0, 0, 0]⟩
    let b : FixedDecimal := ⟨18#8, 0, [2147483647, 400000000, 0, 0, 0, 0, 0, 0, 0]⟩
    let d : FixedDecimal := ⟨0#8, 18, [154239116, 1999999999, 0, 0, 0, 0, 0, 0, 0]⟩
    Stored a ∧ Stored b ∧ Stored d ∧ ¬ WF a ∧ ¬ WF b ∧
      FixedDecimal.div .release a b = .ok ⟨1#8, 9, [499999969, 2, 0, 0, 0, 0, 0, 0, 0]⟩ ∧
      FixedDecimal.div .release FixedDecimal.one d = .panic .divZero ∧
      (∃ u ∈ d.lsu, ¬ (0 ≤ u ∧ u < 1000000000)) := by
  refine ⟨⟨rfl, ?_, by decide⟩, ⟨rfl, ?_, by decide⟩, ⟨rfl, ?_, by decide⟩, by decide, by decide, by decide +kernel, by decide +kernel,
    1999999999, by decide, by decide⟩ <;>
  · intro u hu
    simp only [List.mem_cons, List.not_mem_nil, or_false] at hu
    rcases hu with rfl | rfl | rfl | rfl | rfl | rfl | rfl | rfl | rfl <;> exact ⟨by norm_num, by norm_num⟩

end Props
end Fxd
