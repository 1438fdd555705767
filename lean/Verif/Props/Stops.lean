import Verif.Props.Ends
/-!
# Property C101: how a program can stop

C71 and C95 speak about single calls. Here is the whole program: any sequence of API actions, started from registers that hold
anything the fields can hold, either runs to its end or stops at one action, with one of the listed panics.
-/

namespace Fxd
open Spec

/-- The panic of a call, if it panics. -/
def Out.stop {σ α : Type} : Out σ α → Option Panic
  | .panic p => some p
  | _ => none

/-- The panic that an action of the code ends in, if it does: the same calls as `Action.step`. -/
def Action.stop (m : Mode) (s : Regs) : Action → Option Panic
  | .call (.parse i bs) => (FixedDecimal.fromBytesStr m (s i) bs true).stop
  | .call (.fromI64 _ n) => (FixedDecimal.fromI64 m n : Out Empty _).stop
  | .call (.fromU64 _ n) => (FixedDecimal.fromU64 n : Out Empty _).stop
  | .call (.add i a b) => (FixedDecimal.addTo m (s a) (s b) (s i)).stop
  | .call (.sub i a b) => (FixedDecimal.subTo m (s a) (s b) (s i)).stop
  | .call (.mul i a b) => (FixedDecimal.mulTo m (s a) (s b) (s i)).stop
  | .call (.div i a b incr) => (FixedDecimal.divTo m (s a) (s b) (s i) incr).stop
  | .call (.rem i a b) => (FixedDecimal.remTo m (s a) (s b) (s i)).stop
  | .call (.roundTo i a k) => ((s a).roundTo m (s i) k : Out Empty _).stop
  | .call (.round i k) => ((s i).round m k : Out Empty _).stop
  | .call _ => none
  | .parseKeep i bs => (FixedDecimal.fromBytesStr m (s i) bs false).stop
  | .op o _ a b => (o.run m (s a) (s b)).stop
  | .text a k => (FixedDecimal.toStr m (s a) k : Out Unit _).stop
  | .cmp a b => (FixedDecimal.cmp m (s a) (s b) : Out Unit _).stop
  | .eq a b => (FixedDecimal.eq m (s a) (s b) : Out Unit _).stop
  | .hash a => (FixedDecimal.hash m (s a) : Out Unit _).stop
  | .asI64 a => ((s a).asI64 m).stop
  | .asU64 a => ((s a).asU64 m).stop
  | _ => none

/-- The divisor of an action that divides. -/
def Action.divisor (s : Regs) : Action → Option FixedDecimal
  | .call (.div _ _ b _) => some (s b)
  | .call (.rem _ _ b) => some (s b)
  | .op .div _ _ b => some (s b)
  | .op .rem _ _ b => some (s b)
  | _ => none

/-- The panics there are. A bounds check, anywhere; an overflow check or an assertion, in debug builds only; the report of an
error, by an operator only; a division by zero, by an action that divides, only if its divisor has a unit outside
`0 ..= 999999999`. -/
def Action.Listed (m : Mode) (s : Regs) (a : Action) (p : Panic) : Prop :=
  Ordinary m p ∨ (∃ o i x y e, a = .op o i x y ∧ p = .operator e) ∨
    (p = .divZero ∧ ∃ d, a.divisor s = some d ∧ ∃ u ∈ d.lsu, ¬ (0 ≤ u ∧ u < 1000000000))

namespace Props

theorem stop_eq {σ α : Type} {x : Out σ α} {p : Panic} (h : x.stop = some p) : x = .panic p := by
  cases x with
  | panic q => exact congrArg _ (Option.some.inj h)
  | ok a => cases h
  | err e s => cases h

theorem write_none {s : Regs} {i : Nat} (x : Out FixedDecimal FixedDecimal) : s.write i x = none ↔ x.stop ≠ none := by
  cases x <;> simp [Regs.write, Out.stop]

theorem writeE_none {s : Regs} {i : Nat} (x : Out Empty FixedDecimal) : s.writeE i x = none ↔ x.stop ≠ none := by
  cases x with
  | ok d => simp [Regs.writeE, Out.stop]
  | err e x => exact nomatch x
  | panic p => simp [Regs.writeE, Out.stop]

theorem look_none {s : Regs} {α : Type} {f : α → Reply} (x : Out Unit α) : s.look f x = none ↔ x.stop ≠ none := by
  cases x <;> simp [Regs.look, Out.stop]

/-- `Action.stop` is right: an action has no reply exactly if it panics. -/
theorem C101_stop_iff (m : Mode) (s : Regs) (a : Action) : a.step m s = none ↔ ∃ p, a.stop m s = some p := by
  rw [← Option.ne_none_iff_exists']
  cases a with
  | call c =>
    cases c <;> first
      | exact write_none _
      | exact writeE_none _
      | exact ⟨fun h => absurd h (by simp [Action.step, Call.step, Regs.writeE]), fun h => absurd rfl h⟩
  | parseKeep i bs => exact write_none _
  | op o i a b => exact writeE_none _
  | text a k => exact look_none _
  | cmp a b => exact look_none _
  | eq a b => exact look_none _
  | hash a => exact look_none _
  | asI64 a => exact look_none _
  | asU64 a => exact look_none _
  | isZero a => exact ⟨fun h => (nomatch h), fun h => absurd rfl h⟩
  | isNeg a => exact ⟨fun h => (nomatch h), fun h => absurd rfl h⟩
  | intg a => exact ⟨fun h => (nomatch h), fun h => absurd rfl h⟩
  | frac a => exact ⟨fun h => (nomatch h), fun h => absurd rfl h⟩

/-- **C101.** One action, on registers that hold anything their fields can: every panic is a listed one. In particular no action
runs forever. -/
theorem C101_action (m : Mode) {s : Regs} (hs : ∀ j, Stored (s j)) {a : Action} (hr : a.InRange) {p : Panic}
    (h : a.stop m s = some p) : a.Listed m s p := by
  cases a with
  | call c =>
    cases c with
    | parse i bs => exact Or.inl ((C71_parse m (s i) bs true).1 p (stop_eq h))
    | fromI64 i n => exact Or.inl ((fromI64_halts (m := m)) p (stop_eq h))
    | fromU64 i n => exact Or.inl ((fromU64_halts (m := m) hr.1) p (stop_eq h))
    | add i a b => exact Or.inl ((C71_rest m (s a) (s b) (s i) 0 []).1 p (stop_eq h))
    | sub i a b => exact Or.inl ((C71_rest m (s a) (s b) (s i) 0 []).2.1 p (stop_eq h))
    | mul i a b => exact Or.inl ((C71_rest m (s a) (s b) (s i) 0 []).2.2.1 p (stop_eq h))
    | div i a b incr =>
      rcases C95_div m (hs a) (hs b) _ _ (stop_eq h) with h | ⟨h, hu⟩
      · exact Or.inl h
      · exact Or.inr (Or.inr ⟨h, _, rfl, hu⟩)
    | rem i a b =>
      rcases C95_rem m (hs a) (hs b) _ (stop_eq h) with h | ⟨h, hu⟩
      · exact Or.inl h
      · exact Or.inr (Or.inr ⟨h, _, rfl, hu⟩)
    | roundTo i a k => exact Or.inl ((Halts.roundTo (m := m)) p (stop_eq h))
    | round i k => exact Or.inl ((Halts.round (m := m)) p (stop_eq h))
    | _ => exact nomatch h
  | parseKeep i bs => exact Or.inl ((C71_parse m (s i) bs false).1 p (stop_eq h))
  | op o i a b =>
    have hd : ∀ p', (FixedDecimal.div m (s a) (s b) = .panic p' ∨ FixedDecimal.rem m (s a) (s b) = .panic p') → p' = p →
        Action.divisor s (.op o i a b) = some (s b) → Action.Listed m s (.op o i a b) p := by
      intro p' h' e hdv
      subst e
      rcases C95_operators m (hs a) (hs b) h' with (h | ⟨h, hu⟩) | ⟨e, h⟩
      · exact Or.inl h
      · exact Or.inr (Or.inr ⟨h, _, hdv, hu⟩)
      · exact Or.inr (Or.inl ⟨o, i, a, b, e, rfl, h⟩)
    have hx : ∀ x : Out FixedDecimal FixedDecimal, Halts m x → FixedDecimal.orPanic x = .panic p →
        Action.Listed m s (.op o i a b) p := fun x hh he => by
      rcases orPanic_halts hh he with h | ⟨e, h⟩
      · exact Or.inl h
      · exact Or.inr (Or.inl ⟨o, i, a, b, e, rfl, h⟩)
    cases o with
    | add => exact hx _ .addTo (stop_eq h)
    | sub => exact hx _ .subTo (stop_eq h)
    | mul => exact hx _ .mulTo (stop_eq h)
    | div => exact hd p (Or.inl (stop_eq h)) rfl rfl
    | rem => exact hd p (Or.inr (stop_eq h)) rfl rfl
  | text a k => exact Or.inl ((Halts.toStr (m := m)) p (stop_eq h))
  | cmp a b => exact Or.inl ((Halts.cmp (m := m)) p (stop_eq h))
  | eq a b => exact Or.inl ((Halts.eq (m := m)) p (stop_eq h))
  | hash a => exact Or.inl ((Halts.hash (m := m)) p (stop_eq h))
  | asI64 a => exact Or.inl ((Halts.asI64 (m := m)) p (stop_eq h))
  | asU64 a => exact Or.inl ((Halts.asU64 (m := m)) p (stop_eq h))
  | isZero a => exact nomatch h
  | isNeg a => exact nomatch h
  | intg a => exact nomatch h
  | frac a => exact nomatch h

/-- **C101.** The whole program: it runs to its end, or it stops at one action, after replying to all the actions before it, in
one of the listed panics. -/
theorem C101_program (m : Mode) {s : Regs} (hs : ∀ j, Stored (s j)) {as : List Action} (hr : ∀ a ∈ as, a.InRange) :
    (∃ t, (trace (Action.step m) s as).2 = some t ∧ (trace (Action.step m) s as).1.length = as.length) ∨
    ∃ before a after t p, as = before ++ a :: after ∧ (trace (Action.step m) s before).2 = some t ∧
      (trace (Action.step m) s as).1 = (trace (Action.step m) s before).1 ∧ a.stop m t = some p ∧ a.Listed m t p := by
  induction as generalizing s with
  | nil => exact Or.inl ⟨s, rfl, rfl⟩
  | cons a as ih =>
    cases hx : a.step m s with
    | none =>
      obtain ⟨p, hp⟩ := (C101_stop_iff m s a).mp hx
      refine Or.inr ⟨[], a, as, s, p, rfl, rfl, ?_, hp, C101_action m hs (hr a List.mem_cons_self) hp⟩
      simp [trace, hx]
    | some q =>
      obtain ⟨r, t⟩ := q
      have ht := C91_step m hs hx
      rcases ih ht fun b hb => hr b (List.mem_cons_of_mem _ hb) with ⟨t', h1, h2⟩ | ⟨be, b, af, t', p, h1, h2, h3, h4, h5⟩
      · exact Or.inl ⟨t', by simp [trace, hx, h1], by simp [trace, hx, h2]⟩
      · refine Or.inr ⟨a :: be, b, af, t', p, by rw [h1]; rfl, by simp [trace, hx, h2], by simp [trace, hx, h3], h4, h5⟩

/-- **C101.** In a release build a program that does not divide stops only at a bounds check or at the report of an error by one
of `+ - *`. -/
theorem C101_release {s : Regs} (hs : ∀ j, Stored (s j)) {a : Action} (hr : a.InRange) (hd : a.divisor s = none) {p : Panic}
    (h : a.stop .release s = some p) : p = .index ∨ ∃ o i x y e, a = .op o i x y ∧ p = .operator e := by
  rcases C101_action .release hs hr h with h | h | ⟨-, d, h, -⟩
  · rcases h with h | ⟨h, -⟩
    · exact Or.inl h
    · cases h
  · exact Or.inr h
  · rw [hd] at h; cases h

/-- Every kind of listed panic happens, in programs that start from zeroes: a bounds check and a division by zero in release
builds, an overflow check and an assertion in debug builds, the report of an error. -/
theorem C101_witness :
    let blank : Regs := fun _ => FixedDecimal.zero
    let big := Samples.bytes "500000000000000000077119559999999998"
    let long := Samples.bytes "500000000000000000500000000"
    let nines := Samples.bytes "999999999"
    let wide := [Action.call (.parse 0 big), .call (.parse 1 long), .call (.div 2 0 1 18), .call (.parse 0 nines), .op .sub 2 2 0]
    let after (m : Mode) (as : List Action) (a : Action) : Option Panic := (trace (Action.step m) blank as).2.bind (a.stop m)
    after .release wide (.op .rem 3 0 2) = some .divZero ∧
    after .debug (wide.take 2) (.call (.div 2 0 1 18)) = some .assert ∧
    after .debug [] (.parseKeep 0 (List.replicate 128 49)) = some .overflow ∧
    after .release [.call (.parse 0 (List.replicate 60 57))] (.op .mul 1 0 0) = some .index ∧
    after .release [.call (.parse 0 (List.replicate 41 57))] (.op .mul 1 0 0) = some (.operator .overflow) ∧
    after .release [.call (.parse 0 (List.replicate 41 57))] (.op .rem 1 0 7) = some (.operator .divisionByZero) := by
  refine ⟨?_, ?_, ?_, ?_, ?_, ?_⟩ <;> decide +kernel

example : ∀ _ : Nat, Stored FixedDecimal.zero := fun _ => stored_zero

end Props
end Fxd
