import Verif.Props.Trace
import Verif.Proofs.Stored
/-!
# Property C91: no session makes the unsafe block unsound

The only `unsafe` code of the crate is `String::from_utf8_unchecked` in `to_string` (`/repo/src/serde.rs`).  C13 says that its
bytes are ASCII whenever the fields of the decimal hold values of their types; here: after any session whatsoever they do.
Nothing is assumed about the arguments, about well-formedness, or about which build it is.
-/

namespace Fxd
open Spec

namespace Props

theorem stored_of_wf {d : FixedDecimal} (h : WF d) : Stored d := by
  refine ⟨h.len, fun u hu => ?_, ?_⟩
  · obtain ⟨h0, h1⟩ := h.units u hu
    exact ⟨by omega, by omega⟩
  · have h0 := h.frac_nonneg
    have h1 := h.fits
    unfold fu unitsFor fracDigits at h1
    omega

theorem put_stored {s : Regs} (hs : ∀ j, Stored (s j)) {i : Nat} {d : FixedDecimal} (hd : Stored d) (j : Nat) :
    Stored (s.put i d j) := by
  unfold Regs.put
  split_ifs
  · exact hd
  · exact hs j

theorem write_stored {s t : Regs} (hs : ∀ j, Stored (s j)) {i : Nat} {o : Out FixedDecimal FixedDecimal} {r : Reply}
    (ho : Ret Stored Stored o) (h : s.write i o = some (r, t)) : ∀ j, Stored (t j) := by
  cases o with
  | ok d => rw [← (Prod.mk.inj (Option.some.inj h)).2]; exact put_stored hs ho
  | err e d => rw [← (Prod.mk.inj (Option.some.inj h)).2]; exact put_stored hs ho
  | panic p => cases h

theorem writeE_stored {s t : Regs} (hs : ∀ j, Stored (s j)) {i : Nat} {o : Out Empty FixedDecimal} {r : Reply}
    (ho : Ret Stored (fun _ => True) o) (h : s.writeE i o = some (r, t)) : ∀ j, Stored (t j) := by
  cases o with
  | ok d => rw [← (Prod.mk.inj (Option.some.inj h)).2]; exact put_stored hs ho
  | err e x => exact nomatch x
  | panic p => cases h

theorem orPanic_stored {o : Out FixedDecimal FixedDecimal} (h : Ret Stored Stored o) :
    Ret Stored (fun _ => True) (FixedDecimal.orPanic o) := by
  cases o with
  | ok d => exact h
  | err e d => trivial
  | panic p => trivial

/-- **C91.** One action, with any arguments, leaves values of the struct in all registers. -/
theorem C91_step (m : Mode) {s t : Regs} (hs : ∀ j, Stored (s j)) {a : Action} {r : Reply} (h : a.step m s = some (r, t)) :
    ∀ j, Stored (t j) := by
  have same : t = s → ∀ j, Stored (t j) := fun e => e ▸ hs
  have len : ∀ j, (s j).lsu.length = 9 := fun j => (hs j).len
  cases a with
  | call c =>
    cases c with
    | parse i bs => exact write_stored hs (.fromBytesStr (hs i) _ _) h
    | fromI64 i n => exact writeE_stored hs (.fromI64 _) h
    | fromU64 i n => exact writeE_stored hs (.fromU64 _) h
    | setZero i => exact writeE_stored (o := .ok (s i).setZero) hs (Spec.Stored.setZero (len i)) h
    | setOne i => exact writeE_stored (o := .ok (s i).setOne) hs (hs i).setOne h
    | setNeg i => exact writeE_stored (o := .ok (s i).setNeg) hs (hs i).setNeg h
    | setPos i => exact writeE_stored (o := .ok (s i).setPos) hs (hs i).setPos h
    | copy i a => exact writeE_stored (o := .ok (s a)) hs (hs a) h
    | add i a b => exact write_stored hs (.addTo (hs a) (hs b) (len i)) h
    | sub i a b => exact write_stored hs (.subTo (hs a) (hs b) (len i)) h
    | mul i a b => exact write_stored hs (.mulTo (len i)) h
    | div i a b k => exact write_stored hs (.divTo (hs a) (hs b) (len i) _) h
    | rem i a b => exact write_stored hs (.remTo (hs a) (hs b) (len i)) h
    | roundTo i a k => exact writeE_stored hs (.roundTo (hs a) (len i) _) h
    | round i k => exact writeE_stored hs (.round (hs i) _) h
  | parseKeep i bs => exact write_stored hs (.fromBytesStr (hs i) _ _) h
  | op o i a b =>
    cases o with
    | add => exact writeE_stored hs (orPanic_stored (.addTo (hs a) (hs b) rfl)) h
    | sub => exact writeE_stored hs (orPanic_stored (.subTo (hs a) (hs b) rfl)) h
    | mul => exact writeE_stored hs (orPanic_stored (.mulTo rfl)) h
    | div => exact writeE_stored hs (orPanic_stored (.divTo (hs a) (hs b) rfl _)) h
    | rem => exact writeE_stored hs (orPanic_stored (.remTo (hs a) (hs b) rfl)) h
  | isZero | isNeg | intg | frac => exact same (Prod.mk.inj (Option.some.inj h)).2.symm
  | _ => exact same (look_same h)

/-- **C91.** After any session that did not panic, all registers hold values of the struct. -/
theorem C91_stored (m : Mode) {s t : Regs} (hs : ∀ j, Stored (s j)) {as : List Action}
    (h : (trace (Action.step m) s as).2 = some t) : ∀ j, Stored (t j) := by
  induction as generalizing s with
  | nil => exact Option.some.inj h ▸ hs
  | cons a as ih =>
    unfold trace at h
    cases hx : a.step m s with
    | none => rw [hx] at h; cases h
    | some p =>
      obtain ⟨r, u⟩ := p
      rw [hx] at h
      exact ih (C91_step m hs hx) h

theorem look_text {s : Regs} {d : FixedDecimal} (hd : Stored d) {m : Mode} {k : Int} {r : Reply} {t : Regs} {bs : List Nat}
    (h : s.look .text (FixedDecimal.toStr m d k) = some (r, t)) (hr : r = .text bs) :
    ∀ c ∈ bs, c = 45 ∨ c = 46 ∨ (48 ≤ c ∧ c ≤ 57) := by
  cases ho : (FixedDecimal.toStr m d k : Out Unit (List Nat)) with
  | ok b =>
    rw [ho] at h
    have := (Prod.mk.inj (Option.some.inj h)).1
    rw [hr] at this
    cases this
    exact C13_ascii m hd.frac ho
  | err e x =>
    rw [ho] at h
    have := (Prod.mk.inj (Option.some.inj h)).1
    rw [hr] at this
    cases this
  | panic p => rw [ho] at h; cases h

/-- A step that answers with a text was a formatting. -/
theorem step_text (m : Mode) {s t : Regs} (hs : ∀ j, Stored (s j)) {a : Action} {bs : List Nat}
    (h : a.step m s = some (.text bs, t)) : ∀ c ∈ bs, c = 45 ∨ c = 46 ∨ (48 ≤ c ∧ c ≤ 57) := by
  have hw : ∀ {i : Nat} {o : Out FixedDecimal FixedDecimal}, s.write i o ≠ some (.text bs, t) := by
    intro i o h
    cases o <;> cases h
  have hwe : ∀ {i : Nat} {o : Out Empty FixedDecimal}, s.writeE i o ≠ some (.text bs, t) := by
    intro i o h
    cases o with
    | ok d => cases h
    | err e x => exact nomatch x
    | panic p => cases h
  have hl : ∀ {α : Type} {f : α → Reply} {o : Out Unit α}, (∀ a, f a ≠ .text bs) → s.look f o ≠ some (.text bs, t) := by
    intro α f o hf h
    cases o with
    | ok a => exact hf a (Prod.mk.inj (Option.some.inj h)).1
    | err e x => cases h
    | panic p => cases h
  cases a with
  | text a k => exact look_text (hs a) h rfl
  | call c => cases c <;> first | exact absurd h hw | exact absurd h hwe | exact absurd (Prod.mk.inj (Option.some.inj h)).1 (by intro hx; cases hx)
  | parseKeep i bs' => exact absurd h hw
  | op o i a b => exact absurd h hwe
  | isZero | isNeg | intg | frac => exact absurd (Prod.mk.inj (Option.some.inj h)).1 (by intro hx; cases hx)
  | _ => exact absurd h (hl (fun a hx => by cases hx))

/-- **C91.** Every text that any session ever obtains, up to a panic if there is one, consists of ASCII digits, `-` and `.`: the
bytes given to `from_utf8_unchecked` are valid UTF-8 in every reachable state. -/
theorem C91_texts (m : Mode) {s : Regs} (hs : ∀ j, Stored (s j)) (as : List Action) {bs : List Nat}
    (h : Reply.text bs ∈ (trace (Action.step m) s as).1) : ∀ c ∈ bs, c = 45 ∨ c = 46 ∨ (48 ≤ c ∧ c ≤ 57) := by
  induction as generalizing s with
  | nil => cases h
  | cons a as ih =>
    unfold trace at h
    cases hx : a.step m s with
    | none => rw [hx] at h; cases h
    | some p =>
      obtain ⟨r, u⟩ := p
      rw [hx] at h
      rcases List.mem_cons.mp h with h | h
      · exact step_text m hs (hx.trans (by rw [h]))
      · exact ih (C91_step m hs hx) h

/-- The session of the example: a quotient with a unit of 1999999999 (C36), shown without its fraction, added to itself - which
leaves a negative unit - shown again; and a rounding to a precision of 252, which is stored as -4, shown. -/
def strangeSession : List Action :=
  [.call (.parse 0 (Samples.bytes "1000000000000000000000000000")), .call (.parse 1 (Samples.bytes "500000000000000000999999999")),
    .call (.div 2 0 1 4), .text 2 0, .op .add 2 2 2, .text 2 0, .call (.roundTo 3 1 252), .frac 3, .text 3 2]

/-- It runs to its end in a release build, from blank registers, and leaves registers that are far from well-formed. -/
example : (∀ j, Stored (blank j)) ∧
    (trace (Action.step .release) blank strangeSession).1 = [.done, .done, .done, .text (Samples.bytes "1"), .done,
      .text (Samples.bytes "2"), .done, .number (-4), .text (Samples.bytes "500000000000000000999999999.00")] ∧
    (trace (Action.step .release) blank strangeSession).2.map (fun t => (t 2, t 3)) =
      some (⟨9#8, 9, [-294967298, 2, 0, 0, 0, 0, 0, 0, 0]⟩, ⟨27#8, -4, [999999999, 0, 500000000, 0, 0, 0, 0, 0, 0]⟩) ∧
    ¬ WF ⟨9#8, 9, [-294967298, 2, 0, 0, 0, 0, 0, 0, 0]⟩ ∧ ¬ WF ⟨27#8, -4, [999999999, 0, 500000000, 0, 0, 0, 0, 0, 0]⟩ :=
  ⟨fun _ => stored_zero, by decide +kernel, by decide +kernel, by decide, by decide⟩

end Props
end Fxd
