import Verif.Model.ErrorText
import Verif.Props.Trace
import Verif.Props.Halts
/-!
# C86: which errors a call can report, and what they say
-/

namespace Fxd
namespace Props
open Spec

variable {m : Mode}

/-- **C86** Parsing - of any bytes, into anything - reports nothing but a syntax error. -/
theorem C86_parse (m : Mode) {x s : FixedDecimal} {bs : List Nat} {reset : Bool} {e : Error}
    (h : FixedDecimal.fromBytesStr m x bs reset = .err e s) : e = .conversionSyntax := (parse_err h).1

theorem C86_from_str (m : Mode) {bs : List Nat} {e : Error} (h : FixedDecimal.fromStr m bs = .err e ()) :
    e = .conversionSyntax := by
  unfold FixedDecimal.fromStr at h
  cases h1 : FixedDecimal.fromBytesStr m FixedDecimal.zero bs false with
  | ok r => rw [h1] at h; cases h
  | panic p => rw [h1] at h; cases h
  | err e' s =>
    rw [h1] at h
    injection h with h
    rw [← h]; exact (parse_err h1).1

/-- **C86** Sums and differences report nothing; products only an overflow, of operands both non-zero. -/
theorem C86_add_sub_mul (m : Mode) {a b res st : FixedDecimal} (ha : WF a) (hb : WF b) (hres : res.lsu.length = 9) {e : Error} :
    FixedDecimal.addTo m a b res ≠ .err e st ∧ FixedDecimal.subTo m a b res ≠ .err e st ∧
    (FixedDecimal.mulTo m a b res = .err e st → e = .overflow ∧ val a ≠ 0 ∧ val b ≠ 0) := by
  refine ⟨(C22_never_err ha hb hres e st).1, (C22_never_err ha hb hres e st).2, fun h => ?_⟩
  obtain ⟨za, zb, he, -⟩ := (C29_wf_err_iff m ha hb hres).mp ⟨st, h⟩
  exact ⟨he, za, zb⟩

/-- **C86** A quotient - whatever precision is asked for - reports a division by zero exactly for a zero divisor, and
otherwise nothing but an overflow, of a dividend that is not zero. -/
theorem C86_div (m : Mode) {a b res : FixedDecimal} (ha : WF a) (hb : WF b) (hres : res.lsu.length = 9) (incr : Nat) :
    ((∃ st, FixedDecimal.divTo m a b res incr = .err .divisionByZero st) ↔ val b = 0) ∧
    ∀ e st, FixedDecimal.divTo m a b res incr = .err e st → e = .divisionByZero ∨ (e = .overflow ∧ val a ≠ 0) := by
  have key : ∀ e st, val b ≠ 0 → FixedDecimal.divTo m a b res incr = .err e st → e = .overflow ∧ val a ≠ 0 := by
    intro e st zb h
    by_cases za : val a = 0
    · rw [C34_zero_div m ha hb hres za zb] at h; cases h
    · have hE := divTo_eff m ha hb hres (mt val_eq_zero.mpr za) (mt val_eq_zero.mpr zb) incr
      cases hx : effIncr m a b incr with
      | none => rw [hx] at hE; dsimp only at hE; rw [hE] at h; cases h
      | some j =>
        rw [hx] at hE
        rw [hE.2] at h
        exact ⟨((C58_overflow_iff m ha hb hres za zb hE.1).mp h).2.2.1, za⟩
  refine ⟨⟨?_, fun zb => ⟨_, C33_div_zero m ha hb hres zb _⟩⟩, fun e st h => ?_⟩
  · rintro ⟨st, h⟩
    by_contra zb
    exact absurd (key _ _ zb h).1 (by decide)
  · by_cases zb : val b = 0
    · rw [C33_div_zero m ha hb hres zb] at h
      injection h with h; exact Or.inl h.symm
    · exact Or.inr (key e st zb h)

/-- **C86** A remainder reports a division by zero, exactly for a zero divisor, and nothing else. -/
theorem C86_rem (m : Mode) {a b res : FixedDecimal} (ha : WF a) (hb : WF b) (hres : res.lsu.length = 9) {e : Error} :
    (∃ st, FixedDecimal.remTo m a b res = .err e st) ↔ val b = 0 ∧ e = .divisionByZero := by
  constructor
  · rintro ⟨st, h⟩
    have := C33_rem_zero_only m ha hb hres h
    exact ⟨this.1, this.2.1⟩
  · rintro ⟨zb, rfl⟩
    exact ⟨_, C33_rem_zero m ha hb hres zb⟩

/-- **C86** Integer conversions report only that the target's range is exceeded. -/
theorem C86_as_int (m : Mode) {d : FixedDecimal} (hd : WF d) {e : Error} :
    (d.asI64 m = .err e () ∨ d.asU64 m = .err e () → e = .exceedsConversionTargetRange) := by
  rintro (h | h)
  · rw [C46_as_i64 m hd] at h
    split_ifs at h
    injection h with h; exact h.symm
  · rw [C47_as_u64 m hd] at h
    split_ifs at h
    injection h with h; exact h.symm

/-! ## The texts -/

/-- **C86** Different errors have different texts. -/
theorem C86_display_inj {e e' : Error} (h : e.display = e'.display) : e = e' := by
  revert h; cases e <;> cases e' <;> decide

theorem someText {what : String} {f : Out FixedDecimal FixedDecimal} (hf : Halts m f) {t : String} :
    FixedDecimal.panicText what (FixedDecimal.orPanic f) = some t ↔ ∃ e s, f = .err e s ∧ t = what ++ " failed: " ++ e.display := by
  cases hx : f with
  | ok r => simp [FixedDecimal.orPanic, FixedDecimal.panicText]
  | err e s =>
    simp only [FixedDecimal.orPanic, FixedDecimal.panicText, Option.some.injEq, Out.err.injEq]
    constructor
    · rintro rfl; exact ⟨e, s, ⟨rfl, rfl⟩, rfl⟩
    · rintro ⟨_, _, ⟨rfl, rfl⟩, h⟩; exact h.symm
  | panic p =>
    have := hf p hx
    constructor
    · intro h
      cases p with
      | operator e => exact absurd this (by simp [Ordinary])
      | _ => simp [FixedDecimal.orPanic, FixedDecimal.panicText] at h
    · rintro ⟨e, s, h, -⟩; cases h

/-- **C86** What the operators say when they panic by themselves: sums and differences never do; a product can only say
"Decimal overflow"; a quotient says "Decimal division by zero" exactly for a zero divisor and otherwise only "Decimal
overflow"; a remainder says "Decimal division by zero", exactly for a zero divisor. Each names its own operation. -/
theorem C86_panic_texts (m : Mode) {a b : FixedDecimal} (ha : WF a) (hb : WF b) :
    FixedDecimal.addText m a b = none ∧ FixedDecimal.subText m a b = none ∧
    (∀ t, FixedDecimal.mulText m a b = some t → t = "multiplication failed: Decimal overflow") ∧
    (FixedDecimal.divText m a b = some "division failed: Decimal division by zero" ↔ val b = 0) ∧
    (∀ t, FixedDecimal.divText m a b = some t → t = "division failed: Decimal division by zero" ∨
      t = "division failed: Decimal overflow") ∧
    (FixedDecimal.remText m a b = some "modulo failed: Decimal division by zero" ↔ val b = 0) ∧
    (∀ t, FixedDecimal.remText m a b = some t → t = "modulo failed: Decimal division by zero") := by
  have hl : FixedDecimal.blank.lsu.length = 9 := rfl
  obtain ⟨h1, h2, h3, -⟩ := C71_rest m a b FixedDecimal.blank 0 []
  have h4 := C71_div m ha hb hl FixedDecimal.DIV_INCR_FRAC
  have h5 := C71_rem m ha hb hl
  have d4 := C86_div m ha hb hl 4
  refine ⟨?_, ?_, fun t h => ?_, ?_, fun t h => ?_, ?_, fun t h => ?_⟩
  · rw [Option.eq_none_iff_forall_ne_some]
    intro t h
    obtain ⟨e, s, h, -⟩ := (someText h1).mp h
    exact (C86_add_sub_mul m ha hb hl).1 h
  · rw [Option.eq_none_iff_forall_ne_some]
    intro t h
    obtain ⟨e, s, h, -⟩ := (someText h2).mp h
    exact (C86_add_sub_mul m ha hb hl).2.1 h
  · obtain ⟨e, s, h', rfl⟩ := (someText h3).mp h
    rw [((C86_add_sub_mul m ha hb hl).2.2 h').1]; decide
  · rw [← d4.1]
    refine (someText h4).trans ⟨?_, ?_⟩
    · rintro ⟨e, s, h, ht⟩
      refine ⟨s, ?_⟩
      rcases d4.2 e s h with rfl | ⟨rfl, -⟩
      · exact h
      · exact absurd ht (by decide)
    · rintro ⟨s, h⟩
      exact ⟨_, s, h, by decide⟩
  · obtain ⟨e, s, h', rfl⟩ := (someText h4).mp h
    rcases d4.2 e s h' with rfl | ⟨rfl, -⟩
    · left; decide
    · right; decide
  · refine (someText h5).trans ⟨?_, fun zb => ?_⟩
    · rintro ⟨e, s, h, -⟩
      exact ((C86_rem m ha hb hl).mp ⟨s, h⟩).1
    · exact ⟨_, _, C33_rem_zero m ha hb hl zb, by decide⟩
  · obtain ⟨e, s, h', rfl⟩ := (someText h5).mp h
    rw [((C86_rem m ha hb hl).mp ⟨s, h'⟩).2]; decide

/-- All of them happen. -/
example : FixedDecimal.divText m Samples.a Samples.nz = some "division failed: Decimal division by zero" ∧
    FixedDecimal.remText m Samples.a Samples.nz = some "modulo failed: Decimal division by zero" ∧
    (let x : FixedDecimal := ⟨45#8, 0, [0, 0, 0, 0, 100000000, 0, 0, 0, 0]⟩
     WF x ∧ FixedDecimal.mulText m x x = some "multiplication failed: Decimal overflow" ∧
     FixedDecimal.divText m x ⟨0#8, 60, [1000000, 0, 0, 0, 0, 0, 0, 0, 0]⟩ = some "division failed: Decimal overflow") := by
  refine ⟨by cases m <;> decide +kernel, by cases m <;> decide +kernel, by decide +kernel, by cases m <;> decide +kernel,
    by cases m <;> decide +kernel⟩

/-- **C86** The error result of addition and subtraction is never used: on no decimals at all, whatever their fields hold, do they return
an error - a sum that does not fit is a panic of an index or an overflow check - so the texts "addition failed" and "subtraction failed"
are never written. -/
theorem C86_sums_raw (m : Mode) (a b res : FixedDecimal) :
    (∀ e st, FixedDecimal.addTo m a b res ≠ .err e st ∧ FixedDecimal.subTo m a b res ≠ .err e st) ∧
    FixedDecimal.addText m a b = none ∧ FixedDecimal.subText m a b = none := by
  have hadd : ∀ res, NoErr (FixedDecimal.addTo m a b res) := fun res =>
    .ite (fun _ => .ok) fun _ => .ite (fun _ => .ok) fun _ =>
      .ite (fun _ => .bind .addAbs fun _ _ => .ok) (fun _ => .bind .subAbs fun _ _ => .ok)
  have hsub : ∀ res, NoErr (FixedDecimal.subTo m a b res) := fun res =>
    .ite (fun _ => .ite (fun _ => .ok) (fun _ => .ok)) fun _ => .ite (fun _ => .ok) fun _ =>
      .ite (fun _ => .bind .addAbs fun _ _ => .ok) (fun _ => .bind .subAbs fun _ _ => .ok)
  obtain ⟨h1, h2, -⟩ := C71_rest m a b FixedDecimal.blank 0 []
  refine ⟨fun e st => ⟨hadd res e st, hsub res e st⟩, ?_, ?_⟩
  · rw [Option.eq_none_iff_forall_ne_some]
    intro t h
    obtain ⟨e, s, h, -⟩ := (someText h1).mp h
    exact hadd _ e s h
  · rw [Option.eq_none_iff_forall_ne_some]
    intro t h
    obtain ⟨e, s, h, -⟩ := (someText h2).mp h
    exact hsub _ e s h

/-- The largest value plus itself: a panic, of an index, in both builds. -/
example : WF ⟨72#8, 0, [999999999, 999999999, 999999999, 999999999, 999999999, 999999999, 999999999, 999999999, 0]⟩ ∧
    (let x : FixedDecimal := ⟨72#8, 0, [999999999, 999999999, 999999999, 999999999, 999999999, 999999999, 999999999, 999999999, 0]⟩
     ∃ p, FixedDecimal.add m x x = .panic p ∧ p ≠ .operator .overflow) := by
  refine ⟨by decide +kernel, ?_⟩
  cases m
  · exact ⟨.index, by decide +kernel, by decide⟩
  · exact ⟨.index, by decide +kernel, by decide⟩

end Props
end Fxd
