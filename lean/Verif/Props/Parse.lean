import Verif.Proofs.ParseMisc
import Verif.Props.Cmp
/-!
# Parsing: C01 - C09
-/

namespace Fxd
namespace Props
open Spec

variable {m : Mode}

theorem parsed_val {t : Numeral} {s r : FixedDecimal} (h : Parsed t s r) : val r = t.denote := by
  unfold val absVal Numeral.denote
  rw [h.value, h.sign]
  by_cases hm : t.sign = .minus
  · rw [hm]
    have : (Sign.minus == Sign.minus) = true := rfl
    rw [this]; simp
  · have hb : (t.sign == .minus) = false := by cases hs : t.sign <;> simp_all <;> rfl
    rw [hb, if_neg hm]; simp

theorem parsed_tight {t : Numeral} {s r : FixedDecimal} (h : Parsed t s r) (hs : ∀ j, dg s.lsu j = 0) : Tight r := by
  refine ⟨⟨h.len, ?_, h.frac_nonneg, h.fits, ?_⟩, h.intg_ok, h.frac_ok⟩
  · apply DigL.of_dig
    intro i _
    by_cases hi : i < iu r + fu r
    · exact h.units i hi
    · rw [h.high i (by omega), hs]; norm_num
  · apply high_of_dg
    intro i hi
    rw [h.high i hi, hs]

theorem numeral_of_ok {self r : FixedDecimal} {bs : List Nat} {reset : Bool} (hself : self.lsu.length = 9)
    (hd : m = .debug ∨ mantDigits bs ≤ 127) (h : FixedDecimal.fromBytesStr m self bs reset = .ok r) :
    ∃ t : Numeral, t.Valid ∧ t.render = bs ∧ t.Limits ∧ Parsed t (afterReset self reset) r := by
  rcases parse_total (m := m) (self := self) bs reset hd with ⟨t, hv, rfl, h127⟩ | hr
  · obtain ⟨h1, h2⟩ := parse_render (m := m) hv h127 hself reset
    by_cases hl : t.Limits
    · obtain ⟨r', e, hp⟩ := h1 hl
      rw [e] at h; injection h with h; subst h
      exact ⟨t, hv, rfl, hl, hp⟩
    · rcases h2 hl with h0 | ⟨_, h0⟩ <;> rw [h0] at h <;> simp at h
  · rcases hr with h0 | ⟨_, h0⟩ <;> rw [h0] at h <;> simp at h

theorem parsed_of_ok {t : Numeral} (hv : t.Valid) {self r : FixedDecimal} {reset : Bool} (hself : self.lsu.length = 9)
    (hd : m = .debug ∨ t.digits.length ≤ 127) (h : FixedDecimal.fromBytesStr m self t.render reset = .ok r) :
    t.Limits ∧ Parsed t (afterReset self reset) r := by
  by_cases h127 : t.digits.length ≤ 127
  · obtain ⟨h1, h2⟩ := parse_render (m := m) hv h127 hself reset
    by_cases hl : t.Limits
    · obtain ⟨r', e, hp⟩ := h1 hl
      rw [e] at h; injection h with h; subst h
      exact ⟨hl, hp⟩
    · rcases h2 hl with h0 | ⟨_, h0⟩ <;> rw [h0] at h <;> simp at h
  · rcases hd with rfl | hd
    · rw [parse_over hv (by omega)] at h; simp at h
    · exact absurd hd h127

theorem fromStr_ok {bs : List Nat} {r : FixedDecimal} (h : FixedDecimal.fromStr m bs = .ok r) :
    FixedDecimal.fromBytesStr m FixedDecimal.zero bs false = .ok r := by
  unfold FixedDecimal.fromStr at h
  split at h
  · rename_i fd e; injection h with h; subst h; exact e
  · simp at h
  · simp at h

theorem zero_len : FixedDecimal.zero.lsu.length = 9 := rfl
theorem zero_dg (j : Nat) : dg FixedDecimal.zero.lsu j = 0 := dg_replicate

/-! ## C01 -/

/-- **C01.** Text that is accepted yields exactly the number written - whatever was in the decimal before. In debug
builds for every length; in release builds for at most 127 digits (see C03 for what happens beyond). -/
theorem C01_parse_exact (m : Mode) {t : Numeral} (hv : t.Valid) (hd : m = .debug ∨ t.digits.length ≤ 127)
    {self r : FixedDecimal} (hself : self.lsu.length = 9) {reset : Bool}
    (h : FixedDecimal.fromBytesStr m self t.render reset = .ok r) : val r = t.denote :=
  parsed_val (parsed_of_ok hv hself hd h).2

/-- **C01.** The same for `str::parse` / `from_str`. -/
theorem C01_from_str_exact (m : Mode) {t : Numeral} (hv : t.Valid) (hd : m = .debug ∨ t.digits.length ≤ 127)
    {r : FixedDecimal} (h : FixedDecimal.fromStr m t.render = .ok r) : val r = t.denote :=
  C01_parse_exact m hv hd zero_len (fromStr_ok h)

/-- "-012.340E+1" as a numeral -/
def sampleNumeral : Numeral := ⟨.minus, [0, 1, 2], some [3, 4, 0], some ⟨true, .plus, [1]⟩⟩
/-- non-vacuity: the numeral is valid, within the limits, its text is what one expects, and it parses. -/
example : sampleNumeral.Valid ∧ sampleNumeral.Limits ∧ sampleNumeral.render = Samples.bytes "-012.340E+1" ∧
    (∃ r, FixedDecimal.fromStr m sampleNumeral.render = .ok r) := by
  refine ⟨by decide, by decide, by decide, ⟨⟨0x84#8, 2, [400000000, 123, 0, 0, 0, 0, 0, 0, 0]⟩, ?_⟩⟩
  cases m <;> decide +kernel
example : sampleNumeral.denote = -1234 / 10 := by
  have h1 : digitsVal sampleNumeral.digits = 12340 := by decide
  have h2 : (sampleNumeral.expo - sampleNumeral.fracs.length : ℤ) = -2 := by decide
  unfold Numeral.denote
  rw [h1, h2, if_pos (by decide)]; norm_num

/-! ## C02 -/

/-- **C02.** A byte string is accepted exactly when it is the text of a numeral within the limits. (In debug builds
without any restriction on its length.) -/
theorem C02_accept_iff (m : Mode) (bs : List Nat) (hd : m = .debug ∨ mantDigits bs ≤ 127)
    {self : FixedDecimal} (hself : self.lsu.length = 9) (reset : Bool) :
    (∃ r, FixedDecimal.fromBytesStr m self bs reset = .ok r) ↔ ∃ t : Numeral, t.Valid ∧ t.render = bs ∧ t.Limits := by
  constructor
  · rintro ⟨r, h⟩
    obtain ⟨t, h1, h2, h3, -⟩ := numeral_of_ok hself hd h
    exact ⟨t, h1, h2, h3⟩
  · rintro ⟨t, h1, rfl, h3⟩
    have h65 := h3.2.2.1
    obtain ⟨r, e, -⟩ := (parse_render (m := m) h1 (by omega) hself reset).1 h3
    exact ⟨r, e⟩

/-- **C02.** What is not accepted is refused with `ConversionSyntax`; only debug builds may instead stop with an
arithmetic overflow. -/
theorem C02_rejected (m : Mode) (bs : List Nat) (hd : m = .debug ∨ mantDigits bs ≤ 127)
    {self : FixedDecimal} (hself : self.lsu.length = 9) (reset : Bool)
    (h : ∀ r, FixedDecimal.fromBytesStr m self bs reset ≠ .ok r) :
    (∃ s, FixedDecimal.fromBytesStr m self bs reset = .err .conversionSyntax s) ∨
      (m = .debug ∧ FixedDecimal.fromBytesStr m self bs reset = .panic .overflow) := by
  have fin : Rejected m (afterReset self reset) (FixedDecimal.fromBytesStr m self bs reset) →
      (∃ s, FixedDecimal.fromBytesStr m self bs reset = .err .conversionSyntax s) ∨
      (m = .debug ∧ FixedDecimal.fromBytesStr m self bs reset = .panic .overflow) := by
    rintro (h | h)
    · exact Or.inl ⟨_, h⟩
    · exact Or.inr h
  rcases parse_total (m := m) (self := self) bs reset hd with ⟨t, hv, rfl, h127⟩ | hr
  · obtain ⟨h1, h2⟩ := parse_render (m := m) hv h127 hself reset
    by_cases hl : t.Limits
    · obtain ⟨r, e, -⟩ := h1 hl
      exact absurd e (h r)
    · exact fin (h2 hl)
  · exact fin hr

/-- **C02.** Which shape the accepted decimal has: exactly the digits needed once the exponent is applied. -/
theorem C02_shape (m : Mode) {t : Numeral} (hv : t.Valid) (hd : m = .debug ∨ t.digits.length ≤ 127)
    {self r : FixedDecimal} (hself : self.lsu.length = 9) {reset : Bool}
    (h : FixedDecimal.fromBytesStr m self t.render reset = .ok r) :
    (fracDigits r : Int) = max 0 (t.fracs.length - t.expo) ∧
      (intgDigits r : Int) = max 0 (t.digits.length - t.fracs.length + t.expo) :=
  have p := (parsed_of_ok hv hself hd h).2
  ⟨p.scale, p.prec⟩

/-- tests: refused, refused, and a debug panic that is an error in release -/
example : mantDigits (Samples.bytes "1.2.3") ≤ 127 ∧
    FixedDecimal.fromStr m (Samples.bytes "1.2.3") = .err .conversionSyntax () ∧
    FixedDecimal.fromStr m (Samples.bytes "1e66") = .err .conversionSyntax () ∧
    FixedDecimal.fromStr .debug (Samples.bytes "1e3000000000") = .panic .overflow ∧
    FixedDecimal.fromStr .release (Samples.bytes "1e3000000000") = .err .conversionSyntax () := by
  cases m <;> decide +kernel

/-! ## C03 -/

/-- **C03, false.** Release builds read 128 nines after a point as zero. -/
theorem C03_misread_128 :
    FixedDecimal.fromStr .release (46 :: List.replicate 128 57) = .ok ⟨0#8, 0, zeroUnits⟩ := by decide +kernel

/-- **C03, false.** Release builds read one followed by 256 zeroes as one. -/
theorem C03_misread_257 :
    FixedDecimal.fromStr .release (49 :: List.replicate 256 48) = .ok FixedDecimal.one := by decide +kernel

/-- **C03, false.** Debug builds panic on every numeral with more than 127 digits. -/
theorem C03_debug_panics {t : Numeral} (hv : t.Valid) (h : 127 < t.digits.length) (self : FixedDecimal) (reset : Bool) :
    FixedDecimal.fromBytesStr .debug self t.render reset = .panic .overflow := parse_over hv h self reset

/-- such a numeral -/
example : ∃ t : Numeral, t.Valid ∧ 127 < t.digits.length :=
  ⟨⟨.none, List.replicate 128 7, none, none⟩, by decide +kernel, by decide +kernel⟩

/-- **C03, the part that holds.** With at most 127 digits before any `e`, release builds never panic and never
misread: the outcome is the exact value or `Err(ConversionSyntax)`. Missing: longer input (false there). -/
theorem C03_no_misread_partial (bs : List Nat) (hd : mantDigits bs ≤ 127) {self : FixedDecimal}
    (hself : self.lsu.length = 9) (reset : Bool) :
    (∃ (r : FixedDecimal) (t : Numeral), FixedDecimal.fromBytesStr .release self bs reset = .ok r ∧ t.Valid ∧ t.render = bs ∧ val r = t.denote) ∨
    (∃ s, FixedDecimal.fromBytesStr .release self bs reset = .err .conversionSyntax s) := by
  by_cases h : ∃ r, FixedDecimal.fromBytesStr .release self bs reset = .ok r
  · left
    obtain ⟨r, h⟩ := h
    obtain ⟨t, h1, h2, -, h4⟩ := numeral_of_ok hself (Or.inr hd) h
    exact ⟨r, t, h, h1, h2, parsed_val h4⟩
  · right
    rcases C02_rejected .release bs (Or.inr hd) hself reset (by push Not at h; exact h) with h | ⟨h, _⟩
    · exact h
    · simp at h

/-- **C03, debug builds.** For every byte string of any length the outcome is the exact value, an error, or an
overflow panic: never a wrong number. -/
theorem C03_debug_no_misread_partial (bs : List Nat) {self : FixedDecimal}
    (hself : self.lsu.length = 9) (reset : Bool) :
    (∃ (r : FixedDecimal) (t : Numeral), FixedDecimal.fromBytesStr .debug self bs reset = .ok r ∧ t.Valid ∧ t.render = bs ∧ val r = t.denote) ∨
    (∃ s, FixedDecimal.fromBytesStr .debug self bs reset = .err .conversionSyntax s) ∨
    FixedDecimal.fromBytesStr .debug self bs reset = .panic .overflow := by
  by_cases h : ∃ r, FixedDecimal.fromBytesStr .debug self bs reset = .ok r
  · left
    obtain ⟨r, h⟩ := h
    obtain ⟨t, h1, h2, -, h4⟩ := numeral_of_ok hself (Or.inl rfl) h
    exact ⟨r, t, h, h1, h2, parsed_val h4⟩
  · right
    rcases C02_rejected .debug bs (Or.inl rfl) hself reset (by push Not at h; exact h) with h | ⟨_, h⟩
    · exact Or.inl h
    · exact Or.inr h

/-! ## C04, C05, C06 -/

/-- **C04.** With `reset` the outcome does not depend on what was there before; on an error the decimal is `zero()`. -/
theorem C04_reset (m : Mode) (bs : List Nat) {x y : FixedDecimal} (hx : x.lsu.length = 9) (hy : y.lsu.length = 9) :
    FixedDecimal.fromBytesStr m x bs true = FixedDecimal.fromBytesStr m y bs true ∧
    ∀ e s, FixedDecimal.fromBytesStr m x bs true = .err e s → s = FixedDecimal.zero := by
  constructor
  · unfold FixedDecimal.fromBytesStr; simp only [if_true, setZero_eq hx, setZero_eq hy]
  · intro e s h
    rw [(parse_err h).2]; unfold afterReset; rw [if_pos rfl, setZero_eq hx]

example : FixedDecimal.fromBytesStr m Samples.a (Samples.bytes "x") true = .err .conversionSyntax FixedDecimal.zero := by
  cases m <;> decide +kernel

/-- **C05.** A failed parse without `reset` leaves every field as it was. -/
theorem C05_untouched (m : Mode) (bs : List Nat) {x s : FixedDecimal} {e : Error}
    (h : FixedDecimal.fromBytesStr m x bs false = .err e s) : s = x := (parse_err h).2

example : FixedDecimal.fromBytesStr m Samples.a (Samples.bytes "1e99") false = .err .conversionSyntax Samples.a := by
  cases m <;> decide +kernel

/-- **C06.** `from_str`, parsing into a fresh `zero()`, and parsing into anything with `reset` agree. -/
theorem C06_entry_points (m : Mode) (bs : List Nat) {x : FixedDecimal} (hx : x.lsu.length = 9) :
    FixedDecimal.fromBytesStr m x bs true = FixedDecimal.fromBytesStr m FixedDecimal.zero bs false ∧
    FixedDecimal.fromStr m bs = (match FixedDecimal.fromBytesStr m x bs true with
      | .ok r => .ok r
      | .err e _ => .err e ()
      | .panic p => .panic p) := by
  have h : FixedDecimal.fromBytesStr m x bs true = FixedDecimal.fromBytesStr m FixedDecimal.zero bs false := by
    unfold FixedDecimal.fromBytesStr; simp only [if_true, setZero_eq hx]; rfl
  exact ⟨h, by rw [h]; rfl⟩

example : FixedDecimal.fromStr m (Samples.bytes "-7.50") = .ok Samples.c ∧
    FixedDecimal.fromBytesStr m Samples.a (Samples.bytes "-7.50") true = .ok Samples.c := by
  cases m <;> decide +kernel

/-! ## C09 (before C07, which uses it) -/

/-- **C09.** Parsing with `reset` gives a well-formed, tight decimal with at most 65 digits. -/
theorem C09_parsed_tight (m : Mode) (bs : List Nat) (hd : m = .debug ∨ mantDigits bs ≤ 127)
    {self r : FixedDecimal} (hself : self.lsu.length = 9) (h : FixedDecimal.fromBytesStr m self bs true = .ok r) :
    Tight r ∧ intgDigits r + fracDigits r ≤ 65 := by
  obtain ⟨t, -, -, -, p⟩ := numeral_of_ok hself hd h
  refine ⟨parsed_tight p ?_, p.counts⟩
  intro j; unfold afterReset; rw [if_pos rfl, setZero_eq hself]; exact zero_dg j

/-- **C09.** The same for `from_str`. -/
theorem C09_from_str_tight (m : Mode) (bs : List Nat) (hd : m = .debug ∨ mantDigits bs ≤ 127)
    {r : FixedDecimal} (h : FixedDecimal.fromStr m bs = .ok r) : Tight r ∧ intgDigits r + fracDigits r ≤ 65 := by
  have := fromStr_ok h
  rw [← (C06_entry_points m bs zero_len).1] at this
  exact C09_parsed_tight m bs hd zero_len this

/-- Without `reset` on a decimal that already holds a longer number the value is right but the high units are not
cleared: the result is not well-formed, and `is_zero` is wrong on it. -/
theorem C09_needs_reset :
    FixedDecimal.fromBytesStr .release Samples.a (Samples.bytes "0") false =
      .ok ⟨1#8, 0, [0, 456789012, 123, 0, 0, 0, 0, 0, 0]⟩ ∧
    ¬ WF ⟨1#8, 0, [0, 456789012, 123, 0, 0, 0, 0, 0, 0]⟩ ∧
    FixedDecimal.isZero ⟨1#8, 0, [0, 456789012, 123, 0, 0, 0, 0, 0, 0]⟩ = false := by
  refine ⟨by decide +kernel, by decide, by decide⟩

/-! ## C07 -/

/-- **C07.** Two accepted texts compare as the numbers they denote: in particular `54.433e1` equals `544.33`. -/
theorem C07_same_number {σ : Type} (m : Mode) {t u : Numeral} (ht : t.Valid) (hu : u.Valid)
    (hdt : m = .debug ∨ t.digits.length ≤ 127) (hdu : m = .debug ∨ u.digits.length ≤ 127)
    {a b : FixedDecimal} (ha : FixedDecimal.fromStr m t.render = .ok a) (hb : FixedDecimal.fromStr m u.render = .ok b)
    (hnz : ¬ (t.denote = 0 ∧ u.denote = 0 ∧ (t.sign = .minus ↔ u.sign ≠ .minus))) :
    (FixedDecimal.cmp m a b : Out σ Ordering) = .ok (compare t.denote u.denote) := by
  have pa := (parsed_of_ok ht zero_len hdt (fromStr_ok ha)).2
  have pb := (parsed_of_ok hu zero_len hdu (fromStr_ok hb)).2
  have wa := (parsed_tight pa (by intro j; exact zero_dg j)).toWF
  have wb := (parsed_tight pb (by intro j; exact zero_dg j)).toWF
  rw [← parsed_val pa, ← parsed_val pb] at *
  by_cases h0 : val a = 0 ∧ val b = 0
  · rw [C16_cmp_zeros m wa wb h0.1 h0.2, h0.1, h0.2]
    have hs : neg a = neg b := by
      rw [pa.sign, pb.sign]
      by_contra hne
      apply hnz
      refine ⟨h0.1, h0.2, ?_⟩
      cases h1 : t.sign <;> cases h2 : u.sign <;> rw [h1, h2] at hne <;> first | exact absurd rfl hne | (constructor <;> intro h <;> first | exact absurd h (by decide) | rfl | (intro h'; exact absurd h' (by decide)))
    rw [if_pos hs, compare_eq_iff_eq.mpr rfl]
  · exact C16_cmp_numeric m wa wb h0

example : let t : Numeral := ⟨.none, [5, 4], some [4, 3, 3], some ⟨false, .none, [1]⟩⟩
    let u : Numeral := ⟨.plus, [5, 4, 4], some [3, 3], none⟩
    t.Valid ∧ u.Valid ∧ t.render = Samples.bytes "54.433e1" ∧ u.render = Samples.bytes "+544.33" ∧
    FixedDecimal.fromStr m t.render = FixedDecimal.fromStr m u.render := by
  cases m <;> decide +kernel

/-! ## C08 -/

/-- **C08.** A leading `+` changes nothing, for every input without a sign of its own. -/
theorem C08_plus (m : Mode) (self : FixedDecimal) (bs : List Nat) (reset : Bool)
    (hs : bs.head? ≠ some 43 ∧ bs.head? ≠ some 45) :
    FixedDecimal.fromBytesStr m self (43 :: bs) reset = FixedDecimal.fromBytesStr m self bs reset := by
  rw [parse_sign (Or.inl rfl) (by rintro x xs rfl; simp at hs; exact ⟨hs.2, hs.1⟩)]
  cases FixedDecimal.fromBytesStr m self bs reset <;> rfl

/-- **C08.** A leading `-` sets the sign flag (the top bit of `intg`) and changes nothing else - also for zero. -/
theorem C08_minus (m : Mode) (self : FixedDecimal) (bs : List Nat) (reset : Bool)
    (hs : bs.head? ≠ some 43 ∧ bs.head? ≠ some 45) :
    FixedDecimal.fromBytesStr m self (45 :: bs) reset = (match FixedDecimal.fromBytesStr m self bs reset with
      | .ok r => .ok { r with intg := r.intg ||| 128#8 }
      | .err e s => .err e s
      | .panic p => .panic p) := by
  rw [parse_sign (Or.inr rfl) (by rintro x xs rfl; simp at hs; exact ⟨hs.2, hs.1⟩)]
  cases FixedDecimal.fromBytesStr m self bs reset <;> rfl

/-- **C08.** The sign flag of an accepted decimal is the sign written. -/
theorem C08_sign_flag (m : Mode) {t : Numeral} (hv : t.Valid) (hd : m = .debug ∨ t.digits.length ≤ 127)
    {self r : FixedDecimal} (hself : self.lsu.length = 9) {reset : Bool}
    (h : FixedDecimal.fromBytesStr m self t.render reset = .ok r) : neg r = true ↔ t.sign = .minus := by
  rw [(parsed_of_ok hv hself hd h).2.sign]
  cases t.sign <;> simp <;> first | rfl | (intro h; exact absurd h (by decide))

/-- "-0" is a negative zero. -/
example : FixedDecimal.fromStr m (Samples.bytes "-0") = .ok Samples.nz ∧ NegZero Samples.nz := by
  refine ⟨by cases m <;> decide +kernel, by decide, by decide⟩

end Props
end Fxd
