import Verif.Props.TextLaws
import Verif.Props.TextSize
import Verif.Props.Machine
/-!
# Property C125: JSON numbers

The texts written are JSON numbers; JSON numbers are read exactly; and a JSON number without exponent that is read and written again
comes back byte for byte.
-/

namespace Fxd
open Spec

namespace Spec

/-- An ASCII digit. -/
def IsDigit (c : Nat) : Prop := 48 ≤ c ∧ c ≤ 57

/-- `int` of RFC 8259: `0`, or a digit from 1 to 9 and any digits. -/
def JsonInt (s : List Nat) : Prop := s = [48] ∨ ∃ c cs, s = c :: cs ∧ 49 ≤ c ∧ c ≤ 57 ∧ ∀ x ∈ cs, IsDigit x

/-- `[ frac ]`: nothing, or a point and at least one digit. -/
def JsonFrac (s : List Nat) : Prop := s = [] ∨ ∃ cs, s = 46 :: cs ∧ cs ≠ [] ∧ ∀ x ∈ cs, IsDigit x

/-- `[ exp ]`: nothing, or `e` or `E`, nothing or `-` or `+`, and at least one digit. -/
def JsonExp (s : List Nat) : Prop :=
  s = [] ∨ ∃ e sg cs, s = e :: (sg ++ cs) ∧ (e = 101 ∨ e = 69) ∧ (sg = [] ∨ sg = [45] ∨ sg = [43]) ∧ cs ≠ [] ∧ ∀ x ∈ cs, IsDigit x

/-- `number = [ minus ] int [ frac ] [ exp ]` -/
def JsonNumber (s : List Nat) : Prop :=
  ∃ a b c d, s = a ++ b ++ c ++ d ∧ (a = [] ∨ a = [45]) ∧ JsonInt b ∧ JsonFrac c ∧ JsonExp d

/-- A JSON number without exponent. -/
def JsonPlain (s : List Nat) : Prop := ∃ a b c, s = a ++ b ++ c ∧ (a = [] ∨ a = [45]) ∧ JsonInt b ∧ JsonFrac c

end Spec

namespace Props
variable {m : Mode} {σ : Type}

theorem digits_of_chars : ∀ {cs : List Nat}, (∀ x ∈ cs, IsDigit x) → ∃ ds, cs = digitChars ds ∧ ∀ d ∈ ds, d < 10
  | [], _ => ⟨[], rfl, by simp⟩
  | c :: cs, h => by
    obtain ⟨ds, e, h2⟩ := digits_of_chars (cs := cs) (fun x hx => h x (List.mem_cons_of_mem _ hx))
    obtain ⟨h3, h4⟩ := h c List.mem_cons_self
    refine ⟨(c - 48) :: ds, ?_, ?_⟩
    · rw [e]
      unfold digitChars
      rw [List.map_cons]
      congr 1
      omega
    · intro d hd
      rcases List.mem_cons.mp hd with rfl | hd
      · omega
      · exact h2 d hd

theorem chars_of_digits {ds : List Nat} (h : ∀ d ∈ ds, d < 10) : ∀ x ∈ digitChars ds, IsDigit x := by
  intro x hx
  unfold digitChars at hx
  obtain ⟨d, hd, rfl⟩ := List.mem_map.mp hx
  have := h d hd
  exact ⟨by omega, by omega⟩

/-- **C125** Whatever is written is a JSON number (without exponent). -/
theorem C125_written (m : Mode) {d : FixedDecimal} (h : WF d) (f : Int) :
    ∃ s, (FixedDecimal.toStr m d f : Out σ _) = .ok s ∧ JsonPlain s := by
  obtain ⟨s, e, ip, fp, e1, e2, e3, e4⟩ := C12_canonical (σ := σ) m h f
  refine ⟨s, e, _, _, _, e1, ?_, ?_, ?_⟩
  · cases neg d <;> simp
  · have hip : ∀ d ∈ ip, d < 10 := fun d hd => e2 d (List.mem_append_left _ hd)
    match ip, e3, e4, hip with
    | x :: xs, _, e4, hip =>
      by_cases hx : x = 0
      · subst hx
        rw [e4 rfl]; exact .inl rfl
      · have := hip x List.mem_cons_self
        exact .inr ⟨x + 48, digitChars xs, rfl, by omega, by omega, chars_of_digits fun d hd => hip d (List.mem_cons_of_mem _ hd)⟩
  · by_cases hf : fp = []
    · rw [if_pos hf]; exact .inl rfl
    · rw [if_neg hf]
      refine .inr ⟨_, rfl, ?_, chars_of_digits fun d hd => e2 d (List.mem_append_right _ hd)⟩
      unfold digitChars
      simpa using hf

/-- A JSON number without exponent is the text of a numeral as the parser knows it. -/
theorem plain_numeral {s : List Nat} (h : JsonPlain s) :
    ∃ t : Numeral, t.Valid ∧ t.render = s ∧ t.ip ≠ [] ∧ (t.ip.head? = some 0 → t.ip = [0]) ∧ t.fp ≠ some [] ∧ t.exp = none ∧
      t.sign ≠ .plus := by
  obtain ⟨a, b, c, rfl, ha, hb, hc⟩ := h
  obtain ⟨sg, hsg, hsp⟩ : ∃ sg : Sign, sg.render = a ∧ sg ≠ .plus := by
    rcases ha with rfl | rfl
    · exact ⟨.none, rfl, by decide⟩
    · exact ⟨.minus, rfl, by decide⟩
  obtain ⟨ip, hip, hil, hi0, hih⟩ : ∃ ip, b = digitChars ip ∧ (∀ d ∈ ip, d < 10) ∧ ip ≠ [] ∧ (ip.head? = some 0 → ip = [0]) := by
    rcases hb with rfl | ⟨x, xs, rfl, h1, h2, h3⟩
    · exact ⟨[0], rfl, by simp, by simp, by simp⟩
    · obtain ⟨ds, e, h4⟩ := digits_of_chars h3
      refine ⟨(x - 48) :: ds, ?_, ?_, by simp, ?_⟩
      · rw [e]; unfold digitChars; rw [List.map_cons]; congr 1; omega
      · intro d hd
        rcases List.mem_cons.mp hd with rfl | hd
        · omega
        · exact h4 d hd
      · intro h0
        simp only [List.head?_cons, Option.some.injEq] at h0
        omega
  obtain ⟨fp, hfp, hfl, hf0⟩ : ∃ fp : Option (List Nat), (⟨sg, ip, fp, none⟩ : Numeral).render = sg.render ++ digitChars ip ++ c ∧
      (∀ d ∈ fp.getD [], d < 10) ∧ fp ≠ some [] := by
    rcases hc with rfl | ⟨xs, rfl, h1, h2⟩
    · exact ⟨none, by unfold Numeral.render; simp, by simp, by simp⟩
    · obtain ⟨ds, e, h4⟩ := digits_of_chars h2
      refine ⟨some ds, by unfold Numeral.render; simp [e], by simpa using h4, ?_⟩
      rintro ⟨⟩
      exact h1 e
  refine ⟨⟨sg, ip, fp, none⟩, ⟨?_, ?_, by simp⟩, ?_, hi0, hih, hf0, rfl, hsp⟩
  · intro d hd
    rcases List.mem_append.mp hd with hd | hd
    · exact hil d hd
    · exact hfl d hd
  · intro h0
    exact hi0 (List.append_eq_nil_iff.mp h0).1
  · rw [hfp, hsg, hip]

/-- So is any JSON number. -/
theorem json_numeral {s : List Nat} (h : JsonNumber s) : ∃ t : Numeral, t.Valid ∧ t.render = s := by
  obtain ⟨a, b, c, d, rfl, ha, hb, hc, hd⟩ := h
  obtain ⟨t, h1, h2, -, -, -, h6, -⟩ := plain_numeral ⟨a, b, c, rfl, ha, hb, hc⟩
  rcases hd with rfl | ⟨e, sg, cs, rfl, he, hs, hc1, hc2⟩
  · exact ⟨t, h1, by rw [h2]; simp⟩
  · obtain ⟨ds, e4, h4⟩ := digits_of_chars hc2
    obtain ⟨sg', hsg'⟩ : ∃ sg' : Sign, sg'.render = sg := by
      rcases hs with rfl | rfl | rfl
      · exact ⟨.none, rfl⟩
      · exact ⟨.minus, rfl⟩
      · exact ⟨.plus, rfl⟩
    refine ⟨{ t with exp := some ⟨e == 69, sg', ds⟩ }, ⟨h1.1, h1.2.1, ?_⟩, ?_⟩
    · intro x hx
      simp only [Option.mem_def, Option.some.injEq] at hx
      subst hx
      refine ⟨?_, h4⟩
      intro h0
      rw [show ds = [] from h0] at e4
      exact hc1 e4
    · have hx : (⟨e == 69, sg', ds⟩ : Exponent).render = e :: (sg ++ cs) := by
        unfold Exponent.render
        dsimp only
        rw [hsg', ← e4]
        rcases he with rfl | rfl <;> rfl
      rw [← h2, ← hx]
      unfold Numeral.render
      rw [h6]
      simp

/-- **C125** A JSON number within the limits of the parser is read, exactly. -/
theorem C125_read (m : Mode) {s : List Nat} (h : JsonNumber s) :
    ∃ t : Numeral, t.Valid ∧ t.render = s ∧ (t.Limits → ∃ r, FixedDecimal.fromStr m s = .ok r ∧ val r = t.denote) := by
  obtain ⟨t, h1, h2⟩ := json_numeral h
  refine ⟨t, h1, h2, fun hl => ?_⟩
  have h65 := hl.2.2.1
  obtain ⟨r, e, -⟩ := (parse_render (m := m) h1 (by omega) zero_len false).1 hl
  rw [h2] at e
  have hr : FixedDecimal.fromStr m s = .ok r := by
    rw [(C06_entry_points m s zero_len).2, (C06_entry_points m s zero_len).1, e]
  refine ⟨r, hr, C01_from_str_exact m h1 (.inr (by omega)) ?_⟩
  rw [h2]; exact hr

theorem digitsVal_inj : ∀ {xs ys : List Nat}, xs.length = ys.length → (∀ d ∈ xs, d < 10) → (∀ d ∈ ys, d < 10) →
    digitsVal xs = digitsVal ys → xs = ys
  | [], [], _, _, _, _ => rfl
  | x :: xs, y :: ys, hl, hx, hy, h => by
    have hl' : xs.length = ys.length := by simpa using hl
    have hx' : ∀ d ∈ xs, d < 10 := fun d hd => hx d (List.mem_cons_of_mem _ hd)
    have hy' : ∀ d ∈ ys, d < 10 := fun d hd => hy d (List.mem_cons_of_mem _ hd)
    rw [digitsVal_cons, digitsVal_cons, hl'] at h
    have b1 := digitsVal_lt hx'
    have b2 := digitsVal_lt hy'
    rw [hl'] at b1
    have hxy : x = y := by
      rcases lt_trichotomy x y with hlt | e | hlt
      · have : (x + 1) * 10 ^ ys.length ≤ y * 10 ^ ys.length := Nat.mul_le_mul_right _ hlt
        rw [Nat.add_mul, Nat.one_mul] at this
        omega
      · exact e
      · have : (y + 1) * 10 ^ ys.length ≤ x * 10 ^ ys.length := Nat.mul_le_mul_right _ hlt
        rw [Nat.add_mul, Nat.one_mul] at this
        omega
    subst hxy
    rw [digitsVal_inj hl' hx' hy' (by omega)]

theorem lead_length {xs : List Nat} (h0 : xs ≠ []) (hh : xs.head? = some 0 → xs = [0]) (hx : ∀ d ∈ xs, d < 10) :
    xs.length = max 1 (Nat.digits 10 (digitsVal xs)).length := by
  match xs, h0, hh, hx with
  | x :: xs, _, hh, hx =>
    by_cases hz : x = 0
    · subst hz
      rw [hh rfl]; decide
    · have hlt := digitsVal_lt hx
      have hge : 10 ^ xs.length ≤ digitsVal (x :: xs) := by
        rw [digitsVal_cons]
        have : 1 * 10 ^ xs.length ≤ x * 10 ^ xs.length := Nat.mul_le_mul_right _ (by omega)
        omega
      have hlen : (Nat.digits 10 (digitsVal (x :: xs))).length = (x :: xs).length := by
        have h1 := (Nat.digits_length_le_iff (b := 10) (k := (x :: xs).length) (by norm_num) (digitsVal (x :: xs))).mpr hlt
        have h2 := (Nat.lt_digits_length_iff (b := 10) (k := xs.length) (by norm_num) (digitsVal (x :: xs))).mpr hge
        simp only [List.length_cons] at *
        omega
      rw [hlen]; simp

/-- The digits of a number are unique. -/
theorem natDigits_unique {xs : List Nat} (h0 : xs ≠ []) (hh : xs.head? = some 0 → xs = [0]) (hx : ∀ d ∈ xs, d < 10) :
    natDigits (digitsVal xs) = xs := by
  refine digitsVal_inj ?_ (natDigits_lt _) hx (digitsVal_natDigits _)
  rw [natDigits_len, lead_length h0 hh hx]

/-- The digits of the text of a numeral without exponent are the digits of the numeral. -/
theorem render_digits {t : Numeral} (hv : t.Valid) (he : t.exp = none) :
    (t.render.filter fun c => 48 ≤ c && c ≤ 57).length = t.digits.length := by
  unfold Numeral.render Numeral.digits Numeral.fracs
  have hc : ∀ ds : List Nat, (∀ d ∈ ds, d < 10) → (digitChars ds).filter (fun c => 48 ≤ c && c ≤ 57) = digitChars ds := by
    intro ds hds
    rw [List.filter_eq_self]
    intro c hc
    unfold digitChars at hc
    obtain ⟨x, hx, rfl⟩ := List.mem_map.mp hc
    have := hds x hx
    simp; omega
  have hd1 : ∀ d ∈ t.ip, d < 10 := fun d hd => hv.1 d (List.mem_append_left _ hd)
  have hd2 : ∀ d ∈ t.fracs, d < 10 := fun d hd => hv.1 d (List.mem_append_right _ hd)
  have hsgn : (t.sign.render).filter (fun c => 48 ≤ c && c ≤ 57) = [] := by cases t.sign <;> rfl
  rw [he]
  have hl : ∀ ds : List Nat, (digitChars ds).length = ds.length := fun ds => List.length_map ..
  cases hfp' : t.fp with
  | none => simp only [List.filter_append, hsgn, hc _ hd1]; simp [hl]
  | some ds =>
    have : t.fracs = ds := by unfold Numeral.fracs; rw [hfp']; rfl
    rw [this] at hd2
    have hdot : (46 :: digitChars ds).filter (fun c => 48 ≤ c && c ≤ 57) = digitChars ds := by
      rw [List.filter_cons_of_neg (by decide), hc _ hd2]
    simp only [List.filter_append, hsgn, hc _ hd1, hdot]; simp [hl]

/-- **C125** A JSON number without exponent and of at most 65 digits that is read and written again comes back byte for byte: no
digit, no trailing zero and no sign is lost. -/
theorem C125_identity (m : Mode) {s : List Nat} (h : JsonPlain s) (h65 : (s.filter fun c => 48 ≤ c && c ≤ 57).length ≤ 65) {f : Int}
    (hf : f < 0) : ∃ r, FixedDecimal.fromStr m s = .ok r ∧ (FixedDecimal.toStr m r f : Out σ _) = .ok s := by
  obtain ⟨t, h1, h2, h3, h4, h5, h6, h7⟩ := plain_numeral h
  subst h2
  rw [render_digits h1 h6] at h65
  have hexp : t.expo = 0 := by unfold Numeral.expo; rw [h6]; rfl
  have hfl : t.fracs.length ≤ t.digits.length := by unfold Numeral.digits; rw [List.length_append]; omega
  have hl : t.Limits := by
    unfold Numeral.Limits
    rw [hexp]
    refine ⟨by norm_num, by norm_num, h65, by omega, by omega⟩
  obtain ⟨r, e, p⟩ := (parse_render (m := m) h1 (by omega) zero_len false).1 hl
  have hr : FixedDecimal.fromStr m t.render = .ok r := by
    rw [(C06_entry_points m t.render zero_len).2, (C06_entry_points m t.render zero_len).1, e]
  refine ⟨r, hr, ?_⟩
  have hd : m = .debug ∨ t.digits.length ≤ 127 := .inr (by omega)
  have hv := C01_from_str_exact m h1 hd hr
  have hs := C08_sign_flag m h1 hd zero_len e
  obtain ⟨hfr, -⟩ := C02_shape m h1 hd zero_len e
  rw [hexp] at hfr
  have hk : fracDigits r = t.fracs.length := by omega
  have hw : WF r := (parsed_tight p (fun j => zero_dg j)).toWF
  have hsh : shownDigits r f = t.fracs.length := by
    rw [← hk]; exact if_pos hf
  have hfd : ∀ d ∈ t.fracs, d < 10 := fun d hd => h1.1 d (List.mem_append_right _ hd)
  have hid : ∀ d ∈ t.ip, d < 10 := fun d hd => h1.1 d (List.mem_append_left _ hd)
  have hN : cut (val r) t.fracs.length = digitsVal t.digits := by
    unfold cut
    rw [hv]
    unfold Numeral.denote
    rw [hexp, zero_sub, zpow_neg, zpow_natCast, abs_mul, abs_mul]
    have h1 : |(if t.sign = .minus then (-1 : ℚ) else 1)| = 1 := by split_ifs <;> simp
    rw [h1, one_mul, abs_of_nonneg (by positivity), abs_of_nonneg (by positivity), mul_assoc, inv_mul_cancel₀ (by positivity), mul_one,
      ← Int.cast_natCast (digitsVal t.digits), Int.floor_intCast, Int.toNat_natCast]
  rw [toStr_eq hw, hsh, hN]
  congr 1
  have hsplit : digitsVal t.digits = digitsVal t.ip * 10 ^ t.fracs.length + digitsVal t.fracs := digitsVal_append _ _
  have hlt := digitsVal_lt hfd
  have hdiv : digitsVal t.digits / 10 ^ t.fracs.length = digitsVal t.ip := by
    rw [hsplit, Nat.mul_comm, Nat.mul_add_div (by positivity), Nat.div_eq_of_lt hlt, Nat.add_zero]
  have hmod : digitsVal t.digits % 10 ^ t.fracs.length = digitsVal t.fracs := by
    rw [hsplit, Nat.mul_comm, Nat.mul_add_mod, Nat.mod_eq_of_lt hlt]
  have ht : decNumeral (neg r) (digitsVal t.digits) t.fracs.length = t := by
    unfold decNumeral
    rw [hdiv, hmod, natDigits_unique h3 h4 hid]
    obtain ⟨sg, ip, fp, ex⟩ := t
    simp only at h3 h4 h5 h6 h7 hs hfd ⊢
    congr 1
    · cases sg
      · rw [if_neg (by rw [hs]; decide)]
      · exact absurd rfl h7
      · rw [if_pos (by rw [hs])]
    · cases fp with
      | none => rfl
      | some ds =>
        have hne : ds ≠ [] := fun h => h5 (by rw [h])
        have hlen : ds.length ≠ 0 := by simpa using hne
        rw [if_neg (show ¬ (Numeral.fracs ⟨sg, ip, some ds, ex⟩).length = 0 from hlen)]
        simp only [Numeral.fracs, Option.getD_some] at hfd ⊢
        congr 1
        refine digitsVal_inj (padDigits_length _ _) (padDigits_lt _ _) hfd ?_
        rw [digitsVal_padDigits, Nat.mod_eq_of_lt (digitsVal_lt hfd)]
    · exact h6.symm
  unfold decText
  rw [ht]

/-- non-vacuity: -120.3400 and 0 -/
example : JsonPlain (Samples.bytes "-120.3400") ∧ JsonPlain (Samples.bytes "0") ∧ JsonNumber (Samples.bytes "-1.20E+05") ∧
    ((Samples.bytes "-120.3400").filter fun c => 48 ≤ c && c ≤ 57).length ≤ 65 := by
  refine ⟨⟨[45], [49, 50, 48], [46, 51, 52, 48, 48], by decide +kernel, .inr rfl, .inr ⟨49, [50, 48], rfl, by norm_num, by norm_num, ?_⟩,
    .inr ⟨[51, 52, 48, 48], rfl, by simp, ?_⟩⟩, ⟨[], [48], [], by decide +kernel, .inl rfl, .inl rfl, .inl rfl⟩,
    ⟨[45], [49], [46, 50, 48], [69, 43, 48, 53], by decide +kernel, .inr rfl, .inr ⟨49, [], rfl, by norm_num, by norm_num, by simp⟩,
      .inr ⟨[50, 48], rfl, by simp, ?_⟩, .inr ⟨69, [43], [48, 53], rfl, .inr rfl, .inr (.inr rfl), by simp, ?_⟩⟩, by decide +kernel⟩ <;>
    intro x hx <;> simp at hx <;> unfold IsDigit <;> omega

theorem json_head {s : List Nat} (h : JsonNumber s) : ∃ c, s.head? = some c ∧ (c = 45 ∨ IsDigit c) := by
  obtain ⟨a, b, c, d, rfl, ha, hb, -, -⟩ := h
  rcases ha with rfl | rfl
  · rcases hb with rfl | ⟨x, xs, rfl, h1, h2, -⟩
    · exact ⟨48, rfl, .inr ⟨by norm_num, by norm_num⟩⟩
    · exact ⟨x, rfl, .inr ⟨by omega, h2⟩⟩
  · exact ⟨45, rfl, .inl rfl⟩

/-- **C125** The parser takes more than JSON: "+1" and ".5" are read although they are no JSON numbers; and it does not take all of JSON:
1e66 and 1e-31 are refused. -/
theorem C125_witness :
    ¬ JsonNumber (Samples.bytes "+1") ∧ ¬ JsonNumber (Samples.bytes ".5") ∧
      (∀ m, (∃ r, FixedDecimal.fromStr m (Samples.bytes "+1") = .ok r) ∧ (∃ r, FixedDecimal.fromStr m (Samples.bytes ".5") = .ok r) ∧
        (∀ r, FixedDecimal.fromStr m (Samples.bytes "1e66") ≠ .ok r) ∧ (∀ r, FixedDecimal.fromStr m (Samples.bytes "1e-31") ≠ .ok r)) ∧
      JsonNumber (Samples.bytes "1e66") ∧ JsonNumber (Samples.bytes "1e-31") := by
  refine ⟨?_, ?_, ?_, ?_, ?_⟩
  · intro h
    obtain ⟨c, hc, h2⟩ := json_head h
    have : (Samples.bytes "+1").head? = some 43 := by decide +kernel
    rw [this] at hc
    simp only [Option.some.injEq] at hc
    subst hc
    unfold IsDigit at h2
    omega
  · intro h
    obtain ⟨c, hc, h2⟩ := json_head h
    have : (Samples.bytes ".5").head? = some 46 := by decide +kernel
    rw [this] at hc
    simp only [Option.some.injEq] at hc
    subst hc
    unfold IsDigit at h2
    omega
  · intro m
    have h1 : FixedDecimal.fromStr m (Samples.bytes "+1") = .ok ⟨1#8, 0, [1, 0, 0, 0, 0, 0, 0, 0, 0]⟩ := by cases m <;> decide +kernel
    have h2 : FixedDecimal.fromStr m (Samples.bytes ".5") = .ok ⟨0#8, 1, [500000000, 0, 0, 0, 0, 0, 0, 0, 0]⟩ := by
      cases m <;> decide +kernel
    have h3 : FixedDecimal.fromStr m (Samples.bytes "1e66") = .err .conversionSyntax () := by cases m <;> decide +kernel
    have h4 : FixedDecimal.fromStr m (Samples.bytes "1e-31") = .err .conversionSyntax () := by cases m <;> decide +kernel
    exact ⟨⟨_, h1⟩, ⟨_, h2⟩, (fun r h => by rw [h3] at h; cases h), (fun r h => by rw [h4] at h; cases h)⟩
  · refine ⟨[], [49], [], [101, 54, 54], by decide +kernel, .inl rfl, .inr ⟨49, [], rfl, by norm_num, by norm_num, by simp⟩, .inl rfl,
      .inr ⟨101, [], [54, 54], rfl, .inl rfl, .inl rfl, by simp, ?_⟩⟩
    intro x hx; simp at hx; unfold IsDigit; omega
  · refine ⟨[], [49], [], [101, 45, 51, 49], by decide +kernel, .inl rfl, .inr ⟨49, [], rfl, by norm_num, by norm_num, by simp⟩, .inl rfl,
      .inr ⟨101, [45], [51, 49], rfl, .inl rfl, .inr (.inl rfl), by simp, ?_⟩⟩
    intro x hx; simp at hx; unfold IsDigit; omega

end Props
end Fxd
