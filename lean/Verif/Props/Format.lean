import Verif.Proofs.FormatMisc
import Verif.Props.Parse
/-!
# Formatting: C10 - C15
-/

namespace Fxd
namespace Props
open Spec

variable {σ : Type} {m : Mode}

theorem toStr_eq {d : FixedDecimal} (h : WF d) (f : Int) :
    (FixedDecimal.toStr m d f : Out σ _) = .ok (decText (neg d) (cut (val d) (shownDigits d f)) (shownDigits d f)) :=
  append_spec h [] f

theorem sign_mul_abs (d : FixedDecimal) : (if neg d then -1 else 1) * absVal d = val d := by
  unfold val; cases neg d <;> simp

theorem cut_frac {d : FixedDecimal} (h : Tight d) :
    ((cut (val d) (fracDigits d) : ℚ)) / 10 ^ fracDigits d = absVal d := by
  obtain ⟨M, hM⟩ := Int.eq_ofNat_of_zero_le h.toWF.mant_nonneg
  have hle := fracDigits_le_fu d
  have hdvd := h.frac_ok
  rw [hM] at hdvd
  have hdvd' : 10 ^ (9 * fu d - fracDigits d) ∣ M := by
    have : ((10 ^ (9 * fu d - fracDigits d) : Nat) : Int) ∣ (M : Int) := by push_cast; exact hdvd
    exact Int.natCast_dvd_natCast.mp this
  obtain ⟨q, hq⟩ := hdvd'
  have e : cut (val d) (fracDigits d) = q := by
    rw [cut_eq h.toWF hM, hq, mul_comm _ q, mul_assoc, ← pow_add, Nat.sub_add_cancel hle, Nat.mul_div_cancel _ (by positivity)]
  rw [e, absVal, hM, hq]
  push_cast
  have : (10 : ℚ) ^ (9 * fu d) = 10 ^ (9 * fu d - fracDigits d) * 10 ^ fracDigits d := by
    rw [← pow_add, Nat.sub_add_cancel hle]
  rw [this]
  field_simp

/-! ## C10, C11 -/

/-- **C10.** With a negative argument the text is a numeral for exactly the value, with exactly `frac()` digits after
the point, no point when there are none, no exponent, and a minus sign exactly when the sign flag is set. -/
theorem C10_exact (m : Mode) {d : FixedDecimal} (h : Tight d) {f : Int} (hf : f < 0) :
    ∃ t : Numeral, t.Valid ∧ t.exp = none ∧ (FixedDecimal.toStr m d f : Out σ _) = .ok t.render ∧ t.denote = val d ∧
      t.fracs.length = fracDigits d ∧ (t.fp = none ↔ fracDigits d = 0) ∧ (t.sign = .minus ↔ neg d = true) := by
  have hk : shownDigits d f = fracDigits d := if_pos hf
  refine ⟨decNumeral (neg d) (cut (val d) (fracDigits d)) (fracDigits d), decNumeral_valid _ _ _, rfl, ?_, ?_, ?_, ?_, ?_⟩
  · rw [toStr_eq h.toWF, hk]; rfl
  · rw [decNumeral_denote, cut_frac h, sign_mul_abs]
  · rw [decNumeral_fracs, padDigits_length]
  · unfold decNumeral; dsimp only; split_ifs with h0 <;> simp [h0]
  · unfold decNumeral; dsimp only; cases neg d <;> simp

/-- **C11.** With `k ≥ 0` the text is a numeral with exactly `k` digits after the point for the value cut - not
rounded - toward zero; no point when `k = 0`. Every well-formed decimal, every `k`. -/
theorem C11_truncates (m : Mode) {d : FixedDecimal} (h : WF d) (k : Nat) :
    ∃ t : Numeral, t.Valid ∧ t.exp = none ∧ (FixedDecimal.toStr m d (k : Int) : Out σ _) = .ok t.render ∧
      t.fracs.length = k ∧ (t.fp = none ↔ k = 0) ∧ (t.sign = .minus ↔ neg d = true) ∧
      |t.denote| = ⌊|val d| * 10 ^ k⌋ / 10 ^ k ∧ 0 ≤ t.denote * val d := by
  have hk : shownDigits d (k : Int) = k := by unfold shownDigits; rw [if_neg (by omega), Int.toNat_natCast]
  have hfl : (0 : Int) ≤ ⌊|val d| * 10 ^ k⌋ := Int.floor_nonneg.mpr (by positivity)
  have hc : ((cut (val d) k : Nat) : ℚ) = (⌊|val d| * 10 ^ k⌋ : ℚ) := by
    unfold cut
    have := Int.toNat_of_nonneg hfl
    exact_mod_cast congrArg (fun z : Int => (z : ℚ)) this
  refine ⟨decNumeral (neg d) (cut (val d) k) k, decNumeral_valid _ _ _, rfl, ?_, ?_, ?_, ?_, ?_, ?_⟩
  · rw [toStr_eq h, hk]; rfl
  · rw [decNumeral_fracs, padDigits_length]
  · unfold decNumeral; dsimp only; split_ifs with h0 <;> simp [h0]
  · unfold decNumeral; dsimp only; cases neg d <;> simp
  · rw [decNumeral_denote, ← hc, abs_mul]
    have h1 : |(if neg d = true then (-1 : ℚ) else 1)| = 1 := by cases neg d <;> simp
    rw [h1, one_mul, abs_of_nonneg (by positivity)]
  · rw [decNumeral_denote]
    have ha := absVal_nonneg h
    unfold val
    have hq : (0 : ℚ) ≤ (cut (val d) k : ℚ) / 10 ^ k := by positivity
    unfold val at hq
    cases hn : neg d <;> rw [hn] at hq <;> simp at hq ⊢ <;> positivity

/-- The text for a negative argument, for decimals whose digit counts may lie: the value cut after `frac()` digits. -/
theorem C10_all_wf (m : Mode) {d : FixedDecimal} (h : WF d) {f : Int} (hf : f < 0) :
    (FixedDecimal.toStr m d f : Out σ _) = FixedDecimal.toStr m d (fracDigits d : Int) := by
  rw [toStr_eq h, toStr_eq h]
  have h1 : shownDigits d f = fracDigits d := if_pos hf
  have h2 : shownDigits d (fracDigits d : Int) = fracDigits d := by
    unfold shownDigits; rw [if_neg (by omega), Int.toNat_natCast]
  rw [h1, h2]

example : (FixedDecimal.toStr m Samples.c (-1) : Out Unit _) = .ok (Samples.bytes "-7.50") ∧
    (FixedDecimal.toStr m Samples.a 1 : Out Unit _) = .ok (Samples.bytes "123456789012.3") ∧
    (FixedDecimal.toStr m Samples.a 12 : Out Unit _) = .ok (Samples.bytes "123456789012.345000000000") ∧
    (FixedDecimal.toStr m Samples.b (-7) : Out Unit _) = .ok (Samples.bytes "-0.00000000075") ∧
    (FixedDecimal.toStr m Samples.b 0 : Out Unit _) = .ok (Samples.bytes "-0") := by
  cases m <;> decide +kernel

/-! ## C12, C13, C14 -/

/-- **C12.** The text has the canonical shape `-?(0|[1-9][0-9]*)(\.[0-9]+)?`, with the minus exactly when `is_neg()`. -/
theorem C12_canonical (m : Mode) {d : FixedDecimal} (h : WF d) (f : Int) :
    ∃ s, (FixedDecimal.toStr m d f : Out σ _) = .ok s ∧ Canonical (neg d) s := by
  refine ⟨_, toStr_eq h f, ?_⟩
  generalize hk : shownDigits d f = k
  generalize cut (val d) k = N
  refine ⟨natDigits (N / 10 ^ k), padDigits k N, ?_, ?_, natDigits_ne_nil _, natDigits_head _⟩
  · rw [decText_eq]
    congr 1
    by_cases h0 : k = 0
    · rw [if_pos h0, if_pos (by rw [h0]; rfl)]
    · rw [if_neg h0, if_neg]
      intro hn
      have := padDigits_length k N
      rw [hn] at this; simp at this; omega
  · intro c hc
    rcases List.mem_append.mp hc with h1 | h1
    · exact natDigits_lt _ c h1
    · exact padDigits_lt _ _ c h1

/-- **C13.** Whatever the state of the decimal - well-formed or not - every byte of a text that is returned is an ASCII
digit, `-` or `.`: the bytes are valid UTF-8. (`frac` is an `i8` field: that is the hypothesis.) -/
theorem C13_ascii (m : Mode) {d : FixedDecimal} (hd : -128 ≤ d.frac ∧ d.frac < 128) {f : Int} {s : List Nat}
    (h : (FixedDecimal.toStr m d f : Out σ _) = .ok s) : ∀ c ∈ s, c = 45 ∨ c = 46 ∨ (48 ≤ c ∧ c ≤ 57) :=
  append_text hd (fun c hc => by simp at hc) h

/-- not only well-formed decimals get formatted: here the units beyond the digit counts are garbage -/
example : ¬ WF ⟨1#8, 0, [5, 456789012, 123, 0, 0, 0, 0, 0, 0]⟩ ∧
    (FixedDecimal.toStr m ⟨1#8, 0, [5, 456789012, 123, 0, 0, 0, 0, 0, 0]⟩ (-1) : Out Unit _) = .ok [53] := by
  refine ⟨by decide, by cases m <;> decide +kernel⟩

/-- **C14.** Formatting into a buffer appends exactly what `to_string` returns and leaves the rest in place - for every
state of the decimal, including the ones where formatting panics. -/
theorem C14_appends (m : Mode) (d : FixedDecimal) (buf : List Nat) (f : Int) :
    (FixedDecimal.appendStrBuf m d buf f : Out σ _) = (match (FixedDecimal.toStr m d f : Out σ _) with
      | .ok s => .ok (buf ++ s)
      | .err e s => .err e s
      | .panic p => .panic p) := by
  have := append_prefix (σ := σ) (m := m) d buf [] f
  rw [List.append_nil] at this
  rw [this]
  unfold FixedDecimal.toStr
  cases FixedDecimal.appendStrBuf m d [] f <;> rfl

example : (FixedDecimal.appendStrBuf m Samples.c (Samples.bytes "x=") (-1) : Out Unit _) = .ok (Samples.bytes "x=-7.50") := by
  cases m <;> decide +kernel

/-! ## C15 -/

/-- **C15.** Text that `to_string(-1)` writes reads back as the same number with the same sign and scale, as long as it
has at most 65 digits. `s.filter` counts the digits of the text. -/
theorem C15_roundtrip (m : Mode) {d : FixedDecimal} (h : Tight d) {f : Int} (hf : f < 0) {s : List Nat}
    (hs : (FixedDecimal.toStr m d f : Out σ _) = .ok s) (h65 : (s.filter fun c => 48 ≤ c && c ≤ 57).length ≤ 65) :
    ∃ r, FixedDecimal.fromStr m s = .ok r ∧ val r = val d ∧ neg r = neg d ∧ fracDigits r = fracDigits d ∧ Tight r := by
  obtain ⟨t, hv, he, hr, hden, hlen, hfp, hsg⟩ := C10_exact (σ := σ) m h hf
  rw [hs] at hr
  injection hr with hr
  have hdig : (s.filter fun c => 48 ≤ c && c ≤ 57).length = t.digits.length := by
    rw [hr]
    unfold Numeral.render Numeral.digits Numeral.fracs
    have hc : ∀ ds : List Nat, (∀ d ∈ ds, d < 10) → (digitChars ds).filter (fun c => 48 ≤ c && c ≤ 57) = digitChars ds := by
      intro ds hds
      rw [List.filter_eq_self]
      intro c hc
      unfold digitChars at hc
      obtain ⟨x, hx, rfl⟩ := List.mem_map.mp hc
      have := hds x hx
      simp; omega
    have hd1 : ∀ d ∈ t.ip, d < 10 := fun d hd => hv.1 d (List.mem_append_left _ hd)
    have hd2 : ∀ d ∈ t.fracs, d < 10 := fun d hd => hv.1 d (List.mem_append_right _ hd)
    have hsgn : (t.sign.render).filter (fun c => 48 ≤ c && c ≤ 57) = [] := by cases t.sign <;> rfl
    rw [he]
    have hl : ∀ ds : List Nat, (digitChars ds).length = ds.length := fun ds => List.length_map ..
    cases hfp' : t.fp with
    | none => simp only [List.filter_append, hsgn, hc _ hd1]; simp [hl]
    | some ds =>
      have : t.fracs = ds := by unfold Numeral.fracs; rw [hfp']; rfl
      rw [this] at hd2
      have hdot : (46 :: digitChars ds).filter (fun c => 48 ≤ c && c ≤ 57) = digitChars ds := by
        rw [List.filter_cons_of_neg (by decide), hc _ hd2]
      simp only [List.filter_append, hsgn, hc _ hd1, hdot]; simp [hl]
  rw [hdig] at h65
  have hexpo : t.expo = 0 := by unfold Numeral.expo; rw [he]; rfl
  have hL : t.Limits := by
    have : t.fracs.length ≤ t.digits.length := by unfold Numeral.digits; simp
    unfold Numeral.Limits; rw [hexpo]; omega
  obtain ⟨r, e, p⟩ := (parse_render (m := m) hv (by omega) zero_len false).1 hL
  have e' : FixedDecimal.fromStr m s = .ok r := by rw [hr]; unfold FixedDecimal.fromStr; rw [e]
  refine ⟨r, e', by rw [parsed_val p, hden], ?_, ?_, parsed_tight p (fun j => zero_dg j)⟩
  · rw [p.sign]
    cases hn : neg d
    · have : t.sign ≠ .minus := fun h => by rw [hsg, hn] at h; simp at h
      cases ht : t.sign <;> first | rfl | exact absurd ht this
    · rw [hsg.mpr hn]; rfl
  · have := p.scale
    rw [hexpo, hlen] at this
    omega

example : (FixedDecimal.toStr m Samples.b (-1) : Out Unit _) = .ok (Samples.bytes "-0.00000000075") ∧
    ((Samples.bytes "-0.00000000075").filter fun c => 48 ≤ c && c ≤ 57).length ≤ 65 ∧
    FixedDecimal.fromStr m (Samples.bytes "-0.00000000075") = .ok ⟨0x81#8, 11, [750000000, 0, 0, 0, 0, 0, 0, 0, 0]⟩ := by
  cases m <;> decide +kernel

/-- **C15.** The bound is needed: a fraction with 65 digits parses, prints as 66 digits, and is then refused. -/
theorem C15_bound_needed : ∃ d s, FixedDecimal.fromStr .release (46 :: List.replicate 65 57) = .ok d ∧ Tight d ∧
    (FixedDecimal.toStr .release d (-1) : Out Unit _) = .ok s ∧ s = 48 :: 46 :: List.replicate 65 57 ∧
    FixedDecimal.fromStr .release s = .err .conversionSyntax () := by
  refine ⟨⟨0#8, 65, [990000000, 999999999, 999999999, 999999999, 999999999, 999999999, 999999999, 999999999, 0]⟩, _, ?_, ?_, ?_, rfl, ?_⟩
  · decide +kernel
  · decide +kernel
  · decide +kernel
  · decide +kernel

end Props
end Fxd
