import Verif.Props.TextLaws
import Mathlib.Data.Nat.Digits.Lemmas
/-!
# What users build on the text form: canonical keys (C84) and delimited files (C85)
-/

namespace Fxd
namespace Props
open Spec

variable {σ : Type} {m : Mode}

/-! ## C84: canonical keys -/

/-- What a user writes to get a key for a hash map: `x.to_string(k).parse()`. -/
def key (m : Mode) (k : Nat) (x : FixedDecimal) : Out Unit FixedDecimal :=
  (FixedDecimal.toStr m x (k : Int) : Out Unit _).bind fun s => FixedDecimal.fromStr m s

/-- **C84** Decimals that compare equal have the very same key, bit for bit - or the same failure. No condition on size
or digits. -/
theorem C84_equal_same_key (m : Mode) {a b : FixedDecimal} (ha : WF a) (hb : WF b)
    (h : (FixedDecimal.eq m a b : Out Unit Bool) = .ok true) (k : Nat) : key m k a = key m k b := by
  unfold key
  rw [C69_equal_same_text m ha hb h k]

theorem natDigits_length_le {n p : Nat} (hp : 0 < p) (h : n < 10 ^ p) : (natDigits n).length ≤ p := by
  unfold natDigits
  split_ifs with h0
  · show 1 ≤ p; omega
  · rw [List.length_reverse]
    exact (Nat.digits_length_le_iff (by norm_num) n).mpr h

/-- **C84** The key exists, and is the value cut after `k` digits, with the sign kept and exactly `k` decimals, whenever
the value has at most `65 - k` digits before the point. -/
theorem C84_key (m : Mode) {x : FixedDecimal} (hx : WF x) {k : Nat} (hk : k ≤ 64) (hb : |val x| < 10 ^ (65 - k)) :
    ∃ r, key m k x = .ok r ∧ Tight r ∧ fracDigits r = k ∧ neg r = neg x ∧
      |val r| = ⌊|val x| * 10 ^ k⌋ / 10 ^ k ∧ 0 ≤ val r * val x := by
  have hs : shownDigits x (k : Int) = k := by unfold shownDigits; rw [if_neg (by omega), Int.toNat_natCast]
  have hfl : (0 : Int) ≤ ⌊|val x| * 10 ^ k⌋ := Int.floor_nonneg.mpr (by positivity)
  have hc : ((cut (val x) k : Nat) : ℚ) = (⌊|val x| * 10 ^ k⌋ : ℚ) := by
    unfold cut
    have := Int.toNat_of_nonneg hfl
    exact_mod_cast congrArg (Int.cast (R := ℚ)) this
  have hlt : cut (val x) k / 10 ^ k < 10 ^ (65 - k) := by
    rw [Nat.div_lt_iff_lt_mul (by positivity)]
    have h1 : ((cut (val x) k : Nat) : ℚ) ≤ |val x| * 10 ^ k := by rw [hc]; exact Int.floor_le _
    have h2 : |val x| * 10 ^ k < (10 : ℚ) ^ (65 - k) * 10 ^ k := mul_lt_mul_of_pos_right hb (by positivity)
    exact_mod_cast lt_of_le_of_lt h1 h2
  set t := decNumeral (neg x) (cut (val x) k) k with ht
  have hv : t.Valid := decNumeral_valid _ _ _
  have hfr : t.fracs.length = k := by rw [ht, decNumeral_fracs, padDigits_length]
  have hdl : t.digits.length ≤ 65 := by
    have e : t.digits.length = t.ip.length + t.fracs.length := by unfold Numeral.digits; rw [List.length_append]
    have : t.ip.length ≤ 65 - k := natDigits_length_le (by omega) hlt
    omega
  have he : t.expo = 0 := rfl
  have hL : t.Limits := by
    have : t.fracs.length ≤ t.digits.length := by unfold Numeral.digits; simp
    unfold Numeral.Limits; rw [he]; omega
  obtain ⟨r, e, p⟩ := (parse_render (m := m) hv (by omega) zero_len false).1 hL
  have ek : key m k x = .ok r := by
    unfold key
    rw [toStr_eq hx, hs]
    show FixedDecimal.fromStr m t.render = .ok r
    unfold FixedDecimal.fromStr; rw [e]
  have hval : val r = (if neg x then -1 else 1) * ((cut (val x) k : ℚ) / 10 ^ k) := by
    rw [parsed_val p, ht, decNumeral_denote]
  have hsign : neg r = neg x := by
    rw [p.sign, ht]
    unfold decNumeral
    cases neg x <;> rfl
  have hnn : (0 : ℚ) ≤ (cut (val x) k : ℚ) / 10 ^ k := by positivity
  refine ⟨r, ek, parsed_tight p (fun j => zero_dg j), ?_, hsign, ?_, ?_⟩
  · have := p.scale
    rw [he, hfr] at this
    omega
  · rw [hval, abs_mul, abs_of_nonneg hnn, hc]
    cases neg x <;> simp
  · rw [hval]
    have ha : 0 ≤ absVal x := by
      unfold absVal
      have : (0 : ℚ) ≤ mant x := by exact_mod_cast hx.mant_nonneg
      positivity
    unfold val
    cases neg x
    · simp only [Bool.false_eq_true, if_false, one_mul]; positivity
    · simp only [if_true]
      have : 0 ≤ (cut (if true = true then -absVal x else absVal x) k : ℚ) / 10 ^ k * absVal x := by positivity
      simp only [if_true] at this
      linarith

/-- **C84** A value with at most `k` decimals keeps its value in its key. -/
theorem C84_key_exact (m : Mode) {x : FixedDecimal} (hx : WF x) {k : Nat} (hk : k ≤ 64) (hb : |val x| < 10 ^ (65 - k))
    {n : Int} (hn : val x * 10 ^ k = n) : ∃ r, key m k x = .ok r ∧ Tight r ∧ fracDigits r = k ∧ neg r = neg x ∧ val r = val x := by
  obtain ⟨r, e, tr, fr, nr, av, sg⟩ := C84_key m hx hk hb
  refine ⟨r, e, tr, fr, nr, ?_⟩
  have hp : (0 : ℚ) < 10 ^ k := by positivity
  have h1 : |val x| * 10 ^ k = ((|n| : Int) : ℚ) := by
    rw [Int.cast_abs, ← hn, abs_mul, abs_of_pos hp]
  rw [h1, Int.floor_intCast, ← h1, mul_div_assoc, div_self hp.ne', mul_one] at av
  rcases abs_eq_abs.mp av with h | h
  · exact h
  · rw [h] at sg ⊢
    have : val x = 0 := by nlinarith [sq_nonneg (val x)]
    rw [this]; simp

/-- **C84** So among values with at most `k` decimals, keys are equal exactly when the decimals compare equal ... -/
theorem C84_key_iff (m : Mode) {a b : FixedDecimal} (ha : WF a) (hb : WF b) {k : Nat} (hk : k ≤ 64)
    (la : |val a| < 10 ^ (65 - k)) (lb : |val b| < 10 ^ (65 - k)) {n n' : Int} (hn : val a * 10 ^ k = n)
    (hn' : val b * 10 ^ k = n') :
    key m k a = key m k b ↔ (FixedDecimal.eq m a b : Out Unit Bool) = .ok true := by
  refine ⟨fun h => ?_, fun h => C84_equal_same_key m ha hb h k⟩
  obtain ⟨r, e, _, _, nr, vr⟩ := C84_key_exact m ha hk la hn
  obtain ⟨s, e', _, _, ns, vs⟩ := C84_key_exact m hb hk lb hn'
  rw [h, e'] at e
  injection e with e
  subst e
  rw [C18_eq_iff m ha hb, ← vr, ← vs, ← nr, ← ns]
  simp

/-- **C84** ... and so are their hashes: the keys repair what `Hash` does to unkeyed decimals (C19). -/
theorem C84_hash (m : Mode) {a b p q : FixedDecimal} (ha : WF a) (hb : WF b) {k : Nat} (hk : k ≤ 64)
    (la : |val a| < 10 ^ (65 - k)) (lb : |val b| < 10 ^ (65 - k)) {n n' : Int} (hn : val a * 10 ^ k = n)
    (hn' : val b * 10 ^ k = n') (hp : key m k a = .ok p) (hq : key m k b = .ok q) :
    (FixedDecimal.hash m p : Out σ (List FixedDecimal.HashWrite)) = FixedDecimal.hash m q ↔
      (FixedDecimal.eq m a b : Out Unit Bool) = .ok true := by
  obtain ⟨r, e, tr, _, nr, vr⟩ := C84_key_exact m ha hk la hn
  obtain ⟨s, e', ts, _, ns, vs⟩ := C84_key_exact m hb hk lb hn'
  rw [hp] at e; rw [hq] at e'
  injection e with e; injection e' with e'
  subst e e'
  constructor
  · intro h
    have := ((C19_hash_iff m tr.toWF ts.toWF).mp h).1
    rw [C18_eq_iff m tr.toWF ts.toWF] at this
    rw [C18_eq_iff m ha hb, ← vr, ← vs, ← nr, ← ns]
    injection this with this
    rw [this]
  · intro h
    have := C84_equal_same_key m ha hb h k
    rw [hp, hq] at this
    injection this with this
    rw [this]

/-- "1" and "1.0000000000" compare equal and hash differently; their keys at any scale are one and the same. -/
example : ∃ a b : FixedDecimal, FixedDecimal.fromStr m (Samples.bytes "1") = .ok a ∧
    FixedDecimal.fromStr m (Samples.bytes "1.0000000000") = .ok b ∧
    (FixedDecimal.hash m a : Out Unit _) ≠ FixedDecimal.hash m b ∧
    key m 2 a = .ok ⟨1#8, 2, [0, 1, 0, 0, 0, 0, 0, 0, 0]⟩ ∧ key m 2 a = key m 2 b := by
  refine ⟨⟨1#8, 0, [1, 0, 0, 0, 0, 0, 0, 0, 0]⟩, ⟨1#8, 10, [0, 0, 1, 0, 0, 0, 0, 0, 0]⟩, ?_, ?_, ?_, ?_, ?_⟩ <;>
    cases m <;> decide +kernel

/-- The bound on the value is what the parser needs: with one digit more there is a text but no key. -/
example : ∃ a : FixedDecimal, FixedDecimal.fromStr m (Samples.bytes "10") = .ok a ∧ WF a ∧
    key m 64 a = .err .conversionSyntax () := by
  refine ⟨⟨2#8, 0, [10, 0, 0, 0, 0, 0, 0, 0, 0]⟩, ?_, ?_, ?_⟩
  · cases m <;> decide +kernel
  · decide +kernel
  · cases m <;> decide +kernel

/-! ## C85: delimited text -/

/-- Writing a line: each decimal in full with `append_str_buf`, a separator byte between them, into one buffer. -/
def writeFrom (m : Mode) (sep : Nat) : List Nat → List FixedDecimal → Out σ (List Nat)
  | buf, [] => .ok buf
  | buf, [x] => FixedDecimal.appendStrBuf m x buf (-1)
  | buf, x :: y :: xs => (FixedDecimal.appendStrBuf m x buf (-1) : Out σ _).bind fun b => writeFrom m sep (b ++ [sep]) (y :: xs)

/-- Reading it back: split at the separator, parse every field. -/
def parseAll (m : Mode) : List (List Nat) → Out Unit (List FixedDecimal)
  | [] => .ok []
  | s :: ss => (FixedDecimal.fromStr m s).bind fun r => (parseAll m ss).bind fun rs => .ok (r :: rs)

def readLine (m : Mode) (sep : Nat) (s : List Nat) : Out Unit (List FixedDecimal) := parseAll m (s.splitOn sep)

/-- The same number, written with the same sign and number of decimals. -/
def SameDecimal (r d : FixedDecimal) : Prop :=
  val r = val d ∧ neg r = neg d ∧ fracDigits r = fracDigits d

/-- The text of `d`, as `to_string(-1)` gives it. -/
def fullText (d : FixedDecimal) : List Nat := decText (neg d) (cut (val d) (fracDigits d)) (fracDigits d)

theorem fullText_eq {d : FixedDecimal} (h : WF d) : (FixedDecimal.toStr m d (-1) : Out σ _) = .ok (fullText d) := by
  rw [toStr_eq h]
  rfl

theorem append_full {d : FixedDecimal} (h : WF d) (buf : List Nat) :
    (FixedDecimal.appendStrBuf m d buf (-1) : Out σ _) = .ok (buf ++ fullText d) := by
  rw [C14_appends, fullText_eq h]

/-- **C85** Writing never fails, and the line is the fields' own texts with the separator between them. -/
theorem C85_write (m : Mode) (sep : Nat) {xs : List FixedDecimal} (h : ∀ x ∈ xs, WF x) (buf : List Nat) :
    (writeFrom m sep buf xs : Out σ _) = .ok (buf ++ List.intercalate [sep] (xs.map fullText)) := by
  induction xs generalizing buf with
  | nil => simp [writeFrom, List.intercalate]
  | cons x xs ih =>
    cases xs with
    | nil => rw [writeFrom, append_full (h x (by simp))]; simp [List.intercalate]
    | cons y ys =>
      rw [writeFrom, append_full (h x (by simp))]
      show writeFrom m sep _ (y :: ys) = _
      rw [ih (fun z hz => h z (List.mem_cons_of_mem _ hz))]
      simp [List.intercalate, List.append_assoc]

theorem parseAll_spec {xs : List FixedDecimal} (h : ∀ x ∈ xs, Tight x)
    (h65 : ∀ x ∈ xs, ((fullText x).filter fun c => 48 ≤ c && c ≤ 57).length ≤ 65) :
    ∃ rs, parseAll m (xs.map fullText) = .ok rs ∧ List.Forall₂ SameDecimal rs xs := by
  induction xs with
  | nil => exact ⟨[], rfl, .nil⟩
  | cons x xs ih =>
    obtain ⟨rs, e, f⟩ := ih (fun z hz => h z (List.mem_cons_of_mem _ hz)) (fun z hz => h65 z (List.mem_cons_of_mem _ hz))
    have tx := h x (by simp)
    obtain ⟨r, e1, v, n, fr, _⟩ := C15_roundtrip (σ := Unit) m tx (by norm_num : (-1 : Int) < 0) (fullText_eq tx.toWF) (h65 x (by simp))
    refine ⟨r :: rs, ?_, .cons ⟨v, n, fr⟩ f⟩
    rw [List.map_cons, parseAll, e1]
    show (parseAll m (xs.map fullText)).bind _ = _
    rw [e]
    rfl

/-- **C85** A line written field by field reads back as the same numbers with the same signs and decimals, in the same
order, for any separator that is not a digit, a point or a minus sign. -/
theorem C85_roundtrip (m : Mode) {sep : Nat} (hsep : sep ≠ 45 ∧ sep ≠ 46 ∧ ¬ (48 ≤ sep ∧ sep ≤ 57))
    {xs : List FixedDecimal} (hne : xs ≠ []) (h : ∀ x ∈ xs, Tight x)
    (h65 : ∀ x ∈ xs, ∀ s, (FixedDecimal.toStr m x (-1) : Out Unit _) = .ok s →
      (s.filter fun c => 48 ≤ c && c ≤ 57).length ≤ 65) :
    ∃ s rs, (writeFrom m sep [] xs : Out Unit _) = .ok s ∧ readLine m sep s = .ok rs ∧ List.Forall₂ SameDecimal rs xs := by
  obtain ⟨rs, e, f⟩ := parseAll_spec (m := m) h (fun x hx => h65 x hx _ (fullText_eq (h x hx).toWF))
  refine ⟨_, rs, C85_write m sep (fun x hx => (h x hx).toWF) [], ?_, f⟩
  unfold readLine
  rw [List.nil_append, List.splitOn_intercalate, e]
  · intro l hl hmem
    obtain ⟨x, hx, rfl⟩ := List.mem_map.mp hl
    have w := (h x hx).toWF
    have fe := w.frac_eq
    have fl := w.fits
    have := C13_ascii (σ := Unit) m (d := x) (by
      have := fracDigits_le_fu x
      have := w.frac_nonneg
      omega) (fullText_eq w) sep hmem
    omega
  · simpa using hne

/-- A line of three, comma-separated. -/
example : ∃ s, (writeFrom m 44 [] [Samples.a, Samples.b, Samples.c] : Out Unit _) = .ok s ∧
    s = Samples.bytes "123456789012.345,-0.00000000075,-7.50" ∧
    (∀ x ∈ [Samples.a, Samples.b, Samples.c], Tight x) ∧
    readLine m 44 s = .ok [Samples.a, ⟨0x81#8, 11, [750000000, 0, 0, 0, 0, 0, 0, 0, 0]⟩, Samples.c] := by
  refine ⟨_, ?_, rfl, ?_, ?_⟩
  · cases m <;> decide +kernel
  · decide +kernel
  · cases m <;> decide +kernel

end Props
end Fxd
