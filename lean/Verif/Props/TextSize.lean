import Verif.Props.TextUses
import Verif.Props.AddSub
/-!
# C87: how long a text is, and how texts sort
-/

namespace Fxd
namespace Props
open Spec

variable {σ : Type} {m : Mode}

theorem natDigits_len (n : Nat) : (natDigits n).length = max 1 (Nat.digits 10 n).length := by
  unfold natDigits
  split_ifs with h
  · subst h; rfl
  · rw [List.length_reverse]
    have : (Nat.digits 10 n).length ≠ 0 := by
      rw [Ne, List.length_eq_zero_iff]; exact Nat.digits_ne_nil_iff_ne_zero.mpr h
    omega

theorem decText_len (ng : Bool) (N k : Nat) :
    (decText ng N k).length = (if ng then 1 else 0) + max 1 (Nat.digits 10 (N / 10 ^ k)).length + (if k = 0 then 0 else k + 1) := by
  unfold decText decNumeral Numeral.render digitChars
  cases ng <;> by_cases hk : k = 0 <;>
    simp [hk, Sign.render, natDigits_len, padDigits_length] <;> omega

theorem cut_div (v : ℚ) (k : Nat) : cut v k / 10 ^ k = ⌊|v|⌋.toNat := by
  unfold cut
  have h0 : (0 : ℤ) ≤ ⌊|v| * 10 ^ k⌋ := Int.floor_nonneg.mpr (by positivity)
  have h1 : (0 : ℤ) ≤ ⌊|v|⌋ := Int.floor_nonneg.mpr (abs_nonneg _)
  have e : ⌊|v| * 10 ^ k⌋ / (10 ^ k : ℤ) = ⌊|v|⌋ := by
    have := Int.floor_div_natCast (k := ℚ) (|v| * 10 ^ k) (10 ^ k)
    push_cast at this
    rw [mul_div_assoc, div_self (by positivity), mul_one] at this
    exact this.symm
  have e2 : ((⌊|v| * 10 ^ k⌋.toNat / 10 ^ k : Nat) : ℤ) = (⌊|v|⌋.toNat : ℤ) := by
    push_cast
    rw [Int.toNat_of_nonneg h0, Int.toNat_of_nonneg h1, e]
  exact_mod_cast e2

/-- **C87** The length of a text: one byte for a minus sign, the decimal digits of the integer part (one for zero), and,
if digits after the point are shown, one more than their number. -/
theorem C87_length (m : Mode) {d : FixedDecimal} (h : WF d) (f : Int) {s : List Nat}
    (hs : (FixedDecimal.toStr m d f : Out σ _) = .ok s) :
    s.length = (if neg d then 1 else 0) + max 1 (Nat.digits 10 ⌊|val d|⌋.toNat).length +
      (if shownDigits d f = 0 then 0 else shownDigits d f + 1) := by
  rw [toStr_eq h] at hs
  injection hs with hs
  rw [← hs, decText_len, cut_div]

/-- **C87** No full text is longer than 84 bytes, and none with `k` digits longer than 83 + k. -/
theorem C87_bound (m : Mode) {d : FixedDecimal} (h : WF d) (f : Int) {s : List Nat}
    (hs : (FixedDecimal.toStr m d f : Out σ _) = .ok s) : s.length ≤ if f < 0 then 84 else 83 + f.toNat := by
  rw [C87_length m h f hs]
  have h1 : (Nat.digits 10 ⌊|val d|⌋.toNat).length ≤ 9 * iu d := by
    rw [Nat.digits_length_le_iff (by norm_num)]
    have hl := absVal_lt_pow h
    rw [← abs_val h] at hl
    have hf : (⌊|val d|⌋ : ℚ) ≤ |val d| := Int.floor_le _
    have h0 : (0 : ℤ) ≤ ⌊|val d|⌋ := Int.floor_nonneg.mpr (abs_nonneg _)
    have : ⌊|val d|⌋ < (10 ^ (9 * iu d) : ℤ) := by exact_mod_cast lt_of_le_of_lt hf hl
    have e : ((⌊|val d|⌋.toNat : Nat) : ℤ) < ((10 ^ (9 * iu d) : Nat) : ℤ) := by
      rw [Int.toNat_of_nonneg h0]; push_cast; exact this
    exact_mod_cast e
  have h2 := fracDigits_le_fu d
  have h3 := h.fits
  have hn : (if neg d = true then 1 else 0 : Nat) ≤ 1 := by split_ifs <;> omega
  have hsh : shownDigits d f = if f < 0 then fracDigits d else f.toNat := rfl
  rw [hsh]
  by_cases hf : f < 0
  · rw [if_pos hf, if_pos hf]; split_ifs <;> omega
  · rw [if_neg hf, if_neg hf]; split_ifs <;> omega

/-- 84 bytes are needed: -0.[81 digits]. -/
example : WF ⟨0x80#8, 81, [1, 0, 0, 0, 0, 0, 0, 0, 0]⟩ ∧
    ∃ s, (FixedDecimal.toStr m ⟨0x80#8, 81, [1, 0, 0, 0, 0, 0, 0, 0, 0]⟩ (-1) : Out Unit _) = .ok s ∧ s.length = 84 := by
  refine ⟨by decide +kernel, 45 :: 48 :: 46 :: (List.replicate 80 48 ++ [49]), by cases m <;> decide +kernel, rfl⟩

/-! ## Sorting texts -/

theorem digits_lex : ∀ {xs ys : List Nat}, xs.length = ys.length → (∀ d ∈ xs, d < 10) → (∀ d ∈ ys, d < 10) →
    (xs < ys ↔ digitsVal xs < digitsVal ys)
  | [], [], _, _, _ => by simp [digitsVal]
  | x :: xs, y :: ys, hl, hx, hy => by
    have hl' : xs.length = ys.length := by simpa using hl
    have ih := digits_lex hl' (fun d hd => hx d (List.mem_cons_of_mem _ hd)) (fun d hd => hy d (List.mem_cons_of_mem _ hd))
    have b1 : digitsVal xs < 10 ^ xs.length := digitsVal_lt (fun d hd => hx d (List.mem_cons_of_mem _ hd))
    have b2 : digitsVal ys < 10 ^ ys.length := digitsVal_lt (fun d hd => hy d (List.mem_cons_of_mem _ hd))
    rw [List.cons_lt_cons_iff, ih, digitsVal_cons, digitsVal_cons, hl']
    rw [hl'] at b1
    constructor
    · rintro (h | ⟨rfl, h⟩)
      · have : (x + 1) * 10 ^ ys.length ≤ y * 10 ^ ys.length := Nat.mul_le_mul_right _ h
        rw [Nat.add_mul, one_mul] at this
        omega
      · omega
    · intro h
      rcases Nat.lt_trichotomy x y with h1 | h1 | h1
      · exact Or.inl h1
      · right; subst h1; exact ⟨rfl, by omega⟩
      · have : (y + 1) * 10 ^ ys.length ≤ x * 10 ^ ys.length := Nat.mul_le_mul_right _ h1
        rw [Nat.add_mul, one_mul] at this
        omega

theorem chars_lex : ∀ {xs ys : List Nat}, digitChars xs < digitChars ys ↔ xs < ys
  | [], [] => by simp [digitChars]
  | [], y :: ys => by simp [digitChars]
  | x :: xs, [] => by simp [digitChars]
  | x :: xs, y :: ys => by
    have := @chars_lex xs ys
    unfold digitChars at *
    rw [List.map_cons, List.map_cons, List.cons_lt_cons_iff, List.cons_lt_cons_iff, this]
    constructor <;> (rintro (h | ⟨h, h'⟩); exacts [Or.inl (by omega), Or.inr ⟨by omega, h'⟩])

/-- of two lists that begin with pieces of equal length, the first pieces decide unless they are equal -/
theorem lex_split : ∀ {a b c d : List Nat}, a.length = b.length → (a ++ c < b ++ d ↔ a < b ∨ (a = b ∧ c < d))
  | [], [], c, d, _ => by simp
  | x :: a, y :: b, c, d, hl => by
    have ih := @lex_split a b c d (by simpa using hl)
    rw [List.cons_append, List.cons_append, List.cons_lt_cons_iff, List.cons_lt_cons_iff, ih]
    constructor
    · rintro (h | ⟨rfl, h | ⟨rfl, h⟩⟩)
      · exact Or.inl (Or.inl h)
      · exact Or.inl (Or.inr ⟨rfl, h⟩)
      · exact Or.inr ⟨rfl, h⟩
    · rintro ((h | ⟨rfl, h⟩) | ⟨h, h'⟩)
      · exact Or.inl h
      · exact Or.inr ⟨rfl, Or.inl h⟩
      · injection h with h1 h2; exact Or.inr ⟨h1, Or.inr ⟨h2, h'⟩⟩

theorem decText_lex {N M k : Nat} (h : (decText false N k).length = (decText false M k).length) :
    decText false N k < decText false M k ↔ N < M := by
  have hlen : (natDigits (N / 10 ^ k)).length = (natDigits (M / 10 ^ k)).length := by
    rw [decText_len, decText_len] at h
    rw [natDigits_len, natDigits_len]
    omega
  have shape : ∀ N : Nat, decText false N k =
      digitChars (natDigits (N / 10 ^ k)) ++ (if k = 0 then [] else 46 :: digitChars (padDigits k (N % 10 ^ k))) := by
    intro N
    unfold decText decNumeral Numeral.render
    by_cases hk : k = 0 <;> simp [hk, Sign.render]
  rw [shape, shape, lex_split (by unfold digitChars; rw [List.length_map, List.length_map, hlen]), chars_lex,
    digits_lex hlen (natDigits_lt _) (natDigits_lt _), digitsVal_natDigits, digitsVal_natDigits]
  have e : digitChars (natDigits (N / 10 ^ k)) = digitChars (natDigits (M / 10 ^ k)) ↔ N / 10 ^ k = M / 10 ^ k := by
    constructor
    · intro h
      rw [← digitsVal_natDigits (N / 10 ^ k), digitChars_inj h, digitsVal_natDigits]
    · intro h; rw [h]
  rw [e]
  have hp : 0 < 10 ^ k := by positivity
  have d1 := Nat.div_add_mod N (10 ^ k)
  have d2 := Nat.div_add_mod M (10 ^ k)
  have m1 := Nat.mod_lt N hp
  have m2 := Nat.mod_lt M hp
  have mm : ∀ N : Nat, digitsVal (padDigits k (N % 10 ^ k)) = N % 10 ^ k := by
    intro N; rw [digitsVal_padDigits, Nat.mod_mod]
  have tail : (if k = 0 then ([] : List Nat) else 46 :: digitChars (padDigits k (N % 10 ^ k))) <
      (if k = 0 then [] else 46 :: digitChars (padDigits k (M % 10 ^ k))) ↔ N % 10 ^ k < M % 10 ^ k := by
    by_cases hk : k = 0
    · subst hk; simp [Nat.mod_one]
    · rw [if_neg hk, if_neg hk, List.cons_lt_cons_iff, chars_lex,
        digits_lex (by rw [padDigits_length, padDigits_length]) (padDigits_lt _ _) (padDigits_lt _ _), mm, mm]
      simp
  rw [tail]
  constructor
  · rintro (h | ⟨h, h'⟩)
    · have : 10 ^ k * (N / 10 ^ k + 1) ≤ 10 ^ k * (M / 10 ^ k) := Nat.mul_le_mul_left _ h
      rw [Nat.mul_add, mul_one] at this
      omega
    · rw [h] at d1; omega
  · intro h
    rcases Nat.lt_trichotomy (N / 10 ^ k) (M / 10 ^ k) with h1 | h1 | h1
    · exact Or.inl h1
    · rw [h1] at d1; exact Or.inr ⟨h1, by omega⟩
    · have : 10 ^ k * (M / 10 ^ k + 1) ≤ 10 ^ k * (N / 10 ^ k) := Nat.mul_le_mul_left _ h1
      rw [Nat.mul_add, mul_one] at this
      omega

/-- **C87** Texts of equal length with the same number of digits after the point, of decimals without a minus sign, sort
byte by byte as the printed (cut) numbers do; in particular as the values themselves when nothing is cut. -/
theorem C87_sorts (m : Mode) {a b : FixedDecimal} (ha : WF a) (hb : WF b) (na : neg a = false) (nb : neg b = false) (k : Nat)
    {s t : List Nat} (hs : (FixedDecimal.toStr m a (k : Int) : Out σ _) = .ok s)
    (ht : (FixedDecimal.toStr m b (k : Int) : Out σ _) = .ok t) (hl : s.length = t.length) :
    s < t ↔ ⌊val a * 10 ^ k⌋ < ⌊val b * 10 ^ k⌋ := by
  have e : ∀ d : FixedDecimal, shownDigits d (k : Int) = k := by
    intro d; unfold shownDigits; rw [if_neg (by omega), Int.toNat_natCast]
  rw [toStr_eq ha, e, na] at hs
  rw [toStr_eq hb, e, nb] at ht
  injection hs with hs
  injection ht with ht
  subst hs ht
  rw [decText_lex hl]
  have nn : ∀ {d : FixedDecimal}, WF d → neg d = false → |val d| = val d := by
    intro d h hn
    rw [abs_val h]; unfold val; rw [hn]; simp
  have fl : ∀ {d : FixedDecimal}, WF d → neg d = false → ((cut (val d) k : Nat) : ℤ) = ⌊val d * 10 ^ k⌋ := by
    intro d h hn
    have h0 : (0 : ℤ) ≤ ⌊|val d| * 10 ^ k⌋ := Int.floor_nonneg.mpr (by positivity)
    unfold cut
    rw [Int.toNat_of_nonneg h0, nn h hn]
  rw [← fl ha na, ← fl hb nb]
  exact Int.ofNat_lt.symm

/-- "17.25" and "99.50" -/
example : ∃ a b : FixedDecimal, FixedDecimal.fromStr m (Samples.bytes "17.25") = .ok a ∧
    FixedDecimal.fromStr m (Samples.bytes "99.5") = .ok b ∧
    (FixedDecimal.toStr m a (2 : Nat) : Out Unit _) = .ok (Samples.bytes "17.25") ∧
    (FixedDecimal.toStr m b (2 : Nat) : Out Unit _) = .ok (Samples.bytes "99.50") ∧
    Samples.bytes "17.25" < Samples.bytes "99.50" := by
  refine ⟨⟨2#8, 2, [250000000, 17, 0, 0, 0, 0, 0, 0, 0]⟩, ⟨2#8, 1, [500000000, 99, 0, 0, 0, 0, 0, 0, 0]⟩, ?_, ?_, ?_, ?_, by decide⟩ <;>
    cases m <;> decide +kernel

end Props
end Fxd
