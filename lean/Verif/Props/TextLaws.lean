import Verif.Props.Format
import Verif.Props.Round
import Verif.Props.Cmp
import Mathlib.Algebra.Order.Floor.Semifield
/-!
# Property C69: what the text says

The text of a decimal determines, and is determined by, its sign, value and scale; shorter texts are prefixes of longer
ones; and a rounded decimal shows exactly the digits it was rounded to.
-/

namespace Fxd
open Spec

theorem digitChars_no_point {l : List Nat} : (46 : Nat) ∉ digitChars l := by
  unfold digitChars
  intro h
  obtain ⟨d, -, h⟩ := List.mem_map.mp h
  omega

theorem digitChars_inj {l l' : List Nat} (h : digitChars l = digitChars l') : l = l' := by
  unfold digitChars at h
  exact List.map_injective_iff.mpr (fun a b h => by simpa using h) h

/-- Splitting at the first point. -/
theorem split_point : ∀ {a a' t t' : List Nat}, (46 : Nat) ∉ a → 46 ∉ a' → (t = [] ∨ ∃ u, t = 46 :: u) →
    (t' = [] ∨ ∃ u, t' = 46 :: u) → a ++ t = a' ++ t' → a = a' ∧ t = t'
  | [], [], _, _, _, _, _, _, h => ⟨rfl, h⟩
  | [], x :: a', t, t', _, h2, h3, _, h => by
    rcases h3 with rfl | ⟨u, rfl⟩
    · simp at h
    · simp only [List.nil_append, List.cons_append, List.cons.injEq] at h
      exact absurd (by rw [h.1]; simp) h2
  | x :: a, [], t, t', h1, _, _, h4, h => by
    rcases h4 with rfl | ⟨u, rfl⟩
    · simp at h
    · simp only [List.nil_append, List.cons_append, List.cons.injEq] at h
      exact absurd (by rw [h.1]; simp) h1
  | x :: a, y :: a', t, t', h1, h2, h3, h4, h => by
    simp only [List.cons_append, List.cons.injEq] at h
    simp only [List.mem_cons, not_or] at h1 h2
    obtain ⟨e1, e2⟩ := split_point h1.2 h2.2 h3 h4 h.2
    exact ⟨by rw [h.1, e1], e2⟩

/-- A text determines its number. -/
theorem decText_inj {g g' : Bool} {N N' k k' : Nat} (h : decText g N k = decText g' N' k') : g = g' ∧ N = N' ∧ k = k' := by
  rw [decText_eq, decText_eq] at h
  have hd : ∀ n : Nat, ∃ c l, digitChars (natDigits n) = c :: l ∧ c ≠ 45 := by
    intro n
    have h1 := natDigits_ne_nil n
    obtain ⟨c, l, e⟩ := List.exists_cons_of_ne_nil h1
    exact ⟨c + 48, digitChars l, by rw [e]; rfl, by omega⟩
  have hg : g = g' := by
    obtain ⟨c, l, e, hc⟩ := hd (N / 10 ^ k)
    obtain ⟨c', l', e', hc'⟩ := hd (N' / 10 ^ k')
    rw [e, e'] at h
    cases g <;> cases g' <;> simp at h ⊢
    · exact hc h.1
    · exact hc' h.1.symm
  subst hg
  have h2 : digitChars (natDigits (N / 10 ^ k)) ++ (if k = 0 then [] else 46 :: digitChars (padDigits k N)) =
      digitChars (natDigits (N' / 10 ^ k')) ++ (if k' = 0 then [] else 46 :: digitChars (padDigits k' N')) := by
    rw [List.append_assoc, List.append_assoc] at h
    exact List.append_cancel_left h
  obtain ⟨e1, e2⟩ := split_point digitChars_no_point digitChars_no_point
    (by by_cases h0 : k = 0
        · left; rw [if_pos h0]
        · right; rw [if_neg h0]; exact ⟨_, rfl⟩)
    (by by_cases h0 : k' = 0
        · left; rw [if_pos h0]
        · right; rw [if_neg h0]; exact ⟨_, rfl⟩) h2
  have hq : N / 10 ^ k = N' / 10 ^ k' := by
    rw [← digitsVal_natDigits (N / 10 ^ k), digitChars_inj e1, digitsVal_natDigits]
  have hp : padDigits k N = padDigits k' N' := by
    split_ifs at e2 with h0 h0'
    · rw [h0, h0']; rfl
    · injection e2 with _ e2; exact digitChars_inj e2
  have hk : k = k' := by rw [← padDigits_length k N, hp, padDigits_length]
  subst hk
  have hr : N % 10 ^ k = N' % 10 ^ k := by rw [← digitsVal_padDigits, hp, digitsVal_padDigits]
  refine ⟨rfl, ?_, rfl⟩
  rw [← Nat.div_add_mod N (10 ^ k), ← Nat.div_add_mod N' (10 ^ k), hq, hr]

namespace Props
variable {σ : Type} {m : Mode}

/-- **C69** Two decimals have the same text exactly when they agree in sign flag, value and number of decimals. -/
theorem C69_text_iff (m : Mode) {a b : FixedDecimal} (ha : Tight a) (hb : Tight b) {f g : Int} (hf : f < 0) (hg : g < 0) :
    (FixedDecimal.toStr m a f : Out σ _) = FixedDecimal.toStr m b g ↔
      neg a = neg b ∧ val a = val b ∧ a.frac = b.frac := by
  have e1 : shownDigits a f = fracDigits a := if_pos hf
  have e2 : shownDigits b g = fracDigits b := if_pos hg
  rw [toStr_eq ha.toWF, toStr_eq hb.toWF, e1, e2]
  have fa := ha.toWF.frac_eq
  have fb := hb.toWF.frac_eq
  constructor
  · intro h
    injection h with h
    obtain ⟨h1, h2, h3⟩ := decText_inj h
    refine ⟨h1, ?_, by rw [fa, fb, h3]⟩
    have : absVal a = absVal b := by rw [← cut_frac ha, ← cut_frac hb, h2, h3]
    unfold val; rw [h1, this]
  · rintro ⟨h1, h2, h3⟩
    have : fracDigits a = fracDigits b := by omega
    rw [h1, h2, this]

/-- **C69** Decimals that compare equal print the same at any explicit number of digits. -/
theorem C69_equal_same_text (m : Mode) {a b : FixedDecimal} (ha : WF a) (hb : WF b)
    (h : (FixedDecimal.eq m a b : Out σ Bool) = .ok true) (k : Nat) :
    (FixedDecimal.toStr m a (k : Int) : Out σ _) = FixedDecimal.toStr m b (k : Int) := by
  rw [C18_eq_iff m ha hb] at h
  simp only [Out.ok.injEq, decide_eq_true_eq] at h
  have e : ∀ d : FixedDecimal, shownDigits d (k : Int) = k := by
    intro d; unfold shownDigits; rw [if_neg (by omega), Int.toNat_natCast]
  rw [toStr_eq ha, toStr_eq hb, e, e, h.1, h.2]

/-- Cutting in two steps is cutting once. -/
theorem cut_cut (v : ℚ) {k l : Nat} (h : k ≤ l) : cut v k = cut v l / 10 ^ (l - k) := by
  unfold cut
  rw [Int.floor_toNat, Int.floor_toNat]
  have e : |v| * 10 ^ k = |v| * 10 ^ l / ((10 ^ (l - k) : Nat) : ℚ) := by
    push_cast
    rw [eq_div_iff (by positivity), mul_assoc, ← pow_add, Nat.add_sub_cancel' h]
  rw [e, Nat.floor_div_natCast]

/-- **C69** Asking for more digits only appends: the text with `k > 0` digits is the beginning of the text with `l ≥ k`. -/
theorem C69_prefix (m : Mode) {d : FixedDecimal} (hd : WF d) {k l : Nat} (hk : 0 < k) (h : k ≤ l) {s t : List Nat}
    (hs : (FixedDecimal.toStr m d (k : Int) : Out σ _) = .ok s) (ht : (FixedDecimal.toStr m d (l : Int) : Out σ _) = .ok t) :
    ∃ ds, t = s ++ digitChars ds ∧ ds.length = l - k ∧ ∀ x ∈ ds, x < 10 := by
  have e : ∀ (d : FixedDecimal) (k : Nat), shownDigits d (k : Int) = k := by
    intro d k; unfold shownDigits; rw [if_neg (by omega), Int.toNat_natCast]
  rw [toStr_eq hd, e] at hs ht
  injection hs with hs
  injection ht with ht
  refine ⟨padDigits (l - k) (cut (val d) l), ?_, padDigits_length _ _, padDigits_lt _ _⟩
  rw [← hs, ← ht, decText_eq, decText_eq, if_neg (show ¬ k = 0 by omega), if_neg (show ¬ l = 0 by omega)]
  have h1 : cut (val d) k / 10 ^ k = cut (val d) l / 10 ^ l := by
    rw [cut_cut (val d) h, Nat.div_div_eq_div_mul, ← pow_add, Nat.sub_add_cancel h]
  have h2 : padDigits l (cut (val d) l) = padDigits k (cut (val d) k) ++ padDigits (l - k) (cut (val d) l) := by
    rw [cut_cut (val d) h, ← padDigits_append, Nat.add_sub_cancel' h]
  rw [h1, h2]
  unfold digitChars
  simp

/-- **C69** Rounding to `k` digits and printing shows exactly `k` digits after the point, and they are those of the
number rounded half away from zero. -/
theorem C69_round_then_print (m : Mode) {d res r : FixedDecimal} (hd : Tight d) (hres : res.lsu.length = 9) {k : Nat}
    (hk : k ≤ 127) (h : (d.roundTo m res k : Out σ _) = .ok r) {f : Int} (hf : f < 0) :
    ∃ t : Numeral, t.Valid ∧ t.exp = none ∧ (FixedDecimal.toStr m r f : Out σ _) = .ok t.render ∧
      t.fracs.length = k ∧ t.denote = (halfAway (val d * 10 ^ k) : ℚ) / 10 ^ k := by
  obtain ⟨h1, h2, -, h4⟩ := round_to_uniform m hd hres hk h
  obtain ⟨t, a, b, c, e, g, -⟩ := C10_exact (σ := σ) m h4 hf
  refine ⟨t, a, b, c, ?_, by rw [e, h1]⟩
  rw [g]
  have := h4.toWF.frac_eq
  omega

/-! Non-vacuity: 7.5 and 7.50 are equal, have different texts with `-1` and the same with 3 digits. -/
example : (FixedDecimal.eq m Samples.c ⟨0x81#8, 1, [500000000, 7, 0, 0, 0, 0, 0, 0, 0]⟩ : Out Unit Bool) = .ok true ∧
    (FixedDecimal.toStr m Samples.c 3 : Out Unit _) = .ok (Samples.bytes "-7.500") ∧
    (FixedDecimal.toStr m ⟨0x81#8, 1, [500000000, 7, 0, 0, 0, 0, 0, 0, 0]⟩ 3 : Out Unit _) = .ok (Samples.bytes "-7.500") ∧
    (FixedDecimal.toStr m Samples.c (-1) : Out Unit _) ≠ FixedDecimal.toStr m ⟨0x81#8, 1, [500000000, 7, 0, 0, 0, 0, 0, 0, 0]⟩ (-1) := by
  refine ⟨by cases m <;> decide +kernel, by cases m <;> decide +kernel, by cases m <;> decide +kernel, ?_⟩
  rw [Ne, C69_text_iff m Samples.c_tight (by decide) (by norm_num) (by norm_num)]
  rintro ⟨-, -, h⟩
  revert h; decide
/-- 123456789012.345 at 2 and at 12 digits -/
example : (FixedDecimal.toStr m Samples.a (2 : Nat) : Out Unit _) = .ok (Samples.bytes "123456789012.34") ∧
    (FixedDecimal.toStr m Samples.a (12 : Nat) : Out Unit _) = .ok (Samples.bytes "123456789012.34" ++ digitChars [5, 0, 0, 0, 0, 0, 0, 0, 0, 0]) := by
  cases m <;> decide +kernel
/-- 123456789012.345 rounded to two digits prints as 123456789012.35 -/
example : ∃ r, (Samples.a.roundTo m FixedDecimal.zero (2 : Nat) : Out Unit _) = .ok r ∧
    (FixedDecimal.toStr m r (-1) : Out Unit _) = .ok (Samples.bytes "123456789012.35") := by
  cases m <;> exact ⟨_, rfl, by decide +kernel⟩

end Props
end Fxd
