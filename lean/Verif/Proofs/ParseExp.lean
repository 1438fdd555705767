import Verif.Proofs.ParseScan
/-!
# The exponent
-/

namespace Fxd
open Spec

variable {σ : Type} {m : Mode}

/-- `Err(ConversionSyntax)` leaving `s`, or (debug builds only) an overflow panic. -/
def Rejected {α : Type} (m : Mode) (s : σ) (x : Out σ α) : Prop :=
  x = .err .conversionSyntax s ∨ (m = .debug ∧ x = .panic .overflow)

theorem sarith_total {b : Nat} {x : Int} :
    (∃ y, (sarith m b x : Out σ Int) = .ok y) ∨ (m = .debug ∧ (sarith m b x : Out σ Int) = .panic .overflow) := by
  unfold sarith; split_ifs
  · exact Or.inl ⟨_, rfl⟩
  · cases m
    · exact Or.inr ⟨rfl, rfl⟩
    · exact Or.inl ⟨_, rfl⟩

/-! ## The digit loop -/

theorem expLoop_total {s : σ} (cs : List Nat) (e : Int) :
    (∃ y, (expLoop m s cs e : Out σ Int) = .ok y) ∨ Rejected m s (expLoop m s cs e : Out σ Int) := by
  induction cs generalizing e with
  | nil => exact Or.inl ⟨_, rfl⟩
  | cons c cs ih =>
    rw [expLoop]
    split_ifs with h
    · exact Or.inr (Or.inl rfl)
    · unfold i32
      rcases sarith_total (σ := σ) (m := m) (b := 32) (x := e * 10) with ⟨y, hy⟩ | ⟨hm, hy⟩ <;> rw [hy]
      · rw [ok_bind]
        rcases sarith_total (σ := σ) (m := m) (b := 32) (x := y + c) with ⟨y', hy'⟩ | ⟨hm, hy'⟩ <;> rw [hy']
        · rw [ok_bind]
          rcases sarith_total (σ := σ) (m := m) (b := 32) (x := y' - 48) with ⟨y'', hy''⟩ | ⟨hm, hy''⟩ <;> rw [hy'']
          · rw [ok_bind]; exact ih _
          · exact Or.inr (Or.inr ⟨hm, rfl⟩)
        · exact Or.inr (Or.inr ⟨hm, rfl⟩)
      · exact Or.inr (Or.inr ⟨hm, rfl⟩)

theorem expLoop_digits {s : σ} {cs : List Nat} {e y : Int} (h : (expLoop m s cs e : Out σ Int) = .ok y) :
    ∀ c ∈ cs, 48 ≤ c ∧ c ≤ 57 := by
  induction cs generalizing e with
  | nil => simp
  | cons c cs ih =>
    rw [expLoop] at h
    split_ifs at h with h1
    obtain ⟨a, _, h⟩ := bind_eq_ok.mp h
    obtain ⟨b, _, h⟩ := bind_eq_ok.mp h
    obtain ⟨d, _, h⟩ := bind_eq_ok.mp h
    intro x hx
    rcases List.mem_cons.mp hx with rfl | hx
    · omega
    · exact ih h x hx

theorem expLoop_value {s : σ} {ds : List Nat} (hd : ∀ d ∈ ds, d < 10) {e : Nat}
    (hb : e * 10 ^ ds.length + digitsVal ds < 2147483600) :
    (expLoop m s (digitChars ds) (e : Int) : Out σ Int) = .ok ((e * 10 ^ ds.length + digitsVal ds : Nat) : Int) := by
  induction ds generalizing e with
  | nil => simp [expLoop, digitChars, digitsVal_nil]
  | cons d ds ih =>
    rw [List.length_cons, digitsVal_cons] at hb
    have hd0 := hd d (by simp)
    have key : e * 10 ^ (ds.length + 1) + (d * 10 ^ ds.length + digitsVal ds) = (10 * e + d) * 10 ^ ds.length + digitsVal ds := by
      ring
    rw [key] at hb
    have hpos : 1 ≤ 10 ^ ds.length := Nat.one_le_two_pow.trans (Nat.pow_le_pow_left (by norm_num) _)
    have hle : 10 * e + d ≤ (10 * e + d) * 10 ^ ds.length := Nat.le_mul_of_pos_right _ hpos
    rw [digitChars_cons, expLoop, if_neg (by omega), i32_ok (by omega) (by omega), ok_bind,
      i32_ok (by push_cast; omega) (by push_cast; omega), ok_bind, i32_ok (by push_cast; omega) (by push_cast; omega), ok_bind,
      show (e : Int) * 10 + ((d + 48 : Nat) : Int) - 48 = ((10 * e + d : Nat) : Int) by push_cast; ring,
      ih (fun x hx => hd x (by simp [hx])) hb, List.length_cons, digitsVal_cons, key]

/-! ## Stripping zeroes -/

theorem stripZeros_spec {ds : List Nat} (hne : ds ≠ []) :
    ∃ ds', ds' ≠ [] ∧ stripZeros (digitChars ds) = digitChars ds' ∧ digitsVal ds' = digitsVal ds ∧ (∀ d ∈ ds', d ∈ ds) ∧
      (2 ≤ ds'.length → 10 ^ (ds'.length - 1) ≤ digitsVal ds') := by
  induction ds with
  | nil => exact absurd rfl hne
  | cons d ds ih =>
    by_cases h : d = 0 ∧ ds ≠ []
    · obtain ⟨rfl, h⟩ := h
      obtain ⟨ds', h1, h2, h3, h4, h5⟩ := ih h
      obtain ⟨c, cs, rfl⟩ : ∃ c cs, ds = c :: cs := by
        rcases ds with _ | ⟨c, cs⟩
        · exact absurd rfl h
        · exact ⟨c, cs, rfl⟩
      refine ⟨ds', h1, ?_, ?_, fun x hx => by simp [h4 x hx], h5⟩
      · rw [← h2]; simp only [digitChars_cons, zero_add]; rw [stripZeros]
      · rw [h3, digitsVal_cons 0]; simp
    · refine ⟨d :: ds, by simp, ?_, rfl, fun x hx => hx, ?_⟩
      · rw [digitChars_cons]
        unfold stripZeros
        split
        · rename_i c cs heq
          exfalso; apply h
          injection heq with e1 e2
          refine ⟨by omega, ?_⟩
          rintro rfl
          simp [digitChars] at e2
        · rfl
      · intro hl
        rw [List.length_cons] at hl
        have : d ≠ 0 := by
          intro h0; apply h; refine ⟨h0, ?_⟩
          rintro rfl; simp at hl
        rw [digitsVal_cons, List.length_cons, Nat.add_sub_cancel]
        have : 10 ^ ds.length ≤ d * 10 ^ ds.length := Nat.le_mul_of_pos_left _ (by omega)
        omega

theorem stripZeros_digits {cs : List Nat} (h : ∀ c ∈ stripZeros cs, 48 ≤ c ∧ c ≤ 57) : ∀ c ∈ cs, 48 ≤ c ∧ c ≤ 57 := by
  fun_induction stripZeros cs with
  | case1 c cs ih =>
    intro x hx
    rcases List.mem_cons.mp hx with rfl | hx
    · omega
    · exact ih h x hx
  | case2 => exact h

theorem digitChars_of {cs : List Nat} (h : ∀ c ∈ cs, 48 ≤ c ∧ c ≤ 57) :
    ∃ ds, cs = digitChars ds ∧ ∀ d ∈ ds, d < 10 := by
  refine ⟨cs.map (· - 48), ?_, ?_⟩
  · unfold digitChars
    rw [List.map_map]
    symm
    rw [List.map_congr_left (g := id)]
    · simp
    · intro a ha; have := h a ha; simp only [Function.comp, id]; omega
  · intro d hd
    obtain ⟨c, hc, rfl⟩ := List.mem_map.mp hd
    have := h c hc; omega

/-! ## `parseExp` -/

/-- The part of `parseExp` after the sign. -/
def expTail {σ : Type} (m : Mode) (err : σ) (nege : Bool) (ds : List Nat) : Out σ Int :=
  if ds = [] then .err .conversionSyntax err
  else do
    let ds := stripZeros ds
    let exp ← expLoop m err ds 0
    if ds.length ≥ 4 then .err .conversionSyntax err
    else if (!nege && exp % 2 ^ 64 > MAX_DIGITS) || (nege && exp % 2 ^ 64 > MAX_FRAC) then
      .err .conversionSyntax err
    else if nege then i32 m (-exp)
    else .ok exp

theorem parseExp_cons {s : σ} {c : Nat} {cs : List Nat} (hc : c = 101 ∨ c = 69) :
    (parseExp m s (c :: cs) : Out σ Int) = match cs with
      | [] => .err .conversionSyntax s
      | x :: ds => expTail m s (x == 45) (if x = 45 ∨ x = 43 then ds else x :: ds) := by
  unfold parseExp expTail
  dsimp only
  rw [if_neg (by omega)]
  cases cs <;> rfl

theorem expTail_total {s : σ} {n : Bool} (cs : List Nat) :
    (∃ y, (expTail m s n cs : Out σ Int) = .ok y ∧ cs ≠ [] ∧ ∀ c ∈ cs, 48 ≤ c ∧ c ≤ 57) ∨
      Rejected m s (expTail m s n cs : Out σ Int) := by
  unfold expTail
  by_cases h0 : cs = []
  · rw [if_pos h0]; exact Or.inr (Or.inl rfl)
  · rw [if_neg h0]
    dsimp only
    rcases expLoop_total (m := m) (s := s) (stripZeros cs) 0 with ⟨y, hy⟩ | hr | ⟨hm, hr⟩
    · have hdig := stripZeros_digits (expLoop_digits hy)
      rw [hy, ok_bind]
      split_ifs
      · exact Or.inr (Or.inl rfl)
      · exact Or.inr (Or.inl rfl)
      · unfold i32
        rcases sarith_total (σ := σ) (m := m) (b := 32) (x := -y) with ⟨z, hz⟩ | ⟨hm, hz⟩ <;> rw [hz]
        · exact Or.inl ⟨z, rfl, h0, hdig⟩
        · exact Or.inr (Or.inr ⟨hm, rfl⟩)
      · exact Or.inl ⟨y, rfl, h0, hdig⟩
    · rw [hr]; exact Or.inr (Or.inl rfl)
    · rw [hr]; exact Or.inr (Or.inr ⟨hm, rfl⟩)

theorem expTail_value {s : σ} {n : Bool} {ds : List Nat} (hne : ds ≠ []) (hd : ∀ d ∈ ds, d < 10) :
    (digitsVal ds ≤ (if n then 30 else 65) →
      (expTail m s n (digitChars ds) : Out σ Int) = .ok (if n then -(digitsVal ds : Int) else digitsVal ds)) ∧
    (¬ digitsVal ds ≤ (if n then 30 else 65) → Rejected m s (expTail m s n (digitChars ds) : Out σ Int)) := by
  obtain ⟨ds', h1, h2, h3, h4, h5⟩ := stripZeros_spec hne
  have hd' : ∀ d ∈ ds', d < 10 := fun d h => hd d (h4 d h)
  have hcne : digitChars ds ≠ [] := by
    intro h; apply hne; exact List.map_eq_nil_iff.mp h
  have big : 4 ≤ ds'.length → 1000 ≤ digitsVal ds := by
    intro h
    have a := h5 (by omega)
    have b : (10 : Nat) ^ 3 ≤ 10 ^ (ds'.length - 1) := Nat.pow_le_pow_right (by norm_num) (by omega)
    omega
  have small : ds'.length < 4 → (expLoop m s (digitChars ds') 0 : Out σ Int) = .ok (digitsVal ds : Int) ∧ digitsVal ds < 1000 := by
    intro h
    have a := digitsVal_lt hd'
    have b : (10 : Nat) ^ ds'.length ≤ 10 ^ 3 := Nat.pow_le_pow_right (by norm_num) (by omega)
    have := expLoop_value (m := m) (s := s) hd' (e := 0) (by omega)
    rw [zero_mul, zero_add, h3] at this
    exact ⟨this, by omega⟩
  constructor
  · intro hle
    have hl : ds'.length < 4 := by
      by_contra hc
      have := big (by omega)
      split_ifs at hle <;> omega
    obtain ⟨e, hb⟩ := small hl
    unfold expTail
    rw [if_neg hcne]; dsimp only
    rw [h2, e, ok_bind, digitChars_length, if_neg (by omega)]
    have hm : (digitsVal ds : Int) % 2 ^ 64 = digitsVal ds := Int.emod_eq_of_lt (by omega) (by norm_num; omega)
    rw [hm]
    cases n
    · simp only [Bool.false_eq_true, if_false] at hle ⊢
      rw [if_neg]
      simp [MAX_DIGITS]; omega
    · simp only [if_true] at hle ⊢
      rw [if_neg (by simp [MAX_FRAC]; omega)]
      exact i32_ok (by omega) (by omega)
  · intro hgt
    unfold expTail
    rw [if_neg hcne]; dsimp only
    rw [h2]
    by_cases hl : ds'.length < 4
    · obtain ⟨e, hb⟩ := small hl
      rw [e, ok_bind, digitChars_length, if_neg (by omega)]
      have hm : (digitsVal ds : Int) % 2 ^ 64 = digitsVal ds := Int.emod_eq_of_lt (by omega) (by norm_num; omega)
      rw [hm]
      cases n
      · simp only [Bool.false_eq_true, if_false] at hgt ⊢
        rw [if_pos]
        · exact Or.inl rfl
        · simp [MAX_DIGITS]; omega
      · simp only [if_true] at hgt ⊢
        rw [if_pos]
        · exact Or.inl rfl
        · simp [MAX_FRAC]; omega
    · rcases expLoop_total (m := m) (s := s) (digitChars ds') 0 with ⟨y, hy⟩ | hr | ⟨hm, hr⟩
      · rw [hy, ok_bind, digitChars_length, if_pos (by omega)]; exact Or.inl rfl
      · rw [hr]; exact Or.inl rfl
      · rw [hr]; exact Or.inr ⟨hm, rfl⟩

/-- A well-formed exponent. -/
theorem parseExp_render {s : σ} {x : Exponent} (hne : x.ds ≠ []) (hd : ∀ d ∈ x.ds, d < 10) :
    (-30 ≤ x.value ∧ x.value ≤ 65 → (parseExp m s x.render : Out σ Int) = .ok x.value) ∧
    (¬ (-30 ≤ x.value ∧ x.value ≤ 65) → Rejected m s (parseExp m s x.render : Out σ Int)) := by
  have e : (parseExp m s x.render : Out σ Int) = expTail m s (x.sign == .minus) (digitChars x.ds) := by
    unfold Exponent.render
    rw [parseExp_cons (by cases x.upper <;> simp)]
    obtain ⟨d, ds, hx⟩ : ∃ d ds, x.ds = d :: ds := by
      rcases h : x.ds with _ | ⟨d, ds⟩
      · exact absurd h hne
      · exact ⟨d, ds, rfl⟩
    cases hsg : x.sign
    · simp only [Sign.render, List.nil_append, hx, digitChars_cons]
      have h1 : ((d + 48 == 45) = false) := by simp
      rw [h1, if_neg (by omega)]; rfl
    · simp [Sign.render]; try rfl
    · simp [Sign.render]; try rfl
  obtain ⟨h1, h2⟩ := expTail_value (m := m) (s := s) (n := x.sign == .minus) hne hd
  rw [e]
  unfold Exponent.value
  by_cases hm : x.sign = .minus
  · rw [hm] at h1 h2 ⊢
    simp only [if_true] at *
    have hb : (Sign.minus == Sign.minus) = true := rfl
    rw [hb] at h1 h2 ⊢
    simp only [if_true] at *
    exact ⟨fun h => h1 (by omega), fun h => h2 (by omega)⟩
  · have hb : (x.sign == .minus) = false := by cases hs : x.sign <;> simp_all <;> rfl
    rw [hb] at h1 h2 ⊢
    rw [if_neg hm]
    simp only [Bool.false_eq_true, if_false] at *
    exact ⟨fun h => h1 (by omega), fun h => h2 (by omega)⟩

/-- Anything else is rejected. -/
theorem parseExp_total {s : σ} (rest : List Nat) :
    rest = [] ∨ (∃ x : Exponent, rest = x.render ∧ x.ds ≠ [] ∧ ∀ d ∈ x.ds, d < 10) ∨
      Rejected m s (parseExp m s rest : Out σ Int) := by
  rcases rest with _ | ⟨c, cs⟩
  · exact Or.inl rfl
  right
  by_cases hc : c = 101 ∨ c = 69
  · rw [parseExp_cons hc]
    rcases cs with _ | ⟨x, ds⟩
    · exact Or.inr (Or.inl rfl)
    · dsimp only
      rcases expTail_total (m := m) (s := s) (n := x == 45) (if x = 45 ∨ x = 43 then ds else x :: ds) with ⟨y, hy, h0, hd⟩ | h
      · left
        obtain ⟨ds', e, hlt⟩ := digitChars_of hd
        have hne : ds' ≠ [] := by rintro rfl; exact h0 e
        have hu : c = if c = 69 then 69 else 101 := by
          rcases hc with rfl | rfl <;> rfl
        by_cases h45 : x = 45
        · subst h45
          rw [if_pos (Or.inl rfl)] at e
          exact ⟨⟨c == 69, .minus, ds'⟩, by simp [Exponent.render, Sign.render, e]; exact hu, hne, hlt⟩
        · by_cases h43 : x = 43
          · subst h43
            rw [if_pos (Or.inr rfl)] at e
            exact ⟨⟨c == 69, .plus, ds'⟩, by simp [Exponent.render, Sign.render, e]; exact hu, hne, hlt⟩
          · rw [if_neg (by omega)] at e
            exact ⟨⟨c == 69, .none, ds'⟩, by simp [Exponent.render, Sign.render, e]; exact hu, hne, hlt⟩
      · exact Or.inr h
  · right; left
    unfold parseExp; dsimp only; rw [if_pos (by omega)]

end Fxd
