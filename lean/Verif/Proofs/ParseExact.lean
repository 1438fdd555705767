import Verif.Proofs.ParseMisc
import Verif.Spec.ReferenceParse
/-!
# The parser on every byte string: cutting the text, the exponent
-/

namespace Fxd
open Spec

variable {σ : Type} {m : Mode}

theorem sarith_release (b : Nat) (x : Int) : ∃ y, (sarith .release b x : Out σ Int) = .ok y := by
  unfold sarith; split_ifs <;> exact ⟨_, rfl⟩
theorem i32_release (x : Int) : ∃ y, (i32 .release x : Out σ Int) = .ok y := sarith_release 32 x

/-! ## Cutting -/

theorem isDig_iff {c : Nat} : isDig c = true ↔ 48 ≤ c ∧ c ≤ 57 := by simp [isDig]

theorem takeWhile_digits {ds : List Nat} (hd : ∀ d ∈ ds, d < 10) {rest : List Nat}
    (hr : ∀ c cs, rest = c :: cs → ¬ (c ≥ 48 ∧ c ≤ 57)) :
    (digitChars ds ++ rest).takeWhile isDig = digitChars ds ∧ (digitChars ds ++ rest).dropWhile isDig = rest := by
  induction ds with
  | nil =>
    rcases rest with _ | ⟨c, cs⟩
    · simp [digitChars]
    · have h : isDig c = false := by
        have := hr c cs rfl
        simp only [isDig, decide_eq_false_iff_not]; omega
      simp [digitChars, h]
  | cons d ds ih =>
    have h0 := hd d (by simp)
    obtain ⟨h1, h2⟩ := ih (fun x hx => hd x (by simp [hx]))
    have h : isDig (d + 48) = true := isDig_iff.mpr (by omega)
    rw [digitChars_cons, List.cons_append, List.takeWhile_cons_of_pos h, List.dropWhile_cons_of_pos h, h1, h2]
    exact ⟨rfl, rfl⟩

theorem leadDigits_eq {ds : List Nat} (hd : ∀ d ∈ ds, d < 10) {rest : List Nat}
    (hr : ∀ c cs, rest = c :: cs → ¬ (c ≥ 48 ∧ c ≤ 57)) : leadDigits (digitChars ds ++ rest) = ds := by
  unfold leadDigits
  rw [(takeWhile_digits hd hr).1]
  unfold digitChars
  rw [List.map_map]
  exact (List.map_congr_left (fun x _ => by simp)).trans (List.map_id _)

theorem cutSign_none {bs : List Nat} (h : ∀ c cs, bs = c :: cs → c ≠ 45 ∧ c ≠ 43) : cutSign bs = (false, bs) := by
  unfold cutSign
  split
  · exact absurd rfl (h _ _ rfl).1
  · exact absurd rfl (h _ _ rfl).2
  · rfl

theorem shapeOf_split {sg : Sign} {ip : List Nat} {fp : Option (List Nat)} {rest : List Nat}
    (hip : ∀ d ∈ ip, d < 10) (hfp : ∀ d ∈ fp.getD [], d < 10) (hs : Stop sg ip fp rest) :
    shapeOf (sg.render ++ digitChars ip ++ dotPart fp ++ rest) = ⟨sg == .minus, ip, fp.getD [], rest⟩ := by
  have hcut : cutSign (sg.render ++ (digitChars ip ++ (dotPart fp ++ rest))) =
      (sg == .minus, digitChars ip ++ (dotPart fp ++ rest)) := by
    cases sg with
    | plus => rfl
    | minus => rfl
    | none =>
      rw [show Sign.none.render = [] from rfl, List.nil_append, cutSign_none]
      · rfl
      · intro c cs h
        rcases ip with _ | ⟨d, ds⟩
        · cases fp with
          | none =>
            obtain ⟨-, -, h3⟩ := hs c cs (by simpa [dotPart, digitChars] using h)
            exact h3 rfl rfl rfl
          | some ds =>
            simp only [digitChars, List.map_nil, List.nil_append, dotPart, List.cons_append, List.cons.injEq] at h
            omega
        · have := hip d (by simp)
          rw [digitChars_cons, List.cons_append, List.cons.injEq] at h
          omega
  unfold shapeOf
  rw [List.append_assoc, List.append_assoc, hcut]
  dsimp only
  cases fp with
  | none =>
    rw [show dotPart none = [] from rfl, List.nil_append]
    have hr : ∀ c cs, rest = c :: cs → ¬ (c ≥ 48 ∧ c ≤ 57) := fun c cs h => (hs c cs h).1
    rw [(takeWhile_digits hip hr).2, leadDigits_eq hip hr]
    split
    · exact absurd rfl ((hs _ _ rfl).2.1 rfl)
    · rfl
  | some ds =>
    rw [Option.getD_some] at hfp
    rw [show dotPart (some ds) = 46 :: digitChars ds from rfl, List.cons_append]
    have hr : ∀ c cs, 46 :: (digitChars ds ++ rest) = c :: cs → ¬ (c ≥ 48 ∧ c ≤ 57) := by
      intro c cs h; rw [List.cons.injEq] at h; omega
    have hr' : ∀ c cs, rest = c :: cs → ¬ (c ≥ 48 ∧ c ≤ 57) := fun c cs h => (hs c cs h).1
    rw [(takeWhile_digits hip hr).2, leadDigits_eq hip hr]
    show (Shape.mk _ _ _ _) = _
    rw [(takeWhile_digits hfp hr').2, leadDigits_eq hfp hr']
    rfl

/-! ## The exponent -/

/-- The exponent loop on digits followed by anything: overflow in debug builds. -/
theorem expLoop_over {s : σ} {ds rest : List Nat} (hd : ∀ d ∈ ds, d < 10) {e : Nat} (he : e * 10 ^ ds.length + digitsVal ds + 48 ≥ 2 ^ 31)
    (h0 : e + 48 < 2 ^ 31) :
    (expLoop .debug s (digitChars ds ++ rest) (e : Int) : Out σ Int) = .panic .overflow := by
  induction ds generalizing e with
  | nil => simp [digitsVal_nil] at he; omega
  | cons d ds ih =>
    have hd0 := hd d (by simp)
    rw [digitChars_cons, List.cons_append, expLoop, if_neg (by omega)]
    by_cases h1 : e * 10 + d + 48 < 2 ^ 31
    · rw [i32_ok (by omega) (by omega), ok_bind, i32_ok (by push_cast; omega) (by push_cast; omega), ok_bind,
        i32_ok (by push_cast; omega) (by push_cast; omega), ok_bind]
      have := ih (fun x hx => hd x (by simp [hx])) (e := e * 10 + d) (by
        rw [digitsVal_cons, List.length_cons, pow_succ] at he
        have : (e * 10 + d) * 10 ^ ds.length + digitsVal ds = e * (10 ^ ds.length * 10) + (d * 10 ^ ds.length + digitsVal ds) := by ring
        omega) h1
      rw [← this]
      congr 1
      push_cast; ring
    · by_cases h2 : e * 10 < 2 ^ 31
      · rw [i32_ok (by omega) (by omega), ok_bind]
        have : (i32 .debug ((e : Int) * 10 + ((d + 48 : Nat) : Int)) : Out σ Int) = .panic .overflow := by
          unfold i32 sarith; rw [if_neg (by push_cast; norm_num at *; omega)]
        rw [this]; rfl
      · have : (i32 .debug ((e : Int) * 10) : Out σ Int) = .panic .overflow := by
          unfold i32 sarith; rw [if_neg (by norm_num at *; omega)]
        rw [this]; rfl

/-- On digits followed by something else: an error, unless the digits overflow. -/
theorem expLoop_garbage {s : σ} {ds : List Nat} {c : Nat} {cs : List Nat} (hd : ∀ d ∈ ds, d < 10) (hc : ¬ (c ≥ 48 ∧ c ≤ 57))
    {e : Int} (h : m = .debug → ∃ n : Nat, e = n ∧ n * 10 ^ ds.length + digitsVal ds + 48 < 2 ^ 31) :
    (expLoop m s (digitChars ds ++ c :: cs) e : Out σ Int) = .err .conversionSyntax s := by
  induction ds generalizing e with
  | nil => rw [digitChars_nil, List.nil_append, expLoop, if_pos (by omega)]
  | cons d ds ih =>
    have hd0 := hd d (by simp)
    rw [digitChars_cons, List.cons_append, expLoop, if_neg (by omega)]
    cases m with
    | debug =>
      obtain ⟨n, rfl, hn⟩ := h rfl
      rw [digitsVal_cons, List.length_cons, pow_succ] at hn
      have h1 : n * 10 ≤ n * (10 ^ ds.length * 10) := Nat.mul_le_mul_left _ (by have := Nat.one_le_pow ds.length 10 (by norm_num); omega)
      have h2 : d ≤ d * 10 ^ ds.length := Nat.le_mul_of_pos_right _ (by positivity)
      rw [i32_ok (by omega) (by omega), ok_bind, i32_ok (by push_cast; omega) (by push_cast; omega), ok_bind,
        i32_ok (by push_cast; omega) (by push_cast; omega), ok_bind]
      refine ih (fun x hx => hd x (by simp [hx])) (fun _ => ⟨n * 10 + d, by push_cast; ring, ?_⟩)
      have : (n * 10 + d) * 10 ^ ds.length + digitsVal ds = n * (10 ^ ds.length * 10) + (d * 10 ^ ds.length + digitsVal ds) := by ring
      omega
    | release =>
      obtain ⟨a, ea⟩ := i32_release (σ := σ) (e * 10)
      obtain ⟨b, eb⟩ := i32_release (σ := σ) (a + ((d + 48 : Nat) : Int))
      obtain ⟨f, ef⟩ := i32_release (σ := σ) (b - 48)
      rw [ea, ok_bind, eb, ok_bind, ef, ok_bind]
      exact ih (fun x hx => hd x (by simp [hx])) (fun h => by cases h)

/-- Stripping zeroes in front of garbage. -/
theorem stripZeros_garbage {ds : List Nat} {c : Nat} (cs : List Nat) (hc : ¬ (c ≥ 48 ∧ c ≤ 57)) :
    ∃ ds', stripZeros (digitChars ds ++ c :: cs) = digitChars ds' ++ c :: cs ∧ digitsVal ds' = digitsVal ds ∧
      ∀ d ∈ ds', d ∈ ds := by
  induction ds with
  | nil =>
    refine ⟨[], ?_, rfl, by simp⟩
    rw [digitChars_nil, List.nil_append]
    unfold stripZeros
    split
    · rename_i h; rw [List.cons.injEq] at h; omega
    · rfl
  | cons d ds ih =>
    by_cases h0 : d = 0
    · subst h0
      obtain ⟨ds', h1, h2, h3⟩ := ih
      refine ⟨ds', ?_, by rw [h2, digitsVal_cons, zero_mul, zero_add], fun x hx => List.mem_cons_of_mem _ (h3 x hx)⟩
      rw [digitChars_cons, List.cons_append, ← h1]
      rcases hh : digitChars ds ++ c :: cs with _ | ⟨y, ys⟩
      · simp at hh
      · rw [show 0 + 48 = 48 from rfl, stripZeros]
    · refine ⟨d :: ds, ?_, rfl, fun x hx => hx⟩
      rw [digitChars_cons, List.cons_append]
      unfold stripZeros
      split
      · rename_i h; rw [List.cons.injEq] at h; omega
      · rfl

theorem seen_bind {α β : Type} {x : Out σ α} {f : α → Out σ β} :
    seen (x >>= f) = match x with
      | .ok a => seen (f a)
      | .err e _ => some (.error e)
      | .panic _ => none := by
  cases x <;> rfl

/-- The exponent after its sign. -/
theorem expTail_exact {s : σ} {n : Bool} (cs : List Nat) :
    seen (expTail m s n cs : Out σ Int) =
      if m = .debug ∧ 2 ^ 31 ≤ digitsVal (leadDigits cs) + 48 then none
      else if cs = [] ∨ cs.dropWhile isDig ≠ [] ∨ (if n then 30 else 65) < digitsVal (leadDigits cs) then
        some (.error .conversionSyntax)
      else some (.ok (if n then -(digitsVal (leadDigits cs) : Int) else digitsVal (leadDigits cs))) := by
  obtain ⟨ds, rest, rfl, hd, hr⟩ := digits_split cs
  rw [leadDigits_eq hd hr, (takeWhile_digits hd hr).2]
  by_cases hnil : digitChars ds ++ rest = []
  · rw [hnil]
    have : ds = [] := by
      rcases ds with _ | _
      · rfl
      · simp [digitChars] at hnil
    subst this
    rw [if_neg (by rintro ⟨-, h⟩; simp [digitsVal_nil] at h), if_pos (Or.inl rfl)]
    rfl
  rcases rest with _ | ⟨c, cs⟩
  · rw [List.append_nil] at hnil ⊢
    have hne : ds ≠ [] := by rintro rfl; exact hnil rfl
    obtain ⟨k1, k2⟩ := expTail_value (m := m) (s := s) (n := n) hne hd
    by_cases hov : m = .debug ∧ 2 ^ 31 ≤ digitsVal ds + 48
    · rw [if_pos hov]
      obtain ⟨rfl, hov⟩ := hov
      obtain ⟨ds', h1, h2, h3, h4, -⟩ := stripZeros_spec hne
      unfold expTail
      rw [if_neg hnil]
      dsimp only
      have := expLoop_over (σ := σ) (s := s) (ds := ds') (rest := []) (e := 0) (fun d h => hd d (h4 d h))
        (by rw [h3]; omega) (by norm_num)
      rw [List.append_nil] at this
      rw [h2, show (0 : Int) = ((0 : Nat) : Int) from rfl, this]; rfl
    · rw [if_neg hov]
      by_cases hle : digitsVal ds ≤ (if n then 30 else 65)
      · have hno : ¬ (digitChars ds = [] ∨ ([] : List Nat) ≠ [] ∨ (if n = true then 30 else 65) < digitsVal ds) := by
          rintro (h | h | h)
          · exact hnil h
          · exact h rfl
          · exact absurd h (not_lt.mpr hle)
        rw [k1 hle]
        exact (if_neg hno).symm
      · rw [if_pos (Or.inr (Or.inr (by omega)))]
        rcases k2 hle with h | ⟨hm, h⟩
        · rw [h]; rfl
        · -- a debug panic: not below the limit of 32 bits
          exfalso
          subst hm
          have hlt : digitsVal ds + 48 < 2 ^ 31 := by
            by_contra hc; exact hov ⟨rfl, by omega⟩
          obtain ⟨ds', h1, h2, h3, h4, -⟩ := stripZeros_spec hne
          unfold expTail at h
          rw [if_neg hnil] at h
          dsimp only at h
          have := expLoop_value (m := .debug) (s := s) (ds := ds') (e := 0) (fun d h => hd d (h4 d h))
            (by rw [h3]; norm_num at hlt ⊢; omega)
          rw [h2, show (0 : Int) = ((0 : Nat) : Int) from rfl, this, ok_bind] at h
          split_ifs at h
          · unfold i32 sarith at h
            rw [if_pos (by rw [h3]; push_cast; norm_num at hlt ⊢; omega)] at h
            cases h
  · have hc := hr c cs rfl
    obtain ⟨ds', h1, h2, h3⟩ := stripZeros_garbage (ds := ds) cs hc
    unfold expTail
    rw [if_neg hnil]
    dsimp only
    rw [h1]
    by_cases hov : m = .debug ∧ 2 ^ 31 ≤ digitsVal ds + 48
    · rw [if_pos hov]
      obtain ⟨rfl, hov⟩ := hov
      rw [show (0 : Int) = ((0 : Nat) : Int) from rfl, expLoop_over (fun d h => hd d (h3 d h)) (by rw [h2]; omega) (by norm_num)]
      rfl
    · have hg := expLoop_garbage (m := m) (s := s) (cs := cs) (e := 0) (fun d h => hd d (h3 d h)) hc (fun hm => ⟨0, rfl, by
        rw [h2, zero_mul, zero_add]
        by_contra hcc; exact hov ⟨hm, by omega⟩⟩)
      rw [if_neg hov, if_pos (Or.inr (Or.inl (by simp))), hg]
      rfl

/-- **The exponent part is the reference.** -/
theorem parseExp_exact {s : σ} (rest : List Nat) : seen (parseExp m s rest : Out σ Int) = refExp m rest := by
  unfold refExp
  rcases rest with _ | ⟨c, cs⟩
  · rfl
  dsimp only
  by_cases hc : c ≠ 101 ∧ c ≠ 69
  · rw [if_pos hc]; unfold parseExp; dsimp only; rw [if_pos hc]; rfl
  rw [if_neg hc, parseExp_cons (by omega)]
  rcases cs with _ | ⟨x, ds⟩
  · rw [show cutSign [] = (false, []) from rfl]
    dsimp only
    rw [if_neg (by rintro ⟨-, h⟩; simp [leadDigits, digitsVal_nil] at h), if_pos (Or.inl rfl)]
    rfl
  · dsimp only
    rw [expTail_exact]
    have : cutSign (x :: ds) = (x == 45, if x = 45 ∨ x = 43 then ds else x :: ds) := by
      by_cases h1 : x = 45
      · subst h1; rfl
      by_cases h2 : x = 43
      · subst h2; rfl
      rw [if_neg (by omega), cutSign_none (fun c cs h => by rw [List.cons.injEq] at h; omega)]
      simp [h1]
    rw [this]

end Fxd
