import Verif.Model.DebugText
import Verif.Props.Cmp
import Mathlib.Data.Nat.Digits.Lemmas
/-!
# Property C109: the `{:?}` text shows every field
-/

namespace Fxd.Props
open Fxd Spec

/-- A character of a number. -/
def NumChar (c : Char) : Prop := c = '-' ∨ c ∈ ['0','1','2','3','4','5','6','7','8','9']

theorem digitChar_digit {n : Nat} (h : n < 10) : NumChar (Nat.digitChar n) := by
  interval_cases n <;> exact .inr (by decide)

theorem digitChar_inj {i j : Nat} (hi : i < 10) (hj : j < 10) (h : Nat.digitChar i = Nat.digitChar j) : i = j := by
  interval_cases i <;> interval_cases j <;> first | rfl | exact absurd h (by decide)

theorem intText_chars (i : Int) : ∀ c ∈ intText i, NumChar c := by
  intro c hc
  unfold intText at hc
  rcases List.mem_append.mp hc with h | h
  · split at h
    · exact .inl (by simpa using h)
    · cases h
  · split at h
    · exact .inr (by rw [List.mem_singleton.mp h]; decide)
    · obtain ⟨d, hd, rfl⟩ := List.mem_map.mp h
      exact digitChar_digit (Nat.digits_lt_base (by norm_num) (List.mem_reverse.mp hd))

theorem map_digitChar_inj : ∀ {xs ys : List Nat}, (∀ x ∈ xs, x < 10) → (∀ y ∈ ys, y < 10) →
    xs.map Nat.digitChar = ys.map Nat.digitChar → xs = ys
  | [], [], _, _, _ => rfl
  | [], _ :: _, _, _, h => by simp at h
  | _ :: _, [], _, _, h => by simp at h
  | x :: xs, y :: ys, hx, hy, h => by
    simp only [List.map_cons, List.cons.injEq] at h
    rw [digitChar_inj (hx x (by simp)) (hy y (by simp)) h.1,
      map_digitChar_inj (fun z hz => hx z (by simp [hz])) (fun z hz => hy z (by simp [hz])) h.2]

theorem intText_natAbs (i : Int) : intText i = (if i < 0 then ['-'] else []) ++ intText (i.natAbs : Int) := by
  unfold intText
  have h : ¬ ((i.natAbs : Int) < 0) := by omega
  rw [if_neg h]
  simp [Int.natAbs_abs]

theorem intText_nat_inj {a b : Nat} (h : intText (a : Int) = intText (b : Int)) : a = b := by
  unfold intText at h
  have ha : ¬ ((a : Int) < 0) := by omega
  have hb : ¬ ((b : Int) < 0) := by omega
  rw [if_neg ha, if_neg hb] at h
  simp only [List.nil_append, Int.natAbs_natCast, Nat.cast_eq_zero] at h
  have hz : ∀ n : Nat, n ≠ 0 → (Nat.digits 10 n).reverse.map Nat.digitChar ≠ ['0'] := by
    intro n hn e
    have e2 : (Nat.digits 10 n).reverse = [0] := by
      refine map_digitChar_inj (fun x hx => Nat.digits_lt_base (by norm_num) (List.mem_reverse.mp hx)) (by simp) ?_
      exact e
    have e3 : Nat.digits 10 n = [0] := by
      have := congrArg List.reverse e2
      simpa using this
    have := Nat.getLast_digit_ne_zero 10 hn
    simp [e3] at this
  by_cases h1 : a = 0
  · by_cases h2 : b = 0
    · omega
    · rw [if_pos h1, if_neg h2] at h
      exact absurd h.symm (hz b h2)
  · by_cases h2 : b = 0
    · rw [if_neg h1, if_pos h2] at h
      exact absurd h (hz a h1)
    · rw [if_neg h1, if_neg h2] at h
      have e := map_digitChar_inj (fun x hx => Nat.digits_lt_base (by norm_num) (List.mem_reverse.mp hx))
        (fun x hx => Nat.digits_lt_base (by norm_num) (List.mem_reverse.mp hx)) h
      exact Nat.digits_inj_iff.mp (List.reverse_injective e)

theorem intText_nat_noMinus (n : Nat) : '-' ∉ intText (n : Int) := by
  unfold intText
  have h : ¬ ((n : Int) < 0) := by omega
  rw [if_neg h]
  split
  · decide
  · intro hc
    simp only [List.nil_append, Int.natAbs_natCast] at hc
    obtain ⟨d, hd, e⟩ := List.mem_map.mp hc
    have : d < 10 := Nat.digits_lt_base (by norm_num) (List.mem_reverse.mp hd)
    interval_cases d <;> exact absurd e (by decide)

/-- The text of an integer determines the integer. -/
theorem intText_inj {i j : Int} (h : intText i = intText j) : i = j := by
  rw [intText_natAbs i, intText_natAbs j] at h
  by_cases hi : i < 0
  · by_cases hj : j < 0
    · rw [if_pos hi, if_pos hj] at h
      have := intText_nat_inj (List.append_cancel_left h)
      omega
    · rw [if_pos hi, if_neg hj] at h
      exact absurd (by rw [List.nil_append] at h; rw [← h]; simp) (intText_nat_noMinus j.natAbs)
  · by_cases hj : j < 0
    · rw [if_neg hi, if_pos hj] at h
      exact absurd (by rw [List.nil_append] at h; rw [h]; simp) (intText_nat_noMinus i.natAbs)
    · rw [if_neg hi, if_neg hj] at h
      have := intText_nat_inj (List.append_cancel_left h)
      omega

/-- Text up to the first character that is not of a number is determined. -/
theorem split_num : ∀ {xs ys us vs : List Char} {c d : Char}, (∀ x ∈ xs, NumChar x) → (∀ y ∈ ys, NumChar y) →
    ¬ NumChar c → ¬ NumChar d → xs ++ c :: us = ys ++ d :: vs → xs = ys ∧ c :: us = d :: vs
  | [], [], _, _, _, _, _, _, _, _, h => ⟨rfl, h⟩
  | [], y :: ys, us, vs, c, d, _, hy, hc, _, h => by
    simp only [List.nil_append, List.cons_append, List.cons.injEq] at h
    exact absurd (hy y (by simp)) (h.1 ▸ hc)
  | x :: xs, [], us, vs, c, d, hx, _, _, hd, h => by
    simp only [List.nil_append, List.cons_append, List.cons.injEq] at h
    exact absurd (hx x (by simp)) (h.1 ▸ hd)
  | x :: xs, y :: ys, us, vs, c, d, hx, hy, hc, hd, h => by
    simp only [List.cons_append, List.cons.injEq] at h
    obtain ⟨e1, e2⟩ := split_num (fun z hz => hx z (by simp [hz])) (fun z hz => hy z (by simp [hz])) hc hd h.2
    exact ⟨by rw [h.1, e1], e2⟩

theorem not_num_comma : ¬ NumChar ',' := by unfold NumChar; decide
theorem not_num_bracket : ¬ NumChar ']' := by unfold NumChar; decide

theorem intText_ne_nil (i : Int) : intText i ≠ [] := by
  intro h
  rw [intText_natAbs] at h
  have h2 := (List.append_eq_nil_iff.mp h).2
  unfold intText at h2
  have h3 := (List.append_eq_nil_iff.mp h2).2
  split at h3
  · cases h3
  · rename_i hz
    rw [List.map_eq_nil_iff, List.reverse_eq_nil_iff, Nat.digits_eq_nil_iff_eq_zero] at h3
    omega

theorem items_inj : ∀ {xs ys : List Int} {us vs : List Char},
    itemsText xs ++ ']' :: us = itemsText ys ++ ']' :: vs → xs = ys
  | [], [], _, _, _ => rfl
  | [], [j], us, vs, h => by
    have h' : [] ++ ']' :: us = intText j ++ ']' :: vs := h
    exact absurd (split_num (by simp) (intText_chars j) not_num_bracket not_num_bracket h').1.symm (intText_ne_nil j)
  | [], j :: k :: ks, us, vs, h => by
    have h' : [] ++ ']' :: us = intText j ++ ',' :: (' ' :: (itemsText (k :: ks) ++ ']' :: vs)) := by
      rw [← show itemsText [] ++ ']' :: us = [] ++ ']' :: us from rfl, h]; simp [itemsText]
    exact absurd (split_num (by simp) (intText_chars j) not_num_bracket not_num_comma h').1.symm (intText_ne_nil j)
  | [i], [], us, vs, h => by
    have h' : intText i ++ ']' :: us = [] ++ ']' :: vs := h
    exact absurd (split_num (intText_chars i) (by simp) not_num_bracket not_num_bracket h').1 (intText_ne_nil i)
  | i :: k :: ks, [], us, vs, h => by
    have h' : intText i ++ ',' :: (' ' :: (itemsText (k :: ks) ++ ']' :: us)) = [] ++ ']' :: vs := by
      rw [← show itemsText [] ++ ']' :: vs = [] ++ ']' :: vs from rfl, ← h]; simp [itemsText]
    exact absurd (split_num (intText_chars i) (by simp) not_num_comma not_num_bracket h').1 (intText_ne_nil i)
  | [i], [j], us, vs, h => by
    have h' : intText i ++ ']' :: us = intText j ++ ']' :: vs := h
    rw [intText_inj (split_num (intText_chars i) (intText_chars j) not_num_bracket not_num_bracket h').1]
  | [i], j :: k :: ks, us, vs, h => by
    have h' : intText i ++ ']' :: us = intText j ++ ',' :: (' ' :: (itemsText (k :: ks) ++ ']' :: vs)) := by
      rw [← show itemsText [i] ++ ']' :: us = intText i ++ ']' :: us from rfl, h]; simp [itemsText]
    have := (split_num (intText_chars i) (intText_chars j) not_num_bracket not_num_comma h').2
    simp at this
  | i :: l :: ls, [j], us, vs, h => by
    have h' : intText i ++ ',' :: (' ' :: (itemsText (l :: ls) ++ ']' :: us)) = intText j ++ ']' :: vs := by
      rw [← show itemsText [j] ++ ']' :: vs = intText j ++ ']' :: vs from rfl, ← h]; simp [itemsText]
    have := (split_num (intText_chars i) (intText_chars j) not_num_comma not_num_bracket h').2
    simp at this
  | i :: l :: ls, j :: k :: ks, us, vs, h => by
    have h' : intText i ++ ',' :: (' ' :: (itemsText (l :: ls) ++ ']' :: us)) =
        intText j ++ ',' :: (' ' :: (itemsText (k :: ks) ++ ']' :: vs)) := by
      simpa [itemsText] using h
    obtain ⟨e1, e2⟩ := split_num (intText_chars i) (intText_chars j) not_num_comma not_num_comma h'
    simp only [List.cons.injEq, true_and] at e2
    rw [intText_inj e1, items_inj e2]

/-- **C109** Two decimals have the same `{:?}` text exactly if they agree in every field: nothing is left out and no two
field values look alike. -/
theorem C109_debug_iff (a b : FixedDecimal) : a.debugText = b.debugText ↔ a = b := by
  refine ⟨fun h => ?_, fun h => by rw [h]⟩
  unfold FixedDecimal.debugText at h
  simp only [List.append_assoc] at h
  have h1 := List.append_cancel_left h
  obtain ⟨e1, e2⟩ := split_num (c := ',') (d := ',') (intText_chars _) (intText_chars _) not_num_comma not_num_comma h1
  have h2 := List.append_cancel_left (as := ", frac: ".toList) e2
  obtain ⟨e3, e4⟩ := split_num (c := ',') (d := ',') (intText_chars _) (intText_chars _) not_num_comma not_num_comma h2
  have h3 := List.append_cancel_left (as := ", lsu: [".toList) e4
  have e5 := items_inj (us := " }".toList) (vs := " }".toList) h3
  cases a; cases b
  simp only [FixedDecimal.mk.injEq]
  exact ⟨BitVec.eq_of_toInt_eq (intText_inj e1), intText_inj e3, e5⟩

theorem lines_inj : ∀ {xs ys : List Int}, linesText xs ++ "    ],\n}".toList = linesText ys ++ "    ],\n}".toList → xs = ys
  | [], [], _ => rfl
  | [], j :: js, h => by
    have h' := List.append_cancel_left (as := "    ".toList) (bs := "],\n}".toList)
      (cs := "    ".toList ++ (intText j ++ (",\n".toList ++ linesText js)) ++ "    ],\n}".toList) h
    simp at h'
  | i :: is, [], h => by
    have h' := List.append_cancel_left (as := "    ".toList) (cs := "],\n}".toList)
      (bs := "    ".toList ++ (intText i ++ (",\n".toList ++ linesText is)) ++ "    ],\n}".toList) h
    simp at h'
  | i :: is, j :: js, h => by
    unfold linesText at h
    simp only [List.append_assoc] at h
    have h1 := List.append_cancel_left h
    obtain ⟨e1, e2⟩ := split_num (c := ',') (d := ',') (intText_chars _) (intText_chars _) not_num_comma not_num_comma h1
    have h2 := List.append_cancel_left (as := ",\n".toList) e2
    rw [intText_inj e1, lines_inj h2]

/-- **C109** The same for the multi-line text `{:#?}`. -/
theorem C109_pretty_iff (a b : FixedDecimal) : a.prettyText = b.prettyText ↔ a = b := by
  refine ⟨fun h => ?_, fun h => by rw [h]⟩
  unfold FixedDecimal.prettyText at h
  have h1 := List.append_cancel_left h
  obtain ⟨e1, e2⟩ := split_num (c := ',') (d := ',') (intText_chars _) (intText_chars _) not_num_comma not_num_comma h1
  have h2 := List.append_cancel_left (as := ",\n    frac: ".toList) e2
  obtain ⟨e3, e4⟩ := split_num (c := ',') (d := ',') (intText_chars _) (intText_chars _) not_num_comma not_num_comma h2
  have h3 := List.append_cancel_left (as := ",\n    lsu: [".toList) e4
  have e5 : a.lsu = b.lsu := by
    by_cases ha : a.lsu = []
    · by_cases hb : b.lsu = []
      · rw [ha, hb]
      · rw [if_pos ha, if_neg hb] at h3
        simp at h3
    · by_cases hb : b.lsu = []
      · rw [if_neg ha, if_pos hb] at h3
        simp at h3
      · rw [if_neg ha, if_neg hb] at h3
        exact lines_inj (List.append_cancel_left h3)
  cases a; cases b
  simp only [FixedDecimal.mk.injEq]
  exact ⟨BitVec.eq_of_toInt_eq (intText_inj e1), intText_inj e3, e5⟩

/-- **C109** What `{:?}` shows as `intg`: the number of integral digits, less 128 if the decimal is negative; so the sign
can be read off it. -/
theorem C109_intg_shown (d : FixedDecimal) :
    d.intg.toInt = (intgDigits d : Int) - (if neg d then 128 else 0) ∧ (d.intg.toInt < 0 ↔ neg d = true) := by
  have key : ∀ v : BitVec 8, v.toInt = ((v.toNat % 128 : Nat) : Int) - (if v.msb then 128 else 0) ∧ (v.toInt < 0 ↔ v.msb = true) := by
    decide +kernel
  exact key d.intg

/-- **C109** The `{:?}` text of an error names the error. -/
theorem C109_error_iff (e e' : Error) : e.debugText = e'.debugText ↔ e = e' := by
  cases e <;> cases e' <;> decide

/-- Cases of `C109_*`: -7.50 is shown with `intg: -127`, and two spellings of one number differ. -/
example : Samples.c.debugText = "FixedDecimal { intg: -127, frac: 2, lsu: [500000000, 7, 0, 0, 0, 0, 0, 0, 0] }".toList := by
  decide +kernel
example : Samples.c.prettyText = ("FixedDecimal {\n    intg: -127,\n    frac: 2,\n    lsu: [\n        500000000,\n        7,\n        0,\n        0,\n" ++
    "        0,\n        0,\n        0,\n        0,\n        0,\n    ],\n}").toList := by
  decide +kernel
example : (⟨1#8, 0, [1, 0, 0, 0, 0, 0, 0, 0, 0]⟩ : FixedDecimal).debugText ≠
    (⟨1#8, 1, [0, 1, 0, 0, 0, 0, 0, 0, 0]⟩ : FixedDecimal).debugText := fun h => by
  have := (C109_debug_iff _ _).mp h
  revert this
  decide
example : Samples.c.intg.toInt < 0 := (C109_intg_shown Samples.c).2.mpr (by decide)

end Fxd.Props
