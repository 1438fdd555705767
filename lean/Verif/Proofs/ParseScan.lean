import Verif.Proofs.ParseWrite
/-!
# The first scan and the exponent
-/

namespace Fxd
open Spec

variable {σ : Type} {m : Mode}

/-! ## Splitting arbitrary input -/

theorem digitChars_nil : digitChars [] = [] := rfl
theorem digitChars_cons (d : Nat) (ds : List Nat) : digitChars (d :: ds) = (d + 48) :: digitChars ds := rfl
theorem digitChars_length (ds : List Nat) : (digitChars ds).length = ds.length := by simp [digitChars]
theorem digitChars_append (a b : List Nat) : digitChars (a ++ b) = digitChars a ++ digitChars b := by simp [digitChars]

theorem digits_split (bs : List Nat) : ∃ ds rest, bs = digitChars ds ++ rest ∧ (∀ d ∈ ds, d < 10) ∧
    ∀ c cs, rest = c :: cs → ¬ (c ≥ 48 ∧ c ≤ 57) := by
  induction bs with
  | nil => exact ⟨[], [], rfl, by simp, by simp⟩
  | cons c cs ih =>
    by_cases h : c ≥ 48 ∧ c ≤ 57
    · obtain ⟨ds, rest, e, h1, h2⟩ := ih
      refine ⟨(c - 48) :: ds, rest, ?_, ?_, h2⟩
      · rw [digitChars_cons, e, show c - 48 + 48 = c by omega]; rfl
      · intro d hd; rcases List.mem_cons.mp hd with rfl | hd
        · omega
        · exact h1 d hd
    · refine ⟨[], c :: cs, rfl, by simp, ?_⟩
      intro c' cs' e; injection e with e1 e2; subst e1; exact h

/-- The text of the optional fractional part. -/
def dotPart : Option (List Nat) → List Nat
  | none => []
  | some ds => 46 :: digitChars ds

/-- The byte at which the first scan stops. -/
def Stop (sg : Sign) (ip : List Nat) (fp : Option (List Nat)) (rest : List Nat) : Prop :=
  ∀ c cs, rest = c :: cs → ¬ (c ≥ 48 ∧ c ≤ 57) ∧ (c = 46 → fp ≠ none) ∧
    (sg = .none → ip = [] → fp = none → c ≠ 45 ∧ c ≠ 43)

theorem mantissa_split (bs : List Nat) : ∃ sg ip fp rest,
    bs = sg.render ++ digitChars ip ++ dotPart fp ++ rest ∧ (∀ d ∈ ip, d < 10) ∧ (∀ d ∈ fp.getD [], d < 10) ∧
    Stop sg ip fp rest := by
  have main : ∀ (sg : Sign) (bs : List Nat), (sg = .none → ∀ c cs, bs = c :: cs → c ≠ 45 ∧ c ≠ 43) →
      ∃ ip fp rest, bs = digitChars ip ++ dotPart fp ++ rest ∧ (∀ d ∈ ip, d < 10) ∧ (∀ d ∈ fp.getD [], d < 10) ∧
      Stop sg ip fp rest := by
    intro sg bs hs
    obtain ⟨ip, rest, e, h1, h2⟩ := digits_split bs
    by_cases hdot : ∃ cs, rest = 46 :: cs
    · obtain ⟨cs, rfl⟩ := hdot
      obtain ⟨fp, rest', e', h1', h2'⟩ := digits_split cs
      refine ⟨ip, some fp, rest', ?_, h1, h1', ?_⟩
      · rw [e, e']; simp [dotPart]
      · intro c cs hc
        exact ⟨h2' c cs hc, by simp, by simp⟩
    · refine ⟨ip, none, rest, by simp [e, dotPart], h1, by simp, ?_⟩
      intro c cs hc
      refine ⟨h2 c cs hc, fun h => absurd ⟨cs, h ▸ hc⟩ hdot, fun hsg hip _ => ?_⟩
      subst hip
      exact hs hsg c cs (by rw [e, hc]; rfl)
  rcases bs with _ | ⟨c, cs⟩
  · obtain ⟨ip, fp, rest, e, h⟩ := main .none [] (by simp)
    exact ⟨.none, ip, fp, rest, by simpa [Sign.render] using e, h⟩
  · by_cases h45 : c = 45
    · obtain ⟨ip, fp, rest, e, h⟩ := main .minus cs (by simp)
      exact ⟨.minus, ip, fp, rest, by simp [Sign.render, h45, e], h⟩
    · by_cases h43 : c = 43
      · obtain ⟨ip, fp, rest, e, h⟩ := main .plus cs (by simp)
        exact ⟨.plus, ip, fp, rest, by simp [Sign.render, h43, e], h⟩
      · obtain ⟨ip, fp, rest, e, h⟩ := main .none (c :: cs) (by
          intro _ c' cs' hc; injection hc with e1 e2; subst e1; exact ⟨h45, h43⟩)
        exact ⟨.none, ip, fp, rest, by simpa [Sign.render] using e, h⟩

/-! ## The scan -/

theorem scan_digits {ds : List Nat} (hd : ∀ d ∈ ds, d < 10) (rest : List Nat) (i : Int) (st : Scan)
    (h0 : 0 ≤ st.d) (h1 : st.d + ds.length ≤ 127) :
    (scanLoop m (digitChars ds ++ rest) i st : Out σ _) = scanLoop m rest (i + ds.length)
      { st with d := st.d + ds.length, last := if ds = [] then st.last else i + ds.length - 1 } := by
  induction ds generalizing i st with
  | nil => simp [digitChars]
  | cons d ds ih =>
    rw [List.length_cons] at h1
    have hd0 := hd d (by simp)
    rw [digitChars_cons, List.cons_append, scanLoop, if_pos (by omega), i8_ok (by omega) (by push_cast at h1; omega), ok_bind,
      ih (fun x hx => hd x (by simp [hx])) _ _ (by dsimp only; omega) (by dsimp only; push_cast at h1; omega)]
    congr 1
    · rw [List.length_cons]; push_cast; ring
    · simp only [List.length_cons, Scan.mk.injEq, and_true, true_and]
      refine ⟨by push_cast; ring, ?_⟩
      rw [if_neg (show ¬ (d :: ds = []) by simp)]
      split_ifs with hn
      · subst hn; simp
      · push_cast; ring

theorem scan_digits_over {ds : List Nat} (hd : ∀ d ∈ ds, d < 10) (rest : List Nat) (i : Int) (st : Scan)
    (h0 : 0 ≤ st.d) (h127 : st.d ≤ 127) (h1 : 127 < st.d + ds.length) :
    (scanLoop .debug (digitChars ds ++ rest) i st : Out σ _) = .panic .overflow := by
  induction ds generalizing i st with
  | nil => simp at h1; omega
  | cons d ds ih =>
    rw [List.length_cons] at h1
    have hd0 := hd d (by simp)
    rw [digitChars_cons, List.cons_append, scanLoop, if_pos (by omega)]
    by_cases h : st.d = 127
    · have : (i8 .debug (st.d + 1) : Out σ Int) = .panic .overflow := by
        unfold i8 sarith; rw [if_neg (by rw [h]; norm_num)]
      rw [this]; rfl
    · rw [i8_ok (by omega) (by omega), ok_bind]
      exact ih (fun x hx => hd x (by simp [hx])) _ _ (by dsimp only; omega) (by dsimp only; omega) (by dsimp only; push_cast at h1; omega)

/-- Result of the scan. -/
def scanned (sg : Sign) (ip : List Nat) (fp : Option (List Nat)) : Scan :=
  { d := ip.length + (fp.getD []).length
    dotchar := if fp = none then -1 else sg.render.length + ip.length
    last := if fp.getD [] ≠ [] then sg.render.length + ip.length + (fp.getD []).length
            else if ip ≠ [] then sg.render.length + ip.length - 1 else -1
    cfirst := if ip = [] ∧ fp ≠ none then sg.render.length + 1 else sg.render.length
    neg := sg == .minus }

theorem scan_stop {sg : Sign} {ip : List Nat} {fp : Option (List Nat)} {rest : List Nat} (hs : Stop sg ip fp rest)
    {i : Int} {st : Scan} (hdot : fp ≠ none → st.dotchar ≠ -1)
    (hi : i = 0 → sg = .none ∧ ip = [] ∧ fp = none) :
    (scanLoop m rest i st : Out σ _) = .ok (st, rest) := by
  rcases rest with _ | ⟨c, cs⟩
  · rfl
  · obtain ⟨h1, h2, h3⟩ := hs c cs rfl
    rw [scanLoop, if_neg h1, if_neg (by rintro ⟨h, h'⟩; exact hdot (h2 h) h'),
      if_neg (by rintro ⟨h, h'⟩; obtain ⟨a, b, c'⟩ := hi h; exact (h3 a b c').1 h'),
      if_neg (by rintro ⟨h, h'⟩; obtain ⟨a, b, c'⟩ := hi h; exact (h3 a b c').2 h')]

theorem scan_spec {sg : Sign} {ip : List Nat} {fp : Option (List Nat)} {rest : List Nat}
    (hip : ∀ d ∈ ip, d < 10) (hfp : ∀ d ∈ fp.getD [], d < 10) (hs : Stop sg ip fp rest)
    (h127 : ip.length + (fp.getD []).length ≤ 127) :
    (scanLoop m (sg.render ++ digitChars ip ++ dotPart fp ++ rest) 0 ⟨0, -1, -1, 0, false⟩ : Out σ _) =
      .ok (scanned sg ip fp, rest) := by
  have hsign' : ∀ xs : List Nat, (scanLoop m (sg.render ++ xs) 0 ⟨0, -1, -1, 0, false⟩ : Out σ _) =
      scanLoop m xs sg.render.length ⟨0, -1, -1, sg.render.length, sg == .minus⟩ := by
    intro xs; cases sg <;> simp [Sign.render, scanLoop] <;> rfl
  rw [List.append_assoc, List.append_assoc, hsign', scan_digits hip _ _ _ (by norm_num) (by dsimp only; omega)]
  cases fp with
  | none =>
    rw [dotPart, List.nil_append, scan_stop hs (by simp)]
    · simp [scanned]
    · intro h
      have : sg.render.length = 0 ∧ ip.length = 0 := by omega
      refine ⟨?_, List.length_eq_zero_iff.mp this.2, rfl⟩
      cases sg <;> simp [Sign.render] at this ⊢
  | some ds =>
    rw [Option.getD_some] at hfp h127
    rw [dotPart, List.cons_append, scanLoop, if_neg (by omega), if_pos ⟨rfl, rfl⟩,
      scan_digits hfp _ _ _ (by dsimp only; omega) (by dsimp only; omega), scan_stop hs (by intro _; dsimp only; omega) (by intro h; omega)]
    simp only [scanned, Option.getD_some]
    congr 1
    simp only [Prod.mk.injEq, and_true, Scan.mk.injEq]
    refine ⟨by push_cast; ring, by simp, ?_, ?_⟩
    · by_cases hds : ds = []
      · subst hds; simp
      · rw [if_neg hds, if_pos hds]; ring
    · by_cases hip0 : ip = []
      · subst hip0; simp
      · rw [if_neg (by simp; exact hip0)]; simp [hip0]

theorem scan_over {sg : Sign} {ip : List Nat} {fp : Option (List Nat)} {rest : List Nat}
    (hip : ∀ d ∈ ip, d < 10) (hfp : ∀ d ∈ fp.getD [], d < 10)
    (h127 : 127 < ip.length + (fp.getD []).length) :
    (scanLoop .debug (sg.render ++ digitChars ip ++ dotPart fp ++ rest) 0 ⟨0, -1, -1, 0, false⟩ : Out σ _) =
      .panic .overflow := by
  have hsign' : ∀ xs : List Nat, (scanLoop .debug (sg.render ++ xs) 0 ⟨0, -1, -1, 0, false⟩ : Out σ _) =
      scanLoop .debug xs sg.render.length ⟨0, -1, -1, sg.render.length, sg == .minus⟩ := by
    intro xs; cases sg <;> simp [Sign.render, scanLoop] <;> rfl
  rw [List.append_assoc, List.append_assoc, hsign']
  by_cases h : 127 < ip.length
  · exact scan_digits_over hip _ _ _ (by norm_num) (by norm_num) (by dsimp only; omega)
  · rw [scan_digits hip _ _ _ (by norm_num) (by dsimp only; omega)]
    cases fp with
    | none => simp at h127; omega
    | some ds =>
      rw [Option.getD_some] at hfp h127
      rw [dotPart, List.cons_append, scanLoop, if_neg (by omega), if_pos ⟨rfl, rfl⟩]
      exact scan_digits_over hfp _ _ _ (by dsimp only; omega) (by dsimp only; omega) (by dsimp only; omega)

/-! ## The digits found by the scan -/

theorem Text.le {last : Int} {cs : List Nat} {i : Int} {ds : List Nat} (h : Text last cs i ds) : i ≤ last := by
  induction h with
  | dot _ ih => omega
  | last => exact le_refl _
  | cons _ _ _ ih => omega

theorem Text.prefix {last : Int} {cs : List Nat} {ds' : List Nat} {ds : List Nat} (hd : ∀ d ∈ ds, d < 10) {i : Int}
    (h : Text last cs (i + ds.length) ds') : Text last (digitChars ds ++ cs) i (ds ++ ds') := by
  induction ds generalizing i with
  | nil => simpa [digitChars] using h
  | cons d ds ih =>
    rw [List.length_cons] at h
    rw [digitChars_cons, List.cons_append, List.cons_append]
    have := h.le
    refine .cons (hd d (by simp)) (by push_cast at this; omega) (ih (fun x hx => hd x (by simp [hx])) ?_)
    convert h using 1; push_cast; ring

theorem Text.all {ds : List Nat} (hd : ∀ d ∈ ds, d < 10) (hne : ds ≠ []) (tail : List Nat) (i : Int) :
    Text (i + ds.length - 1) (digitChars ds ++ tail) i ds := by
  obtain ⟨l, d, rfl⟩ : ∃ l d, ds = l ++ [d] := ⟨ds.dropLast, ds.getLast hne, (List.dropLast_append_getLast hne).symm⟩
  rw [digitChars_append, List.append_assoc]
  refine Text.prefix (fun x hx => hd x (by simp [hx])) ?_
  have e : i + ((l ++ [d]).length : Int) - 1 = i + l.length := by simp; ring
  rw [e]
  exact .last (hd d (by simp))

theorem scanned_text {sg : Sign} {ip : List Nat} {fp : Option (List Nat)} (rest : List Nat)
    (hip : ∀ d ∈ ip, d < 10) (hfp : ∀ d ∈ fp.getD [], d < 10) (hne : ip ++ fp.getD [] ≠ []) :
    Text (scanned sg ip fp).last
      ((sg.render ++ digitChars ip ++ dotPart fp ++ rest).drop (scanned sg ip fp).cfirst.toNat)
      (scanned sg ip fp).cfirst (ip ++ fp.getD []) := by
  by_cases h0 : ip = []
  · subst h0
    cases fp with
    | none => simp at hne
    | some ds =>
      simp only [Option.getD_some, List.nil_append] at hne hfp
      have e1 : (scanned sg [] (some ds)).cfirst = (sg.render.length : Int) + 1 := by simp [scanned]
      have e2 : (scanned sg [] (some ds)).last = (sg.render.length : Int) + 1 + ds.length - 1 := by
        simp [scanned, hne]; ring
      rw [e1, e2, show ((sg.render.length : Int) + 1).toNat = sg.render.length + 1 by omega]
      have : (sg.render ++ digitChars [] ++ dotPart (some ds) ++ rest).drop (sg.render.length + 1) = digitChars ds ++ rest := by
        simp [dotPart, digitChars_nil, List.drop_append]
      rw [this]
      simpa using Text.all hfp hne rest ((sg.render.length : Int) + 1)
  · have e1 : (scanned sg ip fp).cfirst = (sg.render.length : Int) := by simp [scanned, h0]
    rw [e1, Int.toNat_natCast]
    have e3 : (sg.render ++ digitChars ip ++ dotPart fp ++ rest).drop sg.render.length = digitChars ip ++ (dotPart fp ++ rest) := by
      simp [List.append_assoc]
    rw [e3]
    by_cases hf : fp.getD [] = []
    · have e2 : (scanned sg ip fp).last = (sg.render.length : Int) + ip.length - 1 := by simp [scanned, hf, h0]
      rw [e2, hf, List.append_nil]
      exact Text.all hip h0 _ _
    · obtain ⟨ds, rfl⟩ : ∃ ds, fp = some ds := by cases fp with | none => simp at hf | some ds => exact ⟨ds, rfl⟩
      simp only [Option.getD_some] at hf hfp ⊢
      have e2 : (scanned sg ip (some ds)).last = (sg.render.length : Int) + ip.length + 1 + ds.length - 1 := by
        simp [scanned, hf]; ring
      rw [e2]
      refine Text.prefix hip ?_
      rw [dotPart, List.cons_append]
      exact .dot (Text.all hfp hf rest _)

end Fxd
