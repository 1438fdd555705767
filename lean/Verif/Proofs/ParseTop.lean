import Verif.Proofs.ParseExp
/-!
# The parser as a whole
-/

namespace Fxd
open Spec

variable {σ : Type} {m : Mode}

/-! ## Applying the exponent -/

theorem applyExp_ok {d f : Nat} {e : Int} (hfd : f ≤ d) (he : -30 ≤ e) (he' : e ≤ 65)
    (h1 : d ≤ 65) (h2 : f - e ≤ 65) (h3 : d - f + e ≤ 65) :
    ∃ fr di hz : Nat, (applyExp m d f e : Out σ _) = .ok ((fr : Int), ((fr + di : Nat) : Int), (hz : Int)) ∧
      fr + di ≤ 65 ∧ (fr : Int) - (di - d : Nat) = f - e ∧
      ((fr = 0 ∧ d ≤ di ∧ hz = 0) ∨ (d = fr + di ∧ hz = 0) ∨ (di = 0 ∧ fr = d + hz)) := by
  unfold applyExp
  rw [wrap8_ok (by omega) (by omega), wrap8_ok (by omega) (by omega), i8_ok (by omega) (by omega), ok_bind]
  by_cases h0 : (f : Int) - e = 0
  · rw [if_pos h0]
    refine ⟨0, d, 0, ?_, by omega, by omega, Or.inl ⟨rfl, le_refl _, rfl⟩⟩
    rw [h0]; simp
  rw [if_neg h0]
  by_cases hp : (f : Int) - e > 0
  · rw [if_pos hp]
    by_cases hd : (d : Int) > f - e
    · rw [if_pos hd]
      refine ⟨(f - e).toNat, d - (f - e).toNat, 0, ?_, by omega, by omega, Or.inr (Or.inl ⟨by omega, rfl⟩)⟩
      rw [show ((f - e).toNat : Int) = f - e by omega, show (f - e).toNat + (d - (f - e).toNat) = d by omega]; rfl
    · rw [if_neg hd, i8_ok (by omega) (by omega), ok_bind]
      refine ⟨(f - e).toNat, 0, (f - e).toNat - d, ?_, by omega, by omega, Or.inr (Or.inr ⟨rfl, by omega⟩)⟩
      rw [show (((f - e).toNat - d : Nat) : Int) = f - e - d by omega, show (((f - e).toNat + 0 : Nat) : Int) = f - e by omega,
        show ((f - e).toNat : Int) = f - e by omega]; rfl
  · rw [if_neg hp, i8_ok (by omega) (by omega), ok_bind]
    refine ⟨0, (d - (f - e)).toNat, 0, ?_, by omega, by omega, Or.inl ⟨rfl, by omega, rfl⟩⟩
    rw [show ((0 + (d - (f - e)).toNat : Nat) : Int) = d - (f - e) by omega]; rfl

theorem i8_out {x : Int} (h : 128 ≤ x) (h' : x < 256) :
    (m = .debug ∧ (i8 m x : Out σ Int) = .panic .overflow) ∨ (m = .release ∧ (i8 m x : Out σ Int) = .ok (x - 256)) := by
  unfold i8 sarith
  rw [if_neg (by norm_num; omega)]
  cases m
  · exact Or.inl ⟨rfl, rfl⟩
  · refine Or.inr ⟨rfl, ?_⟩
    simp only [wrap]
    congr 1
    rw [Int.bmod_def]; norm_num
    omega

/-- Outside the limits: an overflow panic in debug builds, or a digit count that will be refused. -/
theorem applyExp_bad {d f : Nat} {e : Int} (hfd : f ≤ d) (hd : d ≤ 127) (he : -30 ≤ e) (he' : e ≤ 65)
    (h : ¬ (d ≤ 65 ∧ f - e ≤ 65 ∧ d - f + e ≤ 65)) :
    (m = .debug ∧ (applyExp m d f e : Out σ _) = .panic .overflow) ∨
    ∃ fr di hz : Int, (applyExp m d f e : Out σ _) = .ok (fr, di, hz) ∧ di % 2 ^ 64 > MAX_DIGITS := by
  have neg_big : ∀ x : Int, -128 ≤ x → x < 0 → x % 2 ^ 64 > MAX_DIGITS := by
    intro x h1 h2; unfold MAX_DIGITS; norm_num; omega
  have pos_big : ∀ x : Int, 65 < x → x < 128 → x % 2 ^ 64 > MAX_DIGITS := by
    intro x h1 h2; unfold MAX_DIGITS; norm_num; omega
  unfold applyExp
  rw [wrap8_ok (by omega) (by omega), wrap8_ok (by omega) (by omega)]
  by_cases hx : (f : Int) - e < 128
  · rw [i8_ok (by omega) hx, ok_bind]
    by_cases h0 : (f : Int) - e = 0
    · rw [if_pos h0]; right
      exact ⟨_, _, _, rfl, pos_big _ (by omega) (by omega)⟩
    rw [if_neg h0]
    by_cases hp : (f : Int) - e > 0
    · rw [if_pos hp]; right
      by_cases hd' : (d : Int) > f - e
      · rw [if_pos hd']
        exact ⟨_, _, _, rfl, pos_big _ (by omega) (by omega)⟩
      · rw [if_neg hd', i8_ok (by omega) (by omega), ok_bind]
        exact ⟨_, _, _, rfl, pos_big _ (by omega) (by omega)⟩
    · rw [if_neg hp]
      by_cases hy : (d : Int) - (f - e) < 128
      · rw [i8_ok (by omega) (by omega), ok_bind]; right
        exact ⟨_, _, _, rfl, pos_big _ (by omega) (by omega)⟩
      · rcases i8_out (m := m) (σ := σ) (x := (d : Int) - (f - e)) (by omega) (by omega) with ⟨hm, h1⟩ | ⟨hm, h1⟩ <;> rw [h1]
        · exact Or.inl ⟨hm, rfl⟩
        · rw [ok_bind]; right
          exact ⟨_, _, _, rfl, neg_big _ (by omega) (by omega)⟩
  · rcases i8_out (m := m) (σ := σ) (x := (f : Int) - e) (by omega) (by omega) with ⟨hm, h1⟩ | ⟨hm, h1⟩ <;> rw [h1]
    · exact Or.inl ⟨hm, rfl⟩
    · rw [ok_bind, if_neg (by omega), if_neg (by omega)]
      rcases i8_out (m := m) (σ := σ) (x := (d : Int) - (f - e - 256)) (by omega) (by omega) with ⟨hm, h2⟩ | ⟨hm, h2⟩ <;> rw [h2]
      · exact Or.inl ⟨hm, rfl⟩
      · rw [ok_bind]; right
        exact ⟨_, _, _, rfl, neg_big _ (by omega) (by omega)⟩

/-! ## From text to outcome -/

/-- The state `self` is in after the optional reset. -/
def afterReset (self : FixedDecimal) (reset : Bool) : FixedDecimal := if reset then self.setZero else self

theorem afterReset_len {self : FixedDecimal} (h : self.lsu.length = 9) (reset : Bool) : (afterReset self reset).lsu.length = 9 := by
  unfold afterReset
  cases reset
  · exact h
  · rw [if_pos rfl, setZero_eq h]; rfl

theorem render_eq (t : Numeral) : t.render =
    t.sign.render ++ digitChars t.ip ++ dotPart t.fp ++ (match t.exp with | none => [] | some x => x.render) := by
  unfold Numeral.render
  cases t.fp <;> rfl

theorem exp_stop (t : Numeral) : Stop t.sign t.ip t.fp (match t.exp with | none => [] | some x => x.render) := by
  intro c cs h
  cases hx : t.exp with
  | none => rw [hx] at h; simp at h
  | some x =>
    rw [hx] at h
    simp only [Exponent.render, List.cons.injEq] at h
    have : c = 69 ∨ c = 101 := by rw [← h.1]; cases x.upper <;> simp
    refine ⟨by omega, by omega, fun _ _ _ => by omega⟩

/-- `fromBytesStr` after a scan that counted `D` digits. -/
theorem fromBytesStr_scan {self : FixedDecimal} {reset : Bool} {sg : Sign} {ip : List Nat} {fp : Option (List Nat)}
    {rest : List Nat} {D : Int}
    (hscan : (scanLoop m (sg.render ++ digitChars ip ++ dotPart fp ++ rest) 0 ⟨0, -1, -1, 0, false⟩ : Out FixedDecimal _) =
      .ok ({ scanned sg ip fp with d := D }, rest)) :
    FixedDecimal.fromBytesStr m self (sg.render ++ digitChars ip ++ dotPart fp ++ rest) reset =
      if ip ++ fp.getD [] = [] then .err .conversionSyntax (afterReset self reset)
      else (do
        let exp ← parseExp m (afterReset self reset) rest
        let (frac, digits, hz) ← applyExp m D ((fp.getD []).length : Int) exp
        if digits % 2 ^ 64 > MAX_DIGITS then .err .conversionSyntax (afterReset self reset)
        else
          writeDigits m (afterReset self reset) (sg.render ++ digitChars ip ++ dotPart fp ++ rest)
            { scanned sg ip fp with d := D } frac digits hz) := by
  unfold FixedDecimal.fromBytesStr
  dsimp only
  rw [show (if reset = true then self.setZero else self) = afterReset self reset from rfl]
  by_cases hnil : sg.render ++ digitChars ip ++ dotPart fp ++ rest = []
  · rw [if_pos hnil]
    have h1 : digitChars ip = [] ∧ dotPart fp = [] := by
      simp only [List.append_eq_nil_iff] at hnil; exact ⟨hnil.1.1.2, hnil.1.2⟩
    have h2 : ip = [] := List.map_eq_nil_iff.mp h1.1
    have h3 : fp = none := by
      cases fp with
      | none => rfl
      | some _ => simp [dotPart] at h1
    rw [if_pos (by simp [h2, h3])]
  · rw [if_neg hnil, hscan, ok_bind]
    dsimp only
    by_cases he : ip ++ fp.getD [] = []
    · have h2 := List.append_eq_nil_iff.mp he
      rw [if_pos he, if_pos]
      simp [scanned, h2.1, h2.2]
    · rw [if_neg he]
      have hlast : (scanned sg ip fp).last ≠ -1 ∧
          (if (scanned sg ip fp).dotchar = -1 ∨ (scanned sg ip fp).last < (scanned sg ip fp).dotchar then (0 : Int)
            else (scanned sg ip fp).last - (scanned sg ip fp).dotchar) = ((fp.getD []).length : Int) := by
        cases fp with
        | none =>
          have hi : ip ≠ [] := by simpa using he
          have : 1 ≤ ip.length := List.length_pos_iff.mpr hi
          simp [scanned, hi]; omega
        | some ds =>
          by_cases hds : ds = []
          · subst hds
            have hi : ip ≠ [] := by simpa using he
            have : 1 ≤ ip.length := List.length_pos_iff.mpr hi
            simp [scanned, hi]; omega
          · have : 1 ≤ ds.length := List.length_pos_iff.mpr hds
            simp only [scanned, Option.getD_some, ne_eq, hds, not_false_eq_true, if_true, reduceCtorEq, if_false]
            refine ⟨by omega, ?_⟩
            rw [if_neg (by omega)]; omega
      rw [if_neg hlast.1, hlast.2]

/-- `fromBytesStr` after the scan. -/
theorem fromBytesStr_scanned {self : FixedDecimal} {reset : Bool} {sg : Sign} {ip : List Nat} {fp : Option (List Nat)}
    {rest : List Nat} (hip : ∀ d ∈ ip, d < 10) (hfp : ∀ d ∈ fp.getD [], d < 10) (hs : Stop sg ip fp rest)
    (h127 : ip.length + (fp.getD []).length ≤ 127) :
    FixedDecimal.fromBytesStr m self (sg.render ++ digitChars ip ++ dotPart fp ++ rest) reset =
      if ip ++ fp.getD [] = [] then .err .conversionSyntax (afterReset self reset)
      else (do
        let exp ← parseExp m (afterReset self reset) rest
        let (frac, digits, hz) ← applyExp m ((ip.length + (fp.getD []).length : Nat) : Int) ((fp.getD []).length : Int) exp
        if digits % 2 ^ 64 > MAX_DIGITS then .err .conversionSyntax (afterReset self reset)
        else
          writeDigits m (afterReset self reset) (sg.render ++ digitChars ip ++ dotPart fp ++ rest)
            (scanned sg ip fp) frac digits hz) := by
  have h := fromBytesStr_scan (m := m) (self := self) (reset := reset) (D := ((ip.length + (fp.getD []).length : Nat) : Int))
    (by rw [scan_spec hip hfp hs h127]; simp [scanned])
  rw [h, show ({ scanned sg ip fp with d := ((ip.length + (fp.getD []).length : Nat) : Int) } : Scan) = scanned sg ip fp by
    simp [scanned]]

/-- Everything the parser guarantees about its result. -/
structure Parsed (t : Numeral) (old r : FixedDecimal) : Prop where
  sign : neg r = (t.sign == .minus)
  len : r.lsu.length = 9
  units : ∀ j, j < iu r + fu r → 0 ≤ dg r.lsu j ∧ dg r.lsu j < 1000000000
  high : ∀ j, iu r + fu r ≤ j → dg r.lsu j = dg old.lsu j
  frac_nonneg : 0 ≤ r.frac
  fits : iu r + fu r ≤ 9
  counts : intgDigits r + fracDigits r ≤ 65
  scale : (fracDigits r : Int) = max 0 (t.fracs.length - t.expo)
  prec : (intgDigits r : Int) = max 0 (t.digits.length - t.fracs.length + t.expo)
  value : (mant r : ℚ) / 10 ^ (9 * fu r) = digitsVal t.digits * (10 : ℚ) ^ (t.expo - t.fracs.length : ℤ)
  intg_ok : mant r < 10 ^ (intgDigits r + 9 * fu r)
  frac_ok : (10 ^ (9 * fu r - fracDigits r) : Int) ∣ mant r

theorem parsed_of_write {t : Numeral} (hv : t.Valid) {self r : FixedDecimal} {fr di hz : Nat} (hsum : fr + di ≤ 65)
    (hexp : (fr : Int) - (di - t.digits.length : Nat) = t.fracs.length - t.expo)
    (hshape : (fr = 0 ∧ t.digits.length ≤ di ∧ hz = 0) ∨ (t.digits.length = fr + di ∧ hz = 0) ∨
      (di = 0 ∧ fr = t.digits.length + hz))
    (h1 : neg r = (t.sign == .minus)) (h2 : intgDigits r = di) (h3 : r.frac = fr) (h4 : r.lsu.length = 9)
    (h5 : ∀ j, unitsFor di + unitsFor fr ≤ j → dg r.lsu j = dg self.lsu j)
    (h6 : ∀ j, j < unitsFor di + unitsFor fr → 0 ≤ dg r.lsu j ∧ dg r.lsu j < 1000000000)
    (h7 : seg r.lsu (unitsFor fr) (unitsFor fr + unitsFor di) = digitsVal (t.digits.take di) * 10 ^ (di - t.digits.length))
    (h8 : seg r.lsu 0 (unitsFor fr) = digitsVal (t.digits.drop di) * 10 ^ (9 * unitsFor fr - fr)) :
    Parsed t self r := by
  have hd1 : 1 ≤ t.digits.length := List.length_pos_iff.mpr hv.2.1
  have hf : fracDigits r = fr := by unfold fracDigits; rw [h3]; omega
  have hiu : iu r = unitsFor di := by unfold iu; rw [h2]
  have hfu : fu r = unitsFor fr := by unfold fu; rw [hf]
  have hfits : unitsFor di + unitsFor fr ≤ 9 := by unfold unitsFor; omega
  have hdl : t.fracs.length ≤ t.digits.length := by unfold Numeral.digits; simp
  have hpad : fr ≤ 9 * unitsFor fr := by unfold unitsFor; omega
  -- the mantissa
  have hm : mant r = (digitsVal t.digits * 10 ^ (di - t.digits.length) * 10 ^ (9 * unitsFor fr - fr) : Int) := by
    have e1 : mant r = seg r.lsu 0 (unitsFor fr + unitsFor di) := by
      unfold mant seg
      rw [hiu, hfu, Nat.add_comm, unitsVal_take (by omega), Nat.sub_zero]
      exact psum_congr fun j _ => by rw [Nat.zero_add]
    rw [e1, seg_split (Nat.zero_le (unitsFor fr)) (Nat.le_add_right _ _), h7, h8, Nat.sub_zero, pow9]
    have hN : digitsVal t.digits = digitsVal (t.digits.take di) * 10 ^ (t.digits.drop di).length + digitsVal (t.digits.drop di) := by
      rw [← digitsVal_append, List.take_append_drop]
    have hp : (10 : Int) ^ (9 * unitsFor fr) = 10 ^ fr * 10 ^ (9 * unitsFor fr - fr) := by
      rw [← pow_add]; congr 1; omega
    rw [hN, List.length_drop, hp]
    push_cast
    rcases hshape with ⟨a, b, c⟩ | ⟨a, b⟩ | ⟨a, b⟩
    · rw [List.drop_eq_nil_of_le b, digitsVal_nil, a, show t.digits.length - di = 0 by omega]; simp [unitsFor]
    · rw [show t.digits.length - di = fr by omega, show di - t.digits.length = 0 by omega]; ring
    · subst a; simp [digitsVal_nil]
  have hNlt := digitsVal_lt hv.1
  have hNlt' : (digitsVal t.digits : Int) < 10 ^ t.digits.length := by exact_mod_cast hNlt
  refine ⟨h1, h4, ?_, ?_, by rw [h3]; omega, by rw [hiu, hfu]; exact hfits, by rw [h2, hf]; omega, ?_, ?_, ?_, ?_, ?_⟩
  · rw [hiu, hfu]; exact h6
  · rw [hiu, hfu]; exact h5
  · rw [hf]; omega
  · rw [h2]; omega
  · rw [hm, hfu]
    have hz : (t.expo - t.fracs.length : ℤ) = ((di - t.digits.length : Nat) : ℤ) - (fr : ℤ) := by omega
    rw [hz, zpow_sub₀ (by norm_num), zpow_natCast, zpow_natCast,
      show 9 * unitsFor fr = fr + (9 * unitsFor fr - fr) by omega, Nat.add_sub_cancel_left, pow_add]
    push_cast
    field_simp
  · rw [hm, h2, hfu]
    have e : (10 : Int) ^ (di + 9 * unitsFor fr) = 10 ^ (di + fr) * 10 ^ (9 * unitsFor fr - fr) := by
      rw [← pow_add]; congr 1; omega
    rw [e]
    apply mul_lt_mul_of_pos_right _ (by positivity)
    have : (10 : Int) ^ (t.digits.length + (di - t.digits.length)) ≤ 10 ^ (di + fr) :=
      pow_le_pow_right₀ (by norm_num) (by omega)
    refine lt_of_lt_of_le ?_ this
    rw [pow_add]
    exact mul_lt_mul_of_pos_right hNlt' (by positivity)
  · rw [hm, hfu, hf]; exact Dvd.intro_left _ rfl

/-- The parser on the text of a numeral with at most 127 digits. -/
theorem parse_render {t : Numeral} (hv : t.Valid) (h127 : t.digits.length ≤ 127) {self : FixedDecimal}
    (hself : self.lsu.length = 9) (reset : Bool) :
    (t.Limits → ∃ r, FixedDecimal.fromBytesStr m self t.render reset = .ok r ∧ Parsed t (afterReset self reset) r) ∧
    (¬ t.Limits → Rejected m (afterReset self reset) (FixedDecimal.fromBytesStr m self t.render reset)) := by
  have hip : ∀ d ∈ t.ip, d < 10 := fun d hd => hv.1 d (by unfold Numeral.digits; simp [hd])
  have hfp : ∀ d ∈ t.fp.getD [], d < 10 := fun d hd => hv.1 d (by
    unfold Numeral.digits Numeral.fracs; exact List.mem_append_right _ hd)
  have hlen : t.digits.length = t.ip.length + (t.fp.getD []).length := by
    unfold Numeral.digits Numeral.fracs; simp
  have hne : ¬ (t.ip ++ t.fp.getD [] = []) := hv.2.1
  rw [render_eq, fromBytesStr_scanned hip hfp (exp_stop t) (by omega), if_neg hne]
  have hexp : (-30 ≤ t.expo ∧ t.expo ≤ 65 →
      (parseExp m (afterReset self reset) (match t.exp with | none => [] | some x => x.render) : Out FixedDecimal Int) = .ok t.expo) ∧
      (¬ (-30 ≤ t.expo ∧ t.expo ≤ 65) → Rejected m (afterReset self reset)
        (parseExp m (afterReset self reset) (match t.exp with | none => [] | some x => x.render) : Out FixedDecimal Int)) := by
    have hx := hv.2.2
    unfold Numeral.expo
    cases hte : t.exp with
    | none => simp [parseExp]
    | some x =>
      obtain ⟨a, b⟩ := hx x hte
      exact parseExp_render a b
  have hdl : t.fracs.length ≤ t.digits.length := by unfold Numeral.digits; simp
  have hfl : (t.fp.getD []).length = t.fracs.length := rfl
  rw [← hlen, hfl]
  constructor
  · rintro ⟨l1, l2, l3, l4, l5⟩
    rw [hexp.1 ⟨l1, l2⟩, ok_bind]
    obtain ⟨fr, di, hz, e, b1, b2, b3⟩ := applyExp_ok (m := m) (σ := FixedDecimal) hdl l1 l2 l3 l4 l5
    rw [e, ok_bind]
    dsimp only
    rw [if_neg (show ¬ (((fr + di : Nat) : Int) % 2 ^ 64 > MAX_DIGITS) by unfold MAX_DIGITS; norm_num; omega)]
    have hcf : 0 ≤ (scanned t.sign t.ip t.fp).cfirst := by unfold scanned; dsimp only; split_ifs <;> omega
    have hds : t.digits = t.ip ++ t.fp.getD [] := rfl
    obtain ⟨r, hr, c1, c2, c3, c4, c5, c6, c7, c8⟩ := writeDigits_spec (m := m) (σ := FixedDecimal)
      (st := scanned t.sign t.ip t.fp)
      (afterReset_len hself reset) hcf (scanned_text (sg := t.sign) (match t.exp with | none => [] | some x => x.render) hip hfp hne)
      (by
        have h1 : t.ip.length + (dotPart t.fp).length ≤ (t.sign.render ++ digitChars t.ip ++ dotPart t.fp ++
          (match t.exp with | none => [] | some x => x.render)).length - t.sign.render.length := by
          simp [digitChars_length]
        have h2 : t.sign.render.length ≤ (t.sign.render ++ digitChars t.ip ++ dotPart t.fp ++
          (match t.exp with | none => [] | some x => x.render)).length := by simp
        have h3 : t.fp ≠ none → 1 ≤ (dotPart t.fp).length := by
          cases t.fp with
          | none => simp
          | some _ => simp [dotPart]
        unfold scanned; dsimp only
        split_ifs with hh
        · have := h3 hh.2; omega
        · omega)
      (fr := fr) (di := di) (hz := hz) b1 (by rw [← hds]; exact b3)
    refine ⟨r, hr, ?_⟩
    rw [← hds] at c7 c8
    exact parsed_of_write hv b1 b2 b3 (by rw [c1]; rfl) c2 c3 c4 c5 c6 c7 c8
  · intro hl
    by_cases hr : -30 ≤ t.expo ∧ t.expo ≤ 65
    · rw [hexp.1 hr, ok_bind]
      rcases applyExp_bad (m := m) (σ := FixedDecimal) hdl h127 hr.1 hr.2 (by
        intro h; exact hl ⟨hr.1, hr.2, h⟩) with ⟨hm, h⟩ | ⟨fr, di, hz, h, hbig⟩ <;> rw [h]
      · exact Or.inr ⟨hm, rfl⟩
      · rw [ok_bind]; dsimp only; rw [if_pos hbig]; exact Or.inl rfl
    · rcases hexp.2 hr with h | ⟨hm, h⟩ <;> rw [h]
      · exact Or.inl rfl
      · exact Or.inr ⟨hm, rfl⟩

end Fxd
