import Verif.Proofs.ParseWrap
/-!
# The parser is the reference parser (C73)
-/

namespace Fxd.Props
open Fxd Spec

variable {m : Mode}

theorem refExp_range {rest : List Nat} {e : Int} (h : refExp m rest = some (.ok e)) : -30 ≤ e ∧ e ≤ 65 := by
  unfold refExp at h
  rcases rest with _ | ⟨c, cs⟩
  · simp only [Option.some.injEq, Except.ok.injEq] at h; omega
  · rcases hcs : cutSign cs with ⟨n, ds⟩
    simp only [hcs] at h
    by_cases h1 : c ≠ 101 ∧ c ≠ 69
    · rw [if_pos h1] at h; simp at h
    rw [if_neg h1] at h
    by_cases h2 : m = .debug ∧ 2 ^ 31 ≤ digitsVal (leadDigits ds) + 48
    · rw [if_pos h2] at h; cases h
    rw [if_neg h2] at h
    by_cases h3 : ds = [] ∨ ds.dropWhile isDig ≠ [] ∨ (if n then 30 else 65) < digitsVal (leadDigits ds)
    · rw [if_pos h3] at h; simp at h
    rw [if_neg h3] at h
    simp only [Option.some.injEq, Except.ok.injEq] at h
    simp only [not_or, not_lt] at h3
    cases n
    · simp only [Bool.false_eq_true, if_false] at h h3; omega
    · simp only [if_true] at h h3; omega

theorem small_mod {x : Int} (h : -128 ≤ x) (h' : x < 128) : x % 2 ^ 64 > MAX_DIGITS ↔ x < 0 ∨ 65 < x := by
  unfold MAX_DIGITS; norm_num; omega

/-- **C73: parsing is the reference parser**, for every byte string, every target (with its nine units), both values of
`reset` and both builds. -/
theorem C73_parse (self : FixedDecimal) (bs : List Nat) (reset : Bool) (hself : self.lsu.length = 9) :
    seen (FixedDecimal.fromBytesStr m self bs reset) = refParse m (if reset then FixedDecimal.zero else self) bs := by
  obtain ⟨sg, ip, fp, rest, rfl, hip, hfp, hs⟩ := mantissa_split bs
  have hold : (if reset then FixedDecimal.zero else self) = afterReset self reset := by
    unfold afterReset; cases reset
    · rfl
    · rw [if_pos rfl, if_pos rfl, setZero_eq hself]
  rw [hold]
  unfold refParse
  rw [shapeOf_split hip hfp hs]
  dsimp only
  have hdig : (ip ++ fp.getD []).length = ip.length + (fp.getD []).length := by simp
  -- debug builds, too many digits
  by_cases hover : m = .debug ∧ 127 < ip.length + (fp.getD []).length
  · rw [if_pos hover]
    obtain ⟨rfl, h127⟩ := hover
    unfold FixedDecimal.fromBytesStr
    dsimp only
    rw [if_neg, scan_over hip hfp h127]
    · rfl
    · intro h0
      simp only [List.append_eq_nil_iff] at h0
      have e1 : ip = [] := List.map_eq_nil_iff.mp h0.1.1.2
      have e2 : fp = none := by
        cases fp with
        | none => rfl
        | some _ => simp [dotPart] at h0
      simp [e1, e2] at h127
  rw [if_neg hover]
  have hsl := afterReset_len hself reset
  have hcf : ∀ D, 0 ≤ ({ scanned sg ip fp with d := D } : Scan).cfirst := by
    intro D; unfold scanned; dsimp only; split_ifs <;> omega
  have hcl : ∀ D, ({ scanned sg ip fp with d := D } : Scan).cfirst ≤ (sg.render ++ digitChars ip ++ dotPart fp ++ rest).length := by
    intro D
    have h1 : ip.length + (dotPart fp).length ≤ (sg.render ++ digitChars ip ++ dotPart fp ++ rest).length - sg.render.length := by
      simp [digitChars_length]
    have h2 : sg.render.length ≤ (sg.render ++ digitChars ip ++ dotPart fp ++ rest).length := by simp
    have h3 : fp ≠ none → 1 ≤ (dotPart fp).length := by
      cases fp with
      | none => simp
      | some _ => simp [dotPart]
    unfold scanned; dsimp only
    split_ifs with hh
    · have := h3 hh.2; omega
    · omega
  set n := ip.length + (fp.getD []).length with hn
  have hpe := parseExp_exact (m := m) (s := afterReset self reset) rest
  by_cases h127 : n ≤ 127
  · -- counters that do not wrap around
    rw [fromBytesStr_scanned hip hfp hs h127]
    by_cases hne : ip ++ fp.getD [] = []
    · rw [if_pos hne, if_pos hne]; rfl
    rw [if_neg hne, if_neg hne, seen_bind]
    rcases hx : (parseExp m (afterReset self reset) rest : Out FixedDecimal Int) with e | ⟨e, s⟩ | p <;> rw [hx] at hpe <;> rw [← hpe]
    · obtain ⟨he, he'⟩ := refExp_range hpe.symm
      show _ = refNumber m (afterReset self reset) (sg == .minus) ip (fp.getD []) e
      dsimp only
      unfold refNumber
      dsimp only
      rw [← hn, if_pos h127]
      have hfd : (fp.getD []).length ≤ n := by omega
      by_cases hl : n ≤ 65 ∧ ((fp.getD []).length : Int) - e ≤ 65 ∧ (n : Int) - (fp.getD []).length + e ≤ 65
      · obtain ⟨fr, di, hz, e1, b1, b2, b3⟩ := applyExp_ok (m := m) (σ := FixedDecimal) hfd he he' hl.1 hl.2.1 hl.2.2
        rw [e1, ok_bind]
        dsimp only
        have hdl : 1 ≤ n := by rw [← hdig]; exact List.length_pos_iff.mpr hne
        rw [if_neg (show ¬ (((fr + di : Nat) : Int) % 2 ^ 64 > MAX_DIGITS) by unfold MAX_DIGITS; norm_num; omega),
          if_neg (by rintro ⟨-, h⟩; omega), if_neg (by omega)]
        have hd0 : ({ scanned sg ip fp with d := (scanned sg ip fp).d } : Scan) = scanned sg ip fp := rfl
        rw [writeDigits_parsed (m := m) (st := scanned sg ip fp) hsl (hcf (scanned sg ip fp).d) (scanned_text rest hip hfp hne)
          (hcl (scanned sg ip fp).d) b1 (by rw [hdig]; exact b3)]
        have i1 : ((ip.length : Int) + e).toNat = di := by omega
        have i2 : (((fp.getD []).length : Int) - e).toNat = fr := by omega
        have hpad : fr ≤ 9 * unitsFor fr := by unfold unitsFor; omega
        rw [i1, i2, hdig, show (9 * (unitsFor fr : Int) - (((fp.getD []).length : Int) - e)).toNat = di - n + (9 * unitsFor fr - fr) by omega]
        rfl
      · rcases applyExp_exact (m := m) (σ := FixedDecimal) hfd h127 he he' hl with ⟨hm, hov, h1⟩ | ⟨hov, fr, di, hz, h1, hbig⟩ <;> rw [h1]
        · rw [if_pos ⟨hm, by omega⟩]; rfl
        · rw [ok_bind]
          dsimp only
          rw [if_pos hbig, if_neg (by rintro ⟨a, b⟩; exact hov ⟨a, by omega⟩), if_pos (by omega)]; rfl
    · rfl
    · rfl
  · -- release builds, counters wrapped around
    have hm : m = .release := by
      cases m
      · exact absurd ⟨rfl, by omega⟩ hover
      · rfl
    subst hm
    rw [fromBytesStr_scan (scan_wrap hip hfp hs)]
    by_cases hne : ip ++ fp.getD [] = []
    · rw [if_pos hne, if_pos hne]; rfl
    rw [if_neg hne, if_neg hne, seen_bind]
    rcases hx : (parseExp .release (afterReset self reset) rest : Out FixedDecimal Int) with e | ⟨e, s⟩ | p <;> rw [hx] at hpe <;> rw [← hpe]
    · show _ = refNumber .release (afterReset self reset) (sg == .minus) ip (fp.getD []) e
      dsimp only
      unfold refNumber
      dsimp only
      rw [← hn, if_neg h127, applyExp_release]
      have hI : (n : Int) - ((fp.getD []).length - e) = ip.length + e := by omega
      rw [hI]
      have w8 : ∀ x : Int, Int.bmod x 256 = wrap 8 x := fun x => rfl
      rw [w8, w8, w8]
      have hF := wrap8_range (((fp.getD []).length : Int) - e)
      have hIr := wrap8_range ((ip.length : Int) + e)
      have hN := wrap8_range (n : Int)
      generalize wrap 8 (((fp.getD []).length : Int) - e) = F at hF
      generalize wrap 8 ((ip.length : Int) + e) = I at hIr
      generalize hNd : wrap 8 (n : Int) = N at hN
      by_cases hF0 : F ≤ 0
      · rw [if_pos hF0, if_pos hF0, ok_bind]
        dsimp only
        by_cases hok : 0 ≤ I ∧ I ≤ 65
        · rw [if_pos hok, if_neg (by rw [small_mod (by omega) (by omega)]; omega)]
          have := writeDigits_cut (σ := FixedDecimal) (st := { scanned sg ip fp with d := N }) (self := afterReset self reset) hsl
            (scanned_text rest hip hfp hne) (c := I.toNat) (by omega) (by rw [hdig]; omega)
          rw [show ((I.toNat : Nat) : Int) = I by omega] at this
          rw [this]; rfl
        · rw [if_neg hok, if_pos (by rw [small_mod (by omega) (by omega)]; omega)]; rfl
      · rw [if_neg hF0, if_neg hF0]
        by_cases hNF : N > F
        · rw [if_pos hNF, ok_bind]
          dsimp only
          rw [max_eq_left (by omega)]
          by_cases hb : 65 < N
          · rw [if_pos hb, if_pos (by rw [small_mod (by omega) (by omega)]; omega)]; rfl
          · rw [if_neg hb, if_neg (by rw [small_mod (by omega) (by omega)]; omega)]
            have := writeDigits_over (σ := FixedDecimal) (st := { scanned sg ip fp with d := N }) hsl (hcf _) (scanned_text rest hip hfp hne)
              (hcl N) (fr := F.toNat) (di := (N - F).toNat) (hz := 0) (by omega) (by omega) (by rw [hdig]; omega) (Or.inl rfl)
            rw [show ((F.toNat : Nat) : Int) = F by omega, show ((F.toNat + (N - F).toNat : Nat) : Int) = N by omega] at this
            exact this
        · rw [if_neg hNF, ok_bind]
          dsimp only
          rw [max_eq_right (by omega)]
          by_cases hb : 65 < F
          · rw [if_pos hb, if_pos (by rw [small_mod (by omega) (by omega)]; omega)]; rfl
          · rw [if_neg hb, if_neg (by rw [small_mod (by omega) (by omega)]; omega)]
            have hzr : 0 ≤ wrap 8 (F - N) ∧ wrap 8 (F - N) ≤ 127 ∨ -128 ≤ wrap 8 (F - N) ∧ wrap 8 (F - N) ≤ -63 := by
              unfold wrap; rw [Int.bmod_def]; norm_num; omega
            have := writeDigits_over (σ := FixedDecimal) (st := { scanned sg ip fp with d := N }) hsl (hcf _) (scanned_text rest hip hfp hne)
              (hcl N) (fr := F.toNat) (di := 0) (hz := wrap 8 (F - N)) (by omega) (by omega) (by rw [hdig]; omega) (Or.inr ⟨rfl, hzr⟩)
            rw [show ((F.toNat : Nat) : Int) = F by omega, show ((F.toNat + 0 : Nat) : Int) = F by omega] at this
            exact this
    · rfl
    · rfl

/-- **C73: `str::parse` is the reference parser** on a fresh decimal. -/
theorem C73_from_str (bs : List Nat) : seen (FixedDecimal.fromStr m bs) = refParse m FixedDecimal.zero bs := by
  have h := C73_parse (m := m) FixedDecimal.zero bs false rfl
  rw [if_neg (by simp)] at h
  rw [← h]
  unfold FixedDecimal.fromStr
  cases FixedDecimal.fromBytesStr m FixedDecimal.zero bs false <;> rfl

/-- Non-vacuity and meaning: `-12.5e1` is -125 with three integral digits in both builds; `1.2.3` is refused; 7 followed by 256
zeroes panics in debug builds and is read as 7 in release builds. -/
example : (∀ m, seen (FixedDecimal.fromStr m [45, 49, 50, 46, 53, 101, 49]) = some (.ok (dec true 3 0 125))) ∧
    (∀ m, seen (FixedDecimal.fromStr m [49, 46, 50, 46, 51]) = some (.error .conversionSyntax)) ∧
    seen (FixedDecimal.fromStr .debug (55 :: List.replicate 256 48)) = none ∧
    seen (FixedDecimal.fromStr .release (55 :: List.replicate 256 48)) = some (.ok (dec false 1 0 7)) := by
  refine ⟨fun m => ?_, fun m => ?_, ?_, ?_⟩
  · rw [C73_from_str]; cases m <;> decide +kernel
  · rw [C73_from_str]; cases m <;> decide +kernel
  · rw [C73_from_str]; decide +kernel
  · rw [C73_from_str]; decide +kernel

end Fxd.Props
