import Verif.Proofs.ParseExact
import Verif.Props.Reference
/-!
# The parser on every byte string: digit counts that wrap around, truncated writes, writes past the buffer
-/

namespace Fxd
open Spec Fxd.Props

variable {σ : Type} {m : Mode}

/-! ## Eight-bit counters in release builds -/

theorem wrap8_range (x : Int) : -128 ≤ wrap 8 x ∧ wrap 8 x < 128 := by
  unfold wrap
  have h1 := Int.le_bmod (x := x) (m := 2 ^ 8) (by norm_num)
  have h2 := Int.bmod_lt (x := x) (m := 2 ^ 8) (by norm_num)
  norm_num at h1 h2 ⊢
  exact ⟨h1, h2⟩

theorem wrap8_id {x : Int} (h : -128 ≤ x) (h' : x < 128) : wrap 8 x = x := wrap8_ok h h'

theorem i8_release (x : Int) : (i8 .release x : Out σ Int) = .ok (wrap 8 x) := by
  unfold i8 sarith
  split_ifs with h
  · rw [wrap8_id (by norm_num at h; omega) (by norm_num at h; omega)]
  · rfl

theorem wrap8_add (x y : Int) : wrap 8 (wrap 8 x + y) = wrap 8 (x + y) := Int.bmod_add_bmod
theorem wrap8_sub (x y : Int) : wrap 8 (wrap 8 x - wrap 8 y) = wrap 8 (x - y) := by
  unfold wrap; rw [Int.bmod_sub_bmod, Int.sub_bmod_bmod]

/-! ## The scan in release builds -/

theorem scan_digits_wrap {ds : List Nat} (hd : ∀ d ∈ ds, d < 10) (rest : List Nat) (i x : Int) (st : Scan) (h0 : st.d = wrap 8 x) :
    (scanLoop .release (digitChars ds ++ rest) i st : Out σ _) = scanLoop .release rest (i + ds.length)
      { st with d := wrap 8 (x + ds.length), last := if ds = [] then st.last else i + ds.length - 1 } := by
  induction ds generalizing i x st with
  | nil => simp [digitChars, ← h0]
  | cons d ds ih =>
    have hd0 := hd d (by simp)
    rw [digitChars_cons, List.cons_append, scanLoop, if_pos (by omega), i8_release, ok_bind,
      ih (fun x hx => hd x (by simp [hx])) _ (x + 1) _ (by dsimp only; rw [h0, wrap8_add])]
    congr 1
    · rw [List.length_cons]; push_cast; ring
    · simp only [List.length_cons, Scan.mk.injEq, and_true, true_and]
      refine ⟨by congr 1; push_cast; ring, ?_⟩
      rw [if_neg (show ¬ (d :: ds = []) by simp)]
      split_ifs with hn
      · subst hn; simp
      · push_cast; ring

theorem scan_wrap {sg : Sign} {ip : List Nat} {fp : Option (List Nat)} {rest : List Nat}
    (hip : ∀ d ∈ ip, d < 10) (hfp : ∀ d ∈ fp.getD [], d < 10) (hs : Stop sg ip fp rest) :
    (scanLoop .release (sg.render ++ digitChars ip ++ dotPart fp ++ rest) 0 ⟨0, -1, -1, 0, false⟩ : Out σ _) =
      .ok ({ scanned sg ip fp with d := wrap 8 ((ip.length + (fp.getD []).length : Nat) : Int) }, rest) := by
  have hsign' : ∀ xs : List Nat, (scanLoop .release (sg.render ++ xs) 0 ⟨0, -1, -1, 0, false⟩ : Out σ _) =
      scanLoop .release xs sg.render.length ⟨0, -1, -1, sg.render.length, sg == .minus⟩ := by
    intro xs; cases sg <;> simp [Sign.render, scanLoop] <;> rfl
  rw [List.append_assoc, List.append_assoc, hsign', scan_digits_wrap hip _ _ 0 _ rfl]
  cases fp with
  | none =>
    rw [dotPart, List.nil_append, scan_stop hs (by simp)]
    · simp [scanned]
    · intro h
      have : sg.render.length = 0 ∧ ip.length = 0 := by omega
      refine ⟨?_, List.length_eq_zero_iff.mp this.2, rfl⟩
      cases sg <;> simp [Sign.render] at this ⊢
  | some ds =>
    rw [Option.getD_some] at hfp
    rw [dotPart, List.cons_append, scanLoop, if_neg (by omega), if_pos ⟨rfl, rfl⟩,
      scan_digits_wrap hfp _ _ (0 + ip.length) _ (by dsimp only), scan_stop hs (by intro _; dsimp only; omega) (by intro h; omega)]
    simp only [scanned, Option.getD_some]
    refine congrArg Out.ok ?_
    simp only [Prod.mk.injEq, and_true, Scan.mk.injEq]
    refine ⟨by congr 1; push_cast; ring, by simp, ?_, ?_⟩
    · by_cases hds : ds = []
      · subst hds; simp
      · rw [if_neg hds, if_pos hds]; ring
    · by_cases hip0 : ip = []
      · subst hip0; simp
      · rw [if_neg (by simp; exact hip0)]; simp [hip0]

/-! ## Applying the exponent, exactly -/

theorem applyExp_exact {d f : Nat} {e : Int} (hfd : f ≤ d) (hd : d ≤ 127) (he : -30 ≤ e) (he' : e ≤ 65)
    (h : ¬ (d ≤ 65 ∧ f - e ≤ 65 ∧ d - f + e ≤ 65)) :
    (m = .debug ∧ (128 ≤ f - e ∨ f - e ≤ 0 ∧ 128 ≤ d - f + e) ∧ (applyExp m d f e : Out σ _) = .panic .overflow) ∨
    (¬ (m = .debug ∧ (128 ≤ f - e ∨ f - e ≤ 0 ∧ 128 ≤ d - f + e)) ∧
    ∃ fr di hz : Int, (applyExp m d f e : Out σ _) = .ok (fr, di, hz) ∧ di % 2 ^ 64 > MAX_DIGITS) := by
  by_cases hover : m = .debug ∧ (128 ≤ f - e ∨ f - e ≤ 0 ∧ 128 ≤ d - f + e)
  · left
    obtain ⟨rfl, hover⟩ := hover
    refine ⟨rfl, hover, ?_⟩
    unfold applyExp
    rw [wrap8_ok (by omega) (by omega), wrap8_ok (by omega) (by omega)]
    by_cases h1 : 128 ≤ (f : Int) - e
    · rcases i8_out (m := .debug) (σ := σ) (x := (f : Int) - e) h1 (by omega) with ⟨-, h2⟩ | ⟨h2, -⟩
      · rw [h2]; rfl
      · cases h2
    · rw [i8_ok (by omega) (by omega), ok_bind, if_neg (by omega), if_neg (by omega)]
      rcases i8_out (m := .debug) (σ := σ) (x := (d : Int) - (f - e)) (by omega) (by omega) with ⟨-, h2⟩ | ⟨h2, -⟩
      · rw [h2]; rfl
      · cases h2
  · right
    refine ⟨hover, ?_⟩
    rcases applyExp_bad (m := m) (σ := σ) hfd hd he he' h with ⟨hm, h1⟩ | h1
    · exfalso
      subst hm
      have h2 : (f : Int) - e < 128 := by by_contra hc; exact hover ⟨rfl, by omega⟩
      have h3 : (f : Int) - e ≤ 0 → (d : Int) - f + e < 128 := by
        intro hh; by_contra hc; exact hover ⟨rfl, by omega⟩
      unfold applyExp at h1
      rw [wrap8_ok (by omega) (by omega), wrap8_ok (by omega) (by omega), i8_ok (by omega) (by omega), ok_bind] at h1
      by_cases a : (f : Int) - e = 0
      · rw [if_pos a] at h1; cases h1
      rw [if_neg a] at h1
      by_cases b : (f : Int) - e > 0
      · rw [if_pos b] at h1
        by_cases c : (d : Int) > f - e
        · rw [if_pos c] at h1; cases h1
        · rw [if_neg c, i8_ok (by omega) (by omega), ok_bind] at h1; cases h1
      · rw [if_neg b, i8_ok (by omega) (by omega), ok_bind] at h1; cases h1
    · exact h1

/-- In release builds the counters are reduced to eight bits. -/
theorem applyExp_release (n f : Nat) (e : Int) :
    (applyExp .release (wrap 8 n) f e : Out σ _) =
      if wrap 8 (f - e) ≤ 0 then .ok (0, wrap 8 (n - (f - e)), 0)
      else if wrap 8 n > wrap 8 (f - e) then .ok (wrap 8 (f - e), wrap 8 n, 0)
      else .ok (wrap 8 (f - e), wrap 8 (f - e), wrap 8 (wrap 8 (f - e) - wrap 8 n)) := by
  have h2 := wrap8_sub n (f - e)
  have hN := wrap8_range n
  unfold applyExp
  rw [i8_release, ok_bind, wrap8_sub, ← h2]
  generalize wrap 8 ((f : Int) - e) = F
  generalize wrap 8 (n : Int) = N at hN
  by_cases h0 : F = 0
  · subst h0
    rw [if_pos rfl, if_pos (le_refl _), sub_zero, wrap8_id hN.1 hN.2]; rfl
  rw [if_neg h0]
  by_cases h1 : F > 0
  · rw [if_pos h1, if_neg (show ¬ F ≤ 0 by omega)]
    by_cases h3 : N > F
    · rw [if_pos h3, if_pos h3]; rfl
    · rw [if_neg h3, if_neg h3, i8_release, ok_bind]; rfl
  · rw [if_neg h1, if_pos (show F ≤ 0 by omega), i8_release, ok_bind]; rfl

/-! ## Writing -/

theorem parsedDec_of {old r : FixedDecimal} {sign : Bool} {I F : Nat} {M : Int}
    (h1 : neg r = sign) (h2 : intgDigits r = I) (h3 : r.frac = F) (h4 : r.lsu.length = old.lsu.length)
    (hk : unitsFor I + unitsFor F ≤ old.lsu.length)
    (h5 : ∀ j, unitsFor I + unitsFor F ≤ j → dg r.lsu j = dg old.lsu j)
    (h6 : ∀ j, j < unitsFor I + unitsFor F → 0 ≤ dg r.lsu j ∧ dg r.lsu j < 1000000000)
    (h7 : seg r.lsu 0 (unitsFor I + unitsFor F) = M) : r = parsedDec old sign I F M := by
  set k := unitsFor I + unitsFor F with hkdef
  have e1 : r.intg = BitVec.ofNat 8 (if sign then 128 + I else I) := by
    apply BitVec.eq_of_toNat_eq
    have m1 : r.intg.msb = decide (2 ^ 7 ≤ r.intg.toNat) := by rw [BitVec.msb_eq_decide]
    have b1 := r.intg.isLt
    rw [← h1, ← h2]
    unfold neg intgDigits
    rw [m1, BitVec.toNat_ofNat]
    by_cases hm : 2 ^ 7 ≤ r.intg.toNat
    · simp only [hm, decide_true, if_true]; omega
    · simp only [hm, decide_false, Bool.false_eq_true, if_false]; omega
  have e2 : r.lsu.take k = unitsOf k M := by
    have hdig : DigL (r.lsu.take k) := by
      intro u hu
      obtain ⟨j, hj, rfl⟩ := List.getElem_of_mem hu
      have hj' : j < k := by rw [List.length_take] at hj; omega
      have := h6 j hj'
      rw [List.length_take] at hj
      unfold dg at this
      rw [List.getD_eq_getElem?_getD, List.getElem?_eq_getElem (by omega), Option.getD_some] at this
      rw [List.getElem_take]; exact this
    have hlen : (r.lsu.take k).length = k := by rw [List.length_take]; omega
    have := unitsOf_unitsVal hdig
    rw [hlen] at this
    rw [← this, unitsVal_take (by omega), ← h7]
    unfold seg
    rw [Nat.sub_zero]
    congr 1
    exact psum_congr fun j _ => by rw [Nat.zero_add]
  have e3 : r.lsu.drop k = old.lsu.drop k := by
    apply list_ext_dg
    · simp [h4]
    · intro i hi
      have := h5 (k + i) (by omega)
      unfold dg at this ⊢
      rw [List.getD_eq_getElem?_getD, List.getD_eq_getElem?_getD, List.getElem?_drop, List.getElem?_drop]
      rw [List.getD_eq_getElem?_getD, List.getD_eq_getElem?_getD] at this
      exact this
  cases r with
  | mk intg frac lsu =>
    unfold parsedDec
    dsimp only at e1 h3 e2 e3
    rw [e1, h3, ← hkdef, ← e2, ← e3, List.take_append_drop]

/-- All digits written: the reference. -/
theorem writeDigits_parsed {self : FixedDecimal} {bs : List Nat} {st : Scan} {ds : List Nat}
    (hself : self.lsu.length = 9) (hcf : 0 ≤ st.cfirst)
    (ht : Text st.last (bs.drop st.cfirst.toNat) st.cfirst ds) (hcl : st.cfirst ≤ bs.length)
    {fr di hz : Nat} (hsum : fr + di ≤ 65)
    (hshape : (fr = 0 ∧ ds.length ≤ di ∧ hz = 0) ∨ (ds.length = fr + di ∧ hz = 0) ∨ (di = 0 ∧ fr = ds.length + hz)) :
    (writeDigits m self bs st fr (fr + di : Nat) hz : Out σ _) = .ok (parsedDec self st.neg di fr
      (digitsVal ds * 10 ^ (di - ds.length + (9 * unitsFor fr - fr)))) := by
  obtain ⟨r, hr, c1, c2, c3, c4, c5, c6, c7, c8⟩ := writeDigits_spec (m := m) (σ := σ) hself hcf ht hcl hsum hshape
  rw [hr]
  congr 1
  refine parsedDec_of c1 c2 c3 (by rw [c4, hself]) (by rw [hself]; unfold unitsFor; omega) c5 c6 ?_
  rw [Nat.add_comm, seg_split (Nat.zero_le (unitsFor fr)) (Nat.le_add_right _ _), c7, c8, Nat.sub_zero, pow9]
  have hN : digitsVal ds = digitsVal (ds.take di) * 10 ^ (ds.drop di).length + digitsVal (ds.drop di) := by
    rw [← digitsVal_append, List.take_append_drop]
  have hpad : fr ≤ 9 * unitsFor fr := by unfold unitsFor; omega
  have hp : (10 : Int) ^ (9 * unitsFor fr) = 10 ^ fr * 10 ^ (9 * unitsFor fr - fr) := by
    rw [← pow_add]; congr 1; omega
  rw [hN, List.length_drop, hp, pow_add]
  push_cast
  rcases hshape with ⟨a, b, c⟩ | ⟨a, b⟩ | ⟨a, b⟩
  · rw [List.drop_eq_nil_of_le b, digitsVal_nil, a, show ds.length - di = 0 by omega]; simp [unitsFor]
  · rw [show ds.length - di = fr by omega, show di - ds.length = 0 by omega]; ring
  · subst a; simp [digitsVal_nil]

/-- Release builds after a wrapped count: only the first `c` digits are written. -/
theorem writeDigits_cut {self : FixedDecimal} {bs : List Nat} {st : Scan} {ds : List Nat}
    (hself : self.lsu.length = 9)
    (ht : Text st.last (bs.drop st.cfirst.toNat) st.cfirst ds)
    {c : Nat} (hc : c ≤ 65) (hlen : c < ds.length) :
    (writeDigits .release self bs st 0 (c : Int) 0 : Out σ _) = .ok (parsedDec self st.neg c 0 (digitsVal (ds.take c))) := by
  have key : ∃ lsu', (writeDigits .release self bs st 0 (c : Int) 0 : Out σ _) =
      .ok (if st.neg then FixedDecimal.setNeg ⟨BitVec.ofInt 8 (c : Int), 0, lsu'⟩ else ⟨BitVec.ofInt 8 (c : Int), 0, lsu'⟩) ∧
      Wrote self.lsu lsu' 0 (unitsFor c) ∧ seg lsu' 0 (unitsFor c) = digitsVal (ds.take c) := by
    by_cases h0 : c = 0
    · subst h0
      refine ⟨self.lsu, ?_, by simpa [unitsFor] using Wrote.refl self.lsu 0, by simp [unitsFor, seg_self, digitsVal_nil]⟩
      unfold writeDigits
      have g0 : (getUnits .release 0 : Out σ Int) = .ok 0 := rfl
      have u0 : (usz .release (0 + 0 - 1) : Out σ Int) = .ok (2 ^ 64 - 1) := rfl
      rw [show (((0 : Nat) : Int) - 0) = 0 from rfl, i8_ok (by omega) (by omega), ok_bind, g0, ok_bind, ok_bind, u0, ok_bind]
      dsimp only
      rw [if_neg (by omega)]
      rfl
    · have hpos : 0 < unitsFor c ∧ unitsFor c ≤ 8 := by unfold unitsFor; omega
      obtain ⟨rest, lsu', e, w, s, -⟩ := intgPart_spec (m := .release) (σ := σ) (n := (bs.length : Int)) ht (fu := 0) (c := c)
        (lsu := self.lsu) (by omega) (by omega) (by omega)
      rw [Nat.zero_add] at w s e
      refine ⟨lsu', ?_, w, by rw [s, show c - ds.length = 0 by omega]; simp⟩
      unfold writeDigits
      have g0 : (getUnits .release 0 : Out σ Int) = .ok 0 := rfl
      rw [sub_zero, i8_ok (by omega) (by omega), ok_bind, getUnits_nat (by omega), ok_bind, g0, ok_bind,
        usz_ok (by omega) (by omega), ok_bind]
      dsimp only
      rw [wrap64_ok (by omega) (by omega), if_pos (by omega), show (unitsFor c : Int) + 0 - 1 = (unitsFor c : Int) - 1 by ring, e, ok_bind]
      dsimp only
      rw [if_neg (by omega)]
      rfl
  obtain ⟨lsu', e, w, s⟩ := key
  rw [e]
  have hi : intgDigits ⟨BitVec.ofInt 8 (c : Int), 0, lsu'⟩ = c := intgDigits_mk (by omega)
  have hn : neg ⟨BitVec.ofInt 8 (c : Int), 0, lsu'⟩ = false := neg_mk (by omega)
  have hl : ∀ b : Bool, (if b then FixedDecimal.setNeg ⟨BitVec.ofInt 8 (c : Int), 0, lsu'⟩
      else ⟨BitVec.ofInt 8 (c : Int), 0, lsu'⟩).lsu = lsu' := by intro b; cases b <;> rfl
  have hz : unitsFor 0 = 0 := rfl
  refine congrArg Out.ok ?_
  refine parsedDec_of ?_ ?_ ?_ ?_ ?_ ?_ ?_ ?_
  · cases st.neg
    · exact hn
    · exact neg_setNeg _
  · cases st.neg
    · exact hi
    · simpa using hi
  · cases st.neg <;> rfl
  · rw [hl, w.len]
  · rw [hself]; unfold unitsFor; omega
  · intro j hj; rw [hl]; exact w.same j (by omega)
  · intro j hj; rw [hl]; exact w.rng j (by omega) (by omega)
  · rw [hl, hz, Nat.add_zero, s]

/-- More digits than the units left can hold: an out-of-range write. -/
theorem fracLoop_over {last : Int} {cs : List Nat} {i : Int} {ds : List Nat} (ht : Text last cs i ds)
    {out : Int} {cut u : Nat} {lsu : List Int} (h1 : 1 ≤ cut) (h9 : cut ≤ 9) (hlen : cut + 9 * u < ds.length) :
    seen (fracLoop .release last cs i out (cut : Int) ((u : Int) - 1) lsu : Out σ _) = none := by
  induction ht generalizing out cut u lsu with
  | dot _ ih => rw [fracLoop, if_pos rfl]; exact ih h1 h9 hlen
  | last => simp at hlen; omega
  | @cons d cs i ds hd hi _ ih =>
    rw [List.length_cons] at hlen
    rw [fracLoop, if_neg (by omega), i8_ok (by omega) (by omega), ok_bind,
      show (cut : Int) - 1 = ((cut - 1 : Nat) : Int) by omega, pow10_nat (by omega), ok_bind]
    obtain ⟨a, ea⟩ := i32_release (σ := σ) (((d + 48 : Nat) : Int) - 48)
    rw [ea, ok_bind]
    obtain ⟨b, eb⟩ := i32_release (σ := σ) (a * 10 ^ (cut - 1))
    rw [eb, ok_bind]
    obtain ⟨c, ec⟩ := i32_release (σ := σ) (out + b)
    rw [ec, ok_bind, if_neg hi]
    by_cases hc : cut = 1
    · subst hc
      rw [if_neg (by simp)]
      rcases u with _ | u
      · have : (upd lsu ((0 : Nat) - 1 : Int) c : Out σ _) = .panic .index := by
          unfold upd; rw [if_neg (by simp)]
        rw [this]; rfl
      · rw [seen_bind]
        rcases hu : (upd lsu (((u + 1 : Nat) : Int) - 1) c : Out σ _) with l | ⟨e, s⟩ | p
        · dsimp only
          rw [show ((u + 1 : Nat) : Int) - 1 - 1 = (u : Int) - 1 by push_cast; ring]
          exact ih (cut := 9) (by omega) (by omega) (by omega)
        · exact absurd hu (NoErr.upd _ _)
        · rfl
    · rw [if_pos (by omega)]
      exact ih (by omega) (by omega) (by omega)

theorem headZeroLoop_ok {fuel : Nat} {hz : Int} {u : Nat} {lsu lsu' : List Int} {hz' up' : Int} (h0 : 0 ≤ hz) (h1 : hz ≤ 127)
    (h : (headZeroLoop .release fuel hz ((u : Int) - 1) lsu : Out σ _) = .ok (hz', up', lsu')) :
    0 ≤ hz' ∧ hz' < 9 ∧ ∃ u' : Nat, u' ≤ u ∧ up' = (u' : Int) - 1 := by
  induction fuel generalizing hz u lsu with
  | zero => cases h
  | succ fuel ih =>
    rw [headZeroLoop] at h
    unfold DIGITS_PER_UNIT at h
    by_cases hc : hz ≥ 9
    · rw [if_pos hc] at h
      rcases u with _ | u
      · have : (upd lsu ((0 : Nat) - 1 : Int) 0 : Out σ _) = .panic .index := by
          unfold upd; rw [if_neg (by simp)]
        rw [this] at h; cases h
      · rcases hu : (upd lsu (((u + 1 : Nat) : Int) - 1) 0 : Out σ _) with l | ⟨e, s⟩ | p <;> rw [hu] at h
        · rw [ok_bind, i8_ok (by omega) (by omega), ok_bind,
            show ((u + 1 : Nat) : Int) - 1 - 1 = (u : Int) - 1 by push_cast; ring] at h
          obtain ⟨a, b, u', c, d⟩ := ih (by omega) (by omega) h
          exact ⟨a, b, u', by omega, d⟩
        · cases h
        · cases h
    · rw [if_neg hc] at h
      injection h with h
      simp only [Prod.mk.injEq] at h
      obtain ⟨rfl, rfl, -⟩ := h
      exact ⟨h0, by omega, u, le_refl _, rfl⟩

/-- Release builds after a wrapped count that leaves fractional digits: the digits run past the buffer. -/
theorem writeDigits_over {self : FixedDecimal} {bs : List Nat} {st : Scan} {ds : List Nat}
    (hself : self.lsu.length = 9) (hcf : 0 ≤ st.cfirst)
    (ht : Text st.last (bs.drop st.cfirst.toNat) st.cfirst ds) (hcl : st.cfirst ≤ bs.length)
    {fr di : Nat} {hz : Int} (hf : 1 ≤ fr) (hsum : fr + di ≤ 65) (hlen : 128 ≤ ds.length)
    (hshape : hz = 0 ∨ di = 0 ∧ (0 ≤ hz ∧ hz ≤ 127 ∨ -128 ≤ hz ∧ hz ≤ -63)) :
    seen (writeDigits .release self bs st fr (fr + di : Nat) hz : Out σ _) = none := by
  have hiu : unitsFor di + unitsFor fr ≤ 9 ∧ 1 ≤ unitsFor fr ∧ 9 * unitsFor fr ≤ fr + 8 := by unfold unitsFor; omega
  have stage1 : ∃ (lsu1 : List Int) (rest : List Nat) (off : Int),
      ((if (unitsFor di : Int) > 0 then do
          let cs := bs.drop st.cfirst.toNat
          let (rest, out, cut, up, lsu) ← intgLoop .release st.last cs st.cfirst 0 (di : Int)
            ((unitsFor di : Int) + (unitsFor fr : Int) - 1) self.lsu
          let re ← mod9 cut
          let p ← idx POW10 re
          let v ← i32 .release (out * p)
          let lsu ← upd lsu up v
          let cut ← i8 .release (cut - re)
          let (up, lsu) ← zeroUnitsLoop .release (cut.toNat + 1) cut (up - 1) lsu
          return (lsu, rest, (bs.length : Int) - rest.length, up)
        else return (self.lsu, bs.drop st.cfirst.toNat, st.cfirst, (unitsFor di : Int) + (unitsFor fr : Int) - 1)
        : Out σ (List Int × List Nat × Int × Int))) = .ok (lsu1, rest, off, (unitsFor fr : Int) - 1) ∧
      Text st.last rest off (ds.drop di) := by
    by_cases hdi : di = 0
    · subst hdi
      refine ⟨self.lsu, bs.drop st.cfirst.toNat, st.cfirst, ?_, by simpa using ht⟩
      rw [if_neg (by unfold unitsFor; simp)]; simp [unitsFor]
    · have hpos : 0 < unitsFor di := by unfold unitsFor; omega
      obtain ⟨rest, lsu', e, w, s, t⟩ := intgPart_spec (m := .release) (σ := σ) (n := (bs.length : Int)) ht (fu := unitsFor fr) (c := di)
        (lsu := self.lsu) (by omega) (by omega) (by omega)
      refine ⟨lsu', rest, (bs.length : Int) - rest.length, ?_, ?_⟩
      · rw [if_pos (by omega), ← e,
          show (unitsFor di : Int) + (unitsFor fr : Int) - 1 = ((unitsFor fr + unitsFor di : Nat) - 1 : Int) by push_cast; ring]
      · obtain ⟨t1, t2⟩ := t (by omega)
        convert t2 using 1
        rw [List.length_drop] at t1 ⊢
        omega
  obtain ⟨lsu1, rest, off, e1, t1⟩ := stage1
  unfold writeDigits
  rw [show ((fr + di : Nat) : Int) - fr = (di : Int) by push_cast; ring, i8_ok (by omega) (by omega), ok_bind,
    getUnits_nat (by omega), ok_bind, getUnits_nat (by omega), ok_bind, usz_ok (by omega) (by omega), ok_bind]
  dsimp only
  rw [wrap64_ok (by omega) (by omega), e1, ok_bind]
  dsimp only
  rw [if_pos (by omega)]
  have main : seen ((do
        let (hz, up, lsu) ← headZeroLoop .release (hz.toNat + 1) hz ((unitsFor fr : Int) - 1) lsu1
        let cut ← i8 .release (DIGITS_PER_UNIT - hz)
        let (out, up, lsu) ← fracLoop .release st.last rest off 0 cut up lsu
        upd lsu up out) : Out σ (List Int)) = none := by
    have hld : (ds.drop di).length = ds.length - di := List.length_drop
    by_cases hneg : hz < 0
    · have e2 : (headZeroLoop .release (hz.toNat + 1) hz ((unitsFor fr : Int) - 1) lsu1 : Out σ _) =
          .ok (hz, (unitsFor fr : Int) - 1, lsu1) := by
        rw [headZeroLoop, if_neg (by unfold DIGITS_PER_UNIT; omega)]
      rw [e2, ok_bind]
      dsimp only
      rw [i8_release, ok_bind]
      have bad : ∀ c : Int, (c = 127 ∨ c < 0 ∨ 9 < c) → ∀ f : Int → Out σ (Int × Int × List Int),
          seen ((idx POW10 c : Out σ Int) >>= f) = none := by
        intro c hc f
        have : (idx POW10 c : Out σ Int) = .panic .index := by
          unfold idx
          by_cases h0 : 0 ≤ c
          · rw [if_pos h0, List.getElem?_eq_none (by simp [POW10]; omega)]
          · rw [if_neg h0]
        rw [this]; rfl
      have hcut : ∀ w : Int, w = wrap 8 (DIGITS_PER_UNIT - hz) → ∀ c : Int, c = wrap 8 (w - 1) → c = 127 ∨ c < 0 ∨ 9 < c := by
        intro w hw c hc
        have hr : -128 ≤ hz ∧ hz ≤ -63 := by rcases hshape with h | ⟨-, h⟩ <;> omega
        unfold DIGITS_PER_UNIT wrap at *
        rw [Int.bmod_def] at hw hc
        norm_num at hw hc
        omega
      have hfl : ∀ (cs : List Nat) (i : Int) (ds : List Nat), Text st.last cs i ds → seen (fracLoop .release st.last cs i 0
          (wrap 8 (DIGITS_PER_UNIT - hz)) ((unitsFor fr : Int) - 1) lsu1 : Out σ _) = none := by
        intro cs i ds h
        induction h with
        | dot _ ih => rw [fracLoop, if_pos rfl]; exact ih
        | last => rw [fracLoop, if_neg (by omega), i8_release, ok_bind]; exact bad _ (hcut _ rfl _ rfl) _
        | cons => rw [fracLoop, if_neg (by omega), i8_release, ok_bind]; exact bad _ (hcut _ rfl _ rfl) _
      have := hfl _ _ _ t1
      rw [seen_bind]
      rcases hx : (fracLoop .release st.last rest off 0 (wrap 8 (DIGITS_PER_UNIT - hz)) ((unitsFor fr : Int) - 1) lsu1 : Out σ _)
        with l | ⟨e, s⟩ | p <;> rw [hx] at this
      · cases this
      · cases this
    · have hz0 : 0 ≤ hz ∧ hz ≤ 127 := by rcases hshape with h | ⟨-, h⟩ <;> omega
      rcases hx : (headZeroLoop .release (hz.toNat + 1) hz ((unitsFor fr : Int) - 1) lsu1 : Out σ _) with ⟨hz', up', lsu'⟩ | ⟨e, s⟩ | p
      · obtain ⟨a, b, u', c, rfl⟩ := headZeroLoop_ok hz0.1 hz0.2 hx
        rw [ok_bind]
        dsimp only
        unfold DIGITS_PER_UNIT
        rw [i8_ok (by omega) (by omega), ok_bind, show (9 : Int) - hz' = ((9 - hz').toNat : Int) by omega]
        have := fracLoop_over (σ := σ) t1 (out := 0) (cut := (9 - hz').toNat) (u := u') (lsu := lsu') (by omega) (by omega)
          (by rw [hld]; omega)
        rw [seen_bind]
        rcases hy : (fracLoop .release st.last rest off 0 ((9 - hz').toNat : Int) ((u' : Int) - 1) lsu' : Out σ _)
          with l | ⟨e, s⟩ | p <;> rw [hy] at this
        · cases this
        · cases this
      · exact absurd hx (headZeroLoop_noErr _ _ _ _ _ _)
      · rfl
  rw [seen_bind]
  revert main
  generalize (do
        let (hz, up, lsu) ← headZeroLoop .release (hz.toNat + 1) hz ((unitsFor fr : Int) - 1) lsu1
        let cut ← i8 .release (DIGITS_PER_UNIT - hz)
        let (out, up, lsu) ← fracLoop .release st.last rest off 0 cut up lsu
        upd lsu up out : Out σ (List Int)) = x
  intro main
  rcases x with l | ⟨e, s⟩ | p
  · cases main
  · cases main
  · rfl

end Fxd
