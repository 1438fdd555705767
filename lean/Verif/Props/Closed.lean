import Verif.Props.ReferenceParse
import Verif.Props.ReferenceEdges
/-!
# What the reference results look like

Consequences of C73 and C74 for the shape of results: parsing gives truthful digit counts for every byte string (C09 without
a bound on the length of the text), and so do the two lowest precisions of rounding.
-/

namespace Fxd
open Spec

theorem unitsOf_zero (n : Nat) : unitsOf n 0 = List.replicate n 0 := by
  induction n with
  | zero => rfl
  | succ n ih => simp [unitsOf, ih, List.replicate_succ]

theorem unitsOf_add (k n : Nat) (M : Int) : unitsOf (k + n) M = unitsOf k M ++ unitsOf n (M / 1000000000 ^ k) := by
  induction k generalizing M with
  | zero => simp [unitsOf]
  | succ k ih =>
    rw [show k + 1 + n = (k + n) + 1 by omega]
    simp only [unitsOf, ih, List.cons_append]
    rw [Int.ediv_ediv_of_nonneg (by norm_num), ← pow_succ']

theorem unitsOf_digL (n : Nat) (M : Int) : DigL (unitsOf n M) := by
  induction n generalizing M with
  | zero => intro u hu; cases hu
  | succ n ih =>
    intro u hu
    simp only [unitsOf, List.mem_cons] at hu
    rcases hu with rfl | hu
    · omega
    · exact ih _ u hu

theorem unitsVal_unitsOf (n : Nat) {M : Int} (h0 : 0 ≤ M) (h : M < 1000000000 ^ n) : unitsVal (unitsOf n M) = M := by
  induction n generalizing M with
  | zero => simp [unitsOf, unitsVal]; norm_num at h; omega
  | succ n ih =>
    simp only [unitsOf, unitsVal]
    rw [ih (by omega) (by rw [pow_succ] at h; omega)]
    omega

theorem unitsOf_short {k n : Nat} {M : Int} (h0 : 0 ≤ M) (h : M < 1000000000 ^ k) :
    unitsOf (k + n) M = unitsOf k M ++ List.replicate n 0 := by
  rw [unitsOf_add, Int.ediv_eq_zero_of_lt h0 h, unitsOf_zero]

/-- A decimal built by `dec` has the sign, counts and mantissa it was built from. -/
theorem dec_tight {s : Bool} {I F : Nat} {M : Int} (hI : I ≤ 81) (hu : unitsFor I + unitsFor F ≤ 9) (h0 : 0 ≤ M)
    (hM : M < 10 ^ (I + 9 * unitsFor F)) (hF : (10 ^ (9 * unitsFor F - F) : Int) ∣ M) :
    Tight (dec s I F M) ∧ intgDigits (dec s I F M) = I ∧ fracDigits (dec s I F M) = F ∧ mant (dec s I F M) = M ∧
      neg (dec s I F M) = s := by
  have hb : ∀ I : Nat, I ≤ 81 → (BitVec.ofNat 8 (128 + I)).toNat = 128 + I ∧ (BitVec.ofNat 8 I).toNat = I ∧
      (BitVec.ofNat 8 (128 + I)).msb = true ∧ (BitVec.ofNat 8 I).msb = false := by decide
  obtain ⟨b1, b2, b3, b4⟩ := hb I hI
  have e1 : intgDigits (dec s I F M) = I := by
    unfold intgDigits dec; cases s
    · simp only [Bool.false_eq_true, if_false]; rw [b2]; omega
    · simp only [if_true]; rw [b1]; omega
  have e2 : fracDigits (dec s I F M) = F := by unfold fracDigits dec; simp
  have e3 : neg (dec s I F M) = s := by
    unfold neg dec; cases s
    · simp only [Bool.false_eq_true, if_false]; exact b4
    · simp only [if_true]; exact b3
  have e4 : iu (dec s I F M) = unitsFor I := by unfold iu; rw [e1]
  have e5 : fu (dec s I F M) = unitsFor F := by unfold fu; rw [e2]
  have hk : M < 1000000000 ^ (unitsFor I + unitsFor F) := by
    refine lt_of_lt_of_le hM ?_
    rw [pow9 (unitsFor I + unitsFor F)]
    exact pow_le_pow_right₀ (by norm_num) (by unfold unitsFor; omega)
  obtain ⟨n, hn⟩ : ∃ n, 9 = unitsFor I + unitsFor F + n := ⟨_, (Nat.add_sub_cancel' hu).symm⟩
  have el : (dec s I F M).lsu = unitsOf (unitsFor I + unitsFor F) M ++ List.replicate n 0 := by
    show unitsOf 9 M = _
    rw [hn]; exact unitsOf_short h0 hk
  have wf : WF (dec s I F M) := by
    refine ⟨length_unitsOf 9 M, unitsOf_digL 9 M, by simp [dec], by rw [e4, e5]; exact hu, ?_⟩
    rw [e4, e5, el, List.drop_append, length_unitsOf, Nat.sub_self, List.drop_zero,
      List.drop_of_length_le (by rw [length_unitsOf]), List.nil_append]
    intro u hu
    exact (List.mem_replicate.mp hu).2
  have e6 : mant (dec s I F M) = M := by
    rw [← wf.unitsVal_eq]
    exact unitsVal_unitsOf 9 h0 (lt_of_lt_of_le hk (pow_le_pow_right₀ (by norm_num) hu))
  exact ⟨⟨wf, by rw [e6, e1, e5]; exact hM, by rw [e6, e5, e2]; exact hF⟩, e1, e2, e6, e3⟩

theorem parsedDec_zero {s : Bool} {I F : Nat} {M : Int} (hu : unitsFor I + unitsFor F ≤ 9) (h0 : 0 ≤ M)
    (hM : M < 10 ^ (I + 9 * unitsFor F)) : parsedDec FixedDecimal.zero s I F M = dec s I F M := by
  have hk : M < 1000000000 ^ (unitsFor I + unitsFor F) := by
    refine lt_of_lt_of_le hM ?_
    rw [pow9 (unitsFor I + unitsFor F)]
    exact pow_le_pow_right₀ (by norm_num) (by unfold unitsFor; omega)
  unfold parsedDec dec
  congr 1
  obtain ⟨n, hn⟩ : ∃ n, 9 = unitsFor I + unitsFor F + n := ⟨_, (Nat.add_sub_cancel' hu).symm⟩
  rw [show unitsOf 9 M = unitsOf (unitsFor I + unitsFor F + n) M from by rw [← hn], unitsOf_short h0 hk]
  congr 1
  show (List.replicate 9 0).drop _ = _
  rw [List.drop_replicate]
  congr 1
  omega

theorem leadDigits_lt (bs : List Nat) : ∀ d ∈ leadDigits bs, d < 10 := by
  intro d hd
  unfold leadDigits at hd
  obtain ⟨c, hc, rfl⟩ := List.mem_map.mp hd
  have key : ∀ l : List Nat, ∀ c ∈ l.takeWhile isDig, isDig c = true := by
    intro l
    induction l with
    | nil => intro c h; cases h
    | cons x xs ih =>
      intro c h
      rw [List.takeWhile_cons] at h
      by_cases hx : isDig x = true
      · rw [if_pos hx] at h
        rcases List.mem_cons.mp h with rfl | h
        · exact hx
        · exact ih c h
      · rw [if_neg hx] at h; cases h
  have := key bs c hc
  unfold isDig at this
  simp only [decide_eq_true_eq] at this
  omega

theorem shape_digits (bs : List Nat) : ∀ d ∈ (shapeOf bs).ip ++ (shapeOf bs).fp, d < 10 := by
  unfold shapeOf
  generalize cutSign bs = c
  obtain ⟨n, bs⟩ := c
  dsimp only
  split
  · intro d hd
    rcases List.mem_append.mp hd with h | h
    · exact leadDigits_lt _ d h
    · exact leadDigits_lt _ d h
  · simp only [List.append_nil]
    exact leadDigits_lt _

theorem refNumber_tight {m : Mode} {s : Bool} {ip fp : List Nat} {e : Int} {r : FixedDecimal} (hd : ∀ d ∈ ip ++ fp, d < 10)
    (h : refNumber m FixedDecimal.zero s ip fp e = some (.ok r)) : Tight r ∧ intgDigits r + fracDigits r ≤ 65 ∧ neg r = s := by
  unfold refNumber at h
  dsimp only at h
  have key : ∀ I F : Nat, ∀ M : Int, I + F ≤ 65 → 0 ≤ M → M < 10 ^ (I + 9 * unitsFor F) → (10 ^ (9 * unitsFor F - F) : Int) ∣ M →
      parsedDec FixedDecimal.zero s I F M = r → Tight r ∧ intgDigits r + fracDigits r ≤ 65 ∧ neg r = s := by
    intro I F M h1 h2 h3 h4 h5
    have hu : unitsFor I + unitsFor F ≤ 9 := by unfold unitsFor; omega
    rw [parsedDec_zero hu h2 h3] at h5
    obtain ⟨t1, t2, t3, -, t4⟩ := dec_tight (s := s) (by omega) hu h2 h3 h4
    rw [← h5]
    exact ⟨t1, by rw [t2, t3]; exact h1, t4⟩
  by_cases hn : ip.length + fp.length ≤ 127
  · rw [if_pos hn] at h
    by_cases hdb : m = .debug ∧ (128 ≤ (fp.length : Int) - e ∨ (fp.length : Int) - e ≤ 0 ∧ 128 ≤ (ip.length : Int) + e)
    · rw [if_pos hdb] at h; cases h
    rw [if_neg hdb] at h
    by_cases hov : 65 < ip.length + fp.length ∨ 65 < (fp.length : Int) - e ∨ 65 < (ip.length : Int) + e
    · rw [if_pos hov] at h; cases h
    rw [if_neg hov] at h
    injection h with h; injection h with h
    have hlt := digitsVal_lt hd
    rw [List.length_append] at hlt
    have hlt' : (digitsVal (ip ++ fp) : Int) < 10 ^ (ip.length + fp.length) := by exact_mod_cast hlt
    refine key _ _ _ (by omega) (by positivity) ?_ ?_ h
    · rw [show ((ip.length : Int) + e).toNat + 9 * unitsFor ((fp.length : Int) - e).toNat =
          (((ip.length : Int) + e).toNat + 9 * unitsFor ((fp.length : Int) - e).toNat -
            (9 * (unitsFor ((fp.length : Int) - e).toNat : Int) - ((fp.length : Int) - e)).toNat) +
            (9 * (unitsFor ((fp.length : Int) - e).toNat : Int) - ((fp.length : Int) - e)).toNat by
          unfold unitsFor; omega, pow_add]
      refine mul_lt_mul_of_pos_right (lt_of_lt_of_le hlt' (pow_le_pow_right₀ (by norm_num) ?_)) (by positivity)
      unfold unitsFor; omega
    · refine Dvd.dvd.mul_left (pow_dvd_pow _ ?_) _
      omega
  · rw [if_neg hn] at h
    by_cases hF : Int.bmod ((fp.length : Int) - e) 256 ≤ 0
    · rw [if_pos hF] at h
      generalize Int.bmod ((ip.length : Int) + e) 256 = I at h
      by_cases hI : 0 ≤ I ∧ I ≤ 65
      · rw [if_pos hI] at h
        injection h with h; injection h with h
        have hlt := digitsVal_lt (ds := (ip ++ fp).take I.toNat) (fun d h => hd d (List.mem_of_mem_take h))
        have hlt' : (digitsVal ((ip ++ fp).take I.toNat) : Int) < 10 ^ ((ip ++ fp).take I.toNat).length := by exact_mod_cast hlt
        refine key _ _ _ (by omega) (by positivity) ?_ ?_ h
        · refine lt_of_lt_of_le hlt' (pow_le_pow_right₀ (by norm_num) ?_)
          rw [List.length_take]; omega
        · exact one_dvd _
      · rw [if_neg hI] at h; cases h
    · rw [if_neg hF] at h
      split_ifs at h
      cases h

theorem refParse_tight {m : Mode} {bs : List Nat} {r : FixedDecimal} (h : refParse m FixedDecimal.zero bs = some (.ok r)) :
    Tight r ∧ intgDigits r + fracDigits r ≤ 65 ∧ neg r = (shapeOf bs).neg := by
  unfold refParse at h
  dsimp only at h
  split_ifs at h
  · cases h
  cases he : refExp m (shapeOf bs).rest with
  | none => rw [he] at h; cases h
  | some x =>
    rw [he] at h
    cases x with
    | error e => cases h
    | ok e => exact refNumber_tight (shape_digits bs) h

namespace Props
variable {σ : Type} {m : Mode} {a b d res : FixedDecimal}

/-- **C09.** Parsing any byte string whatever with `reset` gives a well-formed decimal with truthful digit counts, at most 65
digits, and a sign flag that says whether the text starts with a minus: also for texts of more than 127 digits, where the
number may not be the one written (C03). -/
theorem C09_parsed_always (m : Mode) (bs : List Nat) {self r : FixedDecimal} (hself : self.lsu.length = 9)
    (h : FixedDecimal.fromBytesStr m self bs true = .ok r) :
    Tight r ∧ intgDigits r + fracDigits r ≤ 65 ∧ neg r = (bs.head? == some 45) := by
  have e := C73_parse (m := m) self bs true hself
  rw [h, if_pos rfl] at e
  obtain ⟨t1, t2, t3⟩ := refParse_tight e.symm
  refine ⟨t1, t2, t3.trans ?_⟩
  have hs : ∀ c : Bool × List Nat, (match c.2.dropWhile isDig with
      | 46 :: r => (⟨c.1, leadDigits c.2, leadDigits r, r.dropWhile isDig⟩ : Shape)
      | rest => ⟨c.1, leadDigits c.2, [], rest⟩).neg = c.1 := by
    intro c; split <;> rfl
  have : (shapeOf bs).neg = (cutSign bs).1 := hs (cutSign bs)
  rw [this]
  unfold cutSign
  split
  · rfl
  · rfl
  · rename_i h1 h2
    cases bs with
    | nil => rfl
    | cons c cs =>
      have : c ≠ 45 := fun hc => h1 cs (by rw [hc])
      simp [this]

/-- **C09.** The same for `from_str`. -/
theorem C09_from_str_always (m : Mode) (bs : List Nat) {r : FixedDecimal} (h : FixedDecimal.fromStr m bs = .ok r) :
    Tight r ∧ intgDigits r + fracDigits r ≤ 65 ∧ neg r = (bs.head? == some 45) := by
  have := fromStr_ok h
  rw [← (C06_entry_points m bs zero_len).1] at this
  exact C09_parsed_always m bs zero_len this

/-- A text of 130 digits in a release build: the counters wrap to -126 and the text is refused; of 260 digits: the first four
are read; both with truthful counts or not at all. -/
example : FixedDecimal.fromStr .release (List.replicate 130 55) = .err .conversionSyntax () ∧
    FixedDecimal.fromStr .release (List.replicate 260 55) = .ok ⟨4#8, 0, [7777, 0, 0, 0, 0, 0, 0, 0, 0]⟩ := by
  decide +kernel

/-- What `refLowest` gives at the two lowest precisions has truthful digit counts. -/
theorem lowest_tight {k : Int} (hd : WF d) (hk : k = -2 ^ 63 ∨ k = -2 ^ 63 + 1) {f : Option FixedDecimal} {r : FixedDecimal}
    (h : refLowest m d k f = some r) : Tight r := by
  unfold refLowest at h
  rcases hk with rfl | rfl
  · rw [if_pos rfl] at h
    by_cases hm : m = .debug
    · rw [if_pos hm] at h; cases h
    rw [if_neg hm] at h
    have hfits := hd.fits
    have hlt : mant d / 10 ^ (9 * fu d) < 1000000000 ^ iu d := by
      have h2 := hd.mant_lt
      rw [pow_add (1000000000 : Int), pow9 (fu d)] at h2
      exact Int.ediv_lt_of_lt_mul (by positivity) h2
    have u0 : unitsFor 0 = 0 := by decide
    unfold refRounded at h
    rw [u0, Nat.add_zero, if_pos hlt,
      if_pos (Or.inr (lt_of_lt_of_le hlt (pow_le_pow_right₀ (by norm_num) (by omega))))] at h
    injection h with h
    rw [← h]
    refine (dec_tight (by omega) ?_ (Int.ediv_nonneg hd.mant_nonneg (by positivity)) ?_ ?_).1
    · rw [unitsFor_mul9, u0]; omega
    · rw [u0, Nat.mul_zero, Nat.add_zero, ← pow9 (iu d)]; exact hlt
    · rw [u0]; exact one_dvd _
  · rw [if_neg (by norm_num), if_pos rfl] at h
    cases h

/-- A quotient of non-zero decimals is that for the effective number of extra digits. -/
theorem divTo_eff (m : Mode) (ha : WF a) (hb : WF b) (hres : res.lsu.length = 9) (za : mant a ≠ 0) (zb : mant b ≠ 0)
    (incr : Nat) :
    match effIncr m a b incr with
    | none => FixedDecimal.divTo m a b res incr = .panic .overflow
    | some j => j < 2 ^ 62 ∧ FixedDecimal.divTo m a b res incr = FixedDecimal.divTo m a b res j := by
  have hE := divFrac_eff m ha hb incr
  obtain ⟨nl, nr, tl, tr, e⟩ := divAbs_nz (m := m) ha hb hres za zb (wrap 64 incr)
  rw [divTo_wrap, e]
  cases hx : effIncr m a b incr with
  | none =>
    rw [hx] at hE
    dsimp only at hE ⊢
    rw [hE]; rfl
  | some j =>
    rw [hx] at hE
    dsimp only at hE ⊢
    rw [hE.2, divTo_eq hE.1]
    obtain ⟨nl', nr', tl', tr', e'⟩ := divAbs_nz (m := m) ha hb hres za zb j
    rw [e', tl.unique tl', tr.unique tr']
    exact ⟨hE.1, rfl⟩

end Props
end Fxd
