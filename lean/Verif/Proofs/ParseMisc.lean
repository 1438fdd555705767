import Verif.Proofs.ParseTop
import Verif.Proofs.NoErr
/-!
# Parser: arbitrary input, error states, sign characters
-/

namespace Fxd
open Spec

variable {σ : Type} {m : Mode}

/-! ## Counting digits of arbitrary input -/

theorem mantDigits_ge (sg : Sign) (ip : List Nat) (fp : Option (List Nat)) (rest : List Nat)
    (hip : ∀ d ∈ ip, d < 10) (hfp : ∀ d ∈ fp.getD [], d < 10) :
    ip.length + (fp.getD []).length ≤ mantDigits (sg.render ++ digitChars ip ++ dotPart fp ++ rest) := by
  have dig : ∀ ds : List Nat, (∀ d ∈ ds, d < 10) → ∀ rest, ds.length + mantDigits rest ≤ mantDigits (digitChars ds ++ rest) := by
    intro ds hd rest
    induction ds with
    | nil => simp [digitChars]
    | cons d ds ih =>
      have hd0 := hd d (by simp)
      have := ih (fun x hx => hd x (by simp [hx]))
      unfold mantDigits at this ⊢
      rw [digitChars_cons, List.cons_append, List.takeWhile_cons, if_pos (by simp; omega), List.filter_cons,
        if_pos (by simp; omega), List.length_cons, List.length_cons]
      omega
  have one : ∀ c : Nat, c ≠ 101 → c ≠ 69 → ∀ rest, mantDigits rest ≤ mantDigits (c :: rest) := by
    intro c h1 h2 rest
    unfold mantDigits
    rw [List.takeWhile_cons, if_pos (by simp [h1, h2]), List.filter_cons]
    split_ifs
    · simp
    · exact le_refl _
  have hs : ∀ xs, mantDigits xs ≤ mantDigits (sg.render ++ xs) := by
    intro xs
    cases sg
    · exact le_refl _
    · exact one 43 (by norm_num) (by norm_num) xs
    · exact one 45 (by norm_num) (by norm_num) xs
  rw [List.append_assoc, List.append_assoc]
  refine le_trans ?_ (hs _)
  refine le_trans ?_ (dig ip hip _)
  have : (fp.getD []).length ≤ mantDigits (dotPart fp ++ rest) := by
    cases fp with
    | none => simp
    | some ds =>
      rw [dotPart, List.cons_append]
      exact le_trans (by have := dig ds hfp rest; simp only [Option.getD_some]; omega) (one 46 (by norm_num) (by norm_num) _)
  omega

/-- Every input either is the text of a numeral with at most 127 digits, or is rejected (given that its digits can
be counted). -/
theorem parse_total {self : FixedDecimal} (bs : List Nat) (reset : Bool) (h : m = .debug ∨ mantDigits bs ≤ 127) :
    (∃ t : Numeral, t.Valid ∧ t.render = bs ∧ t.digits.length ≤ 127) ∨
    Rejected m (afterReset self reset) (FixedDecimal.fromBytesStr m self bs reset) := by
  obtain ⟨sg, ip, fp, rest, rfl, hip, hfp, hs⟩ := mantissa_split bs
  by_cases h127 : ip.length + (fp.getD []).length ≤ 127
  · by_cases hne : ip ++ fp.getD [] = []
    · right
      rw [fromBytesStr_scanned hip hfp hs h127, if_pos hne]; exact Or.inl rfl
    · have hdig : ∀ d ∈ ip ++ fp.getD [], d < 10 := by
        intro d hd; rcases List.mem_append.mp hd with h | h
        exacts [hip d h, hfp d h]
      rcases parseExp_total (m := m) (s := afterReset self reset) rest with h0 | ⟨x, h0, h1, h2⟩ | h0
      · left
        refine ⟨⟨sg, ip, fp, none⟩, ⟨hdig, hne, by simp⟩, ?_, by simpa [Numeral.digits, Numeral.fracs] using h127⟩
        rw [render_eq, h0]
      · left
        refine ⟨⟨sg, ip, fp, some x⟩, ⟨hdig, hne, ?_⟩, ?_, by simpa [Numeral.digits, Numeral.fracs] using h127⟩
        · intro y hy; simp only [Option.mem_def, Option.some.injEq] at hy; subst hy; exact ⟨h1, h2⟩
        · rw [render_eq, h0]
      · right
        rw [fromBytesStr_scanned hip hfp hs h127, if_neg hne]
        rcases h0 with h0 | ⟨hm, h0⟩ <;> rw [h0]
        · exact Or.inl rfl
        · exact Or.inr ⟨hm, rfl⟩
  · right
    rcases h with rfl | h
    · refine Or.inr ⟨rfl, ?_⟩
      unfold FixedDecimal.fromBytesStr
      dsimp only
      rw [if_neg, scan_over hip hfp (by omega)]
      · rfl
      · intro h0
        simp only [List.append_eq_nil_iff] at h0
        have e1 : ip = [] := List.map_eq_nil_iff.mp h0.1.1.2
        have e2 : fp = none := by
          cases fp with
          | none => rfl
          | some _ => simp [dotPart] at h0
        simp [e1, e2] at h127
    · have := mantDigits_ge sg ip fp rest hip hfp
      omega

/-- In debug builds more than 127 digits always panic. -/
theorem parse_over {t : Numeral} (hv : t.Valid) (h : 127 < t.digits.length) (self : FixedDecimal) (reset : Bool) :
    FixedDecimal.fromBytesStr .debug self t.render reset = .panic .overflow := by
  have hip : ∀ d ∈ t.ip, d < 10 := fun d hd => hv.1 d (by unfold Numeral.digits; simp [hd])
  have hfp : ∀ d ∈ t.fp.getD [], d < 10 := fun d hd => hv.1 d (by
    unfold Numeral.digits Numeral.fracs; exact List.mem_append_right _ hd)
  have hlen : t.digits.length = t.ip.length + (t.fp.getD []).length := by
    unfold Numeral.digits Numeral.fracs; simp
  rw [render_eq]
  unfold FixedDecimal.fromBytesStr
  dsimp only
  rw [if_neg, scan_over hip hfp (by omega)]
  · rfl
  · intro h0
    simp only [List.append_eq_nil_iff] at h0
    have e1 : t.ip = [] := List.map_eq_nil_iff.mp h0.1.1.2
    have e2 : t.fp = none := by
      cases hf : t.fp with
      | none => rfl
      | some _ => rw [hf] at h0; simp [dotPart] at h0
    rw [hlen, e1, e2] at h; simp at h

/-! ## Error states -/

theorem scanLoop_noErr (cs : List Nat) (i : Int) (st : Scan) : NoErr (scanLoop m cs i st : Out σ _) := by
  induction cs generalizing i st with
  | nil => exact .ok
  | cons c cs ih =>
    rw [scanLoop]
    refine .ite (fun _ => .bind .i8 fun _ _ => ih _ _) fun _ => .ite (fun _ => ih _ _) fun _ => .ite (fun _ => ih _ _)
      fun _ => .ite (fun _ => ih _ _) fun _ => .ok

theorem applyExp_noErr (d f e : Int) : NoErr (applyExp m d f e : Out σ _) := by
  unfold applyExp
  refine .bind .i8 fun _ _ => .ite (fun _ => .ok) fun _ => .ite (fun _ => .ite (fun _ => .ok) fun _ => .bind .i8 fun _ _ => .ok)
    fun _ => .bind .i8 fun _ _ => .ok

theorem intgLoop_noErr (last : Int) (cs : List Nat) (i out cut up : Int) (lsu : List Int) :
    NoErr (intgLoop m last cs i out cut up lsu : Out σ _) := by
  induction cs generalizing i out cut up lsu with
  | nil => exact .panic
  | cons c cs ih =>
    rw [intgLoop]
    refine .ite (fun _ => ih _ _ _ _ _) fun _ => .bind .i32 fun _ _ => .bind .i32 fun _ _ => .bind .i32 fun _ _ =>
      .bind .i8 fun _ _ => .ite (fun _ => .ok) fun _ => .ite (fun _ => .ok) fun _ => .bind .mod9 fun _ _ =>
      .ite (fun _ => ih _ _ _ _ _) fun _ => .bind .upd fun _ _ => ih _ _ _ _ _

theorem zeroUnitsLoop_noErr (fuel : Nat) (cut up : Int) (lsu : List Int) :
    NoErr (zeroUnitsLoop m fuel cut up lsu : Out σ _) := by
  induction fuel generalizing cut up lsu with
  | zero => exact .panic
  | succ n ih =>
    rw [zeroUnitsLoop]
    exact .ite (fun _ => .bind .upd fun _ _ => .bind .i8 fun _ _ => ih _ _ _) fun _ => .ok

theorem headZeroLoop_noErr (fuel : Nat) (hz up : Int) (lsu : List Int) :
    NoErr (headZeroLoop m fuel hz up lsu : Out σ _) := by
  induction fuel generalizing hz up lsu with
  | zero => exact .panic
  | succ n ih =>
    rw [headZeroLoop]
    exact .ite (fun _ => .bind .upd fun _ _ => .bind .i8 fun _ _ => ih _ _ _) fun _ => .ok

theorem fracLoop_noErr (last : Int) (cs : List Nat) (i out cut up : Int) (lsu : List Int) :
    NoErr (fracLoop m last cs i out cut up lsu : Out σ _) := by
  induction cs generalizing i out cut up lsu with
  | nil => exact .panic
  | cons c cs ih =>
    rw [fracLoop]
    refine .ite (fun _ => ih _ _ _ _ _) fun _ => .bind .i8 fun _ _ => .bind .idx fun _ _ => .bind .i32 fun _ _ =>
      .bind .i32 fun _ _ => .bind .i32 fun _ _ => .ite (fun _ => .ok) fun _ => 
      .ite (fun _ => ih _ _ _ _ _) fun _ => .bind .upd fun _ _ => ih _ _ _ _ _

theorem writeDigits_noErr (self : FixedDecimal) (bs : List Nat) (st : Scan) (frac digits hz : Int) :
    NoErr (writeDigits m self bs st frac digits hz : Out σ _) := by
  unfold writeDigits
  refine .bind .i8 fun _ _ => .bind .getUnits fun _ _ => .bind .getUnits fun _ _ => .bind .usz fun _ _ => .bind ?_ fun _ _ =>
    .bind ?_ fun _ _ => .ok
  · exact .ite (fun _ => .bind (intgLoop_noErr _ _ _ _ _ _ _) fun _ _ => .bind .mod9 fun _ _ => .bind .idx fun _ _ => .bind .i32 fun _ _ =>
      .bind .upd fun _ _ => .bind .i8 fun _ _ => .bind (zeroUnitsLoop_noErr _ _ _ _) fun _ _ => .ok) fun _ => .ok
  · exact .ite (fun _ => .bind (headZeroLoop_noErr _ _ _ _) fun _ _ => .bind .i8 fun _ _ => .bind (fracLoop_noErr _ _ _ _ _ _ _) fun _ _ => .upd)
      fun _ => .ok

theorem parseExp_err {s s' : σ} {rest : List Nat} {e : Error} (h : (parseExp m s rest : Out σ Int) = .err e s') :
    e = .conversionSyntax ∧ s' = s := by
  have rej : Rejected m s (parseExp m s rest : Out σ Int) → e = .conversionSyntax ∧ s' = s := by
    rintro (h1 | ⟨_, h1⟩) <;> rw [h1] at h
    · injection h with h1 h2; exact ⟨h1.symm, h2.symm⟩
    · simp at h
  rcases parseExp_total (m := m) (s := s) rest with h0 | ⟨x, h0, h1, h2⟩ | h0
  · rw [h0] at h; simp [parseExp] at h
  · rw [h0] at h rej
    obtain ⟨a, b⟩ := parseExp_render (m := m) (s := s) h1 h2
    by_cases hx : -30 ≤ x.value ∧ x.value ≤ 65
    · rw [a hx] at h; simp at h
    · exact rej (b hx)
  · exact rej h0

/-- Every `Err` is a syntax error and leaves the decimal as it was after the optional reset. -/
theorem parse_err {self s : FixedDecimal} {bs : List Nat} {reset : Bool} {e : Error}
    (h : FixedDecimal.fromBytesStr m self bs reset = .err e s) : e = .conversionSyntax ∧ s = afterReset self reset := by
  unfold FixedDecimal.fromBytesStr at h
  dsimp only at h
  rw [show (if reset = true then self.setZero else self) = afterReset self reset from rfl] at h
  split_ifs at h with h0
  · injection h with h1 h2; exact ⟨h1.symm, h2.symm⟩
  cases hs : (scanLoop m bs 0 ⟨0, -1, -1, 0, false⟩ : Out FixedDecimal (Scan × List Nat)) with
  | panic p => rw [hs] at h; simp at h
  | err e' s' => exact absurd hs (scanLoop_noErr _ _ _ _ _)
  | ok x =>
    rw [hs, ok_bind] at h
    by_cases h1 : x.1.last = -1
    · rw [if_pos h1] at h; injection h with h1 h2; exact ⟨h1.symm, h2.symm⟩
    rw [if_neg h1] at h
    cases hp : (parseExp m (afterReset self reset) x.2 : Out FixedDecimal Int) with
    | panic p => rw [hp] at h; simp at h
    | err e' s' =>
      rw [hp] at h; simp only [err_bind, Out.err.injEq] at h
      obtain ⟨a, b⟩ := parseExp_err hp
      exact ⟨h.1.symm.trans a, h.2.symm.trans b⟩
    | ok ex =>
      rw [hp, ok_bind] at h
      cases ha : (applyExp m x.1.d (if x.1.dotchar = -1 ∨ x.1.last < x.1.dotchar then 0 else x.1.last - x.1.dotchar) ex :
          Out FixedDecimal (Int × Int × Int)) with
      | panic p => rw [ha] at h; simp at h
      | err e' s' => exact absurd ha (applyExp_noErr _ _ _ _ _)
      | ok y =>
        rw [ha, ok_bind] at h
        split_ifs at h
        · injection h with h1 h2; exact ⟨h1.symm, h2.symm⟩
        · exact absurd h (writeDigits_noErr _ _ _ _ _ _ _ _)

/-! ## Sign characters -/

theorem intgLoop_shift (last : Int) (cs : List Nat) (i out cut up : Int) (lsu : List Int) :
    (intgLoop m (last + 1) cs (i + 1) out cut up lsu : Out σ _) = intgLoop m last cs i out cut up lsu := by
  induction cs generalizing i out cut up lsu with
  | nil => rfl
  | cons c cs ih =>
    rw [intgLoop, intgLoop]
    simp only [ih, add_left_inj]

theorem fracLoop_shift (last : Int) (cs : List Nat) (i out cut up : Int) (lsu : List Int) :
    (fracLoop m (last + 1) cs (i + 1) out cut up lsu : Out σ _) = fracLoop m last cs i out cut up lsu := by
  induction cs generalizing i out cut up lsu with
  | nil => rfl
  | cons c cs ih =>
    rw [fracLoop, fracLoop]
    simp only [ih, add_left_inj]

/-- The scan variables one position further on, with sign `n`. -/
def shiftScan (n : Bool) (st : Scan) : Scan :=
  { d := st.d
    dotchar := if st.dotchar = -1 then -1 else st.dotchar + 1
    last := if st.last = -1 then -1 else st.last + 1
    cfirst := st.cfirst + 1
    neg := n }

theorem scan_shift (n : Bool) (cs : List Nat) (i : Int) (st : Scan) (hi : 0 ≤ i) (hc : 0 ≤ st.cfirst) (hn : st.neg = false)
    (hdc : -1 ≤ st.dotchar) (hla : -1 ≤ st.last)
    (hs : i = 0 → ∀ c cs', cs = c :: cs' → c ≠ 45 ∧ c ≠ 43) :
    (∃ p, (scanLoop m cs i st : Out σ _) = .panic p ∧ (scanLoop m cs (i + 1) (shiftScan n st) : Out σ _) = .panic p) ∨
    ∃ st' rest, (scanLoop m cs i st : Out σ _) = .ok (st', rest) ∧
      (scanLoop m cs (i + 1) (shiftScan n st) : Out σ _) = .ok (shiftScan n st', rest) ∧ 0 ≤ st'.cfirst ∧ st'.neg = false ∧
      -1 ≤ st'.dotchar ∧ -1 ≤ st'.last := by
  induction cs generalizing i st with
  | nil => exact Or.inr ⟨st, [], rfl, rfl, hc, hn, hdc, hla⟩
  | cons c cs ih =>
    rw [scanLoop, scanLoop]
    by_cases h1 : c ≥ 48 ∧ c ≤ 57
    · rw [if_pos h1, if_pos h1]
      have e : (shiftScan n st).d = st.d := rfl
      rw [e]
      cases hd : (i8 m (st.d + 1) : Out σ Int) with
      | panic p => exact Or.inl ⟨p, rfl, rfl⟩
      | err e s => exact absurd hd i8_ne_err
      | ok d =>
        rw [ok_bind, ok_bind]
        have := ih (i + 1) { st with last := i, d := d } (by omega) hc hn hdc (by dsimp only; omega) (by omega)
        have e : shiftScan n { st with last := i, d := d } = { shiftScan n st with last := i + 1, d := d } := by
          unfold shiftScan; simp; omega
        rw [e] at this
        exact this
    rw [if_neg h1, if_neg h1]
    by_cases h2 : c = 46 ∧ st.dotchar = -1
    · have h2' : c = 46 ∧ (shiftScan n st).dotchar = -1 := ⟨h2.1, by simp [shiftScan, h2.2]⟩
      rw [if_pos h2, if_pos h2']
      have := ih (i + 1) { st with dotchar := i, cfirst := if i = st.cfirst then st.cfirst + 1 else st.cfirst } (by omega)
        (by dsimp only; split_ifs <;> omega) hn (by dsimp only; omega) hla (by omega)
      have e : shiftScan n { st with dotchar := i, cfirst := if i = st.cfirst then st.cfirst + 1 else st.cfirst } =
          { shiftScan n st with dotchar := i + 1, cfirst := if i + 1 = (shiftScan n st).cfirst then (shiftScan n st).cfirst + 1
            else (shiftScan n st).cfirst } := by
        unfold shiftScan; simp only [add_left_inj]
        congr 1
        · rw [if_neg (by omega)]
        · split_ifs <;> rfl
      rw [e] at this
      exact this
    have h2' : ¬ (c = 46 ∧ (shiftScan n st).dotchar = -1) := by
      rintro ⟨a, b⟩; apply h2; refine ⟨a, ?_⟩
      unfold shiftScan at b; dsimp only at b
      by_contra hne
      rw [if_neg hne] at b
      omega
    rw [if_neg h2, if_neg h2', if_neg (by rintro ⟨a, b⟩; exact (hs a c cs rfl).1 b),
      if_neg (by rintro ⟨a, b⟩; exact (hs a c cs rfl).2 b), if_neg (by omega), if_neg (by omega)]
    exact Or.inr ⟨st, c :: cs, rfl, rfl, hc, hn, hdc, hla⟩

theorem bind_fun_congr {α β : Type} {x : Out σ α} {f g : α → Out σ β} (h : ∀ a, f a = g a) : (x >>= f) = (x >>= g) := by
  rw [show f = g from funext h]

theorem writeDigits_shift (n : Bool) (c : Nat) (self : FixedDecimal) (bs : List Nat) (st : Scan) (frac digits hz : Int)
    (hc : 0 ≤ st.cfirst) (hl : st.last ≠ -1) (hn : st.neg = false) :
    (writeDigits m self (c :: bs) (shiftScan n st) frac digits hz : Out σ _) =
      (writeDigits m self bs st frac digits hz >>= fun r => .ok (if n then r.setNeg else r)) := by
  have e1 : (shiftScan n st).last = st.last + 1 := by simp [shiftScan, hl]
  have e2 : (shiftScan n st).cfirst = st.cfirst + 1 := rfl
  have e3 : (c :: bs).drop (st.cfirst + 1).toNat = bs.drop st.cfirst.toNat := by
    rw [show (st.cfirst + 1).toNat = st.cfirst.toNat + 1 by omega]; rfl
  have e4 : (shiftScan n st).neg = n := rfl
  unfold writeDigits
  rw [e1, e2, e3, e4, hn]
  simp only [intgLoop_shift, bind_assoc']
  refine bind_fun_congr fun di => bind_fun_congr fun iu => bind_fun_congr fun fu => bind_fun_congr fun t => ?_
  by_cases hiu : iu > 0
  · simp only [if_pos hiu, bind_assoc']
    refine bind_fun_congr fun x => bind_fun_congr fun re => bind_fun_congr fun p => bind_fun_congr fun v =>
      bind_fun_congr fun lsu => bind_fun_congr fun cut => bind_fun_congr fun y => ?_
    simp only [pure_ok, ok_bind, List.length_cons]
    rw [show ((bs.length + 1 : Nat) : Int) - x.1.length = ((bs.length : Int) - x.1.length) + 1 by push_cast; ring]
    simp only [fracLoop_shift]
    refine bind_fun_congr fun z => ?_
    simp
  · simp only [if_neg hiu, pure_ok, ok_bind, fracLoop_shift]
    refine bind_fun_congr fun z => ?_
    simp

/-- A sign character in front of unsigned input. -/
theorem parse_sign {self : FixedDecimal} {bs : List Nat} {reset : Bool} {c : Nat} (hc : c = 43 ∨ c = 45)
    (hs : ∀ x xs, bs = x :: xs → x ≠ 45 ∧ x ≠ 43) :
    FixedDecimal.fromBytesStr m self (c :: bs) reset =
      (FixedDecimal.fromBytesStr m self bs reset >>= fun r => .ok (if c = 45 then r.setNeg else r)) := by
  unfold FixedDecimal.fromBytesStr
  dsimp only
  rw [show (if reset = true then self.setZero else self) = afterReset self reset from rfl]
  rw [if_neg (by simp)]
  have h1 : (scanLoop m (c :: bs) 0 ⟨0, -1, -1, 0, false⟩ : Out FixedDecimal _) =
      scanLoop m bs (0 + 1) (shiftScan (decide (c = 45)) ⟨0, -1, -1, 0, false⟩) := by
    rcases hc with rfl | rfl <;> simp [scanLoop, shiftScan]
  rw [h1]
  have key := scan_shift (m := m) (σ := FixedDecimal) (decide (c = 45)) bs 0 ⟨0, -1, -1, 0, false⟩ (le_refl _) (le_refl _) rfl
    (le_refl _) (le_refl _) (fun _ => hs)
  by_cases hb : bs = []
  · subst hb
    simp [scanLoop, shiftScan]
  · rw [if_neg hb]
    rcases key with ⟨p, k1, k2⟩ | ⟨st, rest, k1, k2, k3, k4, k5, k6⟩
    · rw [k1, k2]; rfl
    · rw [k1, k2, ok_bind, ok_bind]
      dsimp only
      by_cases hl : st.last = -1
      · rw [if_pos hl, if_pos (by simp [shiftScan, hl])]; rfl
      · have e1 : (shiftScan (decide (c = 45)) st).last = st.last + 1 := by simp [shiftScan, hl]
        have e0 : (shiftScan (decide (c = 45)) st).d = st.d := rfl
        rw [if_neg hl, if_neg (by rw [e1]; omega)]
        have e2 : (if (shiftScan (decide (c = 45)) st).dotchar = -1 ∨
            (shiftScan (decide (c = 45)) st).last < (shiftScan (decide (c = 45)) st).dotchar then (0 : Int)
            else (shiftScan (decide (c = 45)) st).last - (shiftScan (decide (c = 45)) st).dotchar) =
            if st.dotchar = -1 ∨ st.last < st.dotchar then 0 else st.last - st.dotchar := by
          rw [e1]
          by_cases hd : st.dotchar = -1
          · simp [shiftScan, hd]
          · have : (shiftScan (decide (c = 45)) st).dotchar = st.dotchar + 1 := by simp [shiftScan, hd]
            rw [this]
            by_cases hlt : st.last < st.dotchar
            · rw [if_pos (by omega), if_pos (by omega)]
            · rw [if_neg (by omega), if_neg (by omega)]; ring
        rw [e2, e0]
        simp only [bind_assoc']
        refine bind_fun_congr fun ex => bind_fun_congr fun y => ?_
        split_ifs with hbig hc2 hc2
        · rfl
        · rfl
        · rw [writeDigits_shift _ _ _ _ _ _ _ _ k3 hl k4]; simp [hc2]
        · rw [writeDigits_shift _ _ _ _ _ _ _ _ k3 hl k4]; simp [hc2]

end Fxd
