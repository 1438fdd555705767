import Verif.Props.Compact
/-!
# Properties C107 and C108: Horner's rule

Polynomials at whole points, and numbers read digit by digit (`acc * 10 + digit`), with the digit counts compacted as in C106;
and the same modulo `M`, for numbers of any length.
-/

namespace Fxd
open Spec

namespace Props
variable {m : Mode}

/-- `for c in cs { acc = compact(acc * x + c) }` -/
def hornerLoop (m : Mode) (x : FixedDecimal) : FixedDecimal → List FixedDecimal → Out Empty FixedDecimal
  | acc, [] => .ok acc
  | acc, c :: cs => do
    let p ← FixedDecimal.mul m acc x
    let s ← FixedDecimal.add m p c
    let acc' ← compact m s
    hornerLoop m x acc' cs

/-- The same on integers. -/
def horner (X : Int) : Int → List Int → Int
  | A, [] => A
  | A, c :: cs => horner X (A * X + c) cs

/-- Sums of whole numbers of up to 72 digits that stay below 10^72. -/
theorem whole_sum {a b : FixedDecimal} {A B : Int} (ha : Whole a A) (ta : Tight a) (hb : Whole b B) (tb : Tight b)
    (ia : iu a ≤ 8) (ib : iu b ≤ 8) (hs : |A + B| < 10 ^ 72) :
    ∃ s, FixedDecimal.add m a b = .ok s ∧ Whole s (A + B) ∧ Tight s ∧ iu s ≤ 8 := by
  obtain ⟨s, e1, e2, e3⟩ := add_within (m := m) (I := 8) (F := 0) (by norm_num) ⟨ha.wf, ia, by rw [ha.fu_eq]⟩ ⟨hb.wf, ib, by rw [hb.fu_eq]⟩
    (by rw [ha.value, hb.value]; exact_mod_cast hs)
  have r := addTo_res ha.wf hb.wf (res := FixedDecimal.blank) rfl (add_ok_iff.mp e1)
  refine ⟨s, e1, ⟨e2.wf, ?_, by rw [e3, ha.value, hb.value]; push_cast; rfl⟩, r.tight ta tb, e2.intg⟩
  have h := add_ok_iff.mp e1
  by_cases za : val a = 0
  · unfold FixedDecimal.addTo at h
    rw [if_pos ((isZero_val ha.wf).mpr za)] at h
    injection h with h
    rw [← h]; exact hb.frac
  by_cases zb : val b = 0
  · unfold FixedDecimal.addTo at h
    rw [if_neg (fun h => za ((isZero_val ha.wf).mp h)), if_pos ((isZero_val hb.wf).mpr zb)] at h
    injection h with h
    rw [← h]; exact ha.frac
  rw [r.scale za zb, ha.frac, hb.frac]; rfl

/-- **C107** Horner's rule at a whole point of up to nine digits, coefficients of up to 63: as long as every intermediate value is
below 10^63 in magnitude, no step fails and the value is exact. -/
theorem C107_horner {x : FixedDecimal} {X : Int} (hx : Whole x X) (tx : Tight x) (dx : intgDigits x ≤ 9) :
    ∀ (cs : List FixedDecimal) (ns : List Int) {acc : FixedDecimal} {A : Int},
    List.Forall₂ (fun f n => Whole f n ∧ Tight f ∧ intgDigits f ≤ 63) cs ns → Whole acc A → Tight acc → intgDigits acc ≤ 63 →
    (∀ i, i ≤ ns.length → |horner X A (ns.take i)| < 10 ^ 63) →
    ∃ r, hornerLoop m x acc cs = .ok r ∧ Whole r (horner X A ns) ∧ Tight r ∧ intgDigits r ≤ 63
  | [], _, acc, A, h, ha, ta, hi, hb => by
    cases h
    exact ⟨acc, rfl, ha, ta, hi⟩
  | c :: cs, _, acc, A, h, ha, ta, hi, hb => by
    cases h with
    | @cons _ n _ ns h1 h2 =>
      obtain ⟨wc, tc, dc⟩ := h1
      obtain ⟨p, e1, e2, e3, e4⟩ := whole_mul (m := m) (I := 7) (J := 1) ha ta hx tx (by unfold iu unitsFor; omega)
        (by unfold iu unitsFor; omega) (by norm_num) (by norm_num) (by norm_num)
      have hA : |A * X + n| < 10 ^ (9 * 7) := by
        have := hb 1 (by simp)
        simpa [horner] using this
      obtain ⟨s, s1, s2, s3, s4⟩ := whole_sum (m := m) e2 e3 wc tc e4 (by unfold iu unitsFor; omega) (lt_trans hA (by norm_num))
      obtain ⟨y, c1, c2, c3, c4⟩ := whole_compact (m := m) s2 s3 s4 (by norm_num) (by norm_num) hA
      obtain ⟨r, g1, g2⟩ := C107_horner hx tx dx cs ns h2 c2 c3 (by unfold iu unitsFor at c4; omega) (by
        intro i hi
        have := hb (i + 1) (by simpa using hi)
        rw [List.take_succ_cons, horner] at this
        exact this)
      refine ⟨r, ?_, g2⟩
      unfold hornerLoop
      rw [e1, ok_bind, s1, ok_bind, c1, ok_bind]
      exact g1

theorem horner_digits : ∀ (ns : List Nat) (A : Nat),
    horner 10 (A : Int) (ns.map fun n : Nat => (n : Int)) = ((ns.foldl (fun n d => 10 * n + d) A : Nat) : Int)
  | [], A => rfl
  | c :: cs, A => by
    rw [List.map_cons, horner, List.foldl_cons, ← horner_digits cs]
    push_cast
    rw [mul_comm (A : Int) 10]

/-- **C107** Up to 63 digits read one by one give the number they spell - the very number `from_str` makes of them. -/
theorem C107_digits {ten : FixedDecimal} (ht : Whole ten 10) (tt : Tight ten) (dt : intgDigits ten ≤ 9) {cs : List FixedDecimal}
    {ds : List Nat} (hd : ∀ d ∈ ds, d < 10) (hl : ds.length ≤ 63) (hne : ds ≠ [])
    (h : List.Forall₂ (fun f n : _ => Whole f ((n : Nat) : Int) ∧ Tight f ∧ intgDigits f ≤ 63) cs ds) :
    ∃ r q, hornerLoop m ten FixedDecimal.zero cs = .ok r ∧ Whole r (digitsVal ds : Int) ∧
      FixedDecimal.fromStr m (ds.map (· + 48)) = .ok q ∧ val q = val r := by
  have h' : List.Forall₂ (fun f n : _ => Whole f n ∧ Tight f ∧ intgDigits f ≤ 63) cs (ds.map fun n : Nat => (n : Int)) := by
    rw [List.forall₂_map_right_iff]; exact h
  have z0 : val FixedDecimal.zero = ((0 : Int) : ℚ) := by
    have h1 : mant FixedDecimal.zero = 0 := by decide
    unfold val absVal; rw [h1]; simp
  obtain ⟨r, e1, e2, -⟩ := C107_horner (m := m) ht tt dt cs _ h' (acc := FixedDecimal.zero) (A := 0) ⟨by decide, rfl, z0⟩ (by decide) (by decide) (by
    intro i hi
    rw [List.length_map] at hi
    have := horner_digits (ds.take i) 0
    rw [List.map_take] at this
    push_cast at this
    rw [this, abs_of_nonneg (Int.natCast_nonneg _)]
    have hb := digitsVal_lt (ds := ds.take i) (fun d hd' => hd d (List.mem_of_mem_take hd'))
    have h2 : (ds.take i).length ≤ 63 := by rw [List.length_take]; omega
    have h3 : (10 : Nat) ^ (ds.take i).length ≤ 10 ^ 63 := Nat.pow_le_pow_right (by norm_num) h2
    unfold digitsVal at hb
    exact_mod_cast lt_of_lt_of_le hb h3)
  have e2' : Whole r (digitsVal ds : Int) := by
    have := horner_digits ds 0
    push_cast at this
    rw [this] at e2
    exact e2
  let t : Numeral := ⟨.none, ds, none, none⟩
  have hdg : t.digits = ds := by show ds ++ [] = ds; simp
  have hv : t.Valid := ⟨by rw [hdg]; exact hd, by rw [hdg]; exact hne, by intro x hx; cases hx⟩
  have hr : t.render = ds.map (· + 48) := by
    show [] ++ digitChars ds ++ [] ++ [] = _
    simp [digitChars]
  have hL : t.Limits := by
    refine ⟨show (-30 : Int) ≤ 0 by norm_num, show (0 : Int) ≤ 65 by norm_num, by rw [hdg]; omega, ?_, ?_⟩
    · show ((0 : Nat) : Int) - 0 ≤ 65
      norm_num
    · rw [hdg]
      show (ds.length : Int) - ((0 : Nat) : Int) + 0 ≤ 65
      push_cast; omega
  obtain ⟨q, hq, -⟩ := (parse_render (m := m) (self := FixedDecimal.zero) hv (by rw [hdg]; omega) rfl false).1 hL
  have hq' : FixedDecimal.fromStr m t.render = .ok q := by
    unfold FixedDecimal.fromStr; rw [hq]
  refine ⟨r, q, e1, e2', hr ▸ hq', ?_⟩
  rw [C01_from_str_exact m hv (.inr (by rw [hdg]; omega)) hq', e2'.value]
  unfold Numeral.denote
  rw [hdg]
  show (1 : ℚ) * _ * 10 ^ ((0 : Int) - ((0 : Nat) : Int)) = _
  simp

/-- `acc = acc * ten + d`, digit by digit, nothing compacted. -/
def plainHorner (m : Mode) (x : FixedDecimal) : FixedDecimal → List FixedDecimal → Out Empty FixedDecimal
  | acc, [] => .ok acc
  | acc, c :: cs => do
    let p ← FixedDecimal.mul m acc x
    let s ← FixedDecimal.add m p c
    plainHorner m x s cs

/-- **C107** Without compacting, whatever is returned is still exact. -/
theorem C107_plain_exact {x : FixedDecimal} {X : Int} (hx : Whole x X) (tx : Tight x) :
    ∀ (cs : List FixedDecimal) (ns : List Int) {acc r : FixedDecimal} {A : Int},
    List.Forall₂ (fun f n => Whole f n ∧ Tight f) cs ns → Whole acc A → Tight acc →
    plainHorner m x acc cs = .ok r → val r = horner X A ns
  | [], _, acc, r, A, h, ha, ta, hr => by
    cases h
    unfold plainHorner at hr
    injection hr with hr
    rw [← hr]; exact ha.value
  | c :: cs, _, acc, r, A, h, ha, ta, hr => by
    cases h with
    | @cons _ n _ ns h1 h2 =>
      unfold plainHorner at hr
      obtain ⟨p, p1, hr⟩ := bind_eq_ok.mp hr
      obtain ⟨s, s1, hr⟩ := bind_eq_ok.mp hr
      have hfull : MulFull acc x := by
        unfold MulFull mulFU fracDigits
        rw [ha.frac, hx.frac]
        simp [unitsFor]
      obtain ⟨e1, e2, e3⟩ := C27_mul_exact m ta tx rfl hfull (mul_ok_iff.mp p1)
      have wp : Whole p (A * X) := by
        refine ⟨e2.toWF, ?_, by rw [e1, ha.value, hx.value]; push_cast; rfl⟩
        by_cases z : val acc = 0 ∨ val x = 0
        · have h := mulTo_zero m ha.wf hx.wf (res := FixedDecimal.blank) rfl z
          rw [mul_ok_iff.mp p1] at h
          injection h with h
          rw [h]; rfl
        · rw [not_or] at z
          rw [e3 z.1 z.2, ha.frac, hx.frac]; rfl
      have rs := addTo_res wp.wf h1.1.wf (res := FixedDecimal.blank) rfl (add_ok_iff.mp s1)
      have ws : Whole s (A * X + n) := by
        refine ⟨rs.wf, ?_, by rw [rs.value, wp.value, h1.1.value]; push_cast; rfl⟩
        have h := add_ok_iff.mp s1
        by_cases za : val p = 0
        · unfold FixedDecimal.addTo at h
          rw [if_pos ((isZero_val wp.wf).mpr za)] at h
          injection h with h
          rw [← h]; exact h1.1.frac
        by_cases zb : val c = 0
        · unfold FixedDecimal.addTo at h
          rw [if_neg (fun h => za ((isZero_val wp.wf).mp h)), if_pos ((isZero_val h1.1.wf).mpr zb)] at h
          injection h with h
          rw [← h]; exact wp.frac
        rw [rs.scale za zb, wp.frac, h1.1.frac]; rfl
      exact C107_plain_exact hx tx cs ns h2 ws (rs.tight e2 h1.2) hr

/-- **C107** But it need not return: reading 1000000000 digit by digit, from numbers converted from `u64`, is an overflow, while
1111111111 is read. -/
theorem C107_uncompacted (m : Mode) :
    ∃ ten one zero : FixedDecimal, (FixedDecimal.fromU64 10 : Out Empty _) = .ok ten ∧ (FixedDecimal.fromU64 1 : Out Empty _) = .ok one ∧
      (FixedDecimal.fromU64 0 : Out Empty _) = .ok zero ∧
      plainHorner m ten zero (one :: List.replicate 9 zero) = .panic (.operator .overflow) ∧
      plainHorner m ten zero (one :: List.replicate 9 one) = .ok ⟨18#8, 0, [111111111, 1, 0, 0, 0, 0, 0, 0, 0]⟩ := by
  refine ⟨⟨9#8, 0, [10, 0, 0, 0, 0, 0, 0, 0, 0]⟩, ⟨9#8, 0, [1, 0, 0, 0, 0, 0, 0, 0, 0]⟩, ⟨0#8, 0, [0, 0, 0, 0, 0, 0, 0, 0, 0]⟩,
    by decide +kernel, by decide +kernel, by decide +kernel, ?_, ?_⟩
  · cases m <;> decide +kernel
  · cases m <;> decide +kernel

/-! ## Modulo M -/

/-- `for c in cs { acc = compact((acc * x + c) % md) }` -/
def residueLoop (m : Mode) (md x : FixedDecimal) : FixedDecimal → List FixedDecimal → Out Empty FixedDecimal
  | acc, [] => .ok acc
  | acc, c :: cs => do
    let p ← FixedDecimal.mul m acc x
    let s ← FixedDecimal.add m p c
    let r ← FixedDecimal.rem m s md
    let acc' ← compact m r
    residueLoop m md x acc' cs

/-- The number with the given digits or chunks in base `X`, highest first, after `A`. -/
def chunks (X : Nat) : Nat → List Nat → Nat
  | A, [] => A
  | A, c :: cs => chunks X (A * X + c) cs

theorem chunks_mod {X M : Nat} : ∀ (cs : List Nat) {A B : Nat}, A % M = B % M → chunks X A cs % M = chunks X B cs % M
  | [], _, _, h => h
  | c :: cs, A, B, h => by
    unfold chunks
    refine chunks_mod cs ?_
    rw [Nat.add_mod, Nat.mul_mod, h, ← Nat.mul_mod, ← Nat.add_mod]

/-- **C108** The remainder of a number of any length modulo any `M` below 10^18 (debug builds: 10^9), its digits given in chunks in
any base of up to 18 digits: no step fails and the result is the remainder of the whole number. -/
theorem C108_residue {md x : FixedDecimal} {M X : Nat} (hm : Whole md M) (tm : Tight md)
    (hM : M < if m = .release then 10 ^ 18 else 10 ^ 9) (hx : Whole x X) (tx : Tight x) (dx : intgDigits x ≤ 18) :
    ∀ (cs : List FixedDecimal) (ns : List Nat) {acc : FixedDecimal} {A : Nat},
    List.Forall₂ (fun c n : _ => Whole c ((n : Nat) : Int) ∧ Tight c ∧ intgDigits c ≤ 18) cs ns → Residue M acc A →
    ∃ r, residueLoop m md x acc cs = .ok r ∧ Residue M r (chunks X A ns % M)
  | [], _, acc, A, h, ha => by
    cases h
    exact ⟨acc, rfl, by unfold chunks; rw [Nat.mod_eq_of_lt ha.below]; exact ha⟩
  | c :: cs, _, acc, A, h, ha => by
    cases h with
    | @cons _ n _ ns h1 h2 =>
      obtain ⟨wc, tc, dc⟩ := h1
      have hM0 : 0 < M := lt_of_le_of_lt (Nat.zero_le _) ha.below
      have hM18 : M < 10 ^ 18 := by
        split_ifs at hM
        · exact hM
        · exact lt_trans hM (by norm_num)
      obtain ⟨p, e1, e2, e3, e4⟩ := whole_mul (m := m) (I := 2) (J := 2) ha.whole ha.tight hx tx ha.units
        (by unfold iu unitsFor; omega) (by norm_num) (by norm_num) (by norm_num)
      have bnd : ∀ {d : FixedDecimal} {k : Nat} {N : Nat}, Whole d N → iu d ≤ k → N < 10 ^ (9 * k) := by
        intro d k N hd hk
        have h1 := hd.wf.mant_lt
        rw [hd.mant_eq, hd.fu_eq, abs_of_nonneg (Int.natCast_nonneg _), add_zero] at h1
        have h2 : (1000000000 : Int) ^ iu d ≤ 1000000000 ^ k := pow_le_pow_right₀ (by norm_num) hk
        have h3 : (N : Int) < 10 ^ (9 * k) := by
          rw [pow_mul]; norm_num; linarith
        exact_mod_cast h3
      have b1 : A * X < 10 ^ (9 * 4) := bnd (d := p) (by push_cast; exact e2) e4
      have b2 : n < 10 ^ (9 * 2) := bnd wc (by unfold iu unitsFor; omega)
      obtain ⟨s, s1, s2, s3, s4⟩ := whole_sum (m := m) e2 e3 wc tc (by omega) (by unfold iu unitsFor; omega) (by
        have : A * X + n < 10 ^ 72 := by
          have : (10 : Nat) ^ (9 * 4) + 10 ^ (9 * 2) < 10 ^ 72 := by norm_num
          omega
        rw [abs_of_nonneg (by positivity)]
        exact_mod_cast this)
      have hab : |(M : Int)| < 10 ^ 18 := by rw [abs_of_nonneg (Int.natCast_nonneg _)]; exact_mod_cast hM18
      obtain ⟨r1, r2⟩ := C104_int_rem (m := m) (res := FixedDecimal.blank) s2 hm rfl (by omega) hab
      obtain ⟨r, hr⟩ := r2 (by
        by_cases h : m = .release
        · exact .inl h
        · rw [if_neg h] at hM
          exact .inr (.inr (by rw [abs_of_nonneg (Int.natCast_nonneg _)]; exact_mod_cast hM)))
      have wr := r1 r hr
      have er : ((A : Int) * X + n).tmod M = (((A * X + n) % M : Nat) : Int) := by
        rw [Int.tmod_eq_emod_of_nonneg (by positivity)]; push_cast; rfl
      rw [er] at wr
      have tr : Tight r := remTo_tight s3 tm (res := FixedDecimal.blank) rfl
        (not_tooBig_two (two_unit_top hm.wf (by rw [hm.mant_eq]; norm_num at hab ⊢; exact hab))) hr
      have ir := rem_intg_le s2.wf hm.wf (res := FixedDecimal.blank) rfl hr
      have hlt : (A * X + n) % M < M := Nat.mod_lt _ hM0
      obtain ⟨z, c1, c2, c3, c4⟩ := whole_compact (m := m) (k := 2) wr tr (by omega) (by norm_num) (by norm_num)
        (by rw [abs_of_nonneg (Int.natCast_nonneg _)]; exact_mod_cast lt_trans hlt hM18)
      obtain ⟨q, g1, g2⟩ := C108_residue hm tm hM hx tx dx cs ns h2 (acc := z) (A := (A * X + n) % M) ⟨c2, c3, c4, hlt⟩
      refine ⟨q, ?_, ?_⟩
      · unfold residueLoop
        rw [e1, ok_bind, s1, ok_bind, rem_ok_iff.mpr hr, ok_bind, c1, ok_bind]
        exact g1
      · rw [chunks_mod ns (Nat.mod_mod _ _)] at g2
        unfold chunks
        exact g2

/-- **C108** In particular the remainder of any text of digits, however long - far more digits than a decimal can hold. -/
theorem C108_text {md ten : FixedDecimal} {M : Nat} (hm : Whole md M) (tm : Tight md) (hM0 : 0 < M)
    (hM : M < if m = .release then 10 ^ 18 else 10 ^ 9) (hx : Whole ten 10) (tx : Tight ten) (dx : intgDigits ten ≤ 18)
    {cs : List FixedDecimal} {ds : List Nat}
    (h : List.Forall₂ (fun c n : _ => Whole c ((n : Nat) : Int) ∧ Tight c ∧ intgDigits c ≤ 18) cs ds) :
    ∃ r, residueLoop m md ten FixedDecimal.zero cs = .ok r ∧ Whole r ((digitsVal ds % M : Nat) : Int) := by
  have z0 : val FixedDecimal.zero = (((0 : Nat) : Int) : ℚ) := by
    have h1 : mant FixedDecimal.zero = 0 := by decide
    unfold val absVal; rw [h1]; simp
  obtain ⟨r, e1, e2⟩ := C108_residue (X := 10) hm tm hM hx tx dx cs ds h (acc := FixedDecimal.zero) (A := 0)
    ⟨⟨by decide, rfl, z0⟩, by decide, by decide, hM0⟩
  refine ⟨r, e1, ?_⟩
  have : ∀ (ns : List Nat) (A : Nat), chunks 10 A ns = ns.foldl (fun n d => 10 * n + d) A := by
    intro ns
    induction ns with
    | nil => intro A; rfl
    | cons c cs ih => intro A; rw [chunks, List.foldl_cons, ih, mul_comm A 10]
  have h2 := e2.whole
  rw [this] at h2
  exact h2

/-! ## Non-vacuity -/

/-- 12345 * 10^9 + 678 modulo 97 in two chunks. -/
example : ∃ r, residueLoop m ⟨2#8, 0, [97, 0, 0, 0, 0, 0, 0, 0, 0]⟩ ⟨10#8, 0, [0, 1, 0, 0, 0, 0, 0, 0, 0]⟩ FixedDecimal.zero
      [⟨5#8, 0, [12345, 0, 0, 0, 0, 0, 0, 0, 0]⟩, ⟨3#8, 0, [678, 0, 0, 0, 0, 0, 0, 0, 0]⟩] = .ok r ∧
    Residue 97 r (chunks (10 ^ 9) 0 [12345, 678] % 97) := by
  have z0 : val FixedDecimal.zero = (((0 : Nat) : Int) : ℚ) := by
    have h1 : mant FixedDecimal.zero = 0 := by decide
    unfold val absVal; rw [h1]; simp
  exact C108_residue (whole_mk (by decide) rfl (by decide) (by decide)) (by decide) (by cases m <;> simp)
    (whole_mk (by decide) rfl (by decide +kernel) (by decide)) (by decide) (by decide) _ _
    (.cons ⟨whole_mk (by decide) rfl (by decide) (by decide), by decide, by decide⟩
      (.cons ⟨whole_mk (by decide) rfl (by decide) (by decide), by decide, by decide⟩ .nil))
    ⟨⟨by decide, rfl, z0⟩, by decide, by decide, by norm_num⟩

/-- "1000000000000", which the plain loop cannot read. -/
example : ∃ r q, hornerLoop m ⟨2#8, 0, [10, 0, 0, 0, 0, 0, 0, 0, 0]⟩ FixedDecimal.zero (FixedDecimal.one :: List.replicate 12 FixedDecimal.zero) = .ok r ∧
    Whole r (digitsVal (1 :: List.replicate 12 0) : Int) ∧ FixedDecimal.fromStr m ((1 :: List.replicate 12 0).map (· + 48)) = .ok q ∧ val q = val r := by
  refine C107_digits (whole_mk (by decide) rfl (by decide) (by decide)) (by decide) (by decide) (by decide) (by decide) (by decide) ?_
  refine .cons ⟨whole_mk (k := 1) (by decide) rfl (by decide) (by decide), by decide, by decide⟩ ?_
  have : ∀ n, List.Forall₂ (fun f n : _ => Whole f ((n : Nat) : Int) ∧ Tight f ∧ intgDigits f ≤ 63) (List.replicate n FixedDecimal.zero) (List.replicate n 0) := by
    intro n
    induction n with
    | zero => exact .nil
    | succ n ih => exact .cons ⟨whole_mk (k := 0) (by decide) rfl (by decide) (by decide), by decide, by decide⟩ ih
  exact this 12

end Props
end Fxd
