import Verif.Props.Bezout
/-!
# Property C124: exact fractions

Pairs of whole decimals used as numerator and denominator, reduced by Euclid's algorithm: sums and products of fractions are exact,
come out in lowest terms, and compare as the numbers they stand for.
-/

namespace Fxd
open Spec

namespace Props
variable {m : Mode}

/-- Euclid's algorithm on non-negative whole numbers returns the greatest common divisor itself. -/
theorem euclid_whole : ∀ (B A : Nat) {a b : FixedDecimal}, Whole a A → Whole b B → B < (if m = .release then 10 ^ 18 else 10 ^ 9) →
    ∃ g, Euclid m FixedDecimal.zero a b g ∧ Whole g (Nat.gcd A B : Nat) := by
  intro B
  induction B using Nat.strong_induction_on with
  | _ B ih =>
    intro A a b ha hb hB
    by_cases hz : B = 0
    · subst hz
      refine ⟨a, .stop ((isZero_val hb.wf).mpr (by rw [hb.value]; simp)), ?_⟩
      rw [Nat.gcd_zero_right]; exact ha
    · have hne : (B : Int) ≠ 0 := by exact_mod_cast hz
      have hnz : b.isZero = false := by
        rw [← Bool.not_eq_true, isZero_val hb.wf, hb.value]
        exact_mod_cast hne
      have h18 : |(B : Int)| < 10 ^ 18 := by
        rw [abs_of_nonneg (Int.natCast_nonneg _)]
        have : B < 10 ^ 18 := by
          split_ifs at hB
          · exact hB
          · exact lt_trans hB (by norm_num)
        exact_mod_cast this
      have hmode : m = .release ∨ |(A : Int)| < 10 ^ 18 ∨ |(B : Int)| < 10 ^ 9 := by
        by_cases h : m = .release
        · exact Or.inl h
        · rw [if_neg h] at hB
          refine Or.inr (Or.inr ?_)
          rw [abs_of_nonneg (Int.natCast_nonneg _)]
          exact_mod_cast hB
      obtain ⟨r1, r2⟩ := C104_int_rem (m := m) ha hb (res := FixedDecimal.zero) rfl hne h18
      obtain ⟨r, hr⟩ := r2 hmode
      have wr := r1 r hr
      rw [show ((A : Int).tmod B) = ((A % B : Nat) : Int) by simp [Int.tmod_eq_emod_of_nonneg]] at wr
      have hlt : A % B < B := Nat.mod_lt _ (by omega)
      obtain ⟨g, g1, g2⟩ := ih (A % B) hlt B hb wr (lt_trans hlt hB)
      refine ⟨g, .next hnz hr g1, ?_⟩
      rw [Nat.gcd_comm A B, Nat.gcd_rec B A, Nat.gcd_comm]; exact g2

/-- `if s { 0 - x } else { x }` -/
def negateIf (m : Mode) (s : Bool) (x : FixedDecimal) : Out Empty FixedDecimal :=
  if s then FixedDecimal.sub m FixedDecimal.zero x else .ok x

/-- `p / q` reduced: Euclid's algorithm on the magnitude of `p` and on `q`, both divided by what it returns (`div_to`, increment 0) and
compacted, the sign put back. -/
structure Reduce (m : Mode) (p q : FixedDecimal) (f : FixedDecimal × FixedDecimal) : Prop where
  run : ∃ a g n n' d, negateIf m p.isNeg p = .ok a ∧ Euclid m FixedDecimal.zero a q g ∧
    FixedDecimal.divTo m a g FixedDecimal.zero 0 = .ok n ∧ compact m n = .ok n' ∧ negateIf m p.isNeg n' = .ok f.1 ∧
    FixedDecimal.divTo m q g FixedDecimal.zero 0 = .ok d ∧ compact m d = .ok f.2

/-- The pair stands for the rational `x`: its entries are the numerator and the denominator of `x` in lowest terms, the denominator
positive (numerators of up to 36 digits, denominators of up to 18). -/
structure IsFrac (f : FixedDecimal × FixedDecimal) (x : ℚ) : Prop where
  num : Whole f.1 x.num
  den : Whole f.2 x.den
  numTight : Tight f.1
  denTight : Tight f.2
  numRoom : iu f.1 ≤ 4
  denRoom : iu f.2 ≤ 2

/-- Denominators Euclid's algorithm can be run on. -/
def DenLimit (m : Mode) (Q : Nat) : Prop := Q < if m = .release then 10 ^ 18 else 10 ^ 9

theorem negate_whole {s : Bool} {x : FixedDecimal} {X : Int} (hx : Whole x X) (tx : Tight x) (ix : iu x ≤ 8) (hX : |X| < 10 ^ 72) :
    ∃ y, negateIf m s x = .ok y ∧ Whole y (if s then -X else X) ∧ Tight y ∧ iu y ≤ 8 := by
  unfold negateIf
  cases s
  · exact ⟨x, rfl, hx, tx, ix⟩
  · have wz : Whole FixedDecimal.zero 0 := ⟨wf_zero, rfl, by rw [val_zero_const]; simp⟩
    obtain ⟨y, h1, h2, h3, h4⟩ := whole_diff (m := m) wz tight_zero hx tx (by decide) ix (by rw [zero_sub, abs_neg]; exact hX)
    rw [zero_sub] at h2
    exact ⟨y, h1, h2, h3, h4⟩

theorem negate_small {s : Bool} {x : FixedDecimal} {X : Int} (hx : Whole x X) (tx : Tight x) (ix : iu x ≤ 4) :
    ∃ y, negateIf m s x = .ok y ∧ Whole y (if s then -X else X) ∧ Tight y ∧ iu y ≤ 4 := by
  unfold negateIf
  cases s
  · exact ⟨x, rfl, hx, tx, ix⟩
  · have wz : Whole FixedDecimal.zero 0 := ⟨wf_zero, rfl, by rw [val_zero_const]; simp⟩
    have hX : |X| < 10 ^ 36 := by
      rw [← hx.mant_eq]
      calc mant x < 1000000000 ^ (iu x + fu x) := hx.wf.mant_lt
        _ ≤ 1000000000 ^ 4 := pow_le_pow_right₀ (by norm_num) (by rw [hx.fu_eq]; exact ix)
        _ = 10 ^ 36 := by norm_num
    obtain ⟨y, h1, h2, h3, -⟩ := whole_diff (m := m) wz tight_zero hx tx (by decide) (by omega)
      (by rw [zero_sub, abs_neg]; exact lt_trans hX (by norm_num))
    have hv : |val FixedDecimal.zero - val x| < 10 ^ (9 * 4) := by
      rw [val_zero_const, zero_sub, abs_neg, hx.value]; exact_mod_cast hX
    obtain ⟨k, -⟩ := sub_shrink (u := 4) (k := 0) wf_zero hx.wf (by norm_num) h1 hv (fun _ => by decide) (fun _ => ix) (by decide)
      (by unfold fracDigits; rw [hx.frac]; decide)
    rw [zero_sub] at h2
    exact ⟨y, h1, h2, h3, k⟩

/-- Reducing. -/
theorem reduce_frac {p q : FixedDecimal} {P : Int} {Q : Nat} (hp : Whole p P) (tp : Tight p) (ip : iu p ≤ 8) (hq : Whole q (Q : Int))
    (hQ1 : 1 ≤ Q) (hQ : DenLimit m Q) (hP : |P| < 10 ^ 36) : ∃ f, Reduce m p q f ∧ IsFrac f ((P : ℚ) / Q) := by
  obtain ⟨a, a1, a2, a3, a4⟩ := negate_whole (m := m) (s := p.isNeg) hp tp ip (lt_trans hP (by norm_num))
  have hsign : (if p.isNeg then -P else P) = (P.natAbs : Int) := by
    have hv := hp.value
    have := absVal_nonneg hp.wf
    unfold val at hv
    rw [isNeg_eq]
    by_cases hn : neg p = true
    · rw [if_pos hn] at hv ⊢
      have : (P : ℚ) ≤ 0 := by linarith
      have : P ≤ 0 := by exact_mod_cast this
      omega
    · rw [if_neg hn] at hv ⊢
      have : (0 : ℚ) ≤ P := by linarith
      have : 0 ≤ P := by exact_mod_cast this
      omega
  rw [hsign] at a2
  set A := P.natAbs with hA
  have hA36 : A < 10 ^ 36 := by
    have : (A : Int) < 10 ^ 36 := by rw [hA, Int.natCast_natAbs]; exact hP
    exact_mod_cast this
  have hQ' : Q < if m = .release then 10 ^ 18 else 10 ^ 9 := hQ
  have hQ18 : Q < 10 ^ 18 := by
    split_ifs at hQ'
    · exact hQ'
    · exact lt_trans hQ' (by norm_num)
  obtain ⟨g, g1, g2⟩ := euclid_whole (m := m) Q A a2 hq hQ'
  set G := Nat.gcd A Q with hG
  have hG1 : 1 ≤ G := Nat.gcd_pos_of_pos_right _ hQ1
  have hGQ : G ≤ Q := Nat.gcd_le_right _ hQ1
  have hGne : (G : Int) ≠ 0 := by exact_mod_cast (show G ≠ 0 by omega)
  have hG18 : |(G : Int)| < 10 ^ 18 := by
    rw [abs_of_nonneg (Int.natCast_nonneg _)]
    exact_mod_cast lt_of_le_of_lt hGQ hQ18
  have hmode : m = .release ∨ |(G : Int)| < 10 ^ 9 := by
    by_cases h : m = .release
    · exact Or.inl h
    · rw [if_neg h] at hQ'
      refine Or.inr ?_
      rw [abs_of_nonneg (Int.natCast_nonneg _)]
      exact_mod_cast lt_of_le_of_lt hGQ hQ'
  obtain ⟨n1, n2⟩ := C104_int_div (m := m) a2 g2 (res := FixedDecimal.zero) rfl hGne hG18
  obtain ⟨n, hn⟩ := n2 hmode
  have wn := n1 n hn
  rw [show ((A : Int).tdiv G) = ((A / G : Nat) : Int) by simp [Int.tdiv_eq_ediv_of_nonneg]] at wn
  obtain ⟨d1, d2⟩ := C104_int_div (m := m) hq g2 (res := FixedDecimal.zero) rfl hGne hG18
  obtain ⟨d, hd⟩ := d2 hmode
  have wd := d1 d hd
  rw [show ((Q : Int).tdiv G) = ((Q / G : Nat) : Int) by simp [Int.tdiv_eq_ediv_of_nonneg]] at wd
  have iN : iu n ≤ 8 := le_trans (whole_quo_iu (k := 36) a2 g2 rfl hGne
    (by rw [abs_of_nonneg (Int.natCast_nonneg _)]; exact_mod_cast hA36) (by norm_num) hn) (by decide)
  have iD : iu d ≤ 8 := le_trans (whole_quo_iu (k := 18) hq g2 rfl hGne
    (by rw [abs_of_nonneg (Int.natCast_nonneg _)]; exact_mod_cast hQ18) (by norm_num) hd) (by decide)
  obtain ⟨n', c1, c2, c3, c4⟩ := quo_compact (m := m) (k := 4) wn iN (by norm_num) (by norm_num)
    (lt_of_le_of_lt (Nat.div_le_self _ _) hA36)
  obtain ⟨e, e1, e2, e3, e4⟩ := quo_compact (m := m) (k := 2) wd iD (by norm_num) (by norm_num)
    (lt_of_le_of_lt (Nat.div_le_self _ _) hQ18)
  obtain ⟨s, s1, s2, s3, s4⟩ := negate_small (m := m) (s := p.isNeg) c2 c3 c4
  refine ⟨(s, e), ⟨a, g, n, n', d, a1, g1, hn, c1, s1, hd, e1⟩, ?_⟩
  have hdA : A / G * G = A := Nat.div_mul_cancel (Nat.gcd_dvd_left A Q)
  have hdQ : Q / G * G = Q := Nat.div_mul_cancel (Nat.gcd_dvd_right A Q)
  have hD1 : 0 < Q / G := Nat.div_pos hGQ hG1
  have hco : Nat.Coprime (A / G) (Q / G) := Nat.coprime_div_gcd_div_gcd hG1
  set N : Int := if p.isNeg then -((A / G : Nat) : Int) else ((A / G : Nat) : Int) with hN
  have hNabs : N.natAbs = A / G := by
    rw [hN]
    split_ifs
    · rw [Int.natAbs_neg, Int.natAbs_natCast]
    · rw [Int.natAbs_natCast]
  have hPN : P = N * G := by
    have : ((A / G : Nat) : Int) * G = A := by exact_mod_cast hdA
    rw [hN]
    split_ifs at hsign ⊢
    · rw [neg_mul, this]; omega
    · rw [this]; omega
  have hfrac : (P : ℚ) / Q = (N : ℚ) / (((Q / G : Nat) : Int) : ℚ) := by
    have hGq : (G : ℚ) ≠ 0 := by exact_mod_cast hGne
    have h1 : (P : ℚ) = N * G := by exact_mod_cast hPN
    have h2 : (Q : ℚ) = ((Q / G : Nat) : ℚ) * G := by exact_mod_cast hdQ.symm
    rw [h1, h2, mul_div_mul_right _ _ hGq, Int.cast_natCast]
  have hnum : ((P : ℚ) / Q).num = N := by
    rw [hfrac]
    exact Rat.num_div_eq_of_coprime (by exact_mod_cast hD1) (by rw [hNabs, Int.natAbs_natCast]; exact hco)
  have hden : (((P : ℚ) / Q).den : Int) = ((Q / G : Nat) : Int) := by
    rw [hfrac]
    exact Rat.den_div_eq_of_coprime (by exact_mod_cast hD1) (by rw [hNabs, Int.natAbs_natCast]; exact hco)
  exact ⟨by rw [hnum]; exact s2, by rw [hden]; exact e2, s3, e3, s4, e4⟩

/-! ## The operations -/

/-- `reduce(p1 * q2 + p2 * q1, q1 * q2)` -/
def FAdd (m : Mode) (x y z : FixedDecimal × FixedDecimal) : Prop :=
  ∃ u v p q, FixedDecimal.mul m x.1 y.2 = .ok u ∧ FixedDecimal.mul m y.1 x.2 = .ok v ∧ FixedDecimal.add m u v = .ok p ∧
    FixedDecimal.mul m x.2 y.2 = .ok q ∧ Reduce m p q z

/-- `reduce(p1 * p2, q1 * q2)` -/
def FMul (m : Mode) (x y z : FixedDecimal × FixedDecimal) : Prop :=
  ∃ p q, FixedDecimal.mul m x.1 y.1 = .ok p ∧ FixedDecimal.mul m x.2 y.2 = .ok q ∧ Reduce m p q z

/-- `cmp(p1 * q2, p2 * q1)` -/
def fcmp (m : Mode) (x y : FixedDecimal × FixedDecimal) : Out Empty Ordering := do
  let u ← FixedDecimal.mul m x.1 y.2
  let v ← FixedDecimal.mul m y.1 x.2
  FixedDecimal.cmp m u v

/-- `for x in xs { acc = acc + x }` -/
inductive FSum (m : Mode) : FixedDecimal × FixedDecimal → List (FixedDecimal × FixedDecimal) → FixedDecimal × FixedDecimal → Prop
  | nil {acc : FixedDecimal × FixedDecimal} : FSum m acc [] acc
  | cons {acc x s r : FixedDecimal × FixedDecimal} {xs : List (FixedDecimal × FixedDecimal)} : FAdd m acc x s → FSum m s xs r →
      FSum m acc (x :: xs) r

/-- Room for the sum of two rationals: the product of the denominators below 10^18 (debug builds: 10^9), the numerator of the sum over
this product below 10^36. -/
def AddRoom (m : Mode) (x y : ℚ) : Prop := DenLimit m (x.den * y.den) ∧ |x.num * y.den + y.num * x.den| < 10 ^ 36

/-- Room for every step of a sum. -/
def SumRoom (m : Mode) : ℚ → List ℚ → Prop
  | _, [] => True
  | a, x :: xs => AddRoom m a x ∧ SumRoom m (a + x) xs

theorem rat_den_pos (x : ℚ) : 1 ≤ x.den := x.den_pos

/-- **C124** Fractions are added exactly, and the sum comes out in lowest terms. -/
theorem C124_add {x y : FixedDecimal × FixedDecimal} {X Y : ℚ} (hx : IsFrac x X) (hy : IsFrac y Y) (h : AddRoom m X Y) :
    ∃ z, FAdd m x y z ∧ IsFrac z (X + Y) := by
  obtain ⟨u, u1, u2, u3, u4⟩ := whole_mul (m := m) (I := 4) (J := 2) hx.num hx.numTight hy.den hy.denTight hx.numRoom hy.denRoom
    (by norm_num) (by norm_num) (by norm_num)
  obtain ⟨v, v1, v2, v3, v4⟩ := whole_mul (m := m) (I := 4) (J := 2) hy.num hy.numTight hx.den hx.denTight hy.numRoom hx.denRoom
    (by norm_num) (by norm_num) (by norm_num)
  obtain ⟨p, p1, p2, p3, p4⟩ := whole_sum (m := m) u2 u3 v2 v3 (by omega) (by omega) (lt_trans h.2 (by norm_num))
  obtain ⟨q, q1, q2, q3, q4⟩ := whole_mul (m := m) (I := 2) (J := 2) hx.den hx.denTight hy.den hy.denTight hx.denRoom hy.denRoom
    (by norm_num) (by norm_num) (by norm_num)
  rw [← Nat.cast_mul] at q2
  obtain ⟨z, z1, z2⟩ := reduce_frac (m := m) p2 p3 p4 q2 (Nat.mul_pos X.den_pos Y.den_pos) h.1 h.2
  refine ⟨z, ⟨u, v, p, q, u1, v1, p1, q1, z1⟩, ?_⟩
  have e : (((X.num * Y.den + Y.num * X.den : Int) : ℚ)) / ((X.den * Y.den : Nat) : ℚ) = X + Y := by
    have hX : (X.den : ℚ) ≠ 0 := by exact_mod_cast X.den_pos.ne'
    have hY : (Y.den : ℚ) ≠ 0 := by exact_mod_cast Y.den_pos.ne'
    conv_rhs => rw [← Rat.num_div_den X, ← Rat.num_div_den Y]
    push_cast
    field_simp
  rw [e] at z2
  exact z2

/-- **C124** Fractions are multiplied exactly, and the product comes out in lowest terms. -/
theorem C124_mul {x y : FixedDecimal × FixedDecimal} {X Y : ℚ} (hx : IsFrac x X) (hy : IsFrac y Y) (hd : DenLimit m (X.den * Y.den))
    (hn : |X.num * Y.num| < 10 ^ 36) : ∃ z, FMul m x y z ∧ IsFrac z (X * Y) := by
  obtain ⟨p, p1, p2, p3, p4⟩ := whole_mul (m := m) (I := 4) (J := 4) hx.num hx.numTight hy.num hy.numTight hx.numRoom hy.numRoom
    (by norm_num) (by norm_num) (by norm_num)
  obtain ⟨q, q1, q2, q3, q4⟩ := whole_mul (m := m) (I := 2) (J := 2) hx.den hx.denTight hy.den hy.denTight hx.denRoom hy.denRoom
    (by norm_num) (by norm_num) (by norm_num)
  rw [← Nat.cast_mul] at q2
  obtain ⟨z, z1, z2⟩ := reduce_frac (m := m) p2 p3 (by omega) q2 (Nat.mul_pos X.den_pos Y.den_pos) hd hn
  refine ⟨z, ⟨p, q, p1, q1, z1⟩, ?_⟩
  have e : (((X.num * Y.num : Int) : ℚ)) / ((X.den * Y.den : Nat) : ℚ) = X * Y := by
    have hX : (X.den : ℚ) ≠ 0 := by exact_mod_cast X.den_pos.ne'
    have hY : (Y.den : ℚ) ≠ 0 := by exact_mod_cast Y.den_pos.ne'
    conv_rhs => rw [← Rat.num_div_den X, ← Rat.num_div_den Y]
    push_cast
    field_simp
  rw [e] at z2
  exact z2

/-- **C124** Comparing by cross-multiplication compares the rationals; no call fails. -/
theorem C124_cmp {x y : FixedDecimal × FixedDecimal} {X Y : ℚ} (hx : IsFrac x X) (hy : IsFrac y Y) :
    fcmp m x y = .ok (compare X Y) := by
  obtain ⟨u, u1, u2, u3, u4⟩ := whole_mul (m := m) (I := 4) (J := 2) hx.num hx.numTight hy.den hy.denTight hx.numRoom hy.denRoom
    (by norm_num) (by norm_num) (by norm_num)
  obtain ⟨v, v1, v2, v3, v4⟩ := whole_mul (m := m) (I := 4) (J := 2) hy.num hy.numTight hx.den hx.denTight hy.numRoom hx.denRoom
    (by norm_num) (by norm_num) (by norm_num)
  unfold fcmp
  rw [u1, ok_bind, v1, ok_bind]
  have hX : (0 : ℚ) < X.den := by exact_mod_cast X.den_pos
  have hY : (0 : ℚ) < Y.den := by exact_mod_cast Y.den_pos
  have hu : val u = X * (X.den * Y.den) := by
    rw [u2.value]; push_cast
    have := Rat.num_div_den X
    rw [div_eq_iff hX.ne'] at this
    rw [this]; ring
  have hv : val v = Y * (X.den * Y.den) := by
    rw [v2.value]; push_cast
    have := Rat.num_div_den Y
    rw [div_eq_iff hY.ne'] at this
    rw [this]; ring
  have hxy : (0 : ℚ) < X.den * Y.den := by positivity
  have hcmp : compare (val u) (val v) = compare X Y := by
    rw [hu, hv]
    rcases lt_trichotomy X Y with h | h | h
    · rw [compare_lt_iff_lt.mpr h, compare_lt_iff_lt.mpr (mul_lt_mul_of_pos_right h hxy)]
    · rw [h]; rw [compare_eq_iff_eq.mpr rfl, compare_eq_iff_eq.mpr rfl]
    · rw [compare_gt_iff_gt.mpr h, compare_gt_iff_gt.mpr (mul_lt_mul_of_pos_right h hxy)]
  by_cases hz : val u = 0 ∧ val v = 0
  · have hX0 : X = 0 := by
      have := hz.1
      rw [hu] at this
      exact (mul_eq_zero.mp this).resolve_right hxy.ne'
    have hY0 : Y = 0 := by
      have := hz.2
      rw [hv] at this
      exact (mul_eq_zero.mp this).resolve_right hxy.ne'
    have hux : val x.1 = 0 := by rw [hx.num.value, hX0]; simp
    have hvy : val y.1 = 0 := by rw [hy.num.value, hY0]; simp
    have eu := mulTo_zero m hx.num.wf hy.den.wf (res := FixedDecimal.blank) rfl (.inl hux)
    have ev := mulTo_zero m hy.num.wf hx.den.wf (res := FixedDecimal.blank) rfl (.inl hvy)
    rw [mul_ok_iff.mp u1] at eu
    rw [mul_ok_iff.mp v1] at ev
    injection eu with eu
    injection ev with ev
    rw [C16_cmp_zeros m u2.wf v2.wf hz.1 hz.2, eu, ev, if_pos rfl, hX0, hY0, compare_eq_iff_eq.mpr rfl]
  · rw [C16_cmp_numeric m u2.wf v2.wf hz, hcmp]

/-- **C124** A sum of any number of fractions is exact. -/
theorem C124_sum : ∀ (xs : List (FixedDecimal × FixedDecimal)) (Xs : List ℚ) {acc : FixedDecimal × FixedDecimal} {A : ℚ},
    List.Forall₂ IsFrac xs Xs → IsFrac acc A → SumRoom m A Xs → ∃ r, FSum m acc xs r ∧ IsFrac r (A + Xs.sum)
  | [], _, acc, A, h, ha, _ => by
    cases h
    exact ⟨acc, .nil, by simpa using ha⟩
  | x :: xs, _, acc, A, h, ha, hr => by
    cases h with
    | @cons _ X _ Xs hx hxs =>
      obtain ⟨s, s1, s2⟩ := C124_add (m := m) ha hx hr.1
      obtain ⟨r, r1, r2⟩ := C124_sum xs Xs hxs s2 hr.2
      refine ⟨r, .cons s1 r1, ?_⟩
      rw [List.sum_cons, ← add_assoc]; exact r2

/-- **C124** A fraction made of an `i64` and a `u64`. -/
theorem C124_make {P : Int} {Q : Nat} (hP : -2 ^ 63 ≤ P ∧ P < 2 ^ 63) (hQ1 : 1 ≤ Q) (hQ : DenLimit m Q) :
    ∃ p q f, (FixedDecimal.fromI64 m P : Out Empty _) = .ok p ∧ (FixedDecimal.fromU64 Q : Out Empty _) = .ok q ∧
      Reduce m p q f ∧ IsFrac f ((P : ℚ) / Q) := by
  have hQ' : Q < if m = .release then 10 ^ 18 else 10 ^ 9 := hQ
  have h18 : Q < 10 ^ 18 := by
    split_ifs at hQ'
    · exact hQ'
    · exact lt_trans hQ' (by norm_num)
  obtain ⟨p, p1, p2, -, p4, p5, p6⟩ := C45_from_i64 (σ := Empty) m hP.1 hP.2
  obtain ⟨q, q1, q2, -, q4, q5, -⟩ := C45_from_u64 (σ := Empty) (n := Q) (by omega) (by
    have : (Q : Int) < 10 ^ 18 := by exact_mod_cast h18
    exact lt_trans this (by norm_num))
  have hp36 : |P| < 10 ^ 36 := by
    obtain ⟨h1, h2⟩ := hP
    rw [abs_lt]
    constructor
    · exact lt_of_lt_of_le (by norm_num) h1
    · exact lt_trans h2 (by norm_num)
  obtain ⟨f, f1, f2⟩ := reduce_frac (m := m) (P := P) (Q := Q) ⟨p4.toWF, p5, p2⟩ p4 (by unfold iu unitsFor; omega) ⟨q4.toWF, q5, q2⟩ hQ1 hQ hp36
  exact ⟨p, q, f, p1, q1, f1, f2⟩

/-! ## There is no other result -/

theorem reduce_only {p q : FixedDecimal} {f f' : FixedDecimal × FixedDecimal} (h : Reduce m p q f) (h' : Reduce m p q f') : f = f' := by
  obtain ⟨a, g, n, n', d, a1, g1, h1, h2, h3, h4, h5⟩ := h.run
  obtain ⟨a', g', k, k', e, b1, g1', l1, l2, l3, l4, l5⟩ := h'.run
  rw [a1] at b1; cases b1
  have := C103_only g1 g1'
  subst this
  rw [h1] at l1; cases l1
  rw [h2] at l2; cases l2
  rw [h3] at l3
  injection l3 with l3
  rw [h4] at l4; cases l4
  rw [h5] at l5
  injection l5 with l5
  exact Prod.ext l3 l5

/-- **C124** None of the operations can return anything else. -/
theorem C124_only {x y z z' : FixedDecimal × FixedDecimal} :
    (FAdd m x y z → FAdd m x y z' → z = z') ∧ (FMul m x y z → FMul m x y z' → z = z') ∧
    ∀ {xs : List (FixedDecimal × FixedDecimal)}, FSum m x xs z → FSum m x xs z' → z = z' := by
  have hadd : ∀ {x y z z' : FixedDecimal × FixedDecimal}, FAdd m x y z → FAdd m x y z' → z = z' := by
    rintro x y z z' ⟨u, v, p, q, h1, h2, h3, h4, h5⟩ ⟨u', v', p', q', k1, k2, k3, k4, k5⟩
    rw [h1] at k1; cases k1
    rw [h2] at k2; cases k2
    rw [h3] at k3; cases k3
    rw [h4] at k4; cases k4
    exact reduce_only h5 k5
  refine ⟨hadd, ?_, ?_⟩
  · rintro ⟨p, q, h1, h2, h3⟩ ⟨p', q', k1, k2, k3⟩
    rw [h1] at k1; cases k1
    rw [h2] at k2; cases k2
    exact reduce_only h3 k3
  · intro xs h h'
    induction h with
    | nil => cases h'; rfl
    | cons a _ ih =>
      cases h' with
      | cons a' h' =>
        have := hadd a a'
        subst this
        exact ih h'

/-! ## Non-vacuity -/

instance (m : Mode) (Q : Nat) : Decidable (DenLimit m Q) := by unfold DenLimit; infer_instance
instance (m : Mode) (x y : ℚ) : Decidable (AddRoom m x y) := by unfold AddRoom; infer_instance
instance decSumRoom (m : Mode) : (a : ℚ) → (xs : List ℚ) → Decidable (SumRoom m a xs)
  | _, [] => isTrue trivial
  | a, x :: xs => by
    unfold SumRoom
    have := decSumRoom m (a + x) xs
    infer_instance

/-- The pair 1, n. -/
def unitFrac (n : Nat) : FixedDecimal × FixedDecimal := (FixedDecimal.one, ⟨9#8, 0, [(n : Int), 0, 0, 0, 0, 0, 0, 0, 0]⟩)

theorem unitFrac_is {n : Nat} (h1 : 1 ≤ n) (h9 : n < 1000000000) : IsFrac (unitFrac n) (1 / n) := by
  have hq : ((1 : ℚ) / n) = (((1 : Int) : ℚ) / ((n : Int) : ℚ)) := by push_cast; rfl
  have hnum : ((1 : ℚ) / n).num = 1 := by
    rw [hq]; exact Rat.num_div_eq_of_coprime (by exact_mod_cast h1) (by simp)
  have hden : (((1 : ℚ) / n).den : Int) = n := by
    rw [hq]; exact Rat.den_div_eq_of_coprime (by exact_mod_cast h1) (by simp)
  have hi9 : intgDigits (unitFrac n).2 = 9 := by
    show (9#8).toNat % 128 = 9; decide
  have hf0 : fracDigits (unitFrac n).2 = 0 := by
    show (0 : Int).toNat = 0; decide
  have hi : iu (unitFrac n).2 = 1 := by unfold iu; rw [hi9]; decide
  have hf : fu (unitFrac n).2 = 0 := by unfold fu; rw [hf0]; decide
  have hng : neg (unitFrac n).2 = false := by
    show (9#8).msb = false; decide
  have wf : WF (unitFrac n).2 := by
    refine ⟨rfl, ?_, le_refl (0 : Int), by rw [hi, hf]; norm_num, ?_⟩
    · intro u hu
      simp only [unitFrac, List.mem_cons, List.not_mem_nil, or_false] at hu
      rcases hu with rfl | hu
      · omega
      · rcases hu with rfl | rfl | rfl | rfl | rfl | rfl | rfl | rfl <;> norm_num
    · intro u hu
      rw [hi, hf] at hu
      simpa [unitFrac] using hu
  have hm : mant (unitFrac n).2 = n := by
    unfold mant
    rw [hi, hf]
    simp [unitFrac, unitsVal]
  have wn : Whole (unitFrac n).2 ((n : Nat) : Int) := whole_mk wf rfl hm hng
  refine ⟨?_, by rw [hden]; exact wn, show Tight FixedDecimal.one by decide, ⟨wf, ?_, ?_⟩, show iu FixedDecimal.one ≤ 4 by decide, by rw [hi]; norm_num⟩
  · rw [hnum]; exact whole_mk (d := FixedDecimal.one) (k := 1) (by decide) rfl (by decide +kernel) (by decide)
  · rw [hm]
    rw [hi9, hf]; norm_num; omega
  · rw [hf, hf0]; simp

/-- 1 + 1/2 + 1/3 + ... + 1/10 = 7381/2520, in both builds. -/
theorem C124_harmonic : ∃ r, FSum m (unitFrac 1) ([2, 3, 4, 5, 6, 7, 8, 9, 10].map unitFrac) r ∧ IsFrac r (7381 / 2520) := by
  obtain ⟨r, r1, r2⟩ := C124_sum (m := m) ([2, 3, 4, 5, 6, 7, 8, 9, 10].map unitFrac)
    ([2, 3, 4, 5, 6, 7, 8, 9, 10].map fun n : Nat => 1 / (n : ℚ)) (acc := unitFrac 1) (A := 1 / (1 : Nat))
    (by
      simp only [List.map_cons, List.map_nil]
      repeat first
        | exact List.Forall₂.nil
        | refine List.Forall₂.cons (unitFrac_is (by norm_num) (by norm_num)) ?_)
    (unitFrac_is (by norm_num) (by norm_num)) (by cases m <;> decide +kernel)
  refine ⟨r, r1, ?_⟩
  have : (1 / (1 : Nat) : ℚ) + ([2, 3, 4, 5, 6, 7, 8, 9, 10].map fun n : Nat => 1 / (n : ℚ)).sum = 7381 / 2520 := by norm_num
  rw [this] at r2
  exact r2

/-- **C124** What fractions are for: 1/3 + 1/3 + 1/3 is 1 with fractions and below 1 with decimal quotients, in both builds. -/
theorem C124_thirds :
    (∃ r, FSum m (unitFrac 3) [unitFrac 3, unitFrac 3] r ∧ IsFrac r 1) ∧
    ∃ q s t, FixedDecimal.div m FixedDecimal.one (unitFrac 3).2 = .ok q ∧ FixedDecimal.add m q q = .ok s ∧
      FixedDecimal.add m s q = .ok t ∧ (FixedDecimal.cmp m t FixedDecimal.one : Out Empty _) = .ok .lt := by
  constructor
  · have h3 := unitFrac_is (n := 3) (by norm_num) (by norm_num)
    obtain ⟨r, r1, r2⟩ := C124_sum (m := m) [unitFrac 3, unitFrac 3] [1 / (3 : Nat), 1 / (3 : Nat)] (acc := unitFrac 3) (A := 1 / (3 : Nat))
      (.cons h3 (.cons h3 .nil)) h3 (by cases m <;> decide +kernel)
    refine ⟨r, r1, ?_⟩
    have : (1 / (3 : Nat) : ℚ) + [1 / ((3 : Nat) : ℚ), 1 / ((3 : Nat) : ℚ)].sum = 1 := by norm_num
    rw [this] at r2
    exact r2
  · cases m
    · exact ⟨_, _, _, rfl, rfl, rfl, by decide +kernel⟩
    · exact ⟨_, _, _, rfl, rfl, rfl, by decide +kernel⟩

end Props
end Fxd
