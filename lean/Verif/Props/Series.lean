import Verif.Props.RoundingModes
import Mathlib.Analysis.Complex.Exponential
import Mathlib.Analysis.Real.Sqrt
import Mathlib.Data.Rat.BigOperators
import Mathlib.Data.Rat.Cast.Order
/-!
# Property C120: sums of series, and e

Each term is the term before times a ratio of whole numbers, rounded to `k` digits; the terms are added up.
-/

namespace Fxd
open Spec

namespace Props
variable {m : Mode}

/-- `for (c, d) in ratios { t = round(&(c * &t) / d, k); t = &(&t + &one) - &one; s = &s + &t }`, the quotient with `incr` more digits. -/
def series (m : Mode) (incr k : Nat) : FixedDecimal → FixedDecimal → List (FixedDecimal × FixedDecimal) → Out Empty FixedDecimal
  | _, s, [] => .ok s
  | t, s, (c, d) :: rest => do
    let r ← FixedDecimal.orPanic (ratio m incr k c t d)
    let t' ← compact m r
    let s' ← FixedDecimal.add m s t'
    series m incr k t' s' rest

/-- The same on rational numbers, with every term rounded. -/
def seriesQ (k : Nat) : ℚ → ℚ → List (Nat × Nat) → ℚ
  | _, s, [] => s
  | t, s, (c, d) :: rest => seriesQ k (ratioQ k c t d) (s + ratioQ k c t d) rest

/-- The sum without rounding. -/
def seriesExact : ℚ → ℚ → List (Nat × Nat) → ℚ
  | _, s, [] => s
  | t, s, (c, d) :: rest => seriesExact (t * c / d) (s + t * c / d) rest

/-- One integral unit, at most `k` digits after the point. -/
structure Held (k : Nat) (x : FixedDecimal) : Prop where
  tight : Tight x
  unit : iu x ≤ 1
  scale : fracDigits x ≤ k

/-- A ratio of whole numbers below 10⁹, at most one. -/
structure IsRatio (p : FixedDecimal × FixedDecimal) (n : Nat × Nat) : Prop where
  num : Weight p.1 n.1
  den : Weight p.2 n.2
  pos : 1 ≤ n.2
  small : n.2 < 10 ^ 9
  le : n.1 ≤ n.2

/-- **C120** The program computes the recurrence with rounded terms, for any number of terms, and no call fails. -/
theorem C120_series {k incr : Nat} (hk : k ≤ 35) (hi9 : 9 ≤ incr) (hik : k < incr) (hi : incr ≤ 80) :
    ∀ {ps : List (FixedDecimal × FixedDecimal)} {ns : List (Nat × Nat)}, List.Forall₂ IsRatio ps ns →
      ∀ {t s : FixedDecimal}, Held k t → Held k s → |val s| + ns.length * |val t| < 10 ^ 9 →
        ∃ r, series m incr k t s ps = .ok r ∧ val r = seriesQ k (val t) (val s) ns ∧ Held k r := by
  intro ps ns h
  induction h with
  | nil => intro t s _ hs _; exact ⟨s, rfl, rfl, hs⟩
  | @cons p n ps ns hp hps ih =>
    intro t s ht hs hb
    obtain ⟨c, d⟩ := p
    obtain ⟨C, D⟩ := n
    obtain ⟨w1, w2, d1, d2, d3⟩ := hp
    simp only at w1 w2 d1 d2 d3
    have uk : unitsFor k ≤ 4 := by unfold unitsFor; omega
    obtain ⟨r, r1, r2, r3, r4, r5⟩ := ratio_ok (m := m) (u := 1) (incr := incr) w1.whole w1.tight w1.unit ht.tight ht.scale ht.unit (by omega)
      w2.whole d1 d2 d3 hk (by omega) hi9 hik hi
    obtain ⟨z, hz⟩ := val_mul_pow_digits ht.tight ht.scale
    have hD : (0 : ℚ) < D := by exact_mod_cast d1
    have habs : |ratioQ k C (val t) D| ≤ |val t| := ratioQ_abs hz (by positivity) (by exact_mod_cast d3) hD
    have hb' : |val s| + (ns.length * |val t| + |val t|) < 10 ^ 9 := by
      rw [List.length_cons] at hb; push_cast at hb; linarith
    have n0 : 0 ≤ (ns.length : ℚ) * |val t| := by positivity
    have n1 := abs_nonneg (val s)
    obtain ⟨t', q1, q2, q3, q4, q5, q6⟩ := C106_compact (m := m) (x := r) (I := 2) (F := unitsFor k)
      ⟨r3.toWF, r5, unitsFor_mono r4.le⟩ (by omega) (by omega) (by rw [r2]; norm_num; linarith)
    have ht' : Held k t' := by
      refine ⟨q4 r3, q6 1 le_rfl (by rw [r2]; norm_num; linarith), ?_⟩
      have h5 := q2.wf.frac_eq; have h6 := r3.toWF.frac_eq
      omega
    have vt : val t' = ratioQ k C (val t) D := by rw [q3, r2]
    have hsum : |val s + val t'| < 10 ^ (9 * 1) := by
      have := abs_add_le (val s) (val t')
      rw [vt] at this ⊢
      norm_num; linarith
    obtain ⟨s', s1, s2, s3⟩ := add_within (m := m) (I := 1) (F := unitsFor k) (by omega)
      ⟨hs.tight.toWF, hs.unit, unitsFor_mono hs.scale⟩ ⟨ht'.tight.toWF, ht'.unit, unitsFor_mono ht'.scale⟩ hsum
    have ts : Tight s' := (addTo_res hs.tight.toWF ht'.tight.toWF (res := FixedDecimal.blank) rfl (add_ok_iff.mp s1)).tight hs.tight ht'.tight
    obtain ⟨us, fs⟩ := add_shrink hs.tight.toWF ht'.tight.toWF le_rfl s1 hsum (fun _ => hs.unit) (fun _ => ht'.unit) hs.scale ht'.scale
    obtain ⟨o, o1, o2, o3⟩ := ih ht' ⟨ts, us, fs⟩ (by
      have h1 := abs_add_le (val s) (val t')
      have h2 : (ns.length : ℚ) * |val t'| ≤ ns.length * |val t| := mul_le_mul_of_nonneg_left (by rw [vt]; exact habs) (by positivity)
      rw [s3]
      rw [vt] at h1 h2 ⊢
      linarith)
    refine ⟨o, ?_, ?_, o3⟩
    · unfold series
      rw [r1]
      simp only [FixedDecimal.orPanic, ok_bind, q1, s1]
      exact o1
    · rw [o2, s3, vt]; rfl

/-- **C120** When every ratio is at most one half, `n` terms are off by at most `n` units of the `k`-th digit. -/
theorem C120_error (k : Nat) : ∀ (ns : List (Nat × Nat)) {t t' s s' : ℚ}, (∀ n ∈ ns, 2 * n.1 ≤ n.2 ∧ 1 ≤ n.2) → |t - t'| ≤ 1 / 10 ^ k →
    |seriesQ k t s ns - seriesExact t' s' ns| ≤ |s - s'| + ns.length / 10 ^ k
  | [], t, t', s, s', _, _ => by simp [seriesQ, seriesExact]
  | (c, d) :: ns, t, t', s, s', hn, ht => by
    obtain ⟨h1, h2⟩ := hn (c, d) (by simp)
    simp only at h1 h2
    have hd : (0 : ℚ) < d := by exact_mod_cast h2
    have hc : (c : ℚ) / d ≤ 1 / 2 := by
      rw [div_le_iff₀ hd]
      have : (2 : ℚ) * c ≤ d := by exact_mod_cast h1
      linarith
    have hc0 : (0 : ℚ) ≤ c / d := by positivity
    have e1 : |ratioQ k c t d - t' * c / d| ≤ 1 / 10 ^ k := by
      have a1 := ratioQ_near k c t d
      have a2 : |(c : ℚ) * t / d - t' * c / d| ≤ 1 / 10 ^ k / 2 := by
        rw [show (c : ℚ) * t / d - t' * c / d = (c / d) * (t - t') by ring, abs_mul, abs_of_nonneg hc0]
        calc (c : ℚ) / d * |t - t'| ≤ 1 / 2 * (1 / 10 ^ k) := mul_le_mul hc ht (abs_nonneg _) (by norm_num)
          _ = 1 / 10 ^ k / 2 := by ring
      have a3 := abs_add_le (ratioQ k c t d - c * t / d) ((c : ℚ) * t / d - t' * c / d)
      rw [sub_add_sub_cancel] at a3
      linarith
    have ih := C120_error k ns (t := ratioQ k c t d) (t' := t' * c / d) (s := s + ratioQ k c t d) (s' := s' + t' * c / d)
      (fun n hn' => hn n (by simp [hn'])) e1
    have e2 := abs_add_le (s - s') (ratioQ k c t d - t' * c / d)
    rw [show s - s' + (ratioQ k c t d - t' * c / d) = s + ratioQ k c t d - (s' + t' * c / d) by ring] at e2
    simp only [seriesQ, seriesExact, List.length_cons]
    push_cast
    have : ((ns.length : ℚ) + 1) / 10 ^ k = ns.length / 10 ^ k + 1 / 10 ^ k := by ring
    rw [this]; linarith

/-- `i = &i + &one; ...`: the whole numbers from `i + 1` on. -/
def countUp (m : Mode) : Nat → FixedDecimal → Out Empty (List FixedDecimal)
  | 0, _ => .ok []
  | n + 1, i => do
    let j ← FixedDecimal.add m i FixedDecimal.one
    let tail ← countUp m n j
    return j :: tail

theorem weight_one : Weight FixedDecimal.one 1 := weight_mk (by decide) rfl (by decide) (by decide) (by decide)

theorem countUp_ok : ∀ (n : Nat) {i : FixedDecimal} {I : Nat}, Weight i I → I + n < 10 ^ 9 →
    ∃ ds, countUp m n i = .ok ds ∧ List.Forall₂ Weight ds (List.range' (I + 1) n)
  | 0, _, _, _, _ => ⟨[], rfl, .nil⟩
  | n + 1, i, I, hw, hb => by
    obtain ⟨j, j1, j2⟩ := weight_add (m := m) hw weight_one (by omega)
    obtain ⟨ds, d1, d2⟩ := countUp_ok n j2 (by omega)
    refine ⟨j :: ds, by rw [countUp, j1, ok_bind, d1, ok_bind]; rfl, ?_⟩
    rw [List.range'_succ]
    exact .cons j2 d2

/-- 1 + 1 + 1/2 + 1/6 + ..., `n` more terms, each rounded to `k` digits. -/
def eProgram (m : Mode) (incr k n : Nat) : Out Empty FixedDecimal := do
  let two ← FixedDecimal.add m FixedDecimal.one FixedDecimal.one
  let ds ← countUp m n FixedDecimal.one
  series m incr k FixedDecimal.one two (ds.map (fun d => (FixedDecimal.one, d)))

theorem seriesExact_factorial : ∀ (n I : Nat) (s : ℚ), 1 ≤ I →
    seriesExact (1 / I.factorial) s ((List.range' (I + 1) n).map (fun d => (1, d))) =
      s + ∑ j ∈ Finset.range n, 1 / ((I + 1 + j).factorial : ℚ)
  | 0, _, _, _ => by simp [seriesExact]
  | n + 1, I, s, hI => by
    rw [List.range'_succ, List.map_cons, seriesExact]
    have e : (1 : ℚ) / I.factorial * ((1 : ℕ) : ℚ) / ((I + 1 : ℕ) : ℚ) = 1 / (I + 1).factorial := by
      rw [Nat.factorial_succ]; push_cast
      have h1 : (I.factorial : ℚ) ≠ 0 := by exact_mod_cast I.factorial_ne_zero
      have h2 : (I : ℚ) + 1 ≠ 0 := by positivity
      field_simp
    rw [e, seriesExact_factorial n (I + 1) _ (by omega), Finset.sum_range_succ', add_assoc]
    congr 1
    rw [add_comm]
    congr 1
    exact Finset.sum_congr rfl (fun j _ => by congr 3; omega)

theorem held_one {k : Nat} : Held k FixedDecimal.one := ⟨by decide, by decide, le_trans (by decide : _ ≤ 0) (Nat.zero_le k)⟩

/-- **C120** Euler's number: `n` terms rounded to `k` digits are within `n` units of the `k`-th digit of the partial sum, and the partial
sum is within `(n + 3) / ((n + 2)! (n + 2))` of e. -/
theorem C120_e {k incr n : Nat} (hk : k ≤ 35) (hi9 : 9 ≤ incr) (hik : k < incr) (hi : incr ≤ 80) (hn : n < 10 ^ 8) :
    ∃ r, eProgram m incr k n = .ok r ∧ Held k r ∧
      |(val r : ℝ) - Real.exp 1| ≤ n / 10 ^ k + ((n : ℝ) + 3) / ((n + 2).factorial * (n + 2)) := by
  obtain ⟨two, t1, t2⟩ := weight_add (m := m) weight_one weight_one (by norm_num)
  obtain ⟨ds, d1, d2⟩ := countUp_ok (m := m) n weight_one (by omega)
  have hps : List.Forall₂ IsRatio (ds.map (fun d => (FixedDecimal.one, d))) ((List.range' 2 n).map (fun d => (1, d))) := by
    rw [List.forall₂_map_left_iff, List.forall₂_map_right_iff]
    have : List.Forall₂ (fun a c => Weight a c ∧ c ∈ List.range' (1 + 1) n) ds (List.range' (1 + 1) n) := by
      rw [List.forall₂_iff_get] at d2 ⊢
      exact ⟨d2.1, fun i h1 h2 => ⟨d2.2 i h1 h2, List.get_mem _ _⟩⟩
    refine this.imp fun a c hac => ?_
    obtain ⟨h1, h2⟩ := hac
    rw [List.mem_range'] at h2
    obtain ⟨i, i1, i2⟩ := h2
    exact ⟨weight_one, h1, by simp only; omega, by simp only; omega, by simp only; omega⟩
  have v2 : val two = 2 := by rw [t2.whole.value]; norm_num
  have v1 : val FixedDecimal.one = 1 := val_one
  have h2 : Held k two := ⟨t2.tight, t2.unit, by
    have : fracDigits two = 0 := by unfold fracDigits; rw [t2.whole.frac]; rfl
    omega⟩
  obtain ⟨r, r1, r2, r3⟩ := C120_series (m := m) hk hi9 hik hi hps held_one h2 (by
    rw [v1, v2, List.length_map, List.length_range']
    have : (n : ℚ) < 10 ^ 8 := by exact_mod_cast hn
    rw [abs_one, mul_one, abs_of_nonneg (by norm_num : (0 : ℚ) ≤ 2)]; linarith)
  refine ⟨r, ?_, r3, ?_⟩
  · unfold eProgram
    rw [t1, ok_bind, d1, ok_bind]; exact r1
  · have e1 := C120_error k ((List.range' 2 n).map (fun d => (1, d))) (t := 1) (t' := 1) (s := 2) (s' := 2) (by
      intro x hx
      obtain ⟨y, hy, rfl⟩ := List.mem_map.mp hx
      rw [List.mem_range'] at hy
      obtain ⟨i, i1, i2⟩ := hy
      simp only; omega) (by simp)
    have ex := seriesExact_factorial n 1 2 le_rfl
    norm_num at ex
    rw [List.length_map, List.length_range', sub_self, abs_zero, zero_add] at e1
    rw [v1, v2] at r2
    rw [← r2, ex] at e1
    have e2 := Real.exp_bound (x := 1) (by simp) (n := n + 2) (by omega)
    rw [abs_one, one_pow, one_mul] at e2
    have e3 : ((2 + ∑ j ∈ Finset.range n, ((2 + j).factorial : ℚ)⁻¹ : ℚ) : ℝ) = ∑ j ∈ Finset.range (n + 2), (1 : ℝ) ^ j / j.factorial := by
      rw [Finset.sum_range_succ', Finset.sum_range_succ', Rat.cast_add, Rat.cast_sum]
      have h1 : ∀ j ∈ Finset.range n, (((((2 + j).factorial : ℚ)⁻¹ : ℚ)) : ℝ) = (1 : ℝ) ^ (j + 1 + 1) / (j + 1 + 1).factorial := by
        intro j _
        rw [one_pow, one_div, add_comm 2 j]; push_cast; rfl
      rw [Finset.sum_congr rfl h1]
      norm_num
      ring
    have e4 : |(val r : ℝ) - ∑ j ∈ Finset.range (n + 2), (1 : ℝ) ^ j / j.factorial| ≤ n / 10 ^ k := by
      rw [← e3]
      have h1 : ((|val r - (2 + ∑ j ∈ Finset.range n, ((2 + j).factorial : ℚ)⁻¹)| : ℚ) : ℝ) ≤ ((n / 10 ^ k : ℚ) : ℝ) := Rat.cast_le.mpr e1
      rw [Rat.cast_abs, Rat.cast_sub] at h1
      refine h1.trans (le_of_eq ?_)
      push_cast; rfl
    have e5 := abs_sub_le (val r : ℝ) (∑ j ∈ Finset.range (n + 2), (1 : ℝ) ^ j / j.factorial) (Real.exp 1)
    rw [abs_sub_comm (∑ j ∈ Finset.range (n + 2), (1 : ℝ) ^ j / j.factorial)] at e5
    push_cast at e2
    have e6 : ((n : ℝ) + 2 + 1) = n + 3 := by ring
    have e7 : (((n + 2 : ℕ).succ : ℝ)) = n + 3 := by push_cast; ring
    first
      | (rw [e6] at e2; linarith)
      | (rw [e7] at e2; linarith)
      | linarith

/-- 19 terms with 18 decimals: 2.718281828459045234, for e = 2.71828182845904523536... -/
example : ∃ r, eProgram m 19 18 19 = .ok r ∧ (r.toStr m (-1) : Out Unit _) = .ok (Samples.bytes "2.718281828459045234") := by
  refine ⟨⟨9#8, 18, [459045234, 718281828, 2, 0, 0, 0, 0, 0, 0]⟩, ?_, ?_⟩
  all_goals (cases m <;> decide +kernel)

/-- **C118** The square root program in terms of the real square root: its digits after the `k`-th cut off. -/
theorem C118_sqrt_real {u k : Nat} {half x lo hi : FixedDecimal} (n : Nat) (hh : Tight half) (h1 : 1 ≤ intgDigits half)
    (h8 : intgDigits half ≤ 8) (hf : fracDigits half ≤ 1) (hv : val half = 1 / 2) (hu : 1 ≤ u)
    (hroom : 2 * (u + 1) + unitsFor (k + k) ≤ 9) (h4 : unitsFor (k + k) ≤ 4) (hB : 2 * val hi < 10 ^ (9 * u)) (hx : WF x)
    (hx0 : 0 < val x) (bl : Bound u k lo) (bh : Bound u k hi) (hl : val lo ^ 2 ≤ val x) (hr : val x < val hi ^ 2)
    (hn : (val hi - val lo) * 10 ^ k ≤ 2 ^ n) :
    ∃ r, bisect m k half (squareAtMost m x) n lo hi = .ok r ∧ Tight r ∧ (val r : ℝ) = ⌊√(val x : ℝ) * 10 ^ k⌋ / 10 ^ k := by
  obtain ⟨r, r1, r2, r3, r4⟩ := C118_sqrt (m := m) n hh h1 h8 hf hv hu hroom h4 hB hx hx0 bl bh hl hr hn
  refine ⟨r, r1, r4.tight, ?_⟩
  obtain ⟨N, hN⟩ := val_mul_pow_digits r4.tight r4.scale
  have p0 : (0 : ℝ) < 10 ^ k := by positivity
  have q0 : (0 : ℝ) ≤ val r := by exact_mod_cast r4.nonneg
  have q2 : ((val r : ℝ)) ^ 2 ≤ (val x : ℝ) := by exact_mod_cast r2
  have q3 : (val x : ℝ) < ((val r : ℝ) + 1 / 10 ^ k) ^ 2 := by
    have := (Rat.cast_lt (K := ℝ)).mpr r3
    push_cast at this; exact this
  have qN : (val r : ℝ) * 10 ^ k = N := by
    have : ((val r * 10 ^ k : ℚ) : ℝ) = ((N : ℚ) : ℝ) := by rw [hN]
    push_cast at this; exact this
  have l1 : (val r : ℝ) ≤ √(val x : ℝ) := Real.le_sqrt_of_sq_le q2
  have l2 : √(val x : ℝ) < val r + 1 / 10 ^ k := (Real.sqrt_lt' (by positivity)).mpr q3
  have fl : ⌊√(val x : ℝ) * 10 ^ k⌋ = N := by
    rw [Int.floor_eq_iff, ← qN]
    refine ⟨mul_le_mul_of_nonneg_right l1 p0.le, ?_⟩
    calc √(val x : ℝ) * 10 ^ k < (val r + 1 / 10 ^ k) * 10 ^ k := mul_lt_mul_of_pos_right l2 p0
      _ = val r * 10 ^ k + 1 := by field_simp
  rw [fl, ← qN, mul_div_cancel_right₀ _ p0.ne']

end Props
end Fxd
