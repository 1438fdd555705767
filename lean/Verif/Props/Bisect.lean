import Verif.Props.Dot
/-!
# Property C118: bisection, and square roots to `k` decimals

The loop that halves an interval, with the midpoint rounded to `k` digits, until the interval is one unit of the `k`-th digit wide.
-/

namespace Fxd
open Spec

namespace Props
variable {m : Mode}

/-- `for _ in 0..n { let s = &lo + &hi; let t = round(&half * &s, k); let mid = &(&t + &one) - &one;`
`if test(&t) { lo = mid } else { hi = mid } }`, then `lo`. -/
def bisect (m : Mode) (k : Nat) (half : FixedDecimal) (test : FixedDecimal → Out Empty Bool) :
    Nat → FixedDecimal → FixedDecimal → Out Empty FixedDecimal
  | 0, lo, _ => .ok lo
  | n + 1, lo, hi => do
    let s ← FixedDecimal.add m lo hi
    let t ← FixedDecimal.orPanic (charge m k half s)
    let mid ← compact m t
    let up ← test t
    bisect m k half test n (if up then mid else lo) (if up then hi else mid)

theorem charge_has_digit {x p r : FixedDecimal} {k : Nat} (hx : Tight x) (hx1 : 1 ≤ intgDigits x) (hp : Tight p) (hk : k ≤ 127)
    (h : charge m k x p = .ok r) : 1 ≤ intgDigits r := by
  obtain ⟨t, ht, hr⟩ := bind_eq_ok.mp (show (FixedDecimal.mulTo m x p FixedDecimal.zero >>= fun t => t.roundTo m FixedDecimal.zero k)
    = .ok r from h)
  obtain ⟨tt, e4⟩ := mul_intg hx hp rfl ht
  refine le_trans ?_ (round_to_intg tt rfl hr hk).1
  rcases e4 with e4 | e4
  · rw [e4]; decide
  · rw [e4]
    have : 1 ≤ mulIU x p := by unfold mulIU unitsFor; omega
    omega

theorem halfAway_half {n : Int} (h : 0 ≤ n) : halfAway ((n : ℚ) * (1 / 2)) = (n + 1) / 2 := by
  unfold halfAway
  have : (0 : ℚ) ≤ n := by exact_mod_cast h
  rw [if_neg (by linarith), show (n : ℚ) * (1 / 2) + 1 / 2 = ((n + 1 : ℤ) : ℚ) / ((2 : ℕ) : ℚ) by push_cast; ring]
  rw [Rat.floor_intCast_div_natCast]; rfl

/-- The ends of the interval: valid, not negative, at most `u` integral units and `k` digits after the point. -/
structure Bound (u k : Nat) (x : FixedDecimal) : Prop where
  tight : Tight x
  units : iu x ≤ u
  scale : fracDigits x ≤ k
  nonneg : 0 ≤ val x

/-- What the test is asked about: decimals with an integral digit, between the ends of the interval. -/
structure Probe (u k : Nat) (lo hi : ℚ) (x : FixedDecimal) : Prop where
  tight : Tight x
  digit : 1 ≤ intgDigits x
  units : iu x ≤ u + 1
  scale : fracDigits x ≤ k
  above : lo ≤ val x
  below : val x ≤ hi

/-- **C118** Bisection finds a place where the condition changes, exactly one unit of the `k`-th digit wide, in as many steps as the
width of the interval has binary digits, and no step fails: whatever the condition, in every build. -/
theorem C118_bisect {u k : Nat} {half : FixedDecimal} {test : FixedDecimal → Out Empty Bool} {P : ℚ → Prop} {A B : ℚ}
    (hh : Tight half) (h1 : 1 ≤ intgDigits half) (h8 : intgDigits half ≤ 8) (hf : fracDigits half ≤ 1) (hv : val half = 1 / 2)
    (hu : 1 ≤ u) (h4 : unitsFor (k + 1) ≤ 4) (hroom : u + 1 + unitsFor (k + 1) ≤ 8) (hB : 2 * B < 10 ^ (9 * u))
    (ht : ∀ x, Probe u k A B x → ∃ b, test x = .ok b ∧ (b = true ↔ P (val x))) :
    ∀ (n : Nat) {lo hi : FixedDecimal}, Bound u k lo → Bound u k hi → A ≤ val lo → val lo < val hi → val hi ≤ B →
      (val hi - val lo) * 10 ^ k ≤ 2 ^ n → P (val lo) → ¬ P (val hi) →
      ∃ r, bisect m k half test n lo hi = .ok r ∧ P (val r) ∧ ¬ P (val r + 1 / 10 ^ k) ∧ val lo ≤ val r ∧
        val r + 1 / 10 ^ k ≤ val hi ∧ Bound u k r := by
  intro n
  induction n with
  | zero =>
    intro lo hi bl bh a1 a2 a3 w pl ph
    obtain ⟨L, eL⟩ := val_mul_pow_digits bl.tight bl.scale
    obtain ⟨H, eH⟩ := val_mul_pow_digits bh.tight bh.scale
    have p0 : (0 : ℚ) < 10 ^ k := by positivity
    have e1 : L < H := by
      have : val lo * 10 ^ k < val hi * 10 ^ k := mul_lt_mul_of_pos_right a2 p0
      rw [eL, eH] at this; exact_mod_cast this
    have e2 : H - L ≤ 1 := by
      rw [sub_mul, eL, eH, pow_zero] at w
      exact_mod_cast w
    have e3 : H = L + 1 := by omega
    have e4 : val hi = val lo + 1 / 10 ^ k := by
      rw [e3] at eH
      field_simp
      rw [eH, eL]; push_cast; ring
    exact ⟨lo, rfl, pl, by rw [← e4]; exact ph, le_rfl, e4.ge, bl⟩
  | succ n ih =>
    intro lo hi bl bh a1 a2 a3 w pl ph
    obtain ⟨L, eL⟩ := val_mul_pow_digits bl.tight bl.scale
    obtain ⟨H, eH⟩ := val_mul_pow_digits bh.tight bh.scale
    have p0 : (0 : ℚ) < 10 ^ k := by positivity
    have e1 : L < H := by
      have : val lo * 10 ^ k < val hi * 10 ^ k := mul_lt_mul_of_pos_right a2 p0
      rw [eL, eH] at this; exact_mod_cast this
    have e0 : 0 ≤ L := by
      have := mul_nonneg bl.nonneg p0.le
      rw [eL] at this; exact_mod_cast this
    have n1 := bl.nonneg
    have n2 := bh.nonneg
    have hs : |val lo + val hi| < 10 ^ (9 * u) := by rw [abs_of_nonneg (by linarith)]; linarith
    have hk1 : unitsFor k ≤ unitsFor (k + 1) := unitsFor_mono (by omega)
    obtain ⟨s, s1, s2, s3⟩ := add_within (m := m) (I := u) (F := unitsFor k) (by omega)
      ⟨bl.tight.toWF, bl.units, unitsFor_mono bl.scale⟩ ⟨bh.tight.toWF, bh.units, unitsFor_mono bh.scale⟩ hs
    have ts : Tight s := (addTo_res bl.tight.toWF bh.tight.toWF (res := FixedDecimal.blank) rfl (add_ok_iff.mp s1)).tight bl.tight
      bh.tight
    obtain ⟨us, fs⟩ := add_shrink bl.tight.toWF bh.tight.toWF hu s1 hs (fun _ => bl.units) (fun _ => bh.units) bl.scale bh.scale
    obtain ⟨t, t1, t2, t3, t4, t5, -⟩ := charge_left (m := m) hh h1 h8 hf ts us fs h4 hu hroom
    have hk : k ≤ 127 := by unfold unitsFor at h4; omega
    have td := charge_has_digit hh h1 ts hk t1
    obtain ⟨M, eM⟩ : ∃ M : Int, M = (L + H + 1) / 2 := ⟨_, rfl⟩
    have vt : val t = (M : ℚ) / 10 ^ k := by
      rw [t5, hv, s3, show (val lo + val hi) * (1 / 2) * 10 ^ k = ((L + H : ℤ) : ℚ) * (1 / 2) by push_cast; rw [← eL, ← eH]; ring,
        halfAway_half (by omega), eM]
    have vL : val lo = (L : ℚ) / 10 ^ k := by rw [eq_div_iff p0.ne', eL]
    have vH : val hi = (H : ℚ) / 10 ^ k := by rw [eq_div_iff p0.ne', eH]
    have m1 : L < M := by omega
    have m2 : M ≤ H := by omega
    have c1 : val lo < val t := by rw [vL, vt]; exact div_lt_div_of_pos_right (by exact_mod_cast m1) p0
    have c2 : val t ≤ val hi := by rw [vH, vt]; exact div_le_div_of_nonneg_right (by exact_mod_cast m2) p0.le
    have hB2 : val t < 10 ^ (9 * u) := by linarith
    have big : (10 : ℚ) ^ (9 * u) + 1 < 10 ^ (9 * (u + 1)) := by
      have : (1 : ℚ) ≤ 10 ^ (9 * u) := one_le_pow₀ (by norm_num)
      rw [show 9 * (u + 1) = 9 * u + 9 by omega, pow_add]; norm_num; linarith
    obtain ⟨mid, q1, q2, q3, q4, q5, q6⟩ := C106_compact (m := m) (x := t) (I := u + 1) (F := unitsFor k)
      ⟨t2.toWF, t4, unitsFor_mono t3.le⟩ (by omega) (by omega) (by rw [abs_of_nonneg (by linarith)]; linarith)
    have bm : Bound u k mid := by
      refine ⟨q4 t2, q6 u hu (by rw [abs_of_nonneg (by linarith)]; exact hB2), ?_, by rw [q3]; linarith⟩
      have h5 := q2.wf.frac_eq; have h6 := t2.toWF.frac_eq
      omega
    obtain ⟨b, b1, b2⟩ := ht t ⟨t2, td, t4, t3.le, by linarith, by linarith⟩
    have run : bisect m k half test (n + 1) lo hi = bisect m k half test n (if b then mid else lo) (if b then hi else mid) := by
      rw [bisect, s1, ok_bind, t1]
      simp only [FixedDecimal.orPanic, ok_bind, q1, b1]
    have w2 : H - L ≤ 2 ^ (n + 1) := by
      rw [sub_mul, eL, eH] at w
      exact_mod_cast w
    rw [pow_succ] at w2
    rw [run]
    cases b with
    | true =>
      have pm : P (val mid) := by rw [q3]; exact b2.mp rfl
      have hlt : val mid < val hi := lt_of_le_of_ne (by rw [q3]; exact c2) (fun h => ph (h ▸ pm))
      have hw : (val hi - val mid) * 10 ^ k ≤ 2 ^ n := by
        rw [q3, vt, vH, ← sub_div, div_mul_cancel₀ _ p0.ne']
        have : H - M ≤ 2 ^ n := by omega
        exact_mod_cast this
      obtain ⟨r, r1, r2, r3, r4, r5, r6⟩ := ih bm bh (by rw [q3]; linarith) hlt a3 hw pm ph
      exact ⟨r, r1, r2, r3, by rw [q3] at r4; linarith, r5, r6⟩
    | false =>
      have pm : ¬ P (val mid) := by rw [q3]; exact fun h => by simpa using b2.mpr h
      have hw : (val mid - val lo) * 10 ^ k ≤ 2 ^ n := by
        rw [q3, vt, vL, ← sub_div, div_mul_cancel₀ _ p0.ne']
        have : M - L ≤ 2 ^ n := by omega
        exact_mod_cast this
      obtain ⟨r, r1, r2, r3, r4, r5, r6⟩ := ih bl bm a1 (by rw [q3]; exact c1) (by rw [q3]; linarith) hw pl pm
      exact ⟨r, r1, r2, r3, r4, by rw [q3] at r5; linarith, r6⟩

/-- `&x * &x <= n` -/
def squareAtMost (m : Mode) (n x : FixedDecimal) : Out Empty Bool := do
  let q ← FixedDecimal.mul m x x
  let c ← FixedDecimal.cmp m q n
  return c != .gt

/-- **C118** Square roots to `k` decimals: the result `r` has `r² ≤ n < (r + 10⁻ᵏ)²`, so it is the root cut off after `k` digits. With `u`
integral units for the bounds, `2 (u + 1) + ceil(2k / 9) <= 9`: roots below 5 · 10⁸ to 18 decimals, roots below 5 · 10¹⁷ to 13. -/
theorem C118_sqrt {u k : Nat} {half x lo hi : FixedDecimal} (n : Nat) (hh : Tight half) (h1 : 1 ≤ intgDigits half)
    (h8 : intgDigits half ≤ 8) (hf : fracDigits half ≤ 1) (hv : val half = 1 / 2) (hu : 1 ≤ u)
    (hroom : 2 * (u + 1) + unitsFor (k + k) ≤ 9) (h4 : unitsFor (k + k) ≤ 4) (hB : 2 * val hi < 10 ^ (9 * u)) (hx : WF x)
    (hx0 : 0 < val x) (bl : Bound u k lo) (bh : Bound u k hi) (hl : val lo ^ 2 ≤ val x) (hr : val x < val hi ^ 2)
    (hn : (val hi - val lo) * 10 ^ k ≤ 2 ^ n) :
    ∃ r, bisect m k half (squareAtMost m x) n lo hi = .ok r ∧ val r ^ 2 ≤ val x ∧ val x < (val r + 1 / 10 ^ k) ^ 2 ∧ Bound u k r := by
  have n1 := bl.nonneg
  have n2 := bh.nonneg
  have hlt : val lo < val hi := by
    by_contra hc
    have := pow_le_pow_left₀ n2 (not_lt.mp hc) 2
    linarith
  have e1 : unitsFor (k + 1) ≤ 4 := by unfold unitsFor at *; omega
  have e2 : u + 1 + unitsFor (k + 1) ≤ 8 := by unfold unitsFor at *; omega
  obtain ⟨r, r1, r2, r3, -, -, r6⟩ := C118_bisect (m := m) (u := u) (k := k) (test := squareAtMost m x) (P := fun q => q ^ 2 ≤ val x)
    (A := val lo) (B := val hi) hh h1 h8 hf hv hu e1 e2 hB (by
      intro y hy
      obtain ⟨p, p1, p2, p3, -, -⟩ := mul_room (m := m) hy.tight hy.tight (.inr hy.digit) hy.units hy.units (by omega) hy.scale hy.scale
        h4 (by omega)
      refine ⟨compare (val p) (val x) != .gt, ?_, ?_⟩
      · unfold squareAtMost
        rw [p1, ok_bind, C16_cmp_numeric m p3.toWF hx (fun h => hx0.ne' h.2)]; rfl
      · rw [p2, ← sq]
        rw [bne_iff_ne, compare_le_iff_le]) n bl bh le_rfl hlt le_rfl hn hl (by simpa using hr)
  exact ⟨r, r1, r2, by simpa using r3, r6⟩

/-- 0.5, as parsed. -/
def fHalf : FixedDecimal := ⟨1#8, 1, [500000000, 0, 0, 0, 0, 0, 0, 0, 0]⟩

theorem val_fHalf : val fHalf = 1 / 2 := by
  have e1 : mant fHalf = 500000000 := by decide
  have e2 : fu fHalf = 1 := by decide
  have e3 : neg fHalf = false := by decide
  unfold val absVal; rw [e1, e2, e3]; norm_num

/-- **C118** The whole program for one number, nothing assumed: for every number up to 10⁸ with any number of digits after the point, the
loop from 0 to 10⁵ with 77 steps gives the root cut off after 18 digits. -/
theorem C118_sqrt18 {x hi : FixedDecimal} (hx : WF x) (h0 : 0 < val x) (h8 : val x ≤ 10 ^ 8)
    (hh : FixedDecimal.fromStr m (Samples.bytes "100000") = .ok hi) :
    ∃ r, bisect m 18 fHalf (squareAtMost m x) 77 FixedDecimal.zero hi = .ok r ∧ val r ^ 2 ≤ val x ∧
      val x < (val r + 1 / 10 ^ 18) ^ 2 ∧ Tight r := by
  have e : hi = ⟨6#8, 0, [100000, 0, 0, 0, 0, 0, 0, 0, 0]⟩ := by
    have : FixedDecimal.fromStr m (Samples.bytes "100000") = .ok ⟨6#8, 0, [100000, 0, 0, 0, 0, 0, 0, 0, 0]⟩ := by
      cases m <;> decide +kernel
    rw [this] at hh; injection hh with hh; exact hh.symm
  have vh : val hi = 100000 := by
    rw [e]
    have e1 : mant ⟨6#8, 0, [100000, 0, 0, 0, 0, 0, 0, 0, 0]⟩ = 100000 := by decide
    have e2 : fu ⟨6#8, 0, [100000, 0, 0, 0, 0, 0, 0, 0, 0]⟩ = 0 := by decide
    have e3 : neg ⟨6#8, 0, [100000, 0, 0, 0, 0, 0, 0, 0, 0]⟩ = false := by decide
    unfold val absVal; rw [e1, e2, e3]; norm_num
  obtain ⟨r, r1, r2, r3, r4⟩ := C118_sqrt (m := m) (u := 1) (k := 18) (half := fHalf) (x := x) (lo := FixedDecimal.zero) (hi := hi) 77
    (by decide) (by decide) (by decide) (by decide) val_fHalf (by norm_num) (by decide) (by decide) (by rw [vh]; norm_num) hx h0
    ⟨by decide, by decide, by decide, val_zero.ge⟩ ⟨by rw [e]; decide, by rw [e]; decide, by rw [e]; decide, by rw [vh]; norm_num⟩
    (by rw [val_zero]; norm_num; exact h0.le) (by rw [vh]; norm_num at h8 ⊢; linarith) (by rw [vh, val_zero]; norm_num)
  exact ⟨r, r1, r2, r3, r4.tight⟩

/-- The square root of 2 to nine decimals, computed by the program. -/
example : ∃ two hi r : FixedDecimal, FixedDecimal.fromStr m (Samples.bytes "2") = .ok two ∧
    FixedDecimal.fromStr m (Samples.bytes "2") = .ok hi ∧
    bisect m 9 fHalf (squareAtMost m two) 31 FixedDecimal.zero hi = .ok r ∧
    (r.toStr m (-1) : Out Unit _) = .ok (Samples.bytes "1.414213562") := by
  refine ⟨⟨1#8, 0, [2, 0, 0, 0, 0, 0, 0, 0, 0]⟩, ⟨1#8, 0, [2, 0, 0, 0, 0, 0, 0, 0, 0]⟩,
    ⟨9#8, 9, [414213562, 1, 0, 0, 0, 0, 0, 0, 0]⟩, ?_, ?_, ?_, ?_⟩
  all_goals (cases m <;> decide +kernel)

/-- The same loop with the midpoint taken as it is. -/
def bisectPlain (m : Mode) (k : Nat) (half : FixedDecimal) (test : FixedDecimal → Out Empty Bool) :
    Nat → FixedDecimal → FixedDecimal → Out Empty FixedDecimal
  | 0, lo, _ => .ok lo
  | n + 1, lo, hi => do
    let s ← FixedDecimal.add m lo hi
    let t ← FixedDecimal.orPanic (charge m k half s)
    let up ← test t
    bisectPlain m k half test n (if up then t else lo) (if up then hi else t)

/-- **C118** Why the midpoint is compacted: while `lo` is 0 the sum is `hi` itself, and every halving claims nine more integral digits
(C99). The loop without `+ 1 - 1` panics on the root of 0.0001 in (0, 1); with it the root is 0.01. -/
theorem C118_witness_plain :
    ∀ m, ∃ x r : FixedDecimal, FixedDecimal.fromStr m (Samples.bytes "0.0001") = .ok x ∧
      (∃ p, bisectPlain m 9 fHalf (squareAtMost m x) 31 FixedDecimal.zero FixedDecimal.one = .panic p) ∧
      bisect m 9 fHalf (squareAtMost m x) 31 FixedDecimal.zero FixedDecimal.one = .ok r ∧
      (r.toStr m (-1) : Out Unit _) = .ok (Samples.bytes "0.010000000") := by
  intro m
  refine ⟨⟨1#8, 4, [100000, 0, 0, 0, 0, 0, 0, 0, 0]⟩, ⟨0#8, 9, [10000000, 0, 0, 0, 0, 0, 0, 0, 0]⟩, ?_, ⟨.operator .overflow, ?_⟩, ?_, ?_⟩
  all_goals (cases m <;> decide +kernel)

end Props
end Fxd
