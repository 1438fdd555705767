import Verif.Props.ProRata
/-!
# Property C115: dot products, sums of squares, variance
-/

namespace Fxd
open Spec

namespace Props
variable {m : Mode}

/-- A product that is kept whole: at most `u` and `v` integral units, `k` and `l` digits after the point; the left factor has an integral
digit, or the build is a release build. -/
theorem mul_room {x y : FixedDecimal} {u v k l : Nat} (hx : Tight x) (hy : Tight y) (h1 : m = .release ∨ 1 ≤ intgDigits x)
    (hxu : iu x ≤ u) (hyv : iu y ≤ v) (hu : 1 ≤ u + v) (hxk : fracDigits x ≤ k) (hyl : fracDigits y ≤ l) (h4 : unitsFor (k + l) ≤ 4)
    (hroom : u + v + unitsFor (k + l) ≤ 9) :
    ∃ p, FixedDecimal.mul m x y = .ok p ∧ val p = val x * val y ∧ Tight p ∧ iu p ≤ u + v ∧ fracDigits p ≤ k + l := by
  have e1 : intgDigits x ≤ 9 * u := by unfold iu unitsFor at hxu; omega
  have e2 : intgDigits y ≤ 9 * v := by unfold iu unitsFor at hyv; omega
  have hmi : mulIU x y ≤ u + v := by unfold mulIU unitsFor; omega
  have hmf : unitsFor (fracDigits x + fracDigits y) ≤ unitsFor (k + l) := unitsFor_mono (by omega)
  have hfull : MulFull x y := by unfold MulFull mulFU; omega
  have hfits : MulFits m x y := by
    refine ⟨by omega, by unfold unitsFor at h4; omega, ?_⟩
    have e : mulFU x y = unitsFor (fracDigits x + fracDigits y) := hfull
    have h2 : fu y ≤ unitsFor (fracDigits x + fracDigits y) := unitsFor_mono (by omega)
    rcases h1 with h1 | h1
    · by_cases h3 : fu y < iu x + mulFU x y
      · exact .inl h3
      · exact .inr ⟨h1, by omega⟩
    · have : 1 ≤ iu x := by unfold iu unitsFor; omega
      exact .inl (by omega)
  obtain ⟨p, hp⟩ := (C56_mul_ok_iff m hx hy (res := FixedDecimal.blank) rfl).mpr (.inr (.inr hfits))
  obtain ⟨g1, g2, g3⟩ := C27_mul_exact m hx hy rfl hfull hp
  obtain ⟨_, g4⟩ := mul_intg hx hy rfl hp
  refine ⟨p, mul_ok_iff.mpr hp, g1, g2, ?_, ?_⟩
  · rcases g4 with g4 | g4
    · rw [g4]; exact le_trans (by decide : iu FixedDecimal.zero ≤ 1) hu
    · unfold iu; rw [g4, unitsFor_mul9]; exact hmi
  · by_cases z : val x = 0 ∨ val y = 0
    · rw [mulTo_zero m hx.toWF hy.toWF rfl z] at hp
      injection hp with hp
      rw [← hp]; exact le_trans (by decide : fracDigits FixedDecimal.zero ≤ 0) (Nat.zero_le _)
    · rw [not_or] at z
      have := g3 z.1 z.2
      have h5 := g2.toWF.frac_eq; have h6 := hx.toWF.frac_eq; have h7 := hy.toWF.frac_eq
      omega

/-- `for (x, y) in pairs { acc = &acc + &(x * y) }` -/
def dot (m : Mode) : FixedDecimal → List (FixedDecimal × FixedDecimal) → Out Empty FixedDecimal
  | acc, [] => .ok acc
  | acc, (x, y) :: ps => do
    let p ← FixedDecimal.mul m x y
    let acc' ← FixedDecimal.add m acc p
    dot m acc' ps

/-- **C115** Any number of products summed up (quantities times prices): factors of at most `u` and `v` integral units with at most `k` and
`l` digits after the point, the left ones with an integral digit (release builds: any), `u + v + ceil((k + l) / 9) <= 8`. As long as the
magnitudes of the products add up to less than `10^(9 (u + v))` no call fails, and the result is exact. -/
theorem C115_dot {u v k l : Nat} (hu : 1 ≤ u + v) (h4 : unitsFor (k + l) ≤ 4) (hroom : u + v + unitsFor (k + l) ≤ 8) :
    ∀ (ps : List (FixedDecimal × FixedDecimal)) {acc : FixedDecimal}, Tight acc → iu acc ≤ u + v → fracDigits acc ≤ k + l →
      (∀ x ∈ ps, (Tight x.1 ∧ (m = .release ∨ 1 ≤ intgDigits x.1) ∧ iu x.1 ≤ u ∧ fracDigits x.1 ≤ k) ∧
        Tight x.2 ∧ iu x.2 ≤ v ∧ fracDigits x.2 ≤ l) →
      |val acc| + (ps.map (fun x => |val x.1 * val x.2|)).sum < 10 ^ (9 * (u + v)) →
      ∃ r, dot m acc ps = .ok r ∧ val r = val acc + (ps.map (fun x => val x.1 * val x.2)).sum ∧ Tight r ∧ iu r ≤ u + v ∧
        fracDigits r ≤ k + l
  | [], acc, ta, ia, fa, _, _ => ⟨acc, rfl, by simp, ta, ia, fa⟩
  | (x, y) :: ps, acc, ta, ia, fa, hps, hb => by
    obtain ⟨⟨x1, x2, x3, x4⟩, y1, y2, y3⟩ := hps (x, y) (by simp)
    simp only at x1 x2 x3 x4 y1 y2 y3
    obtain ⟨p, p1, p2, p3, p4, p5⟩ := mul_room x1 y1 x2 x3 y2 hu x4 y3 h4 (by omega)
    rw [List.map_cons, List.sum_cons] at hb
    simp only at hb
    have tail : 0 ≤ (ps.map (fun x => |val x.1 * val x.2|)).sum := List.sum_nonneg (by
      intro q hq
      obtain ⟨z, -, rfl⟩ := List.mem_map.mp hq
      exact abs_nonneg _)
    have tri := abs_add_le (val acc) (val x * val y)
    have hs : |val acc + val p| < 10 ^ (9 * (u + v)) := by rw [p2]; linarith
    obtain ⟨s, s1, s2, s3⟩ := add_within (m := m) (I := u + v) (F := unitsFor (k + l)) hroom ⟨ta.toWF, ia, unitsFor_mono fa⟩
      ⟨p3.toWF, p4, unitsFor_mono p5⟩ hs
    have ts : Tight s := (addTo_res ta.toWF p3.toWF (res := FixedDecimal.blank) rfl (add_ok_iff.mp s1)).tight ta p3
    obtain ⟨_, fs⟩ := add_shrink ta.toWF p3.toWF hu s1 hs (fun _ => ia) (fun _ => p4) fa p5
    obtain ⟨r, r1, r2, r3, r4, r5⟩ := C115_dot hu h4 hroom ps ts s2.intg fs (fun z hz => hps z (by simp [hz])) (by
      rw [s3, p2]; linarith)
    refine ⟨r, by unfold dot; rw [p1, ok_bind, s1, ok_bind]; exact r1, ?_, r3, r4, r5⟩
    rw [r2, s3, p2, List.map_cons, List.sum_cons]; ring

/-- Sums of any number of decimals. -/
theorem sum_room {u k : Nat} (hu : 1 ≤ u) (hroom : u + unitsFor k ≤ 8) :
    ∀ (xs : List FixedDecimal) {acc : FixedDecimal}, Tight acc → iu acc ≤ u → fracDigits acc ≤ k →
      (∀ x ∈ xs, Tight x ∧ iu x ≤ u ∧ fracDigits x ≤ k) → |val acc| + (xs.map (fun x => |val x|)).sum < 10 ^ (9 * u) →
      ∃ r, balance m acc (xs.map .credit) = .ok r ∧ val r = val acc + (xs.map val).sum ∧ Tight r ∧ iu r ≤ u ∧ fracDigits r ≤ k
  | [], acc, ta, ia, fa, _, _ => ⟨acc, rfl, by simp, ta, ia, fa⟩
  | x :: xs, acc, ta, ia, fa, hxs, hb => by
    obtain ⟨x1, x2, x3⟩ := hxs x (by simp)
    rw [List.map_cons, List.sum_cons] at hb
    have tail : 0 ≤ (xs.map (fun x => |val x|)).sum := List.sum_nonneg (by
      intro q hq
      obtain ⟨z, -, rfl⟩ := List.mem_map.mp hq
      exact abs_nonneg _)
    have tri := abs_add_le (val acc) (val x)
    have hs : |val acc + val x| < 10 ^ (9 * u) := by linarith
    obtain ⟨s, s1, s2, s3⟩ := add_within (m := m) (I := u) (F := unitsFor k) hroom ⟨ta.toWF, ia, unitsFor_mono fa⟩
      ⟨x1.toWF, x2, unitsFor_mono x3⟩ hs
    have ts : Tight s := (addTo_res ta.toWF x1.toWF (res := FixedDecimal.blank) rfl (add_ok_iff.mp s1)).tight ta x1
    obtain ⟨_, fs⟩ := add_shrink ta.toWF x1.toWF hu s1 hs (fun _ => ia) (fun _ => x2) fa x3
    obtain ⟨r, r1, r2, r3, r4, r5⟩ := sum_room hu hroom xs ts s2.intg fs (fun z hz => hxs z (by simp [hz])) (by rw [s3]; linarith)
    refine ⟨r, ?_, ?_, r3, r4, r5⟩
    · rw [List.map_cons]
      show (FixedDecimal.add m acc x >>= fun t => balance m t (xs.map .credit)) = _
      rw [s1, ok_bind]; exact r1
    · rw [r2, s3, List.map_cons, List.sum_cons]; ring

/-- `n * sum(x * x) - sum(x) * sum(x)`: `n²` times the variance of the `n` numbers. -/
def spread (m : Mode) (n : FixedDecimal) (xs : List FixedDecimal) : Out Empty FixedDecimal := do
  let s ← balance m FixedDecimal.zero (xs.map .credit)
  let q ← dot m FixedDecimal.zero (xs.map (fun x => (x, x)))
  let a ← FixedDecimal.mul m n q
  let b ← FixedDecimal.mul m s s
  FixedDecimal.sub m a b

theorem squares_sum (n S : ℚ) : ∀ xs : List ℚ, (xs.map (fun x => (n * x - S) ^ 2)).sum =
    n ^ 2 * (xs.map (fun x => x * x)).sum - 2 * n * S * xs.sum + xs.length * S ^ 2
  | [] => by simp
  | x :: xs => by
    rw [List.map_cons, List.sum_cons, squares_sum n S xs, List.map_cons, List.sum_cons, List.sum_cons, List.length_cons]
    push_cast; ring

/-- `n sum(x²) - sum(x)²` is not negative, and zero only if all numbers are equal. -/
theorem spread_nonneg (xs : List ℚ) : 0 ≤ xs.length * (xs.map (fun x => x * x)).sum - xs.sum * xs.sum ∧
    (xs.length * (xs.map (fun x => x * x)).sum - xs.sum * xs.sum = 0 ↔ ∀ x ∈ xs, ∀ y ∈ xs, x = y) := by
  rcases Nat.eq_zero_or_pos xs.length with h0 | h0
  · rw [List.length_eq_zero_iff] at h0
    subst h0; simp
  have hn : (0 : ℚ) < xs.length := by exact_mod_cast h0
  have h1 := squares_sum xs.length xs.sum xs
  have h2 : (xs.map (fun x => ((xs.length : ℚ) * x - xs.sum) ^ 2)).sum =
      xs.length * (xs.length * (xs.map (fun x => x * x)).sum - xs.sum * xs.sum) := by rw [h1]; ring
  have h3 : 0 ≤ (xs.map (fun x => ((xs.length : ℚ) * x - xs.sum) ^ 2)).sum := List.sum_nonneg (by
    intro q hq
    obtain ⟨z, -, rfl⟩ := List.mem_map.mp hq
    positivity)
  refine ⟨by rw [h2] at h3; exact nonneg_of_mul_nonneg_right h3 hn, ?_, ?_⟩
  · intro hz
    have h4 : (xs.map (fun x => ((xs.length : ℚ) * x - xs.sum) ^ 2)).sum = 0 := by rw [h2, hz, mul_zero]
    have all : ∀ (l : List ℚ), (∀ q ∈ l, 0 ≤ q) → l.sum = 0 → ∀ q ∈ l, q = 0 := by
      intro l
      induction l with
      | nil => intro _ _ q hq; cases hq
      | cons a l ih =>
        intro hnn hs q hq
        rw [List.sum_cons] at hs
        have ha := hnn a (by simp)
        have hl : 0 ≤ l.sum := List.sum_nonneg (fun z hz => hnn z (by simp [hz]))
        rcases List.mem_cons.mp hq with rfl | hq
        · linarith
        · exact ih (fun z hz => hnn z (by simp [hz])) (by linarith) q hq
    have h5 : ∀ x ∈ xs, (xs.length : ℚ) * x = xs.sum := by
      intro x hx
      have := all _ (by
        intro q hq
        obtain ⟨z, -, rfl⟩ := List.mem_map.mp hq
        positivity) h4 _ (List.mem_map.mpr ⟨x, hx, rfl⟩)
      have := pow_eq_zero_iff (n := 2) (by norm_num) |>.mp this
      linarith
    intro x hx y hy
    have : (xs.length : ℚ) * x = xs.length * y := by rw [h5 x hx, h5 y hy]
    exact mul_left_cancel₀ hn.ne' this
  · intro he
    obtain ⟨c, hc⟩ : ∃ c, ∀ x ∈ xs, x = c := by
      cases xs with
      | nil => exact ⟨0, by simp⟩
      | cons a l => exact ⟨a, fun x hx => he x hx a (by simp)⟩
    have e1 : xs = List.replicate xs.length c := List.eq_replicate_iff.mpr ⟨rfl, hc⟩
    generalize xs.length = N at *
    subst e1
    simp [List.sum_replicate, List.map_replicate]
    ring

/-- **C115** The variance of any number of decimals, without a division: `n sum(x²) - sum(x)²` is computed exactly; it is never negative, and
zero exactly if all numbers are equal. (In debug builds the sum must be zero or at least 1 in magnitude, see `C115_witness`.) -/
theorem C115_variance {n : FixedDecimal} {xs : List FixedDecimal} {u k : Nat} (hn : Weight n xs.length) (h0 : xs ≠ []) (hu : 1 ≤ u) (h4 : unitsFor (k + k) ≤ 4)
    (hroom : 2 * u + 2 + unitsFor (k + k) ≤ 8)
    (hxs : ∀ x ∈ xs, Tight x ∧ (m = .release ∨ 1 ≤ intgDigits x) ∧ iu x ≤ u ∧ fracDigits x ≤ k)
    (hm : m = .release ∨ (xs.map val).sum = 0 ∨ 1 ≤ |(xs.map val).sum|) :
    ∃ r, spread m n xs = .ok r ∧ val r = xs.length * (xs.map (fun x => val x * val x)).sum - (xs.map val).sum * (xs.map val).sum ∧
      0 ≤ val r ∧ (val r = 0 ↔ ∀ x ∈ xs, ∀ y ∈ xs, val x = val y) := by
  have hN : xs.length < 10 ^ 9 := by
    have h := tight_lt_pow hn.tight
    have h2 : (10 : ℚ) ^ intgDigits n ≤ 10 ^ 9 := pow_le_pow_right₀ (by norm_num) (by
      have := hn.unit; unfold iu unitsFor at this; omega)
    rw [hn.whole.value, Int.cast_natCast, abs_of_nonneg (by positivity)] at h
    exact_mod_cast lt_of_lt_of_le h h2
  have hNq : (xs.length : ℚ) < 10 ^ 9 := by exact_mod_cast hN
  have hN0 : (0 : ℚ) < xs.length := by exact_mod_cast List.length_pos_iff.mpr h0
  have vx : ∀ x ∈ xs, |val x| < 10 ^ (9 * u) := by
    intro x hx
    obtain ⟨x1, -, x3, -⟩ := hxs x hx
    exact lt_of_lt_of_le (tight_lt_pow x1) (pow_le_pow_right₀ (by norm_num) (by unfold iu unitsFor at x3; omega))
  have bound : ∀ (f : FixedDecimal → ℚ) (c : ℚ), 0 < c → (∀ x ∈ xs, f x < c) → (xs.map f).sum < 10 ^ 9 * c := by
    intro f c hc hf
    have h1 : ∀ l : List FixedDecimal, (∀ x ∈ l, f x < c) → (l.map f).sum ≤ l.length * c := by
      intro l
      induction l with
      | nil => intro _; simp
      | cons a l ih =>
        intro h
        rw [List.map_cons, List.sum_cons, List.length_cons]
        have := ih (fun x hx => h x (by simp [hx]))
        have := h a (by simp)
        push_cast; linarith
    exact lt_of_le_of_lt (h1 xs hf) (mul_lt_mul_of_pos_right hNq hc)
  have hk1 : unitsFor k ≤ unitsFor (k + k) := unitsFor_mono (by omega)
  have tz : Tight FixedDecimal.zero := by decide
  have iz : iu FixedDecimal.zero = 1 := by decide
  have fz : fracDigits FixedDecimal.zero = 0 := by decide
  obtain ⟨s, s1, s2, s3, s4, s5⟩ := sum_room (m := m) (u := u + 1) (k := k) (by omega) (by omega) xs tz (by omega) (by omega)
    (fun x hx => ⟨(hxs x hx).1, by have := (hxs x hx).2.2.1; omega, (hxs x hx).2.2.2⟩) (by
      rw [val_zero_const, abs_zero, zero_add]
      have := bound (fun x => |val x|) _ (by positivity) vx
      rwa [show (10 : ℚ) ^ (9 * (u + 1)) = 10 ^ 9 * 10 ^ (9 * u) by rw [← pow_add]; congr 1; ring])
  rw [val_zero_const, zero_add] at s2
  have hsq : ∀ x ∈ xs, |val x * val x| < 10 ^ (9 * (u + u)) := by
    intro x hx
    rw [abs_mul, show (10 : ℚ) ^ (9 * (u + u)) = 10 ^ (9 * u) * 10 ^ (9 * u) by rw [← pow_add]; congr 1; ring]
    exact mul_lt_mul'' (vx x hx) (vx x hx) (abs_nonneg _) (abs_nonneg _)
  have hqb := bound (fun x => |val x * val x|) _ (by positivity) hsq
  obtain ⟨q, q1, q2, q3, q4, q5⟩ := C115_dot (m := m) (u := u) (v := u + 1) (k := k) (l := k) (by omega) h4 (by omega)
    (xs.map (fun x => (x, x))) tz (by omega) (by omega) (by
      intro z hz
      obtain ⟨x, hx, rfl⟩ := List.mem_map.mp hz
      obtain ⟨x1, x2, x3, x4⟩ := hxs x hx
      exact ⟨⟨x1, x2, x3, x4⟩, x1, by simp only; omega, x4⟩) (by
      rw [val_zero_const, abs_zero, zero_add, List.map_map]
      rw [show (10 : ℚ) ^ (9 * (u + (u + 1))) = 10 ^ 9 * 10 ^ (9 * (u + u)) by rw [← pow_add]; congr 1; ring]
      exact hqb)
  rw [val_zero_const, zero_add, List.map_map] at q2
  have q2' : val q = (xs.map (fun x => val x * val x)).sum := q2
  have fn : fracDigits n = 0 := by unfold fracDigits; rw [hn.whole.frac]; rfl
  have in1 : 1 ≤ intgDigits n := by
    by_contra hcon
    have h := tight_lt_pow hn.tight
    rw [show intgDigits n = 0 by omega, hn.whole.value, Int.cast_natCast, abs_of_nonneg (by positivity), pow_zero] at h
    have : xs.length < 1 := by exact_mod_cast h
    have := List.length_pos_iff.mpr h0
    omega
  obtain ⟨a, a1, a2, a3, a4, a5⟩ := mul_room (m := m) (u := 1) (v := 2 * u + 1) (k := 0) (l := k + k) hn.tight q3 (.inr in1) hn.unit (by omega) (by omega)
    fn.le q5 (by rw [zero_add]; exact h4) (by rw [zero_add]; omega)
  rw [zero_add] at a5
  have hs1 : val s = 0 ∨ m = .release ∨ 1 ≤ intgDigits s := by
    rcases hm with h | h | h
    · exact .inr (.inl h)
    · exact .inl (by rw [s2]; exact h)
    · refine .inr (.inr ?_)
      by_contra hcon
      have h5 := tight_lt_pow s3
      rw [show intgDigits s = 0 by omega, s2, pow_zero] at h5
      linarith
  have hb : ∃ b, FixedDecimal.mul m s s = .ok b ∧ val b = val s * val s ∧ Tight b ∧ iu b ≤ 2 * u + 2 ∧ fracDigits b ≤ k + k := by
    rcases hs1 with h | h
    · have e := mulTo_zero m s3.toWF s3.toWF (res := FixedDecimal.blank) rfl (.inl h)
      exact ⟨_, mul_ok_iff.mpr e, by rw [h, val_zero_const, mul_zero], tz, by omega, by omega⟩
    · obtain ⟨b, b1, b2, b3, b4, b5⟩ := mul_room (m := m) s3 s3 h s4 s4 (by omega) s5 s5 h4 (by omega)
      exact ⟨b, b1, b2, b3, by omega, b5⟩
  obtain ⟨b, b1, b2, b3, b4, b5⟩ := hb
  have nn := spread_nonneg (xs.map val)
  rw [List.length_map, List.map_map] at nn
  have nn' : 0 ≤ xs.length * (xs.map (fun x => val x * val x)).sum - (xs.map val).sum * (xs.map val).sum ∧
      (xs.length * (xs.map (fun x => val x * val x)).sum - (xs.map val).sum * (xs.map val).sum = 0 ↔
        ∀ x ∈ xs.map val, ∀ y ∈ xs.map val, x = y) := nn
  have va : val a = xs.length * (xs.map (fun x => val x * val x)).sum := by rw [a2, hn.whole.value, q2']; simp
  have vb : val b = (xs.map val).sum * (xs.map val).sum := by rw [b2, s2]
  have hd : |val a - val b| < 10 ^ (9 * (2 * u + 2)) := by
    rw [va, vb, abs_of_nonneg nn'.1]
    have h1 : (xs.map (fun x => val x * val x)).sum < 10 ^ 9 * 10 ^ (9 * (u + u)) := by
      have := bound (fun x => val x * val x) _ (by positivity) (fun x hx => lt_of_le_of_lt (le_abs_self _) (hsq x hx))
      exact this
    have h2 : (xs.length : ℚ) * (xs.map (fun x => val x * val x)).sum < 10 ^ 9 * (10 ^ 9 * 10 ^ (9 * (u + u))) := by
      have p0 : (0 : ℚ) ≤ (xs.map (fun x => val x * val x)).sum := List.sum_nonneg (by
        intro q hq
        obtain ⟨z, -, rfl⟩ := List.mem_map.mp hq
        exact mul_self_nonneg _)
      exact mul_lt_mul'' hNq h1 hN0.le p0
    rw [show (10 : ℚ) ^ (9 * (2 * u + 2)) = 10 ^ 9 * (10 ^ 9 * 10 ^ (9 * (u + u))) by rw [← pow_add, ← pow_add]; congr 1; ring]
    nlinarith [mul_self_nonneg (xs.map val).sum]
  obtain ⟨r, r1, -, r3⟩ := sub_within (m := m) (I := 2 * u + 2) (F := unitsFor (k + k)) (by omega) ⟨a3.toWF, by omega, unitsFor_mono a5⟩
    ⟨b3.toWF, b4, unitsFor_mono b5⟩ hd
  rw [va, vb] at r3
  refine ⟨r, ?_, r3, by rw [r3]; exact nn'.1, ?_⟩
  · unfold spread
    rw [s1, ok_bind, q1, ok_bind, a1, ok_bind, b1, ok_bind]; exact r1
  · rw [r3, nn'.2]
    constructor
    · intro h x hx y hy
      exact h _ (List.mem_map.mpr ⟨x, hx, rfl⟩) _ (List.mem_map.mpr ⟨y, hy, rfl⟩)
    · intro h x hx y hy
      obtain ⟨x', hx', rfl⟩ := List.mem_map.mp hx
      obtain ⟨y', hy', rfl⟩ := List.mem_map.mp hy
      exact h _ hx' _ hy'

/-- 0.3 and 0.5 as parsed. -/
def dThree : FixedDecimal := ⟨1#8, 1, [300000000, 0, 0, 0, 0, 0, 0, 0, 0]⟩
def dFive : FixedDecimal := ⟨1#8, 1, [500000000, 0, 0, 0, 0, 0, 0, 0, 0]⟩
def dTwo : FixedDecimal := ⟨1#8, 0, [2, 0, 0, 0, 0, 0, 0, 0, 0]⟩

/-- **C115** The condition on the sum is needed: for 0.5 and 0.3 the sum 0.8 claims no integral digit, and squaring it is an assertion failure
in debug builds; release builds get 0.04. -/
theorem C115_witness : (∀ m, FixedDecimal.fromStr m (Samples.bytes "0.5") = .ok dFive ∧ FixedDecimal.fromStr m (Samples.bytes "0.3") = .ok dThree ∧
      FixedDecimal.fromStr m (Samples.bytes "2") = .ok dTwo) ∧
    spread .debug dTwo [dFive, dThree] = .panic .assert ∧
    ∃ r, spread .release dTwo [dFive, dThree] = .ok r ∧ (r.toStr .release (-1) : Out Unit _) = .ok (Samples.bytes "0.04") := by
  refine ⟨fun m => by cases m <;> decide +kernel, by decide +kernel, ⟨0#8, 2, [40000000, 0, 0, 0, 0, 0, 0, 0, 0]⟩, by decide +kernel, by decide +kernel⟩

/-- A case of `C115_variance`, in both builds: 100.00 and 1.0837. -/
example : ∃ r, spread m dTwo [qHundred, qRate] = .ok r ∧ 0 ≤ val r ∧ val r ≠ 0 := by
  have vh : val qHundred = 100 := by
    have e1 : mant qHundred = 100000000000 := by decide
    have e2 : fu qHundred = 1 := by decide
    have e3 : neg qHundred = false := by decide
    unfold val absVal; rw [e1, e2, e3]; norm_num
  have vr : val qRate = 10837 / 10000 := by
    have h1 : mant qRate = 1083700000 := by decide
    have h2 : fu qRate = 1 := by decide
    have h3 : neg qRate = false := by decide
    unfold val absVal; rw [h1, h2, h3]; norm_num
  obtain ⟨r, r1, -, r2, r3⟩ := C115_variance (m := m) (n := dTwo) (xs := [qHundred, qRate]) (u := 1) (k := 4)
    (weight_mk (by decide) rfl (by decide) (by decide) (by decide)) (by simp) (by decide) (by decide) (by decide) (by
      intro x hx
      simp only [List.mem_cons, List.not_mem_nil, or_false] at hx
      rcases hx with rfl | rfl
      · exact ⟨by decide, .inr (by decide), by decide, by decide⟩
      · exact ⟨by decide, .inr (by decide), by decide, by decide⟩)
    (.inr (.inr (by simp [vh, vr]; norm_num [le_abs])))
  refine ⟨r, r1, r2, fun h => ?_⟩
  have := r3.mp h qHundred (by simp) qRate (by simp)
  rw [vh, vr] at this
  norm_num at this

/-- A case of `C115_dot`: 2 * 100.00 + 2 * 1.0837. -/
example : ∃ r, dot m FixedDecimal.zero [(dTwo, qHundred), (dTwo, qRate)] = .ok r ∧ val r = 2 * 100 + 2 * (10837 / 10000) := by
  have v2 : val dTwo = 2 := by
    have e1 : mant dTwo = 2 := by decide
    have e2 : fu dTwo = 0 := by decide
    have e3 : neg dTwo = false := by decide
    unfold val absVal; rw [e1, e2, e3]; norm_num
  have vh : val qHundred = 100 := by
    have e1 : mant qHundred = 100000000000 := by decide
    have e2 : fu qHundred = 1 := by decide
    have e3 : neg qHundred = false := by decide
    unfold val absVal; rw [e1, e2, e3]; norm_num
  have vr : val qRate = 10837 / 10000 := by
    have h1 : mant qRate = 1083700000 := by decide
    have h2 : fu qRate = 1 := by decide
    have h3 : neg qRate = false := by decide
    unfold val absVal; rw [h1, h2, h3]; norm_num
  obtain ⟨r, r1, r2, -⟩ := C115_dot (m := m) (u := 1) (v := 1) (k := 0) (l := 4) (by decide) (by decide) (by decide) [(dTwo, qHundred), (dTwo, qRate)]
    (acc := FixedDecimal.zero) (by decide) (by decide) (by decide) (by
      intro x hx
      simp only [List.mem_cons, List.not_mem_nil, or_false] at hx
      rcases hx with rfl | rfl
      · exact ⟨⟨by decide, .inr (by decide), by decide, by decide⟩, by decide, by decide, by decide⟩
      · exact ⟨⟨by decide, .inr (by decide), by decide, by decide⟩, by decide, by decide, by decide⟩)
    (by simp [v2, vh, vr, val_zero_const]; norm_num)
  refine ⟨r, r1, ?_⟩
  rw [r2, val_zero_const]
  simp [v2, vh, vr]

end Props
end Fxd
