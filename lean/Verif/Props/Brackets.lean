import Verif.Props.Schedule
import Verif.Props.Order
/-!
# Property C112: splitting an amount at thresholds, and rates by bracket

Progressive rates: the part of the amount in each bracket is `clamp(x, lo, hi) - lo`, charged at the bracket's rate and rounded.
-/

namespace Fxd
open Spec

namespace Props
variable {m : Mode}

/-- `part = &x.clamp(lo, hi) - &lo; total += round(&rate * &part, k); lo = hi` for one (rate, hi) after the other. -/
def taxLoop (m : Mode) (k : Nat) (x : FixedDecimal) : FixedDecimal → FixedDecimal → List (FixedDecimal × FixedDecimal) →
    Out Empty FixedDecimal
  | total, _, [] => .ok total
  | total, lo, (rate, hi) :: rest => do
    let c ← FixedDecimal.clamp m x lo hi
    let part ← FixedDecimal.sub m c lo
    let t ← FixedDecimal.orPanic (charge m k rate part)
    let total ← FixedDecimal.add m total t
    taxLoop m k x total hi rest

/-- The part of `x` between `lo` and `hi`. -/
def partQ (x lo hi : ℚ) : ℚ := max lo (min x hi) - lo

/-- The same sum on the numbers: each part times its rate, rounded half away from zero to `k` digits. -/
def taxQ (k : Nat) (x : ℚ) : ℚ → List (ℚ × ℚ) → ℚ
  | _, [] => 0
  | lo, (r, hi) :: rest => (halfAway (partQ x lo hi * r * 10 ^ k) : ℚ) / 10 ^ k + taxQ k x hi rest

/-- The thresholds ascend from `lo` on, and the rates are from 0 to 1. -/
def Scale : ℚ → List (ℚ × ℚ) → Prop
  | _, [] => True
  | lo, (r, hi) :: rest => lo < hi ∧ 0 ≤ r ∧ r ≤ 1 ∧ Scale hi rest

theorem partQ_nonneg {x lo hi : ℚ} : 0 ≤ partQ x lo hi := by
  unfold partQ; linarith [le_max_left lo (min x hi)]

theorem partQ_le {x lo hi : ℚ} (h : lo < hi) : partQ x lo hi ≤ hi - lo := by
  unfold partQ
  have : max lo (min x hi) ≤ hi := max_le h.le (min_le_right _ _)
  linarith

theorem partQ_mono {x y lo hi : ℚ} (h : x ≤ y) : partQ x lo hi ≤ partQ y lo hi := by
  unfold partQ
  have : max lo (min x hi) ≤ max lo (min y hi) := max_le_max le_rfl (min_le_min h le_rfl)
  linarith

/-- **C112** Splitting at thresholds loses nothing: what is below the first one, and the parts of the brackets, and what is above the last
one, add up to the amount. -/
theorem C112_parts : ∀ (ts : List ℚ) {lo x : ℚ}, (lo :: ts).Pairwise (· < ·) →
    min x lo + ((List.zip (lo :: ts) ts).map fun p => partQ x p.1 p.2).sum + (max x ((lo :: ts).getLast (by simp)) - (lo :: ts).getLast (by simp)) = x
  | [], lo, x, _ => by
    simp only [List.zip_nil_right, List.map_nil, List.sum_nil, List.getLast_singleton]
    linarith [min_add_max x lo]
  | hi :: ts, lo, x, h => by
    have h1 : lo < hi := (List.pairwise_cons.mp h).1 hi (by simp)
    have ih := C112_parts ts (x := x) (List.pairwise_cons.mp h).2
    rw [List.getLast_cons (by simp)]
    simp only [List.zip_cons_cons, List.map_cons, List.sum_cons]
    have e : min x lo + partQ x lo hi = min x hi := by
      unfold partQ
      rcases le_total x lo with k | k
      · rw [min_eq_left k, min_eq_left (k.trans h1.le), max_eq_left k]; ring
      · rw [min_eq_right k, max_eq_right (le_min k h1.le)]; ring
    linarith

theorem halfAway_add_nat {q : ℚ} (hq : 0 ≤ q) {n : ℤ} (hn : 0 ≤ n) : halfAway (q + n) = halfAway q + n := by
  unfold halfAway
  have h1 : ¬ (q + n < 0) := by
    have : (0 : ℚ) ≤ n := by exact_mod_cast hn
    linarith
  rw [if_neg h1, if_neg (not_lt.mpr hq), show q + n + 1 / 2 = q + 1 / 2 + n by ring, Int.floor_add_intCast]

/-- With a rate of at most one, a charge grows no faster than what it is charged on. -/
theorem charge_slope {p q r : ℚ} {k : Nat} {n : ℤ} (hp : 0 ≤ p) (hr : 0 ≤ r) (hr1 : r ≤ 1) (hpq : p ≤ q) (hn : (q - p) * 10 ^ k = n) :
    (halfAway (q * r * 10 ^ k) : ℚ) / 10 ^ k - (halfAway (p * r * 10 ^ k) : ℚ) / 10 ^ k ≤ q - p := by
  have h10 : (0 : ℚ) < 10 ^ k := by positivity
  have n0 : 0 ≤ n := by
    have : (0 : ℚ) ≤ n := by rw [← hn]; exact mul_nonneg (by linarith) h10.le
    exact_mod_cast this
  have h1 : q * r * 10 ^ k ≤ p * r * 10 ^ k + n := by
    rw [← hn]
    have : (q - p) * r ≤ q - p := by nlinarith
    nlinarith
  have h2 := halfAway_mono h1
  rw [halfAway_add_nat (by positivity) n0] at h2
  have h3 : (halfAway (q * r * 10 ^ k) : ℚ) ≤ halfAway (p * r * 10 ^ k) + n := by exact_mod_cast h2
  rw [← sub_div, div_le_iff₀ h10, hn]
  linarith

theorem charge_le {p r : ℚ} {k : Nat} {n : ℤ} (hp : 0 ≤ p) (hr : 0 ≤ r) (hr1 : r ≤ 1) (hn : p * 10 ^ k = n) :
    0 ≤ (halfAway (p * r * 10 ^ k) : ℚ) / 10 ^ k ∧ (halfAway (p * r * 10 ^ k) : ℚ) / 10 ^ k ≤ p := by
  have h0 : halfAway 0 = 0 := by unfold halfAway; norm_num
  have h1 := charge_slope (p := 0) (q := p) (r := r) (k := k) (n := n) le_rfl hr hr1 hp (by rw [sub_zero]; exact hn)
  rw [zero_mul, zero_mul, h0] at h1
  refine ⟨div_nonneg ?_ (by positivity), by simpa using h1⟩
  have := halfAway_mono (p := 0) (q := p * r * 10 ^ k) (by positivity)
  rw [h0] at this
  exact_mod_cast this

/-- **C112** No failure, and exactly the sum on the numbers: an amount, thresholds from zero up and rates from 0 to 1, with at most `k`
(rates: `f`) digits after the point and `9 u` before, `u + 1 + ceil((k + f) / 9) <= 8`, however many brackets there are. -/
theorem C112_tax {k f u : Nat} (h4 : unitsFor (k + f) ≤ 4) (hu : 1 ≤ u) (hroom : u + 1 + unitsFor (k + f) ≤ 8) {x : FixedDecimal}
    (hx : Tight x) (hxk : fracDigits x ≤ k) (hxu : iu x ≤ u) :
    ∀ (bs : List (FixedDecimal × FixedDecimal)) {total lo : FixedDecimal}, Tight total → fracDigits total ≤ k → iu total ≤ u + 1 →
      0 ≤ val total → val total ≤ val lo → Tight lo → fracDigits lo ≤ k → iu lo ≤ u →
      (∀ b ∈ bs, (Tight b.1 ∧ 1 ≤ intgDigits b.1 ∧ intgDigits b.1 ≤ 8 ∧ fracDigits b.1 ≤ f) ∧ Tight b.2 ∧ fracDigits b.2 ≤ k ∧ iu b.2 ≤ u) →
      Scale (val lo) (bs.map pairVal) →
      ∃ r, taxLoop m k x total lo bs = .ok r ∧ val r = val total + taxQ k (val x) (val lo) (bs.map pairVal)
  | [], total, lo, _, _, _, _, _, _, _, _, _, _ => ⟨total, rfl, by simp [taxQ]⟩
  | (rate, hi) :: rest, total, lo, ht, htk, htu, t0, tlo, hl, hlk, hlu, hbs, hs => by
    obtain ⟨⟨r1, r2, r3, r4⟩, p1, p2, p3⟩ := hbs (rate, hi) (by simp)
    simp only at r1 r2 r3 r4 p1 p2 p3
    rw [List.map_cons] at hs
    simp only [pairVal, Scale] at hs
    obtain ⟨s1, s2, s3, s4⟩ := hs
    obtain ⟨c, c1, c2, c3, -⟩ := C79_clamp (σ := Empty) m hx.toWF hl.toWF p1.toWF s1
    have tc : Tight c ∧ fracDigits c ≤ k ∧ iu c ≤ u := by
      rcases c2 with rfl | rfl | rfl
      · exact ⟨hx, hxk, hxu⟩
      · exact ⟨hl, hlk, hlu⟩
      · exact ⟨p1, p2, p3⟩
    have hpart : val c - val lo = partQ (val x) (val lo) (val hi) := by rw [c3]; rfl
    have q0 := partQ_nonneg (x := val x) (lo := val lo) (hi := val hi)
    have q1 := partQ_le (x := val x) s1
    have hlo0 : 0 ≤ val lo := le_trans t0 tlo
    have hhi : val hi < 10 ^ (9 * u) := by
      have b1 := tight_lt_pow p1
      have b2 : intgDigits hi ≤ 9 * u := by unfold iu unitsFor at p3; omega
      exact lt_of_le_of_lt (le_abs_self _) (lt_of_lt_of_le b1 (pow_le_pow_right₀ (by norm_num) b2))
    have hku : unitsFor k ≤ unitsFor (k + f) := unitsFor_mono (by omega)
    have hpb : |val c - val lo| < 10 ^ (9 * u) := by rw [hpart, abs_of_nonneg q0]; linarith
    obtain ⟨part, d1, d2, d3⟩ := sub_within (m := m) (I := u) (F := unitsFor k) (by omega) ⟨tc.1.toWF, tc.2.2, unitsFor_mono tc.2.1⟩
      ⟨hl.toWF, hlu, unitsFor_mono hlk⟩ hpb
    have tp : Tight part := (subTo_res tc.1.toWF hl.toWF (res := FixedDecimal.blank) rfl (sub_ok_iff.mp d1)).tight tc.1 hl
    obtain ⟨_, kp⟩ := sub_shrink tc.1.toWF hl.toWF hu d1 hpb (fun _ => tc.2.2) (fun _ => hlu) tc.2.1 hlk
    rw [hpart] at d3
    obtain ⟨t, e1, e2, e3, e4, e5, -⟩ := charge_left (m := m) r1 r2 r3 r4 tp d2.intg kp h4 hu hroom
    obtain ⟨n, hn⟩ := val_mul_pow_digits tp kp
    have hle := charge_le (p := val part) (r := val rate) (k := k) (n := n) (by rw [d3]; exact q0) s2 s3 hn
    rw [← e5] at hle
    have hsum : |val total + val t| < 10 ^ (9 * (u + 1)) := by
      have hbig : (10 : ℚ) ^ (9 * u) ≤ 10 ^ (9 * (u + 1)) := pow_le_pow_right₀ (by norm_num) (by omega)
      rw [abs_of_nonneg (by linarith [hle.1]), d3] at *
      linarith [hle.2]
    obtain ⟨total', a1, a2, a3⟩ := add_within (m := m) (I := u + 1) (F := unitsFor k) (by omega) ⟨ht.toWF, htu, unitsFor_mono htk⟩
      ⟨e2.toWF, e4, by unfold fu; rw [e3]⟩ hsum
    have tt : Tight total' := (addTo_res ht.toWF e2.toWF (res := FixedDecimal.blank) rfl (add_ok_iff.mp a1)).tight ht e2
    obtain ⟨_, kt⟩ := add_shrink ht.toWF e2.toWF (u := u + 1) (by omega) a1 hsum (fun _ => htu) (fun _ => e4) htk e3.le
    obtain ⟨r, o1, o2⟩ := C112_tax h4 hu hroom hx hxk hxu rest (total := total') (lo := hi) tt kt a2.intg
      (by rw [a3]; linarith [hle.1]) (by rw [a3]; rw [d3] at hle; linarith [hle.2]) p1 p2 p3 (fun b hb => hbs b (by simp [hb])) s4
    refine ⟨r, ?_, ?_⟩
    · unfold taxLoop
      rw [c1, ok_bind, d1, ok_bind, e1]
      show (FixedDecimal.add m total t >>= fun total => taxLoop m k x total hi rest) = _
      rw [a1, ok_bind, o1]
    · rw [o2, a3, e5, d3, List.map_cons]
      simp only [pairVal, taxQ]
      ring

theorem taxQ_mono {k : Nat} {x y : ℚ} (h : x ≤ y) : ∀ (bs : List (ℚ × ℚ)) {lo : ℚ}, Scale lo bs → taxQ k x lo bs ≤ taxQ k y lo bs
  | [], _, _ => le_rfl
  | (r, hi) :: rest, lo, hs => by
    obtain ⟨s1, s2, s3, s4⟩ := hs
    simp only [taxQ]
    have h1 := taxQ_mono h rest s4 (k := k)
    have h2 : halfAway (partQ x lo hi * r * 10 ^ k) ≤ halfAway (partQ y lo hi * r * 10 ^ k) := by
      refine halfAway_mono ?_
      have := partQ_mono (lo := lo) (hi := hi) h
      gcongr
    have h3 : (halfAway (partQ x lo hi * r * 10 ^ k) : ℚ) / 10 ^ k ≤ (halfAway (partQ y lo hi * r * 10 ^ k) : ℚ) / 10 ^ k := by
      have : (halfAway (partQ x lo hi * r * 10 ^ k) : ℚ) ≤ halfAway (partQ y lo hi * r * 10 ^ k) := by exact_mod_cast h2
      gcongr
    linarith

/-- On a grid of `k` digits. -/
def OnGrid (k : Nat) (q : ℚ) : Prop := ∃ n : ℤ, q * 10 ^ k = n

theorem partQ_grid {k : Nat} {x lo hi : ℚ} (hx : OnGrid k x) (hl : OnGrid k lo) (hh : OnGrid k hi) : OnGrid k (partQ x lo hi) := by
  obtain ⟨a, ha⟩ := hx; obtain ⟨b, hb⟩ := hl; obtain ⟨c, hc⟩ := hh
  unfold partQ
  rcases max_choice lo (min x hi) with h | h <;> rw [h]
  · exact ⟨0, by simp⟩
  · rcases min_choice x hi with h | h <;> rw [h]
    · exact ⟨a - b, by rw [sub_mul, ha, hb]; push_cast; ring⟩
    · exact ⟨c - b, by rw [sub_mul, hc, hb]; push_cast; ring⟩

theorem taxQ_slope {k : Nat} {x y : ℚ} (h : x ≤ y) (hx : OnGrid k x) (hy : OnGrid k y) : ∀ (bs : List (ℚ × ℚ)) {lo : ℚ}, Scale lo bs →
    OnGrid k lo → (∀ b ∈ bs, OnGrid k b.2) → taxQ k y lo bs - taxQ k x lo bs ≤ max lo y - max lo x
  | [], lo, _, _, _ => by
    simp only [taxQ, sub_self]
    linarith [max_le_max (le_refl lo) h]
  | (r, hi) :: rest, lo, hs, hl, hb => by
    obtain ⟨s1, s2, s3, s4⟩ := hs
    have hh : OnGrid k hi := hb (r, hi) (by simp)
    have ih := taxQ_slope h hx hy rest s4 hh (fun b hb' => hb b (by simp [hb']))
    obtain ⟨n1, e1⟩ := partQ_grid (lo := lo) (hi := hi) hx hl hh
    obtain ⟨n2, e2⟩ := partQ_grid (lo := lo) (hi := hi) hy hl hh
    have hc := charge_slope (k := k) (n := n2 - n1) (partQ_nonneg (x := x) (lo := lo) (hi := hi)) s2 s3 (partQ_mono (lo := lo) (hi := hi) h)
      (by rw [sub_mul, e1, e2]; push_cast; ring)
    simp only [taxQ]
    have id : ∀ z : ℚ, partQ z lo hi + max hi z = max lo z + hi - lo := by
      intro z
      unfold partQ
      rcases le_total z lo with k1 | k1
      · rw [max_eq_left (le_trans (min_le_left _ _) k1), max_eq_left (k1.trans s1.le), max_eq_left k1]; ring
      · rw [max_eq_right (le_min k1 s1.le), max_eq_right k1]
        linarith [min_add_max z hi, max_comm hi z]
    have i1 := id x
    have i2 := id y
    linarith

/-- **C112** Earning more never means less tax, and never less left over: of two amounts, the larger one is charged at least as much, and
what remains after the charge is at least as much, roundings and all. -/
theorem C112_monotone {k f u : Nat} (h4 : unitsFor (k + f) ≤ 4) (hu : 1 ≤ u) (hroom : u + 1 + unitsFor (k + f) ≤ 8) {x y lo : FixedDecimal}
    (hx : Tight x) (hxk : fracDigits x ≤ k) (hxu : iu x ≤ u) (hy : Tight y) (hyk : fracDigits y ≤ k) (hyu : iu y ≤ u)
    {bs : List (FixedDecimal × FixedDecimal)} (hl : Tight lo) (hlk : fracDigits lo ≤ k) (hlu : iu lo ≤ u) (hl0 : 0 ≤ val lo)
    (hbs : ∀ b ∈ bs, (Tight b.1 ∧ 1 ≤ intgDigits b.1 ∧ intgDigits b.1 ≤ 8 ∧ fracDigits b.1 ≤ f) ∧ Tight b.2 ∧ fracDigits b.2 ≤ k ∧ iu b.2 ≤ u)
    (hs : Scale (val lo) (bs.map pairVal)) (hxy : val x ≤ val y) :
    ∃ r s, taxLoop m k x FixedDecimal.zero lo bs = .ok r ∧ taxLoop m k y FixedDecimal.zero lo bs = .ok s ∧
      0 ≤ val r ∧ val r ≤ val s ∧ val x - val r ≤ val y - val s := by
  have vz : val FixedDecimal.zero = 0 := (isZero_val wf_zero).mp (by decide)
  obtain ⟨r, e1, e2⟩ := C112_tax (m := m) h4 hu hroom hx hxk hxu bs (total := FixedDecimal.zero) (lo := lo) (by decide)
    (le_trans (by decide) (Nat.zero_le k)) (le_trans (show iu FixedDecimal.zero ≤ 1 by decide) (by omega)) (by rw [vz])
    (by rw [vz]; exact hl0) hl hlk hlu hbs hs
  obtain ⟨s, e3, e4⟩ := C112_tax (m := m) h4 hu hroom hy hyk hyu bs (total := FixedDecimal.zero) (lo := lo) (by decide)
    (le_trans (by decide) (Nat.zero_le k)) (le_trans (show iu FixedDecimal.zero ≤ 1 by decide) (by omega)) (by rw [vz])
    (by rw [vz]; exact hl0) hl hlk hlu hbs hs
  rw [vz, zero_add] at e2 e4
  have gr : ∀ {d : FixedDecimal}, Tight d → fracDigits d ≤ k → OnGrid k (val d) := fun h hk => val_mul_pow_digits h hk
  have m1 := taxQ_mono (k := k) hxy _ hs
  have m2 := taxQ_slope (k := k) hxy (gr hx hxk) (gr hy hyk) _ hs (gr hl hlk) (by
    intro b hb
    obtain ⟨c, hc, rfl⟩ := List.mem_map.mp hb
    exact gr (hbs c hc).2.1 (hbs c hc).2.2.1)
  have m3 : max (val lo) (val y) - max (val lo) (val x) ≤ val y - val x := by
    rcases le_total (val y) (val lo) with h | h
    · rw [max_eq_left h, max_eq_left (hxy.trans h)]; linarith
    · rw [max_eq_right h]; linarith [le_max_right (val lo) (val x)]
  refine ⟨r, s, e1, e3, ?_, by rw [e2, e4]; exact m1, by rw [e2, e4]; linarith⟩
  have nn : ∀ (l : List (ℚ × ℚ)) {lo : ℚ}, Scale lo l → 0 ≤ taxQ k (val x) lo l := by
    intro l
    induction l with
    | nil => intro _ _; exact le_rfl
    | cons b l ih =>
      rintro lo ⟨s1, s2, s3, s4⟩
      have := ih s4
      simp only [taxQ]
      have h0 : halfAway 0 = 0 := by unfold halfAway; norm_num
      have h1 := halfAway_mono (p := 0) (q := partQ (val x) lo b.2 * b.1 * 10 ^ k)
        (mul_nonneg (mul_nonneg partQ_nonneg s2) (by positivity))
      rw [h0] at h1
      have h2 : (0 : ℚ) ≤ (halfAway (partQ (val x) lo b.2 * b.1 * 10 ^ k) : ℚ) / 10 ^ k :=
        div_nonneg (by exact_mod_cast h1) (by positivity)
      linarith
  rw [e2]; exact nn _ hs

/-- A case of `C112_*`: 0.25 up to 100.00 and 0.5 up to 123456789012.345, on 100.00 and on the latter. -/
example : ∃ r s, taxLoop m 3 qHundred FixedDecimal.zero FixedDecimal.zero
      [(⟨1#8, 2, [250000000, 0, 0, 0, 0, 0, 0, 0, 0]⟩, qHundred), (⟨1#8, 1, [500000000, 0, 0, 0, 0, 0, 0, 0, 0]⟩, Samples.a)] = .ok r ∧
    taxLoop m 3 Samples.a FixedDecimal.zero FixedDecimal.zero
      [(⟨1#8, 2, [250000000, 0, 0, 0, 0, 0, 0, 0, 0]⟩, qHundred), (⟨1#8, 1, [500000000, 0, 0, 0, 0, 0, 0, 0, 0]⟩, Samples.a)] = .ok s ∧
    0 ≤ val r ∧ val r ≤ val s ∧ val qHundred - val r ≤ val Samples.a - val s := by
  have vh : val qHundred = 100 := by
    have e1 : mant qHundred = 100000000000 := by decide
    have e2 : fu qHundred = 1 := by decide
    have e3 : neg qHundred = false := by decide
    unfold val absVal; rw [e1, e2, e3]; norm_num
  have v0 : val FixedDecimal.zero = 0 := (isZero_val wf_zero).mp (by decide)
  have va : val Samples.a = 123456789012345 / 1000 := by
    have e1 : mant Samples.a = 123456789012345000000 := by decide
    have e2 : fu Samples.a = 1 := by decide
    have e3 : neg Samples.a = false := by decide
    unfold val absVal; rw [e1, e2, e3]; norm_num
  have v1 : val ⟨1#8, 2, [250000000, 0, 0, 0, 0, 0, 0, 0, 0]⟩ = 1 / 4 := by
    have e1 : mant ⟨1#8, 2, [250000000, 0, 0, 0, 0, 0, 0, 0, 0]⟩ = 250000000 := by decide
    have e2 : fu ⟨1#8, 2, [250000000, 0, 0, 0, 0, 0, 0, 0, 0]⟩ = 1 := by decide
    have e3 : neg ⟨1#8, 2, [250000000, 0, 0, 0, 0, 0, 0, 0, 0]⟩ = false := by decide
    unfold val absVal; rw [e1, e2, e3]; norm_num
  have v2 : val ⟨1#8, 1, [500000000, 0, 0, 0, 0, 0, 0, 0, 0]⟩ = 1 / 2 := by
    have e1 : mant ⟨1#8, 1, [500000000, 0, 0, 0, 0, 0, 0, 0, 0]⟩ = 500000000 := by decide
    have e2 : fu ⟨1#8, 1, [500000000, 0, 0, 0, 0, 0, 0, 0, 0]⟩ = 1 := by decide
    have e3 : neg ⟨1#8, 1, [500000000, 0, 0, 0, 0, 0, 0, 0, 0]⟩ = false := by decide
    unfold val absVal; rw [e1, e2, e3]; norm_num
  refine C112_monotone (f := 2) (u := 6) (by decide) (by norm_num) (by decide) (by decide) (by decide) (by decide) (by decide) (by decide)
    (by decide) (by decide) (by decide) (by decide) (by rw [v0]) ?_ ?_ ?_
  · intro b hb
    simp only [List.mem_cons, List.not_mem_nil, or_false] at hb
    rcases hb with rfl | rfl <;> refine ⟨⟨?_, ?_, ?_, ?_⟩, ?_, ?_, ?_⟩ <;> decide
  · simp only [List.map, pairVal, Scale, v0, vh, va, v1, v2]; norm_num
  · rw [vh, va]; norm_num

end Props
end Fxd
