import Verif.Proofs.RoundWide
import Verif.Props.Samples
/-!
# Properties C39-C44: rounding

`k` digits after the point are kept (`k ≥ 0`), or the last `j` digits before it are dropped (`k = -j`).
`halfAway` is in `Verif/Spec/Rounding.lean`: the nearest integer, halves away from zero
(`halfAway_dist`, `halfAway_tie`, `halfAway_nearest`).
-/

namespace Fxd
open Spec

theorem NoErr.addWithCarry {σ : Type} {m : Mode} {a b c : Int} : NoErr (addWithCarry m a b c : Out σ _) := by
  unfold Fxd.addWithCarry
  exact .bind .i32 fun _ _ => .bind .i32 fun _ _ => .ite (fun _ => .bind .i32 fun _ _ => .pure) (fun _ => .pure)

namespace Props
variable {σ : Type} (m : Mode)

/-- **C39.** A successful `round_to(k)` with `0 ≤ k < frac()` gives the nearest multiple of `10^-k`, halves away
from zero, with scale `k`, the sign flag of the input, and truthful digit counts. -/
theorem C39_round_to {d res r : FixedDecimal} (hd : WF d) (hres : res.lsu.length = 9) {k : Nat}
    (hk : k < fracDigits d) (h : (d.roundTo m res k : Out σ _) = .ok r) :
    val r = (halfAway (val d * 10 ^ k) : ℚ) / 10 ^ k ∧ r.frac = k ∧ neg r = neg d ∧ Tight r := by
  rw [roundTo_pos m hd hres hk] at h
  obtain ⟨h1, h2⟩ := roundPos_spec (σ := σ) m hd hk
  by_cases hf : iu d + unitsFor k ≤ 8 ∨ |(halfAway (val d * 10 ^ k) : ℚ) / 10 ^ k| < 10 ^ (9 * iu d)
  · obtain ⟨r', e, a, b, c, f, g⟩ := h1 hf
    rw [e] at h; injection h with h; subst h
    exact ⟨f, b, c, a⟩
  · rw [h2 hf] at h; simp at h

/-- **C39**, exact success condition: rounding fails, and then by a panic, only when all nine units are in use
and the rounded value needs one more. -/
theorem C39_ok_iff {d res : FixedDecimal} (hd : WF d) (hres : res.lsu.length = 9) {k : Nat}
    (hk : k < fracDigits d) :
    ((∃ r, (d.roundTo m res k : Out σ _) = .ok r) ↔
      iu d + unitsFor k ≤ 8 ∨ |(halfAway (val d * 10 ^ k) : ℚ) / 10 ^ k| < 10 ^ (9 * iu d)) ∧
    ((¬ ∃ r, (d.roundTo m res k : Out σ _) = .ok r) → (d.roundTo m res k : Out σ _) = .panic .index) := by
  rw [roundTo_pos m hd hres hk]
  obtain ⟨h1, h2⟩ := roundPos_spec (σ := σ) m hd hk
  by_cases hf : iu d + unitsFor k ≤ 8 ∨ |(halfAway (val d * 10 ^ k) : ℚ) / 10 ^ k| < 10 ^ (9 * iu d)
  · obtain ⟨r', e, _⟩ := h1 hf
    refine ⟨⟨fun _ => hf, fun _ => ⟨r', e⟩⟩, fun h => absurd ⟨r', e⟩ h⟩
  · refine ⟨⟨fun ⟨r, h⟩ => ?_, fun h => absurd h hf⟩, fun _ => h2 hf⟩
    rw [h2 hf] at h; simp at h

/-- **C39** without `halfAway`: no multiple of `10^-k` is nearer, and one that is as near is nearer to zero. -/
theorem C39_nearest {d res r : FixedDecimal} (hd : WF d) (hres : res.lsu.length = 9) {k : Nat}
    (hk : k < fracDigits d) (h : (d.roundTo m res k : Out σ _) = .ok r) :
    (∃ n : ℤ, val r = n / 10 ^ k) ∧
      ∀ n : ℤ, (n : ℚ) / 10 ^ k ≠ val r →
        |val r - val d| < |(n : ℚ) / 10 ^ k - val d| ∨
          |val r - val d| = |(n : ℚ) / 10 ^ k - val d| ∧ |(n : ℚ) / 10 ^ k| < |val r| := by
  obtain ⟨hv, -⟩ := C39_round_to m hd hres hk h
  refine ⟨⟨_, hv⟩, ?_⟩
  intro n hn
  have hp : (0 : ℚ) < 10 ^ k := by positivity
  have hne : n ≠ halfAway (val d * 10 ^ k) := by rintro rfl; exact hn hv.symm
  have key := halfAway_nearest (val d * 10 ^ k) n hne
  have e : ∀ x : ℤ, |(x : ℚ) / 10 ^ k - val d| = |(x : ℚ) - val d * 10 ^ k| / 10 ^ k := by
    intro x
    rw [show (x : ℚ) / 10 ^ k - val d = ((x : ℚ) - val d * 10 ^ k) / 10 ^ k by field_simp, abs_div, abs_of_pos hp]
  have e2 : ∀ x : ℤ, |(x : ℚ) / 10 ^ k| = ((|x| : ℤ) : ℚ) / 10 ^ k := by
    intro x; rw [abs_div, abs_of_pos hp]; push_cast; rfl
  rw [hv, e, e, e2, e2]
  rcases key with h | ⟨h, h'⟩
  · left; exact div_lt_div_of_pos_right h hp
  · right
    refine ⟨by rw [h], ?_⟩
    apply div_lt_div_of_pos_right _ hp
    exact_mod_cast h'

/-- 123456789012.345 rounded to 2 digits is 123456789012.35, and -0.00000000075 rounded to 9 digits -0.000000001. -/
example : (Samples.a.roundTo m FixedDecimal.zero (2 : Nat) : Out Unit _) =
      .ok ⟨18#8, 2, [350000000, 456789012, 123, 0, 0, 0, 0, 0, 0]⟩ ∧ 2 < fracDigits Samples.a ∧ WF Samples.a ∧
    (Samples.b.roundTo m FixedDecimal.zero (9 : Nat) : Out Unit _) =
      .ok ⟨0x80#8, 9, [1, 0, 0, 0, 0, 0, 0, 0, 0]⟩ ∧ 9 < fracDigits Samples.b ∧ WF Samples.b := by
  cases m <;> decide +kernel

/-- Nine full units and a carry: the panic of `C39_ok_iff` happens. -/
example : (FixedDecimal.roundTo m ⟨72#8, 9, List.replicate 9 999999999⟩ FixedDecimal.zero (8 : Nat) : Out Unit _) =
      .panic .index ∧ WF ⟨72#8, 9, List.replicate 9 999999999⟩ := by
  cases m <;> decide +kernel

/-- **C40.** Extending the scale keeps value, sign and well-formedness when the units suffice. -/
theorem C40_extend {d res : FixedDecimal} (hd : WF d) (hres : res.lsu.length = 9) {k : Nat}
    (hk : fracDigits d ≤ k) (h9 : iu d + unitsFor k ≤ 9) :
    ∃ r, (d.roundTo m res k : Out σ _) = .ok r ∧ val r = val d ∧ r.frac = k ∧ r.intg = d.intg ∧ WF r ∧
      (Tight d → Tight r) := by
  refine ⟨extended d k, ?_, extended_val hd hk h9, rfl, rfl, (extended_spec hd hk h9).1,
    fun ht => extended_tight ht hk h9⟩
  rw [roundTo_ext m hd hres hk (by unfold unitsFor at h9; omega), if_pos h9]

/-- **C40**, the other side: when the units do not suffice `round_to` panics (up to the largest `i8`). -/
theorem C40_panic {d res : FixedDecimal} (hd : WF d) (hres : res.lsu.length = 9) {k : Nat}
    (hk : fracDigits d ≤ k) (h9 : 9 < iu d + unitsFor k) (hk' : k ≤ 127) :
    ∃ p, (d.roundTo m res k : Out σ _) = .panic p := by
  by_cases h : k < 120
  · rw [roundTo_ext m hd hres hk h, if_neg (by omega)]; exact ⟨_, rfl⟩
  · exact roundTo_ext_big m hd hres (by omega) (by omega)

example : (Samples.c.roundTo m FixedDecimal.zero (12 : Nat) : Out Unit _) =
      .ok ⟨0x81#8, 12, [0, 500000000, 7, 0, 0, 0, 0, 0, 0]⟩ ∧ fracDigits Samples.c ≤ 12 ∧
      iu Samples.c + unitsFor 12 ≤ 9 ∧ fracDigits Samples.a ≤ 70 ∧ 9 < iu Samples.a + unitsFor 70 := by
  cases m <;> decide +kernel

/-- Uniform form for decimals with truthful digit counts: whatever `k ≥ 0`, a successful `round_to(k)` gives the
nearest multiple of `10^-k`. -/
theorem round_to_uniform {d res r : FixedDecimal} (hd : Tight d) (hres : res.lsu.length = 9) {k : Nat}
    (hk : k ≤ 127) (h : (d.roundTo m res k : Out σ _) = .ok r) :
    val r = (halfAway (val d * 10 ^ k) : ℚ) / 10 ^ k ∧ r.frac = k ∧ neg r = neg d ∧ Tight r := by
  by_cases hf : k < fracDigits d
  · exact C39_round_to m hd.toWF hres hf h
  · by_cases h9 : iu d + unitsFor k ≤ 9
    · obtain ⟨r', e, hv, hfr, hi, -, ht⟩ := C40_extend (σ := σ) m hd.toWF hres (by omega) h9
      rw [e] at h; injection h with h; subst h
      refine ⟨?_, hfr, ?_, ht hd⟩
      · rw [hv]
        have hint : ∃ n : ℤ, val d * 10 ^ k = n := by
          obtain ⟨c, hc⟩ := hd.frac_ok
          have hle := fracDigits_le_fu d
          have e1 : absVal d * 10 ^ k = ((c * 10 ^ (k - fracDigits d) : ℤ) : ℚ) := by
            unfold absVal
            rw [hc, show 9 * fu d = (9 * fu d - fracDigits d) + fracDigits d by omega, pow_add]
            rw [Nat.add_sub_cancel]
            have e2 : (10 : ℚ) ^ k = 10 ^ (k - fracDigits d) * 10 ^ fracDigits d := by
              rw [← pow_add]; congr 1; omega
            rw [e2]
            push_cast
            field_simp
          unfold val
          split_ifs
          · exact ⟨-(c * 10 ^ (k - fracDigits d)), by rw [neg_mul, e1]; push_cast; ring⟩
          · exact ⟨_, e1⟩
        obtain ⟨n, hn⟩ := hint
        rw [hn, halfAway_int, ← hn]
        field_simp
      · unfold neg; rw [hi]
    · obtain ⟨p, hp⟩ := C40_panic (σ := σ) m hd.toWF hres (by omega) (by omega) hk
      rw [hp] at h; simp at h

/-- **C41** for precisions below the current scale, including negative ones: `round` in place does exactly what
`round_to` does. -/
theorem C41_round_eq_partial {d res : FixedDecimal} (hd : WF d) (hres : res.lsu.length = 9) {k : Int}
    (hk : k < d.frac) (hk' : -9223372036854775807 < k) :
    (d.round m k : Out σ _) = d.roundTo m res k := by
  by_cases h0 : 0 ≤ k
  · lift k to ℕ using h0
    rw [hd.frac_eq] at hk
    rw [roundTo_pos m hd hres (by omega), round_pos m hd (by omega)]
  · obtain ⟨j, rfl⟩ : ∃ j : Nat, k = -(j : Int) := ⟨(-k).toNat, by omega⟩
    rw [roundTo_neg m hd hres (by omega) (by omega), round_neg m hd (by omega) (by omega)]

/-- **C41** for precisions that extend the scale: `round` agrees with `round_to` exactly when the units it fails to
clear happen to be zero (always so when no whole unit is added). -/
theorem C41_extend_iff {d res : FixedDecimal} (hd : WF d) (hres : res.lsu.length = 9) {k : Nat}
    (hk : fracDigits d ≤ k) (h9 : iu d + unitsFor k ≤ 9) :
    (d.round m k : Out σ _) = d.roundTo m res k ↔ ∀ u ∈ d.lsu.take (unitsFor k - fu d), u = 0 := by
  rw [roundTo_ext m hd hres hk (by unfold unitsFor at h9; omega), if_pos h9, round_ext_iff m hd hk h9]
  constructor
  · intro h u hu
    obtain ⟨i, hi, rfl⟩ := List.mem_iff_getElem.mp hu
    have h2 := h i (by simp at hi; omega)
    rw [List.length_take, hd.len] at hi
    have hi9 : i < d.lsu.length := by rw [hd.len]; omega
    unfold dg at h2
    simpa [List.getElem_take, List.getD_eq_getElem?_getD, List.getElem?_eq_getElem hi9] using h2
  · intro h i hi
    by_cases hi9 : i < d.lsu.length
    · have : d.lsu[i] ∈ d.lsu.take (unitsFor k - fu d) := by
        rw [List.mem_iff_getElem]
        exact ⟨i, by simp; omega, by simp [List.getElem_take]⟩
      have h2 := h _ this
      unfold dg
      simpa [List.getD_eq_getElem?_getD, List.getElem?_eq_getElem hi9] using h2
    · exact dg_out (by omega)

/-- **C41 is false of the code in general**: `1.round(1)` gives 1.000000001, `1.round_to(1)` gives 1.0. -/
theorem C41_false : ∃ d : FixedDecimal, Tight d ∧
    (d.round m 1 : Out Unit _) ≠ d.roundTo m FixedDecimal.zero 1 ∧
    ∃ r, (d.round m 1 : Out Unit _) = .ok r ∧ val r = 1000000001 / 1000000000 ∧ val d = 1 := by
  refine ⟨FixedDecimal.one, by decide, by cases m <;> decide +kernel,
    ⟨1#8, 1, [1, 1, 0, 0, 0, 0, 0, 0, 0]⟩, by cases m <;> decide +kernel, ?_, ?_⟩
  · have h : mant ⟨1#8, 1, [1, 1, 0, 0, 0, 0, 0, 0, 0]⟩ = 1000000001 := by decide
    have h2 : neg ⟨1#8, 1, [1, 1, 0, 0, 0, 0, 0, 0, 0]⟩ = false := by decide
    have h3 : fu ⟨1#8, 1, [1, 1, 0, 0, 0, 0, 0, 0, 0]⟩ = 1 := by decide
    simp only [val, absVal, h, h2, h3]; norm_num
  · have h : mant FixedDecimal.one = 1 := by decide
    have h2 : neg FixedDecimal.one = false := by decide
    have h3 : fu FixedDecimal.one = 0 := by decide
    simp only [val, absVal, h, h2, h3]; norm_num

example : (Samples.a.round m (-4) : Out Unit _) = Samples.a.roundTo m Samples.c (-4) ∧ (-4 : Int) < Samples.a.frac ∧
    (Samples.a.round m 12 : Out Unit _) ≠ Samples.a.roundTo m Samples.c 12 := by
  cases m <;> decide +kernel

/-- **C42** inside a unit: `round_to(-j)` for `0 < j < intg()`, `9 ∤ j`, gives the nearest multiple of `10^j`, halves
away from zero. Missing for the full property: `9 ∣ j` and `j ≥ intg()`, where the code does something else
(`C42_edge_truncates`, `C42_large_zero`). -/
theorem C42_round_neg_partial {d res r : FixedDecimal} (hd : WF d) (hres : res.lsu.length = 9) {j : Nat}
    (hj : 0 < j) (hi : j < intgDigits d) (h9 : ¬ 9 ∣ j) (h : (d.roundTo m res (-(j : Int)) : Out σ _) = .ok r) :
    val r = (halfAway (val d / 10 ^ j) : ℚ) * 10 ^ j ∧ r.frac = 0 ∧ neg r = neg d ∧ Tight r := by
  have hi81 := hd.intg_le
  rw [roundTo_neg m hd hres hj (by omega)] at h
  obtain ⟨h1, h2⟩ := roundNeg_spec (σ := σ) m hd hj hi (by omega)
  by_cases hf : iu d ≤ 8 ∨ |(halfAway (val d / 10 ^ j) : ℚ) * 10 ^ j| < 10 ^ (9 * iu d)
  · obtain ⟨r', e, a, b, c, f, g⟩ := h1 hf
    rw [e] at h; injection h with h; subst h
    exact ⟨f, b, c, a⟩
  · rw [h2 hf] at h; simp at h

/-- **C42** inside a unit, exact success condition. -/
theorem C42_ok_iff {d res : FixedDecimal} (hd : WF d) (hres : res.lsu.length = 9) {j : Nat}
    (hj : 0 < j) (hi : j < intgDigits d) (h9 : ¬ 9 ∣ j) :
    ((∃ r, (d.roundTo m res (-(j : Int)) : Out σ _) = .ok r) ↔
      iu d ≤ 8 ∨ |(halfAway (val d / 10 ^ j) : ℚ) * 10 ^ j| < 10 ^ (9 * iu d)) := by
  have hi81 := hd.intg_le
  rw [roundTo_neg m hd hres hj (by omega)]
  obtain ⟨h1, h2⟩ := roundNeg_spec (σ := σ) m hd hj hi (by omega)
  by_cases hf : iu d ≤ 8 ∨ |(halfAway (val d / 10 ^ j) : ℚ) * 10 ^ j| < 10 ^ (9 * iu d)
  · obtain ⟨r', e, _⟩ := h1 hf
    exact ⟨fun _ => hf, fun _ => ⟨r', e⟩⟩
  · refine ⟨fun ⟨r, h⟩ => ?_, fun h => absurd h hf⟩
    rw [h2 hf] at h; simp at h

/-- **C42 is false at multiples of nine**: the value is cut towards zero instead of rounded. -/
theorem C42_edge_truncates {d res : FixedDecimal} (hd : WF d) (hres : res.lsu.length = 9) {j : Nat}
    (hj : 0 < j) (hi : j < intgDigits d) (h9 : 9 ∣ j) :
    ∃ r, (d.roundTo m res (-(j : Int)) : Out σ _) = .ok r ∧
      val r = (truncZ (val d / 10 ^ j) : ℚ) * 10 ^ j ∧ r.frac = 0 ∧ neg r = neg d ∧ Tight r := by
  have hi81 := hd.intg_le
  rw [roundTo_neg m hd hres hj (by omega)]
  obtain ⟨r, e, a, b, c, f, g⟩ := roundNeg_edge (σ := σ) m hd hj hi (by omega)
  exact ⟨r, e, f, b, c, a⟩

/-- **C42 is false at and above the digit count**: the result is zero. (It depends on the stored digit count, so
5 from `From<u64>`, stored with nine digits, rounds to 10 where "5" rounds to 0.) -/
theorem C42_large_zero {d res : FixedDecimal} (hd : WF d) (hres : res.lsu.length = 9) {j : Nat}
    (hj : 0 < j) (hi : intgDigits d ≤ j) (hj' : j < 9223372036854775807) :
    (d.roundTo m res (-(j : Int)) : Out σ _) = .ok FixedDecimal.zero := by
  rw [roundTo_neg m hd hres hj hj']
  unfold roundNeg
  rw [if_pos hi]

/-- Witnesses: 123456789012.345 to tens; 1999999999 to 10^9 gives 1000000000; 5 to tens gives 0, but 10 when it comes
from `From<u64>`. -/
theorem C42_witnesses :
    (Samples.a.roundTo m FixedDecimal.zero (-1) : Out Unit _) =
      .ok ⟨18#8, 0, [456789010, 123, 0, 0, 0, 0, 0, 0, 0]⟩ ∧
    (FixedDecimal.roundTo m ⟨10#8, 0, [999999999, 1, 0, 0, 0, 0, 0, 0, 0]⟩ FixedDecimal.zero (-9) : Out Unit _) =
      .ok ⟨18#8, 0, [0, 1, 0, 0, 0, 0, 0, 0, 0]⟩ ∧
    (FixedDecimal.roundTo m ⟨1#8, 0, [5, 0, 0, 0, 0, 0, 0, 0, 0]⟩ FixedDecimal.zero (-1) : Out Unit _) =
      .ok FixedDecimal.zero ∧
    ((FixedDecimal.fromU64 5 >>= fun d => d.roundTo m FixedDecimal.zero (-1)) : Out Unit _) =
      .ok ⟨9#8, 0, [10, 0, 0, 0, 0, 0, 0, 0, 0]⟩ := by
  cases m <;> decide +kernel

/-- **C43**, idempotence: rounding a rounded decimal to the same precision returns it unchanged, field by field. -/
theorem C43_idempotent {d res res' r : FixedDecimal} (hd : WF d) (hres : res.lsu.length = 9)
    (hres' : res'.lsu.length = 9) {k : Nat} (hk : k ≤ 127) (h : (d.roundTo m res k : Out σ _) = .ok r) :
    (r.roundTo m res' k : Out σ _) = .ok r := by
  have key : WF r ∧ r.frac = k := by
    by_cases hf : k < fracDigits d
    · obtain ⟨-, a, -, b⟩ := C39_round_to m hd hres hf h
      exact ⟨b.toWF, a⟩
    · by_cases h9 : iu d + unitsFor k ≤ 9
      · obtain ⟨r', e, -, a, -, b, -⟩ := C40_extend (σ := σ) m hd hres (by omega) h9
        rw [e] at h; injection h with h; subst h
        exact ⟨b, a⟩
      · obtain ⟨p, hp⟩ := C40_panic (σ := σ) m hd hres (by omega) (by omega) hk
        rw [hp] at h; simp at h
  obtain ⟨hw, hf⟩ := key
  have e1 : fracDigits r = k := by unfold fracDigits; rw [hf]; simp
  have e2 : fu r = unitsFor k := by unfold fu; rw [e1]
  have h9 := hw.fits
  rw [e2] at h9
  rw [roundTo_ext m hw hres' (by omega) (by unfold unitsFor at h9; omega), if_pos h9]
  congr 1
  unfold extended
  rw [e2, Nat.sub_self, ← hf]
  have : shiftUp r.lsu 0 = r.lsu := by
    unfold shiftUp; simp [← hw.len]
  rw [this]

/-- **C43**, monotonicity. -/
theorem C43_monotone {a b res res' ra rb : FixedDecimal} (ha : Tight a) (hb : Tight b) (hres : res.lsu.length = 9)
    (hres' : res'.lsu.length = 9) {k : Nat} (hk : k ≤ 127) (hab : val a ≤ val b)
    (h1 : (a.roundTo m res k : Out σ _) = .ok ra) (h2 : (b.roundTo m res' k : Out σ _) = .ok rb) :
    val ra ≤ val rb := by
  rw [(round_to_uniform m ha hres hk h1).1, (round_to_uniform m hb hres' hk h2).1]
  apply div_le_div_of_nonneg_right _ (by positivity)
  have := halfAway_mono (mul_le_mul_of_nonneg_right hab (show (0 : ℚ) ≤ 10 ^ k by positivity))
  exact_mod_cast this

example : val Samples.c ≤ val Samples.b ∧
    (∃ r, (Samples.c.roundTo m FixedDecimal.zero (0 : Nat) : Out Unit _) = .ok r ∧
      r = ⟨0x80#8 ||| 9#8, 0, [8, 0, 0, 0, 0, 0, 0, 0, 0]⟩) ∧
    (∃ r, (Samples.b.roundTo m FixedDecimal.zero (0 : Nat) : Out Unit _) = .ok r ∧
      r = ⟨0x80#8, 0, [0, 0, 0, 0, 0, 0, 0, 0, 0]⟩) := by
  refine ⟨by rw [Samples.val_b, Samples.val_c]; norm_num, ⟨_, ?_, rfl⟩, ⟨_, ?_, rfl⟩⟩ <;>
  cases m <;> decide +kernel

/-- **C44.** Rounding moves the value by at most half a unit in the last place. -/
theorem C44_half_ulp {d res r : FixedDecimal} (hd : WF d) (hres : res.lsu.length = 9) {k : Nat}
    (hk : k < fracDigits d) (h : (d.roundTo m res k : Out σ _) = .ok r) :
    |val r - val d| ≤ 1 / 10 ^ k / 2 := by
  rw [(C39_round_to m hd hres hk h).1]
  have h1 := halfAway_dist (val d * 10 ^ k)
  have hp : (0 : ℚ) < 10 ^ k := by positivity
  rw [show (halfAway (val d * 10 ^ k) : ℚ) / 10 ^ k - val d = ((halfAway (val d * 10 ^ k) : ℚ) - val d * 10 ^ k) / 10 ^ k by
    field_simp, abs_div, abs_of_pos hp, div_right_comm]
  exact div_le_div_of_nonneg_right h1 hp.le

/-- **C55** for precisions up to 127: a result has exactly the scale asked for. -/
theorem C55_scale_partial {d res r : FixedDecimal} (hd : WF d) (hres : res.lsu.length = 9) {k : Nat}
    (hk : k ≤ 127) (h : (d.roundTo m res k : Out σ _) = .ok r) : r.frac = k := by
  by_cases hf : k < fracDigits d
  · exact (C39_round_to m hd hres hf h).2.1
  · by_cases h9 : iu d + unitsFor k ≤ 9
    · obtain ⟨r', e, -, a, -⟩ := C40_extend (σ := σ) m hd hres (by omega) h9
      rw [e] at h; injection h with h; subst h
      exact a
    · obtain ⟨p, hp⟩ := C40_panic (σ := σ) m hd hres (by omega) (by omega) hk
      rw [hp] at h; simp at h

/-- **C55 is false from 128 on**: a precision of 128 or more is cut to eight bits. For 1: precision 256 behaves like 0, and 250 leaves the
scale at -6, which is not well-formed. -/
theorem C55_precision_wraps :
    (FixedDecimal.one.roundTo m FixedDecimal.zero 256 : Out Unit _) = .ok FixedDecimal.one ∧
    ∃ r, (FixedDecimal.one.roundTo m FixedDecimal.zero 250 : Out Unit _) = .ok r ∧ r.frac = -6 ∧ ¬ WF r := by
  refine ⟨by cases m <;> decide +kernel, ⟨1#8, -6, [1, 0, 0, 0, 0, 0, 0, 0, 0]⟩, ?_, rfl, by decide⟩
  cases m <;> decide +kernel

/-- **C55, C41**: every precision not below the scale, however large. `round_to` and `round` in place succeed on the same
ones: those that, cast to eight bits, leave room (`ExtFits`). -/
theorem C55_ok_iff {d res : FixedDecimal} (hd : WF d) (hres : res.lsu.length = 9) {k : Int} (hk : d.frac ≤ k) :
    ((∃ r, (d.roundTo m res k : Out σ _) = .ok r) ↔ ExtFits d k) ∧
    ((∃ r, (d.round m k : Out σ _) = .ok r) ↔ ExtFits d k) := by
  refine ⟨⟨?_, fun h => ⟨_, (roundTo_wide m hd hres hk).1 h⟩⟩, ⟨?_, fun h => ⟨_, (round_wide m hd hk).1 h⟩⟩⟩
  · rintro ⟨r, h⟩
    by_contra hn
    obtain ⟨p, hp⟩ := (roundTo_wide (σ := σ) m hd hres hk).2 hn
    rw [hp] at h; simp at h
  · rintro ⟨r, h⟩
    by_contra hn
    obtain ⟨p, hp⟩ := (round_wide (σ := σ) m hd hk).2 hn
    rw [hp] at h; simp at h

theorem lifted_val {d : FixedDecimal} (hd : WF d) {k : Int} (h : ExtFits d k) (h0 : 0 ≤ castI8 k) {l : List Int}
    (hl : l.length = 9) (hdig : DigL l) (hup : ∀ i, extUnits d k ≤ i → i < 9 → dg l i = dg d.lsu (i - extUnits d k)) :
    |val { d with frac := castI8 k, lsu := l }| =
      |val d| + (psum (dg l) (extUnits d k) : ℚ) / 10 ^ (9 * unitsFor (castI8 k).toNat) := by
  obtain ⟨w, hm⟩ := lifted_spec hd h h0 hl hdig hup
  rw [abs_val w, abs_val hd]
  unfold absVal
  rw [hm]
  have e2 : fu { d with frac := castI8 k, lsu := l } = unitsFor (castI8 k).toNat := rfl
  rw [e2]
  have e : (10 : ℚ) ^ (9 * unitsFor (castI8 k).toNat) = 1000000000 ^ extUnits d k * 10 ^ (9 * fu d) := by
    rw [pow9q, ← pow_add]; congr 1; have := h.2.1; unfold extUnits; omega
  rw [e]
  push_cast
  have h1 : (1000000000 : ℚ) ^ extUnits d k ≠ 0 := by positivity
  have h2 : (10 : ℚ) ^ (9 * fu d) ≠ 0 := by positivity
  field_simp
  ring

/-- **C55**: what `round_to` returns for every precision not below the scale. The scale becomes the precision cast to eight
bits; the result is well-formed exactly if that is not negative, and then its value is unchanged. -/
theorem C55_code {d res r : FixedDecimal} (hd : WF d) (hres : res.lsu.length = 9) {k : Int} (hk : d.frac ≤ k)
    (h : (d.roundTo m res k : Out σ _) = .ok r) :
    r.frac = castI8 k ∧ r.intg = d.intg ∧ (WF r ↔ 0 ≤ castI8 k) ∧ (0 ≤ castI8 k → val r = val d) := by
  have hf := (C55_ok_iff m (σ := σ) hd hres hk).1.mp ⟨r, h⟩
  rw [(roundTo_wide m hd hres hk).1 hf] at h
  injection h with h; subst h
  have hs : extUnits d k ≤ 9 := by have := hf.2.2; unfold extUnits; omega
  have hup : ∀ i, extUnits d k ≤ i → i < 9 → dg (shiftUp d.lsu (extUnits d k)) i = dg d.lsu (i - extUnits d k) := by
    intro i h1 h2; rw [dg_shiftUp h2, if_neg (by omega)]
  have hdig : DigL (shiftUp d.lsu (extUnits d k)) := (DigL.replicate _).append (hd.digL.take _)
  have hl : (shiftUp d.lsu (extUnits d k)).length = 9 := len_shiftUp hd.len hs
  refine ⟨rfl, rfl, ⟨fun w => w.frac_nonneg, fun h0 => (lifted_spec hd hf h0 hl hdig hup).1⟩, fun h0 => ?_⟩
  have hv := lifted_val hd hf h0 hl hdig hup
  have hw := (lifted_spec hd hf h0 hl hdig hup).1
  rw [psum_zero_of (f := dg (shiftUp d.lsu (extUnits d k))) (fun i hi => by rw [dg_shiftUp (by omega), if_pos hi])] at hv
  rw [Int.cast_zero, zero_div, add_zero, abs_val hw, abs_val hd] at hv
  unfold val
  rw [hv]; rfl

/-- **C41**: what `round` in place returns for every precision not below the scale, compared with `round_to`: same sign,
digit counts and high units, but where `round_to` puts the new low units to zero, `round` keeps the old low units of the
decimal. So the value is too large in magnitude by those units read at the new scale. -/
theorem C41_code {d res r r' : FixedDecimal} (hd : WF d) (hres : res.lsu.length = 9) {k : Int} (hk : d.frac ≤ k)
    (h : (d.round m k : Out σ _) = .ok r) (h' : (d.roundTo m res k : Out σ _) = .ok r') :
    r.intg = r'.intg ∧ r.frac = r'.frac ∧
      r.lsu.take (extUnits d k) = d.lsu.take (extUnits d k) ∧ r.lsu.drop (extUnits d k) = r'.lsu.drop (extUnits d k) ∧
      (WF r ↔ 0 ≤ castI8 k) ∧
      (0 ≤ castI8 k → |val r| = |val d| + (unitsVal (d.lsu.take (extUnits d k)) : ℚ) / 10 ^ (9 * fu r)) := by
  have hf := (C55_ok_iff m (σ := σ) hd hres hk).1.mp ⟨r', h'⟩
  rw [(roundTo_wide m hd hres hk).1 hf] at h'
  rw [(round_wide m hd hk).1 hf] at h
  injection h with h; subst h
  injection h' with h'; subst h'
  have hs : extUnits d k ≤ 9 := by have := hf.2.2; unfold extUnits; omega
  have hup : ∀ i, extUnits d k ≤ i → i < 9 → dg (shiftStale d.lsu (extUnits d k)) i = dg d.lsu (i - extUnits d k) := by
    intro i h1 h2; rw [dg_shiftStale hd.len hs h2, if_neg (by omega)]
  have hdig : DigL (shiftStale d.lsu (extUnits d k)) := (hd.digL.take _).append (hd.digL.take _)
  have hl : (shiftStale d.lsu (extUnits d k)).length = 9 := len_shiftStale hd.len hs
  have ht : (d.lsu.take (extUnits d k)).length = extUnits d k := by rw [List.length_take, hd.len]; omega
  refine ⟨rfl, rfl, ?_, ?_, ⟨fun w => w.frac_nonneg, fun h0 => (lifted_spec hd hf h0 hl hdig hup).1⟩, fun h0 => ?_⟩
  · show List.take _ (shiftStale d.lsu _) = _
    unfold shiftStale
    rw [List.take_append_of_le_length (by omega), List.take_take, Nat.min_self]
  · show List.drop _ (shiftStale d.lsu _) = List.drop _ (shiftUp d.lsu _)
    unfold shiftStale shiftUp
    rw [List.drop_append, ht, List.drop_append, List.length_replicate,
      List.drop_of_length_le (l := d.lsu.take (extUnits d k)) (by omega),
      List.drop_of_length_le (l := List.replicate (extUnits d k) (0 : Int)) (by simp)]
  · have hv := lifted_val hd hf h0 hl hdig hup
    rw [hv, unitsVal_eq_psum, ht]
    congr 3
    apply psum_congr
    intro i hi
    rw [dg_shiftStale hd.len hs (by omega), if_pos hi, dg_take, if_pos hi]

/-- A precision that wraps to 44 and fits, one that wraps to a smaller scale in the same units, one that has no room. -/
example : Samples.c.frac ≤ 300 ∧ castI8 300 = 44 ∧ ExtFits Samples.c 300 ∧ extUnits Samples.c 300 = 4 ∧
    (∃ r, (Samples.c.round m 300 : Out Unit _) = .ok r) ∧ (∃ r, (Samples.c.roundTo m FixedDecimal.zero 300 : Out Unit _) = .ok r) ∧
    (let d : FixedDecimal := ⟨1#8, 8, [1000, 1, 0, 0, 0, 0, 0, 0, 0]⟩
     ExtFits d 257 ∧ (d.roundTo m FixedDecimal.zero 257 : Out Unit _) = .ok ⟨1#8, 1, [1000, 1, 0, 0, 0, 0, 0, 0, 0]⟩ ∧
     ¬ ExtFits d 256 ∧ ¬ ExtFits d 100) := by
  refine ⟨by decide +kernel, by decide +kernel, by decide +kernel, by decide +kernel,
    ⟨⟨0x81#8, 44, [500000000, 7, 0, 0, 500000000, 7, 0, 0, 0]⟩, ?_⟩,
    ⟨⟨0x81#8, 44, [0, 0, 0, 0, 500000000, 7, 0, 0, 0]⟩, ?_⟩, ?_⟩ <;> cases m <;> decide +kernel

end Props
end Fxd
