import Verif.Proofs.MulRows
import Verif.Props.Mul
import Verif.Props.Div
import Verif.Props.Cmp
/-!
# Products described exactly (C28, C29, C31, C53, C56, C61)

The integer a multiplication computes is `codeMul` of `Verif/Spec/Product.lean`: the sum of the schoolbook rows, each cut
off on its own.  Here the operands need only be well-formed, so quotients with under-reported digit counts are included.
-/

namespace Fxd
open Spec

theorem unitsFor_min {a b : FixedDecimal} : unitsFor (min (fracDigits a + fracDigits b) (9 * mulFU a b)) = mulFU a b := by
  by_cases h : fracDigits a + fracDigits b ≤ 9 * mulFU a b
  · rw [Nat.min_eq_left h]
    have h1 : unitsFor (fracDigits a + fracDigits b) ≤ mulFU a b := by
      have := unitsFor_mono h; rwa [unitsFor_mul9] at this
    have h2 : mulFU a b ≤ unitsFor (fracDigits a + fracDigits b) := by unfold mulFU; omega
    omega
  · rw [Nat.min_eq_right (by omega), unitsFor_mul9]

theorem list9_ext {l l' : List Int} (h : l.length = 9) (h' : l'.length = 9) (hd : DigL l) (hd' : DigL l')
    (hp : psum (dg l) 9 = psum (dg l') 9) : l = l' := by
  have := Props.psum_inj hd.dig hd'.dig hp
  apply List.ext_getElem (by omega)
  intro i h1 h2
  have := this i (by omega)
  simpa [dg, List.getD_eq_getElem?_getD, h1, h2] using this

/-- Well-formedness of nine good units with given digit counts: the number fits the units counted. -/
theorem built_wf_iff {l : List Int} {t f F : Nat} (hl : l.length = 9) (hd : DigL l) (hF : unitsFor f = F)
    (ht : t + F ≤ 9) : WF ⟨BitVec.ofInt 8 ((9 * t : Nat) : Int), (f : Int), l⟩ ↔ psum (dg l) 9 < 1000000000 ^ (t + F) := by
  set d : FixedDecimal := ⟨BitVec.ofInt 8 ((9 * t : Nat) : Int), (f : Int), l⟩ with hdd
  have h1 : intgDigits d = 9 * t := intgDigits_mk (by omega)
  have h2 : iu d = t := by unfold iu; rw [h1, unitsFor_mul9]
  have h3 : fracDigits d = f := by simp [fracDigits, d]
  have h4 : fu d = F := by unfold fu; rw [h3, hF]
  constructor
  · intro h
    have e := h.mant_eq9
    have e' := h.mant_eq
    rw [e] at e'
    show psum (dg d.lsu) 9 < _
    rw [e', h2, h4]
    exact psum_lt hd.dig _
  · intro h
    refine (built_wf hl hd hF ht fun p hp => ?_).1
    by_contra hne
    have h9p : p < 9 := by
      by_contra hc; exact hne (dg_out (by omega))
    have hpos : 0 < dg l p := by have := (hd.dig p).1; omega
    have h1 := psum_ge_of_pos hd.dig h9p hpos
    have h2 : (1000000000 : Int) ^ (t + F) ≤ 1000000000 ^ p := pow_le_pow_right₀ (by norm_num) hp
    omega

/-- A successful multiplication of non-zero operands, whole. -/
theorem mulTo_whole (m : Mode) {a b res : FixedDecimal} (ha : WF a) (hb : WF b) (hres : res.lsu.length = 9)
    (za : val a ≠ 0) (zb : val b ≠ 0) (hf : MulFits m a b) (h9 : codeMul a b < 1000000000 ^ 9) :
    ∃ l, FixedDecimal.mulTo m a b res = .ok (signed (neg a != neg b) ⟨BitVec.ofInt 8 ((9 * mulIU a b : Nat) : Int),
        ((min (fracDigits a + fracDigits b) (9 * mulFU a b) : Nat) : Int), l⟩) ∧
      l.length = 9 ∧ DigL l ∧ psum (dg l) 9 = codeMul a b := by
  obtain ⟨f1, f2, f3⟩ := hf
  have h := (mulAbs_spec m ha hb hres f1 f2 (by rwa [ne_eq, ← val_eq_zero])
    (fun hm => by rcases f3 with h | ⟨h, _⟩
                  · exact h
                  · rw [hm] at h; cases h) (by omega)).1
  rw [mulRes_eq ha] at h
  obtain ⟨l, e, c⟩ := h h9
  refine ⟨l, ?_, c⟩
  rw [mulTo_nz m ha hb za zb, e]; rfl

theorem mulTo_carry (m : Mode) {a b res : FixedDecimal} (ha : WF a) (hb : WF b) (hres : res.lsu.length = 9)
    (za : val a ≠ 0) (zb : val b ≠ 0) (hf : MulFits m a b) (h9 : 1000000000 ^ 9 ≤ codeMul a b) :
    ∃ l, FixedDecimal.mulTo m a b res = .err .overflow { FixedDecimal.zero with lsu := l } ∧ l.length = 9 ∧ DigL l ∧
      psum (dg l) 9 = codeMul a b % 1000000000 ^ 9 := by
  obtain ⟨f1, f2, f3⟩ := hf
  have h := (mulAbs_spec m ha hb hres f1 f2 (by rwa [ne_eq, ← val_eq_zero])
    (fun hm => by rcases f3 with h | ⟨h, _⟩
                  · exact h
                  · rw [hm] at h; cases h) (by omega)).2
  rw [mulRes_eq ha] at h
  obtain ⟨st, e, c⟩ := h h9
  exact ⟨st, by rw [mulTo_nz m ha hb za zb, e]; rfl, c⟩

/-- Inversion. -/
theorem mulTo_inv (m : Mode) {a b res r : FixedDecimal} (ha : WF a) (hb : WF b) (hres : res.lsu.length = 9)
    (za : val a ≠ 0) (zb : val b ≠ 0) (h : FixedDecimal.mulTo m a b res = .ok r) :
    MulFits m a b ∧ codeMul a b < 1000000000 ^ 9 ∧
    ∃ l, r = signed (neg a != neg b) ⟨BitVec.ofInt 8 ((9 * mulIU a b : Nat) : Int),
        ((min (fracDigits a + fracDigits b) (9 * mulFU a b) : Nat) : Int), l⟩ ∧
      l.length = 9 ∧ DigL l ∧ psum (dg l) 9 = codeMul a b := by
  by_cases hf : MulFits m a b
  · by_cases h9 : codeMul a b < 1000000000 ^ 9
    · obtain ⟨l, e, c⟩ := mulTo_whole m ha hb hres za zb hf h9
      rw [e] at h; injection h with h
      exact ⟨hf, h9, l, h.symm, c⟩
    · obtain ⟨st, e, -⟩ := mulTo_carry m ha hb hres za zb hf (by omega)
      rw [e] at h; cases h
  · rcases mulTo_fail m ha hb hres za zb hf with ⟨p, hp⟩ | ⟨_, _, _, hp⟩ <;> rw [hp] at h <;> simp at h

theorem codeMul_nonneg {a b : FixedDecimal} (ha : WF a) (hb : WF b) : 0 ≤ codeMul a b := by
  rw [← mulRes_eq ha]; exact (mulRes_bounds ha hb).1

theorem codeMul_lt {a b : FixedDecimal} (ha : Tight a) (hb : Tight b) : codeMul a b < 1000000000 ^ (mulIU a b + mulFU a b) := by
  rw [← mulRes_eq ha.toWF]; exact mulRes_lt ha hb

/-- `codeMul` lies between the exact product and a few units below it. -/
theorem codeMul_bounds {a b : FixedDecimal} (ha : WF a) (hb : WF b) :
    1000000000 ^ mulShift a b * codeMul a b ≤ mant a * mant b ∧
      mant a * mant b ≤ 1000000000 ^ mulShift a b * codeMul a b +
        (min (mulShift a b) (min (iu a + fu a) (iu b + fu b)) : Nat) * (2 * 1000000000 ^ mulShift a b - 1) := by
  have key : ∀ {a b : FixedDecimal}, WF a → WF b →
      1000000000 ^ mulShift a b * codeMul a b ≤ mant a * mant b ∧
      mant a * mant b ≤ 1000000000 ^ mulShift a b * codeMul a b +
        (min (mulShift a b) (iu b + fu b) : Nat) * (2 * 1000000000 ^ mulShift a b - 1) := by
    intro a b ha hb
    have h := mulRows_bounds (A := mant a) ha.mant_nonneg (S := mulShift a b) (b.lsu.take (iu b + fu b)) 0 (hb.digL.take _)
    rw [pow_zero, mul_one, List.length_take, hb.len, Nat.min_eq_left hb.fits, Nat.sub_zero] at h
    exact h
  obtain ⟨k1, k2⟩ := key ha hb
  obtain ⟨-, k4⟩ := key hb ha
  rw [mulShift_comm b a, codeMul_comm hb ha, mul_comm (mant b)] at k4
  refine ⟨k1, ?_⟩
  rcases Nat.le_total (iu a + fu a) (iu b + fu b) with h | h
  · rw [Nat.min_eq_left h]; exact k4
  · rw [Nat.min_eq_right h]; exact k2

namespace Props

/-- **C28.** The exact product the code returns, cut off or not, for all well-formed operands: `codeMul`, provided it fits
the digit counts of the result; if not, the result is not a well-formed decimal. Shape and sign are always as planned. -/
theorem C28_code (m : Mode) {a b res r : FixedDecimal} (ha : WF a) (hb : WF b) (hres : res.lsu.length = 9)
    (za : val a ≠ 0) (zb : val b ≠ 0) (h : FixedDecimal.mulTo m a b res = .ok r) :
    (WF r ↔ codeMul a b < 1000000000 ^ (mulIU a b + mulFU a b)) ∧
      (WF r → val r = (if neg a = neg b then 1 else -1) * codeMul a b / 10 ^ (9 * mulFU a b)) ∧
      r.frac = min (a.frac + b.frac) (9 * mulFU a b : Nat) ∧ intgDigits r = 9 * mulIU a b ∧
      unitsVal r.lsu = codeMul a b := by
  obtain ⟨hf, h9, l, rfl, c1, c2, c3⟩ := mulTo_inv m ha hb hres za zb h
  have hsh := mul_shape hf.1
  have hu : unitsVal l = codeMul a b := by rw [unitsVal_eq_psum, c1, c3]
  refine ⟨?_, ?_, ?_, ?_, ?_⟩
  · rw [signed_wf_iff, built_wf_iff c1 c2 unitsFor_min hsh.2, c3]
  · intro hw
    rw [signed_wf_iff] at hw
    have hn : neg (⟨BitVec.ofInt 8 ((9 * mulIU a b : Nat) : Int),
        ((min (fracDigits a + fracDigits b) (9 * mulFU a b) : Nat) : Int), l⟩ : FixedDecimal) = false := neg_mk (by omega)
    rw [signed_val hn]
    have hfu : fu (⟨BitVec.ofInt 8 ((9 * mulIU a b : Nat) : Int),
        ((min (fracDigits a + fracDigits b) (9 * mulFU a b) : Nat) : Int), l⟩ : FixedDecimal) = mulFU a b := by
      exact unitsFor_min (a := a) (b := b)
    have hav : absVal (⟨BitVec.ofInt 8 ((9 * mulIU a b : Nat) : Int),
        ((min (fracDigits a + fracDigits b) (9 * mulFU a b) : Nat) : Int), l⟩ : FixedDecimal) =
        (codeMul a b : ℚ) / 10 ^ (9 * mulFU a b) := by
      unfold absVal; rw [hfu, hw.mant_eq9]; dsimp only; rw [c3]
    rw [hav]
    cases neg a <;> cases neg b <;> simp <;> ring
  · rw [signed_frac, ha.frac_eq, hb.frac_eq]; push_cast; rfl
  · rw [signed_intgDigits]; exact intgDigits_mk (by omega)
  · rw [signed_lsu]; exact hu

/-- **C30.** The sign of a product for all well-formed operands, whether or not their digit counts are truthful: negative exactly
when the operands' signs differ and some unit of the result is non-zero. -/
theorem C30_mul_sign_wf (m : Mode) {a b res r : FixedDecimal} (ha : WF a) (hb : WF b) (hres : res.lsu.length = 9)
    (h : FixedDecimal.mulTo m a b res = .ok r) : neg r = true ↔ neg a ≠ neg b ∧ ∃ u ∈ r.lsu, u ≠ 0 := by
  by_cases hz : val a = 0 ∨ val b = 0
  · rw [mulTo_zero m ha hb hres hz] at h
    injection h with h; subst h
    constructor
    · intro h; exact absurd h (by decide)
    · rintro ⟨-, h⟩; exact absurd h (by decide)
  · push Not at hz
    obtain ⟨hf, h9, l, rfl, c1, c2, c3⟩ := mulTo_inv m ha hb hres hz.1 hz.2 h
    have hsh := mul_shape hf.1
    rw [signed_neg (neg_mk (by omega))]
    simp

/-- **C28.** With truthful digit counts the result is always well-formed: its value is `codeMul` at the scale of the
result, with the sign of the product. -/
theorem C28_value (m : Mode) {a b res r : FixedDecimal} (ha : Tight a) (hb : Tight b) (hres : res.lsu.length = 9)
    (za : val a ≠ 0) (zb : val b ≠ 0) (h : FixedDecimal.mulTo m a b res = .ok r) :
    val r = (if neg a = neg b then 1 else -1) * codeMul a b / 10 ^ (9 * mulFU a b) := by
  obtain ⟨k1, k2, -⟩ := C28_code m ha.toWF hb.toWF hres za zb h
  exact k2 (k1.mpr (codeMul_lt ha hb))

theorem codeMul_q {a b : FixedDecimal} :
    (1000000000 ^ mulShift a b * codeMul a b : ℚ) / 10 ^ (9 * (fu a + fu b)) = (codeMul a b : ℚ) / 10 ^ (9 * mulFU a b) := by
  have hle := mulFU_le a b
  rw [pow9q, show 9 * (fu a + fu b) = 9 * mulShift a b + 9 * mulFU a b by unfold mulShift; omega, pow_add]
  have h1 : (10 : ℚ) ^ (9 * mulShift a b) ≠ 0 := by positivity
  field_simp

/-- **C28.** How much is lost: nothing if no unit is cut off, else less than `2 * n` units in the last kept place, where
`n` is the number of units cut off or the number of units of the shorter operand, whichever is less. -/
theorem C28_error (m : Mode) {a b res r : FixedDecimal} (ha : Tight a) (hb : Tight b) (hres : res.lsu.length = 9)
    (za : val a ≠ 0) (zb : val b ≠ 0) (h : FixedDecimal.mulTo m a b res = .ok r) :
    |val r| ≤ |val a * val b| ∧ (mulShift a b = 0 → val r = val a * val b) ∧
      (mulShift a b ≠ 0 → |val a * val b| - |val r| <
        2 * ((min (mulShift a b) (min (iu a + fu a) (iu b + fu b)) : Nat) : ℚ) / 10 ^ (9 * mulFU a b)) := by
  have hv := C28_value m ha hb hres za zb h
  have hc0 := codeMul_nonneg ha.toWF hb.toWF
  have hc0q : (0 : ℚ) ≤ codeMul a b := by exact_mod_cast hc0
  have habs : |val r| = (codeMul a b : ℚ) / 10 ^ (9 * mulFU a b) := by
    rw [hv, abs_div, abs_mul, abs_of_nonneg hc0q, abs_of_pos (show (0 : ℚ) < 10 ^ (9 * mulFU a b) by positivity)]
    split_ifs <;> simp
  have hab : |val a * val b| = ((mant a * mant b : Int) : ℚ) / 10 ^ (9 * (fu a + fu b)) := by
    rw [mant_mul_q, abs_mul, abs_val ha.toWF, abs_val hb.toWF]
  obtain ⟨k1, k2⟩ := codeMul_bounds ha.toWF hb.toWF
  have k1q : ((1000000000 ^ mulShift a b * codeMul a b : Int) : ℚ) ≤ ((mant a * mant b : Int) : ℚ) := by exact_mod_cast k1
  have k2q : ((mant a * mant b : Int) : ℚ) ≤ ((1000000000 ^ mulShift a b * codeMul a b +
        (min (mulShift a b) (min (iu a + fu a) (iu b + fu b)) : Nat) * (2 * 1000000000 ^ mulShift a b - 1) : Int) : ℚ) := by
    exact_mod_cast k2
  have hp : (0 : ℚ) < 10 ^ (9 * (fu a + fu b)) := by positivity
  have hle1 : |val r| ≤ |val a * val b| := by
    rw [habs, hab, ← codeMul_q]
    apply div_le_div_of_nonneg_right _ hp.le
    push_cast at k1q ⊢; exact k1q
  refine ⟨hle1, ?_, ?_⟩
  · intro hS
    have e : codeMul a b = mant a * mant b := by
      rw [hS] at k1 k2
      simp only [pow_zero, one_mul, Nat.zero_min, Nat.cast_zero, zero_mul, add_zero] at k1 k2
      omega
    rw [hv, val_mul, ← mant_mul_q, e, show mulFU a b = fu a + fu b by unfold mulShift at hS; have := mulFU_le a b; omega]
    cases neg a <;> cases neg b <;> simp <;> ring
  · intro hS
    rw [habs, hab, ← codeMul_q, ← sub_div, div_lt_div_iff₀ hp (by positivity)]
    have hle := mulFU_le a b
    have e9 : (10 : ℚ) ^ (9 * (fu a + fu b)) = 1000000000 ^ mulShift a b * 10 ^ (9 * mulFU a b) := by
      rw [pow9q, ← pow_add]; congr 1; unfold mulShift; omega
    have ne : ∀ {d : FixedDecimal}, val d ≠ 0 → iu d + fu d ≠ 0 := by
      intro d hd hc
      apply hd; rw [val_eq_zero]; unfold mant; rw [hc]; rfl
    have n1 := ne za
    have n2 := ne zb
    have hn : (0 : ℚ) < ((min (mulShift a b) (min (iu a + fu a) (iu b + fu b)) : Nat) : ℚ) := by
      have : 0 < min (mulShift a b) (min (iu a + fu a) (iu b + fu b)) := by omega
      exact_mod_cast this
    rw [e9, ← mul_assoc]
    apply mul_lt_mul_of_pos_right _ (by positivity)
    push_cast at k2q hn ⊢
    linarith

/-- **C28.** Cut-off products are not the truncated product: each row is cut on its own, and here five units in the last
place are lost (0.000000001999999998999999999999999999 * 0.000000001975554844546191096999999998). -/
theorem C28_witness_rows (m : Mode) :
    let a : FixedDecimal := ⟨1#8, 36, [999999999, 999999999, 999999998, 1, 0, 0, 0, 0, 0]⟩
    let b : FixedDecimal := ⟨1#8, 36, [999999998, 546191096, 975554844, 1, 0, 0, 0, 0, 0]⟩
    Tight a ∧ Tight b ∧ mulShift a b = 4 ∧ mulFU a b = 4 ∧
    codeMul a b = mant a * mant b / 1000000000 ^ 4 - 5 ∧
    FixedDecimal.mulTo m a b FixedDecimal.zero = .ok ⟨9#8, 36, [116827344, 951109687, 3, 0, 0, 0, 0, 0, 0]⟩ := by
  cases m <;> decide +kernel

/-- **C53, C27.** A product from which no digit is cut off, for operands whose integral digit counts may be wrong: it is
right exactly when it fits the integral units the digit counts add up to, and it is well-formed exactly then. -/
theorem C53_mul_iff (m : Mode) {a b res r : FixedDecimal} (ha : WF a) (hb : WF b) (hres : res.lsu.length = 9)
    (za : val a ≠ 0) (zb : val b ≠ 0) (da : (10 ^ (9 * fu a - fracDigits a) : Int) ∣ mant a)
    (db : (10 ^ (9 * fu b - fracDigits b) : Int) ∣ mant b) (hfull : MulFull a b)
    (h : FixedDecimal.mulTo m a b res = .ok r) :
    (val r = val a * val b ↔ |val a * val b| < 10 ^ (9 * unitsFor (intgDigits a + intgDigits b))) ∧
      (WF r ↔ |val a * val b| < 10 ^ (9 * unitsFor (intgDigits a + intgDigits b))) := by
  obtain ⟨k1, k2, k3, k4, k5⟩ := C28_code m ha hb hres za zb h
  obtain ⟨hf, h9, l, hr, c1, c2, c3⟩ := mulTo_inv m ha hb hres za zb h
  have hex : (1000000000 ^ mulShift a b * codeMul a b : Int) = mant a * mant b := by
    rw [← mulRes_eq ha]; exact mulRes_exact_of_scale ha hb da db hfull
  have hexq : |val a * val b| = (codeMul a b : ℚ) / 10 ^ (9 * mulFU a b) := by
    rw [abs_mul, abs_val ha, abs_val hb, ← mant_mul_q, ← hex]
    push_cast
    exact codeMul_q
  have hn := codeMul_nonneg ha hb
  have e1 : mulIU a b = unitsFor (intgDigits a + intgDigits b) := rfl
  have hiff : |val a * val b| < 10 ^ (9 * unitsFor (intgDigits a + intgDigits b)) ↔
      codeMul a b < 1000000000 ^ (mulIU a b + mulFU a b) := by
    rw [hexq, div_lt_iff₀ (by positivity), ← e1, ← pow_add, ← Nat.mul_add, ← pow9q]
    exact_mod_cast Iff.rfl
  refine ⟨?_, by rw [k1, hiff]⟩
  rw [hiff]
  have hval : ∀ x : ℚ, x = |val a * val b| → (if neg a = neg b then 1 else -1) * x = val a * val b := by
    intro x hx
    rw [hx, abs_mul, abs_val ha, abs_val hb, val_mul]
    cases neg a <;> cases neg b <;> simp
  constructor
  · intro hv
    -- the used units of the result hold the product modulo their capacity
    have hsh := mul_shape hf.1
    have hfr : fracDigits r = min (fracDigits a + fracDigits b) (9 * mulFU a b) := by
      unfold fracDigits at *; rw [k3, ha.frac_eq, hb.frac_eq]; unfold fracDigits; omega
    have hfu : fu r = mulFU a b := by unfold fu; rw [hfr]; exact unitsFor_min
    have hiu : iu r = mulIU a b := by unfold iu; rw [k4, unitsFor_mul9]
    have hrl : r.lsu = l := by rw [hr, signed_lsu]
    have hm : mant r = psum (dg l) (mulIU a b + mulFU a b) := by
      unfold mant; rw [hiu, hfu, hrl, unitsVal_eq_psum, List.length_take, c1, Nat.min_eq_left hsh.2]
      exact psum_congr (fun i hi => by rw [dg_take, if_pos hi])
    have hav : |val r| = (mant r : ℚ) / 10 ^ (9 * mulFU a b) := by
      have h0 : 0 ≤ mant r := by rw [hm]; exact psum_nonneg c2.dig _
      have h0q : (0 : ℚ) ≤ mant r := by exact_mod_cast h0
      have : absVal r = (mant r : ℚ) / 10 ^ (9 * mulFU a b) := by unfold absVal; rw [hfu]
      unfold val
      rw [this]
      split_ifs
      · rw [abs_neg, abs_of_nonneg (by positivity)]
      · rw [abs_of_nonneg (by positivity)]
    rw [← hv, hav, div_left_inj' (by positivity)] at hexq
    have : mant r = codeMul a b := by exact_mod_cast hexq
    rw [← this, hm]
    exact psum_lt c2.dig _
  · intro hlt
    rw [k2 (k1.mpr hlt), mul_div_assoc]
    exact hval _ hexq.symm

/-- **C53** for quotients: multiplying a quotient by a decimal, with no digit cut off, is right exactly when the product
fits the integral units its digit counts add up to. (A quotient's scale is always truthful.) -/
theorem C53_quotient_mul_iff (m : Mode) {a b c res res' q r : FixedDecimal} (ha : WF a) (hb : WF b)
    (hres : res.lsu.length = 9) (za : val a ≠ 0) (zb : val b ≠ 0) {incr : Nat} (hi : incr < 2 ^ 62)
    (hn : ¬ QuoUnitWide a b incr) (h : FixedDecimal.divTo m a b res incr = .ok q)
    (hc : Tight c) (zq : val q ≠ 0) (zc : val c ≠ 0) (hres' : res'.lsu.length = 9)
    (hf : MulFull q c) (h' : FixedDecimal.mulTo m q c res' = .ok r) :
    val r = val q * val c ↔ |val q * val c| < 10 ^ (9 * unitsFor (intgDigits q + intgDigits c)) := by
  have w := (C36_code m ha hb hres za zb hi h).2.mpr hn
  obtain ⟨hfr, -⟩ := C57_scale m ha hb hres za zb hi h
  have hfd : fracDigits q = 9 * quoFU a b incr := by unfold fracDigits; omega
  have hfu : fu q = quoFU a b incr := by unfold fu; rw [hfd, unitsFor_mul9]
  refine (C53_mul_iff m w hc.toWF hres' zq zc ?_ hc.frac_ok hf h').1
  rw [hfd, hfu]; simp

/-- The quotient 9000000000 / 10 times 1 is right, times 9 wrong. -/
example : let x : FixedDecimal := ⟨10#8, 0, [0, 9, 0, 0, 0, 0, 0, 0, 0]⟩
    let ten : FixedDecimal := ⟨2#8, 0, [10, 0, 0, 0, 0, 0, 0, 0, 0]⟩
    let q : FixedDecimal := ⟨8#8, 9, [0, 900000000, 0, 0, 0, 0, 0, 0, 0]⟩
    let nine : FixedDecimal := ⟨1#8, 0, [9, 0, 0, 0, 0, 0, 0, 0, 0]⟩
    ¬ QuoUnitWide x ten 4 ∧ FixedDecimal.divTo m x ten FixedDecimal.zero 4 = .ok q ∧ Tight nine ∧ MulFull q nine ∧
    MulFull q FixedDecimal.one ∧ MulFits m q nine ∧ mant q * mant FixedDecimal.one < 1000000000 ^ (1 + 1) ∧
    unitsFor (intgDigits q + intgDigits nine) = 1 ∧ ¬ mant q * mant nine < 1000000000 ^ (1 + 1) ∧
    FixedDecimal.mulTo m q nine FixedDecimal.zero = .ok ⟨9#8, 9, [0, 100000000, 8, 0, 0, 0, 0, 0, 0]⟩ ∧
    FixedDecimal.mulTo m q FixedDecimal.one FixedDecimal.zero = .ok ⟨9#8, 9, [0, 900000000, 0, 0, 0, 0, 0, 0, 0]⟩ := by
  cases m <;> decide +kernel

/-- **C31.** Multiplication commutes: if both orders succeed they return the same decimal, bit for bit, even when part of
the product is cut off and even for operands with under-reported digit counts. -/
theorem C31_mul_comm (m : Mode) {a b res res' r r' : FixedDecimal} (ha : WF a) (hb : WF b)
    (hres : res.lsu.length = 9) (hres' : res'.lsu.length = 9)
    (h : FixedDecimal.mulTo m a b res = .ok r) (h' : FixedDecimal.mulTo m b a res' = .ok r') : r = r' := by
  by_cases hz : val a = 0 ∨ val b = 0
  · rw [mulTo_zero m ha hb hres hz] at h
    rw [mulTo_zero m hb ha hres' hz.symm] at h'
    injection h with h; injection h' with h'; rw [← h, ← h']
  · push Not at hz
    obtain ⟨-, -, l, rfl, c1, c2, c3⟩ := mulTo_inv m ha hb hres hz.1 hz.2 h
    obtain ⟨-, -, l', rfl, d1, d2, d3⟩ := mulTo_inv m hb ha hres' hz.2 hz.1 h'
    have : l = l' := list9_ext c1 d1 c2 d2 (by rw [c3, d3, codeMul_comm ha hb])
    have hs : (neg b != neg a) = (neg a != neg b) := by cases neg a <;> cases neg b <;> rfl
    rw [this, mulIU_comm b a, mulFU_comm b a, Nat.add_comm (fracDigits b), hs]

/-- **C31.** Whether a product is computed can depend on the order, though: in debug builds `1.5 * .5` succeeds and `.5 *
1.5` panics. -/
theorem C31_order_matters :
    let a : FixedDecimal := ⟨0#8, 1, [500000000, 0, 0, 0, 0, 0, 0, 0, 0]⟩
    let b : FixedDecimal := ⟨1#8, 1, [500000000, 1, 0, 0, 0, 0, 0, 0, 0]⟩
    FixedDecimal.mulTo .debug a b FixedDecimal.zero = .panic .assert ∧
    FixedDecimal.mulTo .debug b a FixedDecimal.zero = .ok ⟨9#8, 2, [750000000, 0, 0, 0, 0, 0, 0, 0, 0]⟩ := by
  decide +kernel

/-- **C56.** The exact set of operand pairs a multiplication accepts, for all well-formed operands. -/
theorem C56_wf_ok_iff (m : Mode) {a b res : FixedDecimal} (ha : WF a) (hb : WF b) (hres : res.lsu.length = 9) :
    (∃ r, FixedDecimal.mulTo m a b res = .ok r) ↔
      val a = 0 ∨ val b = 0 ∨ MulFits m a b ∧ codeMul a b < 1000000000 ^ 9 := by
  constructor
  · rintro ⟨r, h⟩
    by_cases hz : val a = 0 ∨ val b = 0
    · rcases hz with h | h
      · exact Or.inl h
      · exact Or.inr (Or.inl h)
    · push Not at hz
      obtain ⟨h1, h2, -⟩ := mulTo_inv m ha hb hres hz.1 hz.2 h
      exact Or.inr (Or.inr ⟨h1, h2⟩)
  · intro h
    by_cases hz : val a = 0 ∨ val b = 0
    · exact ⟨_, mulTo_zero m ha hb hres hz⟩
    · push Not at hz
      rcases h with h | h | h
      · exact absurd h hz.1
      · exact absurd h hz.2
      · obtain ⟨l, e, -⟩ := mulTo_whole m ha hb hres hz.1 hz.2 h.1 h.2
        exact ⟨_, e⟩

/-- **C29.** The errors of a multiplication, for all well-formed operands: always `Overflow`, either for 82 to 119
integral digits, or because the product itself needs a tenth unit. -/
theorem C29_wf_err_iff (m : Mode) {a b res : FixedDecimal} (ha : WF a) (hb : WF b) (hres : res.lsu.length = 9) {e : Error} :
    (∃ st, FixedDecimal.mulTo m a b res = .err e st) ↔
      (val a ≠ 0 ∧ val b ≠ 0 ∧ e = .overflow ∧
        (82 ≤ intgDigits a + intgDigits b ∧ intgDigits a + intgDigits b ≤ 119 ∨
          MulFits m a b ∧ 1000000000 ^ 9 ≤ codeMul a b)) := by
  constructor
  · rintro ⟨st, h⟩
    by_cases hz : val a = 0 ∨ val b = 0
    · rw [mulTo_zero m ha hb hres hz] at h; cases h
    · push Not at hz
      refine ⟨hz.1, hz.2, ?_⟩
      by_cases hf : MulFits m a b
      · by_cases h9 : codeMul a b < 1000000000 ^ 9
        · obtain ⟨l, e', -⟩ := mulTo_whole m ha hb hres hz.1 hz.2 hf h9
          rw [e'] at h; cases h
        · obtain ⟨st', e', -⟩ := mulTo_carry m ha hb hres hz.1 hz.2 hf (by omega)
          rw [e'] at h; injection h with h1 h2
          exact ⟨h1.symm, Or.inr ⟨hf, by omega⟩⟩
      · rcases mulTo_fail m ha hb hres hz.1 hz.2 hf with ⟨p, hp⟩ | ⟨h1, h2, _, hp⟩
        · rw [hp] at h; cases h
        · rw [hp] at h; injection h with h3 h4
          exact ⟨h3.symm, Or.inl ⟨h1, by omega⟩⟩
  · rintro ⟨za, zb, rfl, h | ⟨hf, h9⟩⟩
    · exact ⟨_, C29_overflow m ha hb hres za zb h.1 h.2⟩
    · obtain ⟨st', e', -⟩ := mulTo_carry m ha hb hres za zb hf h9
      exact ⟨_, e'⟩

/-! ## C61: order -/

theorem codeMul_mono {a a' b : FixedDecimal} (hb : WF b) (hi : intgDigits a = intgDigits a') (hf : fracDigits a = fracDigits a')
    (h : mant a ≤ mant a') : codeMul a b ≤ codeMul a' b := by
  unfold codeMul
  have hS : mulShift a b = mulShift a' b := by
    unfold mulShift mulFU mulIU fu; rw [hi, hf]
  rw [hS]
  exact mulRows_mono h _ _ (hb.digL.take _)

/-- **C61.** Multiplication respects the order, even when part of the products is cut off: for factors with the same
digit counts, `a <= a'` and `b >= 0` give `a * b <= a' * b`. -/
theorem C61_mul_mono (m : Mode) {a a' b res res' r r' : FixedDecimal} (ha : Tight a) (ha' : Tight a') (hb : Tight b)
    (hres : res.lsu.length = 9) (hres' : res'.lsu.length = 9) (hi : intgDigits a = intgDigits a')
    (hf : fracDigits a = fracDigits a') (hle : val a ≤ val a') (hpos : 0 ≤ val b)
    (h : FixedDecimal.mulTo m a b res = .ok r) (h' : FixedDecimal.mulTo m a' b res' = .ok r') : val r ≤ val r' := by
  by_cases zb : val b = 0
  · rw [mulTo_zero m ha.toWF hb.toWF hres (Or.inr zb)] at h
    rw [mulTo_zero m ha'.toWF hb.toWF hres' (Or.inr zb)] at h'
    injection h with h; injection h' with h'; rw [← h, ← h']
  have nb : neg b = false := by
    by_contra hc
    rw [Bool.not_eq_false] at hc
    have h1 : val b = - absVal b := by unfold val; rw [hc]; rfl
    have h2 := absVal_nonneg hb.toWF
    exact zb (by linarith)
  -- the value of each product, by the sign of the first factor
  have key : ∀ {x s t : FixedDecimal}, Tight x → s.lsu.length = 9 → FixedDecimal.mulTo m x b s = .ok t →
      val t = (if neg x then -1 else 1) * codeMul x b / 10 ^ (9 * mulFU x b) := by
    intro x s t hx hs ht
    by_cases zx : val x = 0
    · rw [mulTo_zero m hx.toWF hb.toWF hs (Or.inl zx)] at ht
      injection ht with ht; subst ht
      have hm : mant x = 0 := val_eq_zero.mp zx
      have hc : codeMul x b = 0 := by
        obtain ⟨k1, -⟩ := codeMul_bounds hx.toWF hb.toWF
        have k0 := codeMul_nonneg hx.toWF hb.toWF
        rw [hm, zero_mul] at k1
        have hS : (0 : Int) < 1000000000 ^ mulShift x b := by positivity
        nlinarith
      rw [val_zero, hc]; simp
    · rw [C28_value m hx hb hs zx zb ht, nb]
      cases neg x <;> simp
  have hS : mulFU a b = mulFU a' b := by unfold mulFU mulIU; rw [hi, hf]
  rw [key ha hres h, key ha' hres' h', ← hS]
  have hfu : fu a = fu a' := by unfold fu; rw [hf]
  have hp : (0 : ℚ) < 10 ^ (9 * mulFU a b) := by positivity
  have c0 : (0 : ℚ) ≤ codeMul a b := by exact_mod_cast codeMul_nonneg ha.toWF hb.toWF
  have c1 : (0 : ℚ) ≤ codeMul a' b := by exact_mod_cast codeMul_nonneg ha'.toWF hb.toWF
  apply div_le_div_of_nonneg_right _ hp.le
  have pa := absVal_nonneg ha.toWF
  have pa' := absVal_nonneg ha'.toWF
  have q : (0 : ℚ) < 10 ^ (9 * fu a) := by positivity
  -- magnitudes as mantissas
  have cmp : ∀ {x y : FixedDecimal}, fu x = fu a → fu y = fu a → absVal x ≤ absVal y → mant x ≤ mant y := by
    intro x y hx hy hxy
    unfold absVal at hxy
    rw [hx, hy, div_le_div_iff_of_pos_right q] at hxy
    exact_mod_cast hxy
  cases na : neg a <;> cases na' : neg a'
  · have h1 : absVal a ≤ absVal a' := by
      have e1 : val a = absVal a := by unfold val; rw [na]; rfl
      have e2 : val a' = absVal a' := by unfold val; rw [na']; rfl
      linarith
    have := codeMul_mono (b := b) hb.toWF hi hf (cmp rfl hfu.symm h1)
    have : (codeMul a b : ℚ) ≤ codeMul a' b := by exact_mod_cast this
    simpa using this
  · -- a ≥ 0 ≥ a': both zero
    have e1 : val a = absVal a := by unfold val; rw [na]; rfl
    have e2 : val a' = - absVal a' := by unfold val; rw [na']; rfl
    have z : absVal a ≤ absVal a' := by linarith
    have z0 : absVal a = 0 := by linarith
    have z1 : absVal a' = 0 := by linarith
    have zero : ∀ {x : FixedDecimal}, Tight x → absVal x = 0 → codeMul x b = 0 := by
      intro x hx hx0
      have hm : mant x = 0 := by rw [← val_eq_zero, ← abs_eq_zero, abs_val hx.toWF, hx0]
      obtain ⟨k1, -⟩ := codeMul_bounds hx.toWF hb.toWF
      have k0 := codeMul_nonneg hx.toWF hb.toWF
      rw [hm, zero_mul] at k1
      have hS : (0 : Int) < 1000000000 ^ mulShift x b := by positivity
      nlinarith
    rw [zero ha z0, zero ha' z1]; simp
  · simp only [if_true, Bool.false_eq_true, if_false]; linarith
  · have h1 : absVal a' ≤ absVal a := by
      have e1 : val a = - absVal a := by unfold val; rw [na]; rfl
      have e2 : val a' = - absVal a' := by unfold val; rw [na']; rfl
      linarith
    have := codeMul_mono (b := b) hb.toWF hi.symm hf.symm (cmp hfu.symm rfl h1)
    have : (codeMul a' b : ℚ) ≤ codeMul a b := by exact_mod_cast this
    simp only [if_true]; linarith

/-- Two cut-off products in the right order, and a product whose digit counts do not cover it. -/
example : let a : FixedDecimal := ⟨1#8, 20, [980000000, 999999999, 999999999, 0, 0, 0, 0, 0, 0]⟩
    let a' : FixedDecimal := ⟨1#8, 20, [990000000, 999999999, 999999999, 0, 0, 0, 0, 0, 0]⟩
    let q : FixedDecimal := ⟨8#8, 9, [0, 900000000, 0, 0, 0, 0, 0, 0, 0]⟩
    let nine : FixedDecimal := ⟨1#8, 0, [9, 0, 0, 0, 0, 0, 0, 0, 0]⟩
    Tight a ∧ Tight a' ∧ intgDigits a = intgDigits a' ∧ fracDigits a = fracDigits a' ∧ mulShift a a' = 2 ∧
    MulFits m a a' ∧ MulFits m a' a' ∧ codeMul a a' < codeMul a' a' ∧
    WF q ∧ MulFits m q nine ∧ codeMul q nine < 1000000000 ^ 9 ∧ ¬ codeMul q nine < 1000000000 ^ (mulIU q nine + mulFU q nine) := by
  cases m <;> decide +kernel

/-- **C61.** Addition respects the order. -/
theorem C61_add_mono {m : Mode} {a a' b res res' r r' : FixedDecimal} (ha : WF a) (ha' : WF a') (hb : WF b)
    (hres : res.lsu.length = 9) (hres' : res'.lsu.length = 9) (h : FixedDecimal.addTo m a b res = .ok r)
    (h' : FixedDecimal.addTo m a' b res' = .ok r') : val r ≤ val r' ↔ val a ≤ val a' := by
  rw [(C20_add_exact ha hb hres h).1, (C20_add_exact ha' hb hres' h').1]
  constructor <;> intro h <;> linarith

end Props
end Fxd
