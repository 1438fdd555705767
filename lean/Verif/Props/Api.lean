import Verif.Model.Ops
import Verif.Props.Rem
import Verif.Props.Mul
import Verif.Props.Round
import Verif.Props.Convert
import Verif.Props.Parse
import Verif.Props.Format
/-!
# Properties C49, C51-C54: the API as a whole
-/

namespace Fxd
open Spec

variable {m : Mode}

theorem blank_len : FixedDecimal.blank.lsu.length = 9 := rfl

theorem addAbs_res {a b res : FixedDecimal} (h : res.lsu.length = 9) : addAbs m a b res = addAbs m a b FixedDecimal.zero := by
  unfold addAbs; rw [setZero_eq h, setZero_eq (d := FixedDecimal.zero) rfl]
theorem subAbs_res {a b res : FixedDecimal} (h : res.lsu.length = 9) : subAbs m a b res = subAbs m a b FixedDecimal.zero := by
  unfold subAbs; rw [setZero_eq h, setZero_eq (d := FixedDecimal.zero) rfl]
theorem mulAbs_res {a b res : FixedDecimal} (h : res.lsu.length = 9) : mulAbs m a b res = mulAbs m a b FixedDecimal.zero := by
  unfold mulAbs; rw [setZero_eq h, setZero_eq (d := FixedDecimal.zero) rfl]
theorem divAbs_res {a b res : FixedDecimal} {i : Int} (h : res.lsu.length = 9) :
    divAbs m a b res i = divAbs m a b FixedDecimal.zero i := by
  unfold divAbs; rw [setZero_eq h, setZero_eq (d := FixedDecimal.zero) rfl]
theorem remAbs_res {a b res : FixedDecimal} (h : res.lsu.length = 9) : remAbs m a b res = remAbs m a b FixedDecimal.zero := by
  unfold remAbs; rw [setZero_eq h, setZero_eq (d := FixedDecimal.zero) rfl]

theorem neg_setNegAndCheckZero_units {d : FixedDecimal} : ¬ (d.setNegAndCheckZero.isNeg = true ∧ d.setNegAndCheckZero.isZero = true) := by
  rintro ⟨h1, h2⟩
  unfold FixedDecimal.setNegAndCheckZero at h1 h2
  dsimp only at h1 h2
  split_ifs at h1 h2 with h
  · rw [isNeg_eq, neg_setPos] at h1; cases h1
  · exact h h2

namespace Props

/-! ## C51 -/

/-- **C51.** The old contents of the output parameter make no difference to any outcome: value, error (with the state
left behind) or panic. Operands arbitrary, well-formed or not. -/
theorem C51_add (m : Mode) (a b : FixedDecimal) {x y : FixedDecimal} (hx : x.lsu.length = 9) (hy : y.lsu.length = 9) :
    FixedDecimal.addTo m a b x = FixedDecimal.addTo m a b y := by
  unfold FixedDecimal.addTo; rw [addAbs_res hx, addAbs_res hy, subAbs_res hx, subAbs_res hy]
/-- **C51** for `sub_to`. -/
theorem C51_sub (m : Mode) (a b : FixedDecimal) {x y : FixedDecimal} (hx : x.lsu.length = 9) (hy : y.lsu.length = 9) :
    FixedDecimal.subTo m a b x = FixedDecimal.subTo m a b y := by
  unfold FixedDecimal.subTo; rw [addAbs_res hx, addAbs_res hy, subAbs_res hx, subAbs_res hy]
/-- **C51** for `mul_to`. -/
theorem C51_mul (m : Mode) (a b : FixedDecimal) {x y : FixedDecimal} (hx : x.lsu.length = 9) (hy : y.lsu.length = 9) :
    FixedDecimal.mulTo m a b x = FixedDecimal.mulTo m a b y := by
  unfold FixedDecimal.mulTo; rw [mulAbs_res hx, mulAbs_res hy, setZero_eq hx, setZero_eq hy]
/-- **C51** for `div_to`. -/
theorem C51_div (m : Mode) (a b : FixedDecimal) (incr : Int) {x y : FixedDecimal} (hx : x.lsu.length = 9)
    (hy : y.lsu.length = 9) : FixedDecimal.divTo m a b x incr = FixedDecimal.divTo m a b y incr := by
  unfold FixedDecimal.divTo; rw [divAbs_res hx, divAbs_res hy]
/-- **C51** for `rem_to`. -/
theorem C51_rem (m : Mode) (a b : FixedDecimal) {x y : FixedDecimal} (hx : x.lsu.length = 9) (hy : y.lsu.length = 9) :
    FixedDecimal.remTo m a b x = FixedDecimal.remTo m a b y := by
  unfold FixedDecimal.remTo; rw [remAbs_res hx, remAbs_res hy]
/-- **C51** for `round_to`. -/
theorem C51_round {σ : Type} (m : Mode) (d : FixedDecimal) (k : Int) {x y : FixedDecimal} (hx : x.lsu.length = 9)
    (hy : y.lsu.length = 9) : (d.roundTo m x k : Out σ _) = d.roundTo m y k := by
  unfold FixedDecimal.roundTo; rw [setZero_eq hx, setZero_eq hy]

/-- A dirty output parameter: -7.50 in `res` while computing 123456789012.345 - 1. -/
example : FixedDecimal.subTo m Samples.a FixedDecimal.one Samples.c = .ok ⟨18#8, 3, [345000000, 456789011, 123, 0, 0, 0, 0, 0, 0]⟩ ∧
    FixedDecimal.subTo m Samples.a FixedDecimal.one Samples.a = .ok ⟨18#8, 3, [345000000, 456789011, 123, 0, 0, 0, 0, 0, 0]⟩ := by
  cases m <;> decide +kernel

/-! ## C52 -/

/-- What "the operator `x` behaves like the function `f`" means: it returns exactly the values `f` writes, and panics
exactly when `f` returns an error or panics; it has no other outcome. -/
def OperatorOf (x : Out Empty FixedDecimal) (f : Out FixedDecimal FixedDecimal) : Prop :=
  (∀ r, x = .ok r ↔ f = .ok r) ∧
  ((∃ p, x = .panic p) ↔ (∃ e s, f = .err e s) ∨ ∃ p, f = .panic p) ∧
  (∀ e, x = .panic (.operator e) → (∃ s, f = .err e s) ∨ f = .panic (.operator e))

theorem operatorOf_orPanic (f : Out FixedDecimal FixedDecimal) : OperatorOf (FixedDecimal.orPanic f) f := by
  cases f <;> simp [OperatorOf, FixedDecimal.orPanic]

/-- **C52.** Each operator behaves like its `_to` function, whatever output parameter that one is given. -/
theorem C52_operators (m : Mode) (a b : FixedDecimal) {res : FixedDecimal} (hres : res.lsu.length = 9) :
    OperatorOf (FixedDecimal.add m a b) (FixedDecimal.addTo m a b res) ∧
    OperatorOf (FixedDecimal.sub m a b) (FixedDecimal.subTo m a b res) ∧
    OperatorOf (FixedDecimal.mul m a b) (FixedDecimal.mulTo m a b res) ∧
    OperatorOf (FixedDecimal.div m a b) (FixedDecimal.divTo m a b res 4) ∧
    OperatorOf (FixedDecimal.rem m a b) (FixedDecimal.remTo m a b res) := by
  refine ⟨?_, ?_, ?_, ?_, ?_⟩
  · rw [C51_add m a b hres blank_len]; exact operatorOf_orPanic _
  · rw [C51_sub m a b hres blank_len]; exact operatorOf_orPanic _
  · rw [C51_mul m a b hres blank_len]; exact operatorOf_orPanic _
  · rw [C51_div m a b 4 hres blank_len]; exact operatorOf_orPanic _
  · rw [C51_rem m a b hres blank_len]; exact operatorOf_orPanic _

/-- So `a / 0` panics in every build, where `div_to` returns an error. -/
theorem C52_div_zero (m : Mode) {a b : FixedDecimal} (ha : WF a) (hb : WF b) (hz : val b = 0) :
    FixedDecimal.div m a b = .panic (.operator .divisionByZero) ∧
    FixedDecimal.rem m a b = .panic (.operator .divisionByZero) := by
  unfold FixedDecimal.div FixedDecimal.rem FixedDecimal.DIV_INCR_FRAC
  rw [C33_div_zero m ha hb blank_len hz, C33_rem_zero m ha hb blank_len hz]
  exact ⟨rfl, rfl⟩

example : FixedDecimal.add m Samples.a Samples.c = .ok ⟨18#8, 3, [845000000, 456789004, 123, 0, 0, 0, 0, 0, 0]⟩ ∧
    FixedDecimal.div m Samples.a Samples.nz = .panic (.operator .divisionByZero) ∧
    FixedDecimal.rem m Samples.a Samples.c = .ok ⟨1#8, 3, [845000000, 4, 0, 0, 0, 0, 0, 0, 0]⟩ ∧
    WF Samples.nz := by
  cases m <;> decide +kernel

/-! ## C49 -/

/-- A zero with a minus sign, as `is_neg` and `is_zero` report it. -/
def ReportsNegZero (d : FixedDecimal) : Prop := d.isNeg = true ∧ d.isZero = true

theorem reports_iff {d : FixedDecimal} (h : WF d) : ReportsNegZero d ↔ NegZero d := by
  unfold ReportsNegZero NegZero
  rw [isNeg_eq, isZero_val h, val_eq_zero]

/-- **C49.** Sums and differences of operands that are not negative zeros are not negative zeros. -/
theorem C49_add_sub (m : Mode) {a b res r : FixedDecimal} (ha : WF a) (hb : WF b) (hres : res.lsu.length = 9)
    (na : ¬ ReportsNegZero a) (nb : ¬ ReportsNegZero b)
    (h : FixedDecimal.addTo m a b res = .ok r ∨ FixedDecimal.subTo m a b res = .ok r) : ¬ ReportsNegZero r := by
  rw [reports_iff ha] at na
  rw [reports_iff hb] at nb
  rcases h with h | h
  · have := addTo_res ha hb hres h
    rw [reports_iff this.wf]; exact this.noNegZero na nb
  · have := subTo_res ha hb hres h
    rw [reports_iff this.wf]; exact this.noNegZero na nb

theorem getUnits_nonneg {σ : Type} {d u : Int} (h : (getUnits m d : Out σ Int) = .ok u) : 0 ≤ u := by
  unfold getUnits at h
  rw [bind_eq_ok] at h
  obtain ⟨x, -, h⟩ := h
  unfold div9 idx at h
  split_ifs at h
  have ht : ∀ v ∈ DIV9_TABLE, (0 : Int) ≤ v := by decide +kernel
  split at h
  · rename_i v hv
    injection h with h
    subst h
    exact ht _ (List.mem_of_getElem? hv)
  · cases h

theorem mulAbs_neg {a b res r : FixedDecimal} (ha : WF a) (hb : WF b) (hres : res.lsu.length = 9)
    (h : mulAbs m a b res = .ok r) : neg r = false := by
  unfold mulAbs at h
  simp only [bind_eq_ok] at h
  obtain ⟨d, h1, u, h2, f, h3, g, h4, h⟩ := h
  by_cases hu : u > MAX_UNITS
  · rw [if_pos hu] at h; cases h
  rw [if_neg hu] at h
  simp only [bind_eq_ok] at h
  obtain ⟨_, -, _, -, _, -, _, -, _, -, _, -, _, -, _, -, h⟩ := h
  injection h with h
  subst h
  have hu0 : 0 ≤ u := getUnits_nonneg h2
  have : u = 0 ∨ u = 1 ∨ u = 2 ∨ u = 3 ∨ u = 4 ∨ u = 5 ∨ u = 6 ∨ u = 7 ∨ u = 8 ∨ u = 9 := by
    unfold MAX_UNITS at hu; omega
  unfold neg
  dsimp only
  rcases this with h | h | h | h | h | h | h | h | h | h <;> subst h <;> decide

/-- **C49.** Products, quotients and remainders are never negative zeros, whatever the operands. -/
theorem C49_mul_div_rem (m : Mode) {a b res r : FixedDecimal} (ha : WF a) (hb : WF b) (hres : res.lsu.length = 9)
    {incr : Nat} (hi : incr < 2 ^ 62)
    (h : FixedDecimal.mulTo m a b res = .ok r ∨ FixedDecimal.divTo m a b res incr = .ok r ∨
      FixedDecimal.remTo m a b res = .ok r) : ¬ ReportsNegZero r := by
  rcases h with h | h | h
  · unfold FixedDecimal.mulTo at h
    split_ifs at h with hz
    · injection h with h; subst h
      rw [setZero_eq hres]; intro ⟨h, _⟩; revert h; decide
    · rw [bind_eq_ok] at h
      obtain ⟨q, hq, h⟩ := h
      have hn := mulAbs_neg ha hb hres hq
      injection h with h
      split_ifs at h with hs <;> subst h
      · exact neg_setNegAndCheckZero_units
      · rintro ⟨h, -⟩; rw [isNeg_eq, hn] at h; cases h
  · rintro ⟨h1, h2⟩
    rw [isNeg_eq] at h1
    obtain ⟨-, u, hu, hne⟩ := (C30_div_sign m ha hb hres hi h).mp h1
    unfold FixedDecimal.isZero at h2
    rw [List.all_eq_true] at h2
    exact hne (by simpa using h2 u hu)
  · obtain ⟨w, -, hn, -⟩ := C37_bounded m ha hb hres h
    rintro ⟨h1, h2⟩
    rw [isNeg_eq] at h1
    exact (hn.mp h1).2 ((isZero_val w).mp h2)

/-- The hypothesis is needed: -0 + -0 is -0. With it: -7.50 - -7.50 = 0, 0.1 * -0.1 with nothing left after the cut. -/
example : ReportsNegZero Samples.nz ∧ FixedDecimal.addTo m Samples.nz Samples.nz FixedDecimal.zero = .ok Samples.nz ∧
    ¬ ReportsNegZero Samples.c ∧
    FixedDecimal.subTo m Samples.c Samples.c FixedDecimal.zero = .ok ⟨0#8, 2, [0, 0, 0, 0, 0, 0, 0, 0, 0]⟩ ∧
    (let t : FixedDecimal := ⟨1#8, 30, [1000000, 0, 0, 0, 0, 0, 0, 0, 0]⟩
     FixedDecimal.mulTo m t t.setNeg FixedDecimal.zero = .ok ⟨9#8, 36, [0, 0, 0, 0, 0, 0, 0, 0, 0]⟩) := by
  unfold ReportsNegZero
  cases m <;> decide +kernel

/-! ## C53 -/

/-- **C53 is false of the code**: 9000000000 / 10 is 900000000 but says it has eight integral digits; times 9 that is
8100000000, which needs ten digits, and the product has room for nine only: it says 100000000. -/
theorem C53_witness (m : Mode) :
    let x : FixedDecimal := ⟨10#8, 0, [0, 9, 0, 0, 0, 0, 0, 0, 0]⟩
    let q : FixedDecimal := ⟨8#8, 9, [0, 900000000, 0, 0, 0, 0, 0, 0, 0]⟩
    let r : FixedDecimal := ⟨9#8, 9, [0, 100000000, 8, 0, 0, 0, 0, 0, 0]⟩
    FixedDecimal.fromStr m (Samples.bytes "9000000000") = .ok x ∧
    FixedDecimal.divTo m x ⟨2#8, 0, [10, 0, 0, 0, 0, 0, 0, 0, 0]⟩ FixedDecimal.zero 4 = .ok q ∧
    WF q ∧ ¬ Tight q ∧ intgDigits q = 8 ∧ mant q = 900000000 * 10 ^ 9 ∧ ¬ WF r ∧
    FixedDecimal.mulTo m q ⟨1#8, 0, [9, 0, 0, 0, 0, 0, 0, 0, 0]⟩ FixedDecimal.zero = .ok r ∧
    (FixedDecimal.toStr m r (-1) : Out Unit _) = .ok (Samples.bytes "100000000.000000000") := by
  cases m <;> decide +kernel

/-- A quotient none of whose units overflowed has truthful digit counts exactly when its value has no more digits than it
says. -/
theorem quotient_tight_iff (m : Mode) {a b res q : FixedDecimal} (ha : WF a) (hb : WF b) (hres : res.lsu.length = 9)
    (za : val a ≠ 0) (zb : val b ≠ 0) {incr : Nat} (hi : incr < 2 ^ 62) (hn : ¬ QuoUnitWide a b incr)
    (h : FixedDecimal.divTo m a b res incr = .ok q) : Tight q ↔ |val q| < 10 ^ intgDigits q := by
  have w := (C36_code m ha hb hres za zb hi h).2.mpr hn
  obtain ⟨hf, -⟩ := C57_scale m ha hb hres za zb hi h
  have hfd : fracDigits q = 9 * quoFU a b incr := by unfold fracDigits; omega
  have hfu : fu q = quoFU a b incr := by unfold fu; rw [hfd, unitsFor_mul9]
  have key : mant q < 10 ^ (intgDigits q + 9 * fu q) ↔ |val q| < 10 ^ intgDigits q := by
    rw [abs_val w]; unfold absVal
    rw [div_lt_iff₀ (by positivity), ← pow_add]
    exact_mod_cast Iff.rfl
  constructor
  · intro t; exact key.mp t.intg_ok
  · intro hl
    refine ⟨w, key.mpr hl, ?_⟩
    rw [hfd, hfu]; simp

/-- **C53** where it holds (partial: quotients whose units did not overflow and whose digit count covers their
value): such a quotient multiplies exactly when nothing is cut off. -/
theorem C53_quotient_mul_partial (m : Mode) {a b c res res' q r : FixedDecimal} (ha : WF a) (hb : WF b)
    (hres : res.lsu.length = 9) (za : val a ≠ 0) (zb : val b ≠ 0) {incr : Nat} (hi : incr < 2 ^ 62)
    (hn : ¬ QuoUnitWide a b incr) (h : FixedDecimal.divTo m a b res incr = .ok q)
    (hq : |val q| < 10 ^ intgDigits q) (hc : Tight c) (hres' : res'.lsu.length = 9)
    (hf : MulFull q c) (h' : FixedDecimal.mulTo m q c res' = .ok r) : val r = val q * val c :=
  (C27_mul_exact m ((quotient_tight_iff m ha hb hres za zb hi hn h).mpr hq) hc hres' hf h').1

/-- **C53**, a way out: rounding the quotient first (to fewer digits than it has) repairs the digit counts, so the rounded
quotient multiplies exactly when nothing is cut off. -/
theorem C53_round_first {σ : Type} (m : Mode) {a b c res res' res'' q t r : FixedDecimal} (ha : WF a) (hb : WF b)
    (hres : res.lsu.length = 9) (za : val a ≠ 0) (zb : val b ≠ 0) {incr : Nat} (hi : incr < 2 ^ 62)
    (hn : ¬ QuoUnitWide a b incr) (h : FixedDecimal.divTo m a b res incr = .ok q)
    (hres' : res'.lsu.length = 9) {k : Nat} (hk : k < fracDigits q) (h' : (q.roundTo m res' k : Out σ _) = .ok t)
    (hc : Tight c) (hres'' : res''.lsu.length = 9) (hf : MulFull t c) (h'' : FixedDecimal.mulTo m t c res'' = .ok r) :
    val r = (halfAway (val q * 10 ^ k) : ℚ) / 10 ^ k * val c := by
  have w := (C36_code m ha hb hres za zb hi h).2.mpr hn
  obtain ⟨hv, -, -, ht⟩ := C39_round_to m w hres' hk h'
  rw [← hv]
  exact (C27_mul_exact m ht hc hres'' hf h'').1

/-- 7 / 2 = 3.5 has truthful counts; and rounding 9000000000 / 10 to 8 digits before multiplying by 9 gives 8100000000. -/
example : let seven : FixedDecimal := ⟨1#8, 0, [7, 0, 0, 0, 0, 0, 0, 0, 0]⟩
    let two : FixedDecimal := ⟨1#8, 0, [2, 0, 0, 0, 0, 0, 0, 0, 0]⟩
    let q : FixedDecimal := ⟨1#8, 9, [500000000, 3, 0, 0, 0, 0, 0, 0, 0]⟩
    FixedDecimal.divTo m seven two FixedDecimal.zero 4 = .ok q ∧ ¬ QuoUnitWide seven two 4 ∧ Tight q ∧
    MulFull q Samples.c ∧ (∃ r, FixedDecimal.mulTo m q Samples.c FixedDecimal.zero = .ok r) ∧
    (let q2 : FixedDecimal := ⟨8#8, 9, [0, 900000000, 0, 0, 0, 0, 0, 0, 0]⟩
     let t : FixedDecimal := ⟨9#8, 8, [0, 900000000, 0, 0, 0, 0, 0, 0, 0]⟩
     (q2.roundTo m FixedDecimal.zero 8 : Out Unit _) = .ok t ∧
     FixedDecimal.mulTo m t ⟨1#8, 0, [9, 0, 0, 0, 0, 0, 0, 0, 0]⟩ FixedDecimal.zero =
       .ok ⟨18#8, 8, [0, 100000000, 8, 0, 0, 0, 0, 0, 0]⟩) := by
  refine ⟨?_, ?_, ?_, ?_,
    ⟨⟨0x89#8, 11, [0, 250000000, 26, 0, 0, 0, 0, 0, 0]⟩, ?_⟩, ?_⟩ <;> cases m <;> decide +kernel

/-! ## C54 -/

/-- **C54.** The constants. -/
theorem C54_constants : val FixedDecimal.zero = 0 ∧ val FixedDecimal.one = 1 ∧ Tight FixedDecimal.zero ∧
    Tight FixedDecimal.one ∧ neg FixedDecimal.zero = false ∧ neg FixedDecimal.one = false ∧
    val FixedDecimal.MAX_I64 = 2 ^ 63 - 1 ∧ val FixedDecimal.MIN_I64 = -2 ^ 63 ∧ val FixedDecimal.MAX_U64 = 2 ^ 64 - 1 ∧
    Tight FixedDecimal.MAX_I64 ∧ Tight FixedDecimal.MIN_I64 ∧ Tight FixedDecimal.MAX_U64 := by
  have h1 : mant FixedDecimal.one = 1 := by decide
  have h2 : mant FixedDecimal.zero = 0 := by decide
  have h3 : mant FixedDecimal.MAX_I64 = 9223372036854775807 := by decide
  have h4 : mant FixedDecimal.MIN_I64 = 9223372036854775808 := by decide
  have h5 : mant FixedDecimal.MAX_U64 = 18446744073709551615 := by decide
  have n1 : neg FixedDecimal.one = false := by decide
  have n2 : neg FixedDecimal.zero = false := by decide
  have n3 : neg FixedDecimal.MAX_I64 = false := by decide
  have n4 : neg FixedDecimal.MIN_I64 = true := by decide
  have n5 : neg FixedDecimal.MAX_U64 = false := by decide
  have f1 : fu FixedDecimal.one = 0 := by decide
  have f2 : fu FixedDecimal.zero = 0 := by decide
  have f3 : fu FixedDecimal.MAX_I64 = 0 := by decide
  have f4 : fu FixedDecimal.MIN_I64 = 0 := by decide
  have f5 : fu FixedDecimal.MAX_U64 = 0 := by decide
  refine ⟨?_, ?_, by decide, by decide, n2, n1, ?_, ?_, ?_, by decide, by decide, by decide⟩ <;>
    simp only [val, absVal, h1, h2, h3, h4, h5, n1, n2, n3, n4, n5, f1, f2, f3, f4, f5] <;> norm_num

/-- **C54.** `set_zero` and `set_one` give the constants from any state. -/
theorem C54_set_const {d : FixedDecimal} (h : d.lsu.length = 9) :
    d.setZero = FixedDecimal.zero ∧ d.setOne = FixedDecimal.one := by
  have e := setZero_eq h
  refine ⟨e, ?_⟩
  unfold FixedDecimal.setOne FixedDecimal.one
  unfold FixedDecimal.setZero at e
  dsimp only
  rw [e]

/-- **C54.** `set_pos` and `set_neg` change the sign and nothing else. -/
theorem C54_set_sign {d : FixedDecimal} (h : WF d) :
    val d.setPos = |val d| ∧ val d.setNeg = -|val d| ∧
    d.setPos.isNeg = false ∧ d.setNeg.isNeg = true ∧
    d.setPos.lsu = d.lsu ∧ d.setNeg.lsu = d.lsu ∧ d.setPos.frac = d.frac ∧ d.setNeg.frac = d.frac ∧
    d.setPos.intgDigits = d.intgDigits ∧ d.setNeg.intgDigits = d.intgDigits ∧
    (d.setPos = d ∨ d.setNeg = d) := by
  have hb : ∀ b : BitVec 8, ((b &&& 0x7f#8) &&& 0x7f#8).toInt = (b &&& 0x7f#8).toInt ∧
      ((b ||| 0x80#8) &&& 0x7f#8).toInt = (b &&& 0x7f#8).toInt ∧ (b &&& 0x7f#8 = b ∨ b ||| 0x80#8 = b) := by decide
  obtain ⟨b1, b2, b3⟩ := hb d.intg
  refine ⟨by rw [val_setPos, abs_val h], by rw [val_setNeg, abs_val h], by rw [isNeg_eq, neg_setPos],
    by rw [isNeg_eq, neg_setNeg], rfl, rfl, rfl, rfl, b1, b2, ?_⟩
  rcases b3 with h | h
  · left; unfold FixedDecimal.setPos; rw [h]
  · right; unfold FixedDecimal.setNeg; rw [h]

/-- **C54.** `is_zero` holds exactly for value 0; `is_neg` for negative values (and for a negative zero). -/
theorem C54_predicates {d : FixedDecimal} (h : WF d) :
    (d.isZero = true ↔ val d = 0) ∧ (val d < 0 → d.isNeg = true) ∧ (0 < val d → d.isNeg = false) ∧
    (d.isNeg = true ↔ val d < 0 ∨ (val d = 0 ∧ neg d = true)) := by
  have hp : 0 ≤ absVal d := absVal_nonneg h
  have hv : val d = if neg d then - absVal d else absVal d := rfl
  rw [isNeg_eq]
  refine ⟨isZero_val h, ?_, ?_, ?_⟩ <;> rw [hv] <;> cases neg d <;> simp
  · linarith
  · linarith
  · linarith
  · rcases hp.lt_or_eq with h | h
    · exact Or.inl h
    · exact Or.inr h.symm

example : WF Samples.c ∧ Samples.c.setPos = ⟨1#8, 2, [500000000, 7, 0, 0, 0, 0, 0, 0, 0]⟩ ∧
    Samples.a.setNeg.isNeg = true ∧ Samples.a.isZero = false ∧ Samples.nz.isZero = true := by decide

end Props
end Fxd
