import Verif.Props.Samples
import Verif.Props.Errors
import Verif.Props.Order
import Verif.Props.NoWrap
import Verif.Props.Product
import Verif.Props.Ints
import Verif.Props.Finance
import Verif.Props.Reference
import Verif.Props.ReferenceDiv
import Verif.Props.ReferenceRound
import Verif.Props.ReferenceEdges
import Verif.Props.Closed
import Verif.Props.Stale
import Verif.Props.TextLaws
import Verif.Props.TextSize
import Verif.Props.TextUses
import Verif.Props.Shares
import Verif.Props.Signs
import Verif.Props.Halts
import Verif.Props.DebugRuns
import Verif.Props.Limited
/-!
# Theorems applied to concrete decimals

The examples beside the theorems evaluate the model on concrete arguments.  This file goes through
the theorems that are not applied there and feeds each of them arguments that meet its hypotheses,
so that the conclusion drawn is one about actual numbers.
-/

namespace Fxd.Props
open Fxd Spec FixedDecimal Samples

section
variable (m : Mode)

private theorem a_wf : WF Samples.a := Samples.a_tight.toWF
private theorem b_wf : WF Samples.b := Samples.b_tight.toWF
private theorem c_wf : WF Samples.c := Samples.c_tight.toWF
private theorem nz_wf : WF Samples.nz := Samples.nz_tight.toWF
private theorem val_nz : val Samples.nz = 0 := by rw [val_eq_zero]; decide
private theorem a_ne : val Samples.a ≠ 0 := by rw [val_a]; norm_num
private theorem b_ne : val Samples.b ≠ 0 := by rw [val_b]; norm_num
private theorem c_ne : val Samples.c ≠ 0 := by rw [val_c]; norm_num

/-- `C22_never_err`, `C86_add_sub_mul` -/
example (e : Error) (st : FixedDecimal) : addTo m Samples.a Samples.b zero ≠ .err e st :=
  (C22_never_err a_wf b_wf rfl e st).1
example : ∃ st, mulTo m Props.big60 ⟨30#8, 0, [1, 0, 0, 1, 0, 0, 0, 0, 0]⟩ zero = .err .overflow st := by
  refine ⟨zero, ?_⟩; cases m <;> decide +kernel
/-- `C51_round`: 123456789012.345 rounded into a used output parameter -/
example : (Samples.a.roundTo m Samples.c 1 : Out Unit _) = Samples.a.roundTo m Samples.b 1 :=
  C51_round m Samples.a 1 rfl rfl
/-- `C09_parsed_always`, `C09_from_str_always` -/
example : Tight Samples.c ∧ neg Samples.c = true :=
  let h := C09_from_str_always m (bytes "-7.50") (c_parse m)
  ⟨h.1, by rw [h.2.2]; decide⟩
example : Tight Samples.c :=
  (C09_parsed_always m (bytes "-7.50") (self := Samples.a) (r := Samples.c) rfl (by cases m <;> decide +kernel)).1
/-- `C16_cmp_numeric`, `C16_cmp_zeros` -/
example : (FixedDecimal.cmp m Samples.c Samples.b : Out Unit _) = .ok .lt := by
  rw [C16_cmp_numeric m c_wf b_wf (fun h => c_ne h.1), val_c, val_b]
  congr 1; exact compare_lt_iff_lt.2 (by norm_num)
example : (FixedDecimal.cmp m Samples.nz zero : Out Unit _) = .ok .lt := by
  rw [C16_cmp_zeros m nz_wf zero_tight.toWF val_nz (by rw [val_eq_zero]; decide)]; decide
/-- `C77_debug_div`: the quotient -7.5 / (-0.00000000075) of a debug build -/
example : ∃ r, divTo .debug Samples.c Samples.b zero 4 = .ok r ∧ WF r := by
  have h : ∃ r, divTo .debug Samples.c Samples.b zero 4 = .ok r :=
    ⟨⟨0x0a#8, 27, [0, 0, 0, 0, 10, 0, 0, 0, 0]⟩, by decide +kernel⟩
  obtain ⟨r, h⟩ := h
  exact ⟨r, h, C77_debug_div (incr := 4) c_wf b_wf rfl h⟩
/-- `C33_div_zero`, `C33_div_zero_only`, `C33_rem_zero`, `C33_rem_zero_only` -/
example : divTo m Samples.a Samples.nz Samples.c 4 = .err .divisionByZero zero :=
  C33_div_zero m a_wf nz_wf rfl val_nz 4
example : val Samples.nz = 0 :=
  C33_div_zero_only m a_wf nz_wf (res := Samples.c) (s := zero) rfl 4 (by cases m <;> decide +kernel)
example : remTo m Samples.a Samples.nz Samples.c = .err .divisionByZero zero :=
  C33_rem_zero m a_wf nz_wf rfl val_nz
example : val Samples.nz = 0 :=
  (C33_rem_zero_only m a_wf nz_wf (res := Samples.c) (s := zero) (e := .divisionByZero) rfl (by cases m <;> decide +kernel)).1
/-- `C86_parse`, `C86_from_str`: a second point; `C86_as_int`: 123456789012.345 * 10^9 and more does not fit -/
example : fromBytesStr m Samples.a (bytes "1.2.3") false = .err .conversionSyntax Samples.a ∧
    fromStr m (bytes "1.2.3") = .err .conversionSyntax () := by cases m <;> decide +kernel
example : WF ⟨20#8, 0, [0, 0, 99, 0, 0, 0, 0, 0, 0]⟩ ∧
    asI64 m ⟨20#8, 0, [0, 0, 99, 0, 0, 0, 0, 0, 0]⟩ = .err .exceedsConversionTargetRange () ∧
    asU64 m Samples.c = .err .exceedsConversionTargetRange () := by
  refine ⟨by decide, ?_, ?_⟩ <;> cases m <;> decide +kernel
/-- `C86_div`, `C86_rem`, `C86_panic_texts` -/
example : (∃ st, divTo m Samples.a Samples.nz zero (4 : Nat) = .err .divisionByZero st) ∧
    ¬ ∃ st, divTo m Samples.a Samples.c zero (4 : Nat) = .err .divisionByZero st :=
  ⟨((C86_div m a_wf nz_wf rfl 4).1).2 val_nz, fun h => c_ne (((C86_div m a_wf c_wf rfl 4).1).1 h)⟩
example : ¬ ∃ st, remTo m Samples.a Samples.c zero = .err .divisionByZero st :=
  fun h => c_ne ((C86_rem m a_wf c_wf rfl).1 h).1
example : addText m Samples.a Samples.c = none ∧
    divText m Samples.a Samples.nz = some "division failed: Decimal division by zero" :=
  ⟨(C86_panic_texts m a_wf c_wf).1, ((C86_panic_texts m a_wf nz_wf).2.2.2.1).2 val_nz⟩
/-- `C11_truncates`, `C10_all_wf`: -7.50 with no decimals -/
example : ∃ t : Numeral, t.Valid ∧ (toStr m Samples.c (0 : Nat) : Out Unit _) = .ok t.render ∧ |t.denote| = 7 := by
  obtain ⟨t, h1, -, h3, -, -, -, h7, -⟩ := C11_truncates (σ := Unit) m c_wf 0
  refine ⟨t, h1, h3, ?_⟩
  rw [h7, val_c]
  have : ⌊|(-15 / 2 : ℚ)| * 10 ^ 0⌋ = 7 := by
    rw [Int.floor_eq_iff]; rw [abs_of_neg (by norm_num)]; norm_num
  rw [this]; norm_num
example : (toStr m Samples.c (-1) : Out Unit _) = toStr m Samples.c (2 : Nat) :=
  C10_all_wf m c_wf (by norm_num)
/-- `C71_div`, `C71_rem` -/
example : Halts m (divTo m Samples.a Samples.c Samples.b 77) ∧ Halts m (remTo m Samples.a Samples.c Samples.b) :=
  ⟨C71_div m a_wf c_wf rfl 77, C71_rem m a_wf c_wf rfl⟩

private theorem conv_min : Converted m (-2 ^ 63) MIN_I64 :=
  Or.inl ⟨by norm_num, by norm_num, by cases m <;> decide +kernel⟩
private theorem conv_three : Converted m 3 ⟨9#8, 0, [3, 0, 0, 0, 0, 0, 0, 0, 0]⟩ :=
  Or.inl ⟨by norm_num, by norm_num, by cases m <;> decide +kernel⟩
/-- `C62_add`, `C62_sub`, `C62_mul`, `C62_cmp`: `i64::MIN` and 3 -/
example : ∃ r, addTo m MIN_I64 ⟨9#8, 0, [3, 0, 0, 0, 0, 0, 0, 0, 0]⟩ Samples.a = .ok r ∧ r.asI64 m = .ok (-2 ^ 63 + 3) := by
  obtain ⟨r, h1, -, -, -, h5⟩ := C62_add m (conv_min m) (conv_three m) (res := Samples.a) rfl
  exact ⟨r, h1, by rw [h5]; decide⟩
example : ∃ r, subTo m MIN_I64 ⟨9#8, 0, [3, 0, 0, 0, 0, 0, 0, 0, 0]⟩ Samples.a = .ok r ∧
    r.asI64 m = .err .exceedsConversionTargetRange () := by
  obtain ⟨r, h1, -, -, h5⟩ := C62_sub m (conv_min m) (conv_three m) (res := Samples.a) rfl
  exact ⟨r, h1, by rw [h5]; decide⟩
example : ∃ r, mulTo m MIN_I64 ⟨9#8, 0, [3, 0, 0, 0, 0, 0, 0, 0, 0]⟩ Samples.a = .ok r ∧ val r = -3 * 2 ^ 63 := by
  obtain ⟨r, h1, -, h4, -⟩ := C62_mul m (conv_min m) (conv_three m) (res := Samples.a) rfl
  exact ⟨r, h1, by rw [h4]; norm_num⟩
example : (FixedDecimal.cmp m MIN_I64 ⟨9#8, 0, [3, 0, 0, 0, 0, 0, 0, 0, 0]⟩ : Out Unit _) = .ok .lt := by
  rw [C62_cmp m (conv_min m) (conv_three m)]; decide

/-- 123456789012.345 * -7.50 -/
private theorem ac_mul : mulTo m Samples.a Samples.c zero = .ok ⟨0x92#8, 5, [587500000, 925917592, 925, 0, 0, 0, 0, 0, 0]⟩ := by
  cases m <;> decide +kernel
/-- `C28_mul_trunc`, `C28_code`, `C28_error`, `C30_mul_sign_wf`, `C53_mul_iff` -/
example : |val ⟨0x92#8, 5, [587500000, 925917592, 925, 0, 0, 0, 0, 0, 0]⟩| ≤ |val Samples.a * val Samples.c| :=
  (C28_mul_trunc m a_tight c_tight rfl a_ne c_ne (ac_mul m)).1
example : |val Samples.a * val Samples.c| - |val ⟨0x92#8, 5, [587500000, 925917592, 925, 0, 0, 0, 0, 0, 0]⟩| < 2 * (1 : Nat) / 10 ^ 9 :=
  (C28_error m a_tight c_tight rfl a_ne c_ne (ac_mul m)).2.2 (by decide +kernel)
example : val ⟨0x89#8, 2, [500000000, 22, 0, 0, 0, 0, 0, 0, 0]⟩ = val Samples.c * val ⟨1#8, 0, [3, 0, 0, 0, 0, 0, 0, 0, 0]⟩ :=
  (C28_error m (b := ⟨1#8, 0, [3, 0, 0, 0, 0, 0, 0, 0, 0]⟩) (res := zero) c_tight (by decide) rfl c_ne
    (by rw [Ne, val_eq_zero]; decide) (by cases m <;> decide +kernel)).2.1 (by decide +kernel)
example : unitsVal [587500000, 925917592, 925, 0, 0, 0, 0, 0, 0] = codeMul Samples.a Samples.c :=
  (C28_code m a_wf c_wf rfl a_ne c_ne (ac_mul m)).2.2.2.2
example : neg ⟨0x92#8, 5, [587500000, 925917592, 925, 0, 0, 0, 0, 0, 0]⟩ = true :=
  (C30_mul_sign_wf m a_wf c_wf rfl (ac_mul m)).2 ⟨by decide, 587500000, by decide, by decide⟩
example : WF ⟨0x92#8, 5, [587500000, 925917592, 925, 0, 0, 0, 0, 0, 0]⟩ ↔
    |val Samples.a * val Samples.c| < 10 ^ (9 * unitsFor (Spec.intgDigits Samples.a + Spec.intgDigits Samples.c)) :=
  (C53_mul_iff m a_wf c_wf rfl a_ne c_ne (by decide +kernel) (by decide +kernel) (by decide +kernel) (ac_mul m)).2
/-- `C29_overflow`, `C29_err_iff`: 41 and 42 integral digits -/
example : mulTo m ⟨41#8, 0, [1, 0, 0, 0, 10000, 0, 0, 0, 0]⟩ ⟨42#8, 0, [1, 0, 0, 0, 100000, 0, 0, 0, 0]⟩ Samples.a =
    .err .overflow zero :=
  C29_overflow m (by decide) (by decide) rfl (by rw [Ne, val_eq_zero]; decide) (by rw [Ne, val_eq_zero]; decide)
    (by decide) (by decide)
example (e : Error) (st : FixedDecimal) : mulTo m Samples.a Samples.c Samples.b ≠ .err e st := fun h =>
  absurd ((C29_err_iff m a_tight c_tight rfl).1 h).2.2.1 (by decide)

/-- `C93_*`, `C22_add_fail`, `C22_sub_fail`: a sum that needs a tenth unit -/
private theorem nine_wf : WF ⟨81#8, 0, [0, 0, 0, 0, 0, 0, 0, 0, 999999999]⟩ := by decide
example : addTo m ⟨81#8, 0, [0, 0, 0, 0, 0, 0, 0, 0, 999999999]⟩ ⟨81#8, 0, [0, 0, 0, 0, 0, 0, 0, 0, 999999999]⟩ zero = .panic .index := by
  cases m <;> decide +kernel
example : addTo m Samples.a Samples.c Samples.b ≠ .panic .overflow ∧ subTo m Samples.a Samples.c Samples.b ≠ .panic .overflow ∧
    remTo m Samples.a Samples.c Samples.b ≠ .panic .overflow :=
  ⟨C93_add a_wf c_wf, C93_sub a_wf c_wf, C93_rem a_wf c_wf rfl⟩
example : divTo .debug Samples.a Samples.c zero (4 : Nat) ≠ .panic .overflow := fun h =>
  absurd ((C93_div a_wf c_wf rfl (incr := 4) (by norm_num)).1 h).2.2 (by decide +kernel)

/-- `C79_*`: -7.5, -0.00000000075 and 123456789012.345 -/
example : (FixedDecimal.le m Samples.c Samples.b : Out Unit Bool) = .ok true := by
  rw [(C79_le_ge m c_wf b_wf (fun h => c_ne h.1)).1, val_c, val_b]; norm_num
example : ∃ r, (FixedDecimal.max m Samples.a Samples.b : Out Unit _) = .ok r ∧ val r = 123456789012345 / 1000 := by
  obtain ⟨r, h1, -, h3, -⟩ := C79_max (σ := Unit) m a_wf b_wf
  exact ⟨r, h1, by rw [h3, val_a, val_b]; norm_num⟩
example : ∃ r, (FixedDecimal.min m Samples.a Samples.b : Out Unit _) = .ok r ∧ val r = -75 / 10 ^ 11 := by
  obtain ⟨r, h1, -, h3, -⟩ := C79_min (σ := Unit) m a_wf b_wf
  exact ⟨r, h1, by rw [h3, val_a, val_b]; norm_num⟩
example : ∃ r, (FixedDecimal.clamp m Samples.a Samples.c Samples.b : Out Unit _) = .ok r ∧ val r = -75 / 10 ^ 11 := by
  obtain ⟨r, h1, -, h3, -⟩ := C79_clamp (σ := Unit) m a_wf c_wf b_wf (by rw [val_b, val_c]; norm_num)
  exact ⟨r, h1, by rw [h3, val_a, val_b, val_c]; norm_num⟩
example : (FixedDecimal.clamp m Samples.a Samples.b Samples.c : Out Unit _) = .panic .assert :=
  C79_clamp_panics m b_wf c_wf (by rw [val_b, val_c]; norm_num)
example : ∃ r, (FixedDecimal.clamp m Samples.a Samples.c Samples.c : Out Unit _) = .ok r ∧ val r = -15 / 2 := by
  have hb : ¬ Before Samples.c Samples.c := by
    rintro (h | ⟨-, h1, h2⟩)
    · exact lt_irrefl _ h
    · rw [h1] at h2; cases h2
  obtain ⟨r, h1, -, -, -, -, -, h3⟩ := C79_clamp_all (σ := Unit) m a_wf c_wf c_wf hb
  exact ⟨r, h1, by rw [h3, val_a, val_c]; norm_num⟩
example : (FixedDecimal.clamp m Samples.a zero ⟨129#8, 0, [0, 0, 0, 0, 0, 0, 0, 0, 0]⟩ : Out Unit _) = .panic .assert :=
  (C79_clamp_panics_iff m a_wf wf_zero (by decide +kernel)).mpr (.inr (by decide +kernel))
example : (FixedDecimal.gt m zero ⟨129#8, 0, [0, 0, 0, 0, 0, 0, 0, 0, 0]⟩ : Out Unit _) = .ok true :=
  (C79_relations m wf_zero (by decide +kernel)).2.1.trans (by decide +kernel)
example : ∃ r, (FixedDecimal.maxOf m Samples.c [Samples.a, Samples.b] : Out Unit _) = .ok r ∧ val Samples.a ≤ val r := by
  obtain ⟨r, h1, -, h3⟩ := C79_maxOf (σ := Unit) m [Samples.a, Samples.b] c_wf
    (by intro y hy; simp only [List.mem_cons, List.not_mem_nil, or_false] at hy
        rcases hy with rfl | rfl; exacts [a_wf, b_wf])
  exact ⟨r, h1, h3 _ (by simp)⟩
example : ∃ r, (FixedDecimal.minOf m Samples.b [Samples.a, Samples.c] : Out Unit _) = .ok r ∧ val r ≤ val Samples.c := by
  obtain ⟨r, h1, -, h3⟩ := C79_minOf (σ := Unit) m [Samples.a, Samples.c] b_wf
    (by intro y hy; simp only [List.mem_cons, List.not_mem_nil, or_false] at hy
        rcases hy with rfl | rfl; exacts [a_wf, c_wf])
  exact ⟨r, h1, h3 _ (by simp)⟩

/-- `C72_*`, `C74_*`: the reference implementations on these arguments -/
example : seen (addTo m Samples.a Samples.c Samples.b) = (refAdd Samples.a Samples.c).map .ok := C72_add m a_wf c_wf rfl
example : seen (subTo m Samples.a Samples.c Samples.b) = (refSub Samples.a Samples.c).map .ok := C72_sub m a_wf c_wf rfl
example : seen (mulTo m Samples.a Samples.c Samples.b) = refMul m Samples.a Samples.c := C72_mul m a_wf c_wf rfl
example : (fromU64 (2 ^ 64 - 1) : Out Unit _) = .ok (trimmed 0 (2 ^ 64 - 1)) := C72_from_u64 (by norm_num) (by norm_num)
example : (fromI64 m (-2 ^ 63) : Out Unit _) = .ok (refInt (-2 ^ 63)) := C72_from_i64 m (by norm_num) (by norm_num)
example : seen (divTo m Samples.a Samples.c Samples.b (4 : Nat)) = refDiv m Samples.a Samples.c 4 :=
  C72_div m a_wf c_wf rfl (by norm_num)
example : seen (remTo m Samples.a Samples.c Samples.b) = refRem m Samples.a Samples.c := C72_rem m a_wf c_wf rfl
example : seen (divTo m Samples.a Samples.c Samples.b (2 ^ 64 - 1 : Nat)) = refDivFull m Samples.a Samples.c (2 ^ 64 - 1) :=
  C74_div m a_wf c_wf rfl _
example : seen (Samples.a.roundTo m Samples.b (-2) : Out Unit _) = (refRoundTo Samples.a (-2)).map .ok :=
  C72_round_to m a_wf rfl (by norm_num)
example : seen (Samples.a.roundTo m Samples.b (-2 ^ 63) : Out Unit _) = (refRoundToFull m Samples.a (-2 ^ 63)).map .ok :=
  C74_round_to m a_wf rfl (by norm_num)

/-- `C39_nearest`: 123456789012.345 to one digit -/
example : ∃ n : ℤ, val ⟨18#8, 1, [300000000, 456789012, 123, 0, 0, 0, 0, 0, 0]⟩ = n / 10 ^ 1 :=
  (C39_nearest (σ := Unit) m (k := 1) (res := Samples.b) a_wf rfl (by decide) (by cases m <;> decide +kernel)).1
/-- `C88_difference` -/
example : ∃ r, subTo m Samples.c Samples.b zero = .ok r ∧
    (FixedDecimal.cmp m Samples.c Samples.b : Out Unit _) = .ok (if r.isZero then .eq else if r.isNeg then .lt else .gt) := by
  have h : ∃ r, subTo m Samples.c Samples.b zero = .ok r :=
    ⟨⟨0x89#8, 11, [250000000, 499999999, 7, 0, 0, 0, 0, 0, 0]⟩, by cases m <;> decide +kernel⟩
  obtain ⟨r, h⟩ := h
  exact ⟨r, h, C88_difference m c_wf b_wf (by unfold ReportsNegZero; decide) (by unfold ReportsNegZero; decide) rfl h⟩
/-- `C64_value` -/
example : val (opp Samples.c) = 15 / 2 := by rw [(C64_value c_wf).1, val_c]; norm_num

/-- `C78_*`: -7.50 with digits left over above it -/
example : val (cleared staleC) = val staleC := (C78_cleared (by decide)).2.2
example : (FixedDecimal.cmp m staleC Samples.a : Out Unit _) = FixedDecimal.cmp m (cleared staleC) (cleared Samples.a) :=
  (C78_look (by decide) (usable_of_wf a_wf)).1
example : divTo m Samples.a staleC zero 4 = divTo m (cleared Samples.a) (cleared staleC) zero 4 :=
  (C78_div_rem (usable_of_wf a_wf) (by decide) 4).1
example : ∃ r, addTo m Samples.a staleC zero = .ok r ∧ Usable r ∧ val r = val Samples.a + val staleC :=
  C78_sum m (usable_of_wf a_wf) (by decide) rfl (by decide)
example : ∃ r, subTo m Samples.a staleC zero = .ok r ∧ Usable r ∧ val r = val Samples.a - val staleC :=
  C78_difference m (usable_of_wf a_wf) (by decide) rfl (by decide)

/-- `C69_equal_same_text`, `C69_prefix`, `C69_round_then_print`, `C87_length`, `C87_bound` -/
example (k : Nat) : (toStr m Samples.c (k : Int) : Out Unit _) = toStr m ⟨0x81#8, 1, [500000000, 7, 0, 0, 0, 0, 0, 0, 0]⟩ (k : Int) :=
  C69_equal_same_text m c_wf (by decide) (by cases m <;> decide +kernel) k
private theorem text_a (k : Nat) (hk : k = 2 ∨ k = 12) : ∃ s, (toStr m Samples.a (k : Int) : Out Unit _) = .ok s := by
  rcases hk with rfl | rfl
  · exact ⟨bytes "123456789012.34", by cases m <;> decide +kernel⟩
  · exact ⟨bytes "123456789012.345000000000", by cases m <;> decide +kernel⟩
example : ∃ s t ds, (toStr m Samples.a (2 : Nat) : Out Unit _) = .ok s ∧ (toStr m Samples.a (12 : Nat) : Out Unit _) = .ok t ∧
    t = s ++ digitChars ds ∧ ds.length = 10 := by
  obtain ⟨s, hs⟩ := text_a m 2 (Or.inl rfl)
  obtain ⟨t, ht⟩ := text_a m 12 (Or.inr rfl)
  obtain ⟨ds, h1, h2, -⟩ := C69_prefix m a_wf (by norm_num) (by norm_num) hs ht
  exact ⟨s, t, ds, hs, ht, h1, h2⟩
example {s : List Nat} (h : (toStr m Samples.a (2 : Nat) : Out Unit _) = .ok s) : s.length ≤ 85 :=
  C87_bound m a_wf _ h

/-- `C84_key`, `C84_key_exact`, `C84_key_iff` -/
private theorem c_small : |val Samples.c| < 10 ^ (65 - 2) := by rw [val_c]; norm_num
example : ∃ r, key m 2 Samples.c = .ok r ∧ Tight r ∧ val r = val Samples.c := by
  obtain ⟨r, h1, h2, -, -, h5⟩ := C84_key_exact m c_wf (k := 2) (by norm_num) c_small (n := -750) (by rw [val_c]; norm_num)
  exact ⟨r, h1, h2, h5⟩
example : ∃ r, key m 2 Samples.a = .ok r ∧ |val r| = ⌊|val Samples.a| * 10 ^ 2⌋ / 10 ^ 2 := by
  obtain ⟨r, h1, -, -, -, h5, -⟩ := C84_key m a_wf (k := 2) (by norm_num) (by rw [val_a]; norm_num [abs_of_pos])
  exact ⟨r, h1, h5⟩
example : key m 2 Samples.c = key m 2 ⟨0x81#8, 1, [500000000, 7, 0, 0, 0, 0, 0, 0, 0]⟩ :=
  C84_equal_same_key m c_wf (by decide) (by cases m <;> decide +kernel) 2

/-- `C80_rounded_sum`: 123456789012.345 and -7.50 to one digit each -/
example : ∃ rs, AllRounded m 1 [Samples.a, Samples.c] rs ∧
    |(rs.map val).sum - (val Samples.a + (val Samples.c + 0))| ≤ 1 / 10 := by
  have h1 : (Samples.a.roundTo m zero (1 : Nat) : Out Empty _) = .ok ⟨18#8, 1, [300000000, 456789012, 123, 0, 0, 0, 0, 0, 0]⟩ := by
    cases m <;> decide +kernel
  have h2 : (Samples.c.roundTo m zero (1 : Nat) : Out Empty _) = .ok ⟨0x89#8, 1, [500000000, 7, 0, 0, 0, 0, 0, 0, 0]⟩ := by
    cases m <;> decide +kernel
  have hr : AllRounded m 1 [Samples.a, Samples.c] _ := .cons h1 (.cons h2 .nil)
  refine ⟨_, hr, ?_⟩
  have := C80_rounded_sum (k := 1) (by norm_num) (by
    intro x hx
    simp only [List.mem_cons, List.not_mem_nil, or_false] at hx
    rcases hx with rfl | rfl
    exacts [a_tight, c_tight]) hr
  simp only [List.map_cons, List.map_nil, List.sum_cons, List.sum_nil, List.length_cons, List.length_nil] at this ⊢
  norm_num at this ⊢
  exact this

/-- `C92_div`, `C92_rem` -/
example : divToK 5 .release Samples.a Samples.c zero 4 = divTo .release Samples.a Samples.c zero 4 ∧
    remToK 3 .debug Samples.a Samples.c zero = remTo .debug Samples.a Samples.c zero :=
  ⟨C92_div .release (by decide) (by decide) _ _, C92_rem .debug (by decide) (by decide) _⟩
end

end Fxd.Props
