import Verif.Spec.Reference
import Verif.Props.Ledger
import Verif.Props.Product
import Verif.Props.Convert
/-!
# Property C72: the code computes the reference implementation, field by field
-/

namespace Fxd
open Spec

theorem length_unitsOf (n : Nat) (M : Int) : (unitsOf n M).length = n := by
  induction n generalizing M with
  | zero => rfl
  | succ n ih => simp [unitsOf, ih]

theorem unitsOf_unitsVal {l : List Int} (h : DigL l) : unitsOf l.length (unitsVal l) = l := by
  induction l with
  | nil => rfl
  | cons u us ih =>
    have h0 := h u (by simp)
    have h1 : DigL us := fun v hv => h v (by simp [hv])
    show (u + 1000000000 * unitsVal us) % 1000000000 :: unitsOf us.length ((u + 1000000000 * unitsVal us) / 1000000000) = _
    have e1 : (u + 1000000000 * unitsVal us) % 1000000000 = u := by omega
    have e2 : (u + 1000000000 * unitsVal us) / 1000000000 = unitsVal us := by omega
    rw [e1, e2, ih h1]

/-- A decimal with in-range units is written by `dec` from what can be read off it. -/
theorem eq_dec_of_dig {d : FixedDecimal} (hl : d.lsu.length = 9) (hd : DigL d.lsu) (hf : 0 ≤ d.frac) :
    d = dec (neg d) (intgDigits d) (fracDigits d) (unitsVal d.lsu) := by
  have h1 : unitsOf 9 (unitsVal d.lsu) = d.lsu := by rw [← hl]; exact unitsOf_unitsVal hd
  have h2 : d.intg = BitVec.ofNat 8 (if neg d then 128 + intgDigits d else intgDigits d) := by
    apply BitVec.eq_of_toNat_eq
    have e1 : d.intg.msb = decide (2 ^ 7 ≤ d.intg.toNat) := by rw [BitVec.msb_eq_decide]
    have b1 := d.intg.isLt
    unfold neg intgDigits
    rw [e1, BitVec.toNat_ofNat]
    split_ifs with h
    · have := of_decide_eq_true h; omega
    · have : ¬ (2 ^ 7 ≤ d.intg.toNat) := fun hc => h (decide_eq_true hc)
      omega
  have h3 : d.frac = (fracDigits d : Int) := by unfold fracDigits; omega
  cases d
  simp only [dec, FixedDecimal.mk.injEq]
  exact ⟨h2, h3, h1.symm⟩

theorem Spec.WF.unitsVal_eq {d : FixedDecimal} (h : WF d) : unitsVal d.lsu = mant d := by
  rw [unitsVal_eq_psum, h.len, ← h.mant_eq9]

theorem Spec.WF.eq_dec {d : FixedDecimal} (h : WF d) : d = dec (neg d) (intgDigits d) (fracDigits d) (mant d) := by
  rw [← h.unitsVal_eq]; exact eq_dec_of_dig h.len h.units h.frac_nonneg

theorem unitCount_le {M : Int} (h0 : 0 ≤ M) (n : Nat) : unitCount M ≤ n ↔ M < 1000000000 ^ n := by
  unfold unitCount
  split_ifs with hz
  · subst hz; simp
  · have e : (M.toNat : Int) = M := Int.toNat_of_nonneg h0
    rw [Nat.succ_le_iff, Nat.log_lt_iff_lt_pow (by norm_num) (by omega), ← e]
    exact_mod_cast Iff.rfl

theorem signedMant_val (d : FixedDecimal) : val d = (signedMant d : ℚ) / 10 ^ (9 * fu d) := by
  unfold val absVal signedMant
  split_ifs
  · push_cast; ring
  · rfl

theorem alignTo_val {d : FixedDecimal} {F : Nat} (h : fu d ≤ F) : (alignTo F d : ℚ) / 10 ^ (9 * F) = val d := by
  have e : 9 * F = 9 * (F - fu d) + 9 * fu d := by omega
  rw [signedMant_val, e, pow_add]
  unfold alignTo
  push_cast
  rw [pow9q]
  have h1 : (10 : ℚ) ^ (9 * (F - fu d)) ≠ 0 := by positivity
  field_simp

/-- A trimmed decimal is determined by its scale and value. -/
theorem eq_trimmed {r : FixedDecimal} (hr : WF r) (ht : Trimmed r) (hn : ¬ NegZero r) {f : Nat} {S : Int}
    (hf : r.frac = (f : Int)) (hv : val r = (S : ℚ) / 10 ^ (9 * unitsFor f)) : r = trimmed f S := by
  have hfd : fracDigits r = f := by have := hr.frac_eq; omega
  have hfu : fu r = unitsFor f := by unfold fu; rw [hfd]
  have hs : signedMant r = S := by
    rw [signedMant_val, hfu] at hv
    have hp : (10 : ℚ) ^ (9 * unitsFor f) ≠ 0 := by positivity
    exact_mod_cast (div_left_inj' hp).mp hv
  have m0 := hr.mant_nonneg
  have hab : |S| = mant r := by
    rw [← hs]; unfold signedMant; split_ifs
    · rw [abs_neg, abs_of_nonneg m0]
    · exact abs_of_nonneg m0
  have hsg : neg r = decide (S < 0) := by
    rw [← hs]; unfold signedMant
    cases h : neg r
    · simp; omega
    · have : mant r ≠ 0 := fun hc => hn ⟨h, hc⟩
      simp; omega
  have hi : iu r = unitCount (mant r) - unitsFor f := by
    have h1 : unitCount (mant r) ≤ iu r + unitsFor f := by
      rw [unitCount_le m0, ← hfu]; exact hr.mant_lt
    by_cases h0 : 0 < iu r
    · have h2 := ht.lead h0
      unfold absVal at h2
      rw [le_div_iff₀ (by positivity), ← pow_add, ← mul_add, ← pow9q, hfu] at h2
      have h3 : (1000000000 : Int) ^ (iu r - 1 + unitsFor f) ≤ mant r := by exact_mod_cast h2
      have h4 := (unitCount_le m0 (iu r - 1 + unitsFor f)).not.mpr (not_lt.mpr h3)
      omega
    · omega
  unfold trimmed
  rw [← hsg, hab, ← hi, ← ht.digits, ← hfd]
  exact hr.eq_dec

theorem sum_fits_iff {a b : FixedDecimal} (ha : WF a) (hb : WF b) (va : val a ≠ 0) (vb : val b ≠ 0) {v : ℚ} {S : Int}
    (hle : |v| ≤ absVal a + absVal b) (hv : (S : ℚ) / 10 ^ (9 * max (fu a) (fu b)) = v) :
    SumFits a b v ↔ max (iu a) (iu b) + max (fu a) (fu b) ≤ 8 ∧ |S| < 1000000000 ^ 8 := by
  have hS : (|S| : ℚ) = |v| * 10 ^ (9 * max (fu a) (fu b)) := by
    rw [← hv, abs_div, abs_of_pos (show (0 : ℚ) < 10 ^ (9 * max (fu a) (fu b)) by positivity)]
    field_simp
  have key : max (iu a) (iu b) + max (fu a) (fu b) = 8 → (|v| < 10 ^ (9 * max (iu a) (iu b)) ↔ |S| < 1000000000 ^ 8) := by
    intro h8
    have e : (|S| < 1000000000 ^ 8) ↔ (|S| : ℚ) < 1000000000 ^ 8 := by exact_mod_cast Iff.rfl
    rw [e, hS, pow9q, show 9 * 8 = 9 * max (iu a) (iu b) + 9 * max (fu a) (fu b) by omega, pow_add,
      mul_lt_mul_iff_left₀ (by positivity)]
  unfold SumFits alignedUnits
  constructor
  · rintro (h | h | h | ⟨h, h'⟩)
    · exact absurd h va
    · exact absurd h vb
    · refine ⟨by omega, ?_⟩
      have h1 : |v| < 2 * 10 ^ (9 * max (iu a) (iu b)) := by
        have la := absVal_lt_pow ha
        have lb := absVal_lt_pow hb
        have h1 : (10 : ℚ) ^ (9 * iu a) ≤ 10 ^ (9 * max (iu a) (iu b)) := pow_le_pow_right₀ (by norm_num) (by omega)
        have h2 : (10 : ℚ) ^ (9 * iu b) ≤ 10 ^ (9 * max (iu a) (iu b)) := pow_le_pow_right₀ (by norm_num) (by omega)
        linarith
      have h2 : (|S| : ℚ) < 1000000000 ^ 8 := by
        rw [hS]
        calc |v| * 10 ^ (9 * max (fu a) (fu b)) < 2 * 10 ^ (9 * max (iu a) (iu b)) * 10 ^ (9 * max (fu a) (fu b)) :=
              mul_lt_mul_of_pos_right h1 (by positivity)
          _ = 2 * 10 ^ (9 * max (iu a) (iu b) + 9 * max (fu a) (fu b)) := by rw [pow_add]; ring
          _ ≤ 2 * 10 ^ 63 := by
              apply mul_le_mul_of_nonneg_left _ (by norm_num)
              exact pow_le_pow_right₀ (by norm_num) (by omega)
          _ < 1000000000 ^ 8 := by norm_num
      exact_mod_cast h2
    · exact ⟨by omega, (key h).mp h'⟩
  · rintro ⟨h, h'⟩
    by_cases h7 : max (iu a) (iu b) + max (fu a) (fu b) ≤ 7
    · exact Or.inr (Or.inr (Or.inl h7))
    · exact Or.inr (Or.inr (Or.inr ⟨by omega, (key (by omega)).mpr h'⟩))

theorem abs_sum_le {a b : FixedDecimal} (ha : WF a) (hb : WF b) (s : Bool) :
    |val a + (if s then - val b else val b)| ≤ absVal a + absVal b := by
  have e : ∀ {d : FixedDecimal}, WF d → |val d| = absVal d := by
    intro d hd
    unfold val; split_ifs
    · rw [abs_neg, abs_of_nonneg (absVal_nonneg hd)]
    · exact abs_of_nonneg (absVal_nonneg hd)
  calc _ ≤ |val a| + |if s then - val b else val b| := abs_add_le _ _
    _ = _ := by
      rw [e ha]
      cases s
      · simp [e hb]
      · simp [e hb]

theorem isZero_dig {d : FixedDecimal} (hl : d.lsu.length = 9) (hd : DigL d.lsu) : d.isZero = true ↔ unitsVal d.lsu = 0 := by
  rw [unitsVal_eq_psum, psum_eq_zero_iff hd.dig, hl]
  unfold FixedDecimal.isZero
  rw [List.all_eq_true]
  constructor
  · intro h1 i hi
    have h2 := h1 _ (List.getElem_mem (l := d.lsu) (n := i) (by omega))
    simpa [dg, List.getD, List.getElem?_eq_getElem (show i < d.lsu.length by omega)] using h2
  · intro h1 u hu
    obtain ⟨i, hi, rfl⟩ := List.mem_iff_getElem.mp hu
    have := h1 i (by omega)
    simpa [dg, List.getD, List.getElem?_eq_getElem hi] using this

/-- Applying a sign at the end, on any decimal with in-range units. -/
theorem signed_eq_dec {d : FixedDecimal} (s : Bool) (hl : d.lsu.length = 9) (hd : DigL d.lsu) (hf : 0 ≤ d.frac)
    (hn : neg d = false) :
    signed s d = dec (s && unitsVal d.lsu ≠ 0) (intgDigits d) (fracDigits d) (unitsVal d.lsu) := by
  unfold signed
  cases s
  · have h := eq_dec_of_dig hl hd hf
    simpa [hn] using h
  · simp only [if_true, Bool.true_and]
    unfold FixedDecimal.setNegAndCheckZero
    dsimp only
    have hz : d.setNeg.isZero = true ↔ unitsVal d.lsu = 0 := isZero_dig (d := d.setNeg) hl hd
    by_cases h0 : unitsVal d.lsu = 0
    · rw [if_pos (hz.mpr h0)]
      have h := eq_dec_of_dig (d := d.setNeg.setPos) hl hd hf
      rw [neg_setPos, intgDigits_setPos, intgDigits_setNeg] at h
      rw [h]
      congr 1
      simp [h0]
    · rw [if_neg (fun h => h0 (hz.mp h))]
      have h := eq_dec_of_dig (d := d.setNeg) hl hd hf
      rw [neg_setNeg, intgDigits_setNeg] at h
      rw [h]
      congr 1
      simp [h0]

theorem dec_zero : dec false 1 0 0 = FixedDecimal.zero := by decide

namespace Props
open FixedDecimal (addTo subTo mulTo divTo remTo)
variable {m : Mode} {a b r res : FixedDecimal}

theorem refSum_seen {o : Out FixedDecimal FixedDecimal} (ha : WF a) (hb : WF b) (va : val a ≠ 0) (vb : val b ≠ 0) {v : ℚ} {S : Int}
    (hle : |v| ≤ absVal a + absVal b) (hv : (S : ℚ) / 10 ^ (9 * max (fu a) (fu b)) = v)
    (hok : SumFits a b v → ∃ r, o = .ok r ∧ SumRes a b r v ∧ Trimmed r ∧ ¬ NegZero r)
    (hno : ¬ SumFits a b v → ∃ p, o = .panic p) : seen o = (refSum a b S).map .ok := by
  have hiff := sum_fits_iff ha hb va vb hle hv
  unfold refSum
  by_cases hf : SumFits a b v
  · obtain ⟨r, e, h1, h2, h3⟩ := hok hf
    rw [if_pos (hiff.mp hf), e]
    simp only [seen, Option.map_some]
    congr 2
    have hfr := h1.scale va vb
    rw [maxfrac_eq ha hb] at hfr
    refine eq_trimmed h1.wf h2 h3 hfr ?_
    rw [h1.value, ← hv, unitsFor_max]; rfl
  · obtain ⟨p, e⟩ := hno hf
    rw [if_neg (fun h => hf (hiff.mpr h)), e]; rfl

/-- **C72.** Addition is exactly the reference: same panics, and every field of the result. -/
theorem C72_add (m : Mode) (ha : WF a) (hb : WF b) (hres : res.lsu.length = 9) :
    seen (addTo m a b res) = (refAdd a b).map .ok := by
  unfold refAdd
  by_cases za : mant a = 0
  · rw [if_pos za]
    unfold FixedDecimal.addTo
    rw [if_pos ((isZero_val ha).mpr (val_eq_zero.mpr za))]; rfl
  by_cases zb : mant b = 0
  · rw [if_neg za, if_pos zb]
    unfold FixedDecimal.addTo
    rw [if_neg (fun h => za (val_eq_zero.mp ((isZero_val ha).mp h))), if_pos ((isZero_val hb).mpr (val_eq_zero.mpr zb))]
    rfl
  rw [if_neg za, if_neg zb]
  have va : val a ≠ 0 := fun h => za (val_eq_zero.mp h)
  have vb : val b ≠ 0 := fun h => zb (val_eq_zero.mp h)
  refine refSum_seen ha hb va vb (v := val a + val b) ?_ ?_ ?_ (addTo_fail m ha hb hres)
  · simpa using abs_sum_le ha hb false
  · push_cast; rw [add_div, alignTo_val (le_max_left _ _), alignTo_val (le_max_right _ _)]
  · intro hf
    obtain ⟨r, e, h⟩ := addTo_ok m ha hb hres hf
    exact ⟨r, e, h, C65_add_trimmed ha hb hres va vb e⟩

/-- **C72.** Subtraction is exactly the reference. -/
theorem C72_sub (m : Mode) (ha : WF a) (hb : WF b) (hres : res.lsu.length = 9) :
    seen (subTo m a b res) = (refSub a b).map .ok := by
  unfold refSub
  by_cases za : mant a = 0
  · rw [if_pos za]
    unfold FixedDecimal.subTo
    rw [if_pos ((isZero_val ha).mpr (val_eq_zero.mpr za))]
    simp only [isNeg_eq]
    by_cases hn : neg b = true
    · rw [if_pos hn]
      simp only [seen, Option.map_some]
      have h := (wf_setPos.mpr hb).eq_dec
      simpa [hn] using h
    · rw [if_neg hn]
      have hn' : neg b = false := by simpa using hn
      simp only [seen, Option.map_some]
      by_cases zb : mant b = 0
      · rw [setNegAndCheckZero_of_zero hb zb]
        have h := (wf_setPos.mpr hb).eq_dec
        simpa [hn', zb] using h
      · rw [setNegAndCheckZero_of_pos hb zb]
        have h := (wf_setNeg.mpr hb).eq_dec
        simpa [hn', zb] using h
  by_cases zb : mant b = 0
  · rw [if_neg za, if_pos zb]
    unfold FixedDecimal.subTo
    rw [if_neg (fun h => za (val_eq_zero.mp ((isZero_val ha).mp h))), if_pos ((isZero_val hb).mpr (val_eq_zero.mpr zb))]
    rfl
  rw [if_neg za, if_neg zb]
  have va : val a ≠ 0 := fun h => za (val_eq_zero.mp h)
  have vb : val b ≠ 0 := fun h => zb (val_eq_zero.mp h)
  refine refSum_seen ha hb va vb (v := val a - val b) ?_ ?_ ?_ (subTo_fail m ha hb hres)
  · simpa [sub_eq_add_neg] using abs_sum_le ha hb true
  · push_cast; rw [sub_div, alignTo_val (le_max_left _ _), alignTo_val (le_max_right _ _)]
  · intro hf
    obtain ⟨r, e, h⟩ := subTo_ok m ha hb hres hf
    exact ⟨r, e, h, C65_sub_trimmed ha hb hres va vb e⟩

/-- **C72.** Multiplication is exactly the reference. -/
theorem C72_mul (m : Mode) (ha : WF a) (hb : WF b) (hres : res.lsu.length = 9) :
    seen (mulTo m a b res) = refMul m a b := by
  unfold refMul
  by_cases hz : mant a = 0 ∨ mant b = 0
  · rw [if_pos hz, mulTo_zero m ha hb hres (by rwa [val_eq_zero, val_eq_zero]), dec_zero]; rfl
  rw [if_neg hz]
  push Not at hz
  have za : val a ≠ 0 := fun h => hz.1 (val_eq_zero.mp h)
  have zb : val b ≠ 0 := fun h => hz.2 (val_eq_zero.mp h)
  by_cases h82 : 82 ≤ intgDigits a + intgDigits b ∧ intgDigits a + intgDigits b ≤ 119
  · rw [if_pos h82, C29_overflow m ha hb hres za zb h82.1 h82.2]; rfl
  rw [if_neg h82]
  by_cases hf : MulFits m a b
  · rw [if_pos hf]
    by_cases h9 : codeMul a b < 1000000000 ^ 9
    · rw [if_pos h9]
      obtain ⟨l, e, h1, h2, h3⟩ := mulTo_whole m ha hb hres za zb hf h9
      have hsh := mul_shape hf.1
      have hu : unitsVal l = codeMul a b := by rw [unitsVal_eq_psum, h1, h3]
      have hI : 9 * mulIU a b < 128 := by omega
      rw [e, signed_eq_dec _ h1 h2 (Int.natCast_nonneg _) (neg_mk hI), intgDigits_mk hI]
      simp only [hu, seen, fracDigits, Int.toNat_natCast]
    · rw [if_neg h9]
      obtain ⟨st, e, -⟩ := mulTo_carry m ha hb hres za zb hf (by omega)
      rw [e]; rfl
  · rw [if_neg hf]
    rcases mulTo_fail m ha hb hres za zb hf with ⟨p, hp⟩ | ⟨h1, h2, -⟩
    · rw [hp]; rfl
    · exact absurd ⟨h1, by omega⟩ h82

theorem fromU64Loop_count {σ : Type} : ∀ (fuel : Nat) (src : Int) (i : Int) (l l' : List Int) (i' : Int), 0 ≤ src →
    (FixedDecimal.fromU64Loop fuel src i l : Out σ _) = .ok (i', l') → i' = i + unitCount src := by
  intro fuel
  induction fuel with
  | zero => intro src i l l' i' _ h; simp [FixedDecimal.fromU64Loop] at h
  | succ fuel ih =>
    intro src i l l' i' h0 h
    unfold FixedDecimal.fromU64Loop at h
    by_cases hs : src = 0
    · rw [if_pos hs] at h
      injection h with h; injection h with h1 h2
      rw [hs, ← h1]; simp [unitCount]
    · rw [if_neg hs] at h
      dsimp only at h
      obtain ⟨l1, -, h⟩ := bind_eq_ok.mp h
      rw [Int.tdiv_eq_ediv_of_nonneg h0] at h
      have e := ih _ _ _ _ _ (Int.ediv_nonneg h0 (by decide)) h
      rw [e]
      have hU : UNIT = 1000000000 := rfl
      have q0 : 0 ≤ src / 1000000000 := Int.ediv_nonneg h0 (by decide)
      rw [hU]
      have : unitCount src = unitCount (src / 1000000000) + 1 := by
        have hle : ∀ n, unitCount src ≤ n + 1 ↔ unitCount (src / 1000000000) ≤ n := by
          intro n
          rw [unitCount_le h0, unitCount_le q0, pow_succ, Int.ediv_lt_iff_lt_mul (by norm_num)]
        have h1 := (hle (unitCount (src / 1000000000))).mpr le_rfl
        have h3 : 1 ≤ unitCount src := by
          by_contra hc
          have := (unitCount_le h0 0).mp (by omega)
          simp at this; omega
        have h2 := (hle (unitCount src - 1)).mp (by omega)
        omega
      rw [this]; push_cast; ring

/-- **C72.** `From<u64>` is exactly the reference. -/
theorem C72_from_u64 {σ : Type} {n : Int} (h0 : 0 ≤ n) (h1 : n < 2 ^ 64) :
    (FixedDecimal.fromU64 n : Out σ _) = .ok (trimmed 0 n) := by
  obtain ⟨d, e, v, s, t, f, i⟩ := C45_from_u64 (σ := σ) h0 h1
  rw [e]; congr 1
  have hm : mant d = n := by
    have hfu : fu d = 0 := by unfold fu fracDigits; rw [f]; rfl
    rw [val_int hfu, s] at v
    exact_mod_cast v
  unfold FixedDecimal.fromU64 at e
  obtain ⟨⟨i', l'⟩, e1, e2⟩ := bind_eq_ok.mp e
  have hc := fromU64Loop_count _ _ _ _ _ _ h0 e1
  rw [zero_add] at hc
  simp only [pure_ok] at e2
  injection e2 with e2
  have hcnt : unitCount n ≤ 3 := (unitCount_le h0 3).mpr (by norm_num at h1 ⊢; omega)
  have hid : intgDigits d = 9 * unitCount n := by
    rw [← e2, hc, show ((unitCount n : Nat) : Int) * DIGITS_PER_UNIT = ((9 * unitCount n : Nat) : Int) by
      unfold DIGITS_PER_UNIT; push_cast; ring]
    exact intgDigits_mk (by omega)
  have h := t.toWF.eq_dec
  rw [s, hid, hm, show fracDigits d = 0 by unfold fracDigits; rw [f]; rfl] at h
  rw [h]
  unfold trimmed
  rw [abs_of_nonneg h0, decide_eq_false (by omega)]
  simp [unitsFor]

/-- **C72.** `From<i64>` is exactly the reference. -/
theorem C72_from_i64 {σ : Type} (m : Mode) {n : Int} (h0 : -2 ^ 63 ≤ n) (h1 : n < 2 ^ 63) :
    (FixedDecimal.fromI64 m n : Out σ _) = .ok (refInt n) := by
  unfold FixedDecimal.fromI64 refInt
  by_cases hm : n = -(2 ^ 63)
  · rw [if_pos hm, if_pos hm, hm]
    show Out.ok _ = Out.ok _
    congr 1
  rw [if_neg hm, if_neg hm]
  norm_num at h0 h1 hm
  by_cases hneg : n < 0
  · rw [if_pos hneg, i64_ok (by omega) (by omega), ok_bind]
    have e : (-n) % (2 ^ 64 : Int) = -n := Int.emod_eq_of_lt (by omega) (by norm_num; omega)
    rw [e, C72_from_u64 (by omega) (by norm_num; omega), ok_bind]
    show Out.ok _ = _
    congr 1
    unfold trimmed
    rw [abs_neg]
    have hc : unitCount |n| ≤ 3 := (unitCount_le (abs_nonneg n) 3).mpr (by rw [abs_of_neg hneg]; norm_num; omega)
    rw [decide_eq_false (by omega), decide_eq_true hneg]
    unfold dec FixedDecimal.setNeg
    simp only [FixedDecimal.mk.injEq, and_true]
    have : unitCount |n| - unitsFor 0 ≤ 3 := by omega
    generalize unitCount |n| - unitsFor 0 = k at this ⊢
    obtain rfl | rfl | rfl | rfl : k = 0 ∨ k = 1 ∨ k = 2 ∨ k = 3 := by omega
    all_goals simp
  · rw [if_neg hneg]
    exact C72_from_u64 (by omega) (by norm_num; omega)

/-- Each of these theorems at work: 123456789012.345 + -7.5, minus -7.5, times -7.5; the sum and product that do not fit; the
smallest `i64`. -/
example : WF Samples.a ∧ WF Samples.c ∧
    refAdd Samples.a Samples.c = some ⟨18#8, 3, [845000000, 456789004, 123, 0, 0, 0, 0, 0, 0]⟩ ∧
    refSub Samples.a Samples.c = some ⟨18#8, 3, [845000000, 456789019, 123, 0, 0, 0, 0, 0, 0]⟩ ∧
    refMul m Samples.a Samples.c = some (.ok ⟨0x92#8, 5, [587500000, 925917592, 925, 0, 0, 0, 0, 0, 0]⟩) ∧
    refAdd ⟨81#8, 0, [1, 0, 0, 0, 0, 0, 0, 0, 1]⟩ Samples.c = none ∧
    refMul m ⟨81#8, 0, [1, 0, 0, 0, 0, 0, 0, 0, 1]⟩ Samples.c = some (.error .overflow) ∧
    refInt (-2 ^ 63) = ⟨0x93#8, 0, [854775808, 223372036, 9, 0, 0, 0, 0, 0, 0]⟩ ∧
    trimmed 0 (2 ^ 64 - 1) = ⟨27#8, 0, [709551615, 446744073, 18, 0, 0, 0, 0, 0, 0]⟩ := by
  refine ⟨by decide, by decide, by decide +kernel, by decide +kernel, ?_, by decide +kernel, ?_, by decide +kernel,
    by decide +kernel⟩ <;> cases m <;> decide +kernel

end Props
end Fxd
