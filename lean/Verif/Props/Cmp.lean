import Verif.Proofs.CmpLemmas
import Verif.Props.Samples
/-!
# Properties C16-C19: comparison, equality, hashing
-/

namespace Fxd.Props
open Fxd Spec FixedDecimal

variable {σ : Type}

/-- **C16** `cmp` compares the numeric values; between two numerically equal decimals (which differ in sign
flag only if both are zero) the one with the sign flag is smaller. -/
theorem C16_cmp_spec (m : Mode) {a b : FixedDecimal} (ha : WF a) (hb : WF b) :
    (FixedDecimal.cmp m a b : Out σ Ordering) =
      .ok ((compare (val a) (val b)).then (compare (neg b) (neg a))) := by
  have pa := absVal_nonneg ha
  have pb := absVal_nonneg hb
  unfold FixedDecimal.cmp
  simp only [isNeg_eq]
  cases hna : neg a <;> cases hnb : neg b <;> simp only [val, hna, hnb, if_true, if_false, Bool.false_eq_true]
  · rw [cmpAbs_spec m ha hb]
    have : compare false false = Ordering.eq := by decide
    rw [this]; cases compare (absVal a) (absVal b) <;> rfl
  · congr 1
    have hc : compare true false = Ordering.gt := by decide
    rw [hc]
    rcases lt_or_eq_of_le (show - absVal b ≤ absVal a by linarith) with h | h
    · rw [compare_gt_iff_gt.mpr h]; rfl
    · rw [compare_eq_iff_eq.mpr h.symm]; rfl
  · congr 1
    have hc : compare false true = Ordering.lt := by decide
    rw [hc]
    rcases lt_or_eq_of_le (show - absVal a ≤ absVal b by linarith) with h | h
    · rw [compare_lt_iff_lt.mpr h]; rfl
    · rw [compare_eq_iff_eq.mpr h]; rfl
  · rw [cmpAbs_spec m hb ha]
    have hc : compare true true = Ordering.eq := by decide
    rw [hc]
    congr 1
    rcases lt_trichotomy (absVal b) (absVal a) with h | h | h
    · rw [compare_lt_iff_lt.mpr h, compare_lt_iff_lt.mpr (show - absVal a < - absVal b by linarith)]; rfl
    · rw [compare_eq_iff_eq.mpr h, compare_eq_iff_eq.mpr (show - absVal a = - absVal b by rw [h])]; rfl
    · rw [compare_gt_iff_gt.mpr h, compare_gt_iff_gt.mpr (show - absVal b < - absVal a by linarith)]; rfl

theorem same_sign_of_val_eq {a b : FixedDecimal} (ha : WF a) (hb : WF b) (h : val a = val b)
    (hnz : val a ≠ 0) : neg a = neg b := by
  have pa := absVal_nonneg ha
  have pb := absVal_nonneg hb
  cases hna : neg a <;> cases hnb : neg b <;> simp only [val, hna, hnb, if_true, if_false, Bool.false_eq_true,
    reduceCtorEq] at h hnz ⊢
  · exact absurd (show absVal a = 0 by linarith) hnz
  · exact absurd (show - absVal a = 0 by linarith) hnz

/-- **C16** For two decimals that are not both zero, `cmp` is exactly the order of the values. -/
theorem C16_cmp_numeric (m : Mode) {a b : FixedDecimal} (ha : WF a) (hb : WF b)
    (hnz : ¬ (val a = 0 ∧ val b = 0)) :
    (FixedDecimal.cmp m a b : Out σ Ordering) = .ok (compare (val a) (val b)) := by
  rw [C16_cmp_spec m ha hb]
  rcases lt_trichotomy (val a) (val b) with h | h | h
  · rw [compare_lt_iff_lt.mpr h]; rfl
  · have hs : neg a = neg b := same_sign_of_val_eq ha hb h (by
      intro h0; exact hnz ⟨h0, h ▸ h0⟩)
    rw [compare_eq_iff_eq.mpr h, hs, compare_eq_iff_eq.mpr rfl]; rfl
  · rw [compare_gt_iff_gt.mpr h]; rfl

/-- **C16** Two zeros are ordered by their sign flags: `-0 < +0`. -/
theorem C16_cmp_zeros (m : Mode) {a b : FixedDecimal} (ha : WF a) (hb : WF b)
    (hza : val a = 0) (hzb : val b = 0) :
    (FixedDecimal.cmp m a b : Out σ Ordering) =
      .ok (if neg a = neg b then .eq else if neg a then .lt else .gt) := by
  rw [C16_cmp_spec m ha hb, hza, hzb]
  cases neg a <;> cases neg b <;> simp <;> decide

/-- non-vacuity: -7.50 < 123456789012.345, -7.50 < -0.00000000075 -/
example (m : Mode) : (FixedDecimal.cmp m Samples.c Samples.b : Out Empty Ordering) = .ok .lt ∧
    ¬ (val Samples.c = 0 ∧ val Samples.b = 0) := by
  constructor
  · rw [C16_cmp_spec m Samples.c_tight.toWF Samples.b_tight.toWF, Samples.val_c, Samples.val_b,
      compare_lt_iff_lt.mpr (by norm_num)]; rfl
  · rw [Samples.val_c]; norm_num
/-- non-vacuity of the two-zero case: "-0" and zero() -/
example : WF Samples.nz ∧ val Samples.nz = 0 ∧ neg Samples.nz = true ∧ WF FixedDecimal.zero :=
  ⟨Samples.nz_tight.toWF, val_eq_zero.mpr (by decide), by decide, wf_zero⟩

/-- **C17** `cmp` is reflexive. -/
theorem C17_cmp_refl (m : Mode) {a : FixedDecimal} (ha : WF a) :
    (FixedDecimal.cmp m a a : Out σ Ordering) = .ok .eq := by
  rw [C16_cmp_spec m ha ha, compare_eq_iff_eq.mpr rfl, compare_eq_iff_eq.mpr rfl]; rfl

/-- **C17** Swapping the operands reverses the answer. -/
theorem C17_cmp_swap (m : Mode) {a b : FixedDecimal} (ha : WF a) (hb : WF b) {o : Ordering}
    (h : (FixedDecimal.cmp m a b : Out σ Ordering) = .ok o) : (FixedDecimal.cmp m b a : Out σ Ordering) = .ok o.swap := by
  rw [C16_cmp_spec m ha hb] at h
  injection h with h
  rw [C16_cmp_spec m hb ha, ← h]
  congr 1
  rcases lt_trichotomy (val a) (val b) with h1 | h1 | h1
  · rw [compare_lt_iff_lt.mpr h1, compare_gt_iff_gt.mpr h1]; rfl
  · rw [compare_eq_iff_eq.mpr h1, compare_eq_iff_eq.mpr h1.symm]
    cases neg a <;> cases neg b <;> decide
  · rw [compare_gt_iff_gt.mpr h1, compare_lt_iff_lt.mpr h1]; rfl

/-- **C17** `cmp` never panics on well-formed decimals. -/
theorem C17_cmp_total (m : Mode) {a b : FixedDecimal} (ha : WF a) (hb : WF b) :
    ∃ o, (FixedDecimal.cmp m a b : Out σ Ordering) = .ok o := ⟨_, C16_cmp_spec m ha hb⟩

theorem cmp_le_iff (m : Mode) {a b : FixedDecimal} (ha : WF a) (hb : WF b) :
    (FixedDecimal.cmp m a b : Out σ Ordering) ≠ .ok .gt ↔
      val a < val b ∨ (val a = val b ∧ (neg a = true ∨ neg b = false)) := by
  rw [C16_cmp_spec m ha hb]
  rcases lt_trichotomy (val a) (val b) with h1 | h1 | h1
  · rw [compare_lt_iff_lt.mpr h1]; simp [h1]
  · rw [compare_eq_iff_eq.mpr h1, h1]
    cases neg a <;> cases neg b <;> simp <;> decide
  · rw [compare_gt_iff_gt.mpr h1]
    have h2 : ¬ val a < val b := not_lt.mpr h1.le
    have h3 : val a ≠ val b := h1.ne'
    simp [h2, h3]

/-- **C17** `≤` (not Greater) is transitive. -/
theorem C17_cmp_trans (m : Mode) {a b c : FixedDecimal} (ha : WF a) (hb : WF b) (hc : WF c)
    (hab : (FixedDecimal.cmp m a b : Out σ Ordering) ≠ .ok .gt) (hbc : (FixedDecimal.cmp m b c : Out σ Ordering) ≠ .ok .gt) :
    (FixedDecimal.cmp m a c : Out σ Ordering) ≠ .ok .gt := by
  rw [cmp_le_iff m ha hb] at hab
  rw [cmp_le_iff m hb hc] at hbc
  rw [cmp_le_iff m ha hc]
  rcases hab with h1 | ⟨h1, h2⟩ <;> rcases hbc with h3 | ⟨h3, h4⟩
  · left; linarith
  · left; linarith
  · left; linarith
  · right; refine ⟨h1.trans h3, ?_⟩
    rcases h2 with h2 | h2
    · exact Or.inl h2
    · rw [h2] at h4; right; simpa using h4

/-- -7.50, then -0.00000000075, then 123456789012.345 -/
example (m : Mode) : WF Samples.c ∧ WF Samples.b ∧ WF Samples.a ∧ (FixedDecimal.cmp m Samples.c Samples.b : Out Unit _) ≠ .ok .gt ∧
    (FixedDecimal.cmp m Samples.b Samples.a : Out Unit _) ≠ .ok .gt := by
  cases m <;> decide +kernel

/-- **C18** `==` holds exactly for decimals with the same value and the same sign flag - whatever their
scales. -/
theorem C18_eq_iff (m : Mode) {a b : FixedDecimal} (ha : WF a) (hb : WF b) :
    (eq m a b : Out σ Bool) = .ok (decide (val a = val b ∧ neg a = neg b)) := by
  unfold FixedDecimal.eq
  rw [C16_cmp_spec m ha hb]
  simp only [ok_bind, pure_ok]
  congr 1
  rcases lt_trichotomy (val a) (val b) with h1 | h1 | h1
  · rw [compare_lt_iff_lt.mpr h1]; simp [h1.ne]
  · rw [compare_eq_iff_eq.mpr h1, h1]; cases neg a <;> cases neg b <;> simp
  · rw [compare_gt_iff_gt.mpr h1]; simp [h1.ne']

/-- **C18** Equal value and equal sign flag give `==`. -/
theorem C18_eq_of_val_eq (m : Mode) {a b : FixedDecimal} (ha : WF a) (hb : WF b)
    (hv : val a = val b) (hs : neg a = neg b) : (eq m a b : Out σ Bool) = .ok true := by
  rw [C18_eq_iff m ha hb]; simp [hv, hs]

/-- **C17** `==` is an equivalence relation on well-formed decimals. -/
theorem C17_eq_equivalence (m : Mode) :
    (∀ a, WF a → (eq m a a : Out σ Bool) = .ok true) ∧
    (∀ a b, WF a → WF b → (eq m a b : Out σ Bool) = eq m b a) ∧
    (∀ a b c, WF a → WF b → WF c → (eq m a b : Out σ Bool) = .ok true →
      (eq m b c : Out σ Bool) = .ok true → (eq m a c : Out σ Bool) = .ok true) := by
  refine ⟨fun a ha => ?_, fun a b ha hb => ?_, fun a b c ha hb hc h1 h2 => ?_⟩
  · rw [C18_eq_iff m ha ha]; simp
  · rw [C18_eq_iff m ha hb, C18_eq_iff m hb ha]; congr 1
    rw [decide_eq_decide]; constructor <;> rintro ⟨h1, h2⟩ <;> exact ⟨h1.symm, h2.symm⟩
  · rw [C18_eq_iff m ha hb] at h1; rw [C18_eq_iff m hb hc] at h2; rw [C18_eq_iff m ha hc]
    simp only [Out.ok.injEq, decide_eq_true_eq] at h1 h2 ⊢
    exact ⟨h1.1.trans h2.1, h1.2.trans h2.2⟩

/-- **C17** `<`, `>` and `==` are mutually exclusive and exhaustive, and agree with `cmp`. -/
theorem C17_trichotomy (m : Mode) {a b : FixedDecimal} (ha : WF a) (hb : WF b) :
    ∃ o, (FixedDecimal.cmp m a b : Out σ Ordering) = .ok o ∧ (lt m a b : Out σ Bool) = .ok (o == .lt) ∧
      (gt m a b : Out σ Bool) = .ok (o == .gt) ∧ (eq m a b : Out σ Bool) = .ok (o == .eq) := by
  refine ⟨_, C16_cmp_spec m ha hb, ?_, ?_, ?_⟩ <;>
    simp only [FixedDecimal.lt, FixedDecimal.gt, FixedDecimal.eq, C16_cmp_spec m ha hb, ok_bind, pure_ok]

/-- non-vacuity of C18: 7.50 and 7.5000000000 have different shapes and are equal. -/
example : ∃ a b, Tight a ∧ Tight b ∧ a ≠ b ∧ val a = val b ∧ neg a = neg b ∧
    (∀ m, (eq m a b : Out Empty Bool) = .ok true) := by
  refine ⟨Samples.c, ⟨0x81#8, 10, [0, 500000000, 7, 0, 0, 0, 0, 0, 0]⟩, by decide, by decide, by decide,
    ?_, by decide, ?_⟩
  · rw [Samples.val_c]
    have h : mant ⟨0x81#8, 10, [0, 500000000, 7, 0, 0, 0, 0, 0, 0]⟩ = 7500000000000000000 := by decide
    have h2 : neg ⟨0x81#8, 10, [0, 500000000, 7, 0, 0, 0, 0, 0, 0]⟩ = true := by decide
    have h3 : fu ⟨0x81#8, 10, [0, 500000000, 7, 0, 0, 0, 0, 0, 0]⟩ = 2 := by decide
    simp only [val, absVal, h, h2, h3]; norm_num
  · intro m; cases m <;> decide

/-! ## Hash -/

theorem psum_inj {f g : Nat → Int} (hf : Dig f) (hg : Dig g) {n : Nat} (h : psum f n = psum g n) :
    ∀ i < n, f i = g i := by
  induction n with
  | zero => intro i hi; omega
  | succ n ih =>
    rw [psum_succ, psum_succ] at h
    have f0 := psum_nonneg hf n
    have g0 := psum_nonneg hg n
    have f1 := psum_lt hf n
    have g1 := psum_lt hg n
    have hB : (0 : Int) < 1000000000 ^ n := by positivity
    have hfg : f n = g n := by
      rcases lt_trichotomy (f n) (g n) with h1 | h1 | h1
      · have : (f n + 1) * 1000000000 ^ n ≤ g n * 1000000000 ^ n :=
          mul_le_mul_of_nonneg_right (by omega) hB.le
        linarith
      · exact h1
      · have : (g n + 1) * 1000000000 ^ n ≤ f n * 1000000000 ^ n :=
          mul_le_mul_of_nonneg_right (by omega) hB.le
        linarith
    intro i hi
    rcases Nat.lt_succ_iff_lt_or_eq.mp hi with h4 | h4
    · exact ih (by rw [hfg] at h; linarith) i h4
    · rw [h4]; exact hfg

/-- The writes a decimal makes to the hasher. -/
theorem hash_writes (m : Mode) {d : FixedDecimal} (hd : WF d) : (FixedDecimal.hash m d : Out σ (List HashWrite)) =
    .ok ([.u8 (if neg d then 1 else 0), .u8 (iu d), .u8 (fu d)] ++
      (d.lsu.take (iu d + fu d)).map fun v => .u32 (v % 2 ^ 32)) := by
  unfold FixedDecimal.hash
  rw [hd.intgUnits, hd.fracUnits]
  simp only [ok_bind]
  rw [slice_ok (by omega) (by omega) (by rw [hd.len]; have := hd.fits; omega)]
  simp only [ok_bind, pure_ok, isNeg_eq, Int.toNat_zero, List.drop_zero, Int.sub_zero]
  have : ((iu d : Int) + (fu d : Int)).toNat = iu d + fu d := by omega
  rw [this]

/-- **C19** (partial: the full claim "equal decimals hash equally" is false of the code, see
`C19_hash_false`; missing here: decimals with different unit counts.)  Decimals that are `==` and have the same
number of integral and fractional units make identical writes to the hasher. -/
theorem C19_hash_eq_partial (m : Mode) {a b : FixedDecimal} (ha : WF a) (hb : WF b)
    (hi : iu a = iu b) (hf : fu a = fu b) (h : (eq m a b : Out σ Bool) = .ok true) :
    (FixedDecimal.hash m a : Out σ (List HashWrite)) = FixedDecimal.hash m b := by
  rw [C18_eq_iff m ha hb] at h
  simp only [Out.ok.injEq, decide_eq_true_eq] at h
  obtain ⟨hv, hs⟩ := h
  have habs : absVal a = absVal b := by
    have h1 := abs_val ha; have h2 := abs_val hb; rw [← h1, ← h2, hv]
  have hm : mant a = mant b := by
    unfold absVal at habs; rw [hf] at habs
    have hp : (10 : ℚ) ^ (9 * fu b) ≠ 0 := by positivity
    have := (div_left_inj' hp).mp habs
    exact_mod_cast this
  have hdg : a.lsu.take (iu a + fu a) = b.lsu.take (iu b + fu b) := by
    rw [ha.mant_eq, hb.mant_eq, hi, hf] at hm
    have := psum_inj ha.dig hb.dig hm
    apply list_ext_dg
    · simp [List.length_take, ha.len, hb.len, hi, hf]
    · intro i hi'
      rw [List.length_take] at hi'
      rw [dg_take, dg_take, hi, hf]
      split_ifs with h1
      · exact this i h1
      · rfl
  rw [hash_writes m ha, hash_writes m hb, hdg, hs, hi, hf]

theorem map_u32_inj {l l' : List Int} (h : DigL l) (h' : DigL l')
    (he : (l.map fun v => HashWrite.u32 (v % 2 ^ 32)) = l'.map fun v => HashWrite.u32 (v % 2 ^ 32)) : l = l' := by
  induction l generalizing l' with
  | nil => cases l' with
    | nil => rfl
    | cons _ _ => simp at he
  | cons u us ih => cases l' with
    | nil => simp at he
    | cons v vs =>
      rw [List.map_cons, List.map_cons, List.cons.injEq, HashWrite.u32.injEq] at he
      have h1 := h u (by simp)
      have h2 := h' v (by simp)
      have e1 : u % 2 ^ 32 = u := Int.emod_eq_of_lt h1.1 (by norm_num; omega)
      have e2 : v % 2 ^ 32 = v := Int.emod_eq_of_lt h2.1 (by norm_num; omega)
      rw [e1, e2] at he
      rw [he.1, ih (fun x hx => h x (by simp [hx])) (fun x hx => h' x (by simp [hx])) he.2]

/-- **C19**, exactly: two decimals make the same writes to the hasher if and only if they are `==` and have the same
number of integral and fractional units. In particular different numbers never make the same writes. -/
theorem C19_hash_iff (m : Mode) {a b : FixedDecimal} (ha : WF a) (hb : WF b) :
    (FixedDecimal.hash m a : Out σ (List HashWrite)) = FixedDecimal.hash m b ↔
      (eq m a b : Out σ Bool) = .ok true ∧ iu a = iu b ∧ fu a = fu b := by
  constructor
  · intro h
    rw [hash_writes m ha, hash_writes m hb] at h
    injection h with h
    simp only [List.cons_append, List.nil_append, List.cons.injEq, HashWrite.u8.injEq, Int.natCast_inj] at h
    obtain ⟨h1, h2, h3, h4⟩ := h
    have hs : neg a = neg b := by cases hna : neg a <;> cases hnb : neg b <;> simp [hna, hnb] at h1 <;> rfl
    have hl := map_u32_inj (ha.digL.take _) (hb.digL.take _) h4
    have hv : val a = val b := by unfold val absVal mant; rw [hs, hl, h3]
    refine ⟨?_, h2, h3⟩
    rw [C18_eq_iff m ha hb]
    simp [hv, hs]
  · rintro ⟨h1, h2, h3⟩
    exact C19_hash_eq_partial m ha hb h2 h3 h1

/-- **C19** is false in general: the decimals parsed from "1" and "1.0" are `==` but write different bytes
to the hasher. -/
theorem C19_hash_false : ∃ a b, (∀ m, fromStr m (Samples.bytes "1") = .ok a) ∧
    (∀ m, fromStr m (Samples.bytes "1.0") = .ok b) ∧
    (∀ m, (eq m a b : Out Empty Bool) = .ok true) ∧
    (∀ m, (FixedDecimal.hash m a : Out Empty (List HashWrite)) ≠ FixedDecimal.hash m b) := by
  refine ⟨⟨1#8, 0, [1, 0, 0, 0, 0, 0, 0, 0, 0]⟩, ⟨1#8, 1, [0, 1, 0, 0, 0, 0, 0, 0, 0]⟩, ?_, ?_, ?_, ?_⟩ <;>
    intro m <;> cases m <;> decide +kernel

/-- non-vacuity of C19_hash_eq_partial: 0.1 and 0.10. -/
example (m : Mode) : ∃ a b, WF a ∧ WF b ∧ a ≠ b ∧ iu a = iu b ∧ fu a = fu b ∧
    (eq m a b : Out Empty Bool) = .ok true := by
  refine ⟨⟨1#8, 1, [100000000, 0, 0, 0, 0, 0, 0, 0, 0]⟩, ⟨1#8, 2, [100000000, 0, 0, 0, 0, 0, 0, 0, 0]⟩, ?_⟩
  cases m <;> decide

end Fxd.Props
