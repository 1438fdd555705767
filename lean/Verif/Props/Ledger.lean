import Verif.Props.Signs
import Verif.Props.Cmp
/-!
# Properties C65, C66: sums are canonical, and ledgers

`add_to` and `sub_to` always leave the same representation of a number (no leading zero unit, digit count a multiple of
nine), so sums do not depend on the order of the operands bit for bit; and summing any list of amounts that fit in a
common layout is exact and cannot fail.
-/

namespace Fxd
open Spec

/-- The representation sums and differences are left in: integral digits counted in whole units, no leading zero unit. -/
structure Spec.Trimmed (r : FixedDecimal) : Prop where
  digits : intgDigits r = 9 * iu r
  lead : 0 < iu r → 10 ^ (9 * (iu r - 1)) ≤ absVal r

theorem trimmed_mk {r : FixedDecimal} (h : WF r) (hi : intgDigits r = 9 * iu r)
    (ht : 0 < iu r → 0 < dg r.lsu (iu r - 1 + fu r)) : Trimmed r := by
  refine ⟨hi, fun h0 => ?_⟩
  have h1 := psum_ge_of_pos h.dig (n := iu r + fu r) (i := iu r - 1 + fu r) (by omega) (ht h0)
  rw [← h.mant_eq] at h1
  unfold absVal
  rw [le_div_iff₀ (by positivity), ← pow_add, ← mul_add, ← pow9q]
  exact_mod_cast h1

theorem trimmed_setNeg {r : FixedDecimal} (h : Trimmed r) : Trimmed r.setNeg :=
  ⟨by simpa using h.digits, by simpa using h.lead⟩
theorem trimmed_setPos {r : FixedDecimal} (h : Trimmed r) : Trimmed r.setPos :=
  ⟨by simpa using h.digits, by simpa using h.lead⟩
theorem trimmed_signed {r : FixedDecimal} (h : Trimmed r) (s : Bool) :
    Trimmed (if s then r.setNegAndCheckZero else r) := by
  cases s
  · exact h
  · simp only [if_true]
    unfold FixedDecimal.setNegAndCheckZero
    dsimp only
    split_ifs
    · exact trimmed_setPos (trimmed_setNeg h)
    · exact trimmed_setNeg h

theorem addAbs_trimmed {m : Mode} {a b res r : FixedDecimal} (ha : WF a) (hb : WF b)
    (hres : res.lsu.length = 9) (h : addAbs m a b res = .ok r) : Trimmed r := by
  by_cases hf : alignedUnits a b ≤ 7 ∨ (alignedUnits a b = 8 ∧ absVal a + absVal b < 10 ^ (9 * max (iu a) (iu b)))
  · have hf' := hf
    unfold alignedUnits at hf'
    obtain ⟨q, h1, h2, h3, h4, h5, h6, h7⟩ := addAbs_spec m ha hb hres (by omega) (fun h8 => by
      rcases hf' with h | h
      · omega
      · exact (sum_lt_iff h8).mpr h.2)
    rw [h] at h1; injection h1 with h1; subst h1
    exact trimmed_mk h2 h5 h7
  · obtain ⟨p, hp⟩ := addAbs_fail m ha hb hres hf
    rw [h] at hp; cases hp

theorem subAbs_trimmed {m : Mode} {a b res r : FixedDecimal} {s : Bool} (ha : WF a) (hb : WF b)
    (hres : res.lsu.length = 9) (h : subAbs m a b res = .ok (r, s)) : Trimmed r := by
  by_cases hf : alignedUnits a b ≤ 8
  · obtain ⟨q, h1, h2, h3, h4, h5, h6, h7⟩ := subAbs_spec m ha hb hres hf
    rw [h] at h1; injection h1 with h1; injection h1 with h1 h3; subst h1
    exact trimmed_mk h2 h5 h7
  · obtain ⟨p, hp⟩ := subAbs_fail m ha hb hres hf
    rw [h] at hp; cases hp

/-- Two trimmed decimals with the same scale, magnitude and sign are the same bit for bit. -/
theorem Spec.Trimmed.unique {r s : FixedDecimal} (hr : WF r) (hs : WF s) (tr : Trimmed r) (ts : Trimmed s)
    (hf : r.frac = s.frac) (hn : neg r = neg s) (hv : absVal r = absVal s) : r = s := by
  have hfd : fracDigits r = fracDigits s := by
    have := hr.frac_eq; have := hs.frac_eq; omega
  have hfu : fu r = fu s := by unfold fu; rw [hfd]
  have hm : mant r = mant s := by
    unfold absVal at hv; rw [hfu] at hv
    have hp : (10 : ℚ) ^ (9 * fu s) ≠ 0 := by positivity
    exact_mod_cast (div_left_inj' hp).mp hv
  have le : ∀ {x y : FixedDecimal}, WF y → Trimmed x → absVal x = absVal y → iu x ≤ iu y := by
    intro x y hy tx hxy
    by_contra hc
    have h1 := tx.lead (by omega)
    have h2 := absVal_lt_pow hy
    rw [hxy] at h1
    have h3 : (10 : ℚ) ^ (9 * (iu x - 1)) < 10 ^ (9 * iu y) := lt_of_le_of_lt h1 h2
    have h4 := (pow_lt_pow_iff_right₀ (by norm_num : (1 : ℚ) < 10)).mp h3
    omega
  have hi : iu r = iu s := le_antisymm (le hs tr hv) (le hr ts hv.symm)
  have hid : intgDigits r = intgDigits s := by rw [tr.digits, ts.digits, hi]
  have hl : r.lsu = s.lsu := by
    apply list_ext_dg (by rw [hr.len, hs.len])
    rw [hr.len]
    apply Props.psum_inj hr.dig hs.dig
    rw [← hr.mant_eq9, ← hs.mant_eq9, hm]
  have hb : r.intg = s.intg := by
    unfold intgDigits at hid
    unfold neg at hn
    revert hid hn
    generalize r.intg = x
    generalize s.intg = y
    intro h2 h1
    apply BitVec.eq_of_toNat_eq
    have e1 : x.msb = decide (2 ^ 7 ≤ x.toNat) := by rw [BitVec.msb_eq_decide]
    have e2 : y.msb = decide (2 ^ 7 ≤ y.toNat) := by rw [BitVec.msb_eq_decide]
    have b1 := x.isLt
    have b2 := y.isLt
    rw [e1, e2, decide_eq_decide] at h2
    omega
  cases r; cases s
  simp_all

/-- The sign flag is determined by the value, once there is no negative zero. -/
theorem neg_eq_of_val {r s : FixedDecimal} (hr : WF r) (hs : WF s) (nr : ¬ NegZero r) (ns : ¬ NegZero s)
    (hv : val r = val s) : neg r = neg s := by
  have pr := absVal_nonneg hr
  have ps := absVal_nonneg hs
  have zr : absVal r = 0 → neg r = false := fun h => by
    by_contra hc; exact nr ⟨by simpa using hc, absVal_eq_zero.mp h⟩
  have zs : absVal s = 0 → neg s = false := fun h => by
    by_contra hc; exact ns ⟨by simpa using hc, absVal_eq_zero.mp h⟩
  unfold val at hv
  cases h1 : neg r <;> cases h2 : neg s <;> simp only [h1, h2, Bool.false_eq_true, if_false, if_true] at hv ⊢
  · have : absVal s = 0 := by linarith
    rw [zs this] at h2; cases h2
  · have : absVal r = 0 := by linarith
    rw [zr this] at h1; cases h1

namespace Props
open FixedDecimal (addTo subTo mulTo divTo remTo)
variable {m : Mode} {a b res res' r s : FixedDecimal}

/-- **C65** A sum of two non-zero decimals is left in the canonical representation. -/
theorem C65_add_trimmed (ha : WF a) (hb : WF b) (hres : res.lsu.length = 9) (va : val a ≠ 0) (vb : val b ≠ 0)
    (h : addTo m a b res = .ok r) : Trimmed r ∧ ¬ NegZero r := by
  refine ⟨?_, (addTo_res ha hb hres h).noNegZero' va⟩
  have za : a.isZero = false := by rw [← Bool.not_eq_true, isZero_val ha]; exact va
  have zb : b.isZero = false := by rw [← Bool.not_eq_true, isZero_val hb]; exact vb
  rw [addTo_nz za zb] at h
  by_cases hs : neg a = neg b
  · rw [if_pos hs] at h
    obtain ⟨q, h1, h2⟩ := bind_eq_ok.mp h
    injection h2 with h2; subst h2
    exact trimmed_signed (addAbs_trimmed ha hb hres h1) _
  · rw [if_neg hs] at h
    obtain ⟨⟨q, s⟩, h1, h2⟩ := bind_eq_ok.mp h
    injection h2 with h2; subst h2
    exact trimmed_signed (subAbs_trimmed ha hb hres h1) _

/-- **C65** The same for a difference. -/
theorem C65_sub_trimmed (ha : WF a) (hb : WF b) (hres : res.lsu.length = 9) (va : val a ≠ 0) (vb : val b ≠ 0)
    (h : subTo m a b res = .ok r) : Trimmed r ∧ ¬ NegZero r := by
  have za : a.isZero = false := by rw [← Bool.not_eq_true, isZero_val ha]; exact va
  have zb : b.isZero = false := by rw [← Bool.not_eq_true, isZero_val hb]; exact vb
  rw [subTo_nz za zb] at h
  exact C65_add_trimmed ha (wf_opp hb) hres va (by rw [(C64_value hb).1]; simpa using vb) h

/-- **C65** Addition commutes bit for bit: `b + a` is the very same decimal as `a + b` (two zeros excepted, where the
code returns one of the operands; see C24 for success and failure). -/
theorem C65_add_comm_exact (ha : WF a) (hb : WF b) (hres : res.lsu.length = 9) (hres' : res'.lsu.length = 9)
    (hnz : ¬ (val a = 0 ∧ val b = 0)) (h : addTo m a b res = .ok r) : addTo m b a res' = .ok r := by
  by_cases va : val a = 0
  · have vb : val b ≠ 0 := fun hc => hnz ⟨va, hc⟩
    have za : a.isZero = true := (isZero_val ha).mpr va
    have zb : b.isZero = false := by rw [← Bool.not_eq_true, isZero_val hb]; exact vb
    unfold addTo at h ⊢
    simp only [za, zb, Bool.false_eq_true, if_false, if_true] at h ⊢
    exact h
  · by_cases vb : val b = 0
    · have zb : b.isZero = true := (isZero_val hb).mpr vb
      have za : a.isZero = false := by rw [← Bool.not_eq_true, isZero_val ha]; exact va
      unfold addTo at h ⊢
      simp only [za, zb, Bool.false_eq_true, if_false, if_true] at h ⊢
      exact h
    · obtain ⟨s, hs⟩ := ((C24_add_comm (m := m) (r := r) (s := r) ha hb hres hres').1).mp ⟨r, h⟩
      rw [hs]
      have r1 := addTo_res ha hb hres h
      have r2 := addTo_res hb ha hres' hs
      have c1 := C65_add_trimmed ha hb hres va vb h
      have c2 := C65_add_trimmed hb ha hres' vb va hs
      have hv : val r = val s := by rw [r1.value, r2.value, add_comm]
      congr 1
      symm
      apply Trimmed.unique r1.wf r2.wf c1.1 c2.1 (by rw [r1.scale va vb, r2.scale vb va, max_comm])
        (neg_eq_of_val r1.wf r2.wf c1.2 c2.2 hv)
      rw [← abs_val r1.wf, ← abs_val r2.wf, hv]

theorem opp_opp (a : FixedDecimal) : opp (opp a) = a := by
  obtain ⟨i, f, l⟩ := a
  unfold opp FixedDecimal.setPos FixedDecimal.setNeg neg
  dsimp only
  have h : ∀ x : BitVec 8, (if x.msb = true then (if (x &&& 0x7f#8).msb = true then x &&& 0x7f#8 &&& 0x7f#8 else (x &&& 0x7f#8) ||| 0x80#8)
      else (if (x ||| 0x80#8).msb = true then (x ||| 0x80#8) &&& 0x7f#8 else (x ||| 0x80#8) ||| 0x80#8)) = x := by decide +kernel
  have := h i
  split_ifs at this ⊢ <;> simp_all

/-- **C65** `b - a` is `a - b` with the sign reversed, bit for bit (two zeros excepted). -/
theorem C65_sub_anti (ha : WF a) (hb : WF b) (hres : res.lsu.length = 9) (hres' : res'.lsu.length = 9)
    (hnz : ¬ (val a = 0 ∧ val b = 0)) (h : subTo m a b res = .ok r) : subTo m b a res' = .ok (minus r) := by
  by_cases va : val a = 0
  · have vb : val b ≠ 0 := fun hc => hnz ⟨va, hc⟩
    have za : a.isZero = true := (isZero_val ha).mpr va
    have zb : b.isZero = false := by rw [← Bool.not_eq_true, isZero_val hb]; exact vb
    have e : r = opp b := by
      unfold subTo at h
      simp only [za, if_true, isNeg_eq] at h
      unfold opp
      have hz : b.setNeg.isZero = false := zb
      unfold FixedDecimal.setNegAndCheckZero at h
      simp only [hz, Bool.false_eq_true, if_false] at h
      split_ifs at h ⊢ <;> injection h with h <;> exact h.symm
    rw [e, minus_of_nz (by rw [isZero_opp]; exact zb), opp_opp]
    unfold subTo
    simp [za, zb]
  · have za : a.isZero = false := by rw [← Bool.not_eq_true, isZero_val ha]; exact va
    by_cases vb : val b = 0
    · have zb : b.isZero = true := (isZero_val hb).mpr vb
      have e : r = a := by
        unfold subTo at h
        simp only [za, zb, Bool.false_eq_true, if_false, if_true] at h
        injection h with h; exact h.symm
      subst e
      rw [minus_of_nz za]
      unfold subTo FixedDecimal.setNegAndCheckZero opp
      have hz : r.setNeg.isZero = false := za
      simp only [zb, if_true, isNeg_eq, hz, Bool.false_eq_true, if_false]
      split_ifs <;> rfl
    · have zb : b.isZero = false := by rw [← Bool.not_eq_true, isZero_val hb]; exact vb
      rw [subTo_nz za zb] at h
      rw [subTo_nz zb za]
      have vob : val (opp b) ≠ 0 := by rw [(C64_value hb).1]; simpa using vb
      have h1 := C65_add_comm_exact ha (wf_opp hb) hres hres' (fun hc => va hc.1) h
      have h2 := C64_add (m := m) (wf_opp hb) ha hres' (fun hc => va hc.2)
      rw [opp_opp, h1] at h2
      exact h2

/-! Non-vacuity: 123456789012.345 - 7.50 and operands with different unit counts, in both orders. -/
example : ∃ r, addTo m Samples.a Samples.b .zero = .ok r ∧ addTo m Samples.b Samples.a Samples.c = .ok r ∧
    Trimmed r ∧ iu r = 2 := by
  have h : ∃ r, addTo m Samples.a Samples.b .zero = .ok r ∧ iu r = 2 := by
    cases m <;> exact ⟨_, rfl, by decide +kernel⟩
  obtain ⟨r, h1, h2⟩ := h
  have va : val Samples.a ≠ 0 := by rw [Samples.val_a]; norm_num
  have vb : val Samples.b ≠ 0 := by rw [Samples.val_b]; norm_num
  exact ⟨r, h1, C65_add_comm_exact Samples.a_tight.toWF Samples.b_tight.toWF rfl rfl (fun h => va h.1) h1,
    (C65_add_trimmed Samples.a_tight.toWF Samples.b_tight.toWF rfl va vb h1).1, h2⟩
example : ∃ r, subTo m Samples.c Samples.a .zero = .ok r ∧ subTo m Samples.a Samples.c .zero = .ok (minus r) := by
  have h : ∃ r, subTo m Samples.c Samples.a .zero = .ok r := by
    cases m <;> exact ⟨_, rfl⟩
  obtain ⟨r, h1⟩ := h
  have va : val Samples.a ≠ 0 := by rw [Samples.val_a]; norm_num
  exact ⟨r, h1, C65_sub_anti Samples.c_tight.toWF Samples.a_tight.toWF rfl rfl (fun h => va h.2) h1⟩

/-! ## Ledgers -/

/-- A booking: an amount to add or to subtract. -/
inductive Booking
  | credit (x : FixedDecimal)
  | debit (x : FixedDecimal)

def Booking.amount : Booking → FixedDecimal
  | .credit x => x
  | .debit x => x
/-- The number booked. -/
def Booking.value : Booking → ℚ
  | .credit x => val x
  | .debit x => - val x

/-- User code `for e in entries { t = match e { Credit(x) => &t + x, Debit(x) => &t - x } }`. -/
def balance (m : Mode) : FixedDecimal → List Booking → Out Empty FixedDecimal
  | t, [] => .ok t
  | t, .credit x :: es => FixedDecimal.add m t x >>= fun t' => balance m t' es
  | t, .debit x :: es => FixedDecimal.sub m t x >>= fun t' => balance m t' es

/-- The running totals, after each booking. -/
def totals (v : ℚ) : List Booking → List ℚ
  | [] => []
  | e :: es => (v + e.value) :: totals (v + e.value) es

/-- A decimal that needs at most `I` integral and `F` fractional units. -/
structure Within (I F : Nat) (d : FixedDecimal) : Prop where
  wf : WF d
  intg : iu d ≤ I
  frac : fu d ≤ F

theorem add_ok_iff : FixedDecimal.add m a b = .ok r ↔ addTo m a b FixedDecimal.blank = .ok r := by
  unfold FixedDecimal.add
  cases addTo m a b FixedDecimal.blank <;> simp [FixedDecimal.orPanic]
theorem sub_ok_iff : FixedDecimal.sub m a b = .ok r ↔ subTo m a b FixedDecimal.blank = .ok r := by
  unfold FixedDecimal.sub
  cases subTo m a b FixedDecimal.blank <;> simp [FixedDecimal.orPanic]

/-- **C66** Whatever is summed: if no addition fails, the balance is exactly the sum of the bookings. -/
theorem C66_balance_exact : ∀ (es : List Booking) (t : FixedDecimal), WF t → (∀ e ∈ es, WF e.amount) →
    balance m t es = .ok r → val r = val t + (es.map Booking.value).sum ∧ WF r
  | [], t, ht, _, h => by
    unfold balance at h; injection h with h; subst h
    simp [ht]
  | .credit x :: es, t, ht, he, h => by
    unfold balance at h
    obtain ⟨t', h1, h2⟩ := bind_eq_ok.mp h
    have hr := addTo_res ht (he (.credit x) (by simp)) rfl (add_ok_iff.mp h1)
    obtain ⟨h3, h4⟩ := C66_balance_exact es t' hr.wf (fun e h => he e (by simp [h])) h2
    refine ⟨?_, h4⟩
    rw [h3, hr.value, List.map_cons, List.sum_cons, Booking.value]; simp only [Booking.amount]; ring
  | .debit x :: es, t, ht, he, h => by
    unfold balance at h
    obtain ⟨t', h1, h2⟩ := bind_eq_ok.mp h
    have hr := subTo_res ht (he (.debit x) (by simp)) rfl (sub_ok_iff.mp h1)
    obtain ⟨h3, h4⟩ := C66_balance_exact es t' hr.wf (fun e h => he e (by simp [h])) h2
    refine ⟨?_, h4⟩
    rw [h3, hr.value, List.map_cons, List.sum_cons, Booking.value]; simp only [Booking.amount]; ring

theorem within_of_sum {I F : Nat} (ha : Within I F a) (hb : Within I F b) {v : ℚ} (hr : SumRes a b r v)
    (va : val a ≠ 0) (vb : val b ≠ 0) (ht : Trimmed r) (hv : |v| < 10 ^ (9 * I)) : Within I F r := by
  refine ⟨hr.wf, ?_, ?_⟩
  · by_contra hc
    have h1 := ht.lead (by omega)
    rw [← abs_val hr.wf, hr.value] at h1
    have h3 : (10 : ℚ) ^ (9 * (iu r - 1)) < 10 ^ (9 * I) := lt_of_le_of_lt h1 hv
    have h4 := (pow_lt_pow_iff_right₀ (by norm_num : (1 : ℚ) < 10)).mp h3
    omega
  · have h1 := hr.scale va vb
    have e : fracDigits r = max (fracDigits a) (fracDigits b) := by
      have := hr.wf.frac_eq; have := ha.wf.frac_eq; have := hb.wf.frac_eq; omega
    unfold fu; rw [e, unitsFor_max]
    exact max_le ha.frac hb.frac

theorem sumFits_within {I F : Nat} (hIF : I + F ≤ 8) (ha : Within I F a) (hb : Within I F b) {v : ℚ}
    (hv : |v| < 10 ^ (9 * I)) : SumFits a b v := by
  have h1 := ha.intg; have h2 := hb.intg; have h3 := ha.frac; have h4 := hb.frac
  by_cases h7 : alignedUnits a b ≤ 7
  · exact Or.inr (Or.inr (Or.inl h7))
  · refine Or.inr (Or.inr (Or.inr ?_))
    unfold alignedUnits at *
    have e : max (iu a) (iu b) = I := by omega
    exact ⟨by omega, by rw [e]; exact hv⟩

theorem add_within {I F : Nat} (hIF : I + F ≤ 8) (ha : Within I F a) (hb : Within I F b)
    (hv : |val a + val b| < 10 ^ (9 * I)) :
    ∃ r, FixedDecimal.add m a b = .ok r ∧ Within I F r ∧ val r = val a + val b := by
  obtain ⟨r, h1, h2⟩ := addTo_ok m ha.wf hb.wf (res := FixedDecimal.blank) rfl (sumFits_within hIF ha hb hv)
  refine ⟨r, add_ok_iff.mpr h1, ?_, h2.value⟩
  by_cases va : val a = 0
  · have := (isZero_val ha.wf).mpr va
    unfold addTo at h1; rw [if_pos this] at h1; injection h1 with h1; rw [← h1]; exact hb
  · by_cases vb : val b = 0
    · have zb := (isZero_val hb.wf).mpr vb
      have za : a.isZero = false := by rw [← Bool.not_eq_true, isZero_val ha.wf]; exact va
      unfold addTo at h1
      simp only [za, zb, Bool.false_eq_true, if_false, if_true] at h1
      injection h1 with h1; rw [← h1]; exact ha
    · exact within_of_sum ha hb h2 va vb (C65_add_trimmed ha.wf hb.wf rfl va vb h1).1 hv

theorem sub_within {I F : Nat} (hIF : I + F ≤ 8) (ha : Within I F a) (hb : Within I F b)
    (hv : |val a - val b| < 10 ^ (9 * I)) :
    ∃ r, FixedDecimal.sub m a b = .ok r ∧ Within I F r ∧ val r = val a - val b := by
  obtain ⟨r, h1, h2⟩ := subTo_ok m ha.wf hb.wf (res := FixedDecimal.blank) rfl (sumFits_within hIF ha hb hv)
  refine ⟨r, sub_ok_iff.mpr h1, ?_, h2.value⟩
  by_cases va : val a = 0
  · have := (isZero_val ha.wf).mpr va
    have e : iu r = iu b ∧ fu r = fu b := by
      unfold subTo at h1; rw [if_pos this] at h1
      dsimp only at h1
      have e2 : ∀ d : FixedDecimal, iu d.setNegAndCheckZero = iu d ∧ fu d.setNegAndCheckZero = fu d := by
        intro d; unfold FixedDecimal.setNegAndCheckZero; dsimp only; split_ifs <;> simp
      split_ifs at h1 <;> injection h1 with h1 <;> rw [← h1]
      · simp
      · exact e2 b
    exact ⟨h2.wf, by rw [e.1]; exact hb.intg, by rw [e.2]; exact hb.frac⟩
  · by_cases vb : val b = 0
    · have zb := (isZero_val hb.wf).mpr vb
      have za : a.isZero = false := by rw [← Bool.not_eq_true, isZero_val ha.wf]; exact va
      unfold subTo at h1
      simp only [za, zb, Bool.false_eq_true, if_false, if_true] at h1
      injection h1 with h1; rw [← h1]; exact ha
    · exact within_of_sum ha hb h2 va vb (C65_sub_trimmed ha.wf hb.wf rfl va vb h1).1 hv

/-- **C66** A ledger cannot fail: if every amount has at most `9·I` integral and `9·F` fractional digits, `I + F ≤ 8`, and
every running total stays below `10^(9·I)`, then however many bookings there are no operation fails, and the balance is
exactly their sum, in the same layout. -/
theorem C66_balance_total {I F : Nat} (hIF : I + F ≤ 8) : ∀ (es : List Booking) (t : FixedDecimal), Within I F t →
    (∀ e ∈ es, Within I F e.amount) → (∀ v ∈ totals (val t) es, |v| < 10 ^ (9 * I)) →
    ∃ r, balance m t es = .ok r ∧ val r = val t + (es.map Booking.value).sum ∧ Within I F r
  | [], t, ht, _, _ => ⟨t, rfl, by simp, ht⟩
  | .credit x :: es, t, ht, he, hv => by
    unfold totals at hv
    obtain ⟨t', h1, h2, h3⟩ := add_within (m := m) (b := x) hIF ht (he (.credit x) (by simp))
      (hv _ List.mem_cons_self)
    have e : val t' = val t + (Booking.credit x).value := h3
    obtain ⟨r, h4, h5, h6⟩ := C66_balance_total hIF es t' h2 (fun e h => he e (by simp [h]))
      (fun v h => hv v (by rw [e] at h; simp [h]))
    refine ⟨r, ?_, ?_, h6⟩
    · unfold balance; rw [h1]; exact h4
    · rw [h5, e, List.map_cons, List.sum_cons]; ring
  | .debit x :: es, t, ht, he, hv => by
    unfold totals at hv
    obtain ⟨t', h1, h2, h3⟩ := sub_within (m := m) (b := x) hIF ht (he (.debit x) (by simp))
      (by rw [sub_eq_add_neg]; exact hv _ List.mem_cons_self)
    have e : val t' = val t + (Booking.debit x).value := by rw [h3, sub_eq_add_neg]; rfl
    obtain ⟨r, h4, h5, h6⟩ := C66_balance_total hIF es t' h2 (fun e h => he e (by simp [h]))
      (fun v h => hv v (by rw [e] at h; simp [h]))
    refine ⟨r, ?_, ?_, h6⟩
    · unfold balance; rw [h1]; exact h4
    · rw [h5, e, List.map_cons, List.sum_cons]; ring

/-- **C66** The order of the bookings does not matter: two ledgers with the same bookings in any order, if both go
through, have the same balance. -/
theorem C66_balance_perm {es es' : List Booking} {t : FixedDecimal} (ht : WF t) (he : ∀ e ∈ es, WF e.amount)
    (hp : es.Perm es') (h : balance m t es = .ok r) (h' : balance m t es' = .ok s) : val r = val s := by
  rw [(C66_balance_exact es t ht he h).1, (C66_balance_exact es' t ht (fun e h => he e (hp.mem_iff.mpr h)) h').1,
    (hp.map Booking.value).sum_eq]

/-! Non-vacuity: a ledger with 63 + 9 digits; here three bookings, 123456789012.345 - (-7.50) + 123456789012.345 - ... -/
example : ∃ r, balance m FixedDecimal.zero [.credit Samples.a, .debit Samples.c, .credit Samples.c, .debit Samples.a] = .ok r ∧
    val r = 0 := by
  have wa : Within 7 1 Samples.a := ⟨by decide, by decide, by decide⟩
  have wc : Within 7 1 Samples.c := ⟨by decide, by decide, by decide⟩
  have wz : Within 7 1 FixedDecimal.zero := ⟨by decide, by decide, by decide⟩
  have hz : val FixedDecimal.zero = 0 := val_zero
  obtain ⟨r, h1, h2, -⟩ := C66_balance_total (m := m) (I := 7) (F := 1) (by norm_num)
    [.credit Samples.a, .debit Samples.c, .credit Samples.c, .debit Samples.a] FixedDecimal.zero wz
    (by intro e he; simp only [List.mem_cons, List.not_mem_nil, or_false] at he
        rcases he with rfl | rfl | rfl | rfl <;> assumption)
    (by intro v hv
        simp only [totals, Booking.value, Samples.val_a, Samples.val_c, hz, List.mem_cons, List.not_mem_nil, or_false] at hv
        rcases hv with rfl | rfl | rfl | rfl <;> (rw [abs_lt]; constructor <;> norm_num))
  refine ⟨r, h1, ?_⟩
  rw [h2]
  simp [Booking.value, Samples.val_a, Samples.val_c, hz]

end Props
end Fxd
