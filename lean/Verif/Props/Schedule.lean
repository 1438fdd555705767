import Verif.Props.Horner
/-!
# Property C110: balances with interest and payments

Each period charges interest, rounded to `k` digits, and takes a payment. The recurrence the program computes is that of the
rational numbers, for any number of periods.
-/

namespace Fxd
open Spec

namespace Props
variable {m : Mode}

/-- Rate times amount, rounded to `k` digits, with the rate on the left: all the conditions in digit counts. -/
theorem charge_left {x p : FixedDecimal} {k f u : Nat} (hx : Tight x) (hx1 : 1 ≤ intgDigits x) (hx8 : intgDigits x ≤ 8)
    (hxf : fracDigits x ≤ f) (hp : Tight p) (hpu : iu p ≤ u) (hpk : fracDigits p ≤ k) (h4 : unitsFor (k + f) ≤ 4) (hu1 : 1 ≤ u)
    (hroom : u + 1 + unitsFor (k + f) ≤ 8) :
    ∃ r, charge m k x p = .ok r ∧ Tight r ∧ fracDigits r = k ∧ iu r ≤ u + 1 ∧
      val r = (halfAway (val p * val x * 10 ^ k) : ℚ) / 10 ^ k ∧ (val p = 0 → iu r = 1) := by
  have hk : k ≤ 127 := by unfold unitsFor at h4; omega
  have hup : intgDigits p ≤ 9 * u := by unfold iu unitsFor at hpu; omega
  have hmi : mulIU x p ≤ u + 1 := by unfold mulIU unitsFor; omega
  have hmi1 : 1 ≤ mulIU x p := by unfold mulIU unitsFor; omega
  have hmf : unitsFor (fracDigits x + fracDigits p) ≤ unitsFor (k + f) := unitsFor_mono (by omega)
  have hfull : MulFull x p := by unfold MulFull mulFU; omega
  have hfits : MulFits m x p := by
    refine ⟨by omega, by unfold unitsFor at h4; omega, .inl ?_⟩
    have e : mulFU x p = unitsFor (fracDigits x + fracDigits p) := hfull
    have : fu p ≤ unitsFor (fracDigits x + fracDigits p) := unitsFor_mono (by omega)
    have : 1 ≤ iu x := by unfold iu unitsFor; omega
    omega
  obtain ⟨t, ht⟩ := (C56_mul_ok_iff m hx hp (res := FixedDecimal.zero) rfl).mpr (.inr (.inr hfits))
  obtain ⟨e1, e2, e3⟩ := C27_mul_exact m hx hp rfl hfull ht
  obtain ⟨_, e4⟩ := mul_intg hx hp rfl ht
  have htu : iu t ≤ u + 1 := by
    rcases e4 with e4 | e4
    · rw [e4]; have : iu FixedDecimal.zero = 1 := by decide
      omega
    · unfold iu; rw [e4, unitsFor_mul9]; exact hmi
  have hex : ∃ r, (t.roundTo m FixedDecimal.zero k : Out FixedDecimal _) = .ok r := by
    have hku : unitsFor k ≤ unitsFor (k + f) := unitsFor_mono (by omega)
    by_cases hkt : k < fracDigits t
    · exact ((C39_ok_iff m e2.toWF rfl hkt).1).mpr (.inl (by omega))
    · obtain ⟨r, hr, -⟩ := C40_extend (σ := FixedDecimal) m e2.toWF (res := FixedDecimal.zero) rfl (not_lt.mp hkt) (by omega)
      exact ⟨r, hr⟩
  obtain ⟨r, hr⟩ := hex
  have hch : charge m k x p = .ok r := by unfold charge; rw [ht]; exact hr
  obtain ⟨g1, g2, -, g4⟩ := round_to_uniform m e2 rfl hk hr
  obtain ⟨i1, i2, i3⟩ := round_to_intg e2 rfl hr hk
  obtain ⟨c1, c2⟩ := C83_charge hx hp hfull hk hch
  refine ⟨r, hch, g4, by unfold fracDigits; rw [g2]; simp, ?_, by rw [c1, mul_comm (val x)], ?_⟩
  · by_cases hlt : iu t ≤ u
    · omega
    · have hiu : iu t = u + 1 := by omega
      have hb : |val r| < 10 ^ (9 * iu t) := by
        have b5 : (1 : ℚ) / 10 ^ k / 2 ≤ 1 := by
          have : (1 : ℚ) ≤ 10 ^ k := one_le_pow₀ (by norm_num)
          rw [div_div, div_le_one (by positivity)]; linarith
        rw [hiu, show 9 * (u + 1) = 9 * u + 9 by omega, pow_add]
        exact rounded_below (one_le_pow₀ (by norm_num)) (lt_of_lt_of_le (tight_lt_pow hp) (pow_le_pow_right₀ (by norm_num) hup))
          (lt_of_lt_of_le (tight_lt_pow hx) (pow_le_pow_right₀ (by norm_num) hx8)) (by rw [mul_comm]; exact c2) b5
      rw [i3 hb]; omega
  · intro v0
    have et : t = FixedDecimal.zero := (C30_mul_sign m hx hp rfl ht).2.2 (.inr v0)
    have i1' : iu t = 1 := by rw [et]; decide
    rw [i3 (by
      rw [c1, v0, mul_zero, zero_mul]
      have : halfAway 0 = 0 := by unfold halfAway; norm_num
      rw [this, i1']; norm_num), i1']

/-- A sum or difference of bounded value needs no more units than that. -/
theorem add_shrink {a b r : FixedDecimal} {u k : Nat} (ha : WF a) (hb : WF b) (hu : 1 ≤ u) (h : FixedDecimal.add m a b = .ok r)
    (hv : |val a + val b| < 10 ^ (9 * u)) (ua : val b = 0 → iu a ≤ u) (ub : val a = 0 → iu b ≤ u) (ka : fracDigits a ≤ k)
    (kb : fracDigits b ≤ k) : iu r ≤ u ∧ fracDigits r ≤ k := by
  have h1 := add_ok_iff.mp h
  have r1 := addTo_res ha hb (res := FixedDecimal.blank) rfl h1
  by_cases va : val a = 0
  · unfold FixedDecimal.addTo at h1; rw [if_pos ((isZero_val ha).mpr va)] at h1; injection h1 with h1
    rw [← h1]; exact ⟨ub va, kb⟩
  · by_cases vb : val b = 0
    · have zb := (isZero_val hb).mpr vb
      have za : a.isZero = false := by rw [← Bool.not_eq_true, isZero_val ha]; exact va
      unfold FixedDecimal.addTo at h1
      simp only [za, zb, Bool.false_eq_true, if_false, if_true] at h1
      injection h1 with h1; rw [← h1]; exact ⟨ua vb, ka⟩
    · have t := (C65_add_trimmed ha hb rfl va vb h1).1
      refine ⟨?_, ?_⟩
      · by_contra hc
        have h2 := t.lead (by omega)
        rw [← abs_val r1.wf, r1.value] at h2
        have h4 := (pow_lt_pow_iff_right₀ (by norm_num : (1 : ℚ) < 10)).mp (lt_of_le_of_lt h2 hv)
        omega
      · have h2 := r1.scale va vb
        have := r1.wf.frac_eq; have := ha.frac_eq; have := hb.frac_eq; omega

theorem sub_shrink {a b r : FixedDecimal} {u k : Nat} (ha : WF a) (hb : WF b) (hu : 1 ≤ u) (h : FixedDecimal.sub m a b = .ok r)
    (hv : |val a - val b| < 10 ^ (9 * u)) (ua : val b = 0 → iu a ≤ u) (ub : val a = 0 → iu b ≤ u) (ka : fracDigits a ≤ k)
    (kb : fracDigits b ≤ k) : iu r ≤ u ∧ fracDigits r ≤ k := by
  have h1 := sub_ok_iff.mp h
  have r1 := subTo_res ha hb (res := FixedDecimal.blank) rfl h1
  by_cases va : val a = 0
  · have e : iu r = iu b ∧ fracDigits r = fracDigits b := by
      unfold FixedDecimal.subTo at h1; rw [if_pos ((isZero_val ha).mpr va)] at h1
      dsimp only at h1
      have e2 : ∀ d : FixedDecimal, iu d.setNegAndCheckZero = iu d ∧ fracDigits d.setNegAndCheckZero = fracDigits d := by
        intro d; unfold FixedDecimal.setNegAndCheckZero; dsimp only; split_ifs <;> simp [fracDigits]
      split_ifs at h1 <;> injection h1 with h1 <;> rw [← h1]
      · simp [fracDigits]
      · exact e2 b
    rw [e.1, e.2]; exact ⟨ub va, kb⟩
  · by_cases vb : val b = 0
    · have zb := (isZero_val hb).mpr vb
      have za : a.isZero = false := by rw [← Bool.not_eq_true, isZero_val ha]; exact va
      unfold FixedDecimal.subTo at h1
      simp only [za, zb, Bool.false_eq_true, if_false, if_true] at h1
      injection h1 with h1; rw [← h1]; exact ⟨ua vb, ka⟩
    · have t := (C65_sub_trimmed ha hb rfl va vb h1).1
      refine ⟨?_, ?_⟩
      · by_contra hc
        have h2 := t.lead (by omega)
        rw [← abs_val r1.wf, r1.value] at h2
        have h4 := (pow_lt_pow_iff_right₀ (by norm_num : (1 : ℚ) < 10)).mp (lt_of_le_of_lt h2 hv)
        omega
      · have h2 := r1.scale va vb
        have := r1.wf.frac_eq; have := ha.frac_eq; have := hb.frac_eq; omega

/-- `interest = round(&rate * &balance, k); balance = &(&balance + &interest) - &payment`, for one (rate, payment) after the
other; the interest and the new balance of each period. -/
def schedule (m : Mode) (k : Nat) : FixedDecimal → List (FixedDecimal × FixedDecimal) → Out Empty (List (FixedDecimal × FixedDecimal))
  | _, [] => .ok []
  | bal, (rate, pay) :: rest => do
    let i ← FixedDecimal.orPanic (charge m k rate bal)
    let up ← FixedDecimal.add m bal i
    let bal' ← FixedDecimal.sub m up pay
    let tail ← schedule m k bal' rest
    return (i, bal') :: tail

/-- The same on rational numbers. -/
def scheduleQ (k : Nat) : ℚ → List (ℚ × ℚ) → List (ℚ × ℚ)
  | _, [] => []
  | B, (r, p) :: rest =>
    let i : ℚ := halfAway (B * r * 10 ^ k) / 10 ^ k
    (i, B + i - p) :: scheduleQ k (B + i - p) rest

/-- All balances, before and after the payments, stay below `X` in magnitude. -/
def StaysBelow (k : Nat) (X : ℚ) : ℚ → List (ℚ × ℚ) → Prop
  | _, [] => True
  | B, (r, p) :: rest =>
    let i : ℚ := halfAway (B * r * 10 ^ k) / 10 ^ k
    |B + i| < X ∧ |B + i - p| < X ∧ StaysBelow k X (B + i - p) rest

/-- A pair of decimals as a pair of numbers. -/
def pairVal (x : FixedDecimal × FixedDecimal) : ℚ × ℚ := (val x.1, val x.2)

/-- **C110** For any number of periods: balances and payments with at most `k` digits after the point and `9 u` before, rates below
10^8 with an integral digit and at most `f` digits after the point, `u + 1 + ceil((k + f) / 9) <= 8`. As long as the balances stay
below `10^(9 u)`, no call fails, and every interest and every balance is exactly that of the recurrence on the numbers. -/
theorem C110_schedule {k f u : Nat} (h4 : unitsFor (k + f) ≤ 4) (hu : 1 ≤ u) (hroom : u + 1 + unitsFor (k + f) ≤ 8) :
    ∀ (ps : List (FixedDecimal × FixedDecimal)) {bal : FixedDecimal}, Tight bal → fracDigits bal ≤ k → iu bal ≤ u →
      (∀ x ∈ ps, (Tight x.1 ∧ 1 ≤ intgDigits x.1 ∧ intgDigits x.1 ≤ 8 ∧ fracDigits x.1 ≤ f) ∧
        Tight x.2 ∧ fracDigits x.2 ≤ k ∧ iu x.2 ≤ u) →
      StaysBelow k (10 ^ (9 * u)) (val bal) (ps.map pairVal) →
      ∃ out, schedule m k bal ps = .ok out ∧ out.map pairVal = scheduleQ k (val bal) (ps.map pairVal)
  | [], _, _, _, _, _, _ => ⟨[], rfl, rfl⟩
  | (rate, pay) :: rest, bal, hb, hbk, hbu, hps, hin => by
    obtain ⟨⟨r1, r2, r3, r4⟩, p1, p2, p3⟩ := hps (rate, pay) (by simp)
    simp only at r1 r2 r3 r4 p1 p2 p3
    obtain ⟨i, e1, e2, e3, e4, e5, e6⟩ := charge_left (m := m) r1 r2 r3 r4 hb hbu hbk h4 hu hroom
    rw [List.map_cons] at hin
    simp only [pairVal, StaysBelow] at hin
    obtain ⟨s1, s2, s3⟩ := hin
    rw [← e5] at s1 s2 s3
    have hku : unitsFor k ≤ unitsFor (k + f) := unitsFor_mono (by omega)
    have wb : Within (u + 1) (unitsFor k) bal := ⟨hb.toWF, by omega, unitsFor_mono hbk⟩
    have wi : Within (u + 1) (unitsFor k) i := ⟨e2.toWF, e4, by unfold fu; rw [e3]⟩
    have hbig : (10 : ℚ) ^ (9 * u) ≤ 10 ^ (9 * (u + 1)) := pow_le_pow_right₀ (by norm_num) (by omega)
    obtain ⟨up, a1, a2, a3⟩ := add_within (m := m) (by omega) wb wi (lt_of_lt_of_le s1 hbig)
    have tup : Tight up := (addTo_res hb.toWF e2.toWF (res := FixedDecimal.blank) rfl (add_ok_iff.mp a1)).tight hb e2
    obtain ⟨u1, u2⟩ := add_shrink hb.toWF e2.toWF hu a1 s1 (fun _ => hbu) (fun v => by rw [e6 v]; exact hu) hbk e3.le
    have wup : Within u (unitsFor k) up := ⟨a2.wf, u1, unitsFor_mono u2⟩
    have wpay : Within u (unitsFor k) pay := ⟨p1.toWF, p3, unitsFor_mono p2⟩
    obtain ⟨bal', d1, d2, d3⟩ := sub_within (m := m) (by omega) wup wpay (by rw [a3]; exact s2)
    have tb : Tight bal' := (subTo_res a2.wf p1.toWF (res := FixedDecimal.blank) rfl (sub_ok_iff.mp d1)).tight tup p1
    obtain ⟨_, k2⟩ := sub_shrink a2.wf p1.toWF hu d1 (by rw [a3]; exact s2) (fun _ => u1) (fun _ => p3) u2 p2
    rw [a3] at d3
    obtain ⟨out, o1, o2⟩ := C110_schedule h4 hu hroom rest tb k2 d2.intg (fun x hx => hps x (by simp [hx])) (by rw [d3]; exact s3)
    refine ⟨(i, bal') :: out, ?_, ?_⟩
    · unfold schedule
      rw [e1]
      show (FixedDecimal.add m bal i >>= fun up => FixedDecimal.sub m up pay >>= fun bal' => schedule m k bal' rest >>= fun tail =>
        pure ((i, bal') :: tail)) = _
      rw [a1, ok_bind, d1, ok_bind, o1, ok_bind, pure_ok]
    · rw [List.map_cons, List.map_cons, o2, pairVal, d3]
      simp only [pairVal, scheduleQ]
      rw [← e5]

/-- The balance at the end of a schedule. -/
def lastBalance (bal : FixedDecimal) (out : List (FixedDecimal × FixedDecimal)) : FixedDecimal := (out.map Prod.snd).getLast?.getD bal

/-- **C110** Nothing is lost or made up: whenever a schedule runs through, for whatever rates and rounding, the last balance is the
first one plus all the interest charged minus all the payments, exactly. -/
theorem C110_conserved {k : Nat} :
    ∀ (ps : List (FixedDecimal × FixedDecimal)) {bal : FixedDecimal} {out : List (FixedDecimal × FixedDecimal)}, WF bal → k ≤ 127 →
      (∀ x ∈ ps, Tight x.1 ∧ Tight x.2) → Tight bal → schedule m k bal ps = .ok out →
      val (lastBalance bal out) = val bal + (out.map (fun x => val x.1)).sum - (ps.map (fun x => val x.2)).sum
  | [], bal, out, _, _, _, _, h => by
    have : out = [] := by unfold schedule at h; injection h with h; exact h.symm
    subst this
    simp [lastBalance]
  | (rate, pay) :: rest, bal, out, hb, hk, hps, tb, h => by
    obtain ⟨r1, p1⟩ := hps (rate, pay) (by simp)
    simp only at r1 p1
    unfold schedule at h
    obtain ⟨i, e1, h⟩ := bind_eq_ok.mp h
    obtain ⟨up, a1, h⟩ := bind_eq_ok.mp h
    obtain ⟨bal', d1, h⟩ := bind_eq_ok.mp h
    obtain ⟨tail, t1, h⟩ := bind_eq_ok.mp h
    have e1' : charge m k rate bal = .ok i := by
      cases hc : charge m k rate bal with
      | ok j => rw [hc] at e1; exact congrArg Out.ok (by injection e1)
      | err e s => rw [hc] at e1; cases e1
      | panic p => rw [hc] at e1; cases e1
    have ti : Tight i := by
      unfold charge at e1'
      obtain ⟨t, q1, q2⟩ := bind_eq_ok.mp e1'
      exact (round_to_uniform m (mul_intg r1 tb rfl q1).1 rfl hk q2).2.2.2
    have s1 := addTo_res hb ti.toWF (res := FixedDecimal.blank) rfl (add_ok_iff.mp a1)
    have s2 := subTo_res s1.wf p1.toWF (res := FixedDecimal.blank) rfl (sub_ok_iff.mp d1)
    have ih := C110_conserved rest s2.wf hk (fun x hx => hps x (by simp [hx])) (s2.tight (s1.tight tb ti) p1) t1
    have : out = (i, bal') :: tail := by injection h with h; exact h.symm
    subst this
    have el : lastBalance bal ((i, bal') :: tail) = lastBalance bal' tail := by
      unfold lastBalance
      rw [List.map_cons]
      cases tail with
      | nil => rfl
      | cons x xs => rw [List.map_cons, List.getLast?_cons_cons]; rw [List.getLast?_cons]; rfl
    rw [el, ih, s2.value, s1.value]
    simp only [List.map_cons, List.sum_cons]
    ring

/-- **C110** Why the rate is on the left: a difference below one claims no integral digit, and a debug build then refuses it as the
left factor. 1.50 - 1.00 = 0.50 is fine, 0.05 * 0.50 is fine, 0.50 * 0.05 is fine when 0.50 is read from text, but
(1.50 - 1.00) * 0.05 is an assertion failure; a release build gives 0.0250. -/
theorem C110_witness_order :
    ∀ m, ∃ a b rate half d : FixedDecimal, FixedDecimal.fromStr m (Samples.bytes "1.50") = .ok a ∧
      FixedDecimal.fromStr m (Samples.bytes "1.00") = .ok b ∧ FixedDecimal.fromStr m (Samples.bytes "0.05") = .ok rate ∧
      FixedDecimal.fromStr m (Samples.bytes "0.50") = .ok half ∧ FixedDecimal.sub m a b = .ok d ∧
      (FixedDecimal.cmp m d half : Out Unit _) = .ok .eq ∧
      (∃ r, FixedDecimal.mul m rate d = .ok r ∧ (r.toStr m (-1) : Out Unit _) = .ok (Samples.bytes "0.0250")) ∧
      (∃ r, FixedDecimal.mul m half rate = .ok r ∧ (r.toStr m (-1) : Out Unit _) = .ok (Samples.bytes "0.0250")) ∧
      (m = .debug → FixedDecimal.mul m d rate = .panic .assert) ∧
      (m = .release → ∃ r, FixedDecimal.mul m d rate = .ok r ∧ (r.toStr m (-1) : Out Unit _) = .ok (Samples.bytes "0.0250")) := by
  intro m
  refine ⟨⟨1#8, 2, [500000000, 1, 0, 0, 0, 0, 0, 0, 0]⟩, ⟨1#8, 2, [0, 1, 0, 0, 0, 0, 0, 0, 0]⟩,
    ⟨1#8, 2, [50000000, 0, 0, 0, 0, 0, 0, 0, 0]⟩, ⟨1#8, 2, [500000000, 0, 0, 0, 0, 0, 0, 0, 0]⟩,
    ⟨0#8, 2, [500000000, 0, 0, 0, 0, 0, 0, 0, 0]⟩, ?_, ?_, ?_, ?_, ?_, ?_,
    ⟨⟨9#8, 4, [25000000, 0, 0, 0, 0, 0, 0, 0, 0]⟩, ?_, ?_⟩, ⟨⟨9#8, 4, [25000000, 0, 0, 0, 0, 0, 0, 0, 0]⟩, ?_, ?_⟩, ?_, fun h =>
    ⟨⟨9#8, 4, [25000000, 0, 0, 0, 0, 0, 0, 0, 0]⟩, ?_, ?_⟩⟩
  all_goals first | (subst h; decide +kernel) | (cases m <;> decide +kernel)

/-- A case of `C110_schedule` and `C110_conserved`: 100.00, a rate of 1.0837 and payments of 100.00, three periods. -/
example : ∃ out, schedule m 2 qHundred (List.replicate 3 (qRate, qHundred)) = .ok out ∧
    val (lastBalance qHundred out) = val qHundred + (out.map (fun x => val x.1)).sum -
      ((List.replicate 3 (qRate, qHundred)).map (fun x => val x.2)).sum := by
  have vh : val qHundred = 100 := by
    have e1 : mant qHundred = 100000000000 := by decide
    have e2 : fu qHundred = 1 := by decide
    have e3 : neg qHundred = false := by decide
    unfold val absVal; rw [e1, e2, e3]; norm_num
  have vr : val qRate = 10837 / 10000 := by
    have e1 : mant qRate = 1083700000 := by decide
    have e2 : fu qRate = 1 := by decide
    have e3 : neg qRate = false := by decide
    unfold val absVal; rw [e1, e2, e3]; norm_num
  obtain ⟨out, h1, -⟩ := C110_schedule (m := m) (k := 2) (f := 4) (u := 6) (by decide) (by norm_num) (by decide)
    (List.replicate 3 (qRate, qHundred)) (bal := qHundred) (by decide) (by decide) (by decide)
    (by intro x hx; rw [List.eq_of_mem_replicate hx]; refine ⟨⟨?_, ?_, ?_, ?_⟩, ?_, ?_, ?_⟩ <;> decide)
    (by
      simp only [List.replicate, List.map, pairVal, StaysBelow, vh, vr]
      norm_num [halfAway])
  exact ⟨out, h1, C110_conserved _ (by decide) (by norm_num)
    (by intro x hx; rw [List.eq_of_mem_replicate hx]; exact ⟨by decide, by decide⟩) (by decide) h1⟩

end Props
end Fxd
