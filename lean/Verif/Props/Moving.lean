import Verif.Props.Ledger
import Verif.Props.Samples
/-!
# Property C126: moving sums and partial sums do not drift

Two programs that keep a sum up to date instead of computing it again: a moving sum over the last items of a stream (add the item that
comes in, subtract the one that goes out), and a table of partial sums from which the sum of any stretch is one subtraction.
-/

namespace Fxd
open Spec

namespace Props
variable {m : Mode}

/-- A moving sum: `for y in incoming { let old = window.pop_front(); s = &s + y; s = &s - old; window.push_back(y); out.push(s.clone()) }`;
the list of the sums after each item. -/
def slide (m : Mode) : FixedDecimal → List FixedDecimal → List FixedDecimal → Out Empty (List FixedDecimal)
  | _, _, [] => .ok []
  | _, [], _ :: _ => .panic .index
  | s, old :: win, y :: ys => do
    let s1 ← FixedDecimal.add m s y
    let s2 ← FixedDecimal.sub m s1 old
    let outs ← slide m s2 (win ++ [y]) ys
    return s2 :: outs

/-- Partial sums: `for x in xs { t = &t + x; out.push(t.clone()) }`. -/
def partials (m : Mode) : FixedDecimal → List FixedDecimal → Out Empty (List FixedDecimal)
  | _, [] => .ok []
  | t, x :: xs => do
    let t' ← FixedDecimal.add m t x
    let outs ← partials m t' xs
    return t' :: outs

/-- The sum of the numbers in a list. -/
def total (xs : List FixedDecimal) : ℚ := (xs.map val).sum

theorem total_append (xs ys : List FixedDecimal) : total (xs ++ ys) = total xs + total ys := by
  unfold total; rw [List.map_append, List.sum_append]
theorem total_cons (x : FixedDecimal) (ys : List FixedDecimal) : total (x :: ys) = val x + total ys := by
  unfold total; rw [List.map_cons, List.sum_cons]

theorem total_le {B : ℚ} : ∀ {xs : List FixedDecimal}, (∀ x ∈ xs, |val x| ≤ B) → |total xs| ≤ xs.length * B
  | [], _ => by simp [total]
  | x :: xs, h => by
    rw [total_cons, List.length_cons]
    have h1 := h x (by simp)
    have h2 := total_le (xs := xs) (fun y hy => h y (by simp [hy]))
    have h3 := abs_add_le (val x) (total xs)
    push_cast
    linarith

/-- The stretch the window covers after item `i + 1`, one step on. -/
theorem window_step (old : FixedDecimal) (win : List FixedDecimal) (y : FixedDecimal) (ys : List FixedDecimal) (i : Nat) :
    (((win ++ [y]) ++ ys).drop (i + 1)).take (win ++ [y]).length = ((old :: win ++ y :: ys).drop (i + 1 + 1)).take (old :: win).length := by
  simp [List.append_assoc]

/-- **C126** moving sums, exactness: if no step fails, then after every item - however many have gone through - the sum is exactly the
sum of the items in the window, the last `window` ones.  Errors cannot build up. -/
theorem C126_window_exact : ∀ (ys : List FixedDecimal) (s : FixedDecimal) (win outs : List FixedDecimal), WF s →
    (∀ x ∈ win ++ ys, WF x) → val s = total win → slide m s win ys = .ok outs →
    outs.length = ys.length ∧ ∀ (i : Nat) (h : i < outs.length),
      val outs[i] = total (((win ++ ys).drop (i + 1)).take win.length)
  | [], _, _, _, _, _, _, h => by
    unfold slide at h; injection h with h; subst h
    exact ⟨rfl, fun i hi => absurd hi (by simp)⟩
  | y :: ys, s, [], outs, _, _, _, h => by unfold slide at h; cases h
  | y :: ys, s, old :: win, outs, hs, hw, hv, h => by
    unfold slide at h
    obtain ⟨s1, h1, h⟩ := bind_eq_ok.mp h
    obtain ⟨s2, h2, h⟩ := bind_eq_ok.mp h
    obtain ⟨tail, h3, h⟩ := bind_eq_ok.mp h
    have hs1 := addTo_res hs (hw y (by simp)) rfl (add_ok_iff.mp h1)
    have hs2 := subTo_res hs1.wf (hw old (by simp)) rfl (sub_ok_iff.mp h2)
    have hv2 : val s2 = total (win ++ [y]) := by
      rw [hs2.value, hs1.value, hv, total_append, total_cons, total_cons]
      simp [total]; ring
    obtain ⟨k1, k2⟩ := C126_window_exact ys s2 (win ++ [y]) tail hs2.wf
      (fun x hx => hw x (by
        simp only [List.append_assoc, List.singleton_append, List.mem_append, List.mem_cons, List.cons_append] at hx ⊢
        tauto)) hv2 h3
    have e : outs = s2 :: tail := by
      have : (Out.ok (s2 :: tail) : Out Empty _) = .ok outs := h
      injection this with this; exact this.symm
    subst e
    refine ⟨by simp [k1], fun i hi => ?_⟩
    cases i with
    | zero =>
      rw [List.getElem_cons_zero, hv2]
      congr 1
      simp
      have : win.length + 1 = (win ++ [y]).length := by simp
      rw [show win ++ y :: ys = (win ++ [y]) ++ ys by simp, this, List.take_left]
    | succ i =>
      rw [List.getElem_cons_succ, k2 i (by simpa using hi), window_step old]

/-- **C126** moving sums never fail: items of at most `9·I` integral and `9·F` fractional digits with `I + F ≤ 8`, none larger than `B`,
and a window of `w` items with `(w + 1)·B < 10^(9·I)`: no step fails, however long the stream, and the sums keep the layout. -/
theorem C126_window_total {I F : Nat} (hIF : I + F ≤ 8) {B : ℚ} : ∀ (ys : List FixedDecimal) (s : FixedDecimal) (win : List FixedDecimal),
    win ≠ [] → Within I F s → (∀ x ∈ win ++ ys, Within I F x ∧ |val x| ≤ B) → val s = total win →
    (win.length + 1) * B < 10 ^ (9 * I) → ∃ outs, slide m s win ys = .ok outs ∧ ∀ o ∈ outs, Within I F o
  | [], _, _, _, _, _, _, _ => ⟨[], by unfold slide; rfl, by simp⟩
  | y :: ys, s, [], hne, _, _, _, _ => absurd rfl hne
  | y :: ys, s, old :: win, _, hs, hw, hv, hB => by
    have hB0 : 0 ≤ B := le_trans (abs_nonneg _) (hw y (by simp)).2
    have hy := hw y (by simp)
    have ho := hw old (by simp)
    have t0 := total_le (B := B) (xs := old :: win) (fun x hx => (hw x (by simp at hx ⊢; tauto)).2)
    have t1 := total_le (B := B) (xs := win ++ [y]) (fun x hx => (hw x (by simp at hx ⊢; tauto)).2)
    rw [List.length_append, List.length_singleton] at t1
    rw [List.length_cons] at t0 hB
    push_cast at t0 t1 hB
    have a1 : |val s + val y| < 10 ^ (9 * I) := by
      rw [hv]
      have := abs_add_le (total (old :: win)) (val y)
      have := hy.2
      linarith
    obtain ⟨s1, h1, w1, v1⟩ := add_within (m := m) hIF hs hy.1 a1
    have e2 : val s1 - val old = total (win ++ [y]) := by
      rw [v1, hv, total_append, total_cons, total_cons]
      simp [total]; ring
    obtain ⟨s2, h2, w2, v2⟩ := sub_within (m := m) hIF w1 ho.1 (by rw [e2]; linarith)
    obtain ⟨outs, h3, h4⟩ := C126_window_total hIF (B := B) ys s2 (win ++ [y]) (by simp) w2
      (fun x hx => hw x (by
        simp only [List.append_assoc, List.singleton_append, List.mem_append, List.mem_cons, List.cons_append] at hx ⊢
        tauto)) (by rw [v2, e2])
      (by rw [List.length_append, List.length_singleton]; push_cast; exact hB)
    refine ⟨s2 :: outs, ?_, ?_⟩
    · unfold slide; rw [h1, ok_bind, h2, ok_bind, h3]; rfl
    · intro o ho
      rcases List.mem_cons.mp ho with rfl | ho
      · exact w2
      · exact h4 o ho

/-- **C126** partial sums: entry `i` is exactly the sum of the first `i + 1` items. -/
theorem C126_partials : ∀ (xs : List FixedDecimal) (t : FixedDecimal) (outs : List FixedDecimal), WF t → (∀ x ∈ xs, WF x) →
    partials m t xs = .ok outs → outs.length = xs.length ∧
      ∀ (i : Nat) (h : i < outs.length), WF outs[i] ∧ val outs[i] = val t + total (xs.take (i + 1))
  | [], _, _, _, _, h => by
    unfold partials at h; injection h with h; subst h
    exact ⟨rfl, fun i hi => absurd hi (by simp)⟩
  | x :: xs, t, outs, ht, hx, h => by
    unfold partials at h
    obtain ⟨t', h1, h⟩ := bind_eq_ok.mp h
    obtain ⟨tail, h2, h⟩ := bind_eq_ok.mp h
    have hr := addTo_res ht (hx x (by simp)) rfl (add_ok_iff.mp h1)
    obtain ⟨k1, k2⟩ := C126_partials xs t' tail hr.wf (fun y hy => hx y (by simp [hy])) h2
    have e : outs = t' :: tail := by
      have : (Out.ok (t' :: tail) : Out Empty _) = .ok outs := h
      injection this with this; exact this.symm
    subst e
    refine ⟨by simp [k1], fun i hi => ?_⟩
    cases i with
    | zero => exact ⟨hr.wf, by rw [List.getElem_cons_zero, hr.value]; simp [total]⟩
    | succ i =>
      obtain ⟨j1, j2⟩ := k2 i (by simpa using hi)
      refine ⟨by simpa using j1, ?_⟩
      rw [List.getElem_cons_succ, j2, hr.value, List.take_succ_cons, total_cons]
      ring

/-- **C126** the sum of any stretch of the list, from two entries of the table: if the subtraction gives a result, it is exactly the sum of
the items after item `i` up to and including item `j`. -/
theorem C126_range {xs : List FixedDecimal} {t r : FixedDecimal} {outs : List FixedDecimal} (ht : WF t) (hx : ∀ x ∈ xs, WF x)
    (h : partials m t xs = .ok outs) {i j : Nat} (hij : i ≤ j) (hj : j < outs.length)
    (hr : FixedDecimal.sub m outs[j] (outs[i]'(by omega)) = .ok r) : val r = total ((xs.drop (i + 1)).take (j - i)) := by
  obtain ⟨-, k⟩ := C126_partials xs t outs ht hx h
  obtain ⟨wi, vi⟩ := k i (by omega)
  obtain ⟨wj, vj⟩ := k j hj
  have e := (subTo_res wj wi rfl (sub_ok_iff.mp hr)).value
  rw [e, vi, vj]
  have : xs.take (j + 1) = xs.take (i + 1) ++ (xs.drop (i + 1)).take (j - i) := by
    rw [show j + 1 = (i + 1) + (j - i) by omega, List.take_add]
  rw [this, total_append]
  ring

/-- The sum of the magnitudes in a list. -/
def totalAbs (xs : List FixedDecimal) : ℚ := (xs.map (fun x => |val x|)).sum

theorem totalAbs_cons (x : FixedDecimal) (ys : List FixedDecimal) : totalAbs (x :: ys) = |val x| + totalAbs ys := by
  unfold totalAbs; rw [List.map_cons, List.sum_cons]
theorem totalAbs_nonneg : ∀ xs : List FixedDecimal, 0 ≤ totalAbs xs
  | [] => by simp [totalAbs]
  | x :: xs => by rw [totalAbs_cons]; have := totalAbs_nonneg xs; have := abs_nonneg (val x); linarith
theorem totalAbs_append (xs ys : List FixedDecimal) : totalAbs (xs ++ ys) = totalAbs xs + totalAbs ys := by
  unfold totalAbs; rw [List.map_append, List.sum_append]
theorem total_le_abs : ∀ xs : List FixedDecimal, |total xs| ≤ totalAbs xs
  | [] => by simp [total, totalAbs]
  | x :: xs => by
    rw [total_cons, totalAbs_cons]
    have := total_le_abs xs; have := abs_add_le (val x) (total xs); linarith
theorem totalAbs_stretch (xs : List FixedDecimal) (i n : Nat) : totalAbs ((xs.drop i).take n) ≤ totalAbs xs := by
  have h1 : totalAbs xs = totalAbs (xs.take i) + totalAbs (xs.drop i) := by rw [← totalAbs_append, List.take_append_drop]
  have h2 : totalAbs (xs.drop i) = totalAbs ((xs.drop i).take n) + totalAbs ((xs.drop i).drop n) := by
    rw [← totalAbs_append, List.take_append_drop]
  have := totalAbs_nonneg (xs.take i)
  have := totalAbs_nonneg ((xs.drop i).drop n)
  linarith

theorem partials_total {I F : Nat} (hIF : I + F ≤ 8) : ∀ (xs : List FixedDecimal) (t : FixedDecimal), Within I F t →
    (∀ x ∈ xs, Within I F x) → |val t| + totalAbs xs < 10 ^ (9 * I) → ∃ outs, partials m t xs = .ok outs ∧ ∀ o ∈ outs, Within I F o
  | [], _, _, _, _ => ⟨[], by unfold partials; rfl, by simp⟩
  | x :: xs, t, ht, hx, hB => by
    rw [totalAbs_cons] at hB
    have a := abs_add_le (val t) (val x)
    have n := totalAbs_nonneg xs
    obtain ⟨t', h1, w1, v1⟩ := add_within (m := m) hIF ht (hx x (by simp)) (by linarith)
    obtain ⟨outs, h2, h3⟩ := partials_total hIF xs t' w1 (fun y hy => hx y (by simp [hy])) (by rw [v1]; linarith)
    refine ⟨t' :: outs, by unfold partials; rw [h1, ok_bind, h2]; rfl, ?_⟩
    intro o ho
    rcases List.mem_cons.mp ho with rfl | ho
    · exact w1
    · exact h3 o ho

/-- **C126** the table and its stretches cannot fail: items of at most `9·I` integral and `9·F` fractional digits, `I + F ≤ 8`, whose
magnitudes together with the starting value's add up to less than `10^(9·I)`: the whole table is computed, and so is the sum of every
stretch, exactly. -/
theorem C126_range_total {I F : Nat} (hIF : I + F ≤ 8) {xs : List FixedDecimal} {t : FixedDecimal} (ht : Within I F t)
    (hx : ∀ x ∈ xs, Within I F x) (hB : |val t| + totalAbs xs < 10 ^ (9 * I)) :
    ∃ outs, partials m t xs = .ok outs ∧ outs.length = xs.length ∧ ∀ (i j : Nat) (hij : i ≤ j) (hj : j < outs.length),
      ∃ r, FixedDecimal.sub m outs[j] (outs[i]'(by omega)) = .ok r ∧ Within I F r ∧ val r = total ((xs.drop (i + 1)).take (j - i)) := by
  obtain ⟨outs, h, hw⟩ := partials_total (m := m) hIF xs t ht hx hB
  obtain ⟨hl, k⟩ := C126_partials xs t outs ht.wf (fun x hx' => (hx x hx').wf) h
  refine ⟨outs, h, hl, fun i j hij hj => ?_⟩
  obtain ⟨-, vi⟩ := k i (by omega)
  obtain ⟨-, vj⟩ := k j hj
  have e : val outs[j] - val (outs[i]'(by omega)) = total ((xs.drop (i + 1)).take (j - i)) := by
    rw [vi, vj]
    have : xs.take (j + 1) = xs.take (i + 1) ++ (xs.drop (i + 1)).take (j - i) := by
      rw [show j + 1 = (i + 1) + (j - i) by omega, List.take_add]
    rw [this, total_append]
    ring
  obtain ⟨r, h1, w1, v1⟩ := sub_within (m := m) hIF (hw _ (List.getElem_mem hj)) (hw _ (List.getElem_mem (by omega : i < outs.length)))
    (by
      rw [e]
      have := total_le_abs ((xs.drop (i + 1)).take (j - i))
      have := totalAbs_stretch xs (i + 1) (j - i)
      have := abs_nonneg (val t)
      linarith)
  exact ⟨r, h1, w1, by rw [v1, e]⟩

/-- **C126** non-vacuity: a window of one item starting at 0 through which `-7.50`, `123456789012.345`, `-7.50` pass, and the partial
sums of the same items; the hypotheses of the theorems above are met and the programs really run. -/
theorem C126_witness :
    (∃ outs, slide m FixedDecimal.zero [FixedDecimal.zero] [Samples.c, Samples.a, Samples.c] = .ok outs ∧
      outs.map val = [-15 / 2, 123456789012345 / 1000, -15 / 2]) ∧
    (∃ outs, partials m FixedDecimal.zero [Samples.c, Samples.a, Samples.c] = .ok outs ∧ outs.length = 3 ∧
      ∀ hj : 2 < outs.length, ∃ r, FixedDecimal.sub m outs[2] (outs[0]'(by omega)) = .ok r ∧ val r = 123456789012345 / 1000 - 15 / 2) := by
  have wa : Within 7 1 Samples.a := ⟨by decide, by decide, by decide⟩
  have wc : Within 7 1 Samples.c := ⟨by decide, by decide, by decide⟩
  have wz : Within 7 1 FixedDecimal.zero := ⟨by decide, by decide, by decide⟩
  have hz : val FixedDecimal.zero = 0 := val_zero
  have hall : ∀ x ∈ [FixedDecimal.zero] ++ [Samples.c, Samples.a, Samples.c], Within 7 1 x ∧ |val x| ≤ 10 ^ 12 := by
    intro x hx
    simp only [List.cons_append, List.nil_append, List.mem_cons, List.not_mem_nil, or_false] at hx
    rcases hx with rfl | rfl | rfl | rfl
    · exact ⟨wz, by rw [hz]; norm_num⟩
    · exact ⟨wc, by rw [Samples.val_c, abs_le]; constructor <;> norm_num⟩
    · exact ⟨wa, by rw [Samples.val_a, abs_le]; constructor <;> norm_num⟩
    · exact ⟨wc, by rw [Samples.val_c, abs_le]; constructor <;> norm_num⟩
  have hv : val FixedDecimal.zero = total [FixedDecimal.zero] := by simp [total]
  constructor
  · obtain ⟨outs, h, -⟩ := C126_window_total (m := m) (I := 7) (F := 1) (by norm_num) (B := 10 ^ 12) [Samples.c, Samples.a, Samples.c]
      FixedDecimal.zero [FixedDecimal.zero] (by simp) wz hall hv (by norm_num)
    obtain ⟨k1, k2⟩ := C126_window_exact _ _ _ outs wz.wf (fun x hx => (hall x hx).1.wf) hv h
    refine ⟨outs, h, ?_⟩
    match outs, k1, k2 with
    | [x, y, z], _, k2 =>
      have e0 := k2 0 (by simp)
      have e1 := k2 1 (by simp)
      have e2 := k2 2 (by simp)
      simp only [List.getElem_cons_zero, List.getElem_cons_succ] at e0 e1 e2
      simp [e0, e1, e2, total, Samples.val_a, Samples.val_c]
  · obtain ⟨outs, h, hl, k⟩ := C126_range_total (m := m) (I := 7) (F := 1) (by norm_num) (xs := [Samples.c, Samples.a, Samples.c])
      (t := FixedDecimal.zero) wz (fun x hx => (hall x (by simp at hx ⊢; tauto)).1)
      (by
        have e1 : |(-15 / 2 : ℚ)| = 15 / 2 := by rw [abs_of_neg] <;> norm_num
        have e2 : |(123456789012345 / 1000 : ℚ)| = 123456789012345 / 1000 := by rw [abs_of_pos]; norm_num
        simp only [totalAbs, List.map_cons, List.map_nil, List.sum_cons, List.sum_nil, Samples.val_a, Samples.val_c, hz, e1, e2, abs_zero]
        norm_num)
    refine ⟨outs, h, hl, fun hj => ?_⟩
    obtain ⟨r, h1, -, h2⟩ := k 0 2 (by omega) hj
    refine ⟨r, h1, ?_⟩
    rw [h2]
    simp [total, Samples.val_a, Samples.val_c]
    norm_num

end Props
end Fxd
