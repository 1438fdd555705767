import Verif.Props.Cmp
import Verif.Model.OrdProvided
/-!
# Property C79: minima, maxima, clamping and sorting follow the numbers
-/

namespace Fxd.Props
open Fxd Spec

variable {σ : Type}

/-- **C79** `<=` and `>=` of two decimals that are not both zero compare the numbers. -/
theorem C79_le_ge (m : Mode) {a b : FixedDecimal} (ha : WF a) (hb : WF b) (hnz : ¬ (val a = 0 ∧ val b = 0)) :
    (FixedDecimal.le m a b : Out σ Bool) = .ok (decide (val a ≤ val b)) ∧
      (FixedDecimal.ge m a b : Out σ Bool) = .ok (decide (val b ≤ val a)) := by
  unfold FixedDecimal.le FixedDecimal.ge
  rw [C16_cmp_numeric m ha hb hnz]
  simp only [ok_bind, pure_ok]
  rcases lt_trichotomy (val a) (val b) with h | h | h
  · rw [compare_lt_iff_lt.mpr h]; simp [h.le, not_le.mpr h]
  · rw [compare_eq_iff_eq.mpr h]; simp [h]
  · rw [compare_gt_iff_gt.mpr h]; simp [h.le, not_le.mpr h]

/-- `<=` on all well-formed decimals: numeric order, with -0 before 0. -/
theorem le_spec (m : Mode) {a b : FixedDecimal} (ha : WF a) (hb : WF b) :
    (FixedDecimal.le m a b : Out σ Bool) =
      .ok (decide (val a < val b ∨ (val a = val b ∧ (neg a = true ∨ neg b = false)))) := by
  unfold FixedDecimal.le
  rw [C16_cmp_spec m ha hb]
  simp only [ok_bind, pure_ok]
  rcases lt_trichotomy (val a) (val b) with h | h | h
  · rw [compare_lt_iff_lt.mpr h]; simp [h]
  · rw [compare_eq_iff_eq.mpr h, h]; cases neg a <;> cases neg b <;> simp <;> decide
  · rw [compare_gt_iff_gt.mpr h]; simp [h.not_gt, h.ne']

/-- Without negative zeros `<=` is `≤` on the numbers. -/
theorem le_num (m : Mode) {a b : FixedDecimal} (ha : WF a) (hb : WF b) (za : ¬ NegZero a) (zb : ¬ NegZero b) :
    (FixedDecimal.le m a b : Out σ Bool) = .ok (decide (val a ≤ val b)) := by
  by_cases hnz : val a = 0 ∧ val b = 0
  · rw [le_spec m ha hb]
    obtain ⟨h1, h2⟩ := hnz
    have n2 : neg b = false := by
      by_contra h
      exact zb ⟨by simpa using h, (val_eq_zero).mp h2⟩
    simp [h1, h2, n2]
  · exact (C79_le_ge m ha hb hnz).1

/-- **C79** `max` never fails, returns one of its arguments, and its value is the larger of the two; of two numerically
equal ones it returns the second (unless that is -0 and the first is 0). -/
theorem C79_max (m : Mode) {a b : FixedDecimal} (ha : WF a) (hb : WF b) :
    ∃ r, (FixedDecimal.max m a b : Out σ FixedDecimal) = .ok r ∧ (r = a ∨ r = b) ∧ val r = Max.max (val a) (val b) ∧
      (val a = val b → neg a = neg b → r = b) := by
  unfold FixedDecimal.max
  rw [C16_cmp_spec m ha hb]
  simp only [ok_bind, pure_ok]
  rcases lt_trichotomy (val a) (val b) with h | h | h
  · rw [compare_lt_iff_lt.mpr h]
    exact ⟨b, rfl, .inr rfl, (max_eq_right h.le).symm, fun e => absurd e h.ne⟩
  · rw [compare_eq_iff_eq.mpr h]
    cases hn : compare (neg b) (neg a)
    · exact ⟨b, rfl, .inr rfl, by rw [h, max_self], fun _ _ => rfl⟩
    · exact ⟨b, rfl, .inr rfl, by rw [h, max_self], fun _ _ => rfl⟩
    · refine ⟨a, rfl, .inl rfl, by rw [h, max_self], fun _ e => ?_⟩
      rw [e, compare_eq_iff_eq.mpr rfl] at hn
      cases hn
  · rw [compare_gt_iff_gt.mpr h]
    exact ⟨a, rfl, .inl rfl, (max_eq_left h.le).symm, fun e => absurd e h.ne'⟩

/-- **C79** `min` never fails, returns one of its arguments, and its value is the smaller of the two; of two equal ones
it returns the first (unless that is 0 and the second is -0). -/
theorem C79_min (m : Mode) {a b : FixedDecimal} (ha : WF a) (hb : WF b) :
    ∃ r, (FixedDecimal.min m a b : Out σ FixedDecimal) = .ok r ∧ (r = a ∨ r = b) ∧ val r = Min.min (val a) (val b) ∧
      (val a = val b → neg a = neg b → r = a) := by
  unfold FixedDecimal.min
  rw [C16_cmp_spec m ha hb]
  simp only [ok_bind, pure_ok]
  rcases lt_trichotomy (val a) (val b) with h | h | h
  · rw [compare_lt_iff_lt.mpr h]
    exact ⟨a, rfl, .inl rfl, (min_eq_left h.le).symm, fun e => absurd e h.ne⟩
  · rw [compare_eq_iff_eq.mpr h]
    cases hn : compare (neg b) (neg a)
    · exact ⟨a, rfl, .inl rfl, by rw [h, min_self], fun _ _ => rfl⟩
    · exact ⟨a, rfl, .inl rfl, by rw [h, min_self], fun _ _ => rfl⟩
    · refine ⟨b, rfl, .inr rfl, by rw [h, min_self], fun _ e => ?_⟩
      rw [e, compare_eq_iff_eq.mpr rfl] at hn
      cases hn
  · rw [compare_gt_iff_gt.mpr h]
    exact ⟨b, rfl, .inr rfl, (min_eq_right h.le).symm, fun e => absurd e h.ne'⟩

/-- **C79** `clamp` with `lo` numerically below `hi` never fails, returns one of the three arguments, and its value is
the nearest number to `x` in `[lo, hi]`. -/
theorem C79_clamp (m : Mode) {x lo hi : FixedDecimal} (hx : WF x) (hl : WF lo) (hh : WF hi) (hlt : val lo < val hi) :
    ∃ r, (FixedDecimal.clamp m x lo hi : Out σ FixedDecimal) = .ok r ∧ (r = x ∨ r = lo ∨ r = hi) ∧
      val r = Max.max (val lo) (Min.min (val x) (val hi)) ∧ (val lo < val x → val x < val hi → r = x) := by
  unfold FixedDecimal.clamp FixedDecimal.lt FixedDecimal.gt
  rw [(C79_le_ge m hl hh (by rintro ⟨h1, h2⟩; rw [h1, h2] at hlt; exact lt_irrefl _ hlt)).1, decide_eq_true hlt.le]
  simp only [ok_bind, Bool.not_true, Bool.false_eq_true, if_false]
  rw [C16_cmp_spec m hx hl, C16_cmp_spec m hx hh]
  simp only [ok_bind, pure_ok]
  rcases lt_trichotomy (val x) (val lo) with h | h | h
  · rw [compare_lt_iff_lt.mpr h]
    refine ⟨lo, rfl, .inr (.inl rfl), ?_, fun e => absurd e h.not_gt⟩
    rw [min_eq_left (by linarith), max_eq_left h.le]
  · rw [compare_eq_iff_eq.mpr h]
    rw [compare_lt_iff_lt.mpr (show val x < val hi by linarith)]
    cases hn : compare (neg lo) (neg x)
    · exact ⟨lo, rfl, .inr (.inl rfl), by rw [min_eq_left (by linarith), h, max_self], fun e => absurd e (by linarith)⟩
    · exact ⟨x, rfl, .inl rfl, by rw [min_eq_left (by linarith), h, max_self], fun _ _ => rfl⟩
    · exact ⟨x, rfl, .inl rfl, by rw [min_eq_left (by linarith), h, max_self], fun _ _ => rfl⟩
  · rw [compare_gt_iff_gt.mpr h]
    rcases lt_trichotomy (val x) (val hi) with h2 | h2 | h2
    · rw [compare_lt_iff_lt.mpr h2]
      exact ⟨x, rfl, .inl rfl, by rw [min_eq_left h2.le, max_eq_right h.le], fun _ _ => rfl⟩
    · rw [compare_eq_iff_eq.mpr h2]
      have e : val x = Max.max (val lo) (Min.min (val x) (val hi)) := by rw [h2, min_self, max_eq_right hlt.le]
      cases hn : compare (neg hi) (neg x)
      · exact ⟨x, rfl, .inl rfl, e, fun _ _ => rfl⟩
      · exact ⟨x, rfl, .inl rfl, e, fun _ _ => rfl⟩
      · exact ⟨hi, rfl, .inr (.inr rfl), by rw [← e, h2], fun _ e => absurd e (by linarith)⟩
    · rw [compare_gt_iff_gt.mpr h2]
      exact ⟨hi, rfl, .inr (.inr rfl), by rw [min_eq_right h2.le, max_eq_right hlt.le], fun _ e => absurd e (by linarith)⟩

/-- **C79** `clamp` with bounds the wrong way round panics, in every build. -/
theorem C79_clamp_panics (m : Mode) {x lo hi : FixedDecimal} (hl : WF lo) (hh : WF hi) (hlt : val hi < val lo) :
    (FixedDecimal.clamp m x lo hi : Out σ FixedDecimal) = .panic .assert := by
  unfold FixedDecimal.clamp
  rw [(C79_le_ge m hl hh (by rintro ⟨h1, h2⟩; rw [h1, h2] at hlt; exact lt_irrefl _ hlt)).1,
    decide_eq_false (not_le.mpr hlt)]
  rfl

/-- `a` sorts strictly before `b`: it is the smaller number, or both are zero and only `a` is negative. -/
def Before (a b : FixedDecimal) : Prop := val a < val b ∨ (val a = val b ∧ neg a = true ∧ neg b = false)

instance (a b : FixedDecimal) : Decidable (Before a b) := by unfold Before; infer_instance

/-- **C79** `<`, `>`, `<=` and `>=` of any two decimals, zeros included: the order of the numbers, with -0 just below
+0 and nothing else told apart. -/
theorem C79_relations (m : Mode) {a b : FixedDecimal} (ha : WF a) (hb : WF b) :
    (FixedDecimal.lt m a b : Out σ Bool) = .ok (decide (Before a b)) ∧
      (FixedDecimal.gt m a b : Out σ Bool) = .ok (decide (Before b a)) ∧
      (FixedDecimal.le m a b : Out σ Bool) = .ok (decide (¬ Before b a)) ∧
      (FixedDecimal.ge m a b : Out σ Bool) = .ok (decide (¬ Before a b)) := by
  have key : ∀ o : Ordering, (FixedDecimal.cmp m a b : Out σ Ordering) = .ok o → (o = .lt ↔ Before a b) → (o = .gt ↔ Before b a) →
      (FixedDecimal.lt m a b : Out σ Bool) = .ok (decide (Before a b)) ∧
      (FixedDecimal.gt m a b : Out σ Bool) = .ok (decide (Before b a)) ∧
      (FixedDecimal.le m a b : Out σ Bool) = .ok (decide (¬ Before b a)) ∧
      (FixedDecimal.ge m a b : Out σ Bool) = .ok (decide (¬ Before a b)) := by
    intro o e h1 h2
    unfold FixedDecimal.le FixedDecimal.ge FixedDecimal.lt FixedDecimal.gt
    rw [e]
    simp only [ok_bind, pure_ok, ← h1, ← h2]
    cases o <;> simp
  refine key _ (C16_cmp_spec m ha hb) ?_ ?_
  · rcases lt_trichotomy (val a) (val b) with h | h | h
    · rw [compare_lt_iff_lt.mpr h]
      exact ⟨fun _ => .inl h, fun _ => rfl⟩
    · rw [compare_eq_iff_eq.mpr h]
      unfold Before
      rw [h]
      cases neg a <;> cases neg b <;> simp <;> rfl
    · rw [compare_gt_iff_gt.mpr h]
      refine ⟨fun e => (by cases e), ?_⟩
      rintro (k | ⟨k, -⟩)
      · exact absurd k h.not_gt
      · exact absurd k h.ne'
  · rcases lt_trichotomy (val a) (val b) with h | h | h
    · rw [compare_lt_iff_lt.mpr h]
      refine ⟨fun e => (by cases e), ?_⟩
      rintro (k | ⟨k, -⟩)
      · exact absurd k h.not_gt
      · exact absurd k h.ne'
    · rw [compare_eq_iff_eq.mpr h]
      unfold Before
      rw [h]
      cases neg a <;> cases neg b <;> simp <;> rfl
    · rw [compare_gt_iff_gt.mpr h]
      exact ⟨fun _ => .inl h, fun _ => rfl⟩

/-- **C79** `clamp` with any bounds in order (equal ones and zeros included) never fails, returns one of the three
arguments, its value is the nearest number to `x` in `[lo, hi]`, and it is `x` itself exactly as `x` sorts. -/
theorem C79_clamp_all (m : Mode) {x lo hi : FixedDecimal} (hx : WF x) (hl : WF lo) (hh : WF hi) (hle : ¬ Before hi lo) :
    ∃ r, (FixedDecimal.clamp m x lo hi : Out σ FixedDecimal) = .ok r ∧
      (Before x lo → r = lo) ∧ (Before hi x → r = hi) ∧ (¬ Before x lo → ¬ Before hi x → r = x) ∧
      ¬ Before r lo ∧ ¬ Before hi r ∧ val r = Max.max (val lo) (Min.min (val x) (val hi)) := by
  unfold FixedDecimal.clamp
  rw [(C79_relations m hl hh).2.2.1, decide_eq_true hle, (C79_relations m hx hl).1, (C79_relations m hx hh).2.1]
  simp only [ok_bind, pure_ok, Bool.not_true, Bool.false_eq_true, if_false]
  have irr : ∀ a, ¬ Before a a := by
    rintro a (h | ⟨-, h1, h2⟩)
    · exact lt_irrefl _ h
    · rw [h1] at h2; cases h2
  have trans : ∀ a b c, Before a b → Before b c → Before a c := by
    rintro a b c (h | ⟨h, h1, h2⟩) (k | ⟨k, k1, k2⟩)
    · exact .inl (h.trans k)
    · exact .inl (h.trans_eq k)
    · exact .inl (h.trans_lt k)
    · rw [h2] at k1; cases k1
  have hv : ∀ a b, ¬ Before a b → val b ≤ val a := fun a b h => by
    by_contra hc
    exact h (.inl (not_le.mp hc))
  have hw : ∀ a b, Before a b → val a ≤ val b := by
    rintro a b (h | ⟨h, -⟩)
    · exact h.le
    · exact h.le
  have hlh := hv _ _ hle
  by_cases h1 : Before x lo
  · rw [decide_eq_true h1]
    refine ⟨lo, rfl, fun _ => rfl, fun h2 => absurd (trans _ _ _ h2 h1) hle, fun h => absurd h1 h, irr _, hle, ?_⟩
    rw [min_eq_left ((hw _ _ h1).trans hlh), max_eq_left (hw _ _ h1)]
  · rw [decide_eq_false h1]
    by_cases h2 : Before hi x
    · rw [decide_eq_true h2]
      refine ⟨hi, rfl, fun h => absurd h h1, fun _ => rfl, fun _ h => absurd h2 h, hle, irr _, ?_⟩
      rw [min_eq_right (hw _ _ h2), max_eq_right hlh]
    · rw [decide_eq_false h2]
      refine ⟨x, rfl, fun h => absurd h h1, fun h => absurd h h2, fun _ _ => rfl, h1, h2, ?_⟩
      rw [min_eq_left (hv _ _ h2), max_eq_right (hv _ _ h1)]

/-- **C79** `clamp` panics exactly when the upper bound sorts before the lower one, in every build. -/
theorem C79_clamp_panics_iff (m : Mode) {x lo hi : FixedDecimal} (hx : WF x) (hl : WF lo) (hh : WF hi) :
    (FixedDecimal.clamp m x lo hi : Out σ FixedDecimal) = .panic .assert ↔ Before hi lo := by
  constructor
  · intro e
    by_contra h
    obtain ⟨r, er, -⟩ := C79_clamp_all (σ := σ) m hx hl hh h
    rw [e] at er
    cases er
  · intro h
    unfold FixedDecimal.clamp
    rw [(C79_relations m hl hh).2.2.1, decide_eq_false (not_not.mpr h)]
    rfl

/-- **C79** The maximum of a non-empty list is an element of it, and none is larger. -/
theorem C79_maxOf (m : Mode) : ∀ (xs : List FixedDecimal) {x : FixedDecimal}, WF x → (∀ y ∈ xs, WF y) →
    ∃ r, (FixedDecimal.maxOf m x xs : Out σ FixedDecimal) = .ok r ∧ r ∈ x :: xs ∧ ∀ y ∈ x :: xs, val y ≤ val r
  | [], x, _, _ => ⟨x, rfl, by simp, by simp⟩
  | y :: ys, x, hx, hy => by
    obtain ⟨b, e, hb, hv, -⟩ := C79_max (σ := σ) m hx (hy y (by simp))
    have wb : WF b := by rcases hb with rfl | rfl; exacts [hx, hy _ (by simp)]
    obtain ⟨r, er, hr, hm⟩ := C79_maxOf m ys wb (fun z hz => hy z (by simp [hz]))
    have h1 := hm b (by simp)
    have h2 := le_max_left (val x) (val y)
    have h3 := le_max_right (val x) (val y)
    refine ⟨r, ?_, ?_, ?_⟩
    · unfold FixedDecimal.maxOf
      rw [e]; exact er
    · rcases List.mem_cons.mp hr with h | h
      · rcases hb with h' | h' <;> rw [h, h'] <;> simp
      · simp [h]
    · intro z hz
      simp only [List.mem_cons] at hz
      rcases hz with rfl | rfl | hz
      · linarith
      · linarith
      · exact hm z (by simp [hz])

/-- **C79** The minimum of a non-empty list is an element of it, and none is smaller. -/
theorem C79_minOf (m : Mode) : ∀ (xs : List FixedDecimal) {x : FixedDecimal}, WF x → (∀ y ∈ xs, WF y) →
    ∃ r, (FixedDecimal.minOf m x xs : Out σ FixedDecimal) = .ok r ∧ r ∈ x :: xs ∧ ∀ y ∈ x :: xs, val r ≤ val y
  | [], x, _, _ => ⟨x, rfl, by simp, by simp⟩
  | y :: ys, x, hx, hy => by
    obtain ⟨b, e, hb, hv, -⟩ := C79_min (σ := σ) m hx (hy y (by simp))
    have wb : WF b := by rcases hb with rfl | rfl; exacts [hx, hy _ (by simp)]
    obtain ⟨r, er, hr, hm⟩ := C79_minOf m ys wb (fun z hz => hy z (by simp [hz]))
    have h1 := hm b (by simp)
    have h2 := min_le_left (val x) (val y)
    have h3 := min_le_right (val x) (val y)
    refine ⟨r, ?_, ?_, ?_⟩
    · unfold FixedDecimal.minOf
      rw [e]; exact er
    · rcases List.mem_cons.mp hr with h | h
      · rcases hb with h' | h' <;> rw [h, h'] <;> simp
      · simp [h]
    · intro z hz
      simp only [List.mem_cons] at hz
      rcases hz with rfl | rfl | hz
      · linarith
      · linarith
      · exact hm z (by simp [hz])

/-- The comparison a sorting routine is given: `a <= b` answered `true`. -/
def leq (m : Mode) (a b : FixedDecimal) : Bool := (FixedDecimal.le m a b : Out Empty Bool) == .ok true

/-- **C79** Whatever algorithm sorts a list: if the result is a rearrangement in which every pair is in `<=` order, its
numbers ascend, and any two such results agree in number and sign position by position - sorting is well-defined. -/
theorem C79_sorted (m : Mode) {l s t : List FixedDecimal} (hw : ∀ d ∈ l, WF d) (hs : s.Perm l) (ht : t.Perm l)
    (os : s.Pairwise fun a b => leq m a b = true) (ot : t.Pairwise fun a b => leq m a b = true) :
    (s.map val).Pairwise (· ≤ ·) ∧ s.map (fun d => (val d, neg d)) = t.map (fun d => (val d, neg d)) := by
  have ws : ∀ d ∈ s, WF d := fun d h => hw d (hs.mem_iff.mp h)
  have wt : ∀ d ∈ t, WF d := fun d h => hw d (ht.mem_iff.mp h)
  have key : ∀ {a b : FixedDecimal}, WF a → WF b → leq m a b = true →
      val a < val b ∨ (val a = val b ∧ (neg a = true ∨ neg b = false)) := by
    intro a b ha hb h
    unfold leq at h
    rw [le_spec m ha hb, beq_iff_eq, Out.ok.injEq, decide_eq_true_iff] at h
    exact h
  constructor
  · rw [List.pairwise_map]
    refine (List.Pairwise.and_mem.mp os).imp ?_
    rintro a b ⟨h1, h2, h3⟩
    rcases key (ws a h1) (ws b h2) h3 with h | h
    · exact h.le
    · exact h.1.le
  · let R : ℚ × Bool → ℚ × Bool → Prop := fun p q => p.1 < q.1 ∨ (p.1 = q.1 ∧ (p.2 = true ∨ q.2 = false))
    refine List.Perm.eq_of_pairwise (le := R) ?_ ?_ ?_ ((hs.trans ht.symm).map _)
    · rintro ⟨p, a⟩ ⟨q, b⟩ - - h1 h2
      simp only [R] at h1 h2
      rcases h1 with h1 | ⟨h1, h1'⟩ <;> rcases h2 with h2 | ⟨h2, h2'⟩
      · exact absurd h1 h2.not_gt
      · exact absurd h1 (by rw [h2]; exact lt_irrefl _)
      · exact absurd h2 (by rw [h1]; exact lt_irrefl _)
      · subst h1
        cases a <;> cases b <;> simp_all
    · rw [List.pairwise_map]
      refine (List.Pairwise.and_mem.mp os).imp ?_
      rintro a b ⟨h1, h2, h3⟩
      exact key (ws a h1) (ws b h2) h3
    · rw [List.pairwise_map]
      refine (List.Pairwise.and_mem.mp ot).imp ?_
      rintro a b ⟨h1, h2, h3⟩
      exact key (wt a h1) (wt b h2) h3

/-- **C79** Stable sorting by the library's `<=` and then reading the numbers is sorting the numbers (no negative zeros
in the list). -/
theorem C79_sort (m : Mode) {l : List FixedDecimal} (hw : ∀ d ∈ l, WF d) (hz : ∀ d ∈ l, ¬ NegZero d) :
    (l.mergeSort (leq m)).map val = (l.map val).mergeSort (fun p q => decide (p ≤ q)) := by
  refine List.map_mergeSort fun a ha b hb => ?_
  unfold leq
  rw [le_num m (hw a ha) (hw b hb) (hz a ha) (hz b hb), Bool.eq_iff_iff, beq_iff_eq, Out.ok.injEq]

/-- non-vacuity: three decimals out of order, a sorted rearrangement of them, clamping with bounds in and out of order. -/
example (m : Mode) : [Samples.c, Samples.b, Samples.a].Perm [Samples.a, Samples.c, Samples.b] ∧
    ([Samples.c, Samples.b, Samples.a].Pairwise fun x y => leq m x y = true) ∧
    (∀ d ∈ [Samples.a, Samples.c, Samples.b], WF d ∧ ¬ NegZero d) := by
  refine ⟨by decide, by cases m <;> decide +kernel, ?_⟩
  intro d hd
  simp only [List.mem_cons, List.not_mem_nil, or_false] at hd
  rcases hd with rfl | rfl | rfl <;> exact ⟨by decide, by unfold NegZero; decide⟩

example (m : Mode) : (FixedDecimal.clamp m Samples.a Samples.c Samples.b : Out Empty _) ≠ .panic .assert ∧
    (FixedDecimal.clamp m Samples.a Samples.b Samples.c : Out Empty _) = .panic .assert := by
  cases m <;> decide +kernel

end Fxd.Props
