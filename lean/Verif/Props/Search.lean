import Verif.Props.Order
/-!
# Property C111: binary search, and sorted lists as maps

`binary_search` of the standard library on a slice of decimals, and a sorted `Vec` kept by inserting at the place it returns.
-/

namespace Fxd.Props
open Fxd Spec

/-- The loop of `slice::binary_search_by` (Rust's library): `size` elements from `base` on are left. The fuel is `size`. -/
def searchLoop (m : Mode) (xs : List FixedDecimal) (x : FixedDecimal) : Nat → (base size : Nat) → Out Empty (Nat ⊕ Nat)
  | 0, _, _ => .panic .diverges
  | fuel + 1, base, size =>
    if 1 < size then
      match xs[base + size / 2]? with
      | none => .panic .index
      | some y => do
        let o ← FixedDecimal.cmp m y x
        searchLoop m xs x fuel (if o = .gt then base else base + size / 2) (size - size / 2)
    else
      match xs[base]? with
      | none => .panic .index
      | some y => do
        let o ← FixedDecimal.cmp m y x
        return if o = .eq then .inl base else .inr (if o = .lt then base + 1 else base)

/-- `xs.binary_search(&x)`: `.inl i` is `Ok(i)`, `.inr i` is `Err(i)`. -/
def binarySearch (m : Mode) (xs : List FixedDecimal) (x : FixedDecimal) : Out Empty (Nat ⊕ Nat) :=
  if xs.length = 0 then .ok (.inr 0) else searchLoop m xs x xs.length 0 xs.length

/-- In ascending order, as sorting leaves it. -/
def Ascending (xs : List FixedDecimal) : Prop := xs.Pairwise fun a b => ¬ Before b a

theorem before_trans {a b c : FixedDecimal} : Before a b → Before b c → Before a c := by
  rintro (h | ⟨h, h1, h2⟩) (k | ⟨k, k1, k2⟩)
  · exact .inl (h.trans k)
  · exact .inl (h.trans_eq k)
  · exact .inl (h.trans_lt k)
  · rw [h2] at k1; cases k1

theorem before_irrefl (a : FixedDecimal) : ¬ Before a a := by
  rintro (h | ⟨-, h1, h2⟩)
  · exact lt_irrefl _ h
  · rw [h1] at h2; cases h2

/-- Neither sorts before the other: same number, same sign. -/
theorem not_before_iff {a b : FixedDecimal} : ¬ Before a b ∧ ¬ Before b a ↔ val a = val b ∧ neg a = neg b := by
  unfold Before
  constructor
  · rintro ⟨h1, h2⟩
    push Not at h1 h2
    have e : val a = val b := le_antisymm h2.1 h1.1
    refine ⟨e, ?_⟩
    have h3 := h1.2 e
    have h4 := h2.2 e.symm
    cases ha : neg a <;> cases hb : neg b <;> simp_all
  · rintro ⟨h1, h2⟩
    rw [h1, h2]
    constructor <;> rintro (h | ⟨-, h3, h4⟩)
    · exact lt_irrefl _ h
    · rw [h3] at h4; cases h4
    · exact lt_irrefl _ h
    · rw [h3] at h4; cases h4

/-- If `b` does not sort before `a`, what sorts before `a` sorts before `b`. -/
theorem before_of_not {a b c : FixedDecimal} (h : ¬ Before b a) (h' : Before c a) : Before c b := by
  rcases lt_trichotomy (val a) (val b) with k | k | k
  · rcases h' with h' | ⟨h', -⟩
    · exact .inl (h'.trans k)
    · exact .inl (by rw [h']; exact k)
  · rcases h' with h' | ⟨h', h1, h2⟩
    · exact .inl (h'.trans_eq k)
    · refine .inr ⟨h'.trans k, h1, ?_⟩
      by_contra hb
      exact h (.inr ⟨k.symm, by simpa using hb, h2⟩)
  · exact absurd (.inl k) h

/-- If `b` does not sort before `a`, what sorts after `b` sorts after `a`. -/
theorem before_of_not' {a b c : FixedDecimal} (h : ¬ Before b a) (h' : Before b c) : Before a c := by
  by_contra hc
  rcases lt_trichotomy (val a) (val c) with k | k | k
  · exact hc (.inl k)
  · rcases h' with h' | ⟨h', h1, h2⟩
    · exact h (.inl (by rw [k]; exact h'))
    · refine hc (.inr ⟨k, ?_, h2⟩)
      by_contra ha
      exact h (.inr ⟨h'.trans k.symm, h1, by simpa using ha⟩)
  · rcases h' with h' | ⟨h', -⟩
    · exact h (.inl (h'.trans k))
    · exact h (.inl (by rw [h']; exact k))

/-- `cmp` in terms of the order. -/
theorem cmp_before (m : Mode) {a b : FixedDecimal} (ha : WF a) (hb : WF b) :
    ∃ o, (FixedDecimal.cmp m a b : Out Empty Ordering) = .ok o ∧ (o = .lt ↔ Before a b) ∧ (o = .gt ↔ Before b a) ∧
      (o = .eq ↔ val a = val b ∧ neg a = neg b) := by
  obtain ⟨r1, r2, -, -⟩ := C79_relations (σ := Empty) m ha hb
  refine ⟨_, C16_cmp_spec m ha hb, ?_⟩
  unfold FixedDecimal.lt FixedDecimal.gt at *
  rw [C16_cmp_spec m ha hb] at r1 r2
  simp only [ok_bind, pure_ok, Out.ok.injEq] at r1 r2
  generalize (compare (val a) (val b)).then (compare (neg b) (neg a)) = o at *
  rw [← not_before_iff]
  have h1 : o = .lt ↔ Before a b := by
    rw [← decide_eq_true_iff (p := Before a b), ← r1]; simp
  have h2 : o = .gt ↔ Before b a := by
    rw [← decide_eq_true_iff (p := Before b a), ← r2]; simp
  refine ⟨h1, h2, ?_⟩
  rw [← h1, ← h2]
  cases o <;> simp

theorem ascending_get {xs : List FixedDecimal} (h : Ascending xs) {i j : Nat} {a b : FixedDecimal} (hi : xs[i]? = some a)
    (hj : xs[j]? = some b) (hij : i ≤ j) : ¬ Before b a := by
  rcases Nat.lt_or_ge i j with hlt | hge
  · obtain ⟨h1, e1⟩ := List.getElem?_eq_some_iff.mp hi
    obtain ⟨h2, e2⟩ := List.getElem?_eq_some_iff.mp hj
    have := List.pairwise_iff_getElem.mp h i j h1 h2 hlt
    rwa [e1, e2] at this
  · have : i = j := by omega
    subst this
    rw [hi] at hj
    injection hj with hj
    rw [hj]; exact before_irrefl b

/-- What a search may answer. -/
def Found (xs : List FixedDecimal) (x : FixedDecimal) : Nat ⊕ Nat → Prop
  | .inl i => ∃ y, xs[i]? = some y ∧ val y = val x ∧ neg y = neg x
  | .inr i => i ≤ xs.length ∧ (∀ j y, xs[j]? = some y → j < i → Before y x) ∧ (∀ j y, xs[j]? = some y → i ≤ j → Before x y)

theorem searchLoop_spec (m : Mode) {xs : List FixedDecimal} {x : FixedDecimal} (hx : WF x) (hw : ∀ d ∈ xs, WF d) (ha : Ascending xs) :
    ∀ (fuel base size : Nat), size ≤ fuel → 1 ≤ size → base + size ≤ xs.length →
      (base = 0 ∨ ∃ y, xs[base]? = some y ∧ ¬ Before x y) → (∀ j y, xs[j]? = some y → base + size ≤ j → Before x y) →
      ∃ r, searchLoop m xs x fuel base size = .ok r ∧ Found xs x r
  | 0, _, _, hf, h1, _, _, _ => absurd h1 (by omega)
  | fuel + 1, base, size, hf, h1, hl, hb, ht => by
    unfold searchLoop
    by_cases hs : 1 < size
    · rw [if_pos hs]
      have hlt : base + size / 2 < xs.length := by omega
      obtain ⟨y, hy⟩ : ∃ y, xs[base + size / 2]? = some y := ⟨_, List.getElem?_eq_getElem hlt⟩
      rw [hy]
      have wy : WF y := hw y (List.mem_of_getElem? hy)
      obtain ⟨o, e, -, o2, -⟩ := cmp_before m wy hx
      simp only [e, ok_bind]
      by_cases ho : o = .gt
      · rw [if_pos ho]
        refine searchLoop_spec m hx hw ha fuel _ _ (by omega) (by omega) (by omega) hb ?_
        intro j z hz hj
        exact before_of_not (ascending_get ha hy hz (by omega)) (o2.mp ho)
      · rw [if_neg ho]
        refine searchLoop_spec m hx hw ha fuel _ _ (by omega) (by omega) (by omega) (.inr ⟨y, hy, fun h => ho (o2.mpr h)⟩) ?_
        intro j z hz hj
        exact ht j z hz (by omega)
    · rw [if_neg hs]
      have hs1 : size = 1 := by omega
      subst hs1
      obtain ⟨y, hy⟩ : ∃ y, xs[base]? = some y := ⟨_, List.getElem?_eq_getElem (by omega)⟩
      rw [hy]
      have wy : WF y := hw y (List.mem_of_getElem? hy)
      obtain ⟨o, e, o1, o2, o3⟩ := cmp_before m wy hx
      simp only [e, ok_bind, pure_ok]
      refine ⟨_, rfl, ?_⟩
      by_cases h3 : o = .eq
      · rw [if_pos h3]
        exact ⟨y, hy, o3.mp h3⟩
      · rw [if_neg h3]
        by_cases h4 : o = .lt
        · rw [if_pos h4]
          refine ⟨by omega, fun j z hz hj => ?_, fun j z hz hj => ht j z hz (by omega)⟩
          exact before_of_not' (ascending_get ha hz hy (by omega)) (o1.mp h4)
        · rw [if_neg h4]
          have h5 : Before x y := o2.mp (by cases o <;> simp_all)
          have hb0 : base = 0 := by
            rcases hb with hb | ⟨z, hz, hn⟩
            · exact hb
            · rw [hy] at hz; injection hz with hz; rw [hz] at h5; exact absurd h5 hn
          subst hb0
          refine ⟨by omega, fun j z hz hj => absurd hj (by omega), fun j z hz hj => ?_⟩
          exact before_of_not (ascending_get ha hy hz (by omega)) h5

/-- **C111** Binary search in an ascending list of any length never fails: it returns the place of an element equal to the one sought
(in number and sign, whatever the scales), or, if there is none, the place where it belongs: everything before sorts before it and
everything from there on after it. -/
theorem C111_search (m : Mode) {xs : List FixedDecimal} {x : FixedDecimal} (hx : WF x) (hw : ∀ d ∈ xs, WF d) (ha : Ascending xs) :
    ∃ r, binarySearch m xs x = .ok r ∧ Found xs x r := by
  unfold binarySearch
  by_cases h0 : xs.length = 0
  · rw [if_pos h0]
    have : xs = [] := List.length_eq_zero_iff.mp h0
    subst this
    exact ⟨_, rfl, by simp, by simp, by simp⟩
  · rw [if_neg h0]
    refine searchLoop_spec m hx hw ha _ _ _ le_rfl (by omega) (by omega) (.inl rfl) ?_
    intro j y hy hj
    rw [List.getElem?_eq_none (by omega)] at hy
    cases hy

/-- **C111** So an element is found exactly if the list holds the same number with the same sign. -/
theorem C111_found_iff (m : Mode) {xs : List FixedDecimal} {x : FixedDecimal} (hx : WF x) (hw : ∀ d ∈ xs, WF d) (ha : Ascending xs) :
    (∃ i, binarySearch m xs x = .ok (.inl i)) ↔ ∃ y ∈ xs, val y = val x ∧ neg y = neg x := by
  obtain ⟨r, e, hr⟩ := C111_search m hx hw ha
  rw [e]
  cases r with
  | inl i =>
    obtain ⟨y, h1, h2⟩ := hr
    exact ⟨fun _ => ⟨y, List.mem_of_getElem? h1, h2⟩, fun _ => ⟨i, rfl⟩⟩
  | inr i =>
    obtain ⟨-, h1, h2⟩ := hr
    constructor
    · rintro ⟨j, hj⟩
      cases hj
    · rintro ⟨y, hy, h3⟩
      obtain ⟨j, hj⟩ := List.getElem?_of_mem hy
      obtain ⟨n1, n2⟩ := not_before_iff.mpr h3
      rcases Nat.lt_or_ge j i with h | h
      · exact absurd (h1 j y hj h) n1
      · exact absurd (h2 j y hj h) n2

/-- `match xs.binary_search(&x) { Ok(_) => {}, Err(i) => xs.insert(i, x) }`: a sorted `Vec` as a set. -/
def insertSorted (m : Mode) (xs : List FixedDecimal) (x : FixedDecimal) : Out Empty (List FixedDecimal) := do
  match ← binarySearch m xs x with
  | .inl _ => return xs
  | .inr i => return xs.take i ++ x :: xs.drop i

/-- One element after the other. -/
def insertAll (m : Mode) : List FixedDecimal → List FixedDecimal → Out Empty (List FixedDecimal)
  | xs, [] => .ok xs
  | xs, y :: ys => do
    let xs ← insertSorted m xs y
    insertAll m xs ys

/-- Strictly ascending: no two elements are equal. -/
def Strict (xs : List FixedDecimal) : Prop := xs.Pairwise Before

theorem strict_ascending {xs : List FixedDecimal} (h : Strict xs) : Ascending xs :=
  List.Pairwise.imp (fun {_ _} h h' => before_irrefl _ (before_trans h h')) h

/-- Insertion into a set: it stays strictly ascending, and holds what it held and the new number. -/
theorem insertSorted_spec (m : Mode) {xs : List FixedDecimal} {x : FixedDecimal} (hx : WF x) (hw : ∀ d ∈ xs, WF d) (ha : Strict xs) :
    ∃ r, insertSorted m xs x = .ok r ∧ Strict r ∧ (∀ d ∈ r, WF d) ∧ (∀ d ∈ r, d ∈ xs ∨ d = x) ∧ (∀ d ∈ xs, d ∈ r) ∧
      ∃ y ∈ r, val y = val x ∧ neg y = neg x := by
  obtain ⟨r, e, hr⟩ := C111_search m hx hw (strict_ascending ha)
  unfold insertSorted
  rw [e]
  cases r with
  | inl i =>
    obtain ⟨y, h1, h2⟩ := hr
    exact ⟨xs, rfl, ha, hw, fun d hd => .inl hd, fun d hd => hd, y, List.mem_of_getElem? h1, h2⟩
  | inr i =>
    obtain ⟨hi, h1, h2⟩ := hr
    have mt : ∀ d ∈ xs.take i, d ∈ xs := fun d hd => List.mem_of_mem_take hd
    have md : ∀ d ∈ xs.drop i, d ∈ xs := fun d hd => List.mem_of_mem_drop hd
    have b1 : ∀ d ∈ xs.take i, Before d x := by
      intro d hd
      obtain ⟨j, hj⟩ := List.getElem?_of_mem hd
      rw [List.getElem?_take] at hj
      split at hj
      · exact h1 j d hj (by assumption)
      · cases hj
    have b2 : ∀ d ∈ xs.drop i, Before x d := by
      intro d hd
      obtain ⟨j, hj⟩ := List.getElem?_of_mem hd
      rw [List.getElem?_drop] at hj
      exact h2 _ d hj (by omega)
    have hsplit : Strict (xs.take i ++ xs.drop i) := by rw [List.take_append_drop]; exact ha
    obtain ⟨s1, s2, s3⟩ := List.pairwise_append.mp hsplit
    refine ⟨_, rfl, ?_, ?_, ?_, ?_, x, by simp, rfl, rfl⟩
    · refine List.pairwise_append.mpr ⟨s1, List.pairwise_cons.mpr ⟨b2, s2⟩, ?_⟩
      intro a ha' b hb'
      rcases List.mem_cons.mp hb' with rfl | hb'
      · exact b1 a ha'
      · exact s3 a ha' b hb'
    · intro d hd
      rcases List.mem_append.mp hd with h | h
      · exact hw d (mt d h)
      · rcases List.mem_cons.mp h with rfl | h
        · exact hx
        · exact hw d (md d h)
    · intro d hd
      rcases List.mem_append.mp hd with h | h
      · exact .inl (mt d h)
      · rcases List.mem_cons.mp h with h | h
        · exact .inr h
        · exact .inl (md d h)
    · intro d hd
      rw [← List.take_append_drop i xs] at hd
      rcases List.mem_append.mp hd with h | h
      · exact List.mem_append.mpr (.inl h)
      · exact List.mem_append.mpr (.inr (List.mem_cons.mpr (.inr h)))

/-- **C111** A sorted `Vec` as a set, filled with any number of decimals in any order: no call fails, it stays strictly ascending, every
element is one that was put in, and it holds each number put in exactly once - later spellings of the same number (1.0 after 1) leave
it as it is. -/
theorem C111_set (m : Mode) : ∀ (ys xs : List FixedDecimal), (∀ d ∈ ys, WF d) → (∀ d ∈ xs, WF d) → Strict xs →
    ∃ r, insertAll m xs ys = .ok r ∧ Strict r ∧ (∀ d ∈ r, d ∈ xs ∨ d ∈ ys) ∧ (∀ d ∈ xs, d ∈ r) ∧
      (∀ y ∈ ys, ∃ d ∈ r, val d = val y ∧ neg d = neg y) ∧ (r.map (fun d => (val d, neg d))).Nodup
  | [], xs, _, _, hs => by
    refine ⟨xs, rfl, hs, fun d hd => .inl hd, fun d hd => hd, by simp, ?_⟩
    refine List.pairwise_map.mpr (hs.imp ?_)
    intro a b hab e
    injection e with e1 e2
    exact (not_before_iff.mpr ⟨e1, e2⟩).1 hab
  | y :: ys, xs, hy, hx, hs => by
    obtain ⟨t, e1, t1, t2, t3, t4, z, t5, t6⟩ := insertSorted_spec m (hy y (by simp)) hx hs
    obtain ⟨r, e2, r1, r2, r3, r4, r5⟩ := C111_set m ys t (fun d hd => hy d (by simp [hd])) t2 t1
    refine ⟨r, by unfold insertAll; rw [e1, ok_bind]; exact e2, r1, ?_, fun d hd => r3 d (t4 d hd), ?_, r5⟩
    · intro d hd
      rcases r2 d hd with h | h
      · rcases t3 d h with h | h
        · exact .inl h
        · exact .inr (by rw [h]; simp)
      · exact .inr (by simp [h])
    · intro w hw'
      rcases List.mem_cons.mp hw' with rfl | h
      · exact ⟨z, r3 z t5, t6⟩
      · exact r4 w h

/-- Cases of `C111_*`: the set of 1, -7.50, 1.0, and a search for 1.00 in it. -/
example (m : Mode) : ∃ r, insertAll m [] [⟨1#8, 0, [1, 0, 0, 0, 0, 0, 0, 0, 0]⟩, Samples.c, ⟨1#8, 1, [0, 1, 0, 0, 0, 0, 0, 0, 0]⟩] = .ok r ∧
    Strict r ∧ r = [Samples.c, ⟨1#8, 0, [1, 0, 0, 0, 0, 0, 0, 0, 0]⟩] ∧
    binarySearch m r ⟨1#8, 2, [0, 1, 0, 0, 0, 0, 0, 0, 0]⟩ = .ok (.inl 1) := by
  obtain ⟨r, e, h, -⟩ := C111_set m [⟨1#8, 0, [1, 0, 0, 0, 0, 0, 0, 0, 0]⟩, Samples.c, ⟨1#8, 1, [0, 1, 0, 0, 0, 0, 0, 0, 0]⟩] []
    (by intro d hd
        simp only [List.mem_cons, List.not_mem_nil, or_false] at hd
        rcases hd with rfl | rfl | rfl <;> decide) (by simp) List.Pairwise.nil
  have e' : insertAll m [] [⟨1#8, 0, [1, 0, 0, 0, 0, 0, 0, 0, 0]⟩, Samples.c, ⟨1#8, 1, [0, 1, 0, 0, 0, 0, 0, 0, 0]⟩] =
      .ok [Samples.c, ⟨1#8, 0, [1, 0, 0, 0, 0, 0, 0, 0, 0]⟩] := by cases m <;> decide +kernel
  rw [e] at e'
  injection e' with e'
  exact ⟨r, e, h, e', by rw [e']; cases m <;> decide +kernel⟩

end Fxd.Props
