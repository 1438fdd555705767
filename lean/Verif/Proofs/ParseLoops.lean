import Verif.Proofs.Dec
import Verif.Model.Parse
import Verif.Spec.Numeral
/-!
# The digit loops of the parser
-/

namespace Fxd
open Spec

variable {σ : Type} {m : Mode}

/-- The text `cs` at position `i` shows the digits `ds` (dots may be interspersed), the last one at position `last`;
`tail` is what follows. -/
inductive Text (last : Int) : List Nat → Int → List Nat → Prop
  | dot {cs i ds} : Text last cs (i + 1) ds → Text last (46 :: cs) i ds
  | last {d cs} : d < 10 → Text last ((d + 48) :: cs) last [d]
  | cons {d cs i ds} : d < 10 → i ≠ last → Text last cs (i + 1) ds → Text last ((d + 48) :: cs) i (d :: ds)

theorem Text.ne_nil {last : Int} {cs : List Nat} {i : Int} {ds : List Nat} (h : Text last cs i ds) : ds ≠ [] := by
  induction h with
  | dot _ ih => exact ih
  | last => simp
  | cons => simp

theorem Text.digits {last : Int} {cs : List Nat} {i : Int} {ds : List Nat} (h : Text last cs i ds) :
    ∀ d ∈ ds, d < 10 := by
  induction h with
  | dot _ ih => exact ih
  | last h => simpa using h
  | cons h _ _ ih => intro d hd; rcases List.mem_cons.mp hd with rfl | hd; exacts [h, ih d hd]

/-! ## Values of digit lists -/

theorem digitsVal_foldl (ds : List Nat) (n : Nat) :
    ds.foldl (fun n d => 10 * n + d) n = n * 10 ^ ds.length + digitsVal ds := by
  unfold digitsVal
  induction ds generalizing n with
  | nil => simp
  | cons d ds ih =>
    rw [List.foldl_cons, ih, List.foldl_cons, ih (10 * 0 + d), List.length_cons]; ring

theorem digitsVal_nil : digitsVal [] = 0 := rfl
theorem digitsVal_cons (d : Nat) (ds : List Nat) : digitsVal (d :: ds) = d * 10 ^ ds.length + digitsVal ds := by
  unfold digitsVal; rw [List.foldl_cons, digitsVal_foldl]; unfold digitsVal; ring
theorem digitsVal_append (a b : List Nat) : digitsVal (a ++ b) = digitsVal a * 10 ^ b.length + digitsVal b := by
  unfold digitsVal; rw [List.foldl_append, digitsVal_foldl]; rfl
theorem digitsVal_snoc (a : List Nat) (d : Nat) : digitsVal (a ++ [d]) = 10 * digitsVal a + d := by
  rw [digitsVal_append, digitsVal_cons]; simp [digitsVal_nil]; ring
theorem digitsVal_lt {ds : List Nat} (h : ∀ d ∈ ds, d < 10) : digitsVal ds < 10 ^ ds.length := by
  induction ds with
  | nil => simp [digitsVal_nil]
  | cons d ds ih =>
    rw [digitsVal_cons, List.length_cons, pow_succ]
    have h1 := ih (fun x hx => h x (by simp [hx]))
    have h2 : d ≤ 9 := by have := h d (by simp); omega
    nlinarith [Nat.mul_le_mul_right (10 ^ ds.length) h2]

/-! ## The integral loop -/

/-- The number written in the units from `lo` (inclusive) to `hi` (exclusive). -/
def seg (l : List Int) (lo hi : Nat) : Int := psum (fun j => dg l (lo + j)) (hi - lo)

theorem seg_self (l : List Int) (a : Nat) : seg l a a = 0 := by unfold seg; simp
theorem seg_cons {l : List Int} {lo hi : Nat} (h : lo < hi) :
    seg l lo hi = dg l lo + 1000000000 * seg l (lo + 1) hi := by
  unfold seg
  rw [show hi - lo = 1 + (hi - (lo + 1)) by omega, psum_add_len]
  simp only [psum_succ, psum_zero, pow_zero, pow_one, Nat.add_zero]
  rw [show (fun i => dg l (lo + (1 + i))) = fun j => dg l (lo + 1 + j) from by
    funext i; rw [Nat.add_assoc]]
  ring
theorem seg_congr {l l' : List Int} {lo hi : Nat} (h : ∀ j, lo ≤ j → j < hi → dg l j = dg l' j) :
    seg l lo hi = seg l' lo hi := by
  unfold seg; exact psum_congr fun j hj => h _ (by omega) (by omega)
theorem seg_split {l : List Int} {lo mid hi : Nat} (h1 : lo ≤ mid) (h2 : mid ≤ hi) :
    seg l lo hi = seg l lo mid + 1000000000 ^ (mid - lo) * seg l mid hi := by
  unfold seg
  rw [psum_split (show mid - lo ≤ hi - lo by omega)]
  congr 2
  rw [show hi - lo - (mid - lo) = hi - mid by omega]
  exact psum_congr fun j _ => by congr 1; omega

/-- What the two digit loops leave alone and keep in range: length, units outside `[lo, hi)`, range of the others. -/
structure Wrote (l l' : List Int) (lo hi : Nat) : Prop where
  len : l'.length = l.length
  same : ∀ j, j < lo ∨ hi ≤ j → dg l' j = dg l j
  rng : ∀ j, lo ≤ j → j < hi → 0 ≤ dg l' j ∧ dg l' j < 1000000000

theorem Wrote.refl (l : List Int) (a : Nat) : Wrote l l a a :=
  ⟨rfl, fun _ _ => rfl, fun j h1 h2 => by omega⟩
theorem Wrote.trans {l l' l'' : List Int} {a b c : Nat} (h1 : Wrote l l' b c) (h2 : Wrote l' l'' a b)
    (hab : a ≤ b) (hbc : b ≤ c) : Wrote l l'' a c := by
  refine ⟨h2.len.trans h1.len, fun j hj => ?_, fun j hj hj' => ?_⟩
  · rw [h2.same j (by omega), h1.same j (by omega)]
  · by_cases hb : j < b
    · exact h2.rng j hj hb
    · rw [h2.same j (by omega)]; exact h1.rng j (by omega) hj'
theorem Wrote.one {l : List Int} {i : Nat} {v : Int} (hi : i < l.length) (hv : 0 ≤ v ∧ v < 1000000000) :
    Wrote l (l.set i v) i (i + 1) := by
  refine ⟨by simp, fun j hj => dg_set_ne (by omega), fun j h1 h2 => ?_⟩
  obtain rfl : j = i := by omega
  rw [dg_set_self hi]; exact hv

theorem intgLoop_dot {last : Int} {cs : List Nat} {i out cut up : Int} {lsu : List Int} :
    (intgLoop m last (46 :: cs) i out cut up lsu : Out σ _) = intgLoop m last cs (i + 1) out cut up lsu := by
  rw [intgLoop, if_pos rfl]

theorem intgLoop_digit {last : Int} {d : Nat} (hd : d < 10) {cs : List Nat} {i out up : Int} {c : Nat} {lsu : List Int}
    (h0 : 0 ≤ out) (h1 : out < 100000000) (hc : c < 127) :
    (intgLoop m last ((d + 48) :: cs) i out ((c + 1 : Nat) : Int) up lsu : Out σ _) =
      if c = 0 then .ok (cs, 10 * out + d, (c : Int), up, lsu)
      else if i = last then .ok (cs, 10 * out + d, (c : Int), up, lsu)
      else if c % 9 > 0 then intgLoop m last cs (i + 1) (10 * out + d) c up lsu
      else (upd lsu up (10 * out + d) >>= fun lsu => intgLoop m last cs (i + 1) 0 c (up - 1) lsu) := by
  rw [intgLoop, if_neg (by omega), i32_ok (by omega) (by omega), ok_bind, i32_ok (by push_cast; omega) (by push_cast; omega),
    ok_bind, i32_ok (by push_cast; omega) (by push_cast; omega), ok_bind, i8_ok (by push_cast; omega) (by push_cast; omega), ok_bind]
  rw [show (((c + 1 : Nat) : Int) - 1) = (c : Int) by push_cast; ring,
    show out * 10 + ((d + 48 : Nat) : Int) - 48 = 10 * out + d by push_cast; ring]
  by_cases hc0 : c = 0
  · rw [if_pos hc0, if_pos (by omega)]; rfl
  rw [if_neg hc0, if_neg (by omega)]
  by_cases hl : i = last
  · rw [if_pos hl, if_pos hl]; rfl
  rw [if_neg hl, if_neg hl, mod9_nat (by omega), ok_bind]
  by_cases h9 : c % 9 > 0
  · rw [if_pos h9, if_pos (by omega)]
  · rw [if_neg h9, if_neg (by omega)]

/-- The integral loop: `P` is the number read so far, `r` the digits still missing in unit `up`. It reads
`min c ds.length` digits. -/
theorem intgLoop_spec {last : Int} {cs : List Nat} {i : Int} {ds : List Nat} (ht : Text last cs i ds)
    {fu up r top : Nat} {out : Int} {lsu : List Int} {P : Int} {c : Nat}
    (hr1 : 1 ≤ r) (hr9 : r ≤ 9) (hup : fu ≤ up) (htop : up < top) (hlen : top ≤ lsu.length)
    (hcut : c = 9 * (up - fu) + r) (hcut127 : c ≤ 127)
    (hP : P = seg lsu (up + 1) top * 10 ^ (9 - r) + out) (hout0 : 0 ≤ out) (hout : out < 10 ^ (9 - r)) :
    ∃ (rest : List Nat) (out' : Int) (c' up' r' : Nat) (lsu' : List Int),
      (intgLoop m last cs i out c up lsu : Out σ _) = .ok (rest, out', (c' : Int), (up' : Int), lsu') ∧
      fu ≤ up' ∧ up' ≤ up ∧ r' ≤ 8 ∧ c' = 9 * (up' - fu) + r' ∧
      c' = c - min c ds.length ∧
      Wrote lsu lsu' (up' + 1) (up + 1) ∧ 0 ≤ out' ∧ out' < 10 ^ (9 - r') ∧
      P * 10 ^ (min c ds.length) + digitsVal (ds.take c) =
        seg lsu' (up' + 1) top * 10 ^ (9 - r') + out' ∧
      (c < ds.length → rest.length ≤ cs.length ∧
        Text last rest (i + ((cs.length : Int) - rest.length)) (ds.drop c)) := by
  have pw : (10 : Int) ^ (9 - r) ≤ 10 ^ 8 := pow_le_pow_right₀ (by norm_num) (by omega)
  induction ht generalizing up r out lsu P c with
  | @dot cs i ds ht ih =>
    obtain ⟨rest, out', c', up', r', lsu', e, a1, a2, a3, a4, a5, a6, a7, a8, a9, a10⟩ :=
      ih hr1 hr9 hup htop hlen hcut hcut127 hP hout0 hout pw
    refine ⟨rest, out', c', up', r', lsu', by rw [intgLoop_dot]; exact e, a1, a2, a3, a4, a5, a6, a7, a8, a9, ?_⟩
    intro h
    obtain ⟨b1, b2⟩ := a10 h
    refine ⟨by rw [List.length_cons]; omega, ?_⟩
    rw [List.length_cons]
    rw [show i + (((cs.length + 1 : Nat) : Int) - rest.length) = i + 1 + ((cs.length : Int) - rest.length) by push_cast; ring]
    exact b2
  | @last d cs hd =>
    obtain ⟨c0, rfl⟩ : ∃ k, c = k + 1 := ⟨c - 1, by omega⟩
    obtain ⟨r0, rfl⟩ : ∃ k, r = k + 1 := ⟨r - 1, by omega⟩
    refine ⟨cs, 10 * out + d, c0, up, r0, lsu, ?_, hup, le_refl _, by omega, by omega, by simp,
      ?_, by omega, ?_, ?_, ?_⟩
    · rw [intgLoop_digit hd hout0 (by linarith) (by omega)]
      simp
    · exact Wrote.refl _ _
    · rw [show 9 - r0 = (9 - (r0 + 1)) + 1 by omega, pow_succ]; omega
    · rw [hP, show 9 - r0 = (9 - (r0 + 1)) + 1 by omega, pow_succ]
      simp only [List.length_singleton, List.take_succ_cons, List.take_nil]
      rw [digitsVal_cons, digitsVal_nil, Nat.min_eq_right (by omega)]; simp; ring
    · simp only [List.length_singleton]; omega
  | @cons d cs i ds hd hi ht ih =>
    obtain ⟨c0, rfl⟩ : ∃ k, c = k + 1 := ⟨c - 1, by omega⟩
    obtain ⟨r0, rfl⟩ : ∃ k, r = k + 1 := ⟨r - 1, by omega⟩
    have e9 : 9 - r0 = (9 - (r0 + 1)) + 1 := by omega
    have ho : 10 * out + d < 10 ^ (9 - r0) := by rw [e9, pow_succ]; omega
    have hP' : 10 * P + d = seg lsu (up + 1) top * 10 ^ (9 - r0) + (10 * out + d) := by rw [hP, e9, pow_succ]; ring
    by_cases hc0 : c0 = 0
    · subst hc0
      have hne := ht.ne_nil
      have hlen1 : 1 ≤ ds.length := by
        rcases ds with _ | _
        · exact absurd rfl hne
        · simp
      refine ⟨cs, 10 * out + d, 0, up, r0, lsu, ?_, hup, le_refl _, by omega, by omega, by simp,
        Wrote.refl _ _, by omega, ho, ?_, ?_⟩
      · rw [intgLoop_digit hd hout0 (by linarith) (by omega), if_pos rfl]
      · rw [← hP']
        simp only [List.length_cons, List.take_succ_cons, List.take_zero, zero_add]
        rw [digitsVal_cons, digitsVal_nil, Nat.min_eq_left (by omega)]; simp; ring
      · intro _
        refine ⟨by simp, ?_⟩
        simpa using ht
    · have hstep : P * 10 ^ (min (c0 + 1) (d :: ds).length) + (digitsVal ((d :: ds).take (c0 + 1)) : Int) =
          (10 * P + d) * 10 ^ (min c0 ds.length) + (digitsVal (ds.take c0) : Int) := by
        rw [List.length_cons, List.take_succ_cons, digitsVal_cons, List.length_take,
          show min (c0 + 1) (ds.length + 1) = min c0 ds.length + 1 by omega, pow_succ]
        push_cast; ring
      by_cases h9 : c0 % 9 > 0
      · have hr0 : 1 ≤ r0 := by omega
        obtain ⟨rest, out', c', up', r', lsu', e, a1, a2, a3, a4, a5, a6, a7, a8, a9, a10⟩ :=
          ih (out := 10 * out + d) (P := 10 * P + d) (r := r0) (c := c0) hr0 (by omega) hup htop hlen (by omega)
            (by omega) hP' (by omega) ho (pow_le_pow_right₀ (by norm_num) (by omega))
        refine ⟨rest, out', c', up', r', lsu', ?_, a1, a2, a3, a4, ?_, a6, a7, a8, ?_, ?_⟩
        · rw [intgLoop_digit hd hout0 (by linarith) (by omega), if_neg hc0, if_neg hi, if_pos h9]; exact e
        · rw [a5, List.length_cons]; omega
        · rw [hstep, a9]
        · intro h
          rw [List.length_cons] at h
          obtain ⟨b1, b2⟩ := a10 (by omega)
          refine ⟨by rw [List.length_cons]; omega, ?_⟩
          rw [List.length_cons, List.drop_succ_cons]
          rw [show i + (((cs.length + 1 : Nat) : Int) - rest.length) = i + 1 + ((cs.length : Int) - rest.length) by
            push_cast; ring]
          exact b2
      · have hr0 : r0 = 0 := by omega
        subst hr0
        have hupfu : fu + 1 ≤ up := by omega
        have hset : 0 ≤ 10 * out + (d : Int) ∧ 10 * out + (d : Int) < 1000000000 := ⟨by omega, by simpa using ho⟩
        have hw : Wrote lsu (lsu.set up (10 * out + d)) up (up + 1) := Wrote.one (by omega) hset
        have hseg : seg (lsu.set up (10 * out + d)) up top = 10 * P + d := by
          rw [seg_cons htop, dg_set_self (by omega), hP']
          rw [seg_congr (l' := lsu) fun j h1 h2 => dg_set_ne (by omega)]; norm_num; ring
        obtain ⟨rest, out', c', up', r', lsu', e, a1, a2, a3, a4, a5, a6, a7, a8, a9, a10⟩ :=
          ih (out := 0) (P := 10 * P + d) (r := 9) (c := c0) (up := up - 1) (lsu := lsu.set up (10 * out + d))
            (by norm_num) (le_refl _) (by omega) (by omega) (by simpa using hlen) (by omega) (by omega)
            (by rw [show up - 1 + 1 = up by omega, hseg]; norm_num) (le_refl _) (by norm_num) (by norm_num)
        rw [show up - 1 + 1 = up by omega] at a6
        refine ⟨rest, out', c', up', r', lsu', ?_, a1, by omega, a3, a4, ?_, ?_, a7, a8, ?_, ?_⟩
        · rw [intgLoop_digit hd hout0 (by linarith) (by omega), if_neg hc0, if_neg hi, if_neg h9,
            upd_nat (by omega), ok_bind, ← e]
          congr 1; omega
        · rw [a5, List.length_cons]; omega
        · exact hw.trans a6 (by omega) (by omega)
        · rw [hstep, a9]
        · intro h
          rw [List.length_cons] at h
          obtain ⟨b1, b2⟩ := a10 (by omega)
          refine ⟨by rw [List.length_cons]; omega, ?_⟩
          rw [List.length_cons, List.drop_succ_cons]
          rw [show i + (((cs.length + 1 : Nat) : Int) - rest.length) = i + 1 + ((cs.length : Int) - rest.length) by
            push_cast; ring]
          exact b2

/-! ## Zero units -/

theorem zeroUnitsLoop_spec {k : Nat} : ∀ {fu fuel : Nat} {lsu : List Int}, fu + k ≤ lsu.length → 9 * k ≤ 127 → 9 * k < fuel →
    ∃ lsu', (zeroUnitsLoop m fuel ((9 * k : Nat) : Int) ((fu + k : Nat) - 1 : Int) lsu : Out σ _) =
        .ok ((fu : Int) - 1, lsu') ∧
      Wrote lsu lsu' fu (fu + k) ∧ seg lsu' fu (fu + k) = 0 := by
  induction k with
  | zero =>
    intro fu fuel lsu _ _ hf
    refine ⟨lsu, ?_, Wrote.refl _ _, seg_self _ _⟩
    cases fuel
    · omega
    · simp [zeroUnitsLoop]
  | succ k ih =>
    intro fu fuel lsu hl hk hf
    obtain ⟨f, rfl⟩ : ∃ f, fuel = f + 1 := ⟨fuel - 1, by omega⟩
    have hw : Wrote lsu (lsu.set (fu + k) 0) (fu + k) (fu + k + 1) := Wrote.one (by omega) (by norm_num)
    obtain ⟨lsu', e, w, hs⟩ := ih (fu := fu) (fuel := f) (lsu := lsu.set (fu + k) 0) (by simp; omega) (by omega) (by omega)
    refine ⟨lsu', ?_, hw.trans w (by omega) (by omega), ?_⟩
    · rw [zeroUnitsLoop, if_pos (by push_cast; omega),
        show ((fu + (k + 1) : Nat) - 1 : Int) = ((fu + k : Nat) : Int) by push_cast; ring, upd_nat (by omega), ok_bind,
        i8_ok (by unfold DIGITS_PER_UNIT; push_cast; omega) (by unfold DIGITS_PER_UNIT; push_cast; omega), ok_bind, ← e]
      congr 1
      unfold DIGITS_PER_UNIT; push_cast; ring
    · rw [seg_split (show fu ≤ fu + k by omega) (show fu + k ≤ fu + (k + 1) by omega), hs, seg_cons (by omega),
        show fu + k + 1 = fu + (k + 1) by omega, seg_self, w.same _ (by omega), dg_set_self (by omega)]; simp

theorem headZeroLoop_spec {k : Nat} : ∀ {u hz fuel : Nat} {lsu : List Int}, k = hz / 9 → hz ≤ 127 → hz < fuel →
    u + k ≤ lsu.length →
    ∃ lsu', (headZeroLoop m fuel (hz : Int) ((u + k : Nat) - 1 : Int) lsu : Out σ _) =
        .ok (((hz % 9 : Nat) : Int), (u : Int) - 1, lsu') ∧
      Wrote lsu lsu' u (u + k) ∧ seg lsu' u (u + k) = 0 := by
  induction k with
  | zero =>
    intro u hz fuel lsu hk h127 hf hl
    refine ⟨lsu, ?_, Wrote.refl _ _, seg_self _ _⟩
    have : hz % 9 = hz := Nat.mod_eq_of_lt (by omega)
    rw [this]
    cases fuel with
    | zero => omega
    | succ f => rw [headZeroLoop, if_neg (by unfold DIGITS_PER_UNIT; omega)]; simp
  | succ k ih =>
    intro u hz fuel lsu hk h127 hf hl
    obtain ⟨f, rfl⟩ : ∃ f, fuel = f + 1 := ⟨fuel - 1, by omega⟩
    have hw : Wrote lsu (lsu.set (u + k) 0) (u + k) (u + k + 1) := Wrote.one (by omega) (by norm_num)
    obtain ⟨lsu', e, w, hs⟩ := ih (u := u) (hz := hz - 9) (fuel := f) (lsu := lsu.set (u + k) 0) (by omega) (by omega)
      (by omega) (by simp; omega)
    refine ⟨lsu', ?_, hw.trans w (by omega) (by omega), ?_⟩
    · rw [headZeroLoop, if_pos (by unfold DIGITS_PER_UNIT; omega),
        show ((u + (k + 1) : Nat) - 1 : Int) = ((u + k : Nat) : Int) by push_cast; ring, upd_nat (by omega), ok_bind,
        i8_ok (by unfold DIGITS_PER_UNIT; push_cast; omega) (by unfold DIGITS_PER_UNIT; push_cast; omega), ok_bind,
        show hz % 9 = (hz - 9) % 9 by omega, ← e]
      congr 1
      unfold DIGITS_PER_UNIT; omega
    · rw [seg_split (show u ≤ u + k by omega) (show u + k ≤ u + (k + 1) by omega), hs, seg_cons (by omega),
        show u + k + 1 = u + (k + 1) by omega, seg_self, w.same _ (by omega), dg_set_self (by omega)]; simp

/-! ## The fractional loop -/

theorem fracLoop_dot {last : Int} {cs : List Nat} {i out cut up : Int} {lsu : List Int} :
    (fracLoop m last (46 :: cs) i out cut up lsu : Out σ _) = fracLoop m last cs (i + 1) out cut up lsu := by
  rw [fracLoop, if_pos rfl]

theorem fracLoop_digit {last : Int} {d : Nat} (hd : d < 10) {cs : List Nat} {i out up : Int} {r : Nat} {lsu : List Int}
    (hr : r ≤ 8) (h0 : 0 ≤ out) (h1 : out + d * 10 ^ r < 1000000000) :
    (fracLoop m last ((d + 48) :: cs) i out ((r + 1 : Nat) : Int) up lsu : Out σ _) =
      if i = last then .ok (out + d * 10 ^ r, up, lsu)
      else if r > 0 then fracLoop m last cs (i + 1) (out + d * 10 ^ r) r up lsu
      else (upd lsu up (out + d * 10 ^ r) >>= fun lsu => fracLoop m last cs (i + 1) 0 9 (up - 1) lsu) := by
  have pw : (0 : Int) ≤ d * 10 ^ r := by positivity
  rw [fracLoop, if_neg (by omega), i8_ok (by push_cast; omega) (by push_cast; omega), ok_bind,
    show (((r + 1 : Nat) : Int) - 1) = (r : Int) by push_cast; ring, pow10_nat (by omega), ok_bind,
    i32_ok (by push_cast; omega) (by push_cast; omega), ok_bind,
    show ((d + 48 : Nat) : Int) - 48 = d by push_cast; ring,
    i32_ok (by linarith) (by linarith), ok_bind, i32_ok (by linarith) (by linarith), ok_bind]
  by_cases hl : i = last
  · rw [if_pos hl, if_pos hl]; rfl
  rw [if_neg hl, if_neg hl]
  by_cases h9 : r > 0
  · rw [if_pos h9, if_pos (by omega)]
  · rw [if_neg h9, if_neg (by omega)]; rfl

/-- The fractional loop followed by the write of the last unit: `P` is the number read so far (after the heading
zeroes), `r` the digits still missing in unit `up`, `pad` the digits of the lowest unit that stay zero. -/
theorem fracLoop_spec {last : Int} {cs : List Nat} {i : Int} {ds : List Nat} (ht : Text last cs i ds)
    {fu up r pad : Nat} {out : Int} {lsu : List Int} {P : Int}
    (hr1 : 1 ≤ r) (hr9 : r ≤ 9) (hup : up < fu) (hlen : fu ≤ lsu.length)
    (hcnt : 9 * up + r = ds.length + pad) (hpad : pad ≤ 8)
    (hP : seg lsu (up + 1) fu * 1000000000 + out = P * 10 ^ r) (hout0 : 0 ≤ out)
    (hout : out ≤ 1000000000 - 10 ^ r) :
    ∃ lsu', ((fracLoop m last cs i out r up lsu : Out σ _) >>= fun x => upd x.2.2 x.2.1 x.1) = .ok lsu' ∧
      Wrote lsu lsu' 0 (up + 1) ∧
      seg lsu' 0 fu = (P * 10 ^ ds.length + digitsVal ds) * 10 ^ pad := by
  induction ht generalizing up r out lsu P with
  | @dot cs i ds ht ih =>
    obtain ⟨lsu', e, a⟩ := ih hr1 hr9 hup hlen hcnt hP hout0 hout
    exact ⟨lsu', by rw [fracLoop_dot]; exact e, a⟩
  | @last d cs hd =>
    obtain ⟨r0, rfl⟩ : ∃ k, r = k + 1 := ⟨r - 1, by omega⟩
    simp only [List.length_singleton] at hcnt
    obtain rfl : up = 0 := by omega
    obtain rfl : pad = r0 := by omega
    have hd' : (d : Int) * 10 ^ pad ≤ 9 * 10 ^ pad := by
      have : (d : Int) ≤ 9 := by omega
      exact mul_le_mul_of_nonneg_right this (by positivity)
    have hdp : (0 : Int) ≤ d * 10 ^ pad := by positivity
    have pp : (0 : Int) < 10 ^ pad := by positivity
    rw [pow_succ] at hout hP
    have hb : out + d * 10 ^ pad < 1000000000 := by linarith
    refine ⟨lsu.set 0 (out + d * 10 ^ pad), ?_, Wrote.one (by omega) ⟨by linarith, hb⟩, ?_⟩
    · rw [fracLoop_digit hd (by omega) hout0 hb, if_pos rfl, ok_bind]
      exact upd_nat (l := lsu) (n := 0) (show 0 < lsu.length by omega)
    · rw [seg_cons hup, dg_set_self (by omega), seg_congr (l' := lsu) fun j h1 h2 => dg_set_ne (by omega)]
      rw [zero_add] at hP ⊢
      rw [digitsVal_cons, digitsVal_nil]
      push_cast
      simp only [List.length_nil, List.length_singleton, pow_zero, pow_one]
      linarith
  | @cons d cs i ds hd hi ht ih =>
    obtain ⟨r0, rfl⟩ : ∃ k, r = k + 1 := ⟨r - 1, by omega⟩
    have hd' : (d : Int) * 10 ^ r0 ≤ 9 * 10 ^ r0 := by
      have : (d : Int) ≤ 9 := by omega
      exact mul_le_mul_of_nonneg_right this (by positivity)
    have hdp : (0 : Int) ≤ d * 10 ^ r0 := by positivity
    have pp : (0 : Int) < 10 ^ r0 := by positivity
    rw [pow_succ] at hout hP
    rw [List.length_cons] at hcnt
    have hb : out + d * 10 ^ r0 < 1000000000 := by linarith
    have hb' : out + d * 10 ^ r0 ≤ 1000000000 - 10 ^ r0 := by linarith
    have hP' : seg lsu (up + 1) fu * 1000000000 + (out + d * 10 ^ r0) = (10 * P + d) * 10 ^ r0 := by linarith
    have hstep : (P * 10 ^ (d :: ds).length + (digitsVal (d :: ds) : Int)) * 10 ^ pad =
          ((10 * P + d) * 10 ^ ds.length + (digitsVal ds : Int)) * 10 ^ pad := by
      rw [List.length_cons, digitsVal_cons, pow_succ]; push_cast; ring
    by_cases h0 : r0 > 0
    · obtain ⟨lsu', e, a1, a2⟩ := ih (r := r0) (up := up) (out := out + d * 10 ^ r0) (lsu := lsu) (P := 10 * P + d)
        h0 (by omega) hup hlen (by omega) hP' (by linarith) hb'
      refine ⟨lsu', ?_, a1, by rw [a2, hstep]⟩
      rw [fracLoop_digit hd (by omega) hout0 hb, if_neg hi, if_pos h0]; exact e
    · obtain rfl : r0 = 0 := by omega
      have hup1 : 1 ≤ up := by
        have := ht.ne_nil
        have : 1 ≤ ds.length := by
          rcases ds with _ | _
          · exact absurd rfl this
          · simp
        omega
      have hw : Wrote lsu (lsu.set up (out + d * 10 ^ 0)) up (up + 1) := Wrote.one (by omega) ⟨by linarith, hb⟩
      obtain ⟨lsu', e, a1, a2⟩ := ih (r := 9) (up := up - 1) (out := 0) (lsu := lsu.set up (out + d * 10 ^ 0))
        (P := 10 * P + d) (by norm_num) (by norm_num) (by omega) (by simpa using hlen) (by omega)
        (by
          rw [show up - 1 + 1 = up by omega, seg_cons hup, dg_set_self (by omega),
            seg_congr (l' := lsu) fun j h1 h2 => dg_set_ne (by omega)]
          linarith) (by norm_num) (by norm_num)
      rw [show up - 1 + 1 = up by omega] at a1
      refine ⟨lsu', ?_, hw.trans a1 (by omega) (by omega), by rw [a2, hstep]⟩
      rw [fracLoop_digit hd (by omega) hout0 hb, if_neg hi, if_neg h0, upd_nat (by omega), ok_bind, ← e]
      congr 2; omega

end Fxd
