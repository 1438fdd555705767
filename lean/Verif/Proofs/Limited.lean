import Verif.Proofs.Stored
import Verif.Proofs.DivLongTail
import Verif.Spec.Limited
/-!
# The correction loop of the division is short
-/

namespace Fxd
open Spec

variable {σ : Type} {m : Mode} {Q : σ → Prop}

/-- The two sides of a sequence need to agree only on values the first part can produce. -/
theorem bind_ret {α β : Type} {P : α → Prop} {x : Out σ α} {f g : α → Out σ β} (h : Ret P (fun _ => True) x)
    (hf : ∀ a, P a → f a = g a) : (x >>= f) = (x >>= g) := by
  cases x with
  | ok a => exact hf a h
  | err e s => rfl
  | panic p => rfl
theorem ite_same {α : Type} {c : Prop} [Decidable c] {x y x' y' : α} (h : c → x = x') (h' : ¬ c → y = y') :
    (if c then x else y) = if c then x' else y' := by
  by_cases hc : c
  · rw [if_pos hc, if_pos hc]; exact h hc
  · rw [if_neg hc, if_neg hc]; exact h' hc

/-! ## What the primitives return -/

theorem Ret.of_eq {α : Type} {x : Out σ α} {a : α} {P : α → Prop} (h : x = .ok a) (hp : P a) : Ret P Q x := by rw [h]; exact hp
theorem Ret.i64Eq {x : Int} (h0 : -9223372036854775808 ≤ x) (h1 : x < 9223372036854775808) :
    Ret (fun v => v = x) Q (Fxd.i64 m x : Out σ Int) := .of_eq (i64_ok h0 h1) rfl
theorem Ret.i32Eq {x : Int} (h0 : -2147483648 ≤ x) (h1 : x < 2147483648) :
    Ret (fun v => v = x) Q (Fxd.i32 m x : Out σ Int) := .of_eq (i32_ok h0 h1) rfl
theorem Ret.idxEq {l : List Int} {i : Int} :
    Ret (fun v => 0 ≤ i ∧ i < l.length ∧ v = dg l i.toNat) Q (Fxd.idx l i : Out σ Int) := by
  by_cases h : 0 ≤ i ∧ i < l.length
  · rw [idx_ok h.1 h.2]; exact ⟨h.1, h.2, rfl⟩
  · unfold Fxd.idx
    refine .ite (fun h0 => ?_) fun _ => trivial
    cases hx : l[i.toNat]? with
    | none => trivial
    | some v =>
      have := (List.getElem?_eq_some_iff.mp hx).1
      exact absurd ⟨h0, by omega⟩ h
theorem Ret.idxDig {l : List Int} (h : DigL l) {i : Int} : Ret (fun v => 0 ≤ v ∧ v < 1000000000) Q (Fxd.idx l i : Out σ Int) := by
  unfold Fxd.idx
  refine .ite (fun _ => ?_) (fun _ => trivial)
  cases hx : l[i.toNat]? with
  | none => trivial
  | some v => exact h v (List.mem_of_getElem? hx)
theorem Ret.idivEq {a b : Int} : Ret (fun q => b ≠ 0 ∧ q = a.tdiv b) Q (Fxd.idiv a b : Out σ Int) :=
  .ite (fun _ => trivial) fun h => .ite (fun _ => trivial) fun _ => ⟨h, rfl⟩
theorem Ret.updDig {l : List Int} (h : DigL l) {i v : Int} (hv : 0 ≤ v ∧ v < 1000000000) :
    Ret DigL Q (Fxd.upd l i v : Out σ (List Int)) := by
  refine .ite (fun _ => ?_) fun _ => trivial
  intro u hu
  rcases List.mem_or_eq_of_mem_set hu with hu | rfl
  · exact h u hu
  · exact hv
theorem Ret.sliceDig {l : List Int} (h : DigL l) {a b : Int} : Ret DigL Q (Fxd.slice l a b : Out σ (List Int)) :=
  .ite (fun _ => fun u hu => h u (List.mem_of_mem_drop (List.mem_of_mem_take hu))) fun _ => trivial
theorem Ret.sliceLen {l : List Int} {b : Int} :
    Ret (fun s => s = l.take b.toNat ∧ 0 ≤ b ∧ b ≤ l.length) Q (Fxd.slice l 0 b : Out σ (List Int)) := by
  refine .ite (fun h => ⟨?_, h.2.1, h.2.2⟩) fun _ => trivial
  simp
theorem Ret.copyDig {l s : List Int} (h : DigL l) (hs : DigL s) {a b : Int} :
    Ret (fun r => DigL r ∧ 0 ≤ a ∧ ∀ k < s.length, dg r (a.toNat + k) = dg s k) Q (Fxd.copyFromSlice l a b s : Out σ (List Int)) := by
  refine .ite (fun hc => ⟨?_, hc.1, fun k hk => ?_⟩) fun _ => trivial
  · intro u hu
    rcases List.mem_append.mp hu with hu | hu
    · rcases List.mem_append.mp hu with hu | hu
      · exact h u (List.mem_of_mem_take hu)
      · exact hs u hu
    · exact h u (List.mem_of_mem_drop hu)
  · have hl : (l.take a.toNat).length = a.toNat := by rw [List.length_take]; omega
    rw [dg_append, dg_append, hl, if_pos (by rw [List.length_append, hl]; omega), if_neg (by omega), Nat.add_sub_cancel_left]
theorem Ret.findNonZeroP {l : List Int} (n : Nat) :
    Ret (fun r : Int => r = -1 ∨ ∃ k : Nat, r = k ∧ k < l.length ∧ 0 < dg l k) Q (Fxd.findNonZero l n : Out σ Int) := by
  induction n with
  | zero => exact Or.inl rfl
  | succ n ih =>
    unfold Fxd.findNonZero
    refine .bind .idxEq fun v hv => .ite (fun h => .pure (Or.inr ⟨n, rfl, by omega, ?_⟩)) fun _ => ih
    obtain ⟨-, -, rfl⟩ := hv
    simpa using h
theorem Ret.subDig {a b c : Int} (ha : 0 ≤ a ∧ a < 1000000000) (hb : 0 ≤ b ∧ b < 1000000000) (hc : c = 0 ∨ c = -1) :
    Ret (fun p => (0 ≤ p.1 ∧ p.1 < 1000000000) ∧ (p.2 = 0 ∨ p.2 = -1)) Q (Fxd.subWithBorrow m a b c : Out σ (Int × Int)) := by
  unfold Fxd.subWithBorrow
  refine .bind (.i32Eq (by omega) (by omega)) ?_
  rintro _ rfl
  refine .bind (.i32Eq (by omega) (by omega)) ?_
  rintro _ rfl
  refine .ite (fun h => .bind (.i32Eq ?_ ?_) ?_) fun h => .pure ⟨⟨?_, ?_⟩, Or.inl rfl⟩
  · unfold UNIT; omega
  · unfold UNIT; omega
  · rintro _ rfl
    refine .pure ⟨?_, Or.inr rfl⟩
    unfold UNIT; dsimp only; omega
  · dsimp only; omega
  · dsimp only; omega

/-! ## The guess -/

/-- How often the condition may be tested: three times in debug builds, five times in release builds. -/
def tests : Mode → Nat
  | .debug => 3
  | .release => 5

theorem corrections {d0 d1 u u2 : Int} (hn : 500000000 ≤ d0) (hd0 : d0 < 1000000000) (hd1 : 0 ≤ d1 ∧ d1 < 1000000000)
    (hu : 0 ≤ u ∧ u < 1000000000000000000) (hu2 : 0 ≤ u2 ∧ u2 < 1000000000) :
    u / d0 - (u * 1000000000 + u2) / (d0 * 1000000000 + d1) ≤ 4 ∧
      (u / d0 < 1000000000 → u / d0 - (u * 1000000000 + u2) / (d0 * 1000000000 + d1) ≤ 2) := by
  have hD0 : 0 < d0 * 1000000000 + d1 := by omega
  have hT2 := Int.lt_ediv_add_one_mul_self (u * 1000000000 + u2) hD0
  have hq := Int.ediv_mul_le u (show d0 ≠ 0 by omega)
  have hq0 : 0 ≤ u / d0 := Int.ediv_nonneg hu.1 (by omega)
  generalize (u * 1000000000 + u2) / (d0 * 1000000000 + d1) = T at *
  have hq1 : u / d0 ≤ 2000000000 := by
    have : u / d0 < 2000000001 := Int.ediv_lt_of_lt_mul (by omega) (by omega)
    omega
  generalize u / d0 = q at *
  constructor
  · by_contra hc
    have h1 : (T + 1) * (d0 * 1000000000 + d1) ≤ (q - 4) * (d0 * 1000000000 + d1) :=
      mul_le_mul_of_nonneg_right (by omega) hD0.le
    have h2 : q * d1 ≤ 2000000000 * 999999999 := mul_le_mul hq1 (by omega) hd1.1 (by norm_num)
    nlinarith
  · intro hlt
    by_contra hc
    have h1 : (T + 1) * (d0 * 1000000000 + d1) ≤ (q - 2) * (d0 * 1000000000 + d1) :=
      mul_le_mul_of_nonneg_right (by omega) hD0.le
    have h2 : q * d1 ≤ 999999999 * 999999999 := mul_le_mul (by omega) (by omega) hd1.1 (by norm_num)
    nlinarith

/-- `qhatLoop_spec` counts down from `q`; here from the number of corrections. -/
theorem qhatLoop_short {d0 d1 u u2 T : Int} (hd0 : 0 < d0) (hd0' : d0 < 1000000000) (hd1 : 0 ≤ d1 ∧ d1 < 1000000000)
    (hu2 : 0 ≤ u2 ∧ u2 < 1000000000)
    (hT0 : 0 ≤ T) (hTB : T ≤ 2000000000) (hT1 : T * (d0 * 1000000000 + d1) ≤ u * 1000000000 + u2)
    (hT2 : u * 1000000000 + u2 < (T + 1) * (d0 * 1000000000 + d1)) :
    ∀ (fuel : Nat) (q r : Int), q - T < fuel → T ≤ q → q < 2000000001 → r = u - q * d0 → 0 ≤ r →
      (qhatLoop m d0 d1 u2 fuel q r : Out σ Int) = .ok T
  | 0, q, r, hf, hq, _, _, _ => by
    push_cast at hf; omega
  | fuel + 1, q, r, hf, hq, hq2, hr, hr0 => by
    have a0 : 0 ≤ q * d1 := mul_nonneg (by omega) hd1.1
    have a1 : q * d1 ≤ 2000000001 * 999999999 :=
      mul_le_mul (by omega) (by omega) hd1.1 (by norm_num)
    have hTd : T * d1 ≤ 2000000000 * 999999999 := mul_le_mul hTB (by omega) hd1.1 (by norm_num)
    have b0 : r ≤ u - T * d0 := by rw [hr]; nlinarith
    have b1 : (u - T * d0) * 1000000000 < 4000000000 * 1000000000 := by nlinarith
    have b2 : r < 4000000000 := by omega
    unfold qhatLoop UNIT
    rw [i64_ok (by omega) (by omega), ok_bind, i64_ok (by omega) (by omega), ok_bind, i64_ok (by omega) (by omega), ok_bind]
    by_cases hc : q * d1 > r * 1000000000 + u2
    · rw [if_pos hc, i64_ok (by omega) (by omega), ok_bind, i64_ok (by omega) (by omega), ok_bind]
      have hqT : T < q := by
        by_contra hle
        have : q = T := by omega
        subst this
        rw [hr] at hc
        nlinarith
      exact qhatLoop_short hd0 hd0' hd1 hu2 hT0 hTB hT1 hT2 fuel (q - 1) (r + d0) (by push_cast at hf; omega) (by omega)
        (by omega) (by rw [hr]; ring) (by omega)
    · rw [if_neg hc]
      have : q = T := by
        by_contra hne
        have h1 : T + 1 ≤ q := by omega
        have h2 : (T + 1) * (d0 * 1000000000 + d1) ≤ q * (d0 * 1000000000 + d1) :=
          mul_le_mul_of_nonneg_right h1 (by omega)
        rw [hr] at hc
        nlinarith
      rw [this]; rfl

/-- The last line of a guess: every limit that leaves room for the corrections gives the same quotient, at most `2 * 10^9`. -/
theorem qhat_same {d0 d1 u u2 : Int} (hn : 500000000 ≤ d0) (hd0 : d0 < 1000000000) (hd1 : 0 ≤ d1 ∧ d1 < 1000000000)
    (hu : 0 ≤ u ∧ u < 1000000000000000000) (hu2 : 0 ≤ u2 ∧ u2 < 1000000000) :
    ∃ T : Int, 0 ≤ T ∧ T ≤ 2000000000 ∧ ∀ K : Nat, (5 ≤ K ∨ (u / d0 < 1000000000 ∧ 3 ≤ K) ∨ u / d0 < K) →
      (qhatLoop m d0 d1 u2 K (u / d0) (u - u / d0 * d0) : Out σ Int) = .ok T := by
  have hD0 : 0 < d0 * 1000000000 + d1 := by omega
  have hT1 := Int.ediv_mul_le (u * 1000000000 + u2) hD0.ne'
  have hT2 := Int.lt_ediv_add_one_mul_self (u * 1000000000 + u2) hD0
  have hT0 : 0 ≤ (u * 1000000000 + u2) / (d0 * 1000000000 + d1) := Int.ediv_nonneg (by omega) hD0.le
  have hTB : (u * 1000000000 + u2) / (d0 * 1000000000 + d1) ≤ 2000000000 := by
    have : (u * 1000000000 + u2) / (d0 * 1000000000 + d1) < 2000000001 := Int.ediv_lt_of_lt_mul hD0 (by omega)
    omega
  have hq := Int.ediv_mul_le u (show d0 ≠ 0 by omega)
  have hc := corrections hn hd0 hd1 hu hu2
  have hq1 : u / d0 < 2000000001 := Int.ediv_lt_of_lt_mul (by omega) (by omega)
  have hTq : (u * 1000000000 + u2) / (d0 * 1000000000 + d1) ≤ u / d0 := by
    rw [Int.le_ediv_iff_mul_le (by omega)]
    generalize (u * 1000000000 + u2) / (d0 * 1000000000 + d1) = T at *
    have := mul_nonneg hT0 hd1.1
    nlinarith
  refine ⟨_, hT0, hTB, fun K hK => qhatLoop_short (by omega) hd0 hd1 hu2 hT0 hTB hT1 hT2 K _ _ ?_ hTq hq1 rfl (by omega)⟩
  rcases hK with hK | ⟨hl, hK⟩ | hK
  · have : (5 : Int) ≤ K := by exact_mod_cast hK
    omega
  · have : (3 : Int) ≤ K := by exact_mod_cast hK
    have := hc.2 hl
    omega
  · omega

/-- The whole of step D3. -/
theorem guess_same {buf : List Int} (hb : DigL buf) {i d0 d1 : Int} (hn : 500000000 ≤ d0) (hd0 : d0 < 1000000000)
    (hd1 : 0 ≤ d1 ∧ d1 < 1000000000) :
    (guessQK (tests m) m buf i d0 d1 : Out σ Int) = guessQ m buf i d0 d1 ∧
      Ret (fun q => 0 ≤ q ∧ q ≤ 2000000000) (fun _ => True) (guessQ m buf i d0 d1 : Out σ Int) := by
  have key : ∀ {f g : Int → Out σ Int}, True := fun {f g} => trivial
  unfold guessQK guessQ UNIT
  have both : ∀ {α : Type} {P : α → Prop} {x : Out σ α} {f g : α → Out σ Int}, Ret P (fun _ => True) x →
      (∀ a, P a → f a = g a ∧ Ret (fun q => 0 ≤ q ∧ q ≤ 2000000000) (fun _ => True) (g a)) →
      (x >>= f) = (x >>= g) ∧ Ret (fun q => 0 ≤ q ∧ q ≤ 2000000000) (fun _ => True) (x >>= g) := by
    intro α P x f g h hf
    exact ⟨bind_ret h fun a ha => (hf a ha).1, .bind h fun a ha => (hf a ha).2⟩
  refine both (.idxDig hb) fun u0 h0 => ?_
  refine both (P := fun v => 0 ≤ v ∧ v < 1000000000) (.ite (fun _ => .idxDig hb) fun _ => ⟨le_refl _, by norm_num⟩) fun u1 h1 => ?_
  refine both (.i64Eq (by omega) (by omega)) ?_
  rintro _ rfl
  refine both (.i64Eq (by omega) (by omega)) ?_
  rintro _ rfl
  obtain ⟨u, hu⟩ : ∃ u, u0 * 1000000000 + u1 = u := ⟨_, rfl⟩
  rw [hu]
  have hq := Int.ediv_mul_le u (show d0 ≠ 0 by omega)
  have hq0 : 0 ≤ u / d0 := Int.ediv_nonneg (by omega) (by omega)
  have hq1 : u / d0 < 2000000001 := Int.ediv_lt_of_lt_mul (by omega) (by omega)
  have hw0 : 0 ≤ u / d0 * d0 := mul_nonneg hq0 (by omega)
  refine both .idivEq ?_
  rintro _ ⟨-, rfl⟩
  rw [Int.tdiv_eq_ediv_of_nonneg (by omega)]
  refine both (.i64Eq (by omega) (by omega)) ?_
  rintro _ rfl
  refine both (.i64Eq (by omega) (by omega)) ?_
  rintro _ rfl
  refine both (P := fun _ => m = .debug → u / d0 < 1000000000) ?_ fun _ hm => ?_
  · cases m with
    | release => intro h; cases h
    | debug =>
      by_cases hc : u / d0 < 1000000000
      · simp only [dassert, hc]; exact fun _ => trivial
      · simp only [dassert, hc]; trivial
  refine both (P := fun v => 0 ≤ v ∧ v < 1000000000) (.ite (fun _ => .idxDig hb) fun _ => ⟨le_refl _, by norm_num⟩) fun u2 h2 => ?_
  obtain ⟨T, hT0, hT1, h⟩ := qhat_same (m := m) (σ := σ) hn hd0 hd1 (u := u) (by omega) h2
  have e1 := h (tests m) (by cases m; exact Or.inr (Or.inl ⟨hm rfl, le_refl _⟩); exact Or.inl (le_refl _))
  have e2 := h qhatFuel (Or.inl (by decide))
  rw [e1, e2]
  exact ⟨rfl, hT0, hT1⟩

/-! ## Digits stay digits -/

theorem mul_step {q b c : Int} (hq : 0 ≤ q ∧ q ≤ 2000000000) (hb : 0 ≤ b ∧ b < 1000000000) (hc : 0 ≤ c ∧ c ≤ 2000000000) :
    0 ≤ q * b ∧ q * b ≤ 1999999998000000000 ∧ 0 ≤ (q * b + c).tdiv 1000000000 ∧ (q * b + c).tdiv 1000000000 ≤ 2000000000 ∧
      0 ≤ q * b + c - (q * b + c).tdiv 1000000000 * 1000000000 ∧ q * b + c - (q * b + c).tdiv 1000000000 * 1000000000 < 1000000000 := by
  have h0 : 0 ≤ q * b := mul_nonneg hq.1 hb.1
  have h1 : q * b ≤ 2000000000 * 999999999 := mul_le_mul hq.2 (by omega) hb.1 (by norm_num)
  rw [Int.tdiv_eq_ediv_of_nonneg (by omega)]
  omega

theorem mulSub_dig {q : Int} (hq : 0 ≤ q ∧ q ≤ 2000000000) {buf2 : List Int} (h2 : DigL buf2) :
    ∀ (n : Nat) (k ms : Int) (buf1 : List Int) (c b : Int), DigL buf1 → (0 ≤ c ∧ c ≤ 2000000000) → (b = 0 ∨ b = -1) →
      Ret (fun r => DigL r.1) Q (mulSub m q buf2 n k ms buf1 c b : Out σ _)
  | 0, _, _, _, _, _, h1, _, _ => h1
  | n + 1, k, ms, buf1, c, b, h1, hc, hb => by
    unfold mulSub UNIT
    refine .bind (.idxDig h2) fun d hd => ?_
    have := mul_step hq hd hc
    refine .bind (.i64Eq (by omega) (by omega)) ?_
    rintro _ rfl
    refine .bind (.i64Eq (by omega) (by omega)) ?_
    rintro _ rfl
    dsimp only
    generalize (q * d + c).tdiv 1000000000 = c' at *
    refine .bind (.i64Eq (by omega) (by omega)) ?_
    rintro _ rfl
    refine .bind (.i64Eq (by omega) (by omega)) ?_
    rintro _ rfl
    rw [wrap32_ok (by omega) (by omega)]
    refine .ite (fun _ => ?_) fun _ => ?_
    · refine .bind (.subDig (by omega) (by omega) hb) ?_
      rintro ⟨s, b0⟩ ⟨hs, hb0⟩
      exact mulSub_dig hq h2 n _ _ _ _ _ h1 (by omega) hb0
    · refine .bind (.idxDig h1) fun old ho => ?_
      refine .bind (.subDig ho (by omega) hb) ?_
      rintro ⟨s, b0⟩ ⟨hs, hb0⟩
      refine .bind (.updDig h1 hs) fun buf1 h1 => ?_
      exact mulSub_dig hq h2 n _ _ _ _ _ h1 (by omega) hb0

theorem divAddBack_dig {j : Int} : ∀ (n : Nat) (i : Int) (buf1 : List Int) (b : Int), DigL buf1 → (b = 0 ∨ b = -1) →
      Ret DigL Q (divAddBack m j n i buf1 b : Out σ _)
  | 0, _, _, _, h1, _ => h1
  | n + 1, i, buf1, b, h1, hb => by
    unfold divAddBack
    refine .bind (.idxDig h1) fun old ho => ?_
    refine .bind (.subDig (by omega) ho hb) ?_
    rintro ⟨s, b0⟩ ⟨hs, hb0⟩
    refine .bind (.updDig h1 hs) fun buf1 h1 => ?_
    exact divAddBack_dig n _ _ _ h1 hb0

theorem DigL.cons {v : Int} {l : List Int} (hv : 0 ≤ v ∧ v < 1000000000) (hl : DigL l) : DigL (v :: l) := by
  intro u hu
  rcases List.mem_cons.mp hu with rfl | hu
  · exact hv
  · exact hl u hu

theorem mulSubSeg_dig {q : Int} (hq : 0 ≤ q ∧ q ≤ 2000000000) :
    ∀ (s1 s2 : List Int) (c b : Int), DigL s1 → DigL s2 → (0 ≤ c ∧ c ≤ 2000000000) → (b = 0 ∨ b = -1) →
      Ret (fun r => DigL r.1) Q (mulSubSeg m q s1 s2 c b : Out σ _)
  | [], _, _, _, h1, _, _, _ => by unfold mulSubSeg; exact h1
  | b1 :: s1, [], _, _, h1, _, _, _ => by unfold mulSubSeg; exact h1
  | b1 :: s1, d :: s2, c, b, h1, h2, hc, hb => by
    unfold mulSubSeg UNIT
    have hd := h2 d (by simp)
    have hb1 := h1 b1 (by simp)
    have := mul_step hq hd hc
    refine .bind (.i64Eq (by omega) (by omega)) ?_
    rintro _ rfl
    refine .bind (.i64Eq (by omega) (by omega)) ?_
    rintro _ rfl
    dsimp only
    generalize (q * d + c).tdiv 1000000000 = c' at *
    refine .bind (.i64Eq (by omega) (by omega)) ?_
    rintro _ rfl
    refine .bind (.i64Eq (by omega) (by omega)) ?_
    rintro _ rfl
    rw [wrap32_ok (by omega) (by omega)]
    refine .bind (.subDig hb1 (by omega) hb) ?_
    rintro ⟨s, b0⟩ ⟨hs, hb0⟩
    refine .bind (mulSubSeg_dig hq s1 s2 _ _ (fun u hu => h1 u (by simp [hu])) (fun u hu => h2 u (by simp [hu])) (by omega) hb0) ?_
    rintro ⟨r, cf, bf⟩ hr
    exact .pure (DigL.cons hs hr)

theorem negSeg_dig : ∀ (s : List Int) (b : Int), DigL s → (b = 0 ∨ b = -1) → Ret DigL Q (negSeg m s b : Out σ _)
  | [], _, h, _ => h
  | v :: s, b, h, hb => by
    unfold negSeg
    refine .bind (.subDig (by omega) (h v (by simp)) hb) ?_
    rintro ⟨r, b0⟩ ⟨hs, hb0⟩
    refine .bind (negSeg_dig s _ (fun u hu => h u (by simp [hu])) hb0) fun r hr => ?_
    exact .pure (DigL.cons hs hr)

/-! ## The loops -/

theorem longDiv_same {buf2 : List Int} (h2 : DigL buf2) {nr d0 d1 : Int} (hn : 500000000 ≤ d0) (hd0 : d0 < 1000000000)
    (hd1 : 0 ≤ d1 ∧ d1 < 1000000000) : ∀ (n : Nat) (i : Int) (buf1 res : List Int), DigL buf1 →
      (longDivLoopK (tests m) m buf2 nr d0 d1 n i buf1 res : Out σ _) = longDivLoop m buf2 nr d0 d1 n i buf1 res
  | 0, _, _, _, _ => rfl
  | n + 1, i, buf1, res, h1 => by
    unfold longDivLoopK longDivLoop
    dsimp only
    rw [(guess_same h1 hn hd0 hd1).1]
    refine bind_ret (guess_same h1 hn hd0 hd1).2 fun q hq => ?_
    refine bind_ret (mulSub_dig hq h2 _ _ _ _ _ _ h1 (by omega) (Or.inl rfl)) ?_
    rintro ⟨buf1, c, b⟩ h1
    dsimp only
    refine bind_ret .any fun top _ => ?_
    refine bind_ret .i32 fun t _ => ?_
    refine bind_ret .i32 fun t _ => ?_
    refine ite_same (fun _ => ?_) fun _ => ?_
    · refine bind_ret .i64 fun q _ => ?_
      refine bind_ret (divAddBack_dig _ _ _ _ h1 (Or.inl rfl)) fun buf1 h1 => ?_
      congr 1
      funext res
      exact longDiv_same h2 hn hd0 hd1 n _ _ _ h1
    · refine bind_ret (.updDig h1 (by omega)) fun buf1 h1 => ?_
      congr 1
      funext res
      exact longDiv_same h2 hn hd0 hd1 n _ _ _ h1

theorem longRem_same {buf2 : List Int} (h2 : DigL buf2) {d0 d1 : Int} (hn : 500000000 ≤ d0) (hd0 : d0 < 1000000000)
    (hd1 : 0 ≤ d1 ∧ d1 < 1000000000) : ∀ (n : Nat) (i : Int) (buf1 : List Int), DigL buf1 →
      (longRemLoopK (tests m) m buf2 d0 d1 n i buf1 : Out σ _) = longRemLoop m buf2 d0 d1 n i buf1
  | 0, _, _, _ => rfl
  | n + 1, i, buf1, h1 => by
    unfold longRemLoopK longRemLoop
    dsimp only
    rw [(guess_same h1 hn hd0 hd1).1]
    refine bind_ret (guess_same h1 hn hd0 hd1).2 fun q hq => ?_
    refine bind_ret (.sliceDig h1) fun seg hs => ?_
    refine bind_ret (mulSubSeg_dig hq _ _ _ _ hs h2 (by omega) (Or.inl rfl)) ?_
    rintro ⟨seg, c, b⟩ hs
    dsimp only
    refine bind_ret (.copyDig h1 hs) fun buf1 h1 => ?_
    refine bind_ret .any fun top _ => ?_
    refine bind_ret .i32 fun t _ => ?_
    refine bind_ret .i32 fun t _ => ?_
    refine ite_same (fun _ => ?_) fun _ => ?_
    · refine bind_ret (.sliceDig h1.1) fun seg hs => ?_
      refine bind_ret (negSeg_dig _ _ hs (Or.inl rfl)) fun seg hs => ?_
      refine bind_ret (.copyDig h1.1 hs) fun buf1 h1 => ?_
      refine bind_ret (.updDig h1.1 (by omega)) fun buf1 h1 => ?_
      exact longRem_same h2 hn hd0 hd1 n _ _ h1
    · refine bind_ret (.updDig h1.1 (by omega)) fun buf1 h1 => ?_
      exact longRem_same h2 hn hd0 hd1 n _ _ h1

/-! ## Normalisation -/

theorem Ret.normDig {f : Int} (hf0 : 0 < f) (hf1 : f ≤ 500000000) {l : List Int} (hl : DigL l) :
    Ret (fun r => DigL r.1 ∧ r.1.length = l.length ∧ 0 ≤ r.2 ∧ r.2 < f ∧
      unitsVal l * f = unitsVal r.1 + 1000000000 ^ l.length * r.2) Q (Fxd.normLoop m f l 0 : Out σ _) := by
  obtain ⟨l', c', e, h1, h2, h3, h4, h5⟩ := normLoop_spec (σ := σ) (m := m) hf0 (by omega) l 0 hl (le_refl _) hf0
  rw [e]
  exact ⟨h2, h1, h3, h4, by simpa using h5⟩

/-- After normalisation the leading unit of the divisor is at least half the base. -/
theorem half_base {l l' : List Int} (hl : DigL l) (hl' : DigL l') {nr : Nat} {f c : Int} (h1 : l.length = nr + 1)
    (h2 : l'.length = nr + 1) (hf : f * (dg l nr + 1) ≤ 1000000000) (hh : 500000000 ≤ f * dg l nr) (hf0 : 0 < f) (hc : 0 ≤ c)
    (e : unitsVal l * f = unitsVal l' + 1000000000 ^ (nr + 1) * c) : 500000000 ≤ dg l' nr := by
  rw [unitsVal_eq_psum, unitsVal_eq_psum, h1, h2, psum_succ] at e
  have a0 := psum_nonneg hl.dig nr
  have a1 := psum_lt hl.dig nr
  have b0 := psum_nonneg hl'.dig (nr + 1)
  have hP : (0 : Int) < 1000000000 ^ nr := by positivity
  have hP1 : (1000000000 : Int) ^ (nr + 1) = 1000000000 ^ nr * 1000000000 := pow_succ _ _
  obtain ⟨P, hPe⟩ : ∃ P : Int, 1000000000 ^ nr = P := ⟨_, rfl⟩
  rw [hPe] at a1 hP hP1 e
  have hc0 : c = 0 := by
    by_contra hne
    have : 1 ≤ c := by omega
    have h3 : (psum (dg l) nr + dg l nr * P) * f < (P + dg l nr * P) * f := mul_lt_mul_of_pos_right (by omega) hf0
    have h4 : (P + dg l nr * P) * f = P * (f * (dg l nr + 1)) := by ring
    have h5 : P * (f * (dg l nr + 1)) ≤ P * 1000000000 := mul_le_mul_of_nonneg_left hf hP.le
    have h6 : P * 1000000000 * 1 ≤ P * 1000000000 * c := mul_le_mul_of_nonneg_left this (by omega)
    rw [hP1] at e
    omega
  subst hc0
  refine norm_top hl'.dig (X := psum (dg l') (nr + 1)) rfl ?_
  rw [hPe]
  have h3 : 500000000 * P ≤ f * dg l nr * P := mul_le_mul_of_nonneg_right hh hP.le
  have h4 : 0 ≤ psum (dg l) nr * f := mul_nonneg a0 hf0.le
  have h5 : (psum (dg l) nr + dg l nr * P) * f = psum (dg l) nr * f + f * dg l nr * P := by ring
  omega

/-- What the long division needs to know about its divisor buffer. -/
def Ready (buf2 : List Int) (p : Nat) : Prop := DigL buf2 ∧ 500000000 ≤ dg buf2 p

theorem prepare {B : List Int} (hB : DigL B) {nr : Nat} {z1 z2 : List Int} (hz1 : DigL z1) (hz2 : DigL z2)
    (hr : nr < B.length) (ht : 0 < dg B nr) {f : Int} (hf : f = 1000000000 / (dg B nr + 1)) {p1 e1 p2 e2 : Int}
    {lseg rseg : List Int} (hl : DigL lseg) (hrs : rseg = B.take (nr + 1)) :
    Ret (fun r => DigL r.1 ∧ 0 ≤ p2 ∧ Ready r.2 (p2.toNat + nr)) (fun _ => True) (
      if f = 1 then do
        let buf1 ← copyFromSlice z1 p1 e1 lseg
        let buf2 ← copyFromSlice z2 p2 e2 rseg
        return (buf1, buf2)
      else do
        let (l, carry) ← normLoop m f lseg 0
        let buf1 ← copyFromSlice z1 p1 e1 l
        let buf1 ← (if carry > 0 then upd buf1 e1 (wrap 32 carry) else .ok buf1)
        let (r, carry) ← normLoop m f rseg (if carry > 0 then 0 else carry)
        let buf2 ← copyFromSlice z2 p2 e2 r
        dassert m (carry == 0)
        return (buf1, buf2) : Out σ (List Int × List Int)) := by
  have hd := hB.dig nr
  obtain ⟨f0, f1, f2, f3⟩ := norm_facts ht hd.2
  rw [← hf] at f0 f1 f2 f3
  have hrl : rseg.length = nr + 1 := by rw [hrs, List.length_take]; omega
  have hrd : DigL rseg := by rw [hrs]; exact hB.take _
  have hrt : dg rseg nr = dg B nr := by rw [hrs, dg_take, if_pos (by omega)]
  refine .ite (fun h1 => ?_) fun h1 => ?_
  · refine .bind (.copyDig hz1 hl) fun buf1 h1 => ?_
    refine .bind (.copyDig hz2 hrd) fun buf2 h2 => ?_
    refine .pure ⟨h1.1, h2.2.1, h2.1, ?_⟩
    dsimp only
    rw [h2.2.2 nr (by omega), hrt]
    have : f = 1 := by assumption
    rw [this] at f3
    omega
  · refine .bind (.normDig f0 f1 hl) ?_
    rintro ⟨l, c⟩ ⟨hl', hll, hc0, hc1, -⟩
    dsimp only at hl' hll hc0 hc1 ⊢
    refine .bind (.copyDig hz1 hl') fun buf1 h1 => ?_
    refine .bind (P := DigL) (.ite (fun _ => .updDig h1.1 ?_) fun _ => h1.1) fun buf1 h1 => ?_
    · rw [wrap32_ok (by omega) (by omega)]; omega
    rw [show (if c > 0 then 0 else c) = 0 by split_ifs <;> omega]
    refine .bind (.normDig f0 f1 hrd) ?_
    rintro ⟨r, c2⟩ ⟨hr', hrl', hc20, hc21, e⟩
    dsimp only at hr' hrl' hc20 hc21 e ⊢
    refine .bind (.copyDig hz2 hr') fun buf2 h2 => ?_
    refine .bind .dassert fun _ _ => ?_
    refine .pure ⟨h1, h2.2.1, h2.1, ?_⟩
    dsimp only
    rw [h2.2.2 nr (by omega)]
    rw [hrl] at e
    exact half_base hrd hr' hrl (by omega) (by rw [hrt]; exact f2) (by rw [hrt]; exact f3) f0 hc20 e

/-! ## The two functions -/

theorem divAbs_same {a b res : FixedDecimal} (ha : DigL a.lsu) (hb : DigL b.lsu) (incr : Int) :
    divAbsK (tests m) m a b res incr = divAbs m a b res incr := by
  unfold divAbsK divAbs UNIT
  dsimp only
  refine bind_ret .getUnits fun liu _ => ?_
  refine bind_ret .getUnits fun lfu _ => ?_
  refine bind_ret .getUnits fun riu _ => ?_
  refine bind_ret .getUnits fun rfu _ => ?_
  refine bind_ret (.findNonZeroP _) fun rnz hr => ?_
  refine ite_same (fun _ => rfl) fun hr0 => ?_
  refine bind_ret (.findNonZeroP _) fun lnz hl => ?_
  refine ite_same (fun _ => rfl) fun hl0 => ?_
  obtain ⟨nr, rfl, hrb, hrt⟩ := hr.resolve_left (by omega)
  refine bind_ret .idxEq ?_
  rintro _ ⟨-, -, rfl⟩
  refine bind_ret .any fun ltop _ => ?_
  refine bind_ret .isz fun _ _ => ?_
  refine bind_ret .isz fun _ _ => ?_
  refine bind_ret .getUnits fun rfu _ => ?_
  refine bind_ret (.sliceDig ha) fun lseg hls => ?_
  refine bind_ret .sliceLen fun rseg hrs => ?_
  refine congrArg₂ _ rfl (funext ?_)
  rintro ⟨ri, riu, rfu, rs⟩
  dsimp only
  refine ite_same (fun _ => rfl) fun _ => ?_
  refine bind_ret .idivEq ?_
  rintro f ⟨-, hf⟩
  refine bind_ret (prepare hb (.replicate 18) .zeroUnits hrb hrt ?_ hls ?_) ?_
  · rw [hf, Int.tdiv_eq_ediv_of_nonneg (by norm_num)]; simp
  · rw [hrs.1]; congr 1
  rintro ⟨buf1, buf2⟩ ⟨h1, -, h2, h3⟩
  dsimp only
  refine bind_ret .idxEq ?_
  rintro _ ⟨-, -, rfl⟩
  refine bind_ret (.idxDig h2) fun d1 hd1 => ?_
  rw [longDiv_same h2 (by simpa using h3) (h2.dig _).2 hd1 _ _ _ _ h1]

theorem remAbs_same {a b res : FixedDecimal} (ha : DigL a.lsu) (hb : DigL b.lsu) :
    remAbsK (tests m) m a b res = remAbs m a b res := by
  unfold remAbsK remAbs UNIT
  dsimp only
  refine bind_ret .getUnits fun liu _ => ?_
  refine bind_ret .getUnits fun lfu _ => ?_
  refine bind_ret .getUnits fun riu _ => ?_
  refine bind_ret .getUnits fun rfu _ => ?_
  refine bind_ret (.findNonZeroP _) fun rnz hr => ?_
  refine ite_same (fun _ => rfl) fun hr0 => ?_
  refine bind_ret (.findNonZeroP _) fun lnz hl => ?_
  refine ite_same (fun _ => rfl) fun hl0 => ?_
  obtain ⟨nr, rfl, hrb, hrt⟩ := hr.resolve_left (by omega)
  refine congrArg₂ _ rfl (funext fun o => ?_)
  cases o with
  | lt => rfl
  | eq => rfl
  | gt =>
    dsimp only
    refine bind_ret .getUnits fun _ _ => ?_
    refine bind_ret (.sliceDig ha) fun lseg hls => ?_
    refine bind_ret .sliceLen fun rseg hrs => ?_
    refine ite_same (fun _ => rfl) fun _ => ?_
    refine bind_ret .idxEq ?_
    rintro _ ⟨-, -, rfl⟩
    refine bind_ret .idivEq ?_
    rintro f ⟨-, hf⟩
    refine bind_ret (prepare hb (.replicate 18) (.replicate 18) hrb hrt ?_ hls ?_) ?_
    · rw [hf, Int.tdiv_eq_ediv_of_nonneg (by norm_num)]; simp
    · rw [hrs.1]; congr 1
    rintro ⟨buf1, buf2⟩ ⟨h1, h0, h2, h3⟩
    dsimp only
    refine bind_ret .idxEq ?_
    rintro _ ⟨-, -, rfl⟩
    refine bind_ret (.idxDig h2) fun d1 hd1 => ?_
    refine bind_ret (.sliceDig h2) fun seg2 hs2 => ?_
    have h5 : 500000000 ≤ dg buf2 ((nr : Int) + if lfu < rfu then 0 else lfu - rfu).toNat := by
      refine le_of_le_of_eq h3 (congrArg _ ?_)
      omega
    rw [longRem_same hs2 h5 (h2.dig _).2 hd1 _ _ _ h1]
    cases m <;> rfl

end Fxd
