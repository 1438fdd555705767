import Verif.Spec.Value
/-!
# Lemmas about the primitives and about positional values
-/

namespace Fxd
open Spec

/-! ## The monad -/

section monad
variable {σ α β : Type}
@[simp] theorem ok_bind (a : α) (f : α → Out σ β) : (Out.ok a >>= f) = f a := rfl
@[simp] theorem err_bind (e : Error) (s : σ) (f : α → Out σ β) : (Out.err e s >>= f) = .err e s := rfl
@[simp] theorem panic_bind (p : Panic) (f : α → Out σ β) : ((Out.panic p : Out σ α) >>= f) = .panic p := rfl
@[simp] theorem pure_ok (a : α) : (pure a : Out σ α) = .ok a := rfl

theorem bind_eq_ok {x : Out σ α} {f : α → Out σ β} {b : β} :
    (x >>= f) = .ok b ↔ ∃ a, x = .ok a ∧ f a = .ok b := by
  cases x <;> simp

theorem bind_assoc' {γ : Type} (x : Out σ α) (f : α → Out σ β) (g : β → Out σ γ) :
    ((x >>= f) >>= g) = (x >>= fun a => f a >>= g) := by
  cases x <;> rfl
end monad

/-! ## Machine integers -/

section ints
variable {σ : Type} {m : Mode} {x : Int}

theorem i8_ok (h0 : -128 ≤ x) (h1 : x < 128) : (i8 m x : Out σ Int) = .ok x := by
  unfold i8 sarith; rw [if_pos]; norm_num; omega
theorem i32_ok (h0 : -2147483648 ≤ x) (h1 : x < 2147483648) : (i32 m x : Out σ Int) = .ok x := by
  unfold i32 sarith; rw [if_pos]; norm_num; omega
theorem i64_ok (h0 : -9223372036854775808 ≤ x) (h1 : x < 9223372036854775808) :
    (i64 m x : Out σ Int) = .ok x := by
  unfold i64 sarith; rw [if_pos]; norm_num; omega
theorem isz_ok (h0 : -9223372036854775808 ≤ x) (h1 : x < 9223372036854775808) :
    (isz m x : Out σ Int) = .ok x := by
  unfold isz sarith; rw [if_pos]; norm_num; omega
theorem usz_ok (h0 : 0 ≤ x) (h1 : x < 18446744073709551616) : (usz m x : Out σ Int) = .ok x := by
  unfold usz; rw [if_pos]; norm_num; omega
theorem wrap8_ok (h0 : -128 ≤ x) (h1 : x < 128) : wrap 8 x = x := by
  unfold wrap; norm_num; rw [Int.bmod_eq_of_le] <;> omega
theorem wrap32_ok (h0 : -2147483648 ≤ x) (h1 : x < 2147483648) : wrap 32 x = x := by
  unfold wrap; norm_num; rw [Int.bmod_eq_of_le] <;> omega
theorem wrap64_ok (h0 : -9223372036854775808 ≤ x) (h1 : x < 9223372036854775808) : wrap 64 x = x := by
  unfold wrap; norm_num; rw [Int.bmod_eq_of_le] <;> omega

theorem i8_ne_err {e : Error} {s : σ} : i8 m x ≠ .err e s := by
  unfold i8 sarith; split_ifs <;> (try cases m) <;> simp
theorem i32_ne_err {e : Error} {s : σ} : i32 m x ≠ .err e s := by
  unfold i32 sarith; split_ifs <;> (try cases m) <;> simp
theorem i64_ne_err {e : Error} {s : σ} : i64 m x ≠ .err e s := by
  unfold i64 sarith; split_ifs <;> (try cases m) <;> simp
theorem usz_ne_err {e : Error} {s : σ} : usz m x ≠ .err e s := by
  unfold usz; split_ifs <;> (try cases m) <;> simp
end ints

/-! ## Bounds-checked access -/

section access
variable {σ : Type}

/-- Digit `i` of a list of units, 0 outside. -/
abbrev dg (l : List Int) (i : Nat) : Int := l.getD i 0

theorem idx_nat {l : List Int} {n : Nat} (h : n < l.length) :
    (idx l (n : Int) : Out σ Int) = .ok (dg l n) := by
  unfold idx dg; simp [h]

theorem idx_ok {l : List Int} {i : Int} (h0 : 0 ≤ i) (h1 : i < l.length) :
    (idx l i : Out σ Int) = .ok (dg l i.toNat) := by
  lift i to ℕ using h0; exact idx_nat (by omega)

theorem idx_oob {l : List Int} {i : Int} (h : i < 0 ∨ (l.length : Int) ≤ i) :
    (idx l i : Out σ Int) = .panic .index := by
  unfold idx
  split_ifs with h0
  · lift i to ℕ using h0
    have : l.length ≤ i := by omega
    simp [this]
  · rfl

theorem idx_eq_ok {l : List Int} {i : Int} {v : Int} (h : (idx l i : Out σ Int) = .ok v) :
    0 ≤ i ∧ i < l.length ∧ v = dg l i.toNat := by
  by_cases hb : i < 0 ∨ (l.length : Int) ≤ i
  · rw [idx_oob hb] at h; simp at h
  · have h0 : 0 ≤ i := by omega
    have h1 : i < l.length := by omega
    rw [idx_ok h0 h1] at h
    simp at h; exact ⟨h0, h1, h.symm⟩

theorem upd_nat {α : Type} {l : List α} {n : Nat} {v : α} (h : n < l.length) :
    (upd l (n : Int) v : Out σ (List α)) = .ok (l.set n v) := by
  unfold upd; simp [h]

theorem upd_ok {α : Type} {l : List α} {i : Int} {v : α} (h0 : 0 ≤ i) (h1 : i < l.length) :
    (upd l i v : Out σ (List α)) = .ok (l.set i.toNat v) := by
  lift i to ℕ using h0; exact upd_nat (by omega)

theorem upd_oob {α : Type} {l : List α} {i : Int} {v : α} (h : i < 0 ∨ (l.length : Int) ≤ i) :
    (upd l i v : Out σ (List α)) = .panic .index := by
  unfold upd; rw [if_neg]; omega

theorem upd_eq_ok {α : Type} {l l' : List α} {i : Int} {v : α}
    (h : (upd l i v : Out σ (List α)) = .ok l') :
    0 ≤ i ∧ i < l.length ∧ l' = l.set i.toNat v := by
  by_cases hb : i < 0 ∨ (l.length : Int) ≤ i
  · rw [upd_oob hb] at h; simp at h
  · have h0 : 0 ≤ i := by omega
    have h1 : i < l.length := by omega
    rw [upd_ok h0 h1] at h
    simp at h; exact ⟨h0, h1, h.symm⟩

theorem slice_ok {α : Type} {l : List α} {a b : Int} (h0 : 0 ≤ a) (h1 : a ≤ b) (h2 : b ≤ l.length) :
    (slice l a b : Out σ (List α)) = .ok ((l.drop a.toNat).take (b - a).toNat) := by
  unfold slice; rw [if_pos ⟨h0, h1, h2⟩]

theorem copyFromSlice_ok {α : Type} {dst src : List α} {a b : Int} (h0 : 0 ≤ a) (h1 : a ≤ b)
    (h2 : b ≤ dst.length) (h3 : b - a = src.length) :
    (copyFromSlice dst a b src : Out σ (List α)) =
      .ok (dst.take a.toNat ++ src ++ dst.drop b.toNat) := by
  unfold copyFromSlice; rw [if_pos ⟨h0, h1, h2, h3⟩]

theorem copyWithin_ok {α : Type} {l : List α} {a b d : Int} (h0 : 0 ≤ a) (h1 : a ≤ b)
    (h2 : b ≤ l.length) (h3 : 0 ≤ d) (h4 : d + (b - a) ≤ l.length) :
    (copyWithin l a b d : Out σ (List α)) = .ok (l.take d.toNat ++ (l.drop a.toNat).take (b - a).toNat
      ++ l.drop (d.toNat + (b - a).toNat)) := by
  unfold copyWithin; rw [if_pos ⟨h0, h1, h2, h3, h4⟩]

theorem zeroRange_ok {l : List Int} {a b : Int} (h0 : 0 ≤ a) (h1 : a ≤ b) (h2 : b ≤ l.length) :
    (zeroRange l a b : Out σ (List Int)) =
      .ok (l.take a.toNat ++ List.replicate (b - a).toNat 0 ++ l.drop b.toNat) := by
  unfold zeroRange; rw [if_pos ⟨h0, h1, h2⟩]
end access

/-! ## Tables -/

section tables
variable {σ : Type} {m : Mode}

theorem div9_table : ∀ n < 128, dg DIV9_TABLE n = ((n / 9 : Nat) : Int) := by decide
theorem mod9_table : ∀ n < 128, dg MOD9_TABLE n = ((n % 9 : Nat) : Int) := by decide
theorem pow10_table : ∀ n < 10, dg POW10 n = 10 ^ n := by decide

theorem div9_nat {n : Nat} (h : n < 128) : (div9 (n : Int) : Out σ Int) = .ok ((n / 9 : Nat) : Int) := by
  unfold div9; rw [idx_nat (by exact h), div9_table n h]
theorem mod9_nat {n : Nat} (h : n < 128) : (mod9 (n : Int) : Out σ Int) = .ok ((n % 9 : Nat) : Int) := by
  unfold mod9; rw [idx_nat (by exact h), mod9_table n h]
theorem div9_ok {x : Int} (h0 : 0 ≤ x) (h : x < 128) : (div9 x : Out σ Int) = .ok (x / 9) := by
  lift x to ℕ using h0; rw [div9_nat (by omega)]; simp
theorem mod9_ok {x : Int} (h0 : 0 ≤ x) (h : x < 128) : (mod9 x : Out σ Int) = .ok (x % 9) := by
  lift x to ℕ using h0; rw [mod9_nat (by omega)]; simp
theorem pow10_nat {n : Nat} (h : n < 10) : (idx POW10 (n : Int) : Out σ Int) = .ok (10 ^ n) := by
  rw [idx_nat (by exact h), pow10_table n h]

theorem getUnits_nat {n : Nat} (h : n < 120) :
    (getUnits m (n : Int) : Out σ Int) = .ok (unitsFor n : Int) := by
  unfold getUnits
  rw [i8_ok (by omega) (by omega), ok_bind]
  have : ((n : Int) + 8) = ((n + 8 : Nat) : Int) := by push_cast; ring
  rw [this, div9_nat (by omega)]; rfl

theorem getUnits_oob {x : Int} (h : 120 ≤ x) (h' : x < 128) :
    ∃ p, (getUnits m x : Out σ Int) = .panic p := by
  unfold getUnits i8 sarith
  rw [if_neg (by norm_num; omega)]
  cases m
  · exact ⟨_, rfl⟩
  · refine ⟨.index, ?_⟩
    show div9 (wrap 8 (x + 8)) = _
    unfold div9
    apply idx_oob; left
    unfold wrap
    have : x = 120 ∨ x = 121 ∨ x = 122 ∨ x = 123 ∨ x = 124 ∨ x = 125 ∨ x = 126 ∨ x = 127 := by omega
    rcases this with h|h|h|h|h|h|h|h <;> subst h <;> decide
end tables

/-! ## Positional values of functions `Nat → Int` -/

/-- `∑_{i<n} f i · B^i`. -/
def psum (f : Nat → Int) : Nat → Int
  | 0 => 0
  | n + 1 => psum f n + f n * 1000000000 ^ n

/-- Digits in range. -/
def Dig (f : Nat → Int) : Prop := ∀ i, 0 ≤ f i ∧ f i < 1000000000

@[simp] theorem psum_zero (f) : psum f 0 = 0 := rfl
theorem psum_succ (f n) : psum f (n + 1) = psum f n + f n * 1000000000 ^ n := rfl

theorem psum_congr {f g : Nat → Int} {n : Nat} (h : ∀ i < n, f i = g i) : psum f n = psum g n := by
  induction n with
  | zero => rfl
  | succ n ih => rw [psum_succ, psum_succ, ih (fun i hi => h i (by omega)), h n (by omega)]

theorem psum_add_len (f : Nat → Int) (a b : Nat) :
    psum f (a + b) = psum f a + 1000000000 ^ a * psum (fun i => f (a + i)) b := by
  induction b with
  | zero => simp
  | succ b ih =>
    rw [← Nat.add_assoc, psum_succ, ih, psum_succ, pow_add]; ring

theorem psum_split {f : Nat → Int} {a n : Nat} (h : a ≤ n) :
    psum f n = psum f a + 1000000000 ^ a * psum (fun i => f (a + i)) (n - a) := by
  rw [← psum_add_len]; congr 1; omega

theorem psum_zero_of {f : Nat → Int} {n : Nat} (h : ∀ i < n, f i = 0) : psum f n = 0 := by
  induction n with
  | zero => rfl
  | succ n ih => rw [psum_succ, ih (fun i hi => h i (by omega)), h n (by omega)]; simp

theorem psum_extend {f : Nat → Int} {a n : Nat} (h : a ≤ n) (hz : ∀ i, a ≤ i → i < n → f i = 0) :
    psum f n = psum f a := by
  have h1 : psum (fun i => f (a + i)) (n - a) = 0 :=
    psum_zero_of fun i hi => hz _ (by omega) (by omega)
  rw [psum_split h, h1]; simp

theorem psum_nonneg {f : Nat → Int} (h : Dig f) (n : Nat) : 0 ≤ psum f n := by
  induction n with
  | zero => simp
  | succ n ih => rw [psum_succ]; have := (h n).1; positivity

theorem psum_lt {f : Nat → Int} (h : Dig f) (n : Nat) : psum f n < 1000000000 ^ n := by
  induction n with
  | zero => simp
  | succ n ih =>
    rw [psum_succ, pow_succ]
    have h1 : f n * 1000000000 ^ n ≤ 999999999 * 1000000000 ^ n :=
      mul_le_mul_of_nonneg_right (by have := (h n).2; omega) (by positivity)
    linarith

theorem psum_mul_const (f : Nat → Int) (c : Int) (n : Nat) :
    psum (fun i => c * f i) n = c * psum f n := by
  induction n with
  | zero => simp
  | succ n ih => rw [psum_succ, psum_succ, ih]; ring

theorem psum_eq_zero_iff {f : Nat → Int} (h : Dig f) (n : Nat) :
    psum f n = 0 ↔ ∀ i < n, f i = 0 := by
  constructor
  · intro hs
    induction n with
    | zero => intro i hi; omega
    | succ n ih =>
      rw [psum_succ] at hs
      have h0 := psum_nonneg h n
      have h1 : 0 ≤ f n * 1000000000 ^ n := by have := (h n).1; positivity
      have h2 : f n * 1000000000 ^ n = 0 := by omega
      have h3 : f n = 0 := by
        rcases mul_eq_zero.mp h2 with h3 | h3
        · exact h3
        · exact absurd h3 (by positivity)
      intro i hi
      rcases Nat.lt_succ_iff_lt_or_eq.mp hi with h4 | h4
      · exact ih (by omega) i h4
      · rw [h4]; exact h3
  · exact psum_zero_of

/-- Lower bound from a non-zero digit. -/
theorem psum_ge_of_pos {f : Nat → Int} (h : Dig f) {n i : Nat} (hi : i < n) (hp : 0 < f i) :
    1000000000 ^ i ≤ psum f n := by
  rw [psum_split (show i + 1 ≤ n by omega), psum_succ]
  have h0 := psum_nonneg h i
  have h1 : 0 ≤ psum (fun j => f (i + 1 + j)) (n - (i + 1)) := psum_nonneg (fun j => h _) _
  have h2 : 1 * 1000000000 ^ i ≤ f i * 1000000000 ^ i :=
    mul_le_mul_of_nonneg_right (by omega) (by positivity)
  have h3 : 0 ≤ 1000000000 ^ (i + 1) * psum (fun j => f (i + 1 + j)) (n - (i + 1)) := by positivity
  linarith

/-! ## From lists to functions -/

theorem dg_set {l : List Int} {i j : Nat} {v : Int} (h : i < l.length) :
    dg (l.set i v) j = if j = i then v else dg l j := by
  simp only [dg, List.getD_eq_getElem?_getD, List.getElem?_set]
  by_cases hij : j = i
  · subst hij; simp [h]
  · simp [hij, Ne.symm hij]

theorem dg_set_self {l : List Int} {i : Nat} {v : Int} (h : i < l.length) : dg (l.set i v) i = v := by
  rw [dg_set h]; simp
theorem dg_set_ne {l : List Int} {i j : Nat} {v : Int} (h : j ≠ i) : dg (l.set i v) j = dg l j := by
  simp only [dg, List.getD_eq_getElem?_getD]; rw [List.getElem?_set_ne (Ne.symm h)]

theorem dg_out {l : List Int} {i : Nat} (h : l.length ≤ i) : dg l i = 0 := by
  simp [dg, List.getD_eq_getElem?_getD, h]

theorem dg_cons_zero (x : Int) (l : List Int) : dg (x :: l) 0 = x := by simp [dg]
theorem dg_cons_succ (x : Int) (l : List Int) (i : Nat) : dg (x :: l) (i + 1) = dg l i := by simp [dg]

theorem dg_replicate {n i : Nat} : dg (List.replicate n 0) i = 0 := by
  simp only [dg, List.getD_eq_getElem?_getD, List.getElem?_replicate]; split_ifs <;> rfl

theorem dg_append {a b : List Int} {i : Nat} :
    dg (a ++ b) i = if i < a.length then dg a i else dg b (i - a.length) := by
  simp only [dg, List.getD_eq_getElem?_getD]
  split_ifs with h
  · rw [List.getElem?_append_left h]
  · rw [List.getElem?_append_right (by omega)]

theorem dg_take {l : List Int} {n i : Nat} : dg (l.take n) i = if i < n then dg l i else 0 := by
  simp only [dg, List.getD_eq_getElem?_getD, List.getElem?_take]
  split_ifs <;> rfl

theorem dg_drop {l : List Int} {n i : Nat} : dg (l.drop n) i = dg l (n + i) := by
  simp only [dg, List.getD_eq_getElem?_getD, List.getElem?_drop]

theorem psum_set_ge {l : List Int} {n i : Nat} {v : Int} (h : n ≤ i) :
    psum (dg (l.set i v)) n = psum (dg l) n :=
  psum_congr fun j hj => dg_set_ne (by omega)

theorem unitsVal_eq_psum (l : List Int) : unitsVal l = psum (dg l) l.length := by
  induction l with
  | nil => rfl
  | cons u us ih =>
    rw [unitsVal, ih, List.length_cons, Nat.add_comm, psum_add_len]
    simp only [psum_succ, psum_zero, pow_zero, pow_one]
    rw [dg_cons_zero]
    have : (fun i => dg (u :: us) (1 + i)) = dg us := by
      funext i; rw [Nat.add_comm, dg_cons_succ]
    rw [this]; ring

theorem unitsVal_take {l : List Int} {n : Nat} (h : n ≤ l.length) :
    unitsVal (l.take n) = psum (dg l) n := by
  rw [unitsVal_eq_psum, List.length_take, Nat.min_eq_left h]
  exact psum_congr fun i hi => by rw [dg_take, if_pos hi]

/-- Extensionality through digits. -/
theorem list_ext_dg {a b : List Int} (hl : a.length = b.length) (h : ∀ i < a.length, dg a i = dg b i) :
    a = b := by
  apply List.ext_getElem hl
  intro i h1 h2
  have := h i h1
  simpa [dg, List.getD_eq_getElem?_getD, h1, h2] using this

/-- Digits of a list are in range. -/
def DigL (l : List Int) : Prop := ∀ u ∈ l, 0 ≤ u ∧ u < 1000000000

theorem DigL.dig {l : List Int} (h : DigL l) : Dig (dg l) := by
  intro i
  by_cases hi : i < l.length
  · have : dg l i = l[i] := by simp [dg, List.getD_eq_getElem?_getD, hi]
    rw [this]; exact h _ (List.getElem_mem hi)
  · rw [dg_out (by omega)]; norm_num

theorem DigL.of_dig {l : List Int} (h : ∀ i < l.length, 0 ≤ dg l i ∧ dg l i < 1000000000) : DigL l := by
  intro u hu
  obtain ⟨i, hi, rfl⟩ := List.getElem_of_mem hu
  have : dg l i = l[i] := by simp [dg, List.getD_eq_getElem?_getD, hi]
  rw [← this]; exact h i hi

theorem DigL.set {l : List Int} (h : DigL l) {i : Nat} {v : Int} (hv : 0 ≤ v ∧ v < 1000000000) :
    DigL (l.set i v) := by
  intro u hu
  rcases List.mem_or_eq_of_mem_set hu with h1 | h1
  · exact h u h1
  · rw [h1]; exact hv

theorem DigL.take {l : List Int} (h : DigL l) (n : Nat) : DigL (l.take n) :=
  fun u hu => h u (List.mem_of_mem_take hu)
theorem DigL.drop {l : List Int} (h : DigL l) (n : Nat) : DigL (l.drop n) :=
  fun u hu => h u (List.mem_of_mem_drop hu)
theorem DigL.append {a b : List Int} (ha : DigL a) (hb : DigL b) : DigL (a ++ b) := by
  intro u hu; rcases List.mem_append.mp hu with h | h
  · exact ha u h
  · exact hb u h
theorem DigL.replicate (n : Nat) : DigL (List.replicate n 0) := by
  intro u hu; rw [List.mem_replicate] at hu; rw [hu.2]; norm_num
theorem DigL.zeroUnits : DigL zeroUnits := DigL.replicate 9

end Fxd
