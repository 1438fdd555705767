import Verif.Model.Format
import Verif.Spec.Text
import Verif.Proofs.ParseLoops
/-!
# The formatting loops
-/

namespace Fxd
open Spec

variable {σ : Type} {m : Mode}

/-! ## Digit lists -/

theorem padDigits_length (k n : Nat) : (padDigits k n).length = k := by
  induction k generalizing n with
  | zero => rfl
  | succ k ih => rw [padDigits, List.length_append, ih]; rfl

theorem padDigits_lt (k n : Nat) : ∀ d ∈ padDigits k n, d < 10 := by
  induction k generalizing n with
  | zero => simp [padDigits]
  | succ k ih =>
    rw [padDigits]; intro d hd
    rcases List.mem_append.mp hd with h | h
    · exact ih _ d h
    · simp at h; omega

theorem padDigits_append (a b n : Nat) : padDigits (a + b) n = padDigits a (n / 10 ^ b) ++ padDigits b n := by
  induction b generalizing n with
  | zero => simp [padDigits]
  | succ b ih =>
    rw [← Nat.add_assoc, padDigits, ih, padDigits, List.append_assoc, Nat.div_div_eq_div_mul, ← pow_succ']

theorem padDigits_add_mul (b q r : Nat) : padDigits b (r + q * 10 ^ b) = padDigits b r := by
  induction b generalizing r with
  | zero => rfl
  | succ b ih =>
    rw [padDigits, padDigits]
    have h1 : (r + q * 10 ^ (b + 1)) / 10 = r / 10 + q * 10 ^ b := by
      rw [pow_succ, show r + q * (10 ^ b * 10) = r + (q * 10 ^ b) * 10 by ring, Nat.add_mul_div_right _ _ (by norm_num)]
    have h2 : (r + q * 10 ^ (b + 1)) % 10 = r % 10 := by
      rw [pow_succ, show r + q * (10 ^ b * 10) = r + (q * 10 ^ b) * 10 by ring, Nat.add_mul_mod_self_right]
    rw [h1, h2, ih]

theorem padDigits_mod (b n : Nat) : padDigits b (n % 10 ^ b) = padDigits b n := by
  conv_rhs => rw [← Nat.mod_add_div n (10 ^ b), Nat.mul_comm, padDigits_add_mul]

theorem padDigits_zero (k : Nat) : padDigits k 0 = List.replicate k 0 := by
  induction k with
  | zero => rfl
  | succ k ih => rw [padDigits, ih, List.replicate_succ']

theorem digitsVal_padDigits (k n : Nat) : digitsVal (padDigits k n) = n % 10 ^ k := by
  induction k generalizing n with
  | zero => simp [padDigits, digitsVal_nil, Nat.mod_one]
  | succ k ih =>
    rw [padDigits, digitsVal_snoc, ih, pow_succ', Nat.mod_mul]; omega

/-- Peeling the first `a` digits off a cut number. -/
theorem padDigits_step {a b c x : Nat} (h : b ≤ c) :
    padDigits (a + b) (x / 10 ^ (c - b)) = padDigits a (x / 10 ^ c) ++ padDigits b (x % 10 ^ c / 10 ^ (c - b)) := by
  rw [padDigits_append, Nat.div_div_eq_div_mul, ← pow_add, Nat.sub_add_cancel h]
  congr 1
  have e : x / 10 ^ (c - b) = x % 10 ^ c / 10 ^ (c - b) + x / 10 ^ c * 10 ^ b := by
    conv_lhs => rw [← Nat.mod_add_div x (10 ^ c)]
    rw [show 10 ^ c * (x / 10 ^ c) = x / 10 ^ c * 10 ^ b * 10 ^ (c - b) by
      rw [mul_assoc, ← pow_add, Nat.add_sub_cancel' h, mul_comm]]
    rw [Nat.add_mul_div_right _ _ (by positivity)]
  rw [e, padDigits_add_mul]

theorem padDigits_short {f a c x : Nat} (h : f ≤ a) :
    padDigits f (x / 10 ^ (a + c - f)) = padDigits f (x / 10 ^ c / 10 ^ (a - f)) := by
  rw [Nat.div_div_eq_div_mul, ← pow_add]; congr 3; omega

/-- The significant digits: nothing for zero. -/
def sigDigits (n : Nat) : List Nat := (Nat.digits 10 n).reverse

theorem sigDigits_zero : sigDigits 0 = [] := by simp [sigDigits]
theorem sigDigits_pos {n : Nat} (h : 0 < n) : sigDigits n = sigDigits (n / 10) ++ [n % 10] := by
  unfold sigDigits; rw [Nat.digits_def' (by norm_num) h, List.reverse_cons]

theorem sigDigits_append {q : Nat} (hq : 0 < q) (k r : Nat) (hr : r < 10 ^ k) :
    sigDigits (q * 10 ^ k + r) = sigDigits q ++ padDigits k r := by
  induction k generalizing r with
  | zero => simp at hr; subst hr; simp [padDigits]
  | succ k ih =>
    have hp : 0 < q * 10 ^ (k + 1) := by positivity
    rw [sigDigits_pos (by omega), padDigits, ← List.append_assoc]
    have h1 : (q * 10 ^ (k + 1) + r) / 10 = q * 10 ^ k + r / 10 := by
      rw [pow_succ, ← mul_assoc, Nat.add_comm, Nat.add_mul_div_right _ _ (by norm_num), Nat.add_comm]
    have h2 : (q * 10 ^ (k + 1) + r) % 10 = r % 10 := by
      rw [pow_succ, ← mul_assoc, Nat.add_comm, Nat.add_mul_mod_self_right]
    rw [h1, h2, ih (r / 10) (by rw [pow_succ] at hr; omega)]

theorem digitsVal_sig (n : Nat) : digitsVal (sigDigits n) = n := by
  induction n using Nat.strong_induction_on with
  | _ n ih =>
    rcases Nat.eq_zero_or_pos n with rfl | h
    · rw [sigDigits_zero]; rfl
    · rw [sigDigits_pos h, digitsVal_snoc, ih (n / 10) (by omega)]; omega

theorem sig_lt (n : Nat) : ∀ d ∈ sigDigits n, d < 10 := by
  intro d hd
  unfold sigDigits at hd
  exact Nat.digits_lt_base (by norm_num) (List.mem_reverse.mp hd)

theorem sig_ne_nil {n : Nat} (h : 0 < n) : sigDigits n ≠ [] := by rw [sigDigits_pos h]; simp

theorem natDigits_eq (n : Nat) : natDigits n = if n = 0 then [0] else sigDigits n := rfl

theorem digitChars_append (a b : List Nat) : digitChars (a ++ b) = digitChars a ++ digitChars b := List.map_append ..
theorem digitChars_replicate (k : Nat) : digitChars (List.replicate k 0) = List.replicate k 48 := by
  unfold digitChars; rw [List.map_replicate]
theorem digitChars_take (n : Nat) (l : List Nat) : (digitChars l).take n = digitChars (l.take n) := by
  unfold digitChars; rw [List.map_take]

/-! ## The table -/

/-- What the table should hold for `v`: the number of significant digits, then three digits. -/
def entry (v : Nat) : List Nat :=
  (if v = 0 then 0 else if v < 10 then 1 else if v < 100 then 2 else 3) :: digitChars (padDigits 3 v)

theorem entry_len (v : Nat) : (entry v).length = 4 := by
  unfold entry digitChars; rw [List.length_cons, List.length_map, padDigits_length]

theorem chunk0 : bin2char0 = (List.range' 0 100).flatMap entry := by decide +kernel
theorem chunk1 : bin2char1 = (List.range' 100 100).flatMap entry := by decide +kernel
theorem chunk2 : bin2char2 = (List.range' 200 100).flatMap entry := by decide +kernel
theorem chunk3 : bin2char3 = (List.range' 300 100).flatMap entry := by decide +kernel
theorem chunk4 : bin2char4 = (List.range' 400 100).flatMap entry := by decide +kernel
theorem chunk5 : bin2char5 = (List.range' 500 100).flatMap entry := by decide +kernel
theorem chunk6 : bin2char6 = (List.range' 600 100).flatMap entry := by decide +kernel
theorem chunk7 : bin2char7 = (List.range' 700 100).flatMap entry := by decide +kernel
theorem chunk8 : bin2char8 = (List.range' 800 100).flatMap entry := by decide +kernel
theorem chunk9 : bin2char9 = (List.range' 900 100).flatMap entry := by decide +kernel

theorem range'_split (s n k : Nat) : List.range' s (n + k) = List.range' s n ++ List.range' (s + n) k := by
  rw [← List.range'_append]; simp

theorem bin2char_eq : BIN2CHAR = (List.range' 0 1000).flatMap entry ++ [0] := by
  unfold BIN2CHAR
  rw [chunk0, chunk1, chunk2, chunk3, chunk4, chunk5, chunk6, chunk7, chunk8, chunk9]
  have h9 : List.range' 0 1000 = List.range' 0 900 ++ List.range' 900 100 := range'_split 0 900 100
  have h8 : List.range' 0 900 = List.range' 0 800 ++ List.range' 800 100 := range'_split 0 800 100
  have h7 : List.range' 0 800 = List.range' 0 700 ++ List.range' 700 100 := range'_split 0 700 100
  have h6 : List.range' 0 700 = List.range' 0 600 ++ List.range' 600 100 := range'_split 0 600 100
  have h5 : List.range' 0 600 = List.range' 0 500 ++ List.range' 500 100 := range'_split 0 500 100
  have h4 : List.range' 0 500 = List.range' 0 400 ++ List.range' 400 100 := range'_split 0 400 100
  have h3 : List.range' 0 400 = List.range' 0 300 ++ List.range' 300 100 := range'_split 0 300 100
  have h2 : List.range' 0 300 = List.range' 0 200 ++ List.range' 200 100 := range'_split 0 200 100
  have h1 : List.range' 0 200 = List.range' 0 100 ++ List.range' 100 100 := range'_split 0 100 100
  rw [h9, h8, h7, h6, h5, h4, h3, h2, h1]
  simp only [List.flatMap_append]
  rfl

theorem flatMap_entry_len (s n : Nat) : ((List.range' s n).flatMap entry).length = 4 * n := by
  induction n generalizing s with
  | zero => rfl
  | succ n ih => rw [List.range'_succ, List.flatMap_cons, List.length_append, ih, entry_len]; ring

theorem bin2char_len : BIN2CHAR.length = 4001 := by
  rw [bin2char_eq, List.length_append, flatMap_entry_len]; rfl

theorem bin2char_drop {v : Nat} (h : v < 1000) : ∃ rest, BIN2CHAR.drop (4 * v) = entry v ++ rest := by
  have e : List.range' 0 1000 = List.range' 0 v ++ List.range' v (1000 - v) := by
    have := range'_split 0 v (1000 - v)
    rw [Nat.zero_add, show v + (1000 - v) = 1000 by omega] at this
    exact this
  rw [bin2char_eq, e, List.flatMap_append, List.append_assoc, List.drop_left' (flatMap_entry_len 0 v),
    show 1000 - v = (999 - v) + 1 by omega, List.range'_succ, List.flatMap_cons, List.append_assoc]
  exact ⟨_, rfl⟩

/-- The whole table: three digits of every `v < 1000`, and the number of significant ones. -/
theorem bin2char_table {v : Nat} (h : v < 1000) : (BIN2CHAR.drop (4 * v + 1)).take 3 = digitChars (padDigits 3 v) ∧
    BIN2CHAR[4 * v]? = some (if v = 0 then 0 else if v < 10 then 1 else if v < 100 then 2 else 3) := by
  obtain ⟨rest, e⟩ := bin2char_drop h
  constructor
  · rw [← List.drop_drop, e]
    unfold entry
    rw [List.cons_append, List.drop_succ_cons, List.drop_zero]
    exact List.take_left' (by unfold digitChars; rw [List.length_map, padDigits_length])
  · have : BIN2CHAR[4 * v]? = (BIN2CHAR.drop (4 * v))[0]? := by rw [List.getElem?_drop]; rfl
    rw [this, e]; rfl

theorem sig_entry {v : Nat} (h : v < 1000) :
    sigDigits v = (padDigits 3 v).drop (3 - (if v = 0 then 0 else if v < 10 then 1 else if v < 100 then 2 else 3)) := by
  have e : padDigits 3 v = [v / 10 / 10 % 10, v / 10 % 10, v % 10] := rfl
  rw [e]
  split_ifs with h0 h1 h2
  · subst h0; rw [sigDigits_zero]; rfl
  · rw [sigDigits_pos (by omega), show v / 10 = 0 by omega, sigDigits_zero]; rfl
  · rw [sigDigits_pos (by omega), sigDigits_pos (n := v / 10) (by omega), show v / 10 / 10 = 0 by omega, sigDigits_zero]; rfl
  · rw [sigDigits_pos (by omega), sigDigits_pos (n := v / 10) (by omega), sigDigits_pos (n := v / 10 / 10) (by omega),
      show v / 10 / 10 / 10 = 0 by omega, sigDigits_zero]; rfl

/-! ## Integral part -/

theorem idx_get? {α : Type} {l : List α} {n : Nat} {v : α} (h : l[n]? = some v) : (idx l (n : Int) : Out σ α) = .ok v := by
  unfold idx; rw [if_pos (by omega), Int.toNat_natCast, h]

theorem table_slice {v a b : Nat} (h : v < 1000) (hab : a ≤ b) (hb : b ≤ 3) :
    (slice BIN2CHAR ((4 * v + 1 + a : Nat) : Int) ((4 * v + 1 + b : Nat) : Int) : Out σ (List Nat)) =
      .ok (((digitChars (padDigits 3 v)).drop a).take (b - a)) := by
  rw [slice_ok (by omega) (by omega) (by rw [bin2char_len]; omega), ← (bin2char_table h).1]
  congr 1
  rw [Int.toNat_natCast, show ((4 * v + 1 + b : Nat) : Int) - ((4 * v + 1 + a : Nat) : Int) = ((b - a : Nat) : Int) by omega,
    Int.toNat_natCast, ← List.drop_drop (i := a), List.drop_take, List.take_take, Nat.min_eq_left (by omega)]

/-- `d3_to_str` appends the group: all three digits, or only the significant ones. -/
theorem d3ToStr_spec {v : Nat} (h : v < 1000) (buf : List Nat) (elim : Bool) :
    (d3ToStr m (v : Int) buf elim : Out σ _) =
      .ok (buf ++ digitChars (if elim then sigDigits v else padDigits 3 v), elim && decide (v = 0)) := by
  unfold d3ToStr
  dsimp only
  rw [show (v : Int) % 2 ^ 64 = v by omega, show (v : Int) * 4 = ((4 * v : Nat) : Int) by omega,
    usz_ok (by omega) (by omega), ok_bind]
  cases elim
  · rw [if_pos (by rfl), usz_ok (by omega) (by omega), ok_bind, usz_ok (by omega) (by omega), ok_bind,
      show ((4 * v : Nat) : Int) + 1 = ((4 * v + 1 + 0 : Nat) : Int) by omega,
      show ((4 * v : Nat) : Int) + 4 = ((4 * v + 1 + 3 : Nat) : Int) by omega, table_slice h (by omega) (by omega), ok_bind]
    rw [List.drop_zero, List.take_of_length_le (by unfold digitChars; rw [List.length_map, padDigits_length])]
    rfl
  · rw [if_neg (by decide), idx_get? (bin2char_table h).2, ok_bind]
    have hs := sig_entry h
    generalize hc : (if v = 0 then 0 else if v < 10 then 1 else if v < 100 then 2 else 3) = c at hs
    have hc3 : c ≤ 3 := by subst hc; split_ifs <;> omega
    have hc0 : c = 0 ↔ v = 0 := by rw [← hc]; split_ifs <;> simp <;> omega
    by_cases hz : c = 0
    · rw [if_neg (by omega), if_pos rfl, hc0.mp hz, sigDigits_zero]
      simp [digitChars]
    · rw [if_pos (by omega), usz_ok (by omega) (by omega), ok_bind, usz_ok (by omega) (by omega), ok_bind,
        usz_ok (by omega) (by omega), ok_bind,
        show ((4 * v : Nat) : Int) + 4 - (c : Int) = ((4 * v + 1 + (3 - c) : Nat) : Int) by omega,
        show ((4 * v + 1 + (3 - c) : Nat) : Int) + (c : Int) = ((4 * v + 1 + 3 : Nat) : Int) by omega,
        table_slice h (by omega) (by omega), ok_bind]
      have hv : v ≠ 0 := fun h => hz (hc0.mpr h)
      rw [if_pos rfl, hs]
      have : (List.drop (3 - c) (digitChars (padDigits 3 v))).take (3 - (3 - c)) = digitChars ((padDigits 3 v).drop (3 - c)) := by
        unfold digitChars
        rw [List.map_drop, List.take_of_length_le]
        rw [List.length_drop, List.length_map, padDigits_length]
      rw [this]
      simp [hv]

/-- What has been written after the integral number `N` was processed. -/
def Written (buf0 : List Nat) (N : Nat) : List Nat × Bool := (buf0 ++ digitChars (sigDigits N), decide (N = 0))

theorem d3_written {v : Nat} (h : v < 1000) (buf0 : List Nat) (N : Nat) :
    (d3ToStr m (v : Int) (Written buf0 N).1 (Written buf0 N).2 : Out σ _) =
      .ok ((Written buf0 (N * 1000 + v)).1, (Written buf0 (N * 1000 + v)).2) := by
  rw [d3ToStr_spec h]
  unfold Written
  dsimp only
  rcases Nat.eq_zero_or_pos N with rfl | hN
  · rw [sigDigits_zero]; simp [digitChars]
  · have : sigDigits (N * 1000 + v) = sigDigits N ++ padDigits 3 v := sigDigits_append hN 3 v h
    rw [this, digitChars_append, List.append_assoc]
    have h1 : decide (N = 0) = false := by simp; omega
    have h2 : decide (N * 1000 + v = 0) = false := by simp; omega
    rw [h1, h2]; simp

theorem group_step (buf0 : List Nat) {unit w N : Nat} (h1 : 1 ≤ unit) (h2 : unit ≤ 1000000) (h3 : w < 1000 * unit) :
    ((if (w : Int) ≥ (unit : Int) then do
          let high := (w : Int).tdiv (unit : Int)
          let (buf, elim) ← d3ToStr m high (Written buf0 N).1 (Written buf0 N).2
          let w' ← i32 m (high * (unit : Int))
          let u ← i32 m ((w : Int) - w')
          return (u, buf, elim)
        else do
          let (buf, elim) ← d3ToStr m 0 (Written buf0 N).1 (Written buf0 N).2
          return ((w : Int), buf, elim)) : Out σ (Int × List Nat × Bool)) =
      .ok (((w % unit : Nat) : Int), (Written buf0 (N * 1000 + w / unit)).1, (Written buf0 (N * 1000 + w / unit)).2) := by
  have hq : w / unit < 1000 := (Nat.div_lt_iff_lt_mul (by omega)).mpr h3
  have hm := Nat.div_add_mod w unit
  have hml := Nat.mod_lt w (show unit > 0 by omega)
  by_cases hw : (w : Int) ≥ (unit : Int)
  · rw [if_pos hw]
    dsimp only
    have e : (w : Int).tdiv (unit : Int) = ((w / unit : Nat) : Int) := by
      rw [Int.tdiv_eq_ediv_of_nonneg (by omega)]; simp
    rw [e, d3_written hq]
    have hle : (w / unit) * unit ≤ w := Nat.div_mul_le_self w unit
    have e2 : ((w / unit : Nat) : Int) * (unit : Int) = (((w / unit) * unit : Nat) : Int) := by push_cast; rfl
    rw [ok_bind]
    dsimp only
    have hm' : (w / unit) * unit + w % unit = w := by rw [mul_comm]; exact hm
    rw [e2, i32_ok (by omega) (by omega), ok_bind, i32_ok (by omega) (by omega), ok_bind]
    have e3 : (w : Int) - ((w / unit * unit : Nat) : Int) = ((w % unit : Nat) : Int) := by omega
    rw [e3, pure_ok]
  · rw [if_neg hw]
    have e : w / unit = 0 := Nat.div_eq_of_lt (by omega)
    have e' : w % unit = w := Nat.mod_eq_of_lt (by omega)
    have := d3_written (σ := σ) (m := m) (v := 0) (by omega) buf0 N
    rw [Nat.cast_zero] at this
    rw [this, e, e']
    simp only [ok_bind, pure_ok]

theorem intgUnit_written {u : Nat} (h : u < 1000000000) (buf0 : List Nat) (N : Nat) :
    (intgUnitStr m (u : Int) (Written buf0 N).1 (Written buf0 N).2 : Out σ _) =
      .ok ((Written buf0 (N * 1000000000 + u)).1, (Written buf0 (N * 1000000000 + u)).2) := by
  obtain ⟨H, hH⟩ : ∃ H : Nat, H = 1000000 := ⟨_, rfl⟩
  obtain ⟨M, hM⟩ : ∃ M : Nat, M = 1000 := ⟨_, rfl⟩
  have hB1 : BIN_HIGH_UNIT = (H : Int) := by rw [hH]; unfold BIN_HIGH_UNIT; norm_num
  have hB2 : BIN_MID_UNIT = (M : Int) := by rw [hM]; unfold BIN_MID_UNIT; norm_num
  have hHlt : u % H < H := Nat.mod_lt _ (by omega)
  have hMlt : u % H % M < M := Nat.mod_lt _ (by omega)
  unfold intgUnitStr
  rw [hB1, hB2, group_step buf0 (by omega) (by omega) (by omega), ok_bind]
  dsimp only
  rw [group_step buf0 (by omega) (by omega) (by omega), ok_bind]
  dsimp only
  rw [d3_written (by omega)]
  have e : ((N * 1000 + u / H) * 1000 + u % H / M) * 1000 + u % H % M = N * 1000000000 + u := by
    subst hH hM; omega
  rw [e]

/-- Running the loop over the integral units appends the digits of the whole part. -/
theorem intgStrLoop_spec {lsu : List Int} (hd : Dig (dg lsu)) {fu : Nat} : ∀ (n N P : Nat) (buf0 : List Nat),
    fu + n ≤ lsu.length → (P : Int) = psum (fun j => dg lsu (fu + j)) n →
    (intgStrLoop m lsu (fu : Int) n (Written buf0 N).1 (Written buf0 N).2 : Out σ _) =
      .ok ((Written buf0 (N * 1000000000 ^ n + P)).1, (Written buf0 (N * 1000000000 ^ n + P)).2) := by
  intro n
  induction n with
  | zero =>
    intro N P buf0 _ hP
    rw [psum_zero] at hP
    have : P = 0 := by omega
    subst this
    rw [intgStrLoop]; simp
  | succ n ih =>
    intro N P buf0 hl hP
    rw [psum_succ] at hP
    have hu := hd (fu + n)
    obtain ⟨u, hu'⟩ := Int.eq_ofNat_of_zero_le hu.1
    obtain ⟨P', hP'⟩ := Int.eq_ofNat_of_zero_le (psum_nonneg (f := fun j => dg lsu (fu + j)) (fun j => hd _) n)
    have hPeq : P = P' + u * 1000000000 ^ n := by
      zify; rw [hP, hP', hu']
    rw [intgStrLoop, show (fu : Int) + (n : Int) = ((fu + n : Nat) : Int) by push_cast; rfl, idx_nat (by omega), ok_bind, hu']
    have key : N * 1000000000 ^ (n + 1) + P = (N * 1000000000 + u) * 1000000000 ^ n + P' := by
      rw [hPeq, pow_succ]; ring
    by_cases hc : ((Written buf0 N).2 && (u : Int) == 0) = true
    · rw [if_pos hc, ih N P' buf0 (by omega) hP'.symm]
      rw [Bool.and_eq_true] at hc
      have hN : N = 0 := of_decide_eq_true hc.1
      have hu0 : u = 0 := by have := hc.2; simp at this; exact this
      rw [key, hN, hu0]
    · rw [if_neg hc, intgUnit_written (by rw [hu'] at hu; omega)]
      simp only [ok_bind]
      rw [ih (N * 1000000000 + u) P' buf0 (by omega) hP'.symm, key]

/-! ## Fractional part -/

theorem padDigits_take {v f : Nat} (hf : f ≤ 3) : (padDigits 3 v).take f = padDigits f (v / 10 ^ (3 - f)) := by
  have := padDigits_append f (3 - f) v
  rw [show f + (3 - f) = 3 by omega] at this
  rw [this, List.take_left' (padDigits_length _ _)]

theorem fracGroup_spec {v F : Nat} (h : v < 1000) (hF : F < 128) (buf : List Nat) :
    (fracGroup m (v : Int) buf (F : Int) : Out σ _) =
      if F < 3 then .ok (buf ++ digitChars (padDigits F (v / 10 ^ (3 - F))), (F : Int), true)
      else .ok (buf ++ digitChars (padDigits 3 v), ((F - 3 : Nat) : Int), decide (F = 3)) := by
  unfold fracGroup
  rw [show (v : Int) % 2 ^ 64 * 4 = ((4 * v : Nat) : Int) by omega, usz_ok (by omega) (by omega), ok_bind,
    usz_ok (by omega) (by omega), ok_bind]
  by_cases h3 : F < 3
  · rw [if_pos (by omega), if_pos h3, show (F : Int) % 2 ^ 64 = F by omega, usz_ok (by omega) (by omega), ok_bind,
      show ((4 * v : Nat) : Int) + 1 + (F : Int) = ((4 * v + 1 + F : Nat) : Int) by omega,
      show ((4 * v : Nat) : Int) + 1 = ((4 * v + 1 + 0 : Nat) : Int) by omega,
      table_slice h (by omega) (by omega), ok_bind, List.drop_zero, Nat.sub_zero, digitChars_take, padDigits_take (by omega), pure_ok]
  · rw [if_neg (by omega), if_neg h3, usz_ok (by omega) (by omega), ok_bind,
      show ((4 * v : Nat) : Int) + 1 + 3 = ((4 * v + 1 + 3 : Nat) : Int) by omega,
      show ((4 * v : Nat) : Int) + 1 = ((4 * v + 1 + 0 : Nat) : Int) by omega,
      table_slice h (by omega) (by omega), ok_bind, i8_ok (by omega) (by omega), ok_bind, List.drop_zero, Nat.sub_zero,
      digitChars_take, padDigits_take (by omega), pure_ok]
    have e1 : (F : Int) - 3 = ((F - 3 : Nat) : Int) := by omega
    have e2 : (((F - 3 : Nat) : Int) == 0) = decide (F = 3) := by
      by_cases h : F = 3
      · subst h; rfl
      · have : ((F - 3 : Nat) : Int) ≠ 0 := by omega
        simp [h]; omega
    rw [e1, e2]; simp

theorem fracGroupZero_spec {F : Nat} (hF : F < 128) (buf : List Nat) :
    (fracGroupZero m buf (F : Int) : Out σ _) =
      if F < 3 then .ok (buf ++ digitChars (padDigits F (0 / 10 ^ (3 - F))), (F : Int), true)
      else .ok (buf ++ digitChars (padDigits 3 0), ((F - 3 : Nat) : Int), decide (F = 3)) := by
  unfold fracGroupZero
  by_cases h3 : F < 3
  · rw [if_pos (by omega), if_pos h3, Nat.zero_div, padDigits_zero, digitChars_replicate]; rfl
  · rw [if_neg (by omega), if_neg h3, i8_ok (by omega) (by omega), ok_bind, pure_ok]
    have e1 : (F : Int) - 3 = ((F - 3 : Nat) : Int) := by omega
    have e2 : (((F - 3 : Nat) : Int) == 0) = decide (F = 3) := by
      by_cases h : F = 3
      · subst h; rfl
      · have : ((F - 3 : Nat) : Int) ≠ 0 := by omega
        simp [h]; omega
    rw [e1, e2]; rfl

/-- One of the first two groups of a unit. -/
theorem frac_step {unit w F : Nat} (h1 : 1 ≤ unit) (h2 : unit ≤ 1000000) (h3 : w < 1000 * unit) (hF : F < 128)
    (buf : List Nat) :
    ((if (w : Int) ≥ (unit : Int) then do
        let high := (w : Int).tdiv (unit : Int)
        let (buf, fd, ret) ← fracGroup m high buf (F : Int)
        if ret then return ((w : Int), buf, fd, ret)
        else do
          let w' ← i32 m (high * (unit : Int))
          let u ← i32 m ((w : Int) - w')
          return (u, buf, fd, ret)
      else do
        let (buf, fd, ret) ← fracGroupZero m buf (F : Int)
        return ((w : Int), buf, fd, ret)) : Out σ (Int × List Nat × Int × Bool)) =
      if F < 3 then .ok ((w : Int), buf ++ digitChars (padDigits F (w / unit / 10 ^ (3 - F))), (F : Int), true)
      else if F = 3 then .ok ((w : Int), buf ++ digitChars (padDigits 3 (w / unit)), ((F - 3 : Nat) : Int), true)
      else .ok (((w % unit : Nat) : Int), buf ++ digitChars (padDigits 3 (w / unit)), ((F - 3 : Nat) : Int), false) := by
  have hq : w / unit < 1000 := (Nat.div_lt_iff_lt_mul (by omega)).mpr h3
  have hm := Nat.div_add_mod w unit
  have hml := Nat.mod_lt w (show unit > 0 by omega)
  by_cases hw : (w : Int) ≥ (unit : Int)
  · rw [if_pos hw]
    dsimp only
    have e : (w : Int).tdiv (unit : Int) = ((w / unit : Nat) : Int) := by
      rw [Int.tdiv_eq_ediv_of_nonneg (by omega)]; simp
    rw [e, fracGroup_spec hq hF]
    by_cases a : F < 3
    · rw [if_pos a, if_pos a, ok_bind]; rfl
    · rw [if_neg a, if_neg a, ok_bind]
      dsimp only
      by_cases b : F = 3
      · rw [if_pos b, if_pos (by simp [b])]; simp [b]
      · rw [if_neg b, if_neg (by simp [b])]
        have e2 : ((w / unit : Nat) : Int) * (unit : Int) = (((w / unit) * unit : Nat) : Int) := by push_cast; rfl
        have hm' : (w / unit) * unit + w % unit = w := by rw [mul_comm]; exact hm
        rw [e2, i32_ok (by omega) (by omega), ok_bind, i32_ok (by omega) (by omega), ok_bind]
        have e3 : (w : Int) - ((w / unit * unit : Nat) : Int) = ((w % unit : Nat) : Int) := by omega
        rw [e3, pure_ok]; simp [b]
  · rw [if_neg hw]
    have e : w / unit = 0 := Nat.div_eq_of_lt (by omega)
    have e' : w % unit = w := Nat.mod_eq_of_lt (by omega)
    rw [fracGroupZero_spec hF, e, e']
    by_cases a : F < 3
    · rw [if_pos a, if_pos a, ok_bind]; rfl
    · rw [if_neg a, if_neg a, ok_bind]
      by_cases b : F = 3
      · rw [if_pos b]; simp [b]
      · rw [if_neg b]; simp [b]

/-- `append_frac` appends the first `F` of the `9 * n` digits of the lowest `n` units. -/
theorem appendFrac_spec {lsu : List Int} (hd : Dig (dg lsu)) : ∀ (n P F : Nat) (buf : List Nat),
    n ≤ lsu.length → (P : Int) = psum (dg lsu) n → F ≤ 9 * n → F < 128 →
    (appendFrac m lsu n buf (F : Int) : Out σ _) = .ok (buf ++ digitChars (padDigits F (P / 10 ^ (9 * n - F)))) := by
  intro n
  induction n with
  | zero =>
    intro P F buf _ _ hF _
    have : F = 0 := by omega
    subst this
    rw [appendFrac]; simp [padDigits, digitChars]
  | succ n ih =>
    intro P F buf hl hP hF hF8
    rw [appendFrac]
    by_cases h0 : F = 0
    · rw [if_pos (by omega), h0]; simp [padDigits, digitChars]
    rw [if_neg (by omega), idx_nat (by omega), ok_bind]
    rw [psum_succ] at hP
    have hu := hd n
    have hP'l := psum_lt hd n
    obtain ⟨u, hu'⟩ := Int.eq_ofNat_of_zero_le hu.1
    obtain ⟨P', hP'⟩ := Int.eq_ofNat_of_zero_le (psum_nonneg hd n)
    have hul : u < 1000000000 := by rw [hu'] at hu; omega
    have hBn : 1000000000 ^ n = 10 ^ (9 * n) := by rw [pow_mul]; norm_num
    have hP'lt : P' < 10 ^ (9 * n) := by
      rw [hP'] at hP'l; rw [← hBn]; exact_mod_cast hP'l
    have hPeq : P = P' + u * 10 ^ (9 * n) := by
      rw [← hBn]; zify; rw [hP, hP', hu']
    have hdiv : P / 10 ^ (9 * n) = u := by
      rw [hPeq, Nat.add_mul_div_right _ _ (by positivity), Nat.div_eq_of_lt hP'lt, Nat.zero_add]
    have hmod : P % 10 ^ (9 * n) = P' := by
      rw [hPeq, Nat.add_mul_mod_self_right, Nat.mod_eq_of_lt hP'lt]
    have short : F ≤ 9 → padDigits F (P / 10 ^ (9 * (n + 1) - F)) = padDigits F (u / 10 ^ (9 - F)) := by
      intro h
      have := padDigits_short (x := P) (c := 9 * n) h
      rw [hdiv] at this
      rw [← this, show 9 * (n + 1) - F = 9 + 9 * n - F by omega]
    have long : 9 ≤ F → padDigits F (P / 10 ^ (9 * (n + 1) - F)) =
        padDigits 9 u ++ padDigits (F - 9) (P' / 10 ^ (9 * n - (F - 9))) := by
      intro h
      have := padDigits_step (a := 9) (b := F - 9) (c := 9 * n) (x := P) (by omega)
      rw [hdiv, hmod] at this
      rw [← this, show 9 + (F - 9) = F by omega, show 9 * (n + 1) - F = 9 * n - (F - 9) by omega]
    rw [hu']
    by_cases hz : (u : Int) = 0
    · rw [if_pos hz]
      have hz' : u = 0 := by omega
      subst hz'
      have hD : DIGITS_PER_UNIT = 9 := rfl
      rw [hD]
      by_cases h9 : (F : Int) > 9
      · rw [if_pos h9, i8_ok (by omega) (by omega), ok_bind, show (F : Int) - 9 = ((F - 9 : Nat) : Int) by omega,
          ih P' (F - 9) _ (by omega) hP'.symm (by omega) (by omega), long (by omega), padDigits_zero, digitChars_append,
          digitChars_replicate, List.append_assoc]
      · rw [if_neg h9, pure_ok, short (by omega), Nat.zero_div, padDigits_zero, digitChars_replicate, Int.toNat_natCast]
    rw [if_neg hz]
    obtain ⟨H, hH⟩ : ∃ H : Nat, H = 1000000 := ⟨_, rfl⟩
    obtain ⟨M, hM⟩ : ∃ M : Nat, M = 1000 := ⟨_, rfl⟩
    have hB1 : BIN_HIGH_UNIT = (H : Int) := by rw [hH]; unfold BIN_HIGH_UNIT; norm_num
    have hB2 : BIN_MID_UNIT = (M : Int) := by rw [hM]; unfold BIN_MID_UNIT; norm_num
    have hHlt : u % H < H := Nat.mod_lt _ (by omega)
    have hMlt : u % H % M < M := Nat.mod_lt _ (by omega)
    have hHp : H = 10 ^ 6 := by rw [hH]; norm_num
    have hMp : M = 10 ^ 3 := by rw [hM]; norm_num
    rw [hB1, hB2, frac_step (by omega) (by omega) (by omega) hF8]
    by_cases a : F < 3
    · rw [if_pos a, ok_bind]
      dsimp only
      rw [if_pos rfl, pure_ok, short (by omega), hHp, ← padDigits_short (a := 3) (c := 6) (by omega)]
    rw [if_neg a]
    by_cases b : F = 3
    · rw [if_pos b, ok_bind]
      dsimp only
      rw [if_pos rfl, pure_ok, short (by omega), hHp, b]
    rw [if_neg b, ok_bind]
    dsimp only
    rw [if_neg (by decide), frac_step (by omega) (by omega) (by omega) (by omega)]
    -- peel one group of three
    have peel : ∀ (x k : Nat), 3 ≤ k → k ≤ 9 → ∀ c, k ≤ 3 + c →
        padDigits k (x / 10 ^ (3 + c - k)) = padDigits 3 (x / 10 ^ c) ++ padDigits (k - 3) (x % 10 ^ c / 10 ^ (c - (k - 3))) := by
      intro x k hk hk' c hc
      have := padDigits_step (a := 3) (b := k - 3) (c := c) (x := x) (by omega)
      rw [← this, show 3 + (k - 3) = k by omega, show 3 + c - k = c - (k - 3) by omega]
    by_cases a2 : F - 3 < 3
    · rw [if_pos a2, ok_bind]
      dsimp only
      rw [if_pos rfl, pure_ok, short (by omega), peel u F (by omega) (by omega) 6 (by omega), digitChars_append, hHp, hMp,
        ← padDigits_short (a := 3) (c := 3) (by omega), List.append_assoc]
    rw [if_neg a2]
    by_cases b2 : F - 3 = 3
    · rw [if_pos b2, ok_bind]
      dsimp only
      rw [if_pos rfl, pure_ok, short (by omega), peel u F (by omega) (by omega) 6 (by omega), digitChars_append, hHp, hMp,
        b2, List.append_assoc]
    rw [if_neg b2, ok_bind]
    dsimp only
    rw [if_neg (by decide), fracGroup_spec (by omega) (by omega)]
    by_cases a3 : F - 3 - 3 < 3
    · rw [if_pos a3, ok_bind]
      dsimp only
      rw [if_pos rfl, pure_ok, short (by omega), peel u F (by omega) (by omega) 6 (by omega),
        peel (u % 10 ^ 6) (F - 3) (by omega) (by omega) 3 (by omega), digitChars_append, digitChars_append, hHp, hMp,
        List.append_assoc, List.append_assoc]
    rw [if_neg a3, ok_bind]
    dsimp only
    have p9 : padDigits 9 u = padDigits 3 (u / H) ++ (padDigits 3 (u % H / M) ++ padDigits 3 (u % H % M)) := by
      have h1 := peel u 9 (by omega) (by omega) 6 (by omega)
      have h2 := peel (u % 10 ^ 6) 6 (by omega) (by omega) 3 (by omega)
      simp only [Nat.reduceAdd, Nat.reduceSub, pow_zero, Nat.div_one] at h1 h2
      rw [h1, h2, hHp, hMp]
    rw [long (by omega), p9]
    by_cases b3 : F - 3 - 3 = 3
    · rw [if_pos (by simp [b3]), pure_ok, show F - 9 = 0 by omega]
      have hnil : padDigits 0 (P' / 10 ^ (9 * n - 0)) = [] := rfl
      rw [hnil, List.append_nil]
      simp only [digitChars_append, List.append_assoc]
    · rw [if_neg (by simp [b3]), ih P' _ _ (by omega) hP'.symm (by omega) (by omega), show F - 3 - 3 - 3 = F - 9 by omega]
      simp only [digitChars_append, List.append_assoc]

end Fxd
