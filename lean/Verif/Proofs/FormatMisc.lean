import Verif.Proofs.FormatTop
/-!
# Formatting arbitrary states: only appends, only ASCII
-/

namespace Fxd
open Spec

variable {σ : Type} {m : Mode}

/-! ## The numeral shown -/

theorem natDigits_lt (n : Nat) : ∀ d ∈ natDigits n, d < 10 := by
  rw [natDigits_eq]; split_ifs
  · simp
  · exact sig_lt n
theorem natDigits_ne_nil (n : Nat) : natDigits n ≠ [] := by
  rw [natDigits_eq]; split_ifs with h
  · simp
  · exact sig_ne_nil (by omega)
theorem digitsVal_natDigits (n : Nat) : digitsVal (natDigits n) = n := by
  rw [natDigits_eq]; split_ifs with h
  · subst h; rfl
  · exact digitsVal_sig n
theorem sig_head {n : Nat} (h : 0 < n) : (sigDigits n).head? ≠ some 0 := by
  induction n using Nat.strong_induction_on with
  | _ n ih =>
    rw [sigDigits_pos h]
    by_cases h10 : n < 10
    · rw [show n / 10 = 0 by omega, sigDigits_zero]; simp; omega
    · have hne := sig_ne_nil (n := n / 10) (by omega)
      rw [List.head?_append_of_ne_nil _ hne]
      exact ih (n / 10) (by omega) (by omega)
theorem natDigits_head (n : Nat) (h : (natDigits n).head? = some 0) : natDigits n = [0] := by
  rw [natDigits_eq] at *
  split_ifs at * with h0
  · rfl
  · exact absurd h (sig_head (by omega))

theorem decNumeral_fracs (ng : Bool) (N k : Nat) : (decNumeral ng N k).fracs = padDigits k (N % 10 ^ k) := by
  unfold decNumeral Numeral.fracs
  dsimp only
  split_ifs with h
  · subst h; rfl
  · rfl
theorem decNumeral_valid (ng : Bool) (N k : Nat) : (decNumeral ng N k).Valid := by
  refine ⟨?_, ?_, ?_⟩
  · unfold Numeral.digits
    rw [decNumeral_fracs]
    intro d hd
    rcases List.mem_append.mp hd with h | h
    · exact natDigits_lt _ d h
    · exact padDigits_lt _ _ d h
  · unfold Numeral.digits
    intro h
    exact natDigits_ne_nil _ (List.append_eq_nil_iff.mp h).1
  · intro x hx; simp [decNumeral] at hx
theorem decNumeral_digits (ng : Bool) (N k : Nat) : digitsVal (decNumeral ng N k).digits = N := by
  unfold Numeral.digits
  rw [decNumeral_fracs, digitsVal_append, padDigits_length, digitsVal_padDigits]
  have : (decNumeral ng N k).ip = natDigits (N / 10 ^ k) := rfl
  rw [this, digitsVal_natDigits, Nat.mod_mod, Nat.mul_comm]
  exact Nat.div_add_mod N (10 ^ k)
theorem decNumeral_denote (ng : Bool) (N k : Nat) :
    (decNumeral ng N k).denote = (if ng then -1 else 1) * ((N : ℚ) / 10 ^ k) := by
  unfold Numeral.denote
  rw [decNumeral_digits, decNumeral_fracs, padDigits_length]
  have h1 : (decNumeral ng N k).expo = 0 := rfl
  rw [h1, zero_sub, zpow_neg, zpow_natCast]
  cases ng <;> simp [decNumeral] <;> rfl

/-! ## The buffer is only appended to -/

/-- Apply a function to the result. -/
def Out.mapOk {α β : Type} (f : α → β) : Out σ α → Out σ β
  | .ok a => .ok (f a)
  | .err e s => .err e s
  | .panic p => .panic p

theorem mapOk_bind {α β γ : Type} (x : Out σ α) (g : α → Out σ β) (f : β → γ) :
    (x >>= g).mapOk f = x >>= fun a => (g a).mapOk f := by cases x <;> rfl
theorem bind_mapOk {α β γ : Type} (x : Out σ α) (f : α → β) (g : β → Out σ γ) :
    (x.mapOk f >>= g) = x >>= fun a => g (f a) := by cases x <;> rfl
theorem mapOk_ok {α β : Type} (f : α → β) (a : α) : (Out.ok a : Out σ α).mapOk f = .ok (f a) := rfl
theorem mapOk_ite {α β : Type} (f : α → β) (c : Prop) [Decidable c] (x y : Out σ α) :
    (if c then x else y).mapOk f = if c then x.mapOk f else y.mapOk f := by split_ifs <;> rfl
theorem bind_congr' {α β : Type} (x : Out σ α) {f g : α → Out σ β} (h : ∀ a, f a = g a) : (x >>= f) = (x >>= g) := by
  cases x <;> first | exact h _ | rfl

theorem d3_prefix (p : List Nat) (v : Int) (buf : List Nat) (e : Bool) :
    (d3ToStr m v (p ++ buf) e : Out σ _) = (d3ToStr m v buf e).mapOk fun r => (p ++ r.1, r.2) := by
  unfold d3ToStr
  dsimp only
  simp only [mapOk_bind, mapOk_ite, pure_ok, mapOk_ok, List.append_assoc]

/-- The first two groups of a unit share this shape. -/
def intgBlk (m : Mode) (unit u : Int) (buf : List Nat) (elim : Bool) : Out σ (Int × List Nat × Bool) :=
  if u ≥ unit then do
    let high := u.tdiv unit
    let (buf, elim) ← d3ToStr m high buf elim
    let w ← i32 m (high * unit)
    let u ← i32 m (u - w)
    return (u, buf, elim)
  else do
    let (buf, elim) ← d3ToStr m 0 buf elim
    return (u, buf, elim)

theorem intgUnitStr_eq (u : Int) (buf : List Nat) (e : Bool) :
    (intgUnitStr m u buf e : Out σ _) = (intgBlk m BIN_HIGH_UNIT u buf e >>= fun r =>
      intgBlk m BIN_MID_UNIT r.1 r.2.1 r.2.2 >>= fun r => d3ToStr m r.1 r.2.1 r.2.2) := rfl

theorem intgBlk_prefix (unit : Int) (p : List Nat) (u : Int) (buf : List Nat) (e : Bool) :
    (intgBlk m unit u (p ++ buf) e : Out σ _) = (intgBlk m unit u buf e).mapOk fun r => (r.1, p ++ r.2.1, r.2.2) := by
  unfold intgBlk
  rw [mapOk_ite]
  simp only [d3_prefix, mapOk_bind, bind_mapOk, pure_ok, mapOk_ok]

theorem intgUnit_prefix (p : List Nat) (u : Int) (buf : List Nat) (e : Bool) :
    (intgUnitStr m u (p ++ buf) e : Out σ _) = (intgUnitStr m u buf e).mapOk fun r => (p ++ r.1, r.2) := by
  rw [intgUnitStr_eq, intgUnitStr_eq]
  simp only [intgBlk_prefix, d3_prefix, mapOk_bind, bind_mapOk]

theorem intgLoop_prefix (p : List Nat) (lsu : List Int) (fu : Int) (n : Nat) : ∀ (buf : List Nat) (e : Bool),
    (intgStrLoop m lsu fu n (p ++ buf) e : Out σ _) = (intgStrLoop m lsu fu n buf e).mapOk fun r => (p ++ r.1, r.2) := by
  induction n with
  | zero => intro buf e; rfl
  | succ n ih =>
    intro buf e
    unfold intgStrLoop
    simp only [mapOk_bind, mapOk_ite, intgUnit_prefix, bind_mapOk, ih]

theorem fracGroup_prefix (p : List Nat) (v : Int) (buf : List Nat) (F : Int) :
    (fracGroup m v (p ++ buf) F : Out σ _) = (fracGroup m v buf F).mapOk fun r => (p ++ r.1, r.2) := by
  unfold fracGroup
  simp only [mapOk_bind, mapOk_ite, pure_ok, mapOk_ok, List.append_assoc]

theorem fracGroupZero_prefix (p : List Nat) (buf : List Nat) (F : Int) :
    (fracGroupZero m (p ++ buf) F : Out σ _) = (fracGroupZero m buf F).mapOk fun r => (p ++ r.1, r.2) := by
  unfold fracGroupZero
  simp only [mapOk_bind, mapOk_ite, pure_ok, mapOk_ok, List.append_assoc]

/-- The first two groups of a fractional unit share this shape. -/
def fracBlk (m : Mode) (unit u : Int) (buf : List Nat) (F : Int) : Out σ (Int × List Nat × Int × Bool) :=
  if u ≥ unit then do
    let high := u.tdiv unit
    let (buf, fd, ret) ← fracGroup m high buf F
    if ret then return (u, buf, fd, ret)
    else do
      let w ← i32 m (high * unit)
      let u ← i32 m (u - w)
      return (u, buf, fd, ret)
  else do
    let (buf, fd, ret) ← fracGroupZero m buf F
    return (u, buf, fd, ret)

theorem fracBlk_prefix (unit : Int) (p : List Nat) (u : Int) (buf : List Nat) (F : Int) :
    (fracBlk m unit u (p ++ buf) F : Out σ _) = (fracBlk m unit u buf F).mapOk fun r => (r.1, p ++ r.2.1, r.2.2) := by
  unfold fracBlk
  rw [mapOk_ite]
  simp only [fracGroup_prefix, fracGroupZero_prefix, mapOk_bind, bind_mapOk, mapOk_ite, pure_ok, mapOk_ok]

theorem appendFrac_eq (lsu : List Int) (n : Nat) (buf : List Nat) (F : Int) :
    (appendFrac m lsu (n + 1) buf F : Out σ _) =
      if F = 0 then .ok buf else idx lsu (n : Int) >>= fun u =>
        if u = 0 then
          (if F > DIGITS_PER_UNIT then i8 m (F - DIGITS_PER_UNIT) >>= fun fd => appendFrac m lsu n (buf ++ List.replicate 9 48) fd
          else .ok (buf ++ List.replicate F.toNat 48))
        else fracBlk m BIN_HIGH_UNIT u buf F >>= fun r => if r.2.2.2 then .ok r.2.1 else
          fracBlk m BIN_MID_UNIT r.1 r.2.1 r.2.2.1 >>= fun r => if r.2.2.2 then .ok r.2.1 else
          fracGroup m r.1 r.2.1 r.2.2.1 >>= fun r => if r.2.2 then .ok r.1 else appendFrac m lsu n r.1 r.2.1 := rfl

theorem appendFrac_prefix (p : List Nat) (lsu : List Int) (n : Nat) : ∀ (buf : List Nat) (F : Int),
    (appendFrac m lsu n (p ++ buf) F : Out σ _) = (appendFrac m lsu n buf F).mapOk fun r => p ++ r := by
  induction n with
  | zero => intro buf F; rfl
  | succ n ih =>
    intro buf F
    rw [appendFrac_eq, appendFrac_eq]
    simp only [mapOk_bind, mapOk_ite, pure_ok, mapOk_ok, fracBlk_prefix, fracGroup_prefix, bind_mapOk, List.append_assoc, ih]

/-- `append_str_buf` only appends, for every state of the decimal. -/
theorem append_prefix (d : FixedDecimal) (p buf : List Nat) (f : Int) :
    (FixedDecimal.appendStrBuf m d (p ++ buf) f : Out σ _) = (FixedDecimal.appendStrBuf m d buf f).mapOk fun r => p ++ r := by
  unfold FixedDecimal.appendStrBuf
  dsimp only
  have hs : (if d.isNeg = true then (p ++ buf) ++ [45] else p ++ buf) = p ++ (if d.isNeg = true then buf ++ [45] else buf) := by
    split_ifs <;> simp
  rw [hs]
  generalize (if d.isNeg = true then buf ++ [45] else buf) = buf
  rw [mapOk_bind]
  refine bind_congr' _ fun iu => ?_
  rw [mapOk_bind]
  refine bind_congr' _ fun fu => ?_
  rw [mapOk_bind]
  have h1 : (if iu > 0 then do
      let (buf, elim) ← intgStrLoop m d.lsu fu iu.toNat (p ++ buf) true
      return if elim then buf ++ [48] else buf
    else return p ++ buf ++ [48] : Out σ (List Nat)) =
    (if iu > 0 then do
      let (buf, elim) ← intgStrLoop m d.lsu fu iu.toNat buf true
      return if elim then buf ++ [48] else buf
    else return buf ++ [48] : Out σ (List Nat)).mapOk fun r => p ++ r := by
    rw [mapOk_ite]
    simp only [intgLoop_prefix, mapOk_bind, bind_mapOk, pure_ok, mapOk_ok, List.append_assoc]
    split_ifs
    · refine bind_congr' _ fun r => ?_
      split_ifs <;> simp
    · rfl
  rw [h1, bind_mapOk]
  refine bind_congr' _ fun b => ?_
  simp only [mapOk_bind, mapOk_ite, pure_ok, mapOk_ok, List.append_assoc, appendFrac_prefix, bind_mapOk]

/-! ## Only ASCII digits, `-` and `.` -/

theorem usz_result {x y : Int} (h : (usz m x : Out σ Int) = .ok y) : y = x % 2 ^ 64 := by
  unfold usz at h
  split_ifs at h with h0
  · injection h with h; omega
  · cases m
    · simp at h
    · injection h with h; omega

theorem i8_result {x y : Int} (h : (i8 m x : Out σ Int) = .ok y) : -128 ≤ y ∧ y < 128 := by
  unfold i8 sarith at h
  split_ifs at h with h0
  · injection h with h; norm_num at h0; omega
  · cases m
    · simp at h
    · injection h with h
      subst h
      unfold wrap
      have h1 := Int.le_bmod (x := x) (m := 2 ^ 8) (by norm_num)
      have h2 := Int.bmod_lt (x := x) (m := 2 ^ 8) (by norm_num)
      norm_num at h1 h2 ⊢
      omega

theorem table_digit {i c : Nat} (hi : i % 4 ≠ 0) (h : BIN2CHAR[i]? = some c) : TextByte c := by
  have hlt : i < 4001 := by
    rw [← bin2char_len]; exact (List.getElem?_eq_some_iff.mp h).1
  have ht := (bin2char_table (v := i / 4) (by omega)).1
  have e : BIN2CHAR[i]? = (digitChars (padDigits 3 (i / 4)))[i % 4 - 1]? := by
    rw [← ht, List.getElem?_take, if_pos (by omega), List.getElem?_drop]
    congr 1; omega
  rw [e] at h
  have hm := List.mem_of_getElem? h
  unfold digitChars at hm
  obtain ⟨d, hd, rfl⟩ := List.mem_map.mp hm
  have := padDigits_lt _ _ d hd
  right; right; omega

theorem table_len {i c : Nat} (hi : i % 4 = 0) (h : BIN2CHAR[i]? = some c) : c ≤ 3 ∧ (c ≠ 0 → i < 4000) := by
  have hlt : i < 4001 := by
    rw [← bin2char_len]; exact (List.getElem?_eq_some_iff.mp h).1
  by_cases h4 : i = 4000
  · subst h4
    have : BIN2CHAR[4000]? = some 0 := by
      rw [bin2char_eq, List.getElem?_append_right (by rw [flatMap_entry_len])]
      rw [flatMap_entry_len]; rfl
    rw [this] at h
    simp only [Option.some.injEq] at h
    omega
  · have ht := (bin2char_table (v := i / 4) (by omega)).2
    rw [show 4 * (i / 4) = i by omega, h] at ht
    simp only [Option.some.injEq] at ht
    rw [ht]
    constructor
    · split_ifs <;> omega
    · omega

theorem slice_digits {a b : Int} {s : List Nat} (h : (slice BIN2CHAR a b : Out σ _) = .ok s) (h1 : a % 4 ≠ 0)
    (h2 : b ≤ a - a % 4 + 4) : ∀ c ∈ s, TextByte c := by
  unfold slice at h
  split_ifs at h with h0
  injection h with h
  subst h
  intro c hc
  obtain ⟨i, hi⟩ := List.mem_iff_getElem?.mp hc
  rw [List.getElem?_take] at hi
  split_ifs at hi with hb
  rw [List.getElem?_drop] at hi
  exact table_digit (by omega) hi

/-- All bytes of a buffer may be written. -/
def TextBuf (buf : List Nat) : Prop := ∀ c ∈ buf, TextByte c
theorem TextBuf.append {a b : List Nat} (ha : TextBuf a) (hb : TextBuf b) : TextBuf (a ++ b) := by
  intro c hc; rcases List.mem_append.mp hc with h | h
  · exact ha c h
  · exact hb c h
theorem TextBuf.zeros (n : Nat) : TextBuf (List.replicate n 48) := by
  intro c hc; rw [List.mem_replicate] at hc; rw [hc.2]; right; right; omega
theorem TextBuf.one {c : Nat} (h : TextByte c) : TextBuf [c] := by intro x hx; simp at hx; rw [hx]; exact h
theorem TextBuf.zero : TextBuf [48] := TextBuf.one (Or.inr (Or.inr (by omega)))
theorem TextBuf.dot : TextBuf [46] := TextBuf.one (Or.inr (Or.inl rfl))
theorem TextBuf.minus : TextBuf [45] := TextBuf.one (Or.inl rfl)

theorem idx_result {α : Type} {l : List α} {i : Int} {v : α} (h : (idx l i : Out σ α) = .ok v) :
    0 ≤ i ∧ l[i.toNat]? = some v := by
  unfold idx at h
  split_ifs at h with h0
  cases hh : l[i.toNat]? with
  | none => rw [hh] at h; simp at h
  | some w => rw [hh] at h; injection h with h; subst h; exact ⟨h0, rfl⟩

theorem d3_text {v : Int} {buf : List Nat} {e : Bool} {r : List Nat × Bool} (hb : TextBuf buf)
    (h : (d3ToStr m v buf e : Out σ _) = .ok r) : TextBuf r.1 := by
  unfold d3ToStr at h
  dsimp only at h
  obtain ⟨v4, h4, h⟩ := bind_eq_ok.mp h
  have h4 := usz_result h4
  cases e
  · rw [if_pos (show (!false) = true from rfl)] at h
    obtain ⟨a, ha, h⟩ := bind_eq_ok.mp h
    obtain ⟨b, hb', h⟩ := bind_eq_ok.mp h
    obtain ⟨s, hs, h⟩ := bind_eq_ok.mp h
    have ha := usz_result ha
    have hb' := usz_result hb'
    injection h with h; subst h
    refine hb.append (slice_digits hs ?_ ?_) <;> omega
  · rw [if_neg (by decide)] at h
    obtain ⟨cl, hc, h⟩ := bind_eq_ok.mp h
    obtain ⟨h0, hc⟩ := idx_result hc
    by_cases hp : cl > 0
    · rw [if_pos hp] at h
      obtain ⟨x, hx, h⟩ := bind_eq_ok.mp h
      obtain ⟨a, ha, h⟩ := bind_eq_ok.mp h
      obtain ⟨b, hb', h⟩ := bind_eq_ok.mp h
      obtain ⟨s, hs, h⟩ := bind_eq_ok.mp h
      have hx := usz_result hx
      have ha := usz_result ha
      have hb' := usz_result hb'
      have hl := table_len (by omega) hc
      injection h with h; subst h
      refine hb.append (slice_digits hs ?_ ?_) <;> omega
    · rw [if_neg hp] at h
      injection h with h; subst h; exact hb

theorem intgBlk_text {unit u : Int} {buf : List Nat} {e : Bool} {r : Int × List Nat × Bool} (hb : TextBuf buf)
    (h : (intgBlk m unit u buf e : Out σ _) = .ok r) : TextBuf r.2.1 := by
  unfold intgBlk at h
  split_ifs at h
  · obtain ⟨x, hx, h⟩ := bind_eq_ok.mp h
    dsimp only at h
    obtain ⟨w, _, h⟩ := bind_eq_ok.mp h
    obtain ⟨u', _, h⟩ := bind_eq_ok.mp h
    injection h with h; subst h; exact d3_text hb hx
  · obtain ⟨x, hx, h⟩ := bind_eq_ok.mp h
    injection h with h; subst h; exact d3_text hb hx

theorem intgUnit_text {u : Int} {buf : List Nat} {e : Bool} {r : List Nat × Bool} (hb : TextBuf buf)
    (h : (intgUnitStr m u buf e : Out σ _) = .ok r) : TextBuf r.1 := by
  rw [intgUnitStr_eq] at h
  obtain ⟨x, hx, h⟩ := bind_eq_ok.mp h
  obtain ⟨y, hy, h⟩ := bind_eq_ok.mp h
  exact d3_text (intgBlk_text (intgBlk_text hb hx) hy) h

theorem intgLoop_text {lsu : List Int} {fu : Int} {n : Nat} : ∀ {buf : List Nat} {e : Bool} {r : List Nat × Bool},
    TextBuf buf → (intgStrLoop m lsu fu n buf e : Out σ _) = .ok r → TextBuf r.1 := by
  induction n with
  | zero => intro buf e r hb h; rw [intgStrLoop] at h; injection h with h; subst h; exact hb
  | succ n ih =>
    intro buf e r hb h
    unfold intgStrLoop at h
    obtain ⟨u, _, h⟩ := bind_eq_ok.mp h
    split_ifs at h
    · exact ih hb h
    · obtain ⟨x, hx, h⟩ := bind_eq_ok.mp h
      exact ih (intgUnit_text hb hx) h

theorem fracGroup_text {v F : Int} (hF : -128 ≤ F ∧ F < 128) {buf : List Nat} {r : List Nat × Int × Bool} (hb : TextBuf buf)
    (h : (fracGroup m v buf F : Out σ _) = .ok r) : TextBuf r.1 ∧ -128 ≤ r.2.1 ∧ r.2.1 < 128 := by
  unfold fracGroup at h
  obtain ⟨v4, h4, h⟩ := bind_eq_ok.mp h
  obtain ⟨a, ha, h⟩ := bind_eq_ok.mp h
  have h4 := usz_result h4
  have ha := usz_result ha
  by_cases h3 : F < 3
  · rw [if_pos h3] at h
    obtain ⟨b, hb', h⟩ := bind_eq_ok.mp h
    obtain ⟨s, hs, h⟩ := bind_eq_ok.mp h
    have hb' := usz_result hb'
    injection h with h; subst h
    have hr : 0 ≤ a ∧ a ≤ b ∧ b ≤ 4001 := by
      unfold slice at hs
      split_ifs at hs with h0
      rw [bin2char_len] at h0; exact h0
    refine ⟨hb.append (slice_digits hs ?_ ?_), hF⟩ <;> omega
  · rw [if_neg h3] at h
    obtain ⟨b, hb', h⟩ := bind_eq_ok.mp h
    obtain ⟨s, hs, h⟩ := bind_eq_ok.mp h
    obtain ⟨fd, hfd, h⟩ := bind_eq_ok.mp h
    have hb' := usz_result hb'
    injection h with h; subst h
    refine ⟨hb.append (slice_digits hs ?_ ?_), i8_result hfd⟩ <;> omega

theorem fracGroupZero_text {F : Int} (hF : -128 ≤ F ∧ F < 128) {buf : List Nat} {r : List Nat × Int × Bool} (hb : TextBuf buf)
    (h : (fracGroupZero m buf F : Out σ _) = .ok r) : TextBuf r.1 ∧ -128 ≤ r.2.1 ∧ r.2.1 < 128 := by
  unfold fracGroupZero at h
  by_cases h3 : F < 3
  · rw [if_pos h3] at h
    injection h with h; subst h
    exact ⟨hb.append (TextBuf.zeros _), hF⟩
  · rw [if_neg h3] at h
    obtain ⟨fd, hfd, h⟩ := bind_eq_ok.mp h
    injection h with h; subst h
    exact ⟨hb.append (TextBuf.zeros 3), i8_result hfd⟩

theorem fracBlk_text {unit u F : Int} (hF : -128 ≤ F ∧ F < 128) {buf : List Nat} {r : Int × List Nat × Int × Bool}
    (hb : TextBuf buf) (h : (fracBlk m unit u buf F : Out σ _) = .ok r) :
    TextBuf r.2.1 ∧ -128 ≤ r.2.2.1 ∧ r.2.2.1 < 128 := by
  unfold fracBlk at h
  by_cases hu : u ≥ unit
  · rw [if_pos hu] at h
    obtain ⟨x, hx, h⟩ := bind_eq_ok.mp h
    have := fracGroup_text hF hb hx
    dsimp only at h
    split_ifs at h
    · injection h with h; subst h; exact this
    · obtain ⟨w, _, h⟩ := bind_eq_ok.mp h
      obtain ⟨u', _, h⟩ := bind_eq_ok.mp h
      injection h with h; subst h; exact this
  · rw [if_neg hu] at h
    obtain ⟨x, hx, h⟩ := bind_eq_ok.mp h
    have := fracGroupZero_text hF hb hx
    injection h with h; subst h; exact this

theorem appendFrac_text {lsu : List Int} {n : Nat} : ∀ {buf r : List Nat} {F : Int}, -128 ≤ F ∧ F < 128 → TextBuf buf →
    (appendFrac m lsu n buf F : Out σ _) = .ok r → TextBuf r := by
  induction n with
  | zero => intro buf r F _ hb h; rw [appendFrac] at h; injection h with h; subst h; exact hb
  | succ n ih =>
    intro buf r F hF hb h
    rw [appendFrac_eq] at h
    by_cases h0 : F = 0
    · rw [if_pos h0] at h; injection h with h; subst h; exact hb
    rw [if_neg h0] at h
    obtain ⟨u, _, h⟩ := bind_eq_ok.mp h
    by_cases hu : u = 0
    · rw [if_pos hu] at h
      by_cases h9 : F > DIGITS_PER_UNIT
      · rw [if_pos h9] at h
        obtain ⟨fd, hfd, h⟩ := bind_eq_ok.mp h
        exact ih (i8_result hfd) (hb.append (TextBuf.zeros 9)) h
      · rw [if_neg h9] at h
        injection h with h; subst h; exact hb.append (TextBuf.zeros _)
    rw [if_neg hu] at h
    obtain ⟨x, hx, h⟩ := bind_eq_ok.mp h
    have tx := fracBlk_text hF hb hx
    by_cases r1 : x.2.2.2 = true
    · rw [if_pos r1] at h; injection h with h; subst h; exact tx.1
    rw [if_neg r1] at h
    obtain ⟨y, hy, h⟩ := bind_eq_ok.mp h
    have ty := fracBlk_text tx.2 tx.1 hy
    by_cases r2 : y.2.2.2 = true
    · rw [if_pos r2] at h; injection h with h; subst h; exact ty.1
    rw [if_neg r2] at h
    obtain ⟨z, hz, h⟩ := bind_eq_ok.mp h
    have tz := fracGroup_text ty.2 ty.1 hz
    by_cases r3 : z.2.2 = true
    · rw [if_pos r3] at h; injection h with h; subst h; exact tz.1
    rw [if_neg r3] at h
    exact ih tz.2 tz.1 h

theorem wrap8_result (x : Int) : -128 ≤ wrap 8 x ∧ wrap 8 x < 128 := by
  unfold wrap
  have h1 := Int.le_bmod (x := x) (m := 2 ^ 8) (by norm_num)
  have h2 := Int.bmod_lt (x := x) (m := 2 ^ 8) (by norm_num)
  norm_num at h1 h2 ⊢
  omega

/-- Whatever the state of the decimal (`frac` is an `i8`), what is written is digits, `-` and `.`. -/
theorem append_text {d : FixedDecimal} (hd : -128 ≤ d.frac ∧ d.frac < 128) {buf r : List Nat} {f : Int} (hb : TextBuf buf)
    (h : (FixedDecimal.appendStrBuf m d buf f : Out σ _) = .ok r) : TextBuf r := by
  unfold FixedDecimal.appendStrBuf at h
  dsimp only at h
  have hb0 : TextBuf (if d.isNeg = true then buf ++ [45] else buf) := by
    split_ifs
    · exact hb.append TextBuf.minus
    · exact hb
  generalize (if d.isNeg = true then buf ++ [45] else buf) = buf0 at h hb0
  obtain ⟨iu, _, h⟩ := bind_eq_ok.mp h
  obtain ⟨fu, _, h⟩ := bind_eq_ok.mp h
  obtain ⟨b1, h1, h⟩ := bind_eq_ok.mp h
  have hb1 : TextBuf b1 := by
    split_ifs at h1
    · obtain ⟨x, hx, h1⟩ := bind_eq_ok.mp h1
      injection h1 with h1; subst h1
      have := intgLoop_text hb0 hx
      split_ifs
      · exact this.append TextBuf.zero
      · exact this
    · injection h1 with h1; subst h1; exact hb0.append TextBuf.zero
  have hdot := hb1.append TextBuf.dot
  split_ifs at h
  · injection h with h; subst h; exact hb1
  · exact appendFrac_text hd hdot h
  · injection h with h; subst h; exact hb1
  · injection h with h; subst h; exact hdot.append (TextBuf.zeros _)
  · exact appendFrac_text (wrap8_result _) hdot h
  · obtain ⟨b2, h2, h⟩ := bind_eq_ok.mp h
    injection h with h; subst h
    exact (appendFrac_text (wrap8_result _) hdot h2).append (TextBuf.zeros _)

end Fxd
