import Verif.Props.Laws
import Verif.Props.TextSize
import Verif.Props.RoundingModes
import Verif.Props.Moving
/-!
# Property C127: columns of a fixed precision and scale

A column `DECIMAL(p, s)` holds numbers of `s` digits after the point and at most `p - s` before it.  A value is stored by rounding it to
`s` digits and comparing the magnitude with `10^(p - s)`.
-/

namespace Fxd
open Spec

namespace Props
variable {m : Mode}

/-- Storing a value: `let mut r = FixedDecimal::zero(); x.round_to(&mut r, s); let mut a = r.clone(); a.set_pos(); if a < limit { Some(r) }
else { None }`, where `limit` is `10^(p - s)`. -/
def store (m : Mode) (limit : FixedDecimal) (s : Nat) (x : FixedDecimal) : Out Empty (Option FixedDecimal) := do
  let r ← x.roundTo m FixedDecimal.zero s
  let fits ← FixedDecimal.lt m r.setPos limit
  return if fits then some r else none

/-- What is stored: the number rounded to `s` digits, halves away from zero. -/
def stored (s : Nat) (v : ℚ) : ℚ := (halfAway (v * 10 ^ s) : ℚ) / 10 ^ s

theorem lt_magnitude {limit r : FixedDecimal} (hl : WF limit) (hp : 0 < val limit) (hr : WF r) :
    (FixedDecimal.lt m r.setPos limit : Out Empty Bool) = .ok (decide (|val r| < val limit)) := by
  unfold FixedDecimal.lt
  rw [C16_cmp_numeric m (wf_setPos.mpr hr) hl (fun h => hp.ne' h.2), val_setPos, ← abs_val hr, ok_bind]
  by_cases h : |val r| < val limit
  · rw [compare_lt_iff_lt.mpr h, decide_eq_true h]; rfl
  · rw [decide_eq_false h]
    have : compare |val r| (val limit) ≠ .lt := fun h' => h (compare_lt_iff_lt.mp h')
    revert this
    cases compare |val r| (val limit) <;> intro h
    · exact absurd rfl h
    · rfl
    · rfl

theorem store_eq {limit x r : FixedDecimal} (hl : WF limit) (hp : 0 < val limit) (hx : Tight x) {s : Nat} (hs : s ≤ 127)
    (h : (x.roundTo m FixedDecimal.zero s : Out Empty _) = .ok r) :
    store m limit s x = .ok (if |val r| < val limit then some r else none) := by
  obtain ⟨-, -, -, ht⟩ := round_to_uniform m hx rfl hs h
  unfold store
  rw [h, ok_bind, lt_magnitude hl hp ht.toWF, ok_bind]
  by_cases c : |val r| < val limit
  · rw [if_pos c, decide_eq_true c]; rfl
  · rw [if_neg c, decide_eq_false c]; rfl

/-- If storing gives an answer, the rounding did. -/
theorem store_round {limit x : FixedDecimal} {s : Nat} {o : Option FixedDecimal} (h : store m limit s x = .ok o) :
    ∃ r, (x.roundTo m FixedDecimal.zero s : Out Empty _) = .ok r := by
  unfold store at h
  obtain ⟨r, h1, -⟩ := bind_eq_ok.mp h
  exact ⟨r, h1⟩

/-- **C127** What is stored, and what is refused: the number rounded to `s` digits, with that scale, below the limit, the sign kept;
refused is exactly a number whose rounded value is too large. -/
theorem C127_store {limit x : FixedDecimal} (hl : WF limit) {w : Nat} (hw : val limit = 10 ^ w) (hx : Tight x) {s : Nat} (hs : s ≤ 127)
    {o : Option FixedDecimal} (h : store m limit s x = .ok o) :
    (o = none ↔ 10 ^ w ≤ |stored s (val x)|) ∧
    ∀ r, o = some r → val r = stored s (val x) ∧ |val r| < 10 ^ w ∧ r.frac = s ∧ neg r = neg x ∧ Tight r := by
  have hp : 0 < val limit := by rw [hw]; positivity
  obtain ⟨r, hr⟩ := store_round h
  obtain ⟨h1, h2, h3, h4⟩ := round_to_uniform m hx rfl hs hr
  rw [store_eq hl hp hx hs hr, hw] at h
  injection h with h
  have h1' : val r = stored s (val x) := h1
  by_cases c : |val r| < 10 ^ w
  · rw [if_pos c] at h; subst h
    refine ⟨⟨fun h => (by cases h), fun h => ?_⟩, fun r' h => ?_⟩
    · rw [← h1'] at h; exact absurd c (not_lt.mpr h)
    · injection h with h; subst h; exact ⟨h1', c, h2, h3, h4⟩
  · rw [if_neg c] at h; subst h
    exact ⟨⟨fun _ => by rw [← h1']; exact not_lt.mp c, fun _ => rfl⟩, fun r' h => by cases h⟩

/-- **C127** Storing fails (by a panic) for no value that leaves room for the rounded number: integral units and the units `s` digits take
together at most eight. -/
theorem C127_total {limit x : FixedDecimal} (hl : WF limit) {w : Nat} (hw : val limit = 10 ^ w) (hx : Tight x) {s : Nat} (hs : s ≤ 127)
    (hroom : iu x + unitsFor s ≤ 8) : ∃ o, store m limit s x = .ok o := by
  have hp : 0 < val limit := by rw [hw]; positivity
  have : ∃ r, (x.roundTo m FixedDecimal.zero s : Out Empty _) = .ok r := by
    by_cases hk : s < fracDigits x
    · exact ((C39_ok_iff m hx.toWF rfl hk).1).mpr (Or.inl hroom)
    · obtain ⟨r, h, -⟩ := C40_extend (σ := Empty) m (res := FixedDecimal.zero) hx.toWF rfl (k := s) (by omega) (by omega)
      exact ⟨r, h⟩
  obtain ⟨r, hr⟩ := this
  exact ⟨_, store_eq hl hp hx hs hr⟩

/-- **C127** Exactly when storing gives an answer: a number with more than `s` digits must leave a unit free or not need it (the rounded
number has no digit more than the units hold), any other must have room for `s` digits. -/
theorem C127_answers_iff {limit x : FixedDecimal} (hl : WF limit) {w : Nat} (hw : val limit = 10 ^ w) (hx : Tight x) {s : Nat}
    (hs : s ≤ 127) : (∃ o, store m limit s x = .ok o) ↔
      if s < fracDigits x then iu x + unitsFor s ≤ 8 ∨ |stored s (val x)| < 10 ^ (9 * iu x) else iu x + unitsFor s ≤ 9 := by
  have hp : 0 < val limit := by rw [hw]; positivity
  have e : (∃ o, store m limit s x = .ok o) ↔ ∃ r, (x.roundTo m FixedDecimal.zero s : Out Empty _) = .ok r :=
    ⟨fun ⟨_, h⟩ => store_round h, fun ⟨_, h⟩ => ⟨_, store_eq hl hp hx hs h⟩⟩
  rw [e]
  by_cases hk : s < fracDigits x
  · rw [if_pos hk]; exact (C39_ok_iff m hx.toWF rfl hk).1
  · rw [if_neg hk]
    constructor
    · rintro ⟨r, h⟩
      by_contra h9
      obtain ⟨p, h'⟩ := C40_panic (σ := Empty) m (res := FixedDecimal.zero) hx.toWF rfl (k := s) (by omega) (by omega) hs
      rw [h'] at h; cases h
    · intro h9
      obtain ⟨r, h, -⟩ := C40_extend (σ := Empty) m (res := FixedDecimal.zero) hx.toWF rfl (k := s) (by omega) h9
      exact ⟨r, h⟩

/-- **C127** A value read from the column is stored again as it is, field by field. -/
theorem C127_again {limit x r : FixedDecimal} (hl : WF limit) {w : Nat} (hw : val limit = 10 ^ w) (hx : Tight x) {s : Nat} (hs : s ≤ 127)
    (h : store m limit s x = .ok (some r)) : store m limit s r = .ok (some r) := by
  have hp : 0 < val limit := by rw [hw]; positivity
  obtain ⟨-, k⟩ := C127_store hl hw hx hs h
  obtain ⟨-, h2, -, -, h5⟩ := k r rfl
  obtain ⟨r', hr⟩ := store_round h
  have e := store_eq hl hp hx hs hr
  rw [h] at e
  injection e with e
  split_ifs at e with c
  injection e with e
  subst e
  rw [store_eq hl hp h5 hs (C43_idempotent m hx.toWF rfl rfl hs hr), if_pos c]

/-- **C127** The order is kept, and what lies between two storable values is storable. -/
theorem C127_monotone {limit x y z rx rz : FixedDecimal} (hl : WF limit) {w : Nat} (hw : val limit = 10 ^ w) (hx : Tight x) (hy : Tight y)
    (hz : Tight z) {s : Nat} (hs : s ≤ 127) (hxy : val x ≤ val y) (hyz : val y ≤ val z) (h1 : store m limit s x = .ok (some rx))
    (h3 : store m limit s z = .ok (some rz)) {o : Option FixedDecimal} (h2 : store m limit s y = .ok o) :
    ∃ ry, o = some ry ∧ val rx ≤ val ry ∧ val ry ≤ val rz := by
  obtain ⟨a1, a2, -⟩ := (C127_store hl hw hx hs h1).2 rx rfl
  obtain ⟨c1, c2, -⟩ := (C127_store hl hw hz hs h3).2 rz rfl
  obtain ⟨b1, b2⟩ := C127_store hl hw hy hs h2
  have mono : ∀ {u v : ℚ}, u ≤ v → stored s u ≤ stored s v := by
    intro u v huv
    unfold stored
    have hp : (0 : ℚ) < 10 ^ s := by positivity
    exact div_le_div_of_nonneg_right (by exact_mod_cast halfAway_mono (mul_le_mul_of_nonneg_right huv hp.le)) hp.le
  have lo := mono hxy
  have hi := mono hyz
  rw [← a1] at lo
  rw [← c1] at hi
  cases o with
  | none =>
    have := b1.mp rfl
    rw [abs_lt] at a2 c2
    have : |stored s (val y)| < 10 ^ w := by rw [abs_lt]; constructor <;> linarith
    linarith
  | some ry =>
    obtain ⟨e, -⟩ := b2 ry rfl
    exact ⟨ry, rfl, by rw [e]; exact lo, by rw [e]; exact hi⟩

/-- **C127** A number the column can hold - at most `s` digits after the point, below the limit - is stored unchanged. -/
theorem C127_exact {limit x : FixedDecimal} (hl : WF limit) {w : Nat} (hw : val limit = 10 ^ w) (hx : Tight x) {s : Nat} (hs : s ≤ 127)
    (hf : fracDigits x ≤ s) (hv : |val x| < 10 ^ w) {o : Option FixedDecimal} (h : store m limit s x = .ok o) :
    ∃ r, o = some r ∧ val r = val x := by
  have e : stored s (val x) = val x := by
    obtain ⟨n, hn⟩ := val_mul_pow_digits hx hf
    unfold stored
    rw [hn, halfAway_int, ← hn]
    field_simp
  obtain ⟨k1, k2⟩ := C127_store hl hw hx hs h
  rw [e] at k1
  cases o with
  | none => exact absurd (k1.mp rfl) (not_le.mpr hv)
  | some r => exact ⟨r, rfl, by rw [(k2 r rfl).1, e]⟩

/-- **C127** The text of a stored value is written with `s` digits after the point and at most `w` before it, so it fits a field of
`w + s + 2` bytes. -/
theorem C127_text {limit x r : FixedDecimal} (hl : WF limit) {w : Nat} (hw : val limit = 10 ^ w) (hx : Tight x) {s : Nat} (hs : s ≤ 127)
    (h : store m limit s x = .ok (some r)) :
    ∃ t, (FixedDecimal.toStr m r (-1) : Out Empty _) = .ok t ∧
      t.length ≤ (if neg x then 1 else 0) + max 1 w + (if s = 0 then 0 else s + 1) := by
  obtain ⟨-, k⟩ := C127_store hl hw hx hs h
  obtain ⟨-, h2, h3, h4, h5⟩ := k r rfl
  refine ⟨_, toStr_eq h5.toWF (-1), ?_⟩
  have e := C87_length (σ := Empty) m h5.toWF (-1) (toStr_eq h5.toWF (-1))
  have sd : shownDigits r (-1) = s := by
    unfold shownDigits
    rw [if_pos (by norm_num)]
    have := h5.toWF.frac_eq
    omega
  rw [e, sd, h4]
  have hd : (Nat.digits 10 ⌊|val r|⌋.toNat).length ≤ w := by
    rw [Nat.digits_length_le_iff (by norm_num)]
    have f0 : 0 ≤ ⌊|val r|⌋ := Int.floor_nonneg.mpr (abs_nonneg _)
    have f1 : ⌊|val r|⌋ < 10 ^ w := by
      rw [Int.floor_lt]; push_cast; exact h2
    zify
    rw [Int.toNat_of_nonneg f0]
    exact f1
  omega

theorem decText_digits (ng : Bool) (N k : Nat) :
    ((decText ng N k).filter fun c => 48 ≤ c && c ≤ 57).length ≤ max 1 (Nat.digits 10 (N / 10 ^ k)).length + k := by
  unfold decText decNumeral Numeral.render
  have hs : ((if ng then Sign.minus else Sign.none).render.filter fun c => 48 ≤ c && c ≤ 57) = [] := by cases ng <;> rfl
  have h1 := List.length_filter_le (fun c => 48 ≤ c && c ≤ 57) (digitChars (natDigits (N / 10 ^ k)))
  have e1 : (digitChars (natDigits (N / 10 ^ k))).length = max 1 (Nat.digits 10 (N / 10 ^ k)).length := by
    unfold digitChars; rw [List.length_map, natDigits_len]
  by_cases hk : k = 0
  · simp only [hk, if_pos, List.filter_append, hs, List.length_append, List.length_nil, List.filter_nil]
    subst hk
    omega
  · have h2 := List.length_filter_le (fun c => 48 ≤ c && c ≤ 57) (digitChars (padDigits k (N % 10 ^ k)))
    have e2 : (digitChars (padDigits k (N % 10 ^ k))).length = k := by
      unfold digitChars; rw [List.length_map, padDigits_length]
    have h3 : ((46 :: digitChars (padDigits k (N % 10 ^ k))).filter fun c => 48 ≤ c && c ≤ 57) =
        (digitChars (padDigits k (N % 10 ^ k))).filter fun c => 48 ≤ c && c ≤ 57 := List.filter_cons_of_neg (by decide)
    simp only [hk, if_false, List.filter_append, hs, h3, List.length_append, List.length_nil, List.filter_nil]
    omega

/-- **C127** A column of at most 65 digits can be written out and read in again: the text of a stored value is read as the same number
with the same scale and sign, storing what was read succeeds, and the text of what is then stored is the same, byte for byte. -/
theorem C127_reload {limit x r : FixedDecimal} (hl : WF limit) {w : Nat} (hw : val limit = 10 ^ w) (hx : Tight x) {s : Nat}
    (h65 : max 1 w + s ≤ 65) (h : store m limit s x = .ok (some r)) {t : List Nat}
    (ht : (FixedDecimal.toStr m r (-1) : Out Empty _) = .ok t) :
    ∃ r' r2, FixedDecimal.fromStr m t = .ok r' ∧ val r' = val r ∧ store m limit s r' = .ok (some r2) ∧ val r2 = val r ∧
      (FixedDecimal.toStr m r2 (-1) : Out Empty _) = .ok t := by
  have hp : 0 < val limit := by rw [hw]; positivity
  have hs : s ≤ 127 := by omega
  obtain ⟨-, k⟩ := C127_store hl hw hx hs h
  obtain ⟨-, h2, h3, -, h5⟩ := k r rfl
  have hfd : fracDigits r = s := by have := h5.toWF.frac_eq; omega
  have sd : shownDigits r (-1) = s := by
    unfold shownDigits
    rw [if_pos (by norm_num), hfd]
  have hd : (Nat.digits 10 ⌊|val r|⌋.toNat).length ≤ w := by
    rw [Nat.digits_length_le_iff (by norm_num)]
    have f0 : 0 ≤ ⌊|val r|⌋ := Int.floor_nonneg.mpr (abs_nonneg _)
    have f1 : ⌊|val r|⌋ < 10 ^ w := by
      rw [Int.floor_lt]; push_cast; exact h2
    zify
    rw [Int.toNat_of_nonneg f0]
    exact f1
  have hdig : (t.filter fun c => 48 ≤ c && c ≤ 57).length ≤ 65 := by
    have e := ht
    rw [toStr_eq h5.toWF] at e
    injection e with e
    rw [← e, sd]
    have := decText_digits (neg r) (cut (val r) s) s
    rw [cut_div] at this
    omega
  obtain ⟨r', p1, p2, p3, p4, p5⟩ := C15_roundtrip (σ := Empty) m h5 (by norm_num) ht hdig
  have hfd' : fracDigits r' = s := by rw [p4, hfd]
  obtain ⟨r2, q1, q2, q3, -, -, q6⟩ := C40_extend (σ := Empty) m (res := FixedDecimal.zero) p5.toWF rfl (k := s) (by omega)
    (by have := p5.toWF.fits; unfold fu at this; rw [hfd'] at this; exact this)
  have st := store_eq hl hp p5 hs q1
  rw [q2, p2, hw, if_pos h2] at st
  obtain ⟨-, -, q4, q5⟩ := round_to_uniform m p5 rfl hs q1
  refine ⟨r', r2, p1, p2, st, by rw [q2, p2], ?_⟩
  rw [← ht]
  exact (C69_text_iff m q5 h5 (by norm_num) (by norm_num)).mpr ⟨by rw [q4, p3], by rw [q2, p2], by rw [q3, h3]⟩

/-- **C127** non-vacuity, `DECIMAL(14, 2)`: the limit is the decimal read from `1` and twelve zeros; `123456789012.345` is stored as
`123456789012.35`, `999999999999.995` is refused, and storing `-7.50` keeps it. -/
theorem C127_witness :
    ∃ limit big r, FixedDecimal.fromStr m (Samples.bytes "1000000000000") = .ok limit ∧ WF limit ∧ val limit = 10 ^ 12 ∧
      FixedDecimal.fromStr m (Samples.bytes "999999999999.995") = .ok big ∧ Tight big ∧
      store m limit 2 big = .ok none ∧ store m limit 2 Samples.a = .ok (some r) ∧ iu Samples.a + unitsFor 2 ≤ 8 ∧
      (FixedDecimal.toStr m r (-1) : Out Empty _) = .ok (Samples.bytes "123456789012.35") ∧
      ∃ r', store m limit 2 Samples.c = .ok (some r') ∧ val r' = val Samples.c := by
  refine ⟨⟨13#8, 0, [0, 1000, 0, 0, 0, 0, 0, 0, 0]⟩, ⟨12#8, 3, [995000000, 999999999, 999, 0, 0, 0, 0, 0, 0]⟩,
    ⟨18#8, 2, [350000000, 456789012, 123, 0, 0, 0, 0, 0, 0]⟩, by cases m <;> decide +kernel, by decide +kernel, ?_,
    by cases m <;> decide +kernel, by decide +kernel, by cases m <;> decide +kernel, by cases m <;> decide +kernel, by decide,
    by cases m <;> decide +kernel, ?_⟩
  · have h : mant ⟨13#8, 0, [0, 1000, 0, 0, 0, 0, 0, 0, 0]⟩ = 1000000000000 := by decide
    have h2 : neg ⟨13#8, 0, [0, 1000, 0, 0, 0, 0, 0, 0, 0]⟩ = false := by decide
    have h3 : fu ⟨13#8, 0, [0, 1000, 0, 0, 0, 0, 0, 0, 0]⟩ = 0 := by decide
    simp only [val, absVal, h, h2, h3]; norm_num
  · have hw : val ⟨13#8, 0, [0, 1000, 0, 0, 0, 0, 0, 0, 0]⟩ = 10 ^ 12 := by
      have h : mant ⟨13#8, 0, [0, 1000, 0, 0, 0, 0, 0, 0, 0]⟩ = 1000000000000 := by decide
      have h2 : neg ⟨13#8, 0, [0, 1000, 0, 0, 0, 0, 0, 0, 0]⟩ = false := by decide
      have h3 : fu ⟨13#8, 0, [0, 1000, 0, 0, 0, 0, 0, 0, 0]⟩ = 0 := by decide
      simp only [val, absVal, h, h2, h3]; norm_num
    have hl : WF ⟨13#8, 0, [0, 1000, 0, 0, 0, 0, 0, 0, 0]⟩ := by decide +kernel
    obtain ⟨o, ho⟩ := C127_total (m := m) hl hw Samples.c_tight (s := 2) (by norm_num) (by decide)
    obtain ⟨r', rfl, e⟩ := C127_exact hl hw Samples.c_tight (s := 2) (by norm_num) (by decide)
      (by rw [Samples.val_c, abs_lt]; constructor <;> norm_num) ho
    exact ⟨r', ho, e⟩

/-! ## C128: totals of a column -/

/-- The total of a column: `for r in rows { t = &t + r; }`. -/
def columnSum (m : Mode) : FixedDecimal → List FixedDecimal → Out Empty FixedDecimal
  | t, [] => .ok t
  | t, r :: rows => do
    let t' ← FixedDecimal.add m t r
    columnSum m t' rows

theorem add_scale {a b t : FixedDecimal} {s : Nat} (ha : WF a) (hb : WF b) (fa : fracDigits a ≤ s) (fb : fracDigits b ≤ s)
    (h : FixedDecimal.add m a b = .ok t) : fracDigits t ≤ s := by
  have h1 := add_ok_iff.mp h
  have hr := addTo_res ha hb rfl h1
  by_cases va : val a = 0
  · have := (isZero_val ha).mpr va
    unfold FixedDecimal.addTo at h1; rw [if_pos this] at h1; injection h1 with h1; rw [← h1]; exact fb
  · by_cases vb : val b = 0
    · have zb := (isZero_val hb).mpr vb
      have za : a.isZero = false := by rw [← Bool.not_eq_true, isZero_val ha]; exact va
      unfold FixedDecimal.addTo at h1
      simp only [za, zb, Bool.false_eq_true, if_false, if_true] at h1
      injection h1 with h1; rw [← h1]; exact fa
    · have e := hr.scale va vb
      have := ha.frac_eq; have := hb.frac_eq; have := hr.wf.frac_eq
      omega

theorem columnSum_total {I F : Nat} (hIF : I + F ≤ 8) {s : Nat} {B : ℚ} (hB0 : 0 ≤ B) : ∀ (rows : List FixedDecimal) (t : FixedDecimal),
    Within I F t → Tight t → fracDigits t ≤ s → (∀ r ∈ rows, Within I F r ∧ Tight r ∧ fracDigits r ≤ s ∧ |val r| ≤ B) →
    |val t| + rows.length * B < 10 ^ (9 * I) →
    ∃ u, columnSum m t rows = .ok u ∧ Within I F u ∧ Tight u ∧ fracDigits u ≤ s ∧ val u = val t + (rows.map val).sum
  | [], t, ht, tt, ft, _, _ => ⟨t, by unfold columnSum; rfl, ht, tt, ft, by simp⟩
  | r :: rows, t, ht, tt, ft, hr, hb => by
    obtain ⟨r1, r2, r3, r4⟩ := hr r (by simp)
    rw [List.length_cons] at hb
    push_cast at hb
    have a := abs_add_le (val t) (val r)
    have n : 0 ≤ (rows.length : ℚ) * B := by positivity
    obtain ⟨t', h1, w1, v1⟩ := add_within (m := m) hIF ht r1 (by linarith)
    have hs := addTo_res ht.wf r1.wf rfl (add_ok_iff.mp h1)
    obtain ⟨u, h2, h3, h4, h5, h6⟩ := columnSum_total hIF hB0 rows t' w1 (hs.tight tt r2) (add_scale ht.wf r1.wf ft r3 h1)
      (fun x hx => hr x (by simp [hx])) (by rw [v1]; linarith)
    refine ⟨u, by unfold columnSum; rw [h1, ok_bind, h2], h3, h4, h5, ?_⟩
    rw [h6, v1, List.map_cons, List.sum_cons]
    ring

/-- **C128** The total of a column of at most `10^e` rows, each stored in a column of `w` digits before and `s` after the point, is computed
without failing and fits a column with `e` more digits: storing it there succeeds and changes nothing. -/
theorem C128_total {limit limit' : FixedDecimal} (hl : WF limit) {w e : Nat} (hw : val limit = 10 ^ w) (hl' : WF limit')
    (hw' : val limit' = 10 ^ (w + e)) {s I : Nat} (hs : s ≤ 127) (hI1 : 1 ≤ I) (hI : I + unitsFor s ≤ 8) (hwI : w + e ≤ 9 * I)
    {rows : List FixedDecimal} (hn : rows.length ≤ 10 ^ e)
    (hr : ∀ r ∈ rows, iu r ≤ I ∧ ∃ x, Tight x ∧ store m limit s x = .ok (some r)) :
    ∃ t t', columnSum m FixedDecimal.zero rows = .ok t ∧ val t = (rows.map val).sum ∧ store m limit' s t = .ok (some t') ∧
      val t' = (rows.map val).sum := by
  have row : ∀ r ∈ rows, Within I (unitsFor s) r ∧ Tight r ∧ fracDigits r ≤ s ∧ |val r| ≤ 10 ^ w - 1 / 10 ^ s := by
    intro r hm
    obtain ⟨hi, x, hx, h⟩ := hr r hm
    obtain ⟨h1, h2, h3, -, h5⟩ := (C127_store hl hw hx hs h).2 r rfl
    have hf : fracDigits r = s := by have := h5.toWF.frac_eq; omega
    refine ⟨⟨h5.toWF, hi, by unfold fu; rw [hf]⟩, h5, by omega, ?_⟩
    obtain ⟨n, hn⟩ := val_mul_pow_digits h5 (s := s) (by omega)
    have p : (0 : ℚ) < 10 ^ s := by positivity
    have e : val r = n / 10 ^ s := by rw [← hn]; field_simp
    rw [e, abs_div, abs_of_pos p] at h2 ⊢
    rw [div_lt_iff₀ p] at h2
    have h2' : |n| < 10 ^ w * 10 ^ s := by exact_mod_cast h2
    have h2'' : |n| + 1 ≤ (10 : ℤ) ^ w * 10 ^ s := h2'
    have h6 : (|n| : ℚ) + 1 ≤ 10 ^ w * 10 ^ s := by exact_mod_cast h2''
    rw [le_sub_iff_add_le, ← add_div, div_le_iff₀ p]
    exact h6
  have p : (0 : ℚ) < 10 ^ s := by positivity
  have B0 : (0 : ℚ) ≤ 10 ^ w - 1 / 10 ^ s := by
    have h1 : (1 : ℚ) ≤ 10 ^ w := one_le_pow₀ (by norm_num)
    have h2 : (1 : ℚ) / 10 ^ s ≤ 1 := by rw [div_le_one p]; exact one_le_pow₀ (by norm_num)
    linarith
  have lt_w : (rows.length : ℚ) * (10 ^ w - 1 / 10 ^ s) < 10 ^ (w + e) := by
    have c : (rows.length : ℚ) ≤ 10 ^ e := by exact_mod_cast hn
    have q : (0 : ℚ) < 1 / 10 ^ s := by positivity
    have pe : (0 : ℚ) < 10 ^ e := by positivity
    have h1 := mul_le_mul_of_nonneg_right c B0
    have h2 : (10 : ℚ) ^ e * (10 ^ w - 1 / 10 ^ s) < 10 ^ e * 10 ^ w := mul_lt_mul_of_pos_left (by linarith) pe
    rw [pow_add, mul_comm ((10 : ℚ) ^ w)]
    linarith
  have hz : val FixedDecimal.zero = 0 := val_zero
  have big : (10 : ℚ) ^ (w + e) ≤ 10 ^ (9 * I) := pow_le_pow_right₀ (by norm_num) hwI
  have wz : Within I (unitsFor s) FixedDecimal.zero :=
    ⟨by decide, by rw [show iu FixedDecimal.zero = 1 by decide]; exact hI1, by rw [show fu FixedDecimal.zero = 0 by decide]; exact Nat.zero_le _⟩
  obtain ⟨t, h1, h2, h3, h4, h5⟩ := columnSum_total (m := m) hI B0 rows FixedDecimal.zero wz (by decide)
    (by rw [show fracDigits FixedDecimal.zero = 0 by decide]; exact Nat.zero_le _) row (by rw [hz, abs_zero, zero_add]; linarith)
  rw [hz, zero_add] at h5
  have hv : |val t| < 10 ^ (w + e) := by
    rw [h5]
    exact lt_of_le_of_lt (total_le (B := 10 ^ w - 1 / 10 ^ s) (fun x hx => (row x hx).2.2.2)) lt_w
  obtain ⟨o, ho⟩ := C127_total (m := m) hl' hw' h3 hs (by have := h2.intg; omega)
  obtain ⟨t', rfl, h6⟩ := C127_exact hl' hw' h3 hs h4 hv ho
  exact ⟨t, t', h1, h5, ho, by rw [h6, h5]⟩

/-- **C128** non-vacuity: the rows `-7.50` and `123456789012.35` of a `DECIMAL(14, 2)`, totalled into a `DECIMAL(15, 2)`. -/
theorem C128_witness :
    ∃ limit limit' r1 r2, WF limit ∧ val limit = 10 ^ 12 ∧ WF limit' ∧ val limit' = 10 ^ (12 + 1) ∧
      store m limit 2 Samples.c = .ok (some r1) ∧ store m limit 2 Samples.a = .ok (some r2) ∧ iu r1 ≤ 7 ∧ iu r2 ≤ 7 ∧
      7 + unitsFor 2 ≤ 8 ∧ ∃ t t', columnSum m FixedDecimal.zero [r1, r2] = .ok t ∧ store m limit' 2 t = .ok (some t') ∧
        val t' = val r1 + val r2 := by
  have hl : WF ⟨13#8, 0, [0, 1000, 0, 0, 0, 0, 0, 0, 0]⟩ := by decide +kernel
  have hw : val ⟨13#8, 0, [0, 1000, 0, 0, 0, 0, 0, 0, 0]⟩ = 10 ^ 12 := by
    have h : mant ⟨13#8, 0, [0, 1000, 0, 0, 0, 0, 0, 0, 0]⟩ = 1000000000000 := by decide
    have h2 : neg ⟨13#8, 0, [0, 1000, 0, 0, 0, 0, 0, 0, 0]⟩ = false := by decide
    have h3 : fu ⟨13#8, 0, [0, 1000, 0, 0, 0, 0, 0, 0, 0]⟩ = 0 := by decide
    simp only [val, absVal, h, h2, h3]; norm_num
  have hl' : WF ⟨14#8, 0, [0, 10000, 0, 0, 0, 0, 0, 0, 0]⟩ := by decide +kernel
  have hw' : val ⟨14#8, 0, [0, 10000, 0, 0, 0, 0, 0, 0, 0]⟩ = 10 ^ (12 + 1) := by
    have h : mant ⟨14#8, 0, [0, 10000, 0, 0, 0, 0, 0, 0, 0]⟩ = 10000000000000 := by decide
    have h2 : neg ⟨14#8, 0, [0, 10000, 0, 0, 0, 0, 0, 0, 0]⟩ = false := by decide
    have h3 : fu ⟨14#8, 0, [0, 10000, 0, 0, 0, 0, 0, 0, 0]⟩ = 0 := by decide
    simp only [val, absVal, h, h2, h3]; norm_num
  have s1 : store m ⟨13#8, 0, [0, 1000, 0, 0, 0, 0, 0, 0, 0]⟩ 2 Samples.c = .ok (some Samples.c) := by cases m <;> decide +kernel
  have s2 : store m ⟨13#8, 0, [0, 1000, 0, 0, 0, 0, 0, 0, 0]⟩ 2 Samples.a =
      .ok (some ⟨18#8, 2, [350000000, 456789012, 123, 0, 0, 0, 0, 0, 0]⟩) := by cases m <;> decide +kernel
  obtain ⟨t, t', h1, -, h3, h4⟩ := C128_total (m := m) hl (w := 12) (e := 1) hw hl' hw' (s := 2) (I := 7) (by norm_num) (by norm_num)
    (by decide) (by norm_num) (rows := [Samples.c, ⟨18#8, 2, [350000000, 456789012, 123, 0, 0, 0, 0, 0, 0]⟩]) (by decide) (by
      intro r hr
      simp only [List.mem_cons, List.not_mem_nil, or_false] at hr
      rcases hr with rfl | rfl
      · exact ⟨by decide, _, Samples.c_tight, s1⟩
      · exact ⟨by decide, _, Samples.a_tight, s2⟩)
  exact ⟨_, _, _, _, hl, hw, hl', hw', s1, s2, by decide, by decide, by decide, t, t', h1, h3, by rw [h4]; simp⟩

/-! ## C129: products of columns -/

/-- **C129** The product of values of two columns - `w1`, `s1` and `w2`, `s2` digits before and after the point - if it is computed and
nothing is cut off (C27, C56 say when), fits the column with `w1 + w2` and `s1 + s2` digits: storing it there succeeds and changes nothing. -/
theorem C129_product {limit1 limit2 limit : FixedDecimal} (hl1 : WF limit1) (hl2 : WF limit2) (hl : WF limit) {w1 w2 s1 s2 : Nat}
    (hw1 : val limit1 = 10 ^ w1) (hw2 : val limit2 = 10 ^ w2) (hw : val limit = 10 ^ (w1 + w2)) (hs1 : s1 ≤ 127) (hs2 : s2 ≤ 127)
    {x y r1 r2 p : FixedDecimal} (hx : Tight x) (hy : Tight y) (h1 : store m limit1 s1 x = .ok (some r1))
    (h2 : store m limit2 s2 y = .ok (some r2)) (hfull : MulFull r1 r2) (hp : FixedDecimal.mul m r1 r2 = .ok p) :
    ∃ p', store m limit (s1 + s2) p = .ok (some p') ∧ val p' = val r1 * val r2 := by
  obtain ⟨-, b1, c1, -, t1⟩ := (C127_store hl1 hw1 hx hs1 h1).2 r1 rfl
  obtain ⟨-, b2, c2, -, t2⟩ := (C127_store hl2 hw2 hy hs2 h2).2 r2 rfl
  have f1 : fracDigits r1 = s1 := by have := t1.toWF.frac_eq; omega
  have f2 : fracDigits r2 = s2 := by have := t2.toWF.frac_eq; omega
  have h36 : s1 + s2 ≤ 36 := by
    unfold MulFull mulFU unitsFor at hfull
    rw [f1, f2] at hfull
    omega
  have hp' : FixedDecimal.mulTo m r1 r2 FixedDecimal.blank = .ok p := by
    revert hp
    unfold FixedDecimal.mul
    cases FixedDecimal.mulTo m r1 r2 FixedDecimal.blank <;> simp [FixedDecimal.orPanic]
  obtain ⟨v, tp, fp⟩ := C27_mul_exact m t1 t2 rfl hfull hp'
  have bound : |val p| < 10 ^ (w1 + w2) := by
    rw [v, abs_mul, pow_add]
    exact mul_lt_mul'' b1 b2 (abs_nonneg _) (abs_nonneg _)
  have shape : fracDigits p ≤ s1 + s2 ∧ iu p + unitsFor (s1 + s2) ≤ 9 := by
    by_cases z : val r1 = 0 ∨ val r2 = 0
    · have hz : (r1.isZero || r2.isZero) = true := by
        rcases z with z | z
        · rw [(isZero_val t1.toWF).mpr z]; rfl
        · rw [(isZero_val t2.toWF).mpr z, Bool.or_true]
      unfold FixedDecimal.mulTo at hp'
      rw [if_pos hz] at hp'
      injection hp' with hp'
      have e1 : fracDigits p = 0 := by rw [← hp']; decide
      have e2 : iu p = 1 := by rw [← hp']; decide
      rw [e1, e2]
      unfold unitsFor
      omega
    · rw [not_or] at z
      have e := fp z.1 z.2
      have e3 : fracDigits p = s1 + s2 := by have := tp.toWF.frac_eq; omega
      have := tp.toWF.fits
      unfold fu at this
      rw [e3] at this
      exact ⟨by omega, this⟩
  obtain ⟨o, ho⟩ := (C127_answers_iff (m := m) hl hw tp (s := s1 + s2) (by omega)).mpr (by rw [if_neg (by omega)]; exact shape.2)
  obtain ⟨p', rfl, e⟩ := C127_exact hl hw tp (by omega) shape.1 bound ho
  exact ⟨p', ho, by rw [e, v]⟩

/-- **C129** non-vacuity: `-7.50`, a `DECIMAL(14, 2)`, times `123456789012.345`, a `DECIMAL(15, 3)`. -/
theorem C129_witness :
    ∃ limit r1 r2 p, WF limit ∧ val limit = 10 ^ 12 ∧ store m limit 2 Samples.c = .ok (some r1) ∧
      store m limit 3 Samples.a = .ok (some r2) ∧ MulFull r1 r2 ∧ FixedDecimal.mul m r1 r2 = .ok p ∧
      ∃ limit' p', WF limit' ∧ val limit' = 10 ^ (12 + 12) ∧ store m limit' (2 + 3) p = .ok (some p') ∧ val p' = val r1 * val r2 := by
  have hl : WF ⟨13#8, 0, [0, 1000, 0, 0, 0, 0, 0, 0, 0]⟩ := by decide +kernel
  have hw : val ⟨13#8, 0, [0, 1000, 0, 0, 0, 0, 0, 0, 0]⟩ = 10 ^ 12 := by
    have h : mant ⟨13#8, 0, [0, 1000, 0, 0, 0, 0, 0, 0, 0]⟩ = 1000000000000 := by decide
    have h2 : neg ⟨13#8, 0, [0, 1000, 0, 0, 0, 0, 0, 0, 0]⟩ = false := by decide
    have h3 : fu ⟨13#8, 0, [0, 1000, 0, 0, 0, 0, 0, 0, 0]⟩ = 0 := by decide
    simp only [val, absVal, h, h2, h3]; norm_num
  have hl' : WF ⟨25#8, 0, [0, 0, 1000000, 0, 0, 0, 0, 0, 0]⟩ := by decide +kernel
  have hw' : val ⟨25#8, 0, [0, 0, 1000000, 0, 0, 0, 0, 0, 0]⟩ = 10 ^ (12 + 12) := by
    have h : mant ⟨25#8, 0, [0, 0, 1000000, 0, 0, 0, 0, 0, 0]⟩ = 1000000000000000000000000 := by decide
    have h2 : neg ⟨25#8, 0, [0, 0, 1000000, 0, 0, 0, 0, 0, 0]⟩ = false := by decide
    have h3 : fu ⟨25#8, 0, [0, 0, 1000000, 0, 0, 0, 0, 0, 0]⟩ = 0 := by decide
    simp only [val, absVal, h, h2, h3]; norm_num
  have s1 : store m ⟨13#8, 0, [0, 1000, 0, 0, 0, 0, 0, 0, 0]⟩ 2 Samples.c = .ok (some Samples.c) := by cases m <;> decide +kernel
  have s2 : store m ⟨13#8, 0, [0, 1000, 0, 0, 0, 0, 0, 0, 0]⟩ 3 Samples.a = .ok (some Samples.a) := by cases m <;> decide +kernel
  have hf : MulFull Samples.c Samples.a := by decide
  obtain ⟨p, hp⟩ : ∃ p, FixedDecimal.mulTo m Samples.c Samples.a FixedDecimal.blank = .ok p :=
    (C56_mul_ok_iff m Samples.c_tight Samples.a_tight rfl).mpr (Or.inr (Or.inr ⟨by decide, by decide, Or.inl (by decide)⟩))
  have hp' : FixedDecimal.mul m Samples.c Samples.a = .ok p := by unfold FixedDecimal.mul; rw [hp]; rfl
  obtain ⟨p', h1, h2⟩ := C129_product hl hl hl' hw hw hw' (by norm_num) (by norm_num) Samples.c_tight Samples.a_tight s1 s2 hf hp'
  exact ⟨_, _, _, p, hl, hw, s1, s2, hf, hp', _, p', hl', hw', h1, h2⟩

/-! ## C130: changing the type of a column -/

theorem stored_of_digits {r : FixedDecimal} (hr : Tight r) {s : Nat} (hf : fracDigits r ≤ s) : stored s (val r) = val r := by
  obtain ⟨n, hn⟩ := val_mul_pow_digits hr hf
  unfold stored
  rw [hn, halfAway_int, ← hn]
  field_simp

/-- **C130** Widening a column - no fewer digits before the point, no fewer after it - succeeds for every stored value for which there is room
for the digits after the point and changes no number; going back gives the old text, byte for byte, and cannot fail. -/
theorem C130_widen {limit limit' : FixedDecimal} (hl : WF limit) {w w' : Nat} (hw : val limit = 10 ^ w) (hl' : WF limit')
    (hw' : val limit' = 10 ^ w') (hww : w ≤ w') {s s' : Nat} (hss : s ≤ s') (hs' : s' ≤ 127) {x r : FixedDecimal} (hx : Tight x)
    (h : store m limit s x = .ok (some r)) (hroom : iu r + unitsFor s' ≤ 9) :
    ∃ r', store m limit' s' r = .ok (some r') ∧ val r' = val r ∧ r'.frac = s' ∧
      ∃ r2, store m limit s r' = .ok (some r2) ∧ val r2 = val r ∧
        (FixedDecimal.toStr m r2 (-1) : Out Empty _) = FixedDecimal.toStr m r (-1) := by
  obtain ⟨-, b, c, -, t⟩ := (C127_store hl hw hx (by omega) h).2 r rfl
  have f : fracDigits r = s := by have := t.toWF.frac_eq; omega
  have b' : |val r| < 10 ^ w' := lt_of_lt_of_le b (pow_le_pow_right₀ (by norm_num) hww)
  obtain ⟨o, ho⟩ := (C127_answers_iff (m := m) hl' hw' t hs').mpr (by rw [if_neg (by omega)]; exact hroom)
  obtain ⟨r', rfl, e⟩ := C127_exact hl' hw' t hs' (by omega) b' ho
  obtain ⟨-, -, c', n', t'⟩ := (C127_store hl' hw' t hs' ho).2 r' rfl
  have f' : fracDigits r' = s' := by have := t'.toWF.frac_eq; omega
  have st : stored s (val r') = val r := by rw [e]; exact stored_of_digits t (by omega)
  refine ⟨r', ho, e, c', ?_⟩
  obtain ⟨o2, ho2⟩ := (C127_answers_iff (m := m) hl hw t' (s := s) (by omega)).mpr (by
    by_cases k : s < fracDigits r'
    · rw [if_pos k]
      right
      rw [st, ← e, abs_val t'.toWF]
      exact absVal_lt_pow t'.toWF
    · rw [if_neg k]
      have := t'.toWF.fits
      unfold fu at this
      rw [f', show s' = s by omega] at this
      exact this)
  obtain ⟨k1, k2⟩ := C127_store hl hw t' (by omega) ho2
  cases o2 with
  | none =>
    have := k1.mp rfl
    rw [st] at this
    linarith
  | some r2 =>
    obtain ⟨d1, -, d3, d4, d5⟩ := k2 r2 rfl
    rw [st] at d1
    exact ⟨r2, ho2, d1, (C69_text_iff m d5 t (by norm_num) (by norm_num)).mpr ⟨by rw [d4, n'], d1, by rw [d3, c]⟩⟩

theorem stored_dist (s : Nat) (v : ℚ) : |stored s v - v| ≤ 1 / 10 ^ s / 2 := by
  have p : (0 : ℚ) < 10 ^ s := by positivity
  have h := halfAway_dist (v * 10 ^ s)
  unfold stored
  rw [show (halfAway (v * 10 ^ s) : ℚ) / 10 ^ s - v = ((halfAway (v * 10 ^ s) : ℚ) - v * 10 ^ s) / 10 ^ s by field_simp, abs_div,
    abs_of_pos p, div_right_comm]
  exact div_le_div_of_nonneg_right h p.le

/-- Rounding to `s` digits and then to fewer is rounding to the fewer, unless the rounded number is a tie. -/
theorem stored_stored {s s' : Nat} (hs : s' < s) (v : ℚ) (ht : 2 * |stored s' (stored s v) - stored s v| ≠ 1 / 10 ^ s') :
    stored s' (stored s v) = stored s' v := by
  obtain ⟨t, rfl⟩ : ∃ t, s = s' + 1 + t := ⟨s - s' - 1, by omega⟩
  have p : (0 : ℚ) < 10 ^ s' := by positivity
  have a1 := halfAway_dist (v * 10 ^ (s' + 1 + t))
  have eA : stored (s' + 1 + t) v = (halfAway (v * 10 ^ (s' + 1 + t)) : ℚ) / (10 ^ s' * (10 * 10 ^ t)) := by
    unfold stored; rw [pow_add, pow_add, pow_one, mul_assoc]
  have eV : v * 10 ^ (s' + 1 + t) = v * 10 ^ s' * (10 * 10 ^ t) := by rw [pow_add, pow_add]; ring
  set A := halfAway (v * 10 ^ (s' + 1 + t))
  have eY : stored (s' + 1 + t) v * 10 ^ s' = (A : ℚ) / (10 * 10 ^ t) := by rw [eA]; field_simp
  have b1 := halfAway_dist ((A : ℚ) / (10 * 10 ^ t))
  have eB : stored s' (stored (s' + 1 + t) v) = (halfAway ((A : ℚ) / (10 * 10 ^ t)) : ℚ) / 10 ^ s' := by
    rw [← eY]; rfl
  rw [eB] at ht ⊢
  set B := halfAway ((A : ℚ) / (10 * 10 ^ t))
  have q : (0 : ℚ) < 10 * 10 ^ t := by positivity
  have d1 : |(B : ℚ) * (10 * 10 ^ t) - A| ≤ 5 * 10 ^ t := by
    rw [show (B : ℚ) * (10 * 10 ^ t) - A = (B - A / (10 * 10 ^ t)) * (10 * 10 ^ t) by field_simp, abs_mul, abs_of_pos q]
    have := mul_le_mul_of_nonneg_right b1 q.le
    linarith
  have d2 : |(B : ℚ) * (10 * 10 ^ t) - A| ≠ 5 * 10 ^ t := by
    intro h
    apply ht
    rw [eA, show (B : ℚ) / 10 ^ s' - A / (10 ^ s' * (10 * 10 ^ t)) = ((B : ℚ) * (10 * 10 ^ t) - A) / (10 ^ s' * (10 * 10 ^ t)) by
      field_simp, abs_div, h, abs_of_pos (by positivity)]
    field_simp
    norm_num
  have d3 : |B * (10 * 10 ^ t) - A| ≤ 5 * 10 ^ t := by exact_mod_cast d1
  have d4 : |B * (10 * 10 ^ t) - A| ≠ 5 * 10 ^ t := by exact_mod_cast d2
  have d5 : |B * (10 * 10 ^ t) - A| + 1 ≤ 5 * 10 ^ t := lt_of_le_of_ne d3 d4
  have d6 : |(B : ℚ) * (10 * 10 ^ t) - A| + 1 ≤ 5 * 10 ^ t := by exact_mod_cast d5
  have key : |v * 10 ^ s' - B| < 1 / 2 := by
    rw [eV] at a1
    have h := abs_add_le ((A : ℚ) - v * 10 ^ s' * (10 * 10 ^ t)) (B * (10 * 10 ^ t) - A)
    rw [show (A : ℚ) - v * 10 ^ s' * (10 * 10 ^ t) + (B * (10 * 10 ^ t) - A) = -((v * 10 ^ s' - B) * (10 * 10 ^ t)) by ring, abs_neg,
      abs_mul, abs_of_pos q] at h
    have : |v * 10 ^ s' - B| * (10 * 10 ^ t) < 1 / 2 * (10 * 10 ^ t) := by linarith
    exact lt_of_mul_lt_mul_right this q.le
  unfold stored
  rw [halfAway_near key]

/-- **C130** Narrowing a column step by step: the result is off the original by at most half a unit of each of the two last digits, off the
number narrowed at once by at most one unit of the last digit, and the same number unless the value in between is a tie. -/
theorem C130_narrow {limit limit' : FixedDecimal} (hl : WF limit) {w w' : Nat} (hw : val limit = 10 ^ w) (hl' : WF limit')
    (hw' : val limit' = 10 ^ w') {s s' : Nat} (hss : s' < s) (hs : s ≤ 127) {x y z d : FixedDecimal} (hx : Tight x)
    (hy : store m limit s x = .ok (some y)) (hz : store m limit' s' y = .ok (some z)) (hd : store m limit' s' x = .ok (some d)) :
    |val z - val x| ≤ (1 / 10 ^ s' + 1 / 10 ^ s) / 2 ∧ |val z - val d| ≤ 1 / 10 ^ s' ∧
      (2 * |val z - val y| ≠ 1 / 10 ^ s' → val z = val d ∧
        ((FixedDecimal.toStr m z (-1) : Out Empty _) = FixedDecimal.toStr m d (-1))) := by
  obtain ⟨y1, -, -, y4, ty⟩ := (C127_store hl hw hx hs hy).2 y rfl
  obtain ⟨z1, -, z3, z4, tz⟩ := (C127_store hl' hw' ty (by omega) hz).2 z rfl
  obtain ⟨d1, -, d3, d4, td⟩ := (C127_store hl' hw' hx (by omega) hd).2 d rfl
  have p : (0 : ℚ) < 10 ^ s' := by positivity
  have p' : (1 : ℚ) / 10 ^ s < 1 / 10 ^ s' :=
    one_div_lt_one_div_of_lt p (pow_lt_pow_right₀ (by norm_num) hss)
  have a1 := stored_dist s (val x)
  have a2 := stored_dist s' (val y)
  have a3 := stored_dist s' (val x)
  rw [← y1] at a1; rw [← z1] at a2; rw [← d1] at a3
  have b1 : |val z - val x| ≤ (1 / 10 ^ s' + 1 / 10 ^ s) / 2 := by
    have := abs_sub_le (val z) (val y) (val x)
    linarith
  refine ⟨b1, ?_, fun ht => ?_⟩
  · have b2 : |val z - val d| < 2 * (1 / 10 ^ s') := by
      have := abs_sub_le (val z) (val x) (val d)
      rw [abs_sub_comm] at a3
      have : (0 : ℚ) < 1 / 10 ^ s' := by positivity
      linarith
    have e : val z - val d = ((halfAway (val y * 10 ^ s') - halfAway (val x * 10 ^ s') : ℤ) : ℚ) / 10 ^ s' := by
      rw [z1, d1]; unfold stored; push_cast; ring
    rw [e, abs_div, abs_of_pos p] at b2 ⊢
    rw [mul_one_div, div_lt_div_iff_of_pos_right p] at b2
    have b3 : |halfAway (val y * 10 ^ s') - halfAway (val x * 10 ^ s')| < 2 := by exact_mod_cast b2
    have b4 : |halfAway (val y * 10 ^ s') - halfAway (val x * 10 ^ s')| ≤ 1 := by omega
    exact div_le_div_of_nonneg_right (by exact_mod_cast b4) p.le
  · have e : val z = val d := by
      rw [z1, d1, y1]
      exact stored_stored hss _ (by rw [← y1, ← z1]; exact ht)
    exact ⟨e, (C69_text_iff m tz td (by norm_num) (by norm_num)).mpr ⟨by rw [z4, d4, y4], e, by rw [z3, d3]⟩⟩

/-- **C130** non-vacuity, and narrowing twice is not narrowing once: `.445` is `.45` with two digits and then `.5` with one, but `.4` with
one digit at once; widening `.45` to five digits and going back gives `.45`. -/
theorem C130_witness :
    ∃ limit x y z d, WF limit ∧ val limit = 10 ^ 0 ∧ FixedDecimal.fromStr m (Samples.bytes "0.445") = .ok x ∧ Tight x ∧
      store m limit 2 x = .ok (some y) ∧ store m limit 1 y = .ok (some z) ∧ store m limit 1 x = .ok (some d) ∧
      (FixedDecimal.toStr m z (-1) : Out Empty _) = .ok (Samples.bytes "0.5") ∧
      (FixedDecimal.toStr m d (-1) : Out Empty _) = .ok (Samples.bytes "0.4") ∧ iu y + unitsFor 5 ≤ 9 ∧
      (∃ v, store m limit 5 y = .ok (some v) ∧ val v = val y) ∧ |val z - val d| ≤ 1 / 10 ^ 1 := by
  have hl : WF ⟨1#8, 0, [1, 0, 0, 0, 0, 0, 0, 0, 0]⟩ := by decide +kernel
  have hw : val ⟨1#8, 0, [1, 0, 0, 0, 0, 0, 0, 0, 0]⟩ = 10 ^ 0 := by
    have h : mant ⟨1#8, 0, [1, 0, 0, 0, 0, 0, 0, 0, 0]⟩ = 1 := by decide
    have h2 : neg ⟨1#8, 0, [1, 0, 0, 0, 0, 0, 0, 0, 0]⟩ = false := by decide
    have h3 : fu ⟨1#8, 0, [1, 0, 0, 0, 0, 0, 0, 0, 0]⟩ = 0 := by decide
    simp only [val, absVal, h, h2, h3]; norm_num
  have px : (FixedDecimal.fromStr m (Samples.bytes "0.445")) = .ok ⟨1#8, 3, [445000000, 0, 0, 0, 0, 0, 0, 0, 0]⟩ := by
    cases m <;> decide +kernel
  have tx : Tight ⟨1#8, 3, [445000000, 0, 0, 0, 0, 0, 0, 0, 0]⟩ := by decide +kernel
  have py : store m ⟨1#8, 0, [1, 0, 0, 0, 0, 0, 0, 0, 0]⟩ 2 ⟨1#8, 3, [445000000, 0, 0, 0, 0, 0, 0, 0, 0]⟩ =
      .ok (some ⟨9#8, 2, [450000000, 0, 0, 0, 0, 0, 0, 0, 0]⟩) := by cases m <;> decide +kernel
  obtain ⟨v, h1, h2, -⟩ := C130_widen (m := m) hl hw hl hw (le_refl 0) (s := 2) (s' := 5) (by norm_num) (by norm_num) tx py (by decide)
  have pz : store m ⟨1#8, 0, [1, 0, 0, 0, 0, 0, 0, 0, 0]⟩ 1 ⟨9#8, 2, [450000000, 0, 0, 0, 0, 0, 0, 0, 0]⟩ =
      .ok (some ⟨9#8, 1, [500000000, 0, 0, 0, 0, 0, 0, 0, 0]⟩) := by cases m <;> decide +kernel
  have pd : store m ⟨1#8, 0, [1, 0, 0, 0, 0, 0, 0, 0, 0]⟩ 1 ⟨1#8, 3, [445000000, 0, 0, 0, 0, 0, 0, 0, 0]⟩ =
      .ok (some ⟨9#8, 1, [400000000, 0, 0, 0, 0, 0, 0, 0, 0]⟩) := by cases m <;> decide +kernel
  have hn := C130_narrow (m := m) hl hw hl hw (s := 2) (s' := 1) (by norm_num) (by norm_num) tx py pz pd
  exact ⟨_, _, _, _, _, hl, hw, px, tx, py, pz, pd, by cases m <;> decide +kernel, by cases m <;> decide +kernel, by decide,
    ⟨v, h1, h2⟩, hn.2.1⟩

/-- **C130** non-vacuity: `.436` is `.44` with two digits, not a tie, and then `.4`, the same text as with one digit at once. -/
theorem C130_narrow_witness :
    ∃ limit x y z d, WF limit ∧ val limit = 10 ^ 0 ∧ FixedDecimal.fromStr m (Samples.bytes "0.436") = .ok x ∧ Tight x ∧
      store m limit 2 x = .ok (some y) ∧ store m limit 1 y = .ok (some z) ∧ store m limit 1 x = .ok (some d) ∧
      2 * |val z - val y| ≠ 1 / 10 ^ 1 ∧ (FixedDecimal.toStr m z (-1) : Out Empty _) = FixedDecimal.toStr m d (-1) ∧
      (FixedDecimal.toStr m d (-1) : Out Empty _) = .ok (Samples.bytes "0.4") := by
  have hl : WF ⟨1#8, 0, [1, 0, 0, 0, 0, 0, 0, 0, 0]⟩ := by decide +kernel
  have hw : val ⟨1#8, 0, [1, 0, 0, 0, 0, 0, 0, 0, 0]⟩ = 10 ^ 0 := by
    have h : mant ⟨1#8, 0, [1, 0, 0, 0, 0, 0, 0, 0, 0]⟩ = 1 := by decide
    have h2 : neg ⟨1#8, 0, [1, 0, 0, 0, 0, 0, 0, 0, 0]⟩ = false := by decide
    have h3 : fu ⟨1#8, 0, [1, 0, 0, 0, 0, 0, 0, 0, 0]⟩ = 0 := by decide
    simp only [val, absVal, h, h2, h3]; norm_num
  have px : (FixedDecimal.fromStr m (Samples.bytes "0.436")) = .ok ⟨1#8, 3, [436000000, 0, 0, 0, 0, 0, 0, 0, 0]⟩ := by
    cases m <;> decide +kernel
  have tx : Tight ⟨1#8, 3, [436000000, 0, 0, 0, 0, 0, 0, 0, 0]⟩ := by decide +kernel
  have py : store m ⟨1#8, 0, [1, 0, 0, 0, 0, 0, 0, 0, 0]⟩ 2 ⟨1#8, 3, [436000000, 0, 0, 0, 0, 0, 0, 0, 0]⟩ =
      .ok (some ⟨9#8, 2, [440000000, 0, 0, 0, 0, 0, 0, 0, 0]⟩) := by cases m <;> decide +kernel
  have pz : store m ⟨1#8, 0, [1, 0, 0, 0, 0, 0, 0, 0, 0]⟩ 1 ⟨9#8, 2, [440000000, 0, 0, 0, 0, 0, 0, 0, 0]⟩ =
      .ok (some ⟨9#8, 1, [400000000, 0, 0, 0, 0, 0, 0, 0, 0]⟩) := by cases m <;> decide +kernel
  have pd : store m ⟨1#8, 0, [1, 0, 0, 0, 0, 0, 0, 0, 0]⟩ 1 ⟨1#8, 3, [436000000, 0, 0, 0, 0, 0, 0, 0, 0]⟩ =
      .ok (some ⟨9#8, 1, [400000000, 0, 0, 0, 0, 0, 0, 0, 0]⟩) := by cases m <;> decide +kernel
  have hn := C130_narrow (m := m) hl hw hl hw (s := 2) (s' := 1) (by norm_num) (by norm_num) tx py pz pd
  have vy : val ⟨9#8, 2, [440000000, 0, 0, 0, 0, 0, 0, 0, 0]⟩ = 44 / 100 := by
    have h : mant ⟨9#8, 2, [440000000, 0, 0, 0, 0, 0, 0, 0, 0]⟩ = 440000000 := by decide
    have h2 : neg ⟨9#8, 2, [440000000, 0, 0, 0, 0, 0, 0, 0, 0]⟩ = false := by decide
    have h3 : fu ⟨9#8, 2, [440000000, 0, 0, 0, 0, 0, 0, 0, 0]⟩ = 1 := by decide
    simp only [val, absVal, h, h2, h3]; norm_num
  have vz : val ⟨9#8, 1, [400000000, 0, 0, 0, 0, 0, 0, 0, 0]⟩ = 4 / 10 := by
    have h : mant ⟨9#8, 1, [400000000, 0, 0, 0, 0, 0, 0, 0, 0]⟩ = 400000000 := by decide
    have h2 : neg ⟨9#8, 1, [400000000, 0, 0, 0, 0, 0, 0, 0, 0]⟩ = false := by decide
    have h3 : fu ⟨9#8, 1, [400000000, 0, 0, 0, 0, 0, 0, 0, 0]⟩ = 1 := by decide
    simp only [val, absVal, h, h2, h3]; norm_num
  have nt : 2 * |val ⟨9#8, 1, [400000000, 0, 0, 0, 0, 0, 0, 0, 0]⟩ - val ⟨9#8, 2, [440000000, 0, 0, 0, 0, 0, 0, 0, 0]⟩| ≠ 1 / 10 ^ 1 := by
    rw [vy, vz]; norm_num [abs_of_neg]
  exact ⟨_, _, _, _, _, hl, hw, px, tx, py, pz, pd, nt, (hn.2.2 nt).2, by cases m <;> decide +kernel⟩

end Props
end Fxd
