import Verif.Proofs.DivLemmas
/-!
# The plan of a division and the short division
-/

namespace Fxd
open Spec

variable {σ : Type} {m : Mode}

/-- Digit at a possibly negative position, zero below the units. -/
def ext (l : List Int) (i : Int) : Int := if 0 ≤ i then dg l i.toNat else 0

theorem ext_nat (l : List Int) (i : Nat) : ext l (i : Int) = dg l i := by unfold ext; simp
theorem ext_neg {l : List Int} {i : Int} (h : i < 0) : ext l i = 0 := by unfold ext; rw [if_neg (by omega)]
theorem ext_dig {l : List Int} (h : Dig (dg l)) (i : Int) : 0 ≤ ext l i ∧ ext l i < 1000000000 := by
  unfold ext; split_ifs
  · exact h _
  · norm_num

/-- The number written by the `n` digits at positions `i, i - 1, …`. -/
def win (l : List Int) : Nat → Int → Int
  | 0, _ => 0
  | n + 1, i => ext l i * 1000000000 ^ n + win l n (i - 1)

theorem win_neg (l : List Int) : ∀ (n : Nat) (i : Int), i < 0 → win l n i = 0
  | 0, _, _ => rfl
  | n + 1, i, h => by rw [win, ext_neg h, win_neg l n (i - 1) (by omega)]; simp

theorem win_psum {l : List Int} (hd : Dig (dg l)) : ∀ (n t : Nat), ∃ e, 0 ≤ e ∧ e < 1000000000 ^ t ∧
    win l n ((t : Int) - 1) * 1000000000 ^ t + e = psum (dg l) t * 1000000000 ^ n
  | 0, t => ⟨psum (dg l) t, psum_nonneg hd t, psum_lt hd t, by simp [win]⟩
  | n + 1, 0 => ⟨0, le_refl _, by norm_num, by rw [win_neg _ _ _ (by norm_num)]; simp⟩
  | n + 1, t + 1 => by
    obtain ⟨e, h0, h1, h2⟩ := win_psum hd n t
    refine ⟨1000000000 * e, by positivity, ?_, ?_⟩
    · rw [pow_succ]; linarith
    · rw [win, psum_succ, show ((t + 1 : Nat) : Int) - 1 = (t : Int) by push_cast; ring, ext_nat]
      have : (psum (dg l) t + dg l t * 1000000000 ^ t) * 1000000000 ^ (n + 1) =
        1000000000 * (psum (dg l) t * 1000000000 ^ n) + dg l t * 1000000000 ^ t * 1000000000 ^ (n + 1) := by ring
      rw [this, ← h2]; ring

theorem idiv_ok {a b : Int} (ha : 0 ≤ a) (hb : 0 < b) : (idiv a b : Out σ Int) = .ok (a / b) := by
  unfold idiv; rw [if_neg (by omega), if_neg (by omega), Int.tdiv_eq_ediv_of_nonneg ha]

/-- One digit of a division. -/
theorem digit_div {rem d v : Int} (h0 : 0 ≤ rem) (h1 : rem < d) (hv0 : 0 ≤ v) (hv1 : v < 1000000000) :
    0 ≤ (rem * 1000000000 + v) / d ∧ (rem * 1000000000 + v) / d < 1000000000 ∧
      0 ≤ (rem * 1000000000 + v) - (rem * 1000000000 + v) / d * d ∧
      (rem * 1000000000 + v) - (rem * 1000000000 + v) / d * d < d := by
  have hd : 0 < d := by omega
  have e1 := Int.emod_nonneg (rem * 1000000000 + v) hd.ne'
  have e2 := Int.emod_lt_of_pos (rem * 1000000000 + v) hd
  have e3 := Int.mul_ediv_add_emod (rem * 1000000000 + v) d
  have e4 : (rem * 1000000000 + v) / d * d = d * ((rem * 1000000000 + v) / d) := mul_comm _ _
  refine ⟨Int.ediv_nonneg (by omega) hd.le, Int.ediv_lt_of_lt_mul hd (by omega), by omega, by omega⟩

theorem shortDivLoop_spec {l : List Int} (hd : Dig (dg l)) {d : Int} (hd1 : d < 1000000000) :
    ∀ (n : Nat) (i rem : Int) (res : List Int), i < l.length → 0 ≤ rem → rem < d → n ≤ res.length →
      ∃ res', (shortDivLoop m l d n i rem res : Out σ _) = .ok res' ∧ res'.length = res.length ∧
        (∀ k, n ≤ k → dg res' k = dg res k) ∧ (∀ k < n, 0 ≤ dg res' k ∧ dg res' k < 1000000000) ∧
        ∃ r, 0 ≤ r ∧ r < d ∧ rem * 1000000000 ^ n + win l n i = psum (dg res') n * d + r
  | 0, i, rem, res, _, h0, h1, _ => ⟨res, rfl, rfl, fun _ _ => rfl, fun k hk => absurd hk (by omega),
      rem, h0, h1, by simp [win]⟩
  | n + 1, i, rem, res, hi, h0, h1, hn => by
    have hv := ext_dig hd i
    obtain ⟨q0, q1, r0, r1⟩ := digit_div h0 h1 hv.1 hv.2
    unfold shortDivLoop UNIT
    rw [i64_ok (by omega) (by omega), ok_bind]
    have hu : (if i ≥ 0 then do
        let v ← idx l i
        i64 m (rem * 1000000000 + v)
      else .ok (rem * 1000000000) : Out σ Int) = .ok (rem * 1000000000 + ext l i) := by
      split_ifs with hge
      · rw [idx_ok hge hi, ok_bind]
        rw [show dg l i.toNat = ext l i by unfold ext; rw [if_pos hge]]
        exact i64_ok (by omega) (by omega)
      · rw [ext_neg (by omega)]; simp
    rw [hu, ok_bind, idiv_ok (by omega) (by omega), ok_bind]
    set v := ext l i
    set u := rem * 1000000000 + v
    set q := u / d
    rw [i64_ok (by omega) (by omega), ok_bind, i64_ok (by omega) (by omega), ok_bind, wrap32_ok (by omega) (by omega),
      upd_nat (by omega), ok_bind]
    obtain ⟨res', e, hl, hhi, hlo, r, hr0, hr1, heq⟩ := shortDivLoop_spec hd hd1 n (i - 1) (u - q * d) (res.set n q)
      (by omega) r0 r1 (by rw [List.length_set]; omega)
    have hq : dg res' n = q := by rw [hhi n (le_refl _), dg_set_self (by omega)]
    refine ⟨res', e, by rw [hl, List.length_set], fun k hk => ?_, fun k hk => ?_, r, hr0, hr1, ?_⟩
    · rw [hhi k (by omega), dg_set_ne (by omega)]
    · by_cases hkn : k = n
      · rw [hkn, hq]; exact ⟨q0, q1⟩
      · exact hlo k (by omega)
    · rw [psum_succ, hq, win]
      have e1 : (psum (dg res') n + q * 1000000000 ^ n) * d + r =
        (psum (dg res') n * d + r) + q * d * 1000000000 ^ n := by ring
      rw [e1, ← heq]
      simp only [u]
      ring

/-- The short division as a whole: `t` digits of the dividend lie at or below the first one used. -/
theorem shortDiv_total {l : List Int} (hd : Dig (dg l)) {k : Nat} (hk : k < l.length) {d : Int} (hd0 : 0 < d)
    (hd1 : d < 1000000000) {sh : Int} (hsh : sh = 0 ∨ sh = -1 ∧ dg l k < d) (n : Nat) (res : List Int)
    (hn : n ≤ res.length) :
    ∃ res', (shortDivLoop m l d n ((k : Int) + sh) (if sh < 0 then dg l k else 0) res : Out σ _) = .ok res' ∧
      res'.length = res.length ∧
      (∀ k, n ≤ k → dg res' k = dg res k) ∧ (∀ k < n, 0 ≤ dg res' k ∧ dg res' k < 1000000000) ∧
      psum (dg res') n * d * 1000000000 ^ ((k : Int) + 1 + sh).toNat ≤ psum (dg l) (k + 1) * 1000000000 ^ n ∧
      psum (dg l) (k + 1) * 1000000000 ^ n < (psum (dg res') n + 1) * d * 1000000000 ^ ((k : Int) + 1 + sh).toNat := by
  have hrem : 0 ≤ (if sh < 0 then dg l k else 0) ∧ (if sh < 0 then dg l k else 0) < d := by
    have := (hd k).1
    split_ifs with h <;> omega
  obtain ⟨res', e, hl, hhi, hlo, r, hr0, hr1, heq⟩ := shortDivLoop_spec (σ := σ) (m := m) hd hd1 n ((k : Int) + sh)
    (if sh < 0 then dg l k else 0) res (by omega) hrem.1 hrem.2 hn
  refine ⟨res', e, hl, hhi, hlo, ?_⟩
  -- the digits used are the dividend, scaled
  have key : ∃ e, 0 ≤ e ∧ e < (1000000000 : Int) ^ ((k : Int) + 1 + sh).toNat ∧
      ((if sh < 0 then dg l k else 0) * 1000000000 ^ n + win l n ((k : Int) + sh)) *
        1000000000 ^ ((k : Int) + 1 + sh).toNat + e = psum (dg l) (k + 1) * 1000000000 ^ n := by
    rcases hsh with rfl | ⟨rfl, _⟩
    · obtain ⟨e, h0, h1, h2⟩ := win_psum hd n (k + 1)
      refine ⟨e, h0, by simpa using h1, ?_⟩
      rw [if_neg (by omega), show ((k : Int) + 1 + 0).toNat = k + 1 by omega, ← h2]
      rw [show ((k + 1 : Nat) : Int) - 1 = (k : Int) + 0 by push_cast; ring]; ring
    · obtain ⟨e, h0, h1, h2⟩ := win_psum hd n k
      refine ⟨e, h0, by rw [show ((k : Int) + 1 + -1).toNat = k by omega]; exact h1, ?_⟩
      rw [if_pos (by omega), show ((k : Int) + 1 + -1).toNat = k by omega, psum_succ, add_mul (psum (dg l) k), ← h2,
        show (k : Int) + -1 = (k : Int) - 1 by ring]
      ring
  obtain ⟨e', h0, h1, h2⟩ := key
  rw [heq] at h2
  set P : Int := 1000000000 ^ ((k : Int) + 1 + sh).toNat
  have hP : 0 < P := by positivity
  rw [← h2]
  have a1 : 0 ≤ r * P := mul_nonneg hr0 hP.le
  have a2 : r * P + P ≤ d * P := by nlinarith
  constructor <;> nlinarith

end Fxd
