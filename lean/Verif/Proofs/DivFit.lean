import Verif.Proofs.DivPlan
/-!
# Sizes of a quotient
-/

namespace Fxd
open Spec

variable {σ : Type} {m : Mode}

theorem getUnits_neg {x : Int} (h : -128 ≤ x) (h' : x ≤ -9) : (getUnits m x : Out σ Int) = .panic .index := by
  unfold getUnits
  rw [i8_ok (by omega) (by omega), ok_bind]
  unfold div9
  exact idx_oob (by omega)

theorem getUnits_small_neg {x : Int} (h : -8 ≤ x) (h' : x ≤ 0) : (getUnits m x : Out σ Int) = .ok 0 := by
  unfold getUnits
  rw [i8_ok (by omega) (by omega), ok_bind, div9_ok (by omega) (by omega), show (x + 8) / 9 = 0 by omega]

theorem getUnits_wrap_oob {x : Int} (h : 119 < x) (h' : x ≤ 247) : ∃ p, (getUnits m (wrap 8 x) : Out σ Int) = .panic p := by
  by_cases hx : x < 128
  · rw [wrap8_ok (by omega) hx]; exact getUnits_oob (by omega) (by omega)
  · have : wrap 8 x = x - 256 := by
      unfold wrap
      norm_num
      rw [Int.bmod_def]
      split_ifs <;> omega
    rw [this]
    exact ⟨_, getUnits_neg (by omega) (by omega)⟩

theorem getUnits_wrap_ok {x : Int} (h0 : 0 ≤ x) (h : x ≤ 119) :
    (getUnits m (wrap 8 x) : Out σ Int) = .ok ((x + 8) / 9) := by
  rw [wrap8_ok (by omega) (by omega)]
  lift x to ℕ using h0
  rw [getUnits_nat (by omega)]
  unfold unitsFor
  push_cast; rfl

/-- `-1` when the leading units of the dividend are smaller than those of the divisor. -/
def divSh (a b : FixedDecimal) (nl nr : Nat) : Int := if divGe a b nl nr then 0 else -1

/-- Position (in units) of the first quotient unit relative to the point. -/
def divPos (a b : FixedDecimal) (nl nr : Nat) : Int := (nl : Int) - nr + fu b - fu a + divSh a b nl nr

theorem divSh_cases (a b : FixedDecimal) (nl nr : Nat) : divSh a b nl nr = 0 ∨ divSh a b nl nr = -1 := by
  unfold divSh; split_ifs <;> simp

theorem top_bounds {l : List Int} {k : Nat} (hd : Dig (dg l)) :
    dg l k * 1000000000 ^ k ≤ psum (dg l) (k + 1) ∧ psum (dg l) (k + 1) < (dg l k + 1) * 1000000000 ^ k := by
  rw [psum_succ]
  have h1 := psum_nonneg hd k
  have h2 := psum_lt hd k
  constructor <;> linarith

theorem divGe_top {a b : FixedDecimal} (ha : WF a) (hb : WF b) {nl nr : Nat} (tl : Top a.lsu nl) (tr : Top b.lsu nr)
    (h : divGe a b nl nr) : dg b.lsu nr ≤ dg a.lsu nl := by
  unfold divGe at h
  rw [tl.mant ha, tr.mant hb] at h
  have h1 := (top_bounds (k := nl) ha.dig).2
  have h2 := (top_bounds (k := nr) hb.dig).1
  set P : Int := 1000000000 ^ nl with hP
  set Q : Int := 1000000000 ^ nr with hQ
  have hP0 : 0 < P := by positivity
  have hQ0 : 0 < Q := by positivity
  rw [pow_succ, pow_succ] at h
  by_contra hlt
  have h3 : (dg a.lsu nl + 1) ≤ dg b.lsu nr := by omega
  have e1 : dg b.lsu nr * (Q * P) ≤ psum (dg b.lsu) (nr + 1) * P := by nlinarith
  have e2 : psum (dg a.lsu) (nl + 1) * Q < (dg a.lsu nl + 1) * (Q * P) := by nlinarith
  have e3 : (dg a.lsu nl + 1) * (Q * P) ≤ dg b.lsu nr * (Q * P) := mul_le_mul_of_nonneg_right h3 (by positivity)
  nlinarith

theorem not_divGe_top {a b : FixedDecimal} (ha : WF a) (hb : WF b) {nl nr : Nat} (tl : Top a.lsu nl) (tr : Top b.lsu nr)
    (h : ¬ divGe a b nl nr) : dg a.lsu nl ≤ dg b.lsu nr := by
  unfold divGe at h
  rw [tl.mant ha, tr.mant hb, not_le] at h
  have h1 := (top_bounds (k := nl) ha.dig).1
  have h2 := (top_bounds (k := nr) hb.dig).2
  set P : Int := 1000000000 ^ nl with hP
  set Q : Int := 1000000000 ^ nr with hQ
  have hP0 : 0 < P := by positivity
  have hQ0 : 0 < Q := by positivity
  rw [pow_succ, pow_succ] at h
  by_contra hlt
  have h3 : (dg b.lsu nr + 1) ≤ dg a.lsu nl := by omega
  have e1 : dg a.lsu nl * (Q * P) ≤ psum (dg a.lsu) (nl + 1) * Q := by nlinarith
  have e2 : psum (dg b.lsu) (nr + 1) * P < (dg b.lsu nr + 1) * (Q * P) := by nlinarith
  have e3 : (dg b.lsu nr + 1) * (Q * P) ≤ dg a.lsu nl * (Q * P) := mul_le_mul_of_nonneg_right h3 (by positivity)
  nlinarith

theorem divIntg_pos {a b : FixedDecimal} (ha : WF a) (hb : WF b) {nl nr : Nat} (tl : Top a.lsu nl) (tr : Top b.lsu nr) :
    9 * divPos a b nl nr < divIntg a b nl nr ∧ divIntg a b nl nr ≤ 9 * divPos a b nl nr + 9 := by
  obtain ⟨z, ez, hz, _, _⟩ := ulz_nat tl.pos (ha.dig nl).2
  obtain ⟨w, ew, hw, _, _⟩ := ulz_nat tr.pos (hb.dig nr).2
  unfold divPos divIntg divSh DIGITS_PER_UNIT
  by_cases hg : divGe a b nl nr
  · have := ulz_anti tr.pos (divGe_top ha hb tl tr hg) (ha.dig nl).2
    rw [if_pos hg, if_pos hg]
    omega
  · have := ulz_anti tl.pos (not_divGe_top ha hb tl tr hg) (hb.dig nr).2
    rw [if_neg hg, if_neg hg]
    omega

theorem divPos_range {a b : FixedDecimal} (ha : WF a) (hb : WF b) {nl nr : Nat} (tl : Top a.lsu nl) (tr : Top b.lsu nr) :
    -18 ≤ divPos a b nl nr ∧ divPos a b nl nr ≤ 17 := by
  have h1 := tl.lt
  have h2 := tr.lt
  rw [ha.len] at h1
  rw [hb.len] at h2
  have h3 := ha.fits
  have h4 := hb.fits
  unfold divPos
  rcases divSh_cases a b nl nr with h | h <;> rw [h] <;> omega

/-- Integral units of the quotient. -/
def divRI (a b : FixedDecimal) (nl nr : Nat) : Nat := (divPos a b nl nr + 1).toNat

theorem divFit_panic {a b : FixedDecimal} (ha : WF a) (hb : WF b) {nl nr : Nat} (tl : Top a.lsu nl) (tr : Top b.lsu nr)
    (rf : Int) (h : 119 < divIntg a b nl nr ∨ divIntg a b nl nr < -118) : ∃ p, divFit m a b nl nr rf = .panic p := by
  obtain ⟨h1, h2⟩ := divIntg_pos ha hb tl tr
  obtain ⟨h3, h4⟩ := divPos_range ha hb tl tr
  unfold divFit
  dsimp only
  rcases h with h | h
  · rw [if_pos (by omega)]
    obtain ⟨p, e⟩ := getUnits_wrap_oob (σ := FixedDecimal) (m := m) h (by omega)
    exact ⟨p, by rw [e]; rfl⟩
  · rw [if_neg (by omega)]
    obtain ⟨p, e⟩ := getUnits_wrap_oob (σ := FixedDecimal) (m := m) (x := 1 - divIntg a b nl nr) (by omega) (by omega)
    exact ⟨p, by rw [e]; rfl⟩

theorem divFit_err {a b : FixedDecimal} {nl nr : Nat} (rf : Int) (h : 81 < divIntg a b nl nr)
    (h' : divIntg a b nl nr ≤ 119) : divFit m a b nl nr rf = .err .overflow FixedDecimal.zero := by
  unfold divFit
  dsimp only
  rw [if_pos (by omega), getUnits_wrap_ok (by omega) h', ok_bind, if_pos (by unfold MAX_UNITS; omega)]

theorem divFit_ok {a b : FixedDecimal} (ha : WF a) (hb : WF b) {nl nr : Nat} (tl : Top a.lsu nl) (tr : Top b.lsu nr)
    (rf : Nat) (hrf : rf ≤ 4) (h : divIntg a b nl nr ≤ 81) (h' : -118 ≤ divIntg a b nl nr) :
    divRI a b nl nr ≤ 9 ∧
    divFit m a b nl nr rf = divTail m a b nl nr (divSh a b nl nr) ((divIntg a b nl nr).toNat : Nat) (divRI a b nl nr : Nat)
      (min rf (9 - divRI a b nl nr) : Nat) ((min rf (9 - divRI a b nl nr) : Nat) + divPos a b nl nr) := by
  obtain ⟨h1, h2⟩ := divIntg_pos ha hb tl tr
  have hR : divRI a b nl nr ≤ 9 := by unfold divRI; omega
  refine ⟨hR, ?_⟩
  unfold divFit
  dsimp only
  by_cases hp : 0 < divIntg a b nl nr
  · have hri : (divIntg a b nl nr + 8) / 9 = (divRI a b nl nr : Int) := by unfold divRI; omega
    have hpos : (divRI a b nl nr : Int) - 1 = divPos a b nl nr := by unfold divRI; omega
    rw [if_pos hp, getUnits_wrap_ok (by omega) (by omega), ok_bind, hri, if_neg (by unfold MAX_UNITS; omega)]
    have hm : (if (divRI a b nl nr : Int) + (rf : Int) > MAX_UNITS then MAX_UNITS - (divRI a b nl nr : Int) else (rf : Int)) =
        ((min rf (9 - divRI a b nl nr) : Nat) : Int) := by
      unfold MAX_UNITS; split_ifs <;> omega
    rw [hm, show (((divIntg a b nl nr).toNat : Nat) : Int) = divIntg a b nl nr by omega, ← hpos, ← add_sub_assoc]
    rfl
  · have hoff : (1 - divIntg a b nl nr + 8) / 9 = - divPos a b nl nr := by omega
    have h0 : divRI a b nl nr = 0 := by unfold divRI; omega
    rw [if_neg hp, getUnits_wrap_ok (by omega) (by omega), ok_bind, hoff, h0,
      show (divIntg a b nl nr).toNat = 0 by omega, show min rf (9 - 0) = rf by omega, sub_neg_eq_add]
    rfl

/-- The quotient of the leading units is below one unit more. -/
theorem div_lead {a b : FixedDecimal} (ha : WF a) (hb : WF b) {nl nr : Nat} (tl : Top a.lsu nl) (tr : Top b.lsu nr) :
    mant a * 1000000000 ^ nr < mant b * 1000000000 ^ ((nl : Int) + 1 + divSh a b nl nr).toNat := by
  unfold divSh
  split_ifs with hg
  · rw [show ((nl : Int) + 1 + 0).toNat = nl + 1 by omega, tl.mant ha, tr.mant hb]
    have h1 := psum_lt ha.dig (nl + 1)
    have h2 := tr.psum_ge hb.dig
    have h3 := psum_nonneg ha.dig (nl + 1)
    have hP : (0 : Int) < 1000000000 ^ nr := by positivity
    have hQ : (0 : Int) < 1000000000 ^ (nl + 1) := by positivity
    nlinarith
  · unfold divGe at hg
    rw [not_le, pow_succ, pow_succ, ← mul_assoc, ← mul_assoc] at hg
    rw [show ((nl : Int) + 1 + -1).toNat = nl by omega]
    exact lt_of_mul_lt_mul_right hg (by norm_num)

end Fxd
