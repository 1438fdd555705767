import Verif.Proofs.Halts
import Verif.Proofs.RemVal
import Verif.Proofs.DivTop
/-!
# Division and remainder panic only in ordinary ways

The divisors of the unit divisions are not zero and the correction loop of a guess ends; both follow from the exact
description of the loops for well-formed operands.
-/

namespace Fxd
open Spec

variable {σ : Type} {m : Mode}

theorem div9_nonneg {d r : Int} (h : (Fxd.div9 d : Out σ Int) = .ok r) : 0 ≤ r := by
  unfold Fxd.div9 Fxd.idx at h
  split_ifs at h with h0
  cases hv : DIV9_TABLE[d.toNat]? with
  | none => rw [hv] at h; cases h
  | some v =>
    rw [hv] at h; cases h
    have hm := List.mem_of_getElem? hv
    have : ∀ x ∈ DIV9_TABLE, 0 ≤ x := by decide +kernel
    exact this _ hm

theorem getUnits_nonneg {d r : Int} (h : (Fxd.getUnits m d : Out σ Int) = .ok r) : 0 ≤ r := by
  unfold Fxd.getUnits at h
  obtain ⟨e, -, h⟩ := bind_eq_ok.mp h
  exact div9_nonneg h

theorem divFrac_halts {a b : FixedDecimal} {incr : Int} : Halts m (divFrac m a b incr) := by
  unfold divFrac; halts

theorem divFrac_four {a b : FixedDecimal} {incr r : Int} (h : divFrac m a b incr = .ok r) : ∃ n : Nat, n ≤ 4 ∧ r = n := by
  unfold divFrac at h
  obtain ⟨x, -, h⟩ := bind_eq_ok.mp h
  obtain ⟨s, -, h⟩ := bind_eq_ok.mp h
  obtain ⟨u, hu, h⟩ := bind_eq_ok.mp h
  have h0 := getUnits_nonneg hu
  cases h
  refine ⟨(if u > MAX_FRAC_UNITS then MAX_FRAC_UNITS else u).toNat, ?_, ?_⟩ <;> unfold MAX_FRAC_UNITS <;> split_ifs <;> omega

theorem divFit_halts {a b : FixedDecimal} (ha : WF a) (hb : WF b) {nl nr : Nat} (tl : Top a.lsu nl) (tr : Top b.lsu nr)
    {rf : Nat} (hrf : rf ≤ 4) : Halts m (divFit m a b nl nr rf) := by
  by_cases h1 : 119 < divIntg a b nl nr ∨ divIntg a b nl nr < -118
  · obtain ⟨q1, q2⟩ := divIntg_pos ha hb tl tr
    obtain ⟨q3, q4⟩ := divPos_range ha hb tl tr
    unfold divFit
    dsimp only
    rcases h1 with h | h
    · rw [if_pos (by omega)]
      obtain ⟨p, e⟩ := getUnits_wrap_oob (σ := FixedDecimal) (m := m) h (by omega)
      have hh := Halts.getUnits (σ := FixedDecimal) (m := m) (d := wrap 8 (divIntg a b nl nr))
      rw [e] at hh ⊢
      exact .bind' hh fun _ hc => by cases hc
    · rw [if_neg (by omega)]
      obtain ⟨p, e⟩ := getUnits_wrap_oob (σ := FixedDecimal) (m := m) (x := 1 - divIntg a b nl nr) (by omega) (by omega)
      have hh := Halts.getUnits (σ := FixedDecimal) (m := m) (d := wrap 8 (1 - divIntg a b nl nr))
      rw [e] at hh ⊢
      exact .bind' hh fun _ hc => by cases hc
  by_cases h2 : 81 < divIntg a b nl nr
  · rw [divFit_err _ h2 (by omega)]; exact .err
  obtain ⟨hRI, efit⟩ := divFit_ok (m := m) ha hb tl tr rf hrf (by omega) (by omega)
  rw [efit]
  by_cases hnr : nr = 0
  · subst hnr
    obtain ⟨l, el, -⟩ := divTail_short (m := m) ha hb tl tr (rf := min rf (9 - divRI a b nl 0)) (by omega) (by omega)
    rw [el]; exact .ok
  by_cases hs : ((divRI a b nl nr + min rf (9 - divRI a b nl nr) : Nat) : Int) + nl + divSh a b nl nr < 17
  · rcases divTail_long (m := m) ha hb tl tr (rf := min rf (9 - divRI a b nl nr)) (by omega) (by omega) (by omega) hs
      with ⟨rfl, -, e⟩ | ⟨-, l, e, -⟩
    · rw [e]; exact .assert
    · rw [e]; exact .ok
  · rw [divTail_long_panic ha hb tl tr (by omega) (by omega) (by omega) hs]; exact .index

theorem divAbs_halts {a b res : FixedDecimal} (ha : WF a) (hb : WF b) (hres : res.lsu.length = 9) (incr : Int) :
    Halts m (divAbs m a b res incr) := by
  by_cases zb : mant b = 0
  · rw [divAbs_zero ha hb hres zb]; exact .err
  by_cases za : mant a = 0
  · rw [divAbs_of_zero ha hb hres zb za]; exact .ok
  obtain ⟨nl, nr, tl, tr, e⟩ := divAbs_nz (m := m) ha hb hres za zb incr
  rw [e]
  refine .bind' divFrac_halts fun r hr => ?_
  obtain ⟨n, h4, rfl⟩ := divFrac_four hr
  exact divFit_halts ha hb tl tr h4

theorem divTo_halts {a b res : FixedDecimal} (ha : WF a) (hb : WF b) (hres : res.lsu.length = 9) (incr : Int) :
    Halts m (FixedDecimal.divTo m a b res incr) := by
  unfold FixedDecimal.divTo
  exact .bind (divAbs_halts ha hb hres _) fun _ => .ok

theorem remAbs_halts {a b res : FixedDecimal} (ha : WF a) (hb : WF b) (hres : res.lsu.length = 9) :
    Halts m (remAbs m a b res) := by
  by_cases zb : mant b = 0
  · rw [remAbs_zero ha hb hres zb]; exact .err
  by_cases za : mant a = 0
  · rw [remAbs_of_zero ha hb hres zb za]; exact .ok
  rcases lt_trichotomy (absVal a) (absVal b) with h | h | h
  · rw [remAbs_lt ha hb hres za zb h]; exact .ite .index .ok
  · rw [remAbs_eqv ha hb hres za zb h]; exact .ok
  · obtain ⟨h1, h2⟩ := remAbs_gt (m := m) ha hb hres za zb h
    by_cases hf : RemFull a b ∧ LeadGe a b
    · rw [h1 hf]; exact .index
    · rcases h2 hf with ⟨rfl, -, p, e, hp, -⟩ | ⟨-, r, e, -⟩
      · rw [e]
        rcases hp with ⟨rfl, -⟩ | ⟨rfl, -⟩
        · exact .assert
        · exact .index
      · rw [e]; exact .ok

theorem remTo_halts {a b res : FixedDecimal} (ha : WF a) (hb : WF b) (hres : res.lsu.length = 9) :
    Halts m (FixedDecimal.remTo m a b res) := by
  unfold FixedDecimal.remTo
  exact .bind (remAbs_halts ha hb hres) fun _ => .ok

theorem applyExp_zeroes {d f e : Int} {r : Int × Int × Int} (h : (applyExp m d f e : Out σ _) = .ok r) : r.2.2 ≤ 127 := by
  unfold applyExp at h
  obtain ⟨x, -, h⟩ := bind_eq_ok.mp h
  by_cases h0 : x = 0
  · rw [if_pos h0] at h; cases h; simp
  rw [if_neg h0] at h
  by_cases h1 : x > 0
  · rw [if_pos h1] at h
    by_cases h2 : d > x
    · rw [if_pos h2] at h; cases h; simp
    · rw [if_neg h2] at h
      obtain ⟨z, hz, h⟩ := bind_eq_ok.mp h
      cases h
      exact (i8_range hz).2
  · rw [if_neg h1] at h
    obtain ⟨z, hz, h⟩ := bind_eq_ok.mp h
    cases h; simp

theorem fromBytesStr_halts {d : FixedDecimal} {bs : List Nat} {reset : Bool} :
    Halts m (FixedDecimal.fromBytesStr m d bs reset) := by
  unfold FixedDecimal.fromBytesStr
  dsimp only
  refine .ite .err (.bind2 (.scanLoop _ _ _) fun st rest => .ite .err (.bind .parseExp fun e => ?_))
  refine .bind' .applyExp fun r hr => ?_
  have := applyExp_zeroes hr
  obtain ⟨a, b, c⟩ := r
  exact .ite .err (.writeDigits this)

theorem fromStr_halts {bs : List Nat} : Halts m (FixedDecimal.fromStr m bs) := by
  unfold FixedDecimal.fromStr
  have h := fromBytesStr_halts (m := m) (d := FixedDecimal.zero) (bs := bs) (reset := false)
  revert h
  cases FixedDecimal.fromBytesStr m FixedDecimal.zero bs false with
  | ok a => exact fun _ => .ok
  | err e s => exact fun _ => .err
  | panic p => intro h q hq; exact h q (by cases hq; rfl)

theorem fromU64_halts {n : Int} (h : 0 ≤ n) : Halts m (FixedDecimal.fromU64 n : Out σ _) := by
  unfold FixedDecimal.fromU64
  exact .bind2 (fromU64Loop_halts _ _ _ _ h (by push_cast; omega)) fun _ _ => .ok

theorem fromI64_halts {n : Int} : Halts m (FixedDecimal.fromI64 m n : Out σ _) := by
  unfold FixedDecimal.fromI64
  by_cases h1 : n = -(2 ^ 63)
  · rw [if_pos h1]; exact .ok
  rw [if_neg h1]
  by_cases h2 : n < 0
  · rw [if_pos h2]
    exact .bind .i64 fun _ => .bind (fromU64_halts (by omega)) fun _ => .ok
  · rw [if_neg h2]; exact fromU64_halts (by omega)

end Fxd
