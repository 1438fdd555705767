import Verif.Proofs.RemLong
import Verif.Proofs.DivTop
import Verif.Proofs.CmpLemmas
/-!
# The remainder: branches of `rem_abs`
-/

namespace Fxd
open Spec

variable {σ : Type} {m : Mode}

theorem rem_scale (a b : FixedDecimal) :
    mant a * 1000000000 ^ fu b = remA a b * 1000000000 ^ min (fu a) (fu b) ∧
    mant b * 1000000000 ^ fu a = remB a b * 1000000000 ^ min (fu a) (fu b) := by
  unfold remA remB
  rw [mul_assoc, mul_assoc, ← pow_add, ← pow_add, show fu b - fu a + min (fu a) (fu b) = fu b by omega,
    show fu a - fu b + min (fu a) (fu b) = fu a by omega]
  exact ⟨rfl, rfl⟩

theorem compare_mul_pos {x y k : Int} (hk : 0 < k) : compare (x * k) (y * k) = compare x y := by
  rcases lt_trichotomy x y with h | h | h
  · rw [compare_lt_iff_lt.mpr h, compare_lt_iff_lt.mpr (mul_lt_mul_of_pos_right h hk)]
  · rw [h, compare_eq_iff_eq.mpr rfl, compare_eq_iff_eq.mpr rfl]
  · rw [compare_gt_iff_gt.mpr h, compare_gt_iff_gt.mpr (mul_lt_mul_of_pos_right h hk)]

theorem rem_cmp {a b : FixedDecimal} (ha : WF a) (hb : WF b) :
    (cmpAbsLsu (iu a : Int) (fu a : Int) a.lsu (iu b : Int) (fu b : Int) b.lsu : Out σ Ordering) =
      .ok (compare (remA a b) (remB a b)) := by
  rw [cmpAbsLsu_spec a.lsu b.lsu _ _ _ _ ha.dig hb.dig (by rw [ha.len]; exact ha.fits) (by rw [hb.len]; exact hb.fits),
    ← ha.mant_eq, ← hb.mant_eq, (rem_scale a b).1, (rem_scale a b).2, compare_mul_pos (by positivity)]

/-- The short branch, lines 766-809 (same text as in `remAbs`). -/
def remShort (m : Mode) (lhs rhs : FixedDecimal) (lseg : List Int) (lhsNonZero dividendShift lshift rshift remFrac
    remFracUnits : Int) : Out FixedDecimal FixedDecimal := do
  let zero18 : List Int := List.replicate 18 0
  let d ← idx rhs.lsu 0
  let bufLen := lshift + lhsNonZero + 1
  let buf ← copyFromSlice zero18 lshift bufLen lseg
  let rem ← (if dividendShift < 0 then idx lhs.lsu lhsNonZero else .ok 0)
  let stop := 0 + rshift
  let i := bufLen - 1 + dividendShift
  let n := (i - stop + 1).toNat
  let rem ← shortRemLoop m buf d n i rem
  let i := i - n
  let (l, rnz) ← (
    if rem > 0 then do
      let l ← upd zeroUnits (i + 1) (wrap 32 rem)
      return (l, i + 1)
    else return (zeroUnits, -1) : Out FixedDecimal (List Int × Int))
  let (l, rnz) ← remCopyLoop buf (i + 1).toNat l rnz
  remFinish m l rnz remFrac remFracUnits

/-- The buffers of the long branch, lines 810-844. -/
def remPrep (m : Mode) (f : Int) (lseg rseg : List Int) (lshift rshift buf1Len buf2Len : Int) :
    Out σ (List Int × List Int) :=
  if f = 1 then do
    let buf1 ← copyFromSlice (List.replicate 18 0) lshift buf1Len lseg
    let buf2 ← copyFromSlice (List.replicate 18 0) rshift buf2Len rseg
    return (buf1, buf2)
  else do
    let (l, carry) ← normLoop m f lseg 0
    let buf1 ← copyFromSlice (List.replicate 18 0) lshift buf1Len l
    let buf1 ← (if carry > 0 then upd buf1 buf1Len (wrap 32 carry) else .ok buf1)
    let (r, carry) ← normLoop m f rseg (if carry > 0 then 0 else carry)
    let buf2 ← copyFromSlice (List.replicate 18 0) rshift buf2Len r
    dassert m (carry == 0)
    return (buf1, buf2)

/-- The check of line 900. -/
def remCheck (m : Mode) (buf1 : List Int) (buf1Len : Int) : Out σ Unit :=
  match m with
  | .debug => do
    let chk ← idx buf1 buf1Len
    dassert .debug (chk == 0)
  | .release => .ok ()

/-- The long branch, lines 810-933 (same text as in `remAbs`). -/
def remLong (m : Mode) (rhs : FixedDecimal) (lseg rseg : List Int) (lhsNonZero rhsNonZero dividendShift lshift rshift
    remFrac remFracUnits : Int) : Out FixedDecimal FixedDecimal := do
  let buf1Len := lhsNonZero + 1 + lshift
  let buf2Len := rhsNonZero + 1 + rshift
  let rtop ← idx rhs.lsu rhsNonZero
  let normFactor ← idiv UNIT (rtop + 1)
  let (buf1, buf2) ← remPrep m normFactor lseg rseg lshift rshift buf1Len buf2Len
  let stop := buf2Len - 1
  let d0 ← idx buf2 (rhsNonZero + rshift)
  let d1 ← idx buf2 (rhsNonZero + rshift - 1)
  let i := buf1Len + dividendShift - 1
  let seg2 ← slice buf2 0 buf2Len
  let buf1 ← longRemLoop m seg2 d0 d1 (i - stop + 1).toNat i buf1
  remCheck m buf1 buf1Len
  let (l, rem, rnz) ← unnormLoop m buf1 normFactor buf1Len.toNat 0 (-1) zeroUnits
  dassert m (rem == 0)
  remFinish m l rnz remFrac remFracUnits

theorem zero_lsu : FixedDecimal.zero.lsu = zeroUnits := rfl

theorem remAbs_zero {a b res : FixedDecimal} (ha : WF a) (hb : WF b) (hres : res.lsu.length = 9) (hz : mant b = 0) :
    remAbs m a b res = .err .divisionByZero FixedDecimal.zero := by
  unfold remAbs
  simp only [setZero_eq hres, ha.getIntg, ha.getFrac, hb.getIntg, hb.getFrac, ok_bind, findNonZero_of_zero hb hz]
  rw [if_pos (by norm_num)]

theorem remAbs_of_zero {a b res : FixedDecimal} (ha : WF a) (hb : WF b) (hres : res.lsu.length = 9) (hz : mant b ≠ 0)
    (hz' : mant a = 0) : remAbs m a b res = .ok FixedDecimal.zero := by
  obtain ⟨k, _, _, e⟩ := findNonZero_of_ne hb hz
  unfold remAbs
  simp only [setZero_eq hres, ha.getIntg, ha.getFrac, hb.getIntg, hb.getFrac, ok_bind, findNonZero_of_zero ha hz', e]
  rw [if_neg (show ¬ ((k : Int) < 0) by omega), if_pos (by norm_num)]

theorem remAbs_eq {a b res : FixedDecimal} (ha : WF a) (hb : WF b) (hres : res.lsu.length = 9) {nl nr : Nat}
    (tl : Top a.lsu nl) (tr : Top b.lsu nr) :
    remAbs m a b res =
      match compare (remA a b) (remB a b) with
      | .lt =>
        if (fu b : Int) > fu a then do
          let l ← copyFromSlice zeroUnits ((fu b : Int) - fu a) ((iu a : Int) + fu b) (a.lsu.take (fu a + iu a))
          return { lsu := l, frac := b.frac, intg := BitVec.ofInt 8 a.intgDigits }
        else do
          let l ← copyFromSlice zeroUnits 0 ((fu a : Int) + iu a) (a.lsu.take (fu a + iu a))
          return { lsu := l, frac := max a.frac b.frac, intg := BitVec.ofInt 8 a.intgDigits }
      | .eq => .ok FixedDecimal.zero
      | .gt =>
        if nr = 0 then remShort m a b (a.lsu.take (nl + 1)) nl (divSh a b nl nr) ((fu b - fu a : Nat) : Int)
            ((fu a - fu b : Nat) : Int) (max a.frac b.frac) ((max (fu a) (fu b) : Nat) : Int)
        else remLong m b (a.lsu.take (nl + 1)) (b.lsu.take (nr + 1)) nl nr (divSh a b nl nr) ((fu b - fu a : Nat) : Int)
            ((fu a - fu b : Nat) : Int) (max a.frac b.frac) ((max (fu a) (fu b) : Nat) : Int) := by
  have fl : (findNonZero a.lsu ((iu a : Int) + (fu a : Int)).toNat : Out FixedDecimal Int) = .ok (nl : Int) := by
    obtain ⟨k, _, t, e⟩ := findNonZero_of_ne ha (tl.mant_pos ha).ne'
    rw [e, t.unique tl]
  have fr : (findNonZero b.lsu ((iu b : Int) + (fu b : Int)).toNat : Out FixedDecimal Int) = .ok (nr : Int) := by
    obtain ⟨k, _, t, e⟩ := findNonZero_of_ne hb (tr.mant_pos hb).ne'
    rw [e, t.unique tr]
  have h1 := tl.lt
  have h2 := tr.lt
  have hfa := ha.fits
  have hal := ha.len
  unfold remAbs
  simp only [setZero_eq hres, ha.getIntg, ha.getFrac, hb.getIntg, hb.getFrac, ok_bind, fl, fr, rem_cmp ha hb]
  rw [if_neg (show ¬ ((nr : Int) < 0) by omega), if_neg (show ¬ ((nl : Int) < 0) by omega)]
  have hsrc : (slice a.lsu 0 ((fu a : Int) + iu a) : Out FixedDecimal _) = .ok (a.lsu.take (fu a + iu a)) := by
    rw [slice_ok (by omega) (by omega) (by omega)]
    simp only [Int.toNat_zero, List.drop_zero]
    congr 2
  have hg : (getUnits m (max a.frac b.frac) : Out FixedDecimal Int) = .ok ((max (fu a) (fu b) : Nat) : Int) := by
    rw [maxfrac_eq ha hb, getUnits_nat (by have := ha.frac_le; have := hb.frac_le; omega), unitsFor_max]
    rfl
  have hl' : (slice a.lsu 0 ((nl : Int) + 1) : Out FixedDecimal _) = .ok (a.lsu.take (nl + 1)) := by
    rw [slice_ok (by omega) (by omega) (by omega), take_seg]; rfl
  have hr' : (slice b.lsu 0 ((nr : Int) + 1) : Out FixedDecimal _) = .ok (b.lsu.take (nr + 1)) := by
    rw [slice_ok (by omega) (by omega) (by omega), take_seg]; rfl
  have hge : unitsGreaterEqual (a.lsu.take (nl + 1)) (b.lsu.take (nr + 1)) = decide (divGe a b nl nr) := ge_seg ha hb tl tr
  have hS : (if decide (divGe a b nl nr) = true then 0 else -1 : Int) = divSh a b nl nr := by
    unfold divSh; simp only [decide_eq_true_eq]
  have hls : (if (fu a : Int) < fu b then (fu b : Int) - fu a else 0) = ((fu b - fu a : Nat) : Int) := by
    split_ifs <;> omega
  have hrs : (if (fu a : Int) < fu b then 0 else (fu a : Int) - fu b) = ((fu a - fu b : Nat) : Int) := by
    split_ifs <;> omega
  cases hc : compare (remA a b) (remB a b) with
  | lt =>
    dsimp only
    rw [hsrc]
    simp only [ok_bind, zero_lsu]
  | eq => rfl
  | gt =>
    dsimp only
    simp only [hg, ok_bind, hl', hr', hge, hS, hls, hrs, zero_lsu]
    by_cases h0 : nr = 0
    · subst h0
      rw [if_pos (by simp), if_pos rfl]
      unfold remShort
      rw [Nat.cast_zero]
    · rw [if_neg h0, if_neg (by omega)]
      unfold remLong
      rw [idx_nat h2, ok_bind, ok_bind]
      refine bindF fun f => ?_
      unfold remPrep remCheck
      refine bindF fun x => ?_
      refine bindF fun d0 => ?_
      refine bindF fun d1 => ?_
      refine bindF fun s => ?_
      refine bindF fun y => ?_
      cases m
      · simp only [bind_assoc']
      · rfl

end Fxd
