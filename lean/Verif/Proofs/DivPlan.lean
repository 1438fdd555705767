import Verif.Proofs.DivShort
import Verif.Proofs.RoundLemmas
/-!
# The plan of a division: sizes and positions of the result
-/

namespace Fxd
open Spec

variable {σ : Type} {m : Mode}

theorem bindF {α β : Type} {x : Out σ α} {f g : α → Out σ β} (h : ∀ a, f a = g a) : (x >>= f) = (x >>= g) := by
  rw [show f = g from funext h]

/-- The last part of `div_abs`, from line 551 on (same text as in `divAbs`). -/
def divTail (m : Mode) (lhs rhs : FixedDecimal) (nl nr sh resIntg ri rf start : Int) :
    Out FixedDecimal FixedDecimal := do
  let finish := fun (l : List Int) =>
    ({ lsu := l, intg := BitVec.ofInt 8 resIntg
       frac := wrap 8 (rf * DIGITS_PER_UNIT) } : FixedDecimal)
  if nr = 0 then do
    let d ← idx rhs.lsu 0
    let rem ← (if sh < 0 then .ok (dg lhs.lsu nl.toNat) else .ok 0)
    let l ← shortDivLoop m lhs.lsu d (start + 1).toNat (nl + sh) rem zeroUnits
    return finish l
  else do
    let normFactor ← idiv UNIT (dg rhs.lsu nr.toNat + 1)
    let zero18 : List Int := List.replicate 18 0
    let buf1End := ri + rf + nl + 1
    let (buf1, buf2) ← (
      if normFactor = 1 then do
        let buf1 ← copyFromSlice zero18 (ri + rf) buf1End (lhs.lsu.take (nl + 1).toNat)
        let buf2 ← copyFromSlice zeroUnits 0 (nr + 1) (rhs.lsu.take (nr + 1).toNat)
        return (buf1, buf2)
      else do
        let (l, carry) ← normLoop m normFactor (lhs.lsu.take (nl + 1).toNat) 0
        let buf1 ← copyFromSlice zero18 (ri + rf) buf1End l
        let buf1 ← (if carry > 0 then upd buf1 buf1End (wrap 32 carry) else .ok buf1)
        let (r, carry) ← normLoop m normFactor (rhs.lsu.take (nr + 1).toNat) (if carry > 0 then 0 else carry)
        let buf2 ← copyFromSlice zeroUnits 0 (nr + 1) r
        dassert m (carry == 0)
        return (buf1, buf2) : Out FixedDecimal (List Int × List Int))
    let d0 ← idx buf2 nr
    let d1 ← idx buf2 (nr - 1)
    let l ← longDivLoop m buf2 nr d0 d1 (start + 1).toNat
      (ri + rf + nl + sh) buf1 zeroUnits
    return finish l

/-- The size of the fraction of the result, lines 506-517. -/
def divFrac (m : Mode) (lhs rhs : FixedDecimal) (incr : Int) : Out FixedDecimal Int := do
  let x ← isz m (incr - ((fu lhs : Int) * DIGITS_PER_UNIT - lhs.frac + (fu rhs : Int) * DIGITS_PER_UNIT - rhs.frac))
  let x := if x < 0 then 0 else x
  let s ← isz m ((fu lhs : Int) * DIGITS_PER_UNIT + (fu rhs : Int) * DIGITS_PER_UNIT + x)
  let u ← getUnits m (wrap 8 s)
  return if u > MAX_FRAC_UNITS then MAX_FRAC_UNITS else u

/-- Do the leading units of the dividend reach those of the divisor? -/
def divGe (lhs rhs : FixedDecimal) (nl nr : Nat) : Prop :=
  mant rhs * 1000000000 ^ (nl + 1) ≤ mant lhs * 1000000000 ^ (nr + 1)
instance (lhs rhs : FixedDecimal) (nl nr : Nat) : Decidable (divGe lhs rhs nl nr) := by unfold divGe; infer_instance

/-- Line 518-530: number of integral digits of the result. -/
def divIntg (lhs rhs : FixedDecimal) (nl nr : Nat) : Int :=
  (((nl : Int) + 1) * DIGITS_PER_UNIT - unitLeadingZeroes (dg lhs.lsu nl) - (fu lhs : Int) * DIGITS_PER_UNIT) -
    (((nr : Int) + 1) * DIGITS_PER_UNIT - unitLeadingZeroes (dg rhs.lsu nr) - (fu rhs : Int) * DIGITS_PER_UNIT) +
    (if divGe lhs rhs nl nr then 1 else 0)

/-- Lines 531-548: fit the result into nine units. -/
def divFit (m : Mode) (lhs rhs : FixedDecimal) (nl nr : Nat) (rf : Int) : Out FixedDecimal FixedDecimal :=
  let sh : Int := if divGe lhs rhs nl nr then 0 else -1
  if divIntg lhs rhs nl nr > 0 then do
    let ri ← getUnits m (wrap 8 (divIntg lhs rhs nl nr))
    if ri > MAX_UNITS then .err .overflow FixedDecimal.zero
    else
      let rf := if ri + rf > MAX_UNITS then MAX_UNITS - ri else rf
      divTail m lhs rhs nl nr sh (divIntg lhs rhs nl nr) ri rf (rf + ri - 1)
  else do
    let off ← getUnits m (wrap 8 (1 - divIntg lhs rhs nl nr))
    divTail m lhs rhs nl nr sh 0 0 rf (rf - off)

theorem take_seg {l : List Int} {k : Nat} : ((l.drop (0 : Int).toNat).take (((k : Int) + 1 - 0)).toNat) =
    l.take ((k : Int) + 1).toNat := by
  simp

theorem ge_seg {a b : FixedDecimal} (ha : WF a) (hb : WF b) {nl nr : Nat} (tl : Top a.lsu nl) (tr : Top b.lsu nr) :
    unitsGreaterEqual (a.lsu.take ((nl : Int) + 1).toNat) (b.lsu.take ((nr : Int) + 1).toNat) =
      decide (divGe a b nl nr) := by
  have h1 := tl.lt
  have h2 := tr.lt
  rw [Bool.eq_iff_iff, unitsGreaterEqual_spec (ha.digL.take _) (hb.digL.take _), decide_eq_true_iff]
  rw [show ((nl : Int) + 1).toNat = nl + 1 by omega, show ((nr : Int) + 1).toNat = nr + 1 by omega]
  rw [unitsVal_take (by omega), unitsVal_take (by omega), List.length_take, List.length_take,
    Nat.min_eq_left (by omega), Nat.min_eq_left (by omega), ← tl.mant ha, ← tr.mant hb]
  rfl

theorem Spec.WF.getIntg {d : FixedDecimal} (h : WF d) : (getUnits m d.intgDigits : Out σ Int) = .ok (iu d : Int) :=
  h.intgUnits
theorem Spec.WF.getFrac {d : FixedDecimal} (h : WF d) : (getUnits m d.frac : Out σ Int) = .ok (fu d : Int) :=
  h.fracUnits

theorem divAbs_eq {a b res : FixedDecimal} (ha : WF a) (hb : WF b) (hres : res.lsu.length = 9) {nl nr : Nat}
    (hnl : nl < iu a + fu a) (hnr : nr < iu b + fu b)
    (tl : Top a.lsu nl) (tr : Top b.lsu nr) (incr : Int) :
    divAbs m a b res incr = (divFrac m a b incr >>= divFit m a b nl nr) := by
  have fl : (findNonZero a.lsu ((iu a : Int) + (fu a : Int)).toNat : Out FixedDecimal Int) = .ok (nl : Int) := by
    obtain ⟨k, _, t, e⟩ := findNonZero_of_ne ha (tl.mant_pos ha).ne'
    rw [e, t.unique tl]
  have fr : (findNonZero b.lsu ((iu b : Int) + (fu b : Int)).toNat : Out FixedDecimal Int) = .ok (nr : Int) := by
    obtain ⟨k, _, t, e⟩ := findNonZero_of_ne hb (tr.mant_pos hb).ne'
    rw [e, t.unique tr]
  have h1 := tl.lt
  have h2 := tr.lt
  unfold divAbs
  simp only [setZero_eq hres, ha.getIntg, ha.getFrac, hb.getIntg, hb.getFrac, ok_bind, fl, fr,
    idx_nat h1, idx_nat h2]
  rw [if_neg (show ¬ ((nr : Int) < 0) by omega), if_neg (show ¬ ((nl : Int) < 0) by omega)]
  unfold divFrac
  simp only [bind_assoc']
  apply bindF
  intro x
  apply bindF
  intro s
  apply bindF
  intro u
  rw [slice_ok (by omega) (by omega) (by omega), slice_ok (by omega) (by omega) (by omega)]
  simp only [ok_bind, take_seg, ge_seg ha hb tl tr]
  have hI : (if decide (divGe a b nl nr) = true then
        ((nl : Int) + 1) * DIGITS_PER_UNIT - unitLeadingZeroes (dg a.lsu nl) - (fu a : Int) * DIGITS_PER_UNIT -
            (((nr : Int) + 1) * DIGITS_PER_UNIT - unitLeadingZeroes (dg b.lsu nr) - (fu b : Int) * DIGITS_PER_UNIT) +
          1
      else
        ((nl : Int) + 1) * DIGITS_PER_UNIT - unitLeadingZeroes (dg a.lsu nl) - (fu a : Int) * DIGITS_PER_UNIT -
            (((nr : Int) + 1) * DIGITS_PER_UNIT - unitLeadingZeroes (dg b.lsu nr) - (fu b : Int) * DIGITS_PER_UNIT)) =
      divIntg a b nl nr := by
    unfold divIntg
    by_cases hg : divGe a b nl nr <;> simp [hg]
  rw [hI]
  have hS : (if decide (divGe a b nl nr) = true then 0 else -1 : Int) = if divGe a b nl nr then 0 else -1 := by
    simp only [decide_eq_true_eq]
  rw [hS]
  unfold divFit
  change _ = (let rf := (if u > MAX_FRAC_UNITS then MAX_FRAC_UNITS else u); let sh : Int := if divGe a b nl nr then 0 else -1
    if divIntg a b nl nr > 0 then do
      let ri ← getUnits m (wrap 8 (divIntg a b nl nr))
      if ri > MAX_UNITS then .err .overflow FixedDecimal.zero
      else
        let rf := if ri + rf > MAX_UNITS then MAX_UNITS - ri else rf
        divTail m a b nl nr sh (divIntg a b nl nr) ri rf (rf + ri - 1)
    else do
      let off ← getUnits m (wrap 8 (1 - divIntg a b nl nr))
      divTail m a b nl nr sh 0 0 rf (rf - off))
  generalize hrf : (if u > MAX_FRAC_UNITS then MAX_FRAC_UNITS else u) = rf
  by_cases hp : divIntg a b nl nr > 0
  · dsimp only
    rw [if_pos hp, if_pos hp]
    simp only [bind_assoc']
    apply bindF
    intro ri
    by_cases ho : ri > MAX_UNITS
    · rw [if_pos ho, if_pos ho]; rfl
    · rw [if_neg ho, if_neg ho]; rfl
  · dsimp only
    rw [if_neg hp, if_neg hp]
    simp only [bind_assoc']
    apply bindF
    intro off
    rfl

end Fxd
