import Verif.Model.Round
/-!
# `/repo/src/arith.rs`: multiplication
-/

namespace Fxd

/-- The inner loop of `mul_abs`, `/repo/src/arith.rs:424-441`, over the units of `lhs`.  State:
`res_idx`, `carry`, the result units. -/
def mulInner {σ : Type} (m : Mode) (rv rhsIdx shift : Int) :
    List Int → (lhsIdx : Int) → (resIdx carry : Int) → (res : List Int) →
    Out σ (Int × Int × List Int)
  | [], _, resIdx, carry, res => .ok (resIdx, carry, res)
  | lv :: lvs, lhsIdx, _, carry, res =>
    let resIdx := lhsIdx + rhsIdx - shift
    if resIdx < -1 then mulInner m rv rhsIdx shift lvs (lhsIdx + 1) resIdx carry res
    else if resIdx = -1 then do
      let v ← i64 m (lv * rv)
      if v < UNIT then mulInner m rv rhsIdx shift lvs (lhsIdx + 1) resIdx carry res
      else mulInner m rv rhsIdx shift lvs (lhsIdx + 1) resIdx (v.tdiv UNIT) res
    else do
      let p ← i64 m (lv * rv)
      let old ← idx res resIdx
      let s ← i64 m (p + old)
      let v ← i64 m (s + carry)
      let carry := v.tdiv UNIT
      let w ← i64 m (carry * UNIT)
      let d ← i64 m (v - w)
      let res ← upd res resIdx (wrap 32 d)
      mulInner m rv rhsIdx shift lvs (lhsIdx + 1) resIdx carry res

/-- The outer loop of `mul_abs`, `/repo/src/arith.rs:422-449`, over the units of `rhs`; `lunits` is
`lhs.lsu[..liu + lfu]`.  `back` puts the units into the output parameter, so that `Err(Overflow)`
shows the state it leaves behind. -/
def mulOuter {σ : Type} (m : Mode) (lunits : List Int) (shift : Int) (back : List Int → σ) :
    List Int → (rhsIdx : Int) → (res : List Int) → Out σ (List Int)
  | [], _, res => .ok res
  | rv :: rvs, rhsIdx, res => do
    let (resIdx, carry, res) ← mulInner m rv rhsIdx shift lunits 0 (-1) 0 res
    dassert m (resIdx ≥ 0)
    if resIdx + 1 < MAX_UNITS then do
      let res ← upd res (resIdx + 1) (wrap 32 carry)
      mulOuter m lunits shift back rvs (rhsIdx + 1) res
    else if carry > 0 then .err .overflow (back res)
    else mulOuter m lunits shift back rvs (rhsIdx + 1) res

/-- The expression `lhs.lsu[..(liu + lfu) as usize]` of `/repo/src/arith.rs:424`. It stands in the body of the outer loop: if that
does not run (`runits` is empty), the slice is not taken and cannot panic. Otherwise it is taken once per iteration, each time with
the same outcome; the model takes it once. -/
def mulUnits {σ : Type} (lsu : List Int) (n : Int) : (runits : List Int) → Out σ (List Int)
  | [] => .ok []
  | _ :: _ => slice lsu 0 n

/-- Models `mul_abs`, `/repo/src/arith.rs:390-453`. (`shift` is cast to `isize`, line 419; it is never negative, so the cast keeps
its value.) -/
def mulAbs (m : Mode) (lhs rhs res : FixedDecimal) : Out FixedDecimal FixedDecimal := do
  let res := res.setZero
  let resIntgDigits ← i8 m (lhs.intgDigits + rhs.intgDigits)
  let resIntgUnits ← getUnits m resIntgDigits
  let resFracDigits ← i8 m (lhs.frac + rhs.frac)
  let resFracUnits ← getUnits m resFracDigits
  if resIntgUnits > MAX_UNITS then .err .overflow res
  else do
    let resFracUnits :=
      if resIntgUnits + resFracUnits > MAX_UNITS then MAX_UNITS - resIntgUnits else resFracUnits
    let resFracUnits := if resFracUnits > MAX_FRAC_UNITS then MAX_FRAC_UNITS else resFracUnits
    let liu ← lhs.intgUnits m
    let lfu ← lhs.fracUnits m
    let riu ← rhs.intgUnits m
    let rfu ← rhs.fracUnits m
    let shift ← usz m (lfu + rfu - resFracUnits)
    let runits ← slice rhs.lsu 0 (riu + rfu)
    let lunits ← mulUnits lhs.lsu (liu + lfu) runits
    let rlsu ← mulOuter m lunits shift (fun l => { res with lsu := l }) runits 0 res.lsu
    return { lsu := rlsu
             frac := min resFracDigits (wrap 8 (resFracUnits * DIGITS_PER_UNIT))
             intg := BitVec.ofInt 8 (resIntgUnits * DIGITS_PER_UNIT) }

namespace FixedDecimal

/-- Models `mul_to`, `/repo/src/arith.rs:70-81`. -/
def mulTo (m : Mode) (lhs rhs res : FixedDecimal) : Out FixedDecimal FixedDecimal :=
  if lhs.isZero || rhs.isZero then .ok res.setZero
  else do
    let resNeg := lhs.isNeg != rhs.isNeg
    let res ← mulAbs m lhs rhs res
    return if resNeg then res.setNegAndCheckZero else res

end FixedDecimal
end Fxd
