import Verif.Model.Round
/-!
# `/repo/src/arith.rs`: addition and subtraction
-/

namespace Fxd

/-- The common-segment loop of `add_abs`, `/repo/src/arith.rs:225-232`: `while res_idx < stop`, `n =
stop - res_idx` iterations. Returns the result units and the carry. -/
def addCommon {σ : Type} (m : Mode) (llsu rlsu : List Int) :
    (n : Nat) → (lhsIdx rhsIdx resIdx : Int) → (res : List Int) → (carry : Int) →
    Out σ (List Int × Int)
  | 0, _, _, _, res, carry => .ok (res, carry)
  | n + 1, lhsIdx, rhsIdx, resIdx, res, carry => do
    let a ← idx llsu lhsIdx
    let b ← idx rlsu rhsIdx
    let (r0, c0) ← addWithCarry m a b carry
    let res ← upd res resIdx r0
    addCommon m llsu rlsu n (lhsIdx + 1) (rhsIdx + 1) (resIdx + 1) res c0

/-- The loop over integral units only one operand has, `/repo/src/arith.rs:237-243` and `250-256`:
`n = stop - lhs_idx` iterations. -/
def addExtra {σ : Type} (m : Mode) (lsu : List Int) :
    (n : Nat) → (lhsIdx resIdx : Int) → (res : List Int) → (carry : Int) →
    Out σ (List Int × Int)
  | 0, _, _, res, carry => .ok (res, carry)
  | n + 1, lhsIdx, resIdx, res, carry => do
    let a ← idx lsu lhsIdx
    let (r0, c0) ← addWithCarry m a 0 carry
    let res ← upd res resIdx r0
    addExtra m lsu n (lhsIdx + 1) (resIdx + 1) res c0

/-- The search for the leading non-zero integral unit at the end of `add_abs` and `sub_abs`,
`/repo/src/arith.rs:268-273` and `373-378`: `while res_intg_non_zero >= 0`.  The argument is
`res_intg_non_zero + 1`; the answer is the final `res_intg_non_zero`, `-1` when none was found. -/
def findTop {σ : Type} (lsu : List Int) (fracUnits : Int) : (n : Nat) → Out σ Int
  | 0 => .ok (-1)
  | n + 1 => do
    let v ← idx lsu (n + fracUnits)
    if v > 0 then return (n : Int)
    findTop lsu fracUnits n

/-- Models `add_abs`, `/repo/src/arith.rs:199-280`. -/
def addAbs (m : Mode) (lhs rhs res : FixedDecimal) : Out FixedDecimal FixedDecimal := do
  let res := res.setZero
  let liu ← lhs.intgUnits m
  let lfu ← lhs.fracUnits m
  let riu ← rhs.intgUnits m
  let rfu ← rhs.fracUnits m
  let diff := lfu - rfu
  let (rlsu, lhsIdx, rhsIdx, resIdx) ← (
    if diff > 0 then do
      let src ← slice lhs.lsu 0 diff
      let rl ← copyFromSlice res.lsu 0 diff src
      return (rl, diff, 0, diff)
    else if diff < 0 then do
      let diff := -diff
      let src ← slice rhs.lsu 0 diff
      let rl ← copyFromSlice res.lsu 0 diff src
      return (rl, 0, diff, diff)
    else return (res.lsu, 0, 0, 0) : Out FixedDecimal (List Int × Int × Int × Int))
  let n := min liu riu + min lfu rfu
  let (rlsu, carry) ← addCommon m lhs.lsu rhs.lsu n.toNat lhsIdx rhsIdx resIdx rlsu 0
  let lhsIdx := lhsIdx + n
  let rhsIdx := rhsIdx + n
  let resIdx := resIdx + n
  let intgDiff := liu - riu
  let (rlsu, carry) ← (
    if intgDiff > 0 then do
      let (rl, carry) ← addExtra m lhs.lsu intgDiff.toNat lhsIdx resIdx rlsu carry
      let rl ← (if carry > 0 then upd rl (resIdx + intgDiff) carry else .ok rl)
      return (rl, carry)
    else if intgDiff < 0 then do
      let (rl, carry) ← addExtra m rhs.lsu (-intgDiff).toNat rhsIdx resIdx rlsu carry
      let rl ← (if carry > 0 then upd rl (resIdx - intgDiff) carry else .ok rl)
      return (rl, carry)
    else do
      let rl ← (if carry ≠ 0 then upd rlsu resIdx carry else .ok rlsu)
      return (rl, carry) : Out FixedDecimal (List Int × Int))
  let frac := max lhs.frac rhs.frac
  let res := { res with lsu := rlsu, frac := frac }
  let fu ← res.fracUnits m
  let top ← findTop rlsu fu (max liu riu + carry + 1).toNat
  if top ≥ 0 then
    return { res with intg := BitVec.ofInt 8 ((top + 1) * DIGITS_PER_UNIT) }
  else return { res with intg := 0#8 }

/-- The low fractional units of `sub_abs` when only `rhs` has them, `/repo/src/arith.rs:312-321`
(`res` and `rhs` zipped, at most `diff` elements). Returns the new prefix and the borrow. -/
def subLow {σ : Type} (m : Mode) : List Int → (borrow : Int) → Out σ (List Int × Int)
  | [], borrow => .ok ([], borrow)
  | rv :: rvs, borrow => do
    let (r0, b0) ← subWithBorrow m 0 rv borrow
    let (rest, b) ← subLow m rvs b0
    return (r0 :: rest, b)

/-- The common-segment loop of `sub_abs`, `/repo/src/arith.rs:328-336`. -/
def subCommon {σ : Type} (m : Mode) (llsu rlsu : List Int) :
    (n : Nat) → (lhsIdx rhsIdx resIdx : Int) → (res : List Int) → (borrow : Int) →
    Out σ (List Int × Int)
  | 0, _, _, _, res, borrow => .ok (res, borrow)
  | n + 1, lhsIdx, rhsIdx, resIdx, res, borrow => do
    let a ← idx llsu lhsIdx
    let b ← idx rlsu rhsIdx
    let (r0, b0) ← subWithBorrow m a b borrow
    let res ← upd res resIdx r0
    subCommon m llsu rlsu n (lhsIdx + 1) (rhsIdx + 1) (resIdx + 1) res b0

/-- Extra integral units of the minuend, `/repo/src/arith.rs:341-347`. -/
def subExtraL {σ : Type} (m : Mode) (lsu : List Int) :
    (n : Nat) → (lhsIdx resIdx : Int) → (res : List Int) → (borrow : Int) →
    Out σ (List Int × Int)
  | 0, _, _, res, borrow => .ok (res, borrow)
  | n + 1, lhsIdx, resIdx, res, borrow => do
    let a ← idx lsu lhsIdx
    let (r0, b0) ← subWithBorrow m a 0 borrow
    let res ← upd res resIdx r0
    subExtraL m lsu n (lhsIdx + 1) (resIdx + 1) res b0

/-- Extra integral units of the subtrahend, `/repo/src/arith.rs:351-357`. -/
def subExtraR {σ : Type} (m : Mode) (lsu : List Int) :
    (n : Nat) → (rhsIdx resIdx : Int) → (res : List Int) → (borrow : Int) →
    Out σ (List Int × Int)
  | 0, _, _, res, borrow => .ok (res, borrow)
  | n + 1, rhsIdx, resIdx, res, borrow => do
    let a ← idx lsu rhsIdx
    let (r0, b0) ← subWithBorrow m 0 a borrow
    let res ← upd res resIdx r0
    subExtraR m lsu n (rhsIdx + 1) (resIdx + 1) res b0

/-- The final negation pass of `sub_abs`, `/repo/src/arith.rs:364-368`: `for i in 0..res_idx`. -/
def negLoop {σ : Type} (m : Mode) :
    (n : Nat) → (i : Int) → (res : List Int) → (borrow : Int) → Out σ (List Int)
  | 0, _, res, _ => .ok res
  | n + 1, i, res, borrow => do
    let v ← idx res i
    let (r0, b0) ← subWithBorrow m 0 v borrow
    let res ← upd res i r0
    negLoop m n (i + 1) res b0

/-- Models `sub_abs`, `/repo/src/arith.rs:292-385`: the new `res` and the negative flag. -/
def subAbs (m : Mode) (lhs rhs res : FixedDecimal) : Out FixedDecimal (FixedDecimal × Bool) := do
  let res := res.setZero
  let liu ← lhs.intgUnits m
  let lfu ← lhs.fracUnits m
  let riu ← rhs.intgUnits m
  let rfu ← rhs.fracUnits m
  let diff := lfu - rfu
  let (rlsu, lhsIdx, rhsIdx, resIdx, borrow) ← (
    if diff > 0 then do
      let src ← slice lhs.lsu 0 diff
      let rl ← copyFromSlice res.lsu 0 diff src
      return (rl, diff, 0, diff, 0)
    else if diff < 0 then do
      let diff := -diff
      let (low, b) ← subLow m (rhs.lsu.take (min diff.toNat res.lsu.length)) 0
      return (low ++ res.lsu.drop low.length, 0, diff, diff, b)
    else return (res.lsu, 0, 0, 0, 0) : Out FixedDecimal (List Int × Int × Int × Int × Int))
  let n := min liu riu + min lfu rfu
  let (rlsu, borrow) ← subCommon m lhs.lsu rhs.lsu n.toNat lhsIdx rhsIdx resIdx rlsu borrow
  let lhsIdx := lhsIdx + n
  let rhsIdx := rhsIdx + n
  let resIdx := resIdx + n
  let intgDiff := liu - riu
  let (rlsu, borrow, resIdx) ← (
    if intgDiff > 0 then do
      let (rl, b) ← subExtraL m lhs.lsu intgDiff.toNat lhsIdx resIdx rlsu borrow
      return (rl, b, resIdx + intgDiff)
    else if intgDiff < 0 then do
      let (rl, b) ← subExtraR m rhs.lsu (-intgDiff).toNat rhsIdx resIdx rlsu borrow
      return (rl, b, resIdx - intgDiff)
    else return (rlsu, borrow, resIdx) : Out FixedDecimal (List Int × Int × Int))
  let neg : Bool := borrow == -1
  let rlsu ← (if neg then negLoop m resIdx.toNat 0 rlsu 0 else .ok rlsu)
  let frac := max lhs.frac rhs.frac
  let res := { res with lsu := rlsu, frac := frac }
  let fu ← res.fracUnits m
  let top ← findTop rlsu fu (max liu riu + 1).toNat
  if top ≥ 0 then
    return ({ res with intg := BitVec.ofInt 8 ((top + 1) * DIGITS_PER_UNIT) }, neg)
  else return ({ res with intg := 0#8 }, neg)

namespace FixedDecimal

/-- Models `add_to`, `/repo/src/arith.rs:13-36`; `res` is the caller's output parameter, the answer
its new value. -/
def addTo (m : Mode) (lhs rhs res : FixedDecimal) : Out FixedDecimal FixedDecimal :=
  if lhs.isZero then .ok rhs
  else if rhs.isZero then .ok lhs
  else
    let lneg := lhs.isNeg
    let rneg := rhs.isNeg
    if lneg = rneg then do
      let res ← addAbs m lhs rhs res
      return if lneg then res.setNegAndCheckZero else res
    else do
      let (res, subNeg) ← subAbs m lhs rhs res
      return if subNeg ≠ lneg then res.setNegAndCheckZero else res

/-- Models `sub_to`, `/repo/src/arith.rs:39-67`. -/
def subTo (m : Mode) (lhs rhs res : FixedDecimal) : Out FixedDecimal FixedDecimal :=
  if lhs.isZero then
    let res := rhs
    if res.isNeg then .ok res.setPos else .ok res.setNegAndCheckZero
  else if rhs.isZero then .ok lhs
  else
    let lneg := lhs.isNeg
    let rneg := rhs.isNeg
    if lneg ≠ rneg then do
      let res ← addAbs m lhs rhs res
      return if lneg then res.setNegAndCheckZero else res
    else do
      let (res, subNeg) ← subAbs m lhs rhs res
      return if subNeg ≠ lneg then res.setNegAndCheckZero else res

end FixedDecimal
end Fxd
