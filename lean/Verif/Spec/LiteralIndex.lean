import Verif.Model.Div
/-!
# Specification: division with the index expression `i as usize + 1` spelled out

The same division as `Verif/Model/Div.lean`, word for word, except that the read `buf1[i as usize + 1]` of `/repo/src/arith.rs:623`
is written as the machine does it: the cast turns `i = -1` into `2^64 - 1`, and adding one to that is a trap in a debug build and
zero in a release build.  (`Verif/Model/Div.lean` adds first, as `rem_abs` does on line 851, `buf1[(i + 1) as usize]`.)
`C93_index` says that both give the same division: the index is never negative there.
-/

namespace Fxd

/-- `l[i as usize + 1]`, `/repo/src/arith.rs:623`: cast to 64 bits without sign, then add one, then the bounds check. -/
def idxCastSucc {σ : Type} (m : Mode) (l : List Int) (i : Int) : Out σ Int := do
  let k ← usz m (i % 2 ^ 64 + 1)
  idx l k

/-- `guessQ` (`/repo/src/arith.rs:623-641`) with the index spelled out. -/
def guessQLit {σ : Type} (m : Mode) (buf1 : List Int) (i d0 d1 : Int) : Out σ Int := do
  let u0 ← idxCastSucc m buf1 i
  let u1 ← (if i ≥ 0 then idx buf1 i else .ok 0)
  let p ← i64 m (u0 * UNIT)
  let u ← i64 m (p + u1)
  let qhat ← idiv u d0
  let w ← i64 m (qhat * d0)
  let rhat ← i64 m (u - w)
  dassert m (qhat < UNIT)
  let u2 ← (if i > 0 then idx buf1 (i - 1) else .ok 0)
  qhatLoop m d0 d1 u2 qhatFuel qhat rhat

/-- `longDivLoop` (`/repo/src/arith.rs:621-680`) with the index spelled out. -/
def longDivLoopLit {σ : Type} (m : Mode) (buf2 : List Int) (rhsNonZero d0 d1 : Int) :
    (n : Nat) → (i : Int) → (buf1 res : List Int) → Out σ (List Int)
  | 0, _, _, res => .ok res
  | n + 1, i, buf1, res => do
    let j : Int := n
    let qhat ← guessQLit m buf1 i d0 d1
    let (buf1, carry, borrow) ←
      mulSub m qhat buf2 (rhsNonZero + 1).toNat 0 (i - rhsNonZero) buf1 0 0
    let top ← idx buf1 (i + 1)
    let t ← i32 m (top - wrap 32 carry)
    let borrow ← i32 m (borrow + t)
    if borrow = -1 then do
      let qhat ← i64 m (qhat - 1)
      let buf1 ← divAddBack m j rhsNonZero.toNat 0 buf1 0
      let res ← upd res j (wrap 32 qhat)
      longDivLoopLit m buf2 rhsNonZero d0 d1 n (i - 1) buf1 res
    else do
      let buf1 ← upd buf1 (i + 1) 0
      let res ← upd res j (wrap 32 qhat)
      longDivLoopLit m buf2 rhsNonZero d0 d1 n (i - 1) buf1 res

/-- `divAbs` (`/repo/src/arith.rs:458-684`) with the index spelled out. -/
def divAbsLit (m : Mode) (lhs rhs res : FixedDecimal) (incrFrac : Int) :
    Out FixedDecimal FixedDecimal := do
  let res := res.setZero
  let lhsIntg := lhs.intgDigits
  let liu ← getUnits m lhsIntg
  let lhsFrac := lhs.frac
  let lfu ← getUnits m lhsFrac
  let lhsExtFrac := lfu * DIGITS_PER_UNIT
  let rhsIntg := rhs.intgDigits
  let riu ← getUnits m rhsIntg
  let rhsFrac := rhs.frac
  let rfu ← getUnits m rhsFrac
  let rhsExtFrac := rfu * DIGITS_PER_UNIT
  let rhsNonZero ← findNonZero rhs.lsu (riu + rfu).toNat
  if rhsNonZero < 0 then .err .divisionByZero res
  else do
  let lhsNonZero ← findNonZero lhs.lsu (liu + lfu).toNat
  if lhsNonZero < 0 then .ok res
  else do
  let rtop ← idx rhs.lsu rhsNonZero
  let rhsPrec := (rhsNonZero + 1) * DIGITS_PER_UNIT - unitLeadingZeroes rtop
  let ltop ← idx lhs.lsu lhsNonZero
  let lhsPrec := (lhsNonZero + 1) * DIGITS_PER_UNIT - unitLeadingZeroes ltop
  let incrFrac ← isz m (incrFrac - (lhsExtFrac - lhsFrac + rhsExtFrac - rhsFrac))
  let incrFrac := if incrFrac < 0 then 0 else incrFrac
  let s ← isz m (lhsExtFrac + rhsExtFrac + incrFrac)
  let resFracUnits ← getUnits m (wrap 8 s)
  let resFracUnits := if resFracUnits > MAX_FRAC_UNITS then MAX_FRAC_UNITS else resFracUnits
  let resIntg := (lhsPrec - lhsExtFrac) - (rhsPrec - rhsExtFrac)
  let lseg ← slice lhs.lsu 0 (lhsNonZero + 1)
  let rseg ← slice rhs.lsu 0 (rhsNonZero + 1)
  let ge := unitsGreaterEqual lseg rseg
  let resIntg := if ge then resIntg + 1 else resIntg
  let dividendShift : Int := if ge then 0 else -1
  let (resIntg, resIntgUnits, resFracUnits, resStartIdx) ← (
    if resIntg > 0 then do
      let resIntgUnits ← getUnits m (wrap 8 resIntg)
      if resIntgUnits > MAX_UNITS then .err .overflow res
      else
        let resFracUnits :=
          if resIntgUnits + resFracUnits > MAX_UNITS then MAX_UNITS - resIntgUnits
          else resFracUnits
        .ok (resIntg, resIntgUnits, resFracUnits, resFracUnits + resIntgUnits - 1)
    else do
      let off ← getUnits m (wrap 8 (1 - resIntg))
      return (0, 0, resFracUnits, resFracUnits - off)
    : Out FixedDecimal (Int × Int × Int × Int))
  let resUnits := resIntgUnits + resFracUnits
  let finish := fun (l : List Int) =>
    ({ lsu := l, intg := BitVec.ofInt 8 resIntg
       frac := wrap 8 (resFracUnits * DIGITS_PER_UNIT) } : FixedDecimal)
  if rhsNonZero = 0 then do
    -- short division, lines 553-577
    let d ← idx rhs.lsu 0
    let rem ← (if dividendShift < 0 then idx lhs.lsu lhsNonZero else .ok 0)
    let l ← shortDivLoop m lhs.lsu d (resStartIdx + 1).toNat (lhsNonZero + dividendShift) rem res.lsu
    return finish l
  else do
    -- long division, lines 579-683
    let normFactor ← idiv UNIT (rtop + 1)
    let zero18 : List Int := List.replicate 18 0
    let buf1End := resUnits + lhsNonZero + 1
    let (buf1, buf2) ← (
      if normFactor = 1 then do
        let buf1 ← copyFromSlice zero18 resUnits buf1End lseg
        let buf2 ← copyFromSlice zeroUnits 0 (rhsNonZero + 1) rseg
        return (buf1, buf2)
      else do
        let (l, carry) ← normLoop m normFactor lseg 0
        let buf1 ← copyFromSlice zero18 resUnits buf1End l
        let buf1 ← (if carry > 0 then upd buf1 buf1End (wrap 32 carry) else .ok buf1)
        let (r, carry) ← normLoop m normFactor rseg (if carry > 0 then 0 else carry)
        let buf2 ← copyFromSlice zeroUnits 0 (rhsNonZero + 1) r
        dassert m (carry == 0)
        return (buf1, buf2) : Out FixedDecimal (List Int × List Int))
    let d0 ← idx buf2 rhsNonZero
    let d1 ← idx buf2 (rhsNonZero - 1)
    let l ← longDivLoopLit m buf2 rhsNonZero d0 d1 (resStartIdx + 1).toNat
      (resUnits + lhsNonZero + dividendShift) buf1 res.lsu
    return finish l

/-- `div_to` (`/repo/src/arith.rs:84-91`) with the index spelled out. -/
def divToLit (m : Mode) (lhs rhs res : FixedDecimal) (incrFrac : Int) : Out FixedDecimal FixedDecimal := do
  let resNeg := lhs.isNeg != rhs.isNeg
  let res ← divAbsLit m lhs rhs res (wrap 64 incrFrac)
  return if resNeg then res.setNegAndCheckZero else res

end Fxd
