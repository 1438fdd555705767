import Verif.Model.Div
/-!
# Specification: division with a limit on the correction loop

The same division and remainder as `Verif/Model/Div.lean`, word for word, except that step D3 gives up (`.panic .diverges`) when the
condition of its correction loop has been tested `K` times.  All other loops of the division run over at most eighteen units.  C92
says that the limit is never reached.
-/

namespace Fxd

/-- `guessQ` (`/repo/src/arith.rs:623-641` and `851-868`) with the limit. -/
def guessQK {σ : Type} (K : Nat) (m : Mode) (buf1 : List Int) (i d0 d1 : Int) : Out σ Int := do
  let u0 ← idx buf1 (i + 1)
  let u1 ← (if i ≥ 0 then idx buf1 i else .ok 0)
  let p ← i64 m (u0 * UNIT)
  let u ← i64 m (p + u1)
  let qhat ← idiv u d0
  let w ← i64 m (qhat * d0)
  let rhat ← i64 m (u - w)
  dassert m (qhat < UNIT)
  let u2 ← (if i > 0 then idx buf1 (i - 1) else .ok 0)
  qhatLoop m d0 d1 u2 K qhat rhat

/-- `longDivLoop` (`/repo/src/arith.rs:621-680`) with the limit. -/
def longDivLoopK {σ : Type} (K : Nat) (m : Mode) (buf2 : List Int) (rhsNonZero d0 d1 : Int) :
    (n : Nat) → (i : Int) → (buf1 res : List Int) → Out σ (List Int)
  | 0, _, _, res => .ok res
  | n + 1, i, buf1, res => do
    let j : Int := n
    let qhat ← guessQK K m buf1 i d0 d1
    let (buf1, carry, borrow) ←
      mulSub m qhat buf2 (rhsNonZero + 1).toNat 0 (i - rhsNonZero) buf1 0 0
    let top ← idx buf1 (i + 1)
    let t ← i32 m (top - wrap 32 carry)
    let borrow ← i32 m (borrow + t)
    if borrow = -1 then do
      let qhat ← i64 m (qhat - 1)
      let buf1 ← divAddBack m j rhsNonZero.toNat 0 buf1 0
      let res ← upd res j (wrap 32 qhat)
      longDivLoopK K m buf2 rhsNonZero d0 d1 n (i - 1) buf1 res
    else do
      let buf1 ← upd buf1 (i + 1) 0
      let res ← upd res j (wrap 32 qhat)
      longDivLoopK K m buf2 rhsNonZero d0 d1 n (i - 1) buf1 res

/-- `divAbs` (`/repo/src/arith.rs:458-684`) with the limit. -/
def divAbsK (K : Nat) (m : Mode) (lhs rhs res : FixedDecimal) (incrFrac : Int) :
    Out FixedDecimal FixedDecimal := do
  let res := res.setZero
  let lhsIntg := lhs.intgDigits
  let liu ← getUnits m lhsIntg
  let lhsFrac := lhs.frac
  let lfu ← getUnits m lhsFrac
  let lhsExtFrac := lfu * DIGITS_PER_UNIT
  let rhsIntg := rhs.intgDigits
  let riu ← getUnits m rhsIntg
  let rhsFrac := rhs.frac
  let rfu ← getUnits m rhsFrac
  let rhsExtFrac := rfu * DIGITS_PER_UNIT
  let rhsNonZero ← findNonZero rhs.lsu (riu + rfu).toNat
  if rhsNonZero < 0 then .err .divisionByZero res
  else do
  let lhsNonZero ← findNonZero lhs.lsu (liu + lfu).toNat
  if lhsNonZero < 0 then .ok res
  else do
  let rtop ← idx rhs.lsu rhsNonZero
  let rhsPrec := (rhsNonZero + 1) * DIGITS_PER_UNIT - unitLeadingZeroes rtop
  let ltop ← idx lhs.lsu lhsNonZero
  let lhsPrec := (lhsNonZero + 1) * DIGITS_PER_UNIT - unitLeadingZeroes ltop
  let incrFrac ← isz m (incrFrac - (lhsExtFrac - lhsFrac + rhsExtFrac - rhsFrac))
  let incrFrac := if incrFrac < 0 then 0 else incrFrac
  let s ← isz m (lhsExtFrac + rhsExtFrac + incrFrac)
  let resFracUnits ← getUnits m (wrap 8 s)
  let resFracUnits := if resFracUnits > MAX_FRAC_UNITS then MAX_FRAC_UNITS else resFracUnits
  let resIntg := (lhsPrec - lhsExtFrac) - (rhsPrec - rhsExtFrac)
  let lseg ← slice lhs.lsu 0 (lhsNonZero + 1)
  let rseg ← slice rhs.lsu 0 (rhsNonZero + 1)
  let ge := unitsGreaterEqual lseg rseg
  let resIntg := if ge then resIntg + 1 else resIntg
  let dividendShift : Int := if ge then 0 else -1
  let (resIntg, resIntgUnits, resFracUnits, resStartIdx) ← (
    if resIntg > 0 then do
      let resIntgUnits ← getUnits m (wrap 8 resIntg)
      if resIntgUnits > MAX_UNITS then .err .overflow res
      else
        let resFracUnits :=
          if resIntgUnits + resFracUnits > MAX_UNITS then MAX_UNITS - resIntgUnits
          else resFracUnits
        .ok (resIntg, resIntgUnits, resFracUnits, resFracUnits + resIntgUnits - 1)
    else do
      let off ← getUnits m (wrap 8 (1 - resIntg))
      return (0, 0, resFracUnits, resFracUnits - off)
    : Out FixedDecimal (Int × Int × Int × Int))
  let resUnits := resIntgUnits + resFracUnits
  let finish := fun (l : List Int) =>
    ({ lsu := l, intg := BitVec.ofInt 8 resIntg
       frac := wrap 8 (resFracUnits * DIGITS_PER_UNIT) } : FixedDecimal)
  if rhsNonZero = 0 then do
    -- short division, lines 553-577
    let d ← idx rhs.lsu 0
    let rem ← (if dividendShift < 0 then idx lhs.lsu lhsNonZero else .ok 0)
    let l ← shortDivLoop m lhs.lsu d (resStartIdx + 1).toNat (lhsNonZero + dividendShift) rem res.lsu
    return finish l
  else do
    -- long division, lines 579-683
    let normFactor ← idiv UNIT (rtop + 1)
    let zero18 : List Int := List.replicate 18 0
    let buf1End := resUnits + lhsNonZero + 1
    let (buf1, buf2) ← (
      if normFactor = 1 then do
        let buf1 ← copyFromSlice zero18 resUnits buf1End lseg
        let buf2 ← copyFromSlice zeroUnits 0 (rhsNonZero + 1) rseg
        return (buf1, buf2)
      else do
        let (l, carry) ← normLoop m normFactor lseg 0
        let buf1 ← copyFromSlice zero18 resUnits buf1End l
        let buf1 ← (if carry > 0 then upd buf1 buf1End (wrap 32 carry) else .ok buf1)
        let (r, carry) ← normLoop m normFactor rseg (if carry > 0 then 0 else carry)
        let buf2 ← copyFromSlice zeroUnits 0 (rhsNonZero + 1) r
        dassert m (carry == 0)
        return (buf1, buf2) : Out FixedDecimal (List Int × List Int))
    let d0 ← idx buf2 rhsNonZero
    let d1 ← idx buf2 (rhsNonZero - 1)
    let l ← longDivLoopK K m buf2 rhsNonZero d0 d1 (resStartIdx + 1).toNat
      (resUnits + lhsNonZero + dividendShift) buf1 res.lsu
    return finish l

/-- `longRemLoop` (`/repo/src/arith.rs:849-898`) with the limit. -/
def longRemLoopK {σ : Type} (K : Nat) (m : Mode) (buf2 : List Int) (d0 d1 : Int) :
    (n : Nat) → (i : Int) → (buf1 : List Int) → Out σ (List Int)
  | 0, _, buf1 => .ok buf1
  | n + 1, i, buf1 => do
    let qhat ← guessQK K m buf1 i d0 d1
    let lo := i - buf2.length + 1
    let seg ← slice buf1 lo (i + 1)
    let (seg, carry, borrow) ← mulSubSeg m qhat seg buf2 0 0
    let buf1 ← copyFromSlice buf1 lo (i + 1) seg
    let top ← idx buf1 (i + 1)
    let t ← i32 m (top - wrap 32 carry)
    let borrow ← i32 m (borrow + t)
    if borrow = -1 then do
      let seg ← slice buf1 lo (i + 1)
      let seg ← negSeg m seg 0
      let buf1 ← copyFromSlice buf1 lo (i + 1) seg
      let buf1 ← upd buf1 (i + 1) 0
      longRemLoopK K m buf2 d0 d1 n (i - 1) buf1
    else do
      let buf1 ← upd buf1 (i + 1) 0
      longRemLoopK K m buf2 d0 d1 n (i - 1) buf1

/-- `remAbs` (`/repo/src/arith.rs:687-934`) with the limit. -/
def remAbsK (K : Nat) (m : Mode) (lhs rhs res : FixedDecimal) : Out FixedDecimal FixedDecimal := do
  let res := res.setZero
  let lhsIntg := lhs.intgDigits
  let liu ← getUnits m lhsIntg
  let lhsFrac := lhs.frac
  let lfu ← getUnits m lhsFrac
  let rhsIntg := rhs.intgDigits
  let riu ← getUnits m rhsIntg
  let rhsFrac := rhs.frac
  let rfu ← getUnits m rhsFrac
  let rhsNonZero ← findNonZero rhs.lsu (riu + rfu).toNat
  if rhsNonZero < 0 then .err .divisionByZero res
  else do
  let lhsNonZero ← findNonZero lhs.lsu (liu + lfu).toNat
  if lhsNonZero < 0 then .ok res
  else do
  match ← cmpAbsLsu liu lfu lhs.lsu riu rfu rhs.lsu with
  | .lt =>
    if rfu > lfu then do
      let src ← slice lhs.lsu 0 (lfu + liu)
      let l ← copyFromSlice res.lsu (rfu - lfu) (liu + rfu) src
      return { lsu := l, frac := rhsFrac, intg := BitVec.ofInt 8 lhsIntg }
    else do
      let src ← slice lhs.lsu 0 (lfu + liu)
      let l ← copyFromSlice res.lsu 0 (lfu + liu) src
      return { lsu := l, frac := max lhsFrac rhsFrac, intg := BitVec.ofInt 8 lhsIntg }
  | .eq => return res
  | .gt => do
    let remFrac := max lhsFrac rhsFrac
    let remFracUnits ← getUnits m remFrac
    let lseg ← slice lhs.lsu 0 (lhsNonZero + 1)
    let rseg ← slice rhs.lsu 0 (rhsNonZero + 1)
    let dividendShift : Int := if unitsGreaterEqual lseg rseg then 0 else -1
    let lshift := if lfu < rfu then rfu - lfu else 0
    let rshift := if lfu < rfu then 0 else lfu - rfu
    let zero18 : List Int := List.replicate 18 0
    if rhsNonZero = 0 then do
      -- short division, lines 766-809
      let d ← idx rhs.lsu 0
      let bufLen := lshift + lhsNonZero + 1
      let buf ← copyFromSlice zero18 lshift bufLen lseg
      let rem ← (if dividendShift < 0 then idx lhs.lsu lhsNonZero else .ok 0)
      let stop := rhsNonZero + rshift
      let i := bufLen - 1 + dividendShift
      let n := (i - stop + 1).toNat
      let rem ← shortRemLoop m buf d n i rem
      let i := i - n
      let (l, rnz) ← (
        if rem > 0 then do
          let l ← upd res.lsu (i + 1) (wrap 32 rem)
          return (l, i + 1)
        else return (res.lsu, -1) : Out FixedDecimal (List Int × Int))
      let (l, rnz) ← remCopyLoop buf (i + 1).toNat l rnz
      remFinish m l rnz remFrac remFracUnits
    else do
      -- long division, lines 810-933
      let buf1Len := lhsNonZero + 1 + lshift
      let buf2Len := rhsNonZero + 1 + rshift
      let rtop ← idx rhs.lsu rhsNonZero
      let normFactor ← idiv UNIT (rtop + 1)
      let (buf1, buf2) ← (
        if normFactor = 1 then do
          let buf1 ← copyFromSlice zero18 lshift buf1Len lseg
          let buf2 ← copyFromSlice zero18 rshift buf2Len rseg
          return (buf1, buf2)
        else do
          let (l, carry) ← normLoop m normFactor lseg 0
          let buf1 ← copyFromSlice zero18 lshift buf1Len l
          let buf1 ← (if carry > 0 then upd buf1 buf1Len (wrap 32 carry) else .ok buf1)
          let (r, carry) ← normLoop m normFactor rseg (if carry > 0 then 0 else carry)
          let buf2 ← copyFromSlice zero18 rshift buf2Len r
          dassert m (carry == 0)
          return (buf1, buf2) : Out FixedDecimal (List Int × List Int))
      let stop := buf2Len - 1
      let d0 ← idx buf2 (rhsNonZero + rshift)
      let d1 ← idx buf2 (rhsNonZero + rshift - 1)
      let i := buf1Len + dividendShift - 1
      let seg2 ← slice buf2 0 buf2Len
      let buf1 ← longRemLoopK K m seg2 d0 d1 (i - stop + 1).toNat i buf1
      -- line 900: a release build does not even evaluate the index
      match m with
      | .debug => do
        let chk ← idx buf1 buf1Len
        dassert .debug (chk == 0)
      | .release => .ok ()
      let (l, rem, rnz) ← unnormLoop m buf1 normFactor buf1Len.toNat 0 (-1) res.lsu
      dassert m (rem == 0)
      remFinish m l rnz remFrac remFracUnits

namespace FixedDecimal

/-- `div_to` (`/repo/src/arith.rs:84-91`) with the limit. -/
def divToK (K : Nat) (m : Mode) (lhs rhs res : FixedDecimal) (incrFrac : Int) : Out FixedDecimal FixedDecimal := do
  let resNeg := lhs.isNeg != rhs.isNeg
  let res ← divAbsK K m lhs rhs res (wrap 64 incrFrac)
  return if resNeg then res.setNegAndCheckZero else res

/-- `rem_to` (`/repo/src/arith.rs:94-101`) with the limit. -/
def remToK (K : Nat) (m : Mode) (lhs rhs res : FixedDecimal) : Out FixedDecimal FixedDecimal := do
  let resNeg := lhs.isNeg
  let res ← remAbsK K m lhs rhs res
  return if resNeg then res.setNegAndCheckZero else res

end FixedDecimal
end Fxd
