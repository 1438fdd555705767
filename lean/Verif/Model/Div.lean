import Verif.Model.Cmp
import Verif.Model.Round
/-!
# `/repo/src/arith.rs`: division and remainder
-/

namespace Fxd

/-- The searches for the leading non-zero unit, `/repo/src/arith.rs:476-482`, `489-495`, `698-704`,
`710-716`: `while non_zero >= 0`. The argument is `non_zero + 1`; the answer the final `non_zero`. -/
def findNonZero {σ : Type} (lsu : List Int) : (n : Nat) → Out σ Int
  | 0 => .ok (-1)
  | n + 1 => do
    let v ← idx lsu n
    if v > 0 then return (n : Int)
    findNonZero lsu n

/-- The normalisation loops, `/repo/src/arith.rs:593-600`, `606-613`, `825-830`, `837-842`: multiply
by `norm_factor` with carry. Returns the new units and the final carry. -/
def normLoop {σ : Type} (m : Mode) (f : Int) : List Int → (carry : Int) → Out σ (List Int × Int)
  | [], carry => .ok ([], carry)
  | v :: vs, carry => do
    let p ← i64 m (v * f)
    let u ← i64 m (p + carry)
    let c := u.tdiv UNIT
    let w ← i64 m (c * UNIT)
    let d ← i64 m (u - w)
    let (rest, cf) ← normLoop m f vs c
    return (wrap 32 d :: rest, cf)

/-- The short-division loop of `div_abs`, `/repo/src/arith.rs:562-573`: `while j >= 0`; `n = j + 1`. -/
def shortDivLoop {σ : Type} (m : Mode) (llsu : List Int) (d : Int) :
    (n : Nat) → (i rem : Int) → (res : List Int) → Out σ (List Int)
  | 0, _, _, res => .ok res
  | n + 1, i, rem, res => do
    let p ← i64 m (rem * UNIT)
    let u ← (if i ≥ 0 then do
        let v ← idx llsu i
        i64 m (p + v)
      else .ok p)
    let q ← idiv u d
    let w ← i64 m (q * d)
    let rem ← i64 m (u - w)
    let res ← upd res n (wrap 32 q)
    shortDivLoop m llsu d n (i - 1) rem res

/-- Step D3's correction loop, `/repo/src/arith.rs:637-641` and `864-868`:
`while qhat * d1 > rhat * UNIT + u2 { qhat -= 1; rhat += d0 }`.  `fuel` bounds the number of
tests of the condition; see `qhatFuel`. -/
def qhatLoop {σ : Type} (m : Mode) (d0 d1 u2 : Int) :
    (fuel : Nat) → (qhat rhat : Int) → Out σ Int
  | 0, _, _ => .panic .diverges
  | fuel + 1, qhat, rhat => do
    let a ← i64 m (qhat * d1)
    let b ← i64 m (rhat * UNIT)
    let b ← i64 m (b + u2)
    if a > b then do
      let q ← i64 m (qhat - 1)
      let r ← i64 m (rhat + d0)
      qhatLoop m d0 d1 u2 fuel q r
    else return qhat

/-- How often the condition of `qhatLoop` (`/repo/src/arith.rs:637-641`, `864-868`) is tested at most.  `qhat` is a 64-bit number that goes down by one each time, so after
`2^64` tests a wrapping loop would be back in its first state; in fact it always ends before (`Props.C95_guess`). -/
def qhatFuel : Nat := 2 ^ 64

/-- Step D3, `/repo/src/arith.rs:623-641` and `851-868`: guess the quotient unit from the three leading
units of `buf1` at `i+1, i, i-1` and the two leading units `d0, d1` of the divisor.  Line 851 reads `buf1[(i + 1) as usize]`, as here;
line 623 has `buf1[i as usize + 1]`, which would overflow at `i = -1`: `Props.C93_index` shows that this makes no difference. -/
def guessQ {σ : Type} (m : Mode) (buf1 : List Int) (i d0 d1 : Int) : Out σ Int := do
  let u0 ← idx buf1 (i + 1)
  let u1 ← (if i ≥ 0 then idx buf1 i else .ok 0)
  let p ← i64 m (u0 * UNIT)
  let u ← i64 m (p + u1)
  let qhat ← idiv u d0
  let w ← i64 m (qhat * d0)
  let rhat ← i64 m (u - w)
  dassert m (qhat < UNIT)
  let u2 ← (if i > 0 then idx buf1 (i - 1) else .ok 0)
  qhatLoop m d0 d1 u2 qhatFuel qhat rhat

/-- Step D4 of `div_abs`, `/repo/src/arith.rs:647-661`: multiply and subtract, `while k <= rhs_non_zero`;
`n` iterations left.  Below index 0 the difference is computed for its borrow but not stored. -/
def mulSub {σ : Type} (m : Mode) (qhat : Int) (buf2 : List Int) :
    (n : Nat) → (k msIdx : Int) → (buf1 : List Int) → (carry borrow : Int) →
    Out σ (List Int × Int × Int)
  | 0, _, _, buf1, carry, borrow => .ok (buf1, carry, borrow)
  | n + 1, k, msIdx, buf1, carry, borrow => do
    let b2 ← idx buf2 k
    let p ← i64 m (qhat * b2)
    let mulV ← i64 m (p + carry)
    let c := mulV.tdiv UNIT
    let w ← i64 m (c * UNIT)
    let mulV0 ← i64 m (mulV - w)
    if msIdx < 0 then do
      let (_, b0) ← subWithBorrow m 0 (wrap 32 mulV0) borrow
      mulSub m qhat buf2 n (k + 1) (msIdx + 1) buf1 c b0
    else do
      let old ← idx buf1 msIdx
      let (s, b0) ← subWithBorrow m old (wrap 32 mulV0) borrow
      let buf1 ← upd buf1 msIdx s
      mulSub m qhat buf2 n (k + 1) (msIdx + 1) buf1 c b0

/-- The "add back" loop of `div_abs`, `/repo/src/arith.rs:668-673`: `for i in 0..rhs_non_zero`, replacing
`buf1[i + j]` by `0 - buf1[i + j]` with borrow. -/
def divAddBack {σ : Type} (m : Mode) (j : Int) :
    (n : Nat) → (i : Int) → (buf1 : List Int) → (borrow : Int) → Out σ (List Int)
  | 0, _, buf1, _ => .ok buf1
  | n + 1, i, buf1, borrow => do
    let v ← idx buf1 (i + j)
    let (r0, b0) ← subWithBorrow m 0 v borrow
    let buf1 ← upd buf1 (i + j) r0
    divAddBack m j n (i + 1) buf1 b0

/-- The main loop of the long division in `div_abs`, `/repo/src/arith.rs:621-680`: `while j >= 0`;
`n = j + 1`. -/
def longDivLoop {σ : Type} (m : Mode) (buf2 : List Int) (rhsNonZero d0 d1 : Int) :
    (n : Nat) → (i : Int) → (buf1 res : List Int) → Out σ (List Int)
  | 0, _, _, res => .ok res
  | n + 1, i, buf1, res => do
    let j : Int := n
    let qhat ← guessQ m buf1 i d0 d1
    let (buf1, carry, borrow) ←
      mulSub m qhat buf2 (rhsNonZero + 1).toNat 0 (i - rhsNonZero) buf1 0 0
    let top ← idx buf1 (i + 1)
    let t ← i32 m (top - wrap 32 carry)
    let borrow ← i32 m (borrow + t)
    if borrow = -1 then do
      let qhat ← i64 m (qhat - 1)
      let buf1 ← divAddBack m j rhsNonZero.toNat 0 buf1 0
      let res ← upd res j (wrap 32 qhat)
      longDivLoop m buf2 rhsNonZero d0 d1 n (i - 1) buf1 res
    else do
      let buf1 ← upd buf1 (i + 1) 0
      let res ← upd res j (wrap 32 qhat)
      longDivLoop m buf2 rhsNonZero d0 d1 n (i - 1) buf1 res

/-- Models `div_abs`, `/repo/src/arith.rs:458-684`. -/
def divAbs (m : Mode) (lhs rhs res : FixedDecimal) (incrFrac : Int) :
    Out FixedDecimal FixedDecimal := do
  let res := res.setZero
  let lhsIntg := lhs.intgDigits
  let liu ← getUnits m lhsIntg
  let lhsFrac := lhs.frac
  let lfu ← getUnits m lhsFrac
  let lhsExtFrac := lfu * DIGITS_PER_UNIT
  let rhsIntg := rhs.intgDigits
  let riu ← getUnits m rhsIntg
  let rhsFrac := rhs.frac
  let rfu ← getUnits m rhsFrac
  let rhsExtFrac := rfu * DIGITS_PER_UNIT
  let rhsNonZero ← findNonZero rhs.lsu (riu + rfu).toNat
  if rhsNonZero < 0 then .err .divisionByZero res
  else do
  let lhsNonZero ← findNonZero lhs.lsu (liu + lfu).toNat
  if lhsNonZero < 0 then .ok res
  else do
  let rtop ← idx rhs.lsu rhsNonZero
  let rhsPrec := (rhsNonZero + 1) * DIGITS_PER_UNIT - unitLeadingZeroes rtop
  let ltop ← idx lhs.lsu lhsNonZero
  let lhsPrec := (lhsNonZero + 1) * DIGITS_PER_UNIT - unitLeadingZeroes ltop
  let incrFrac ← isz m (incrFrac - (lhsExtFrac - lhsFrac + rhsExtFrac - rhsFrac))
  let incrFrac := if incrFrac < 0 then 0 else incrFrac
  let s ← isz m (lhsExtFrac + rhsExtFrac + incrFrac)
  let resFracUnits ← getUnits m (wrap 8 s)
  let resFracUnits := if resFracUnits > MAX_FRAC_UNITS then MAX_FRAC_UNITS else resFracUnits
  let resIntg := (lhsPrec - lhsExtFrac) - (rhsPrec - rhsExtFrac)
  let lseg ← slice lhs.lsu 0 (lhsNonZero + 1)
  let rseg ← slice rhs.lsu 0 (rhsNonZero + 1)
  let ge := unitsGreaterEqual lseg rseg
  let resIntg := if ge then resIntg + 1 else resIntg
  let dividendShift : Int := if ge then 0 else -1
  let (resIntg, resIntgUnits, resFracUnits, resStartIdx) ← (
    if resIntg > 0 then do
      let resIntgUnits ← getUnits m (wrap 8 resIntg)
      if resIntgUnits > MAX_UNITS then .err .overflow res
      else
        let resFracUnits :=
          if resIntgUnits + resFracUnits > MAX_UNITS then MAX_UNITS - resIntgUnits
          else resFracUnits
        .ok (resIntg, resIntgUnits, resFracUnits, resFracUnits + resIntgUnits - 1)
    else do
      let off ← getUnits m (wrap 8 (1 - resIntg))
      return (0, 0, resFracUnits, resFracUnits - off)
    : Out FixedDecimal (Int × Int × Int × Int))
  let resUnits := resIntgUnits + resFracUnits
  let finish := fun (l : List Int) =>
    ({ lsu := l, intg := BitVec.ofInt 8 resIntg
       frac := wrap 8 (resFracUnits * DIGITS_PER_UNIT) } : FixedDecimal)
  if rhsNonZero = 0 then do
    -- short division, lines 553-577
    let d ← idx rhs.lsu 0
    let rem ← (if dividendShift < 0 then idx lhs.lsu lhsNonZero else .ok 0)
    let l ← shortDivLoop m lhs.lsu d (resStartIdx + 1).toNat (lhsNonZero + dividendShift) rem res.lsu
    return finish l
  else do
    -- long division, lines 579-683
    let normFactor ← idiv UNIT (rtop + 1)
    let zero18 : List Int := List.replicate 18 0
    let buf1End := resUnits + lhsNonZero + 1
    let (buf1, buf2) ← (
      if normFactor = 1 then do
        let buf1 ← copyFromSlice zero18 resUnits buf1End lseg
        let buf2 ← copyFromSlice zeroUnits 0 (rhsNonZero + 1) rseg
        return (buf1, buf2)
      else do
        let (l, carry) ← normLoop m normFactor lseg 0
        let buf1 ← copyFromSlice zero18 resUnits buf1End l
        let buf1 ← (if carry > 0 then upd buf1 buf1End (wrap 32 carry) else .ok buf1)
        let (r, carry) ← normLoop m normFactor rseg (if carry > 0 then 0 else carry)
        let buf2 ← copyFromSlice zeroUnits 0 (rhsNonZero + 1) r
        dassert m (carry == 0)
        return (buf1, buf2) : Out FixedDecimal (List Int × List Int))
    let d0 ← idx buf2 rhsNonZero
    let d1 ← idx buf2 (rhsNonZero - 1)
    let l ← longDivLoop m buf2 rhsNonZero d0 d1 (resStartIdx + 1).toNat
      (resUnits + lhsNonZero + dividendShift) buf1 res.lsu
    return finish l

/-- The short-division loop of `rem_abs`, `/repo/src/arith.rs:779-784`: `while i >= stop`; `n = i - stop
+ 1` iterations. -/
def shortRemLoop {σ : Type} (m : Mode) (buf : List Int) (d : Int) :
    (n : Nat) → (i rem : Int) → Out σ Int
  | 0, _, rem => .ok rem
  | n + 1, i, rem => do
    let p ← i64 m (rem * UNIT)
    let v ← idx buf i
    let u ← i64 m (p + v)
    let q ← idiv u d
    let w ← i64 m (q * d)
    let rem ← i64 m (u - w)
    shortRemLoop m buf d n (i - 1) rem

/-- Copying the low units of the dividend into the remainder, `/repo/src/arith.rs:790-798`:
`while i >= 0`; `n = i + 1`. State: result units and `res_non_zero`. -/
def remCopyLoop {σ : Type} (buf : List Int) :
    (n : Nat) → (res : List Int) → (resNonZero : Int) → Out σ (List Int × Int)
  | 0, res, rnz => .ok (res, rnz)
  | n + 1, res, rnz => do
    let v ← idx buf n
    let res ← upd res n v
    remCopyLoop buf n res (if v > 0 ∧ rnz < 0 then (n : Int) else rnz)

/-- Step D4 of `rem_abs`, `/repo/src/arith.rs:872-882`, on the zipped slices
`buf1[i - buf2_len + 1 .. i + 1]` and `buf2[..buf2_len]`. -/
def mulSubSeg {σ : Type} (m : Mode) (qhat : Int) :
    (seg1 seg2 : List Int) → (carry borrow : Int) → Out σ (List Int × Int × Int)
  | b1 :: s1, b2 :: s2, carry, borrow => do
    let p ← i64 m (qhat * b2)
    let mulV ← i64 m (p + carry)
    let c := mulV.tdiv UNIT
    let w ← i64 m (c * UNIT)
    let mulV0 ← i64 m (mulV - w)
    let (s, b0) ← subWithBorrow m b1 (wrap 32 mulV0) borrow
    let (rest, cf, bf) ← mulSubSeg m qhat s1 s2 c b0
    return (s :: rest, cf, bf)
  | s1, _, carry, borrow => .ok (s1, carry, borrow)

/-- The "add back" loop of `rem_abs`, `/repo/src/arith.rs:890-894`: negate the slice with borrow. -/
def negSeg {σ : Type} (m : Mode) : List Int → (borrow : Int) → Out σ (List Int)
  | [], _ => .ok []
  | b :: bs, borrow => do
    let (r0, b0) ← subWithBorrow m 0 b borrow
    let rest ← negSeg m bs b0
    return r0 :: rest

/-- The main loop of the long remainder, `/repo/src/arith.rs:849-898`: `while i >= stop`; `n = i - stop +
1` iterations.  `buf2` is `buf2[..buf2_len]`. -/
def longRemLoop {σ : Type} (m : Mode) (buf2 : List Int) (d0 d1 : Int) :
    (n : Nat) → (i : Int) → (buf1 : List Int) → Out σ (List Int)
  | 0, _, buf1 => .ok buf1
  | n + 1, i, buf1 => do
    let qhat ← guessQ m buf1 i d0 d1
    let lo := i - buf2.length + 1
    let seg ← slice buf1 lo (i + 1)
    let (seg, carry, borrow) ← mulSubSeg m qhat seg buf2 0 0
    let buf1 ← copyFromSlice buf1 lo (i + 1) seg
    let top ← idx buf1 (i + 1)
    let t ← i32 m (top - wrap 32 carry)
    let borrow ← i32 m (borrow + t)
    if borrow = -1 then do
      let seg ← slice buf1 lo (i + 1)
      let seg ← negSeg m seg 0
      let buf1 ← copyFromSlice buf1 lo (i + 1) seg
      let buf1 ← upd buf1 (i + 1) 0
      longRemLoop m buf2 d0 d1 n (i - 1) buf1
    else do
      let buf1 ← upd buf1 (i + 1) 0
      longRemLoop m buf2 d0 d1 n (i - 1) buf1

/-- Dividing the remainder by the normalisation factor, `/repo/src/arith.rs:906-920`: `while i > 0`.
State: `rem`, `res_non_zero`, result units. -/
def unnormLoop {σ : Type} (m : Mode) (buf1 : List Int) (f : Int) :
    (i : Nat) → (rem resNonZero : Int) → (res : List Int) → Out σ (List Int × Int × Int)
  | 0, rem, rnz, res => .ok (res, rem, rnz)
  | i + 1, rem, rnz, res => do
    let p ← i64 m (rem * UNIT)
    let v ← idx buf1 i
    let u ← i64 m (p + v)
    if u = 0 then unnormLoop m buf1 f i rem rnz res
    else do
      let q ← idiv u f
      let w ← i64 m (q * f)
      let rem ← i64 m (u - w)
      if q > 0 then do
        let res ← upd res i (wrap 32 q)
        unnormLoop m buf1 f i rem (if rnz < 0 then (i : Int) else rnz) res
      else unnormLoop m buf1 f i rem rnz res

/-- The common end of `rem_abs`, `/repo/src/arith.rs:799-807` and `924-932`: digit counts of the
remainder. -/
def remFinish {σ : Type} (m : Mode) (l : List Int) (resNonZero remFrac remFracUnits : Int) :
    Out σ FixedDecimal := do
  if resNonZero ≥ remFracUnits then do
    let resIntgUnits := wrap 8 (resNonZero + 1 - remFracUnits)
    let t ← i8 m (resIntgUnits * DIGITS_PER_UNIT)
    let s ← i8 m (resIntgUnits + wrap 8 remFracUnits)
    let s ← i8 m (s - 1)
    let v ← idx l s
    let intg ← i8 m (t - unitLeadingZeroes v)
    return { lsu := l, intg := BitVec.ofInt 8 intg, frac := remFrac }
  else return { lsu := l, intg := 0#8, frac := remFrac }

/-- Models `rem_abs`, `/repo/src/arith.rs:687-934`. -/
def remAbs (m : Mode) (lhs rhs res : FixedDecimal) : Out FixedDecimal FixedDecimal := do
  let res := res.setZero
  let lhsIntg := lhs.intgDigits
  let liu ← getUnits m lhsIntg
  let lhsFrac := lhs.frac
  let lfu ← getUnits m lhsFrac
  let rhsIntg := rhs.intgDigits
  let riu ← getUnits m rhsIntg
  let rhsFrac := rhs.frac
  let rfu ← getUnits m rhsFrac
  let rhsNonZero ← findNonZero rhs.lsu (riu + rfu).toNat
  if rhsNonZero < 0 then .err .divisionByZero res
  else do
  let lhsNonZero ← findNonZero lhs.lsu (liu + lfu).toNat
  if lhsNonZero < 0 then .ok res
  else do
  match ← cmpAbsLsu liu lfu lhs.lsu riu rfu rhs.lsu with
  | .lt =>
    if rfu > lfu then do
      let src ← slice lhs.lsu 0 (lfu + liu)
      let l ← copyFromSlice res.lsu (rfu - lfu) (liu + rfu) src
      return { lsu := l, frac := rhsFrac, intg := BitVec.ofInt 8 lhsIntg }
    else do
      let src ← slice lhs.lsu 0 (lfu + liu)
      let l ← copyFromSlice res.lsu 0 (lfu + liu) src
      return { lsu := l, frac := max lhsFrac rhsFrac, intg := BitVec.ofInt 8 lhsIntg }
  | .eq => return res
  | .gt => do
    let remFrac := max lhsFrac rhsFrac
    let remFracUnits ← getUnits m remFrac
    let lseg ← slice lhs.lsu 0 (lhsNonZero + 1)
    let rseg ← slice rhs.lsu 0 (rhsNonZero + 1)
    let dividendShift : Int := if unitsGreaterEqual lseg rseg then 0 else -1
    let lshift := if lfu < rfu then rfu - lfu else 0
    let rshift := if lfu < rfu then 0 else lfu - rfu
    let zero18 : List Int := List.replicate 18 0
    if rhsNonZero = 0 then do
      -- short division, lines 766-809
      let d ← idx rhs.lsu 0
      let bufLen := lshift + lhsNonZero + 1
      let buf ← copyFromSlice zero18 lshift bufLen lseg
      let rem ← (if dividendShift < 0 then idx lhs.lsu lhsNonZero else .ok 0)
      let stop := rhsNonZero + rshift
      let i := bufLen - 1 + dividendShift
      let n := (i - stop + 1).toNat
      let rem ← shortRemLoop m buf d n i rem
      let i := i - n
      let (l, rnz) ← (
        if rem > 0 then do
          let l ← upd res.lsu (i + 1) (wrap 32 rem)
          return (l, i + 1)
        else return (res.lsu, -1) : Out FixedDecimal (List Int × Int))
      let (l, rnz) ← remCopyLoop buf (i + 1).toNat l rnz
      remFinish m l rnz remFrac remFracUnits
    else do
      -- long division, lines 810-933
      let buf1Len := lhsNonZero + 1 + lshift
      let buf2Len := rhsNonZero + 1 + rshift
      let rtop ← idx rhs.lsu rhsNonZero
      let normFactor ← idiv UNIT (rtop + 1)
      let (buf1, buf2) ← (
        if normFactor = 1 then do
          let buf1 ← copyFromSlice zero18 lshift buf1Len lseg
          let buf2 ← copyFromSlice zero18 rshift buf2Len rseg
          return (buf1, buf2)
        else do
          let (l, carry) ← normLoop m normFactor lseg 0
          let buf1 ← copyFromSlice zero18 lshift buf1Len l
          let buf1 ← (if carry > 0 then upd buf1 buf1Len (wrap 32 carry) else .ok buf1)
          let (r, carry) ← normLoop m normFactor rseg (if carry > 0 then 0 else carry)
          let buf2 ← copyFromSlice zero18 rshift buf2Len r
          dassert m (carry == 0)
          return (buf1, buf2) : Out FixedDecimal (List Int × List Int))
      let stop := buf2Len - 1
      let d0 ← idx buf2 (rhsNonZero + rshift)
      let d1 ← idx buf2 (rhsNonZero + rshift - 1)
      let i := buf1Len + dividendShift - 1
      let seg2 ← slice buf2 0 buf2Len
      let buf1 ← longRemLoop m seg2 d0 d1 (i - stop + 1).toNat i buf1
      -- line 900: a release build does not even evaluate the index
      match m with
      | .debug => do
        let chk ← idx buf1 buf1Len
        dassert .debug (chk == 0)
      | .release => .ok ()
      let (l, rem, rnz) ← unnormLoop m buf1 normFactor buf1Len.toNat 0 (-1) res.lsu
      dassert m (rem == 0)
      remFinish m l rnz remFrac remFracUnits

namespace FixedDecimal

/-- Models `div_to`, `/repo/src/arith.rs:84-91`; `incr_frac : usize` is cast `as isize`. -/
def divTo (m : Mode) (lhs rhs res : FixedDecimal) (incrFrac : Int) :
    Out FixedDecimal FixedDecimal := do
  let resNeg := lhs.isNeg != rhs.isNeg
  let res ← divAbs m lhs rhs res (wrap 64 incrFrac)
  return if resNeg then res.setNegAndCheckZero else res

/-- Models `rem_to`, `/repo/src/arith.rs:94-101`. -/
def remTo (m : Mode) (lhs rhs res : FixedDecimal) : Out FixedDecimal FixedDecimal := do
  let resNeg := lhs.isNeg
  let res ← remAbs m lhs rhs res
  return if resNeg then res.setNegAndCheckZero else res

end FixedDecimal
end Fxd
