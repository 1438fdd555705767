import Verif.Model.Decimal
/-!
# `/repo/src/round.rs`: rounding (and the `add_with_carry`/`sub_with_borrow` helpers of
`/repo/src/arith.rs` it shares)
-/

namespace Fxd

/-- Models `add_with_carry`, `/repo/src/arith.rs:938-944`. -/
def addWithCarry {σ : Type} (m : Mode) (a b carry : Int) : Out σ (Int × Int) := do
  let t ← i32 m (a + b)
  let r ← i32 m (t + carry)
  if r ≥ UNIT then do
    let s ← i32 m (r - UNIT)
    return (s, 1)
  else return (r, 0)

/-- Models `sub_with_borrow`, `/repo/src/arith.rs:948-954`. -/
def subWithBorrow {σ : Type} (m : Mode) (a b borrow : Int) : Out σ (Int × Int) := do
  let t ← i32 m (a - b)
  let r ← i32 m (t + borrow)
  if r < 0 then do
    let s ← i32 m (UNIT + r)
    return (s, -1)
  else return (r, 0)

/-- The carry loop of `round_half_up`, `/repo/src/round.rs:244-251`: `for u in &mut lsu[round_idx..end_idx]`
with `break` as soon as the carry is gone. Works on the slice; returns the new slice and the carry. -/
def carryLoop {σ : Type} (m : Mode) : List Int → Int → Out σ (List Int × Int)
  | [], carry => .ok ([], carry)
  | u :: us, carry => do
    let (r0, c0) ← addWithCarry m u 0 carry
    if c0 = 0 then return (r0 :: us, c0)
    let (us', c) ← carryLoop m us c0
    return (r0 :: us', c)

/-- One arm of the `match round_pos` of `round_half_up`, `/repo/src/round.rs:172-233`: all arms
`1 .. 8` are the same code with `unit = 10^round_pos`, `half = unit / 2` written out as constants. -/
def roundUnit {σ : Type} (m : Mode) (u unit half : Int) : Out σ Int := do
  let r := u.tmod unit
  let u ← i32 m (u - r)
  if r ≥ half then i32 m (u + unit) else return u

/-- The `match round_pos` of `round_half_up`, `/repo/src/round.rs:172-234`. -/
def roundArm {σ : Type} (m : Mode) (u roundPos : Int) : Out σ Int :=
  match roundPos with
  | 1 => roundUnit m u 10 5
  | 2 => roundUnit m u 100 50
  | 3 => roundUnit m u 1000 500
  | 4 => roundUnit m u 10000 5000
  | 5 => roundUnit m u 100000 50000
  | 6 => roundUnit m u 1000000 500000
  | 7 => roundUnit m u 10000000 5000000
  | 8 => roundUnit m u 100000000 50000000
  | _ => .panic .unreachable

/-- Models `round_half_up`, `/repo/src/round.rs:159-265`. -/
def roundHalfUp {σ : Type} (m : Mode) (fd : FixedDecimal) (intgUnits fracUnits trunc roundFrac : Int)
    (carry : Int) : Out σ FixedDecimal := do
  let roundIdx ← div9 (wrap 8 trunc)
  let roundPos ← mod9 (wrap 8 trunc)
  let clearIdx := roundIdx
  let (lsu, roundIdx, carry) ← (
    if roundPos ≠ 0 then do
      let u ← idx fd.lsu roundIdx
      let u ← roundArm m u roundPos
      let (u, carry) ← (
        if u ≥ UNIT then do
          let u ← i32 m (u - UNIT)
          return (u, (1 : Int))
        else return (u, carry) : Out σ (Int × Int))
      let lsu ← upd fd.lsu roundIdx u
      return (lsu, roundIdx + 1, carry)
    else return (fd.lsu, roundIdx, carry) : Out σ (List Int × Int × Int))
  let endIdx := intgUnits + fracUnits
  let (lsu, intgUnits) ← (
    if carry > 0 then do
      let seg ← slice lsu roundIdx endIdx
      let (seg, carry) ← carryLoop m seg carry
      let lsu ← copyFromSlice lsu roundIdx endIdx seg
      if carry > 0 then do
        let lsu ← upd lsu endIdx 1
        return (lsu, intgUnits + 1)
      else return (lsu, intgUnits)
    else return (lsu, intgUnits) : Out σ (List Int × Int))
  let lsu ← zeroRange lsu 0 clearIdx
  let neg := fd.isNeg
  let fd : FixedDecimal :=
    { lsu := lsu, intg := BitVec.ofInt 8 (intgUnits * DIGITS_PER_UNIT), frac := roundFrac }
  return if neg then fd.setNeg else fd

namespace FixedDecimal

/-- Models `round`, `/repo/src/round.rs:13-82`. -/
def round {σ : Type} (m : Mode) (self : FixedDecimal) (frac : Int) : Out σ FixedDecimal := do
  let thisFrac := self.frac
  let intgUnits ← self.intgUnits m
  let fracUnits ← self.fracUnits m
  if frac ≥ thisFrac then do
    let roundFracUnits ← getUnits m (wrap 8 frac)
    if roundFracUnits = fracUnits then
      return { self with frac := wrap 8 frac }
    else do
      let off ← usz m (roundFracUnits - fracUnits)
      let lsu ← copyWithin self.lsu 0 (fracUnits + intgUnits) off
      return { self with lsu := lsu, frac := wrap 8 frac }
  else if frac < 0 then do
    let intg ← isz m (-frac)
    let intg1 ← isz m (intg + 1)
    if intg1 > self.intgDigits then return self.setZero
    else do
      let lsu ← copyWithin self.lsu fracUnits (fracUnits + intgUnits) 0
      let lsu ← zeroRange lsu intgUnits (fracUnits + intgUnits)
      roundHalfUp m { self with lsu := lsu } intgUnits 0 intg 0 0
  else do
    let roundFrac := wrap 8 frac
    let f1 ← i8 m (wrap 8 frac + 1)
    let roundFracUnits ← getUnits m f1
    if roundFracUnits < fracUnits then do
      let p ← mod9 (wrap 8 frac)
      let (carry, roundFracUnits) ← (
        if p = 0 then do
          let v ← idx self.lsu (fracUnits - roundFracUnits)
          let n ← usz m (roundFracUnits - 1)
          return ((if v ≥ HALF_UNIT then 1 else 0), n)
        else return (0, roundFracUnits) : Out σ (Int × Int))
      let lsu ← copyWithin self.lsu (fracUnits - roundFracUnits) (fracUnits + intgUnits) 0
      let lsu ← zeroRange lsu (roundFracUnits + intgUnits) (fracUnits + intgUnits)
      roundHalfUp m { self with lsu := lsu } intgUnits roundFracUnits
        (roundFracUnits * DIGITS_PER_UNIT - frac) roundFrac carry
    else do
      dassert m (roundFracUnits == fracUnits)
      let p ← mod9 (wrap 8 frac)
      if p = 0 then do
        let v ← idx self.lsu 0
        let carry : Int := if v ≥ HALF_UNIT then 1 else 0
        let lsu ← copyWithin self.lsu 1 (fracUnits + intgUnits) 0
        let top ← usz m (fracUnits + intgUnits - 1)
        let lsu ← upd lsu top 0
        let fracUnits ← usz m (fracUnits - 1)
        roundHalfUp m { self with lsu := lsu } intgUnits fracUnits
          (fracUnits * DIGITS_PER_UNIT - frac) roundFrac carry
      else
        roundHalfUp m self intgUnits fracUnits
          (fracUnits * DIGITS_PER_UNIT - frac) roundFrac 0

/-- Models `round_to`, `/repo/src/round.rs:84-156`; `res` is the caller's output parameter. -/
def roundTo {σ : Type} (m : Mode) (self res : FixedDecimal) (frac : Int) : Out σ FixedDecimal := do
  let res := res.setZero
  let res := { res with intg := self.intg }
  let thisFrac := self.frac
  let intgUnits ← self.intgUnits m
  let fracUnits ← self.fracUnits m
  if frac ≥ thisFrac then do
    let roundFracUnits ← getUnits m (wrap 8 frac)
    if roundFracUnits = fracUnits then
      return { res with intg := self.intg, frac := wrap 8 frac, lsu := self.lsu }
    else do
      let off ← usz m (roundFracUnits - fracUnits)
      let src ← slice self.lsu 0 (fracUnits + intgUnits)
      let lsu ← copyFromSlice res.lsu off (roundFracUnits + intgUnits) src
      return { res with lsu := lsu, intg := self.intg, frac := wrap 8 frac }
  else if frac < 0 then do
    let intg ← isz m (-frac)
    let intg1 ← isz m (intg + 1)
    if intg1 > self.intgDigits then return res.setZero
    else do
      let src ← slice self.lsu fracUnits (fracUnits + intgUnits)
      let lsu ← copyFromSlice res.lsu 0 intgUnits src
      roundHalfUp m { res with lsu := lsu } intgUnits 0 intg 0 0
  else do
    let roundFrac := wrap 8 frac
    let f1 ← i8 m (wrap 8 frac + 1)
    let roundFracUnits ← getUnits m f1
    if roundFracUnits < fracUnits then do
      let p ← mod9 (wrap 8 frac)
      let (carry, roundFracUnits) ← (
        if p = 0 then do
          let v ← idx self.lsu (fracUnits - roundFracUnits)
          let n ← usz m (roundFracUnits - 1)
          return ((if v ≥ HALF_UNIT then 1 else 0), n)
        else return (0, roundFracUnits) : Out σ (Int × Int))
      let src ← slice self.lsu (fracUnits - roundFracUnits) (fracUnits + intgUnits)
      let lsu ← copyFromSlice res.lsu 0 (roundFracUnits + intgUnits) src
      roundHalfUp m { res with lsu := lsu } intgUnits roundFracUnits
        (roundFracUnits * DIGITS_PER_UNIT - frac) roundFrac carry
    else do
      dassert m (roundFracUnits == fracUnits)
      let p ← mod9 (wrap 8 frac)
      if p = 0 then do
        let v ← idx self.lsu 0
        let carry : Int := if v ≥ HALF_UNIT then 1 else 0
        let top ← usz m (fracUnits + intgUnits - 1)
        let src ← slice self.lsu 1 (fracUnits + intgUnits)
        let lsu ← copyFromSlice res.lsu 0 top src
        let fracUnits ← usz m (fracUnits - 1)
        roundHalfUp m { res with lsu := lsu } intgUnits fracUnits
          (fracUnits * DIGITS_PER_UNIT - frac) roundFrac carry
      else
        roundHalfUp m { res with lsu := self.lsu } intgUnits fracUnits
          (fracUnits * DIGITS_PER_UNIT - frac) roundFrac 0

end FixedDecimal
end Fxd
