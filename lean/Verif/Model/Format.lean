import Verif.Model.Decimal
import Verif.Model.Bin2Char
/-!
# `/repo/src/serde.rs:256-445`: formatting

The `Vec<u8>` buffer is a `List Nat`; pushing appends at the end.  Running out of memory is not modelled.
-/

namespace Fxd

/-- Models `d3_to_str`, `/repo/src/utils.rs:293-308`: the new buffer and `elim_heading_zeroes`. -/
def d3ToStr {σ : Type} (m : Mode) (val : Int) (buf : List Nat) (elim : Bool) :
    Out σ (List Nat × Bool) := do
  let val := val % 2 ^ 64
  let v4 ← usz m (val * 4)
  if !elim then do
    let a ← usz m (v4 + 1)
    let b ← usz m (v4 + 4)
    let s ← slice BIN2CHAR a b
    return (buf ++ s, false)
  else do
    let cl ← idx BIN2CHAR v4
    if cl > 0 then do
      let e ← usz m (v4 + 4)
      let start ← usz m (e - cl)
      let stop ← usz m (start + cl)
      let s ← slice BIN2CHAR start stop
      return (buf ++ s, false)
    else return (buf, true)

/-- The body of the loop over integral units, `/repo/src/serde.rs:289-306`: one unit as three groups of
three digits. -/
def intgUnitStr {σ : Type} (m : Mode) (u : Int) (buf : List Nat) (elim : Bool) :
    Out σ (List Nat × Bool) := do
  let (u, buf, elim) ← (
    if u ≥ BIN_HIGH_UNIT then do
      let high := u.tdiv BIN_HIGH_UNIT
      let (buf, elim) ← d3ToStr m high buf elim
      let w ← i32 m (high * BIN_HIGH_UNIT)
      let u ← i32 m (u - w)
      return (u, buf, elim)
    else do
      let (buf, elim) ← d3ToStr m 0 buf elim
      return (u, buf, elim) : Out σ (Int × List Nat × Bool))
  let (u, buf, elim) ← (
    if u ≥ BIN_MID_UNIT then do
      let mid := u.tdiv BIN_MID_UNIT
      let (buf, elim) ← d3ToStr m mid buf elim
      let w ← i32 m (mid * BIN_MID_UNIT)
      let u ← i32 m (u - w)
      return (u, buf, elim)
    else do
      let (buf, elim) ← d3ToStr m 0 buf elim
      return (u, buf, elim) : Out σ (Int × List Nat × Bool))
  d3ToStr m u buf elim

/-- The loop over integral units, `/repo/src/serde.rs:281-307`: `while up >= frac_units`; `n = up -
frac_units + 1` iterations left. -/
def intgStrLoop {σ : Type} (m : Mode) (lsu : List Int) (fracUnits : Int) :
    (n : Nat) → (buf : List Nat) → (elim : Bool) → Out σ (List Nat × Bool)
  | 0, buf, elim => .ok (buf, elim)
  | n + 1, buf, elim => do
    let u ← idx lsu (fracUnits + n)
    if elim && u == 0 then intgStrLoop m lsu fracUnits n buf elim
    else do
      let (buf, elim) ← intgUnitStr m u buf elim
      intgStrLoop m lsu fracUnits n buf elim

/-- One group of three digits of `append_frac` taken from the table, `/repo/src/serde.rs:381-391`,
`408-418`, `434-443`.  Returns the buffer, `frac_digits` and whether the function returned. -/
def fracGroup {σ : Type} (m : Mode) (v : Int) (buf : List Nat) (fracDigits : Int) :
    Out σ (List Nat × Int × Bool) := do
  let v4 ← usz m (v % 2 ^ 64 * 4)
  let start ← usz m (v4 + 1)
  if fracDigits < 3 then do
    let stop ← usz m (start + fracDigits % 2 ^ 64)
    let s ← slice BIN2CHAR start stop
    return (buf ++ s, fracDigits, true)
  else do
    let stop ← usz m (start + 3)
    let s ← slice BIN2CHAR start stop
    let fd ← i8 m (fracDigits - 3)
    return (buf ++ s, fd, fd == 0)

/-- A group of three zeroes of `append_frac`, `/repo/src/serde.rs:394-404`, `421-431`. -/
def fracGroupZero {σ : Type} (m : Mode) (buf : List Nat) (fracDigits : Int) :
    Out σ (List Nat × Int × Bool) := do
  if fracDigits < 3 then return (buf ++ List.replicate fracDigits.toNat 48, fracDigits, true)
  else do
    let fd ← i8 m (fracDigits - 3)
    return (buf ++ [48, 48, 48], fd, fd == 0)

/-- Models `append_frac`, `/repo/src/serde.rs:354-445`: `while up >= 0`; `n = up + 1`. -/
def appendFrac {σ : Type} (m : Mode) (lsu : List Int) :
    (n : Nat) → (buf : List Nat) → (fracDigits : Int) → Out σ (List Nat)
  | 0, buf, _ => .ok buf
  | n + 1, buf, fracDigits =>
    if fracDigits = 0 then .ok buf
    else do
      let u ← idx lsu n
      if u = 0 then
        if fracDigits > DIGITS_PER_UNIT then do
          let fd ← i8 m (fracDigits - DIGITS_PER_UNIT)
          appendFrac m lsu n (buf ++ List.replicate 9 48) fd
        else return buf ++ List.replicate fracDigits.toNat 48
      else do
        let (u, buf, fd, ret) ← (
          if u ≥ BIN_HIGH_UNIT then do
            let high := u.tdiv BIN_HIGH_UNIT
            let (buf, fd, ret) ← fracGroup m high buf fracDigits
            if ret then return (u, buf, fd, ret)
            else do
              let w ← i32 m (high * BIN_HIGH_UNIT)
              let u ← i32 m (u - w)
              return (u, buf, fd, ret)
          else do
            let (buf, fd, ret) ← fracGroupZero m buf fracDigits
            return (u, buf, fd, ret) : Out σ (Int × List Nat × Int × Bool))
        if ret then return buf
        else do
        let (u, buf, fd, ret) ← (
          if u ≥ BIN_MID_UNIT then do
            let mid := u.tdiv BIN_MID_UNIT
            let (buf, fd, ret) ← fracGroup m mid buf fd
            if ret then return (u, buf, fd, ret)
            else do
              let w ← i32 m (mid * BIN_MID_UNIT)
              let u ← i32 m (u - w)
              return (u, buf, fd, ret)
          else do
            let (buf, fd, ret) ← fracGroupZero m buf fd
            return (u, buf, fd, ret) : Out σ (Int × List Nat × Int × Bool))
        if ret then return buf
        else do
        let (buf, fd, ret) ← fracGroup m u buf fd
        if ret then return buf
        else appendFrac m lsu n buf fd

namespace FixedDecimal

/-- Models `append_str_buf`, `/repo/src/serde.rs:270-352`. -/
def appendStrBuf {σ : Type} (m : Mode) (self : FixedDecimal) (buf : List Nat) (frac : Int) :
    Out σ (List Nat) := do
  let buf := if self.isNeg then buf ++ [45] else buf
  let intgUnits ← self.intgUnits m
  let fracUnits ← self.fracUnits m
  let buf ← (
    if intgUnits > 0 then do
      let (buf, elim) ← intgStrLoop m self.lsu fracUnits intgUnits.toNat buf true
      return if elim then buf ++ [48] else buf
    else return buf ++ [48] : Out σ (List Nat))
  -- here `up = frac_units - 1`
  if frac = 0 then return buf
  else if frac < 0 then
    if fracUnits > 0 then appendFrac m self.lsu fracUnits.toNat (buf ++ [46]) self.frac
    else return buf
  else if fracUnits = 0 then return buf ++ [46] ++ List.replicate frac.toNat 48
  else
    let full := fracUnits * DIGITS_PER_UNIT
    if frac ≤ full then appendFrac m self.lsu fracUnits.toNat (buf ++ [46]) (wrap 8 frac)
    else do
      let buf ← appendFrac m self.lsu fracUnits.toNat (buf ++ [46]) (wrap 8 full)
      return buf ++ List.replicate (frac - full).toNat 48

/-- Models `to_string`, `/repo/src/serde.rs:261-265`, as the bytes of the `String`. -/
def toStr {σ : Type} (m : Mode) (self : FixedDecimal) (frac : Int) : Out σ (List Nat) :=
  appendStrBuf m self [] frac

end FixedDecimal
end Fxd
