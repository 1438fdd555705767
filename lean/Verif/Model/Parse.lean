import Verif.Model.Decimal
/-!
# `/repo/src/serde.rs:7-254`: parsing

A byte string is a `List Nat` (the code only compares bytes with ASCII characters).  The loops that walk
`bs` with an index `i` walk the suffix `bs[i..]` instead: reading `bs[i]` past the end (a panic) is the
empty suffix.
-/

namespace Fxd

/-- The variables of the first scan, `/repo/src/serde.rs:23-28`: `d` (number of digits, an `i8`),
`dotchar`, `last`, `cfirst` (positions, `-1` for none), `neg`. -/
structure Scan where
  d : Int
  dotchar : Int
  last : Int
  cfirst : Int
  neg : Bool
  deriving DecidableEq, Repr

/-- The first loop of `from_bytes_str`, `/repo/src/serde.rs:31-63`; `i` is the position of the head of the
list.  Returns the variables and the rest of the input from the byte where the loop stopped; the rest is
non-empty exactly when `more_to_proc` is set. -/
def scanLoop {σ : Type} (m : Mode) : List Nat → (i : Int) → Scan → Out σ (Scan × List Nat)
  | [], _, st => .ok (st, [])
  | c :: cs, i, st =>
    if c ≥ 48 ∧ c ≤ 57 then do
      let d ← i8 m (st.d + 1)
      scanLoop m cs (i + 1) { st with last := i, d := d }
    else if c = 46 ∧ st.dotchar = -1 then
      scanLoop m cs (i + 1)
        { st with dotchar := i, cfirst := if i = st.cfirst then st.cfirst + 1 else st.cfirst }
    else if i = 0 ∧ c = 45 then
      scanLoop m cs (i + 1) { st with cfirst := st.cfirst + 1, neg := true }
    else if i = 0 ∧ c = 43 then
      scanLoop m cs (i + 1) { st with cfirst := st.cfirst + 1 }
    else .ok (st, c :: cs)

/-- Stripping insignificant zeroes of the exponent, `/repo/src/serde.rs:96-104`: never strips the last
byte of the input. -/
def stripZeros : List Nat → List Nat
  | 48 :: c :: cs => stripZeros (c :: cs)
  | cs => cs

/-- The exponent loop, `/repo/src/serde.rs:105-113`; `exp` is an `i32`, `err` is the state left behind by
`return Err(..)`. -/
def expLoop {σ : Type} (m : Mode) (err : σ) : List Nat → (exp : Int) → Out σ Int
  | [], exp => .ok exp
  | c :: cs, exp =>
    if c < 48 ∨ c > 57 then .err .conversionSyntax err
    else do
      let a ← i32 m (exp * 10)
      let a ← i32 m (a + c)
      let a ← i32 m (a - 48)
      expLoop m err cs a

/-- The exponent part of `from_bytes_str`, `/repo/src/serde.rs:69-124`, on the rest of the input that
starts at the byte where the first loop stopped. Returns the signed exponent. -/
def parseExp {σ : Type} (m : Mode) (err : σ) (rest : List Nat) : Out σ Int :=
  match rest with
  | [] => .ok 0
  | c :: cs =>
    if c ≠ 101 ∧ c ≠ 69 then .err .conversionSyntax err
    else
      match cs with
      | [] => .err .conversionSyntax err
      | s :: ds =>
        let nege : Bool := s == 45
        let ds := if s = 45 ∨ s = 43 then ds else s :: ds
        if ds = [] then .err .conversionSyntax err
        else do
          let ds := stripZeros ds
          let exp ← expLoop m err ds 0
          if ds.length ≥ 4 then .err .conversionSyntax err
          else if (!nege && exp % 2 ^ 64 > MAX_DIGITS) || (nege && exp % 2 ^ 64 > MAX_FRAC) then
            .err .conversionSyntax err
          else if nege then i32 m (-exp)
          else .ok exp

/-- The loop over integral digits, `/repo/src/serde.rs:169-196`; `i` is the position of the head of the
list, `up` the unit being filled, `cut` (an `i8`) the integral digits still missing.  Returns the rest of
the input after the last byte read, `out`, `cut`, `up` and the units. -/
def intgLoop {σ : Type} (m : Mode) (last : Int) :
    List Nat → (i out cut up : Int) → (lsu : List Int) →
    Out σ (List Nat × Int × Int × Int × List Int)
  | [], _, _, _, _, _ => .panic .index
  | c :: cs, i, out, cut, up, lsu =>
    if c = 46 then intgLoop m last cs (i + 1) out cut up lsu
    else do
      let o ← i32 m (out * 10)
      let o ← i32 m (o + c)
      let o ← i32 m (o - 48)
      let cut ← i8 m (cut - 1)
      if cut = 0 then return (cs, o, cut, up, lsu)
      else if i = last then return (cs, o, cut, up, lsu)
      else do
        let r ← mod9 cut
        if r > 0 then intgLoop m last cs (i + 1) o cut up lsu
        else do
          let lsu ← upd lsu up o
          intgLoop m last cs (i + 1) 0 cut (up - 1) lsu

/-- Writing the zero units below the last integral digit read, `/repo/src/serde.rs:205-209`: `while cut >
0`.  `fuel` bounds the number of tests of the condition (`Props.C71_parse`: it suffices). -/
def zeroUnitsLoop {σ : Type} (m : Mode) :
    (fuel : Nat) → (cut up : Int) → (lsu : List Int) → Out σ (Int × List Int)
  | 0, _, _, _ => .panic .diverges
  | fuel + 1, cut, up, lsu =>
    if cut > 0 then do
      let lsu ← upd lsu up 0
      let cut ← i8 m (cut - DIGITS_PER_UNIT)
      zeroUnitsLoop m fuel cut (up - 1) lsu
    else .ok (up, lsu)

/-- Writing the all-zero units at the head of the fraction, `/repo/src/serde.rs:214-219`: `while
heading_zeroes >= 9`.  `fuel` bounds the number of tests of the condition (`Props.C71_parse`: it suffices). -/
def headZeroLoop {σ : Type} (m : Mode) :
    (fuel : Nat) → (hz up : Int) → (lsu : List Int) → Out σ (Int × Int × List Int)
  | 0, _, _, _ => .panic .diverges
  | fuel + 1, hz, up, lsu =>
    if hz ≥ DIGITS_PER_UNIT then do
      let lsu ← upd lsu up 0
      let hz ← i8 m (hz - DIGITS_PER_UNIT)
      headZeroLoop m fuel hz (up - 1) lsu
    else .ok (hz, up, lsu)

/-- The loop over fractional digits, `/repo/src/serde.rs:221-245`.  Returns the last `out`, `up` and the
units. -/
def fracLoop {σ : Type} (m : Mode) (last : Int) :
    List Nat → (i out cut up : Int) → (lsu : List Int) → Out σ (Int × Int × List Int)
  | [], _, _, _, _, _ => .panic .index
  | c :: cs, i, out, cut, up, lsu =>
    if c = 46 then fracLoop m last cs (i + 1) out cut up lsu
    else do
      let cut ← i8 m (cut - 1)
      let p ← idx POW10 cut
      let t ← i32 m (c - 48)
      let t ← i32 m (t * p)
      let o ← i32 m (out + t)
      if i = last then return (o, up, lsu)
      else if cut > 0 then fracLoop m last cs (i + 1) o cut up lsu
      else do
        let lsu ← upd lsu up o
        fracLoop m last cs (i + 1) 0 DIGITS_PER_UNIT (up - 1) lsu

/-- `/repo/src/serde.rs:127-156`: number of fractional digits, total digits and heading zeroes after
applying the exponent; all `i8` arithmetic. -/
def applyExp {σ : Type} (m : Mode) (d fracDigits exp : Int) : Out σ (Int × Int × Int) := do
  let frac ← i8 m (wrap 8 fracDigits - wrap 8 exp)
  if frac = 0 then return (frac, d, 0)
  else if frac > 0 then
    if d > frac then return (frac, d, 0)
    else do
      let hz ← i8 m (frac - d)
      return (frac, frac, hz)
  else do
    let digits ← i8 m (d - frac)
    return (0, digits, 0)

/-- The writing part of `from_bytes_str`, `/repo/src/serde.rs:162-253`. -/
def writeDigits {σ : Type} (m : Mode) (self : FixedDecimal) (bs : List Nat) (st : Scan)
    (frac digits headingZeroes : Int) : Out σ FixedDecimal := do
  let di ← i8 m (digits - frac)
  let intgUnits ← getUnits m di
  let fracUnits ← getUnits m frac
  let t ← usz m (intgUnits + fracUnits - 1)
  let up := wrap 64 t
  let (lsu, rest, off, up) ← (
    if intgUnits > 0 then do
      let cs := bs.drop st.cfirst.toNat
      let (rest, out, cut, up, lsu) ← intgLoop m st.last cs st.cfirst 0 di up self.lsu
      let re ← mod9 cut
      let p ← idx POW10 re
      let v ← i32 m (out * p)
      let lsu ← upd lsu up v
      let cut ← i8 m (cut - re)
      let (up, lsu) ← zeroUnitsLoop m (cut.toNat + 1) cut (up - 1) lsu
      return (lsu, rest, (bs.length : Int) - rest.length, up)
    else return (self.lsu, bs.drop st.cfirst.toNat, st.cfirst, up)
    : Out σ (List Int × List Nat × Int × Int))
  let lsu ← (
    if fracUnits > 0 then do
      let (hz, up, lsu) ← headZeroLoop m (headingZeroes.toNat + 1) headingZeroes up lsu
      let cut ← i8 m (DIGITS_PER_UNIT - hz)
      let (out, up, lsu) ← fracLoop m st.last rest off 0 cut up lsu
      upd lsu up out
    else return lsu : Out σ (List Int))
  let fd : FixedDecimal := { intg := BitVec.ofInt 8 di, frac := frac, lsu := lsu }
  return if st.neg then fd.setNeg else fd

namespace FixedDecimal

/-- Models `from_bytes_str`, `/repo/src/serde.rs:15-254`.  (`from_ascii_str`, `/repo/src/serde.rs:10-12`,
passes the bytes of the `&str` on.)  On `Err` the state of `self` is in the outcome. -/
def fromBytesStr (m : Mode) (self : FixedDecimal) (bs : List Nat) (reset : Bool) :
    Out FixedDecimal FixedDecimal := do
  let self := if reset then self.setZero else self
  if bs = [] then .err .conversionSyntax self
  else do
    let (st, rest) ← scanLoop m bs 0 ⟨0, -1, -1, 0, false⟩
    if st.last = -1 then .err .conversionSyntax self
    else do
      let exp ← parseExp m self rest
      let fracDigits := if st.dotchar = -1 ∨ st.last < st.dotchar then 0 else st.last - st.dotchar
      let (frac, digits, hz) ← applyExp m st.d fracDigits exp
      if digits % 2 ^ 64 > MAX_DIGITS then .err .conversionSyntax self
      else writeDigits m self bs st frac digits hz

/-- Models `FromStr::from_str`, `/repo/src/serde.rs:448-456`. -/
def fromStr (m : Mode) (bs : List Nat) : Out Unit FixedDecimal :=
  match fromBytesStr m zero bs false with
  | .ok fd => .ok fd
  | .err e _ => .err e ()
  | .panic p => .panic p

end FixedDecimal
end Fxd
