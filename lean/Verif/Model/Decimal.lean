import Verif.Model.Tables
/-!
# `/repo/src/decimal.rs`: the type and its basic methods

A method taking `&mut self` becomes a function returning the new value.
-/

namespace Fxd

/-- Models `struct FixedDecimal`, `/repo/src/decimal.rs:32-42`.  `intg` keeps its 8 bits (the top bit
is the sign flag), `frac` is an `i8` kept as an integer, `lsu` is the array of nine `i32` units,
least significant first.  (The array length 9 is part of the well-formedness predicate, not of the
type.) -/
structure FixedDecimal where
  intg : BitVec 8
  frac : Int
  lsu : List Int
  deriving DecidableEq, Repr

/-- `[0; MAX_UNITS]`, e.g. `/repo/src/decimal.rs:50`. -/
def zeroUnits : List Int := List.replicate 9 0

namespace FixedDecimal

/-- Models `MAX_I64`, `/repo/src/decimal.rs:12-16`. -/
def MAX_I64 : FixedDecimal := ⟨19#8, 0, [854775807, 223372036, 9, 0, 0, 0, 0, 0, 0]⟩
/-- Models `MIN_I64`, `/repo/src/decimal.rs:17-21`. -/
def MIN_I64 : FixedDecimal := ⟨19#8 ||| 0x80#8, 0, [854775808, 223372036, 9, 0, 0, 0, 0, 0, 0]⟩
/-- Models `MAX_U64`, `/repo/src/decimal.rs:22-26`. -/
def MAX_U64 : FixedDecimal := ⟨20#8, 0, [709551615, 446744073, 18, 0, 0, 0, 0, 0, 0]⟩

/-- Models `zero`, `/repo/src/decimal.rs:46-52`. -/
def zero : FixedDecimal := ⟨1#8, 0, zeroUnits⟩

/-- Models `one`, `/repo/src/decimal.rs:55-59` (`lsu[0] = 1` on a fresh nine-element array). -/
def one : FixedDecimal := { zero with lsu := zero.lsu.set 0 1 }

/-- Models `is_neg`, `/repo/src/decimal.rs:62-64`. -/
def isNeg (fd : FixedDecimal) : Bool := fd.intg &&& 0x80#8 != 0#8

/-- Models `set_neg`, `/repo/src/decimal.rs:67-69`. -/
def setNeg (fd : FixedDecimal) : FixedDecimal := { fd with intg := fd.intg ||| 0x80#8 }

/-- Models `set_pos`, `/repo/src/decimal.rs:80-82`. -/
def setPos (fd : FixedDecimal) : FixedDecimal := { fd with intg := fd.intg &&& 0x7f#8 }

/-- Models `reset_units`, `/repo/src/decimal.rs:125-127`. -/
def resetUnits (fd : FixedDecimal) : FixedDecimal := { fd with lsu := fd.lsu.map fun _ => 0 }

/-- Models `set_zero`, `/repo/src/decimal.rs:85-89`. -/
def setZero (fd : FixedDecimal) : FixedDecimal := resetUnits { fd with intg := 1#8, frac := 0 }

/-- Models `is_zero`, `/repo/src/decimal.rs:92-94`. -/
def isZero (fd : FixedDecimal) : Bool := fd.lsu.all fun n => n == 0

/-- Models `set_one`, `/repo/src/decimal.rs:97-102` (`lsu[0] = 1` on a nine-element array). -/
def setOne (fd : FixedDecimal) : FixedDecimal :=
  let fd := resetUnits { fd with intg := 1#8, frac := 0 }
  { fd with lsu := fd.lsu.set 0 1 }

/-- Models `set_neg_and_check_zero`, `/repo/src/decimal.rs:72-77`. -/
def setNegAndCheckZero (fd : FixedDecimal) : FixedDecimal :=
  let fd := fd.setNeg
  if fd.isZero then fd.setPos else fd

/-- Models `intg`, `/repo/src/decimal.rs:105-107`. -/
def intgDigits (fd : FixedDecimal) : Int := (fd.intg &&& 0x7f#8).toInt

/-- Models `intg_units`, `/repo/src/decimal.rs:110-112`. -/
def intgUnits {σ : Type} (m : Mode) (fd : FixedDecimal) : Out σ Int := getUnits m fd.intgDigits

/-- Models `frac_units`, `/repo/src/decimal.rs:120-122` (`frac()` is the field itself,
`/repo/src/decimal.rs:115-117`). -/
def fracUnits {σ : Type} (m : Mode) (fd : FixedDecimal) : Out σ Int := getUnits m fd.frac

/-- One call on the `Hasher`, `/repo/src/decimal.rs:175-184`, see `hash`. -/
inductive HashWrite
  | u8 (v : Int)
  | u32 (v : Int)
  deriving DecidableEq, Repr

/-- Models `Hash::hash`, `/repo/src/decimal.rs:172-187`, as the sequence of writes it makes to the
hasher (the hasher itself is the caller's).  `*v as u32` is reduction modulo `2^32`. -/
def hash {σ : Type} (m : Mode) (fd : FixedDecimal) : Out σ (List HashWrite) := do
  let iu ← fd.intgUnits m
  let fu ← fd.fracUnits m
  let units ← slice fd.lsu 0 (iu + fu)
  return [.u8 (if fd.isNeg then 1 else 0), .u8 iu, .u8 fu] ++
    units.map fun v => .u32 (v % 2 ^ 32)

/-- The `while src != 0` loop of `From<u64>`, `/repo/src/decimal.rs:208-214`.  `fuel` bounds the
number of tests of the condition and is one more than the initial `src`, which always suffices because `src / UNIT < src`
(`Props.C71_from_u64`). -/
def fromU64Loop {σ : Type} : (fuel : Nat) → (src : Int) → (i : Int) → (lsu : List Int) →
    Out σ (Int × List Int)
  | 0, _, _, _ => .panic .diverges
  | fuel + 1, src, i, lsu =>
    if src = 0 then .ok (i, lsu)
    else do
      let q := src.tdiv UNIT
      let r := src - q * UNIT
      let lsu ← upd lsu i (wrap 32 r)
      fromU64Loop fuel q (i + 1) lsu

/-- Models `From<u64>::from`, `/repo/src/decimal.rs:204-218`. `src` ranges over `[0, 2^64)`. -/
def fromU64 {σ : Type} (src : Int) : Out σ FixedDecimal := do
  let (i, lsu) ← fromU64Loop (src.toNat + 1) src 0 zero.lsu
  return { zero with lsu := lsu, intg := BitVec.ofInt 8 (i * DIGITS_PER_UNIT) }

/-- Models `From<i64>::from`, `/repo/src/decimal.rs:189-202`. `src` ranges over `[-2^63, 2^63)`;
`-src as u64` parses as `(-src) as u64`. -/
def fromI64 {σ : Type} (m : Mode) (src : Int) : Out σ FixedDecimal := do
  if src = -(2 ^ 63) then return MIN_I64
  else if src < 0 then do
    let n ← i64 m (-src)
    let fd ← fromU64 (n % 2 ^ 64)
    return fd.setNeg
  else fromU64 src

end FixedDecimal
end Fxd
