import Verif.Model.Prim
/-!
# Lookup tables and small helpers of `/repo/src/utils.rs`

The tables are literal copies of the Rust tables (generated from the source text).
-/

namespace Fxd

/-- Models `UNIT`, `/repo/src/decimal.rs:9`. -/
def UNIT : Int := 1000000000
/-- Models `HALF_UNIT`, `/repo/src/decimal.rs:10`. -/
def HALF_UNIT : Int := 500000000
/-- Models `MAX_UNITS`, `/repo/src/decimal.rs:5`. -/
def MAX_UNITS : Int := 9
/-- Models `MAX_FRAC`, `/repo/src/decimal.rs:6`. -/
def MAX_FRAC : Int := 30
/-- Models `MAX_DIGITS`, `/repo/src/decimal.rs:7`. -/
def MAX_DIGITS : Int := 65
/-- Models `MAX_FRAC_UNITS = (30 + 9 - 1) / 9`, `/repo/src/decimal.rs:11`. -/
def MAX_FRAC_UNITS : Int := 4
/-- Models `DIGITS_PER_UNIT`, `/repo/src/decimal.rs:8`. -/
def DIGITS_PER_UNIT : Int := 9
/-- Models `BIN_HIGH_UNIT`, `/repo/src/utils.rs:35`. -/
def BIN_HIGH_UNIT : Int := 1000000
/-- Models `BIN_MID_UNIT`, `/repo/src/utils.rs:36`. -/
def BIN_MID_UNIT : Int := 1000

/-- Models `DIV9_TABLE`, `/repo/src/utils.rs:1-7` (literal copy). -/
def DIV9_TABLE : List Int :=
  [0, 0, 0, 0, 0, 0, 0, 0, 0, 1, 1, 1, 1, 1, 1, 1, 1, 1, 2, 2, 2, 2, 2, 2, 2, 2, 2, 3, 3, 3, 3, 3,
   3, 3, 3, 3, 4, 4, 4, 4, 4, 4, 4, 4, 4, 5, 5, 5, 5, 5, 5, 5, 5, 5, 6, 6, 6, 6, 6, 6, 6, 6, 6, 7,
   7, 7, 7, 7, 7, 7, 7, 7, 8, 8, 8, 8, 8, 8, 8, 8, 8, 9, 9, 9, 9, 9, 9, 9, 9, 9, 10, 10, 10, 10, 10, 10,
   10, 10, 10, 11, 11, 11, 11, 11, 11, 11, 11, 11, 12, 12, 12, 12, 12, 12, 12, 12, 12, 13, 13, 13, 13, 13, 13, 13, 13, 13, 14, 14]

/-- Models `MOD9_TABLE`, `/repo/src/utils.rs:19-24` (literal copy). -/
def MOD9_TABLE : List Int :=
  [0, 1, 2, 3, 4, 5, 6, 7, 8, 0, 1, 2, 3, 4, 5, 6, 7, 8, 0, 1, 2, 3, 4, 5, 6, 7, 8, 0, 1, 2, 3, 4,
   5, 6, 7, 8, 0, 1, 2, 3, 4, 5, 6, 7, 8, 0, 1, 2, 3, 4, 5, 6, 7, 8, 0, 1, 2, 3, 4, 5, 6, 7, 8, 0,
   1, 2, 3, 4, 5, 6, 7, 8, 0, 1, 2, 3, 4, 5, 6, 7, 8, 0, 1, 2, 3, 4, 5, 6, 7, 8, 0, 1, 2, 3, 4, 5,
   6, 7, 8, 0, 1, 2, 3, 4, 5, 6, 7, 8, 0, 1, 2, 3, 4, 5, 6, 7, 8, 0, 1, 2, 3, 4, 5, 6, 7, 8, 0, 1]

/-- Models `POW10`, `/repo/src/utils.rs:31-33` (literal copy). -/
def POW10 : List Int :=
  [1, 10, 100, 1000, 10000, 100000, 1000000, 10000000, 100000000, 1000000000]

/-- Models `div9`, `/repo/src/utils.rs:15-17`. `d as usize` of a negative `i8` is out of bounds. -/
def div9 {σ : Type} (d : Int) : Out σ Int := idx DIV9_TABLE d

/-- Models `mod9`, `/repo/src/utils.rs:27-29`. -/
def mod9 {σ : Type} (d : Int) : Out σ Int := idx MOD9_TABLE d

/-- Models `get_units`, `/repo/src/utils.rs:10-12`: `d + 8` is `i8` arithmetic. -/
def getUnits {σ : Type} (m : Mode) (d : Int) : Out σ Int := do
  let e ← i8 m (d + 8)
  div9 e

/-- Models `unit_leading_zeroes`, `/repo/src/utils.rs:311-340`. -/
def unitLeadingZeroes (val : Int) : Int :=
  if val ≥ 100000000 then 0
  else if val ≥ 10000000 then 1
  else if val ≥ 1000000 then 2
  else if val ≥ 100000 then 3
  else if val ≥ 10000 then 4
  else if val ≥ 1000 then 5
  else if val ≥ 100 then 6
  else if val ≥ 10 then 7
  else if val ≥ 1 then 8
  else 9

/-- The lexicographic walk of the two `for` loops in `units_greater_equal`,
`/repo/src/utils.rs:345-356` and `359-371`: both lists are most-significant-first and already of the
same length (the shorter one padded with zeroes by `chain(repeat(&0))`). -/
def geWalk : List Int → List Int → Bool
  | l :: ls, r :: rs => if l > r then true else if l < r then false else geWalk ls rs
  | _, _ => true

/-- Models `units_greater_equal`, `/repo/src/utils.rs:343-373`. `zip` stops at the longer list, the
shorter one is extended by zeroes on its least significant side. -/
def unitsGreaterEqual (lhs rhs : List Int) : Bool :=
  if lhs.length > rhs.length then
    geWalk lhs.reverse (rhs.reverse ++ List.replicate (lhs.length - rhs.length) 0)
  else
    geWalk (lhs.reverse ++ List.replicate (rhs.length - lhs.length) 0) rhs.reverse

end Fxd
