import Verif.Model.Decimal
import Verif.Model.Ops
import Mathlib.Data.Nat.Digits.Defs
/-!
# The `{:?}` texts: `#[derive(Debug)]` on `FixedDecimal` and on `Error`

`/repo/src/decimal.rs:32`, `/repo/src/error.rs:5`.  The derive writes the name of the struct and its fields in the order
of declaration, each with its own `{:?}`; an array is written between brackets; a variant without fields is its name.
-/

namespace Fxd

/-- `{:?}` (and `{}`) of the integer types: decimal digits without leading zeros, after a minus sign if negative; part of
the derived `Debug` of `/repo/src/decimal.rs:32`. -/
def intText (i : Int) : List Char :=
  (if i < 0 then ['-'] else []) ++
    (if i = 0 then ['0'] else (Nat.digits 10 i.natAbs).reverse.map Nat.digitChar)

/-- The elements of `{:?}` of an array, without the brackets: `/repo/src/decimal.rs:32,41`. -/
def itemsText : List Int → List Char
  | [] => []
  | [i] => intText i
  | i :: j :: js => intText i ++ ", ".toList ++ itemsText (j :: js)

/-- The elements of `{:#?}` of an array that is a field of a struct, one per line, indented twice: `/repo/src/decimal.rs:32,41`. -/
def linesText : List Int → List Char
  | [] => []
  | i :: is => "        ".toList ++ (intText i ++ (",\n".toList ++ linesText is))

namespace FixedDecimal

/-- Models `Debug for FixedDecimal` with `{:?}` (derived), `/repo/src/decimal.rs:32-42`.  `intg` is an `i8`, so the bits
are read as a signed number. -/
def debugText (d : FixedDecimal) : List Char :=
  "FixedDecimal { intg: ".toList ++ intText d.intg.toInt ++ ", frac: ".toList ++ intText d.frac ++
    ", lsu: [".toList ++ itemsText d.lsu ++ "] }".toList

/-- Models `Debug for FixedDecimal` with `{:#?}` (derived), `/repo/src/decimal.rs:32-42`: one field per line, indented by four
spaces and ended by a comma; an array without elements would be `[]`. -/
def prettyText (d : FixedDecimal) : List Char :=
  "FixedDecimal {\n    intg: ".toList ++ (intText d.intg.toInt ++ (",\n    frac: ".toList ++ (intText d.frac ++
    (",\n    lsu: [".toList ++ (if d.lsu = [] then "],\n}".toList else "\n".toList ++ (linesText d.lsu ++ "    ],\n}".toList))))))

end FixedDecimal

/-- Models `Debug for Error` (derived), `/repo/src/error.rs:5-15`. -/
def Error.debugText : Error → List Char
  | .conversionSyntax => "ConversionSyntax".toList
  | .divisionByZero => "DivisionByZero".toList
  | .overflow => "Overflow".toList
  | .exceedsConversionTargetRange => "ExceedsConversionTargetRange".toList

end Fxd
