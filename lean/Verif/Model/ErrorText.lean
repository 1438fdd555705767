import Verif.Model.Ops
/-!
# The texts of errors and of the operators' panics: `/repo/src/error.rs`, `/repo/src/arith.rs:104-187`
-/

namespace Fxd

/-- Models `Display for Error` (derived by `thiserror`), `/repo/src/error.rs:5-15`. -/
def Error.display : Error → String
  | .conversionSyntax => "Decimal conversion syntax error"
  | .divisionByZero => "Decimal division by zero"
  | .overflow => "Decimal overflow"
  | .exceedsConversionTargetRange => "Exceeds range of conversion target"

namespace FixedDecimal

/-- The message of a deliberate panic, `panic!("<what> failed: {}", e)`; `none` for a panic the compiler inserted or
when there is no panic. Simplification: `{}` is string concatenation. `/repo/src/arith.rs:115,132,149,166,183`. -/
def panicText {α : Type} (what : String) : Out Empty α → Option String
  | .panic (.operator e) => some (what ++ " failed: " ++ e.display)
  | _ => none

/-- What `a + b` says when it panics by itself, `/repo/src/arith.rs:115`. -/
def addText (m : Mode) (a b : FixedDecimal) : Option String := panicText "addition" (add m a b)
/-- What `a - b` says when it panics by itself, `/repo/src/arith.rs:132`. -/
def subText (m : Mode) (a b : FixedDecimal) : Option String := panicText "subtraction" (sub m a b)
/-- What `a * b` says when it panics by itself, `/repo/src/arith.rs:149`. -/
def mulText (m : Mode) (a b : FixedDecimal) : Option String := panicText "multiplication" (mul m a b)
/-- What `a / b` says when it panics by itself, `/repo/src/arith.rs:166`. -/
def divText (m : Mode) (a b : FixedDecimal) : Option String := panicText "division" (div m a b)
/-- What `a % b` says when it panics by itself, `/repo/src/arith.rs:183`. -/
def remText (m : Mode) (a b : FixedDecimal) : Option String := panicText "modulo" (rem m a b)

end FixedDecimal
end Fxd
