import Verif.Model.AddSub
import Verif.Model.Mul
import Verif.Model.Div
/-!
# `/repo/src/arith.rs:104-187`: the operators `+ - * / %`
-/

namespace Fxd
namespace FixedDecimal

/-- The fresh output parameter of the operators, `/repo/src/arith.rs:109-113` (and 126-130, ...). -/
def blank : FixedDecimal := ⟨0#8, 0, zeroUnits⟩

/-- `if let Err(e) = ... { panic!(...) }`, `/repo/src/arith.rs:114-116` (and 131-133, ...). -/
def orPanic {α : Type} : Out FixedDecimal α → Out Empty α
  | .ok a => .ok a
  | .err e _ => .panic (.operator e)
  | .panic p => .panic p

/-- Models `Add::add`, `/repo/src/arith.rs:104-119`. -/
def add (m : Mode) (a b : FixedDecimal) : Out Empty FixedDecimal := orPanic (addTo m a b blank)
/-- Models `Sub::sub`, `/repo/src/arith.rs:121-136`. -/
def sub (m : Mode) (a b : FixedDecimal) : Out Empty FixedDecimal := orPanic (subTo m a b blank)
/-- Models `Mul::mul`, `/repo/src/arith.rs:138-153`. -/
def mul (m : Mode) (a b : FixedDecimal) : Out Empty FixedDecimal := orPanic (mulTo m a b blank)
/-- Models `DIV_INCR_FRAC`, `/repo/src/arith.rs:9`. -/
def DIV_INCR_FRAC : Int := 4
/-- Models `Div::div`, `/repo/src/arith.rs:155-170`. -/
def div (m : Mode) (a b : FixedDecimal) : Out Empty FixedDecimal :=
  orPanic (divTo m a b blank DIV_INCR_FRAC)
/-- Models `Rem::rem`, `/repo/src/arith.rs:172-187`. -/
def rem (m : Mode) (a b : FixedDecimal) : Out Empty FixedDecimal := orPanic (remTo m a b blank)

end FixedDecimal
end Fxd
