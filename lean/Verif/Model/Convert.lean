import Verif.Model.Cmp
import Verif.Model.Round
/-!
# `/repo/src/decimal.rs:129-165`: conversion to `i64` and `u64`

These take `&self`, so an error leaves nothing behind: the state of `err` is `Unit`.
-/

namespace Fxd
namespace FixedDecimal

/-- Models `lsu_to_i64`, `/repo/src/decimal.rs:142-148`.  `-self.lsu[0] as i64` is `(-lsu[0]) as i64`
with `i32` negation; the rest is `i64` arithmetic, left to right. -/
def lsuToI64 {σ : Type} (m : Mode) (fd : FixedDecimal) : Out σ Int := do
  let l0 ← idx fd.lsu 0
  let l1 ← idx fd.lsu 1
  let l2 ← idx fd.lsu 2
  if fd.isNeg then do
    let a ← i32 m (-l0)
    let b ← i64 m (l1 * UNIT)
    let c ← i64 m (a - b)
    let d ← i64 m (l2 * UNIT)
    let e ← i64 m (d * UNIT)
    i64 m (c - e)
  else do
    let b ← i64 m (l1 * UNIT)
    let c ← i64 m (l0 + b)
    let d ← i64 m (l2 * UNIT)
    let e ← i64 m (d * UNIT)
    i64 m (c + e)

/-- Models `as_i64`, `/repo/src/decimal.rs:129-140`. -/
def asI64 (m : Mode) (self : FixedDecimal) : Out Unit Int := do
  let below ← self.lt m MIN_I64
  let above ← (if below then .ok true else self.gt m MAX_I64)
  if above then .err .exceedsConversionTargetRange ()
  else do
    let fu ← self.fracUnits m
    if fu > 0 then do
      let target ← self.roundTo m zero 0
      target.lsuToI64 m
    else self.lsuToI64 m

/-- Models `lsu_to_u64`, `/repo/src/decimal.rs:163-165` (`as u64` of an `i32` sign-extends). -/
def lsuToU64 {σ : Type} (m : Mode) (fd : FixedDecimal) : Out σ Int := do
  let l0 ← idx fd.lsu 0
  let l1 ← idx fd.lsu 1
  let l2 ← idx fd.lsu 2
  let b ← usz m (l1 % 2 ^ 64 * UNIT)
  let c ← usz m (l0 % 2 ^ 64 + b)
  let d ← usz m (l2 % 2 ^ 64 * UNIT)
  let e ← usz m (d * UNIT)
  usz m (c + e)

/-- Models `as_u64`, `/repo/src/decimal.rs:150-161`. -/
def asU64 (m : Mode) (self : FixedDecimal) : Out Unit Int := do
  let above ← (if self.isNeg then .ok true else self.gt m MAX_U64)
  if above then .err .exceedsConversionTargetRange ()
  else do
    let fu ← self.fracUnits m
    if fu > 0 then do
      let target ← self.roundTo m zero 0
      target.lsuToU64 m
    else self.lsuToU64 m

end FixedDecimal
end Fxd
