import Verif.Model.Cmp
/-!
# The provided methods of `Ord` and `PartialOrd`

`/repo/src/cmp.rs:13-36` implements `cmp` and `partial_cmp` and leaves the provided methods at the standard library's
defaults.  Here they are, in terms of `cmp` (`core::cmp`): `<=`, `>=`, `max`, `min`, `clamp`.
-/

namespace Fxd
namespace FixedDecimal

/-- `PartialOrd::le` as provided (`partial_cmp` is `Less` or `Equal`), from `/repo/src/cmp.rs:13-18`. -/
def le {σ : Type} (m : Mode) (self other : FixedDecimal) : Out σ Bool := do
  let o ← FixedDecimal.cmp m self other
  return o != .gt

/-- `PartialOrd::ge` as provided (`partial_cmp` is `Greater` or `Equal`), from `/repo/src/cmp.rs:13-18`. -/
def ge {σ : Type} (m : Mode) (self other : FixedDecimal) : Out σ Bool := do
  let o ← FixedDecimal.cmp m self other
  return o != .lt

/-- `Ord::max` as provided, from `/repo/src/cmp.rs:20-36`: of two equal values the second. -/
def max {σ : Type} (m : Mode) (self other : FixedDecimal) : Out σ FixedDecimal := do
  match ← FixedDecimal.cmp m self other with
  | .gt => return self
  | _ => return other

/-- `Ord::min` as provided, from `/repo/src/cmp.rs:20-36`: of two equal values the first. -/
def min {σ : Type} (m : Mode) (self other : FixedDecimal) : Out σ FixedDecimal := do
  match ← FixedDecimal.cmp m self other with
  | .gt => return other
  | _ => return self

/-- `Ord::clamp` as provided, from `/repo/src/cmp.rs:20-36`: `assert!(lo <= hi)` (in every build), then
`if self < lo { lo } else if self > hi { hi } else { self }`. -/
def clamp {σ : Type} (m : Mode) (self lo hi : FixedDecimal) : Out σ FixedDecimal := do
  let fits ← le m lo hi
  if !fits then .panic .assert
  else do
    let below ← FixedDecimal.lt m self lo
    if below then return lo
    else do
      let above ← FixedDecimal.gt m self hi
      return if above then hi else self

/-- `Iterator::max` on a non-empty sequence: `reduce` with `Ord::max`, from `/repo/src/cmp.rs:20-36`. -/
def maxOf {σ : Type} (m : Mode) : FixedDecimal → List FixedDecimal → Out σ FixedDecimal
  | best, [] => .ok best
  | best, x :: xs => do
    let best ← max m best x
    maxOf m best xs

/-- `Iterator::min` on a non-empty sequence: `reduce` with `Ord::min`, from `/repo/src/cmp.rs:20-36`. -/
def minOf {σ : Type} (m : Mode) : FixedDecimal → List FixedDecimal → Out σ FixedDecimal
  | best, [] => .ok best
  | best, x :: xs => do
    let best ← min m best x
    minOf m best xs

end FixedDecimal
end Fxd
