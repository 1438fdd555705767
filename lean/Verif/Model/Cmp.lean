import Verif.Model.Decimal
/-!
# `/repo/src/cmp.rs`: comparison
-/

namespace Fxd

/-- First loop of `cmp_abs_lsu`, `/repo/src/cmp.rs:60-67`: `while liu > 0 && liu > riu`, walking down
from unit `i`.  `liu` is the loop counter.  `.inl` = early `return hit`; `.inr (liu, i)` = loop left
normally.  Used with the roles of the operands swapped (and the other answer) for the second loop,
`/repo/src/cmp.rs:68-75`. -/
def cmpExtra {σ : Type} (lsu : List Int) (riu : Int) (hit : Ordering) :
    (liu : Nat) → (i : Int) → Out σ (Ordering ⊕ (Int × Int))
  | 0, i => .ok (.inr (0, i))
  | n + 1, i =>
    if ((n + 1 : Nat) : Int) > riu then do
      let v ← idx lsu i
      if v > 0 then return .inl hit
      cmpExtra lsu riu hit n (i - 1)
    else .ok (.inr (((n + 1 : Nat) : Int), i))

/-- Third loop of `cmp_abs_lsu`, `/repo/src/cmp.rs:77-88`: `while i >= 0 && j >= 0`.  `n` is the number
of iterations `min (i+1) (j+1)` left. -/
def cmpCommon {σ : Type} (llsu rlsu : List Int) :
    (n : Nat) → (i j : Int) → Out σ (Ordering ⊕ (Int × Int))
  | 0, i, j => .ok (.inr (i, j))
  | n + 1, i, j => do
    let lv ← idx llsu i
    let rv ← idx rlsu j
    if lv > rv then return .inl .gt
    if lv < rv then return .inl .lt
    cmpCommon llsu rlsu n (i - 1) (j - 1)

/-- Fourth and fifth loops of `cmp_abs_lsu`, `/repo/src/cmp.rs:89-101`: `while i >= 0` over the units
only one side still has.  `n = i + 1` is the number of units left. -/
def cmpTail {σ : Type} (lsu : List Int) (hit : Ordering) :
    (n : Nat) → Out σ (Option Ordering)
  | 0 => .ok none
  | n + 1 => do
    let v ← idx lsu n
    if v > 0 then return some hit
    cmpTail lsu hit n

/-- Models `cmp_abs_lsu`, `/repo/src/cmp.rs:50-104`. -/
def cmpAbsLsu {σ : Type} (liu lfu : Int) (llsu : List Int) (riu rfu : Int) (rlsu : List Int) :
    Out σ Ordering := do
  let i := liu + lfu - 1
  let j := riu + rfu - 1
  match ← cmpExtra llsu riu .gt liu.toNat i with
  | .inl o => return o
  | .inr (liu, i) =>
    match ← cmpExtra rlsu liu .lt riu.toNat j with
    | .inl o => return o
    | .inr (_, j) =>
      match ← cmpCommon llsu rlsu (min (i + 1) (j + 1)).toNat i j with
      | .inl o => return o
      | .inr (i, j) =>
        match ← cmpTail llsu .gt (i + 1).toNat with
        | some o => return o
        | none =>
          match ← cmpTail rlsu .lt (j + 1).toNat with
          | some o => return o
          | none => return .eq

/-- Models `cmp_abs`, `/repo/src/cmp.rs:38-48`. -/
def cmpAbs {σ : Type} (m : Mode) (lhs rhs : FixedDecimal) : Out σ Ordering := do
  let liu ← lhs.intgUnits m
  let lfu ← lhs.fracUnits m
  let riu ← rhs.intgUnits m
  let rfu ← rhs.fracUnits m
  cmpAbsLsu liu lfu lhs.lsu riu rfu rhs.lsu

namespace FixedDecimal

/-- Models `Ord::cmp`, `/repo/src/cmp.rs:20-36` (`partial_cmp` wraps it in `Some`,
`/repo/src/cmp.rs:13-18`). -/
def cmp {σ : Type} (m : Mode) (self other : FixedDecimal) : Out σ Ordering :=
  let lneg := self.isNeg
  let rneg := other.isNeg
  if lneg then
    if rneg then cmpAbs m other self
    else .ok .lt
  else if rneg then .ok .gt
  else cmpAbs m self other

/-- Models `PartialEq::eq`, `/repo/src/cmp.rs:4-9`. -/
def eq {σ : Type} (m : Mode) (self other : FixedDecimal) : Out σ Bool := do
  let o ← cmp m self other
  return o == .eq

/-- The `<` operator derived from `partial_cmp`, `/repo/src/cmp.rs:13-18`. -/
def lt {σ : Type} (m : Mode) (self other : FixedDecimal) : Out σ Bool := do
  let o ← cmp m self other
  return o == .lt

/-- The `>` operator derived from `partial_cmp`, `/repo/src/cmp.rs:13-18`. -/
def gt {σ : Type} (m : Mode) (self other : FixedDecimal) : Out σ Bool := do
  let o ← cmp m self other
  return o == .gt

end FixedDecimal
end Fxd
