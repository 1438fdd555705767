/-!
# Machine-level primitives of the model

The Rust sources in `/repo/src` use fixed-width integers, slices with bounds checks,
`debug_assert!`, and `Result`.  This file gives their meaning once:

* `Mode`   : `debug` builds trap integer overflow and run `debug_assert!`; `release` builds wrap
             and skip it (`/repo/Cargo.toml:13` leaves `[profile.release]` at its defaults).
* `Out σ α`: what running a piece of code does: it finishes with a value, returns `Err(e)` leaving
             its `&mut` output parameter in state `σ`, or panics.
* integers : a Rust integer is an `Int`; each arithmetic operation that can leave the range of its
             type goes through `i8`/`i32`/`i64`/`usz`, which traps or wraps according to `Mode`.
             `isize`/`usize` are 64 bits wide.
-/

namespace Fxd

/-- Build mode: decides what integer overflow and `debug_assert!` do. Models rustc's
`-C overflow-checks`/`-C debug-assertions` defaults for dev and release profiles
(`/repo/Cargo.toml:13`). -/
inductive Mode
  | debug
  | release
  deriving DecidableEq, Repr

/-- Models the four error values of `/repo/src/error.rs:6-15`. -/
inductive Error
  | conversionSyntax
  | divisionByZero
  | overflow
  | exceedsConversionTargetRange
  deriving DecidableEq, Repr

/-- Reasons for a Rust panic. No source lines: Rust runtime behaviour. -/
inductive Panic
  /-- arithmetic overflow trap (debug builds only) -/
  | overflow
  /-- slice/array index or range out of bounds, or `copy_from_slice` length mismatch -/
  | index
  /-- `debug_assert!` failure (debug builds only) -/
  | assert
  /-- division by zero trap -/
  | divZero
  /-- `unreachable!` -/
  | unreachable
  /-- an operator (`+ - * / %`) applied to a failing operation, `/repo/src/arith.rs:114-116` etc. -/
  | operator (e : Error)
  /-- not a Rust panic: a `while` loop of the model has used up its fuel, i.e. the Rust loop would run on.
  Properties C71 and C95 show that this outcome does not occur. -/
  | diverges
  deriving DecidableEq, Repr

/-- Result of running code: `ok` (normal completion), `err e s` (the function returned `Err(e)` and
its `&mut` output parameter was left as `s`), `panic`. The shape of every `_to` function, e.g. `/repo/src/arith.rs:84-92`
(`Result` is `/repo/src/error.rs:3`). -/
inductive Out (σ : Type) (α : Type)
  | ok (a : α)
  | err (e : Error) (s : σ)
  | panic (p : Panic)
  deriving DecidableEq, Repr

namespace Out

/-- Sequencing: stops at the first `err` or `panic` (Rust's `?` and unwinding), e.g. `/repo/src/arith.rs:86`. -/
protected def bind {σ α β : Type} : Out σ α → (α → Out σ β) → Out σ β
  | .ok a, f => f a
  | .err e s, _ => .err e s
  | .panic p, _ => .panic p

/-- The same as a monad, so that the model can be written with `do`, line by line like the Rust code. No source lines. -/
instance {σ : Type} : Monad (Out σ) where
  pure := .ok
  bind := Out.bind

end Out

/-- Two's-complement truncation to `bits` bits: Rust's `as i8`, `as i32`, ... (never traps), e.g. `/repo/src/arith.rs:275`, `440`,
`514`. -/
def wrap (bits : Nat) (x : Int) : Int := Int.bmod x (2 ^ bits)

/-- A signed arithmetic result `x` of width `bits`: itself when representable, otherwise a trap in
debug and a wrapped value in release. Rust's `+ - *` on signed integers; no source lines of its own. -/
def sarith {σ : Type} (m : Mode) (bits : Nat) (x : Int) : Out σ Int :=
  if -(2 ^ (bits - 1) : Int) ≤ x ∧ x < (2 ^ (bits - 1) : Int) then .ok x
  else match m with
    | .debug => .panic .overflow
    | .release => .ok (wrap bits x)

/-- `i8` arithmetic result, e.g. the digit counts of `/repo/src/arith.rs:392-394`. -/
def i8 {σ : Type} (m : Mode) (x : Int) : Out σ Int := sarith m 8 x
/-- `i32` arithmetic result, e.g. the units added in `add_with_carry`, `/repo/src/arith.rs:939`. -/
def i32 {σ : Type} (m : Mode) (x : Int) : Out σ Int := sarith m 32 x
/-- `i64` arithmetic result, e.g. the products of units of `/repo/src/arith.rs:430-440`. -/
def i64 {σ : Type} (m : Mode) (x : Int) : Out σ Int := sarith m 64 x
/-- `isize` arithmetic result (64-bit targets), e.g. the positions of `/repo/src/arith.rs:205-233`. -/
def isz {σ : Type} (m : Mode) (x : Int) : Out σ Int := sarith m 64 x

/-- `u64`/`usize` arithmetic result: trap or wrap outside `[0, 2^64)`, e.g. `/repo/src/arith.rs:733`. -/
def usz {σ : Type} (m : Mode) (x : Int) : Out σ Int :=
  if 0 ≤ x ∧ x < (2 ^ 64 : Int) then .ok x
  else match m with
    | .debug => .panic .overflow
    | .release => .ok (x % (2 ^ 64 : Int))

/-- `debug_assert!(c)`: `/repo/src/arith.rs:442`, `614`, `632`, `843`, `859`, `922`, `/repo/src/round.rs:67`, `139`. -/
def dassert {σ : Type} (m : Mode) (c : Bool) : Out σ Unit :=
  match m with
  | .debug => if c then .ok () else .panic .assert
  | .release => .ok ()

/-- Signed 64-bit division `a / b` for a divisor that is not a literal, `/repo/src/arith.rs:568`, `581`, `629`, `781`,
`813`, `857`, `912`: truncates toward zero. In every build it traps on a zero divisor and on the one quotient that does not
fit, `i64::MIN / -1`. -/
def idiv {σ : Type} (a b : Int) : Out σ Int :=
  if b = 0 then .panic .divZero
  else if a = -(2 ^ 63 : Int) ∧ b = -1 then .panic .overflow
  else .ok (a.tdiv b)

/-- `l[i]`: bounds-checked read. A negative `isize` cast to `usize` is at least `2^63`, hence out of
bounds. E.g. `/repo/src/arith.rs:438`. -/
def idx {σ α : Type} (l : List α) (i : Int) : Out σ α :=
  if 0 ≤ i then
    match l[i.toNat]? with
    | some v => .ok v
    | none => .panic .index
  else .panic .index

/-- `l[i] = v`: bounds-checked write, e.g. `/repo/src/arith.rs:440`. -/
def upd {σ α : Type} (l : List α) (i : Int) (v : α) : Out σ (List α) :=
  if 0 ≤ i ∧ i.toNat < l.length then .ok (l.set i.toNat v) else .panic .index

/-- `&l[a..b]`: panics when `a > b` or `b > len`. E.g. `/repo/src/decimal.rs:183`. -/
def slice {σ α : Type} (l : List α) (a b : Int) : Out σ (List α) :=
  if 0 ≤ a ∧ a ≤ b ∧ b ≤ l.length then .ok ((l.drop a.toNat).take (b - a).toNat)
  else .panic .index

/-- `dst[a..b].copy_from_slice(src)`: panics on a bad range or a length mismatch. E.g. `/repo/src/arith.rs:211`, `733`. -/
def copyFromSlice {σ α : Type} (dst : List α) (a b : Int) (src : List α) : Out σ (List α) :=
  if 0 ≤ a ∧ a ≤ b ∧ b ≤ dst.length ∧ b - a = src.length then
    .ok (dst.take a.toNat ++ src ++ dst.drop b.toNat)
  else .panic .index

/-- `l.copy_within(a..b, dest)`: memmove inside one slice; panics on a bad range or when the copy
would run past the end. `/repo/src/round.rs:28`. -/
def copyWithin {σ α : Type} (l : List α) (a b dest : Int) : Out σ (List α) :=
  if 0 ≤ a ∧ a ≤ b ∧ b ≤ l.length ∧ 0 ≤ dest ∧ dest + (b - a) ≤ l.length then
    .ok (l.take dest.toNat ++ (l.drop a.toNat).take (b - a).toNat
      ++ l.drop (dest.toNat + (b - a).toNat))
  else .panic .index

/-- `for v in &mut l[a..b] { *v = 0 }` and `l[a..b].fill(0)`: `/repo/src/round.rs:43-45`, `62-64`, `258`. -/
def zeroRange {σ : Type} (l : List Int) (a b : Int) : Out σ (List Int) :=
  if 0 ≤ a ∧ a ≤ b ∧ b ≤ l.length then
    .ok (l.take a.toNat ++ List.replicate (b - a).toNat 0 ++ l.drop b.toNat)
  else .panic .index

end Fxd
