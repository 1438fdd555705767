# Design

## What is modelled

Every non-test function of `/repo/src` is transcribed into Lean 4 (`lean/Verif/Model/*.lean`), function by
function and loop by loop; each definition cites its source lines.

| Rust file | Model file | Modelled |
|---|---|---|
| `decimal.rs` | `Model/Decimal.lean`, `Model/Convert.lean` | the struct, constants, setters, predicates, `Hash`, `From<u64>`, `From<i64>`, `as_i64`, `as_u64` |
| `utils.rs` | `Model/Tables.lean`, `Model/Bin2Char.lean`, `Model/Format.lean` (`d3_to_str`) | all tables (literal copies) and helpers |
| `cmp.rs` | `Model/Cmp.lean` | all |
| `round.rs` | `Model/Round.lean` | `round`, `round_to`, `round_half_up` |
| `serde.rs` | `Model/Parse.lean`, `Model/Format.lean` | `from_bytes_str`/`from_ascii_str`/`FromStr`, `to_string`, `append_str_buf`, `append_frac` |
| `arith.rs` | `Model/AddSub.lean`, `Model/Mul.lean`, `Model/Div.lean`, `Model/Ops.lean` | all five `*_to` functions, their `*_abs` kernels and the operators |
| `error.rs` | `Model/Prim.lean`, `Model/ErrorText.lean`, `Model/DebugText.lean` | the four error values and their texts |
| (std) | `Model/OrdProvided.lean` | the provided methods of `Ord`/`PartialOrd` that the crate inherits |

How Rust is rendered (`Model/Prim.lean`):

* Machine integers are `Int`; every arithmetic operation that could leave its type goes through
  `i8/i32/i64/isz/usz`, which trap in `Mode.debug` and wrap in `Mode.release`. Theorems quantify over both
  modes unless they say otherwise. `isize`/`usize` are 64 bits.
* Panics are data: `Out.panic` with a reason (index, overflow, assert, division, unreachable, diverges, operator).
  Indexing and slicing are bounds-checked.
* `Result::Err` is `Out.err e s`, with `s` the state in which the `&mut` output parameter is left.
* `&mut` parameters become explicit inputs and outputs, so "the old contents do not matter" is a theorem.
* Loops are structural recursions on their trip count (or on the list they walk); where a `while` has no
  syntactic trip count, the fuel is a value that provably suffices (stated in the comment); using it up is the panic
  `diverges`, which C71 (well-formed operands) and C95 (division and remainder of arbitrary struct contents) show never happens.
* Nothing else is added to the code: no ghost state.

Not modelled: allocation failure and capacity overflow of `Vec`, formatting flags other than `{:?}`/`{:#?}`,
`Clone` (structural copy), inlining/performance, benches. 32-bit targets are not modelled.
Usize/isize index arithmetic that cannot leave 64 bits (sums of unit counts, all below 64) is plain `Int`
arithmetic.

## Specification

`lean/Verif/Spec/Value.lean` (positional value `val : Rat`, well-formedness `WF`, tightness `Tight`) and the small
spec files next to it do not mention the model's functions, only the struct's fields.

* `val d` = sign * (sum of the first `ceil(intg/9) + ceil(frac/9)` units in base 10^9) / 10^(9*ceil(frac/9)).
* `WF d`: nine units in [0,10^9); `0 <= frac`; the unit counts fit; units beyond them are zero.
* `Tight d`: the integral part is below 10^intg and no digit beyond `frac` is set.

## Trusted base

Lean's kernel; the axioms `propext`, `Classical.choice`, `Quot.sound` (at most; checked with
`#print axioms`; the list for each theorem of the manifest is in `AXIOMS.md`); the reading of the Rust sources into `Model/*.lean`; the reading of each English
property into its theorem statement. No axioms are added; no compiled evaluation is trusted. Witnesses and tests use
`decide`/`decide +kernel`/`rfl`, which the kernel checks. As a sanity check (tests, not proofs) `Tests.lean`
replays the unit tests of `/repo/src` on the model, and `/verif/fidelity/compare.py` runs the model against `oracle.py`, a second
reading of the Rust sources written independently in Python, on random and deliberately ill-formed inputs (over two million cases
without a difference; earlier runs found two, both for ill-formed operands, see the comments of `qhatFuel` and `mulUnits`).

## Where the code violates its property

For C03, C15 (unbounded form), C19, C36, C37, C41, C42, C53, C55, C63 and the division part of C50 the property as a user would
state it is false of the code. Each has a witness theorem (kernel evaluation of the model on a concrete input)
and a `_partial` theorem under the weakest hypothesis we could prove.

## Plan per property

| id | property | model and proof |
|---|---|---|
| C01 | Parsing yields exactly the number written | `Spec/Numeral.lean` gives the grammar as a syntax tree (sign, integer digits, dot, fraction digits, exponent) with its own `render` and `denote : Rat`. Theorem: for every tree (1..127 digits in release, any number in debug), if the model parser returns Ok on `render t`, `val` of the result is `denote t`. Proof: loop invariants of the scan, integral, fractional and zero-fill loops. |
| C02 | What is accepted | Same tree; theorem `Ok <-> limits`, plus: every byte string the parser accepts is the rendering of a tree. |
| C03 | Parsing never panics and never misreads, however long the input | False. Witness theorems (kernel evaluation of the model on a 128-digit and a 257-digit string) and the partial theorem for at most 127 digits. |
| C04 | Parsing with reset forgets the old value | Equational reasoning on the model: the reset state is a constant. |
| C05 | A failed parse without reset leaves the decimal untouched | Case analysis of all error exits. |
| C06 | from_str agrees with from_ascii_str on a fresh zero and with reset | Unfolding plus C04. |
| C07 | Moving the point and adjusting the exponent does not change the number | Corollary of C01 and C16. |
| C08 | Sign characters | Theorem on the model parser for arbitrary byte strings. |
| C09 | Parsed decimals are well-formed | Loop invariants of C01 strengthened with unit bounds; for texts of more than 127 digits from the reference parser (`refParse_tight`). |
| C10 | to_string(-1) writes exactly the value | `Spec/Text.lean`: the expected text is defined from the value alone with `Nat.repr`-style digit lists; theorem: output = expected text. |
| C11 | to_string(k) truncates toward zero to exactly k digits | Same with truncation `floor(|v| * 10^k)`. |
| C12 | Canonical text | Corollary of the output equation. |
| C13 | Output is ASCII, so from_utf8_unchecked is sound | All bytes < 128, corollary (and a direct lemma). |
| C14 | Formatting only appends | Induction over the formatting loops (buffer is only appended to). |
| C15 | Round trip through text | Composition of C10 and C01; witness for the 65-digit fraction. |
| C16 | cmp is numeric order | Invariants of the five comparison loops against the positional value. |
| C17 | Ord/Eq laws | Corollary of C16 using an explicit order key (value, sign flag). |
| C18 | Trailing zeros do not matter for equality | Corollary of C16. |
| C19 | Hash is consistent with equality | False in general: witness 1 vs 1.0. Partial theorem: equal unit counts and == imply identical writes. |
| C20 | Addition is exact | Loop invariants (result prefix + carry * B^k = sum of operand prefixes). |
| C21 | Subtraction is exact | Same with borrow, and the final negation pass. |
| C22 | When addition and subtraction succeed | The same lemmas give success; failure by inversion on the last unit access; `never Err` structurally over the code; carry-panic witness. |
| C23 | Scale of sums | Read off the model equation. |
| C24 | Addition commutes | Values by C20; the outcome part by the exact success characterisation. |
| C25 | Subtraction undoes addition; a - a = 0 | Corollary of C20/C21. |
| C26 | Associativity of addition | Corollary of C20. |
| C27 | Multiplication is exact when nothing is cut off | Loop invariant of schoolbook multiplication. |
| C28 | Truncated multiplication is described exactly and never overshoots | `codeMul` in `Spec/Product.lean` (sum of schoolbook rows, each cut off on its own); the loop invariant shows the code computes it, and the discarded low parts are bounded row by row. |
| C29 | Which products are rejected | Case analysis; carry bound from tightness. What an error leaves: only the last row of the multiplication can carry, so the output holds the low nine units of the product (`mulLeft` in `Spec/Reference.lean`). |
| C30 | Sign of products | Case analysis plus C27. |
| C31 | Multiplication commutes | `codeMul` is symmetric (exchange of the double sum), so both orders build the same units. |
| C32 | Multiplying by one | Corollary of C27. |
| C33 | Division by zero is an error, not a crash | Lemma on the leading-unit search. |
| C34 | Zero dividend | Same. |
| C35 | Division by a one-unit divisor is truncated division | Loop invariant of short division. |
| C36 | Division by a multi-unit divisor is truncated division | False: witnesses. `Spec/LongDivision.lean` describes the run of the code in integers (`quoRun`, `codeQuo`), wrong correction and dropped units included: the value of every successful call and when it is well-formed (`C36_code`); truncation, or the sharp error bound, unless a guess before the last is too large (`QuoGuessTooBig`, characterised in the operands by `C36_guess_iff`); never for two-unit divisors. |
| C37 | Remainder | `Spec/LongDivision.lean` describes the run of the code in integers (`remRun`, `codeRem`), wrong correction included: the value of every successful call (`C37_code`); exact unless a guess is too large (`RemGuessTooBig`, characterised in the operands by `C37_guess_iff`); witness. |
| C38 | Remainder of a smaller dividend is the dividend | Branch of the model selected by C16's comparison lemma. |
| C39 | round_to rounds half away from zero | Equation for round_half_up, then arithmetic. |
| C40 | Extending the scale with round_to keeps the value | List equation. |
| C41 | In-place round agrees with round_to | False: witness; theorem for k < frac(). |
| C42 | Rounding to tens, hundreds, ... | False: witnesses; partial theorem for j < intg() and 9 not dividing j. |
| C43 | Rounding twice is rounding once, and rounding is monotone | Corollary of C39/C40. |
| C44 | Rounding moves a value by at most half a unit in the last place | Corollary of C39. |
| C45 | From<u64> and From<i64> are exact and never panic | Loop invariant of the unit-splitting loop. |
| C46 | as_i64 | C16 against the constants, C39, and i64 arithmetic bounds. |
| C47 | as_u64 | Same with u64. |
| C48 | Integer round trips | Corollary of C45-C47. |
| C49 | No negative zero from arithmetic on non-negative-zero operands | Case analysis on the sign handling. |
| C50 | Values stay well-formed through any history | Inductive reachability predicate and preservation by every operation (for division exactly when no quotient unit overflows, `QuoUnitWide`); witness for division. |
| C51 | The output parameter's old contents never matter | The only use of the old contents is set_zero. |
| C52 | Operators panic exactly when the _to function fails | Case analysis. |
| C53 | Quotients can be used as operands | False: witness; exact condition from the `codeMul` recursion. |
| C54 | Constants and setters | Direct. |
| C55 | round_to produces the scale asked for | Corollary of C39/C40 up to 127; witness beyond, and the exact outcome for every precision (`castI8`, `extUnits`). |
| C56 | Exactly which products are computed | `Spec/Product.lean` (`MulFits`) states the digit-count condition; theorem: Ok iff an operand is zero or `MulFits`; witness for the debug panic. |
| C57 | Scale of a quotient | `Spec/Quotient.lean` (`quoFU`, `quoIntg`) computes the shape from mantissas and digit counts; theorem on every successful result; witness for the eight-bit cut. |
| C58 | Exactly which quotients are computed | Ok iff / Err iff theorems over the same specification, for release and debug builds (`QuoGuessWide` says when the assertion on a guessed unit fails), proved through exact run lemmas for each loop; witness for the debug assertion. |
| C59 | Debug and release builds differ only by a debug check failing | Every function of the model takes the build mode; a simulation relation `Agrees B` (debug panics with a kind in B, or outcomes are equal, panics included) is proved function by function, with B = overflow or assertion (plus bounds check for the remainder, whose debug assertion slices a buffer). |
| C60 | Exactly which remainders are computed | `Spec/Remainder.lean` (`RemNoRoom`, `RemFull`) and `Spec/LongDivision.lean` (`RemAssert`); Ok-iff theorems for release and debug builds from the branch-by-branch classification of `rem_abs`. |
| C61 | Multiplication and addition respect the order | `codeMul` is monotone in the mantissa; addition is exact (C20). |
| C62 | Converted integers behave like integers under + - * and comparison | Corollary of the addition, multiplication, comparison and conversion theorems; `checkedI64` is the independent specification of the way back. |
| C63 | Remainder and quotient of converted integers are those of the integers | False for divisors of three units: witnesses. Proved for divisors below 10^18 from C36/C37 and the Ok-iff theorems; for larger ones (`Props/IntsLarge.lean`) the long division has one integral step, so C37_code becomes an integer formula with one condition; `Props/IntsExact.lean` turns C36_code, C58_debug_ok_iff and the remainder's assertion condition into integer inequalities, so both operators are characterised exactly for every pair in both builds. |
| C64 | Arithmetic is symmetric under sign reversal | Equalities of outcomes (`onOk minus`), from the fact that the magnitude routines do not read sign bits. |
| C65 | Sums and differences have one representation and commute bit for bit | `Spec.Trimmed` with `Trimmed.unique`: sign, value, scale and trimming determine the nine units; then C20/C21. |
| C66 | A running balance is exact, cannot fail within its layout, and is independent of the booking order | Induction over the list of bookings with the layout invariant `Within I F`; permutation invariance of the rational sum. |
| C67 | Products distribute over sums and associate when nothing is cut off | Corollary of C20 and C27 in the rationals. |
| C68 | Division undoes multiplication, x/1 = x, x/x = 1, and % is idempotent | C35/C36 with `truncQuot_self`; x/x by evaluating the exact description `codeQuo` (first window = divisor, all later windows 0), including the debug assertions; C37/C38 for %. |
| C69 | Text determines and is determined by sign, value and scale | From the exact description of the text (`toStr_eq`) and C10; injectivity of digit strings. |
| C70 | Integer conversions are monotone, agree with each other and with checked integer arithmetic | C46/C47 with monotonicity of half-away rounding; `checkedU64` is the independent specification. |
| C71 | Every call ends, and panics only by a compiler-inserted check | Structural walk over the code (`Proofs/Halts.lean`); for division, remainder, parsing and integer conversion the loops without syntactic bound are shown to end before their fuel does. |
| C72 | Arithmetic, rounding and integer conversion compute a short reference implementation, every field included | `Spec/Reference.lean`, `Spec/ReferenceDiv.lean`: the operations on mantissas as integers, results written back by `dec`; `Props/Reference*.lean` prove the code equal to them, from the exact theorems of each operation plus the exact digit counts and unit lists. |
| C73 | Parsing computes a short reference parser on every byte string, every field included | `Spec/ReferenceParse.lean`: cut the text with takeWhile/dropWhile, digit counts and mantissa as integers. Equality in `Props/ReferenceParse.lean`: exact exponent (`parseExp_exact`), scan with counters modulo 256 (`scan_wrap`), truncated writes (`writeDigits_cut`), writes running past the buffer (`writeDigits_over`). |
| C74 | Division and rounding at the ends of the argument types | `Spec/ReferenceEdges.lean`: effective increment, the two lowest precisions. `Props/ReferenceEdges.lean`: the plan of a division depends on the increment only through `effIncr` (`divFrac_eff`); `round_half_up` depends only on the low eight bits of its count (`roundHalfUp_low`); then C72. |
| C75 | Programs of API calls compute what rational arithmetic computes | `Spec/Machine.lean`: calls, and a calculator on rationals (`Means`, `Calculates`). `Props/Machine.lean`: every exact call does what it means and keeps registers well-formed without digits beyond the scale (`result_exact`), then induction over the program; a text denotes at most one number (`C01_denote_unique`), so the calculator is deterministic without divisions. |
| C76 | A whole session with the library is a session with the reference machine | `Spec/Trace.lean`: actions, replies, a reference machine built on the reference implementation (C72-C74) for writes and on `val` for looks, and `trace`. `Props/Trace.lean`: one action of the code is one action of the reference machine (errors leave zero, except a product that needs a tenth unit: C29), then induction over the session; closure under plain actions from C50 removes the side condition. |
| C77 | Debug sessions with division stay valid; release sessions can divide by zero | `Props/DebugRuns.lean`: a guess of leading digits is never below the true quotient unit, so `QuoUnitWide` implies `QuoGuessWide`, which a debug build asserts against; induction over sessions with `C76_step` and `C71`; for release builds a concrete session from texts to the panic. |
| C78 | Digits left over beyond the digit counts never show, with listed exceptions | `Spec/Stale.lean`: `Usable`, `Alike`, `cleared`, `Action.Blind`; `Proofs/Stale*.lean`: two-run (relational) proofs that every loop reads only units within the digit counts; `Props/Stale.lean`: one action, whole sessions, values of sums with dirty zeros, witnesses for each exception. |
| C79 | Minima, maxima, clamping and sorting follow the numbers | `Model/OrdProvided.lean`: the provided methods of Rust's `Ord`/`PartialOrd` (le, ge, max, min, clamp) over the modelled `cmp`; `Props/Order.lean`: from the numeric meaning of `cmp` (C16), induction over lists, sorting with a total transitive relation. |
| C80 | Rounding a list item by item shifts the total by a bounded amount | `Props/Finance.lean`: half-unit bound of one rounding (C39, C44), induction over the list. |
| C81 | Quotient and remainder belong together | `Props/Finance.lean`: the values of `div_to` (C35, C36) and `rem_to` (C37) combined. |
| C82 | Averages | `Props/Finance.lean`: exact running totals (C66) and the quotient's value, mean between minimum and maximum by induction. |
| C83 | Amount times rate, rounded | `Props/Finance.lean`: exact product (C27) and uniform rounding, monotonicity and oddness of half-away rounding. |
| C84 | Canonical keys | `Props/TextUses.lean`: `key` = text with k digits, parsed; from the exact text (C11), the exact parse (C01) and the length of decimal expansions. |
| C85 | Delimited text round trip | `Props/TextUses.lean`: `writeFrom`, `readLine`; induction over the list with C14 (appending), C13 (bytes used) and C15 (round trip). |
| C86 | Which errors a call can report, and what they say | `Model/ErrorText.lean`: Display texts and the operators' panic messages; `Props/Errors.lean`: collected from the exact outcomes (C22, C29, C33, C46, C47, C58, C71). |
| C87 | How long a text is, and how texts sort | `Props/TextSize.lean`: from the exact text (C10, C11); lexicographic order of equally long digit strings by induction. |
| C88 | Comparing is the same as looking at the difference | `Props/Shares.lean`: exact difference (C21), numeric order (C16), no negative zero (C49). |
| C89 | Repeated addition is multiplication | `Props/Shares.lean`: C66 and C27. |
| C90 | Splitting an amount into shares loses nothing | `Props/Shares.lean`: one-unit division (C35) and exact balances (C66). |
| C91 | No session makes the unsafe block unsound | `Spec/Stored.lean`: the types of the fields; `Proofs/Stored.lean`: a structural walk over every function that writes a decimal; `Props/Stored.lean`: induction over sessions (`Spec/Trace.lean`), with C13. |
| C92 | Division and remainder do a bounded amount of work | `Spec/Limited.lean`: the division with a limit on the correction loop; `Proofs/Limited.lean`: normalised leading unit is at least half the base, buffers hold digits throughout (also after add-back), at most 2 (4) corrections; `Props/Limited.lean`. |
| C93 | Exactly which operations overflow an intermediate integer | `Proofs/NoTrap*.lean`: a walk through every loop with range invariants (units in [0, 10^9), carries, borrows, guesses at most 2*10^9) showing that no checked operation leaves its type; `Props/NoWrap.lean`: the exact overflow conditions. `Spec/LiteralIndex.lean` spells out the cast in the index `buf1[i as usize + 1]` of line 623 (the model adds first); `Props/LiteralIndex.lean` proves the same division results for all field values. |
| C94 | Which panic, exactly | `Spec/Traps.lean` states the trap of each operation; `Props/Traps.lean` combines the reference implementations (C72-C74), the overflow conditions (C93), the mode comparison with overflow and assertion checks separated (C59), and exact panic kinds of the long division and multiplication loops. |
| C95 | Division and remainder end on whatever the fields can hold | `Proofs/Guess.lean`: in a debug build the descent traps at `i64::MIN`; in a release build some guess makes `qhat * d1` equal `i64::MIN` modulo 2^64 (gcd argument), or, for `d1 = 0`, the right-hand side is not negative for ever. `Proofs/Ends.lean`: walk over both functions for arbitrary 32-bit units with ranges for every dividend. `Props/Ends.lean`. |
| C96 | Rounding a quotient rounds the exact quotient, and terminating quotients are exact | `Props/Quotients.lean`: truncation theorem C35/C36 combined with C39; `halfAway_cut`: every half of a unit lies on the finer grid, so cutting cannot cross it. |
| C97 | Quotients respect the order | `Props/Quotients.lean`: monotonicity of truncation, and a finer cut of a non-negative number is not smaller; scale from C57. |
| C98 | Dividing and multiplying back; converting there and back | `Props/Quotients.lean`: C83 bounds the first rounding error by half a unit, C96 makes the second rounding exact, and less than half a unit of error rounds away (`halfAway_near`). |
| C99 | A chain of products uses up the integral digits | `Props/Quotients.lean`: induction over the chain with the invariant 'zero, or at least 9n integral digits after n products'; rounding never gives integral digits back. |
| C100 | Compounding | `Props/Quotients.lean`: one period in digit counts (`charge_ok`: success, layout afterwards, error), then induction over the rates. |
| C101 | How a program can stop | `Props/Stops.lean`: `Action.stop` gives the panic of each action; C71 (everything but division, on any decimals) and C95 (division and remainder on stored contents) per action, C91 keeps contents stored, induction over the program. A witness program for every kind of panic. |
| C102 | Remainders are residues | `Props/Remainders.lean`: uniqueness of the truncated remainder over the rationals, C37 for its value, C20/C21 for sums and differences. |
| C103 | Euclid's algorithm | `Props/Remainders.lean`: the loop as an inductive relation; strong induction on the mantissa of the second operand, C60 for success, C37 for values, `Int.gcd_emod`. |
| C104 | Integer division, and digits in any base | `Props/Integers.lean`: C57 (no fractional digits), C36/C35 (truncation), C58/C60 (success); the loop as an inductive relation, compared with Mathlib's `Nat.digits` by strong induction. |
| C105 | Integer square roots by Newton's method | `Props/Roots.lean`: the loop as an inductive relation; strong induction on the current value, C104 for the divisions, C20 for the sum, C16 for the comparison, AM-GM for the bound. |
| C106 | Giving back claimed digits: long products, factorials, modular powers, compounding | `Props/Compact.lean`: C65 (sums are trimmed) for the digit counts; induction over factors, exponents and periods; C27/C56 for products, C104 for remainders, the reference of C72 for the digits a remainder claims, C83 for roundings. |
| C107 | Horner's rule and reading digit by digit | `Props/Horner.lean`: induction over the coefficients, C106 for each step; C01/C02 for the comparison with parsing. |
| C108 | Remainders of numbers of any length | `Props/Horner.lean`: induction over the chunks, C104 for the remainder and C106 for its digit count. |
| C109 | The {:?} text shows every field | `Model/DebugText.lean`: the derived `Debug` with `{:?}` and `{:#?}`; `Props/DebugText.lean`: unique decomposition at characters that no number contains, injectivity of decimal digits. |
| C110 | Balances with interest and payments | `Props/Schedule.lean`: induction over the periods; C83 for the interest, C65 (sums are trimmed) for the digit counts, C56 for when the product is computed; a concrete witness for the order of the factors. |
| C111 | Binary search, and sorted lists as sets | `Props/Search.lean`: the loop of `slice::binary_search_by` over the modelled `cmp`; loop invariant with C16/C79, induction over the insertions. |
| C112 | Rates by bracket | `Props/Brackets.lean`: induction over the brackets with C79 (clamp), C65/C66 (differences and sums), C83 (charges); monotonicity of the sum on the rationals. |
| C113 | Extended Euclid and modular inverses | `Props/Bezout.lean`: strong induction on the second remainder with the invariant |s0| r1 + |s1| r0 = b, opposite signs; each call by C104/C106/C65. |
| C114 | Proportional shares and interpolation | `Props/ProRata.lean`: ratio_ok gives one exactly rounded quotient (C27, C35, C57, C96); the cumulated shares telescope; induction over the weights. |
| C115 | Dot products and variance | `Props/Dot.lean`: induction over the list with C27/C56 (products) and C65/C66 (sums); the sum-of-squares identity on the rationals. |
| C116 | A debug build returns no wrong quotient, if the divisor's scale is not too fine | `Props/DebugQuotients.lean`: after too large a guess the next window starts with the unit 999999999, so its first guess is not a single unit (integer argument on the recursion of Spec/LongDivision, induction over the steps); with C58_debug_ok_iff and C36_exact_partial. |
| C117 | The leading unit of a quotient is right | `Props/LeadingUnit.lean`: the number of quotient units (quoSteps) fixes the place of the leading unit; the first window gives its value (put_rem), and the units after it, right or wrong, are units (C36_code), so they do not reach it. |
| C118 | Bisection and square roots to k decimals | `Props/Bisect.lean`: induction on the number of steps; both ends times 10^k are integers (val_mul_pow_digits), the rounded midpoint is (L+H+1)/2, C106_compact takes the claimed digits back, mul_room makes the squares exact. |
| C119 | The other rounding modes | `Props/RoundingModes.lean`: floor and ceiling from halfAway by halfAway_dist; a tie is twice the distance from t to x being 10^-k, exact by C20/C21; even is round(0.5 t) + round(0.5 t) = t. |
| C120 | Sums of series, and e | `Props/Series.lean`: induction on the list; ratio_ok (C114) rounds each term exactly, C106_compact keeps one integral unit, add_within adds; the error of a term stays below one unit because it is halved before the next rounding; Real.exp_bound of Mathlib for the tail. |
| C121 | Which quotients and remainders can be wrong | `Props/NearMisses.lean`: a guess that is too large leaves R - W mod R at most (q+1) P (miss_distance, C116), and normalisation makes R at least 5*10^17 P; dividing by R gives the distance of the exact quotient from the next whole number. The one-step run is remStep itself. |
| C122 | How rare wrong remainders are | `Props/Rare.lean`: by C121_rem_short a wrong dividend lies within (q+2)B/(5*10^17) below (q+1)B; count per quotient q and add up. |
| C123 | A group of nines gives a wrong quotient away | `Props/Nines.lean`: windows of the long division in closed form, so their quotient units are groups of the exact quotient; a guess that does not fit a unit, or is too large before the last step, needs a group of at least 999999998 (exact quotient: C121; result: the window after the miss). |
| C124 | Exact fractions | `Props/Fractions.lean`: relations for the client's loops; strong induction for Euclid on whole decimals (C104), quotients compacted (C106), lowest terms from Rat.num and Rat.den of Mathlib. |
| C125 | JSON numbers | `Props/Json.lean`: the RFC grammar written down on its own; JSON texts are numerals (C01, C02); the digits of a number are unique, so the canonical text (C12) of what was read is the text. |
| C126 | Moving sums and partial sums do not drift | `Props/Moving.lean`: induction over the stream with the invariant that the sum is the sum of the window; exactness and layout of + and - from C65/C66. |
| C127 | Columns of a fixed precision and scale | `Props/Columns.lean`: rounding from C39/C40/C43, the comparison from C16, texts from C15/C69/C87. |
| C128 | Totals of a column | `Props/Columns.lean`: a stored row is at most 10^w - 10^-s, so the total stays below the new limit; layout (C66), scale and truthful digits (C23, C50) are kept by every addition. |
| C129 | Products of columns | `Props/Columns.lean`: value and scale of the product from C27, the bound from the factors' limits, storing from C127. |
| C130 | Changing the type of a column | `Props/Columns.lean`: C127 for both directions, rounding a number that has no more digits is the identity, texts by C69; narrowing twice by an integer argument: unless the middle value is a tie it is a whole unit away from one. |
