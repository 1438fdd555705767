{"id": "C01", "title": "Parsing yields exactly the number written", "statement": "If a numeric string [sign] digits [. digits] [e exponent] with at most 127 digits is accepted by from_str / from_ascii_str / from_bytes_str, the resulting decimal's numeric value is exactly sign * digits * 10^(exponent - number of fractional digits).", "quantifier": "all byte strings of the numeric grammar with at most 127 mantissa digits, both build modes", "why_tests_cant": "the digit-to-unit packing has a different code path for every alignment of point, exponent and 9-digit unit boundary; the number of strings is astronomically large", "anchors": ["src/serde.rs:from_bytes_str", "src/serde.rs:FromStr::from_str", "src/utils.rs:POW10", "src/utils.rs:mod9"]}
{"id": "C02", "title": "What is accepted", "statement": "A string with at most 127 mantissa digits parses to Ok exactly when it is in the grammar [+-] (digits[.digits*] | .digits) [(e|E)[+-]digits], its exponent is at most 65 (or at least -30), and the number of digits needed to write it without exponent is at most 65; otherwise the result is Err(ConversionSyntax) - or, in debug builds only, an overflow panic when exponent arithmetic leaves its machine type.", "quantifier": "all byte strings with at most 127 digit characters", "why_tests_cant": "acceptance is a property of every string, including the ones nobody thought of listing", "anchors": ["src/serde.rs:from_bytes_str"]}
{"id": "C03", "title": "Parsing never panics and never misreads, however long the input", "statement": "For every byte string, parsing returns Ok with the exact value or Err; it does not panic and does not silently return a different number. (False of this code: a counter is an i8; 128 digits panic in debug, and in release 128 nines after a point parse to 0 and 1 followed by 256 zeroes parses to 1.)", "quantifier": "all byte strings of any length, both build modes", "why_tests_cant": "the failing inputs are longer than any test in the suite; the release-mode misparse needs at least 128 digits", "anchors": ["src/serde.rs:from_bytes_str"]}
{"id": "C04", "title": "Parsing with reset forgets the old value", "statement": "from_ascii_str(s, true) gives a result that does not depend on the previous contents of the decimal; if it fails, the decimal is left equal to zero().", "quantifier": "all byte strings, all previous contents", "why_tests_cant": "quantifies over all previous states of a reused object", "anchors": ["src/serde.rs:from_bytes_str", "src/decimal.rs:set_zero"]}
{"id": "C05", "title": "A failed parse without reset leaves the decimal untouched", "statement": "If from_ascii_str(s, false) returns Err, every field of the decimal is unchanged.", "quantifier": "all byte strings, all previous contents", "why_tests_cant": "all error exits must come before all writes, on every path", "anchors": ["src/serde.rs:from_bytes_str"]}
{"id": "C06", "title": "from_str agrees with from_ascii_str on a fresh zero and with reset", "statement": "from_str(s), zero().from_ascii_str(s,false) and x.from_ascii_str(s,true) agree on outcome and value for every x.", "quantifier": "all byte strings, all previous contents x", "why_tests_cant": "relates three entry points over every input", "anchors": ["src/serde.rs:FromStr::from_str", "src/serde.rs:from_ascii_str"]}
{"id": "C07", "title": "Moving the point and adjusting the exponent does not change the number", "statement": "Two accepted strings that denote the same rational number (e.g. 54.433e1 and 544.33) parse to decimals that compare equal, unless both are zero with different signs.", "quantifier": "all pairs of accepted strings", "why_tests_cant": "a relation over pairs of strings", "anchors": ["src/serde.rs:from_bytes_str", "src/cmp.rs:cmp"]}
{"id": "C08", "title": "Sign characters", "statement": "A leading '+' changes nothing; a leading '-' gives the decimal with the sign flag set and otherwise identical fields (so '-0' is a negative zero).", "quantifier": "all unsigned numeric strings", "why_tests_cant": "must hold for every string", "anchors": ["src/serde.rs:from_bytes_str", "src/decimal.rs:set_neg"]}
{"id": "C09", "title": "Parsed decimals are well-formed", "statement": "A string accepted by from_str, or by from_ascii_str with reset, yields a decimal whose nine units all lie in [0, 10^9), whose unused high units are zero, whose digit counts fit the nine units, whose integral part has at most intg() digits and whose fractional part has at most frac() digits.", "quantifier": "all accepted strings, however long", "why_tests_cant": "an invariant of every reachable value", "anchors": ["src/serde.rs:from_bytes_str", "src/decimal.rs:FixedDecimal"]}
{"id": "C10", "title": "to_string(-1) writes exactly the value", "statement": "Reading the text produced by to_string with a negative argument as a decimal numeral gives exactly the decimal's value, with exactly frac() digits after the point (no point when frac() is 0).", "quantifier": "all well-formed decimals whose digits beyond frac() are zero, every negative argument", "why_tests_cant": "10^81 representable values", "anchors": ["src/serde.rs:to_string", "src/serde.rs:append_str_buf", "src/serde.rs:append_frac", "src/utils.rs:BIN2CHAR", "src/utils.rs:d3_to_str"]}
{"id": "C11", "title": "to_string(k) truncates toward zero to exactly k digits", "statement": "For k >= 0, to_string(k) shows the value truncated (never rounded) toward zero to k fractional digits, with exactly k digits after the point (zero padded), and no point when k = 0.", "quantifier": "all well-formed decimals and all k >= 0", "why_tests_cant": "unbounded k and all values", "anchors": ["src/serde.rs:append_str_buf", "src/serde.rs:append_frac"]}
{"id": "C12", "title": "Canonical text", "statement": "to_string output matches -?(0|[1-9][0-9]*)(\\.[0-9]+)?: no superfluous leading zero, a digit on both sides of the point, and a minus sign exactly when is_neg().", "quantifier": "all well-formed decimals, all precision arguments", "why_tests_cant": "format must hold for every value", "anchors": ["src/serde.rs:append_str_buf", "src/utils.rs:d3_to_str"]}
{"id": "C13", "title": "Output is ASCII, so from_utf8_unchecked is sound", "statement": "Every byte pushed by append_str_buf is an ASCII digit, '-' or '.', so the unsafe String::from_utf8_unchecked in to_string never creates an invalid String.", "quantifier": "all decimals for which formatting returns, all precision arguments", "why_tests_cant": "memory-safety obligation over all values", "anchors": ["src/serde.rs:to_string", "src/utils.rs:BIN2CHAR"]}
{"id": "C14", "title": "Formatting only appends", "statement": "append_str_buf(buf, k) leaves the existing contents of buf in place and appends exactly the bytes to_string(k) returns.", "quantifier": "all decimals, buffers and precisions", "why_tests_cant": "quantifies over all buffers", "anchors": ["src/serde.rs:append_str_buf"]}
{"id": "C15", "title": "Round trip through text", "statement": "Parsing the output of to_string(-1) gives back a decimal with the same sign, value and scale, whenever the printed form has at most 65 digits. (Without the bound it is false: a 65-digit pure fraction prints 66 digits.)", "quantifier": "all well-formed decimals whose printed form has at most 65 digits", "why_tests_cant": "relates encoder and decoder on every value", "anchors": ["src/serde.rs:to_string", "src/serde.rs:from_bytes_str"]}
{"id": "C16", "title": "cmp is numeric order", "statement": "For decimals that are not both zero, cmp returns Less/Equal/Greater exactly as the numeric values compare, whatever their scales and unit counts; for two zeros it orders by sign flag (-0 < +0).", "quantifier": "all pairs of well-formed decimals", "why_tests_cant": "pairs of values of every shape", "anchors": ["src/cmp.rs:cmp", "src/cmp.rs:cmp_abs", "src/cmp.rs:cmp_abs_lsu"]}
{"id": "C17", "title": "Ord/Eq laws", "statement": "cmp never panics on well-formed decimals and is a total order: reflexive, antisymmetric (cmp(b,a) is the reverse of cmp(a,b)), transitive; == is an equivalence, and <, > agree with it.", "quantifier": "all pairs and triples of well-formed decimals", "why_tests_cant": "laws over triples, required by the Ord contract (sorting, BTreeMap)", "anchors": ["src/cmp.rs:Ord", "src/cmp.rs:PartialOrd", "src/cmp.rs:PartialEq"]}
{"id": "C18", "title": "Trailing zeros do not matter for equality", "statement": "Two decimals with the same sign flag and the same value are ==, regardless of scale (1.0 == 1.000).", "quantifier": "all pairs of well-formed decimals", "why_tests_cant": "all pairs", "anchors": ["src/cmp.rs:eq"]}
{"id": "C19", "title": "Hash is consistent with equality", "statement": "If a == b then hash(a) and hash(b) feed the same bytes to the hasher. (False of this code in general - 1 and 1.0 are equal and hash differently; true when the operands have equal unit counts.)", "quantifier": "all pairs of well-formed decimals", "why_tests_cant": "the Hash contract quantifies over all pairs", "anchors": ["src/decimal.rs:Hash::hash", "src/cmp.rs:eq"]}
{"id": "C20", "title": "Addition is exact", "statement": "If add_to / + returns a value, it is exactly a + b.", "quantifier": "all pairs of well-formed decimals, both build modes", "why_tests_cant": "carry propagation across every alignment and length", "anchors": ["src/arith.rs:add_to", "src/arith.rs:add_abs", "src/arith.rs:sub_abs", "src/arith.rs:add_with_carry"]}
{"id": "C21", "title": "Subtraction is exact", "statement": "If sub_to / - returns a value, it is exactly a - b.", "quantifier": "all pairs of well-formed decimals, both build modes", "why_tests_cant": "borrow propagation across every alignment and length", "anchors": ["src/arith.rs:sub_to", "src/arith.rs:sub_abs", "src/arith.rs:sub_with_borrow"]}
{"id": "C22", "title": "When addition and subtraction succeed", "statement": "add_to/sub_to succeed exactly when an operand is zero, or the aligned operands (larger number of integral units + larger number of fractional units) take at most 7 of the 9 units, or exactly 8 and the result needs no further integral unit; in all other cases they panic (index out of bounds), e.g. (10^72 - 1) + 1. They never return Err.", "quantifier": "all pairs of well-formed decimals", "why_tests_cant": "panic freedom over all inputs", "anchors": ["src/arith.rs:add_abs", "src/arith.rs:sub_abs"]}
{"id": "C23", "title": "Scale of sums", "statement": "When neither operand is zero, the result of add/sub has frac() = max of the operands' frac().", "quantifier": "all pairs of non-zero well-formed decimals for which the operation succeeds", "why_tests_cant": "all pairs", "anchors": ["src/arith.rs:add_abs", "src/arith.rs:sub_abs"]}
{"id": "C24", "title": "Addition commutes", "statement": "a + b and b + a have the same outcome, and equal values when they succeed.", "quantifier": "all pairs of well-formed decimals", "why_tests_cant": "all pairs", "anchors": ["src/arith.rs:add_to"]}
{"id": "C25", "title": "Subtraction undoes addition; a - a = 0", "statement": "(a + b) - b has value a whenever both steps succeed; a - a is zero with no sign flag for non-zero a; a - b = a + (-b).", "quantifier": "all pairs of well-formed decimals", "why_tests_cant": "sequences of operations on all values", "anchors": ["src/arith.rs:add_to", "src/arith.rs:sub_to"]}
{"id": "C26", "title": "Associativity of addition", "statement": "(a + b) + c and a + (b + c) have equal values whenever all four additions succeed.", "quantifier": "all triples of well-formed decimals", "why_tests_cant": "triples", "anchors": ["src/arith.rs:add_to"]}
{"id": "C27", "title": "Multiplication is exact when nothing is cut off", "statement": "For operands whose digit counts are truthful (as all decimals produced by the API are): if the product's fractional units are not cut off by the 4-unit / 9-unit limits, mul_to / * returns exactly a * b.", "quantifier": "all pairs of well-formed, tight decimals whose result keeps all fractional units", "why_tests_cant": "schoolbook carries over all sizes", "anchors": ["src/arith.rs:mul_to", "src/arith.rs:mul_abs"]}
{"id": "C28", "title": "Truncated multiplication is described exactly and never overshoots", "statement": "For operands whose digit counts are truthful (as all decimals produced by the API are): when fractional units are cut off, the result is the sum of the schoolbook rows each cut off on its own; its magnitude is at most |a*b| and less than it by fewer than 2*n units in the last kept place, n the number of units cut off or of the shorter operand.", "quantifier": "all pairs of well-formed, tight decimals for which mul succeeds", "why_tests_cant": "error bound over all inputs", "anchors": ["src/arith.rs:mul_abs"]}
{"id": "C29", "title": "Which products are rejected", "statement": "mul_to returns Err(Overflow) when the operands' integral digit counts sum to 82..=119, leaving the output parameter zero; with a sum of at most 81 and tight operands it never returns Err. With operands whose digit counts under-claim, a product that needs a tenth unit is also Err(Overflow), and then the output holds the low nine units of the product under the digit counts of zero.", "quantifier": "all pairs of well-formed decimals", "why_tests_cant": "boundary over all digit counts", "anchors": ["src/arith.rs:mul_abs"]}
{"id": "C30", "title": "Sign of products", "statement": "A non-zero result of mul/div is negative exactly when the operands' signs differ; a zero result never carries a minus sign; 0 * x is zero().", "quantifier": "all pairs of well-formed decimals", "why_tests_cant": "all pairs", "anchors": ["src/arith.rs:mul_to", "src/arith.rs:div_to", "src/decimal.rs:set_neg_and_check_zero"]}
{"id": "C31", "title": "Multiplication commutes", "statement": "a * b and b * a return the same decimal, bit for bit, whenever both succeed, cut off or not.", "quantifier": "all pairs of well-formed decimals, both build modes, all output parameters", "why_tests_cant": "all pairs", "anchors": ["src/arith.rs:mul_to"]}
{"id": "C32", "title": "Multiplying by one", "statement": "For x whose digit counts are truthful (as all decimals produced by the API are): x * one() and one() * x both succeed with value x whenever x has at most 4 fractional units and one more integral digit still fits (unitsFor(intg+1) + fractional units <= 9).", "quantifier": "all well-formed tight decimals", "why_tests_cant": "all values", "anchors": ["src/arith.rs:mul_to", "src/decimal.rs:one"]}
{"id": "C33", "title": "Division by zero is an error, not a crash", "statement": "div_to and rem_to return Err(DivisionByZero) exactly when the divisor is zero (whatever the dividend, including zero), and the output parameter is then zero.", "quantifier": "all well-formed dividends and divisors, all incr_frac", "why_tests_cant": "all inputs", "anchors": ["src/arith.rs:div_abs", "src/arith.rs:rem_abs"]}
{"id": "C34", "title": "Zero dividend", "statement": "0 / x and 0 % x are zero() for non-zero x.", "quantifier": "all well-formed non-zero divisors", "why_tests_cant": "all inputs", "anchors": ["src/arith.rs:div_abs", "src/arith.rs:rem_abs"]}
{"id": "C35", "title": "Division by a one-unit divisor is truncated division", "statement": "When the divisor's mantissa fits one unit, the magnitude of the result of div_to is |a|/|b| truncated to a whole number of 10^-(result frac).", "quantifier": "all well-formed dividends, all divisors with a single non-zero low unit, for which div succeeds", "why_tests_cant": "long division loop of any length", "anchors": ["src/arith.rs:div_abs"]}
{"id": "C36", "title": "Division by a multi-unit divisor is truncated division", "statement": "The same for divisors of several units. (False of this code: the add-back correction is wrong, and units of the remainder are dropped when the divisor has many fractional digits. True whenever no guessed quotient unit but the last is too large and nothing is dropped; the value returned is known exactly in every case.)", "quantifier": "all pairs of well-formed decimals for which div succeeds", "why_tests_cant": "the faulty branch is taken with probability about 10^-9 on random operands", "anchors": ["src/arith.rs:div_abs"]}
{"id": "C37", "title": "Remainder", "statement": "a % b has the sign of a, magnitude less than |b|, and a - (a % b) is an integer multiple of b; its scale is max of the scales. (False of this code when the add-back correction is needed.)", "quantifier": "all pairs of well-formed decimals with b non-zero for which rem succeeds", "why_tests_cant": "long division loop; all inputs", "anchors": ["src/arith.rs:rem_to", "src/arith.rs:rem_abs"]}
{"id": "C38", "title": "Remainder of a smaller dividend is the dividend", "statement": "If |a| < |b| then a % b has value a, provided a's integral units and b's fractional units together fit into nine units (automatic unless a declares redundant leading zero digits; otherwise it panics with an index out of bounds); if |a| = |b| it is zero.", "quantifier": "all pairs of well-formed decimals, b non-zero", "why_tests_cant": "all pairs", "anchors": ["src/arith.rs:rem_abs", "src/cmp.rs:cmp_abs_lsu"]}
{"id": "C39", "title": "round_to rounds half away from zero", "statement": "For 0 <= k < frac(), round_to(k) yields the value nearest to the original among multiples of 10^-k, ties away from zero, with frac() = k and the sign kept; it fails (by a panic) exactly when all nine units are in use and the rounded value needs a tenth.", "quantifier": "all well-formed decimals, all 0 <= k < frac()", "why_tests_cant": "carry chains and unit-boundary cases over all values", "anchors": ["src/round.rs:round_to", "src/round.rs:round_half_up"]}
{"id": "C40", "title": "Extending the scale with round_to keeps the value", "statement": "For frac() <= k <= 127: if integral units + ceil(k/9) <= 9, round_to(k) has the same value and frac() = k; otherwise it panics.", "quantifier": "all well-formed decimals, all frac() <= k <= 127", "why_tests_cant": "all values", "anchors": ["src/round.rs:round_to"]}
{"id": "C41", "title": "In-place round agrees with round_to", "statement": "round(k) leaves the decimal as round_to(k) would produce it. (False of this code when k extends the number by a whole unit: 1.round(1) becomes 1.000000001; true for k < frac().)", "quantifier": "all well-formed decimals, all k", "why_tests_cant": "all values and precisions", "anchors": ["src/round.rs:round", "src/round.rs:round_to"]}
{"id": "C42", "title": "Rounding to tens, hundreds, ...", "statement": "For k = -j < 0, round_to rounds half away from zero to a multiple of 10^j. (False of this code when 9 divides j - it truncates - and when j >= intg() - it gives zero; true otherwise.)", "quantifier": "all well-formed decimals, all j > 0", "why_tests_cant": "all values and precisions", "anchors": ["src/round.rs:round_to", "src/round.rs:round_half_up"]}
{"id": "C43", "title": "Rounding twice is rounding once, and rounding is monotone", "statement": "For 0 <= k <= 127, round_to(k) of a value already rounded to k does not change it, and, for decimals with truthful digit counts, a <= b implies round_to(a,k) <= round_to(b,k) numerically. A decimal's digit counts are truthful when no non-zero digit lies outside them, as after parsing, integer conversion and exact arithmetic.", "quantifier": "all well-formed decimals (pairs with truthful digit counts for monotonicity), all k from 0 to 127 for which rounding succeeds", "why_tests_cant": "all pairs", "anchors": ["src/round.rs:round_to"]}
{"id": "C44", "title": "Rounding moves a value by at most half a unit in the last place", "statement": "|round_to(x,k) - x| <= 10^-k / 2 for 0 <= k < frac().", "quantifier": "all well-formed decimals, all such k", "why_tests_cant": "all values", "anchors": ["src/round.rs:round_to"]}
{"id": "C45", "title": "From<u64> and From<i64> are exact and never panic", "statement": "from(n) has value exactly n and is well-formed, for every u64 and every i64 (including i64::MIN), in both build modes.", "quantifier": "all 2^64 values of each type", "why_tests_cant": "2^64 inputs", "anchors": ["src/decimal.rs:From<u64>", "src/decimal.rs:From<i64>"]}
{"id": "C46", "title": "as_i64", "statement": "as_i64 returns Ok exactly when the value lies in [i64::MIN, i64::MAX], and then the value rounded half away from zero; it never panics on well-formed decimals.", "quantifier": "all well-formed decimals", "why_tests_cant": "all values", "anchors": ["src/decimal.rs:as_i64", "src/decimal.rs:lsu_to_i64", "src/decimal.rs:MAX_I64", "src/decimal.rs:MIN_I64"]}
{"id": "C47", "title": "as_u64", "statement": "as_u64 returns Ok exactly when the sign flag is clear and the value is at most u64::MAX, and then the value rounded half up; it never panics on well-formed decimals.", "quantifier": "all well-formed decimals", "why_tests_cant": "all values", "anchors": ["src/decimal.rs:as_u64", "src/decimal.rs:lsu_to_u64", "src/decimal.rs:MAX_U64"]}
{"id": "C48", "title": "Integer round trips", "statement": "as_i64(from(n)) = Ok(n) for every i64 and as_u64(from(n)) = Ok(n) for every u64.", "quantifier": "all 2^64 values of each type", "why_tests_cant": "2^64 inputs", "anchors": ["src/decimal.rs:From<i64>", "src/decimal.rs:as_i64"]}
{"id": "C49", "title": "No negative zero from arithmetic on non-negative-zero operands", "statement": "add, sub, mul, div and rem never produce a zero with the sign flag set from operands that are not themselves negative zeros.", "quantifier": "all pairs of well-formed decimals", "why_tests_cant": "all pairs", "anchors": ["src/decimal.rs:set_neg_and_check_zero", "src/arith.rs:add_to"]}
{"id": "C50", "title": "Values stay well-formed through any history", "statement": "Starting from parsed strings, integers and constants, any sequence of +, -, *, round_to (precision up to 127) and of % without a long-division correction step yields well-formed, tight decimals. (False once / is allowed: an uncorrected quotient is well-formed but can under-report intg() by one digit, and the wrong correction step can return a unit above 10^9-1.)", "quantifier": "all finite histories of operations, all strings, all argument values of the types", "why_tests_cant": "unbounded sequences of operations", "anchors": ["src/arith.rs:add_to", "src/arith.rs:mul_to", "src/arith.rs:rem_to", "src/round.rs:round_to", "src/decimal.rs:FixedDecimal"]}
{"id": "C51", "title": "The output parameter's old contents never matter", "statement": "add_to, sub_to, mul_to, div_to, rem_to and round_to give the same outcome whatever the output parameter held before (for a nine-unit array).", "quantifier": "all operands and all previous contents of the output", "why_tests_cant": "quantifies over stale states", "anchors": ["src/arith.rs:add_to", "src/arith.rs:sub_to", "src/arith.rs:mul_to", "src/arith.rs:div_to", "src/arith.rs:rem_to", "src/round.rs:round_to"]}
{"id": "C52", "title": "Operators panic exactly when the _to function fails", "statement": "a + b (and -, *, /, %) returns the same value add_to (...) writes, and panics exactly when that function returns Err or panics.", "quantifier": "all operands", "why_tests_cant": "all operands", "anchors": ["src/arith.rs:Add::add", "src/arith.rs:Div::div"]}
{"id": "C53", "title": "Quotients can be used as operands", "statement": "A quotient produced by div_to can be multiplied like any other decimal: (a / b) * c has value val(a/b) * val(c) when nothing is cut off. (False of this code: (9000000000 / 10) * 9 prints 100000000.)", "quantifier": "all triples of well-formed decimals", "why_tests_cant": "needs a two-step history that hits an under-counted digit", "anchors": ["src/arith.rs:div_abs", "src/arith.rs:mul_abs"]}
{"id": "C54", "title": "Constants and setters", "statement": "zero() has value 0, one() has value 1, set_zero/set_one give them from any state; set_pos/set_neg change only the sign of the value; is_zero holds exactly for value 0 and is_neg exactly for the sign flag.", "quantifier": "all decimals", "why_tests_cant": "all states", "anchors": ["src/decimal.rs:zero", "src/decimal.rs:one", "src/decimal.rs:set_zero", "src/decimal.rs:set_one", "src/decimal.rs:set_neg", "src/decimal.rs:set_pos", "src/decimal.rs:is_zero"]}
{"id": "C55", "title": "round_to produces the scale asked for", "statement": "A successful round_to(k) with k >= 0 returns a decimal with frac() = k. (False of this code from k = 128 on: the precision is cut to eight bits, so 1.round_to(256) has scale 0 and 1.round_to(250) has scale -6.)", "quantifier": "all well-formed decimals, all k >= 0", "why_tests_cant": "all values and all precisions", "anchors": ["src/round.rs:round_to"]}
{"id": "C56", "title": "Exactly which products are computed", "statement": "For non-zero tight operands, mul_to succeeds exactly when the integral digit counts sum to at most 81, the fractional ones to less than 120, and the right operand's fractional units are fewer than (release: at most) the left's integral units plus the fractional units kept; in particular debug builds panic on 0.5 * 1.5.", "quantifier": "all pairs of well-formed tight decimals, both build modes", "why_tests_cant": "exact boundary over all digit shapes", "anchors": ["src/arith.rs:mul_to", "src/arith.rs:mul_abs"]}
{"id": "C57", "title": "Scale of a quotient", "statement": "A successful non-zero div_to has frac() equal to 9 times the number of fractional units: those of both operands plus ceil of what incr_frac asks beyond their padding, at most 4 and at most what the integral units leave of 9; intg() is the planned digit count. (From incr_frac = 120 on the count is cut to eight bits: 1/3 with incr 256 has no fractional digits.)", "quantifier": "all pairs of non-zero well-formed decimals, all incr_frac < 2^62, both build modes", "why_tests_cant": "all digit shapes and increments", "anchors": ["src/arith.rs:div_to", "src/arith.rs:div_abs"]}
{"id": "C58", "title": "Exactly which quotients are computed", "statement": "For non-zero operands a release build's div_to succeeds exactly when the digit counts are in range, the quotient has at most 81 planned integral digits, and the dividend fits the scratch buffer; it is Err(Overflow), leaving zero, exactly when 82..119 integral digits are planned; everything else panics. A debug build succeeds exactly when, besides, no first guess of a quotient unit exceeds 10^9-1.", "quantifier": "all pairs of non-zero well-formed decimals, all incr_frac < 2^62", "why_tests_cant": "exact boundary over all digit shapes", "anchors": ["src/arith.rs:div_to", "src/arith.rs:div_abs"]}
{"id": "C59", "title": "Debug and release builds differ only by a debug check failing", "statement": "For every public operation (arithmetic functions and operators, parsing, formatting, comparison, hashing, rounding, conversions) and every input, a debug build either panics at an arithmetic-overflow or assertion check, or gives exactly the outcome a release build gives: same value, same error and same object left behind, or same panic. Only multiplication, division, remainder, rounding and the integer conversions can stop at an assertion; everything else differs by overflow checks alone. For the remainder a debug build may also panic at a bounds check inside the expression of a debug assertion.", "quantifier": "all inputs, including ill-formed decimals and arbitrary output parameters", "why_tests_cant": "relates two builds over every input", "anchors": ["src/arith.rs", "src/decimal.rs", "src/round.rs"]}
{"id": "C60", "title": "Exactly which remainders are computed", "statement": "For non-zero operands a release build's rem_to succeeds except in two cases, both panics: a smaller dividend whose digit count (with leading zeros) cannot be aligned with the divisor in nine units, and a nine-unit integer dividend over a divisor of several units with nine fractional units whose leading units are not larger. Debug builds panic in addition when a first guess of the long division is not a single unit, when a wrongly corrected remainder cannot be divided by the normalisation factor, and on every nine-unit dividend of the second kind; with a one-unit divisor they succeed in the same cases as release builds.", "quantifier": "all pairs of non-zero well-formed decimals", "why_tests_cant": "exact boundary over all digit shapes", "anchors": ["src/arith.rs:rem_to", "src/arith.rs:rem_abs"]}
{"id": "C61", "title": "Multiplication and addition respect the order", "statement": "If a <= a' have the same digit counts and b >= 0, then a*b <= a'*b whenever both succeed, cut off or not; a+b <= a'+b exactly when a <= a'.", "quantifier": "all decimals with truthful digit counts for *, all well-formed decimals for +, any output parameter, both builds", "why_tests_cant": "order relation over all triples, including products with lost digits", "anchors": ["src/arith.rs:mul_to", "src/arith.rs:add_to"]}
{"id": "C62", "title": "Converted integers behave like integers under + - * and comparison", "statement": "For integers a, b converted from i64 or u64 with the matching conversion, a+b, a-b and a*b always succeed with exactly the integer result as value, converting the result back to i64 gives the integer when it is in range and the conversion error otherwise, and comparison of the decimals is comparison of the integers.", "quantifier": "all pairs of 64-bit signed or unsigned integers, both builds, any output parameter", "why_tests_cant": "2^128 pairs", "anchors": ["src/decimal.rs:From<i64>", "src/decimal.rs:From<u64>", "src/decimal.rs:as_i64", "src/arith.rs:add_to", "src/arith.rs:sub_to", "src/arith.rs:mul_to", "src/cmp.rs"]}
{"id": "C63", "title": "Remainder and quotient of converted integers are those of the integers", "statement": "For 64-bit integers a and b /= 0 converted to decimals, a % b succeeds and is the truncated integer remainder (sign of a), and a / b succeeds, is the exact quotient cut off after nine decimals, and its integral part is the truncated integer quotient. (False of this code for some divisors of ten and more digits; which ones, and what comes out instead, is known exactly.)", "quantifier": "all pairs of 64-bit integers with non-zero divisor, both builds", "why_tests_cant": "the faulty correction step is hit by a vanishing fraction of pairs", "anchors": ["src/arith.rs:div_to", "src/arith.rs:rem_to"]}
{"id": "C64", "title": "Arithmetic is symmetric under sign reversal", "statement": "Reversing the signs of both operands of + or -, or of one operand of * or / (scale increment below 2^62), or of the dividend of %, changes the outcome only by reversing the sign of the result (never producing a negative zero): same digits, same scale, same error, same panic. The only exception is + or - of two zeros.", "quantifier": "all well-formed operand pairs, any output parameter, any scale increment below 2^62, both builds", "why_tests_cant": "a four-way sign dispatch in every operator times all digit patterns", "anchors": ["src/arith.rs:add_to", "src/arith.rs:sub_to", "src/arith.rs:mul_to", "src/arith.rs:div_to", "src/arith.rs:rem_to", "src/decimal.rs:set_neg_and_check_zero"]}
{"id": "C65", "title": "Sums and differences have one representation and commute bit for bit", "statement": "The sum and the difference of non-zero decimals are in a canonical representation (no leading zero integral unit, nothing above the top unit), so a+b and b+a are the same stored decimal, and b-a is a-b with its sign reversed, not only numerically.", "quantifier": "all pairs of well-formed decimals, not both zero, for which the operation succeeds; any two output parameters; both builds", "why_tests_cant": "equality of all nine units over all operand pairs and stale output parameters", "anchors": ["src/arith.rs:add_to", "src/arith.rs:sub_to", "src/arith.rs:add_abs", "src/arith.rs:sub_abs"]}
{"id": "C66", "title": "A running balance is exact, cannot fail within its layout, and is independent of the booking order", "statement": "Starting from any decimal and applying any sequence of additions to it and subtractions from it (add_to and sub_to, or balance = balance + x and balance = balance - x): if nothing fails the balance is exactly the rational sum; if all amounts have at most 9I integral and 9F fractional digits with I+F<=8 and every running total stays below 10^(9I), no operation fails; and permuting the bookings does not change the balance when both orders succeed.", "quantifier": "all lists of bookings of any length, all starting balances, both builds", "why_tests_cant": "unbounded history length", "anchors": ["src/arith.rs:add_to", "src/arith.rs:sub_to", "src/arith.rs:Add", "src/arith.rs:Sub"]}
{"id": "C67", "title": "Products distribute over sums and associate when nothing is cut off", "statement": "a*(b+c) and a*b+a*c have the same value, and (a*b)*c and a*(b*c) have the same value, whenever all operations succeed and no product is cut off.", "quantifier": "all triples of decimals with truthful digit counts (as produced by parsing and exact arithmetic), both builds, any output parameter", "why_tests_cant": "all triples", "anchors": ["src/arith.rs:mul_to", "src/arith.rs:add_to"]}
{"id": "C68", "title": "Division undoes multiplication, x/1 = x, x/x = 1, and % is idempotent", "statement": "(a*b)/b has the value of a when the product is exact, the quotient keeps the digits of a and no long-division guess is too large (always for one-unit divisors); x/1 succeeds and has the value of x (up to 36 fractional digits); x/x succeeds and is exactly 1 in both builds for every non-zero x whose scale the operation can handle; (a%b)%b succeeds and has the value of a%b.", "quantifier": "all operands, all scale increments in the stated range, both builds", "why_tests_cant": "all operand digit patterns, including those that reach the long division", "anchors": ["src/arith.rs:mul_to", "src/arith.rs:div_to", "src/arith.rs:rem_to", "src/arith.rs:div_abs", "src/arith.rs:rem_abs"]}
{"id": "C69", "title": "Text determines and is determined by sign, value and scale", "statement": "Two decimals print the same text at natural precision exactly if they agree in sign, value and number of decimals; decimals that compare equal print the same at every explicit precision; printing with more digits only appends digits; rounding to k digits and printing shows the k digits of the number rounded half away from zero.", "quantifier": "all pairs of decimals (with truthful digit counts for the first and last claim), precisions from 1 for the appending claim and up to 127 for rounding, both builds", "why_tests_cant": "all digit patterns times all precisions", "anchors": ["src/serde.rs:to_string", "src/cmp.rs", "src/round.rs:round_to"]}
{"id": "C70", "title": "Integer conversions are monotone, agree with each other and with checked integer arithmetic", "statement": "as_i64 and as_u64 are monotone in the value; whatever lies between two convertible decimals converts; where both conversions succeed they agree, and as_u64 accepts every decimal without minus sign that as_i64 accepts; converting to i64 and back loses at most one half and is then stable; sums, differences and products of converted integers converted to u64 are the checked u64 results.", "quantifier": "all well-formed decimals and all 64-bit integers, both builds", "why_tests_cant": "2^128 pairs of integers, all decimals", "anchors": ["src/decimal.rs:as_i64", "src/decimal.rs:as_u64", "src/decimal.rs:From<i64>", "src/decimal.rs:From<u64>"]}
{"id": "C71", "title": "Every call ends, and panics only by a compiler-inserted check", "statement": "Every call of the API (division and remainder: on well-formed operands) returns, reports an error or panics; it never loops forever, divides an integer by zero or reaches unreachable!. In release builds the only panic of a function is a failed bounds check; debug builds add overflow checks and debug assertions, and the operators + - * / % add the deliberate panic that reports an error.", "quantifier": "all byte strings, all integers, all operands (well-formed ones for division and remainder), all precisions, both builds", "why_tests_cant": "non-termination and rare panics over all inputs cannot be excluded by running samples", "anchors": ["src/arith.rs", "src/serde.rs:from_bytes_str", "src/decimal.rs", "src/cmp.rs"]}
{"id": "C72", "title": "Arithmetic, rounding and integer conversion compute a short reference implementation, every field included", "statement": "add, sub, mul, div (any requested extra precision below 2^62), rem, round and round_to (any precision above -(2^63-1)), From<u64> and From<i64> return exactly what a short reference implementation on plain integers returns: the same choice between value, error and panic, the same error, and the same sign flag, digit counts and all nine units of the result, in both builds.", "quantifier": "all well-formed operands, all target buffers, all integers of the type, all precisions in the stated range, both builds", "why_tests_cant": "agreement with a reference on every operand pair, including the operands that overflow, panic or are cut off, is an equation over an unbounded domain; tests compare samples", "anchors": ["src/arith.rs:add_to", "src/arith.rs:sub_to", "src/arith.rs:mul_to", "src/arith.rs:div_to", "src/arith.rs:rem_to", "src/round.rs:round", "src/round.rs:round_to", "src/decimal.rs:From<u64>", "src/decimal.rs:From<i64>"]}
{"id": "C73", "title": "Parsing computes a short reference parser on every byte string, every field included", "statement": "from_ascii_str / from_bytes_str and str::parse return exactly what a short reference parser on lists returns, for every byte string, valid or not, short or long: the same choice between value, syntax error and panic, and the same sign flag, digit counts and all nine units. This includes what happens beyond the documented limits: debug builds panic on more than 127 mantissa digits, on exponents beyond 32 bits and on digit counts beyond 8 bits; release builds reduce the digit counts modulo 256 and then read only the leading digits, refuse, or panic on an index.", "quantifier": "all byte strings, all target decimals, both values of reset, both builds", "why_tests_cant": "the set of byte strings is infinite, and the interesting ones (more than 127 digits, counters wrapping around) are those no test writes; tests compare samples", "anchors": ["src/serde.rs:from_bytes_str", "src/serde.rs:from_ascii_str", "src/serde.rs:FromStr"]}
{"id": "C74", "title": "Division and rounding at the ends of the argument types", "statement": "The reference of C72 extends to every argument of the types: for every incr_frac : usize, div_to returns what it returns for an effective number of extra digits (values from 2^63 on are negative after the cast and count as none, otherwise only the low eight bits of the scale matter, debug builds panic if 64-bit arithmetic overflows); for every precision isize, round and round_to return the reference result, except that isize::MIN panics in debug builds and merely cuts off the fraction in release builds, and isize::MIN + 1 always panics.", "quantifier": "all well-formed operands, all target buffers, all usize increments, all isize precisions, both builds", "why_tests_cant": "the arguments range over all 64-bit integers and all decimals; the exceptional ones are exactly those tests do not try", "anchors": ["src/arith.rs:div_to", "src/arith.rs:div_abs", "src/round.rs:round", "src/round.rs:round_to", "src/round.rs:round_half_up"]}
{"id": "C75", "title": "Programs of API calls compute what rational arithmetic computes", "statement": "A program of API calls on registers (parsing, integer conversion, constants, sign changes, copies, +, -, *, /, %, round, round_to) in which no step meets one of the listed inexact cases, and which returns no error, leaves in every register the rational number that exact arithmetic assigns to it (division: the quotient cut at some number of places). Without divisions the outcome is unique: it depends neither on the build nor on scales, digit counts, leading zeros or stale contents of the target buffers, and comparison and as_i64 answer as they would about those rational numbers.", "quantifier": "all finite programs, all starting registers of well-formed decimals, both builds", "why_tests_cant": "unbounded programs, each step feeding the next, over unbounded inputs", "anchors": ["src/arith.rs:add_to", "src/arith.rs:sub_to", "src/arith.rs:mul_to", "src/arith.rs:div_to", "src/arith.rs:rem_to", "src/round.rs:round", "src/round.rs:round_to", "src/serde.rs:from_bytes_str", "src/decimal.rs:as_i64", "src/cmp.rs:cmp"]}
{"id": "C76", "title": "A whole session with the library is a session with the reference machine", "statement": "Run any sequence of API actions on registers: calls with output parameters, operators, parsing with and without reset, and calls that only look (to_string, cmp, ==, hash, as_i64, as_u64, is_zero, is_neg, intg, frac). Every reply, every error and what it leaves in the output, the place of the first panic, and all final registers are those of the short reference machine, whose looks are answered from the rational values. For sessions without division, remainder, parsing into a dirty output and in-place extension this holds with no condition beyond digit counts being truthful at the start; otherwise as long as registers stay well-formed.", "quantifier": "all finite sessions, all starting registers, both builds", "why_tests_cant": "unbounded sessions over unbounded inputs, with errors and panics at every point", "anchors": ["src/arith.rs:add_to", "src/arith.rs:sub_to", "src/arith.rs:mul_to", "src/arith.rs:div_to", "src/arith.rs:rem_to", "src/round.rs:round", "src/round.rs:round_to", "src/serde.rs:from_bytes_str", "src/serde.rs:to_string", "src/decimal.rs:as_i64", "src/decimal.rs:as_u64", "src/decimal.rs:hash", "src/cmp.rs:cmp"]}
{"id": "C77", "title": "Debug sessions with division stay valid; release sessions can divide by zero", "statement": "In a debug build every quotient that is returned is a valid decimal, for every pair of valid operands and every requested precision. Hence a debug session of any length with parsing, integer conversion, +, -, /, %, rounding (precision at most 127) and looking answers exactly as the reference machine, and every later division or remainder ends and panics only through a compiler-inserted check; units are never divided by zero. In a release build the check is missing: from valid texts, a division, a subtraction and another division (or remainder) end in a division by zero although the divisor is not zero.", "quantifier": "all operands and precisions; all finite debug sessions and starting registers", "why_tests_cant": "the guess of a quotient unit has to be bounded for every dividend, divisor and step of the long division, and over unbounded sessions", "anchors": ["src/arith.rs:div_to", "src/arith.rs:rem_to", "src/arith.rs:div_abs"]}
{"id": "C78", "title": "Digits left over beyond the digit counts never show, with listed exceptions", "statement": "Parsing without the reset (and some products) leave old contents in storage beyond the digit counts of a decimal. Comparison, equality, hashing, formatting, quotients, remainders, rounding into another decimal, and products and sums of operands that are not such zeros give exactly the same outcome (errors and panics included) as if the leftovers had been cleared; a whole session answers as the reference machine that clears leftovers after every action, and storage stays in range (in release builds as long as no division is made). The exceptions, each with a witness: is_zero of a zero with leftovers is false and sums with it get other digit counts (their value is still right), as_i64/as_u64 of an integer of fewer than 19 digits read the leftovers, and in-place rounding to more places may move digits across leftovers.", "quantifier": "all decimals with arbitrary leftovers, all operands and precisions, all finite sessions", "why_tests_cant": "it relates two executions for every content of the leftover storage; noninterference over unbounded sessions", "anchors": ["src/serde.rs:from_bytes_str", "src/decimal.rs:is_zero", "src/decimal.rs:as_i64", "src/cmp.rs:cmp_abs", "src/arith.rs:div_abs", "src/arith.rs:rem_abs", "src/arith.rs:mul_abs", "src/round.rs:round", "src/round.rs:round_to"]}
{"id": "C79", "title": "Minima, maxima, clamping and sorting follow the numbers", "statement": "For valid decimals, <= and >= hold exactly when they do for the numbers (with -0 just below +0); max and min return one of the two operands, with the larger / smaller value, and on ties the operand Rust documents; clamp returns the bound or the value itself, inside the bounds, and panics exactly when lower > upper; max and min of a non-empty list are an element that bounds all others; sorting returns a permutation whose values are in non-decreasing order.", "quantifier": "all valid decimals, all lists of any length", "why_tests_cant": "orders and sorting have to be consistent for every pair and every list", "anchors": ["src/cmp.rs:Ord for FixedDecimal", "src/cmp.rs:PartialOrd for FixedDecimal"]}
{"id": "C80", "title": "Rounding a list item by item shifts the total by a bounded amount", "statement": "Rounding each of n amounts to k digits changes their sum by at most n half units of the k-th digit; the sum of the rounded amounts and the rounded sum differ by a whole number of units of the k-th digit, at most (n+1)/2; nothing changes if every amount has at most k decimals.", "quantifier": "all lists of any length, all k up to 127", "why_tests_cant": "bound holds for every list and every k; induction over the list", "anchors": ["src/round.rs:round_to"]}
{"id": "C81", "title": "Quotient and remainder belong together", "statement": "Dividing and taking the remainder of the same two valid operands gives numbers with a = b * trunc(q) + r, |r| < |b| and trunc(q) = trunc(a / b): always for a divisor of one unit, and for longer divisors under the stated conditions (no guess of a quotient unit too big, the quotient keeps its units digit).", "quantifier": "all valid operands, all requested precisions below 2^62", "why_tests_cant": "two long divisions with different loops have to agree for every pair", "anchors": ["src/arith.rs:div_to", "src/arith.rs:rem_to"]}
{"id": "C82", "title": "Averages", "statement": "Summing fewer than 10^9 amounts and dividing by their number gives the mean cut after the digits returned: within one unit of the last digit, never farther from zero; if it carries at least the decimals of the amounts, it lies between the smallest and the largest, and the mean of equal amounts is that amount.", "quantifier": "all lists of fewer than 10^9 valid amounts, all requested precisions", "why_tests_cant": "unbounded lists; the exactness of every partial sum and of the quotient is needed", "anchors": ["src/arith.rs:add_to", "src/arith.rs:div_to", "src/decimal.rs:From<u64>"]}
{"id": "C83", "title": "Amount times rate, rounded", "statement": "When the product is not cut off, multiplying and rounding to k digits gives the exact product rounded half away from zero, within half a unit; it is monotone in the amount for a nonnegative rate, and the charge of the negated amount is the negated charge.", "quantifier": "all valid amounts and rates whose product is not cut off, all k up to 127", "why_tests_cant": "quantifies over all operands; monotonicity relates two runs", "anchors": ["src/arith.rs:mul_to", "src/round.rs:round_to"]}
{"id": "C84", "title": "Canonical keys", "statement": "Printing with k digits and parsing again gives a canonical key: decimals that compare equal have bit-identical keys (hence equal hashes) or the same failure; for values below 10^(65-k) the key exists, has exactly k decimals, the same sign flag and the value cut after k digits; among values with at most k decimals keys, and hashes of keys, are equal exactly when the decimals compare equal.", "quantifier": "all valid decimals, all k up to 64", "why_tests_cant": "relates two decimals of different internal layout for every value and k", "anchors": ["src/serde.rs:to_string", "src/serde.rs:from_str", "src/decimal.rs:Hash for FixedDecimal"]}
{"id": "C85", "title": "Delimited text round trip", "statement": "Appending any number of decimals to one buffer with a separator between them never fails and gives their own texts in order; splitting at the separator and parsing every field gives back the same numbers with the same sign and decimals, for every separator byte that is not a digit, point or minus, provided no text has more than 65 digits.", "quantifier": "all non-empty lists of valid decimals of any length, all separators", "why_tests_cant": "unbounded lists; no text may contain the separator", "anchors": ["src/serde.rs:append_str_buf", "src/serde.rs:from_str"]}
{"id": "C86", "title": "Which errors a call can report, and what they say", "statement": "Parsing reports nothing but ConversionSyntax, for any bytes and any target. On valid decimals addition and subtraction report nothing; multiplication only Overflow, of two non-zero operands; division DivisionByZero exactly for a zero divisor and otherwise only Overflow of a non-zero dividend, whatever precision is asked for; the remainder DivisionByZero, exactly for a zero divisor; as_i64/as_u64 only ExceedsConversionTargetRange. The texts of the four errors are different. When an operator panics by itself, + and - never do, * says 'multiplication failed: Decimal overflow', / says 'division failed: Decimal division by zero' exactly for a zero divisor and otherwise 'division failed: Decimal overflow', % says 'modulo failed: Decimal division by zero' exactly for a zero divisor.", "quantifier": "all byte strings, all valid operands, all precisions, both builds", "why_tests_cant": "error handling code that matches on the variant is right only if no input can produce another one", "anchors": ["src/error.rs:Error", "src/arith.rs:Add", "src/arith.rs:Sub", "src/arith.rs:Mul", "src/arith.rs:Div", "src/arith.rs:Rem", "src/serde.rs:from_bytes_str", "src/decimal.rs:as_i64", "src/decimal.rs:as_u64"]}
{"id": "C87", "title": "How long a text is, and how texts sort", "statement": "The text of a valid decimal has one byte for a minus sign, one for each decimal digit of the integer part (one for zero), and one more than the number of digits after the point if there are any; hence at most 84 bytes in full and at most 83+k with k digits. Of two decimals without minus sign printed with the same k, texts of equal length are ordered byte by byte as the printed (cut) numbers.", "quantifier": "all valid decimals, all digit arguments", "why_tests_cant": "a bound and an order embedding over all values", "anchors": ["src/serde.rs:to_string", "src/serde.rs:append_str_buf"]}
{"id": "C88", "title": "Comparing is the same as looking at the difference", "statement": "For valid decimals that are not negative zeros, whenever a - b succeeds: a < b, a == b or a > b exactly when a - b is negative, zero, or neither.", "quantifier": "all valid operands", "why_tests_cant": "two independent algorithms (comparison and subtraction) have to agree on every pair", "anchors": ["src/cmp.rs:cmp", "src/arith.rs:sub_to", "src/decimal.rs:is_neg", "src/decimal.rs:is_zero"]}
{"id": "C89", "title": "Repeated addition is multiplication", "statement": "Adding x to zero n times and multiplying x by the converted integer n give the same number n*x, exactly, when both succeed and the product is not cut off.", "quantifier": "all valid x, all n up to 2^64-1", "why_tests_cant": "induction over the number of additions", "anchors": ["src/arith.rs:add_to", "src/arith.rs:mul_to", "src/decimal.rs:From<u64>"]}
{"id": "C90", "title": "Splitting an amount into shares loses nothing", "statement": "Dividing an amount by an integer n below 10^9 and subtracting the quotient n times leaves a rest such that n shares and the rest are exactly the amount; the rest has the amount's sign and is below n units of the share's last digit, and the share is never farther from zero than the exact one.", "quantifier": "all valid amounts, all n from 1 to 10^9-1, all requested precisions", "why_tests_cant": "a division followed by an unbounded number of subtractions", "anchors": ["src/arith.rs:div_to", "src/arith.rs:sub_to"]}
{"id": "C91", "title": "No session makes the unsafe block unsound", "statement": "Whatever a program does with the library - any sequence of public calls with any arguments, in debug or release, including the calls that are known to produce malformed decimals - every decimal it holds keeps nine 32-bit units and an 8-bit digit count, no memory outside them is written, and every text it ever obtains consists of ASCII digits, '-' and '.', so the bytes handed to String::from_utf8_unchecked are valid UTF-8.", "quantifier": "all finite sessions, all arguments (no range or validity assumption), both builds", "why_tests_cant": "soundness of unsafe code must hold in every reachable state, including the malformed ones that bugs can reach", "anchors": ["src/serde.rs:to_string", "src/serde.rs:append_str_buf", "src/decimal.rs:FixedDecimal"]}
{"id": "C92", "title": "Division and remainder do a bounded amount of work", "statement": "For every pair of operands whose units are below 10^9 (all well-formed decimals and more), the one loop of division and remainder whose length is not fixed by the number of units - the correction of the guessed quotient unit - makes at most two corrections per quotient unit in a debug build and at most four in a release build; running with exactly that limit gives the same outcome, value, error or panic, as the unlimited code. So the running time of a division is bounded independently of the operands' values.", "quantifier": "all operands with units in [0, 10^9), all increments, all previous contents of the result, both builds", "why_tests_cant": "the bound depends on the normalisation of the divisor and on units staying below 10^9 through all iterations, including after a wrong add-back; tests only sample it", "anchors": ["src/arith.rs:div_abs", "src/arith.rs:rem_abs"]}
{"id": "C93", "title": "Exactly which operations overflow an intermediate integer", "statement": "On well-formed operands add_to, sub_to and rem_to never overflow any intermediate i8/i32/i64/isize/usize: no debug overflow panic and therefore no silent wrap-around in release. mul_to overflows (debug panic, release wraps) exactly when both operands are non-zero and their integral digit counts or their fractional digit counts add up to 120 or more. div_to does exactly when both are non-zero and the digit count overflows 64 bits (increments near 2^63 and up), or the wanted fractional digits, cut to eight bits, are 120 or more, or (they being at least -8) the planned integral digits are 120..127 or -126..-119. round/round_to to k digits do exactly when k <= -(2^63 - 1), or k >= frac() and the low eight bits of k, as a signed number, are 120 or more or (being at least -8) ask for fewer units than the decimal has.", "quantifier": "all well-formed operands, all previous contents of the result, all increments, all precisions", "why_tests_cant": "every carry, borrow, product and digit count of every iteration must be bounded for all operands; a release build wraps without any sign, so tests do not see it", "anchors": ["src/arith.rs:add_to", "src/arith.rs:sub_to", "src/arith.rs:mul_to", "src/arith.rs:div_to", "src/arith.rs:rem_to", "src/round.rs:round", "src/round.rs:round_to"]}
{"id": "C94", "title": "Which panic, exactly", "statement": "For every arithmetic function and operator, round/round_to and parsing, on every well-formed input (every byte string for parsing), the complete observable fate is known in both builds: the value, the error, or the kind of the panic. Addition and subtraction panic only at a bounds check; release builds panic only at bounds checks; in debug builds multiplication panics at an overflow check exactly if digit counts add up to 120 or more and otherwise at its assertion; division panics at an overflow check, else at a bounds check if the digit counts or the scratch buffer do not fit, else at its assertion; the remainder at an assertion if a guess is too wide or the division leaves no spare unit, else at a bounds check; rounding never fails its assertion; parsing in a debug build panics only at overflow checks. An operator panics with its function's error where that returns one, and otherwise does what the function does.", "quantifier": "all well-formed operands, all previous contents of the result, all increments and precisions, all byte strings, both builds", "why_tests_cant": "which check fires first depends on the digit counts and on every digit guess of a long division, for all operands", "anchors": ["src/arith.rs:add_to", "src/arith.rs:sub_to", "src/arith.rs:mul_to", "src/arith.rs:div_to", "src/arith.rs:rem_to", "src/round.rs:round", "src/round.rs:round_to", "src/decimal.rs:from_bytes_str", "src/arith.rs:impl Add"]}
{"id": "C95", "title": "Division and remainder end on whatever the fields can hold", "statement": "div_to, rem_to, / and % end for every pair of decimals the struct can represent - any i32 units, any digit counts, not only well-formed ones - every previous content of the result and every increment, in debug and release builds. If they panic, it is at a bounds check, in debug builds at an overflow check or an assertion, or at a division by zero, and the latter only if the divisor holds a unit outside 0..=999999999; the i64::MIN / -1 trap never fires. This holds after any session of API calls.", "quantifier": "all struct contents (well-formed or not), all increments, both builds, all sessions", "why_tests_cant": "the correction loop of the quotient guess has no syntactic bound and wraps modulo 2^64 in release builds; whether it ends for all 2^128 operand pairs is a number-theoretic question", "anchors": ["src/arith.rs:div_abs", "src/arith.rs:rem_abs", "src/arith.rs:div_to", "src/arith.rs:rem_to"]}
{"id": "C96", "title": "Rounding a quotient rounds the exact quotient, and terminating quotients are exact", "statement": "When div_to truncates (a one-unit divisor, or the C36 conditions), round_to(a / b, k) with k < frac(a / b) has exactly the value of a / b rounded half away from zero to k digits, within half a unit: cutting first never causes a wrong rounding. The quotient is exact precisely when the exact quotient has at most frac() digits; dividing by 2^i*5^j is exact once the quotient carries max(i, j) digits more than the dividend.", "quantifier": "all valid dividends, divisors, increments below 2^62, scales k, both builds", "why_tests_cant": "double rounding errors show only on rare digit patterns (a quotient cut just above or below a half); tests cannot cover all of them", "anchors": ["src/arith.rs:div_to", "src/arith.rs:mul_to", "src/decimal.rs:round_to"]}
{"id": "C97", "title": "Quotients respect the order", "statement": "For a positive divisor, a <= a' gives a/b <= a'/b when the quotients carry the same number of digits (for non-negative dividends: when the larger one carries at least as many); a larger positive divisor gives a smaller quotient. Quotients carry the same number of digits when the dividends have the same frac() and neither quotient has more than 45 integral digits. Without that the order can be lost: 1.0000000000 / 3 > 1 / 3.", "quantifier": "all valid operands meeting the truncation conditions, all increments below 2^62, both builds", "why_tests_cant": "monotonicity relates pairs of executions over all operands", "anchors": ["src/arith.rs:div_to", "src/arith.rs:mul_to", "src/decimal.rs:round_to"]}
{"id": "C98", "title": "Dividing and multiplying back; converting there and back", "statement": "round(a / b, k) * b is within |b| * 10^-k / 2 of a. Converting an amount of at most j digits at a rate, rounded to k digits, and back, rounded to j digits, restores the amount exactly whenever 10^j < |rate| * 10^k.", "quantifier": "all amounts, rates, scales, increments, both builds", "why_tests_cant": "a lost cent shows only for particular amounts; the claim ranges over all of them", "anchors": ["src/arith.rs:div_to", "src/arith.rs:mul_to", "src/decimal.rs:round_to"]}
{"id": "C99", "title": "A chain of products uses up the integral digits", "statement": "No chain of ten multiplications, rounded in between or not, by factors that have an integral digit each, comes out with anything but zero: every product claims nine more integral digits than its left factor, however small the numbers are. 1 can be multiplied by 1 nine times; the tenth product is Err(Overflow).", "quantifier": "all starting values and all lists of at least ten factors with truthful digit counts, all roundings in between, both builds", "why_tests_cant": "ranges over histories of any length and every interleaving with rounding", "anchors": ["src/arith.rs:div_to", "src/arith.rs:mul_to", "src/decimal.rs:round_to"]}
{"id": "C100", "title": "Compounding", "statement": "Multiplying an amount by one rate after the other, rounding to k digits each time, succeeds for every period as long as the integral units last (iu + periods + ceil((k+f)/9) <= 8, rates below 10^8 with at most f digits), and the outcome is off the exact product by at most half a unit per period, each carried along by the rates that follow; with rates of at most one, by half a unit per period.", "quantifier": "all amounts, all lists of rates within the stated layout, both builds", "why_tests_cant": "ranges over histories and accumulates rounding errors", "anchors": ["src/arith.rs:div_to", "src/arith.rs:mul_to", "src/decimal.rs:round_to"]}
{"id": "C101", "title": "How a program can stop", "statement": "Any sequence of API actions, started from registers whose fields hold anything their types allow, runs to its end with one reply per action, or stops at one action (after the replies to all actions before it) in one of these panics: a bounds check; in debug builds also an overflow check or an assertion; the report of an error, by an operator; a division by zero, by an action that divides, and only if its divisor has a unit outside 0..=999999999. No program runs forever. In a release build a program that does not divide stops only at a bounds check or at the report of an error by + - *.", "quantifier": "all finite sequences of actions, all contents of the registers, both builds", "why_tests_cant": "unbounded programs over arbitrary storage contents; a hang or a new kind of panic could hide in any of them", "anchors": ["src/decimal.rs:FixedDecimal", "src/arith.rs:add_to", "src/arith.rs:sub_to", "src/arith.rs:mul_to", "src/arith.rs:div_to", "src/arith.rs:rem_to", "src/serde.rs:from_bytes_str", "src/round.rs:round_to"]}
{"id": "C102", "title": "Remainders are residues", "statement": "For divisors of at most two significant units, whenever the calls succeed: a % c is the only number below |c| in magnitude, with the sign of a, that differs from a by a whole multiple of c; it is zero exactly if a is a whole multiple of c; a % 1 is the fractional part and zero exactly for whole numbers; (a % b) % c = a % c if c divides b; (a + b) % c = ((a % c) + (b % c)) % c for non-negative a, b; a and b with equal remainders have (a - b) % c = 0, and conversely if they have the same sign.", "quantifier": "all well-formed operands, divisors of at most two significant units, both builds", "why_tests_cant": "congruences over all operands; a remainder off by the divisor shows only for rare guesses", "anchors": ["src/arith.rs:rem_to", "src/arith.rs:rem_abs", "src/arith.rs:add_to", "src/arith.rs:sub_to"]}
{"id": "C103", "title": "Euclid's algorithm", "statement": "The loop (a, b) = (b, a % b) until b is zero, on decimals with the same number of fractional units and a second operand of at most 18 digits (the first may have all 81 digits; in debug builds only if the second has at most nine, and at most 18 otherwise), never fails, ends, and returns the greatest common divisor at that scale; for whole numbers, gcd(a, b). It can return nothing else.", "quantifier": "all pairs of well-formed decimals as described, any number of rounds, both builds", "why_tests_cant": "unbounded iteration, with every remainder feeding the next division", "anchors": ["src/arith.rs:rem_to", "src/arith.rs:rem_abs", "src/decimal.rs:is_zero"]}
{"id": "C104", "title": "Integer division, and digits in any base", "statement": "div_to with an increment of zero on whole numbers of scale zero is truncated integer division, and % the integer remainder, for dividends of up to 81 digits and divisors below 10^18 in magnitude; all of these calls succeed in release builds, and in debug builds for divisors below 10^9 (remainders also when the dividend is below 10^18 in magnitude). Hence the loop that collects n % base and divides n by base until it is zero never fails, ends, and gives exactly the digits of n in that base.", "quantifier": "all whole numbers of up to 81 digits, all bases from 2 to 10^18 - 1, both builds", "why_tests_cant": "unbounded iteration over operands of up to 81 digits", "anchors": ["src/arith.rs:div_to", "src/arith.rs:div_abs", "src/arith.rs:rem_to", "src/decimal.rs:is_zero"]}
{"id": "C105", "title": "Integer square roots by Newton's method", "statement": "The loop y = (x + n / x) / 2 while y < x, with div_to at increment zero on whole numbers, from any start x not below the root (x below 10^18; debug builds: 10^9), never fails, ends, and returns the square root of n rounded down; it can return nothing else. n = 0 must be treated apart: started from 1 the loop reaches 0 / 0.", "quantifier": "all whole n of at least 1, all starting points in range, any number of rounds, both builds", "why_tests_cant": "unbounded iteration in which quotients, sums and comparisons feed one another", "anchors": ["src/arith.rs:div_to", "src/arith.rs:add_to", "src/cmp.rs:cmp"]}
{"id": "C106", "title": "Giving back claimed digits: long products, factorials, modular powers, compounding", "statement": "x + 1 - 1 keeps the value of x and reduces its claimed integral digits to the units it needs. With that done after each step: whole factors of up to nine digits can be multiplied up in any number, exactly, while partial products stay below 10^63 (factorials up to 49!); b^e mod M by square and multiply is right for every exponent e, M below 10^18 (debug builds: 10^9); and compound growth can run for any number of periods with the error bound of C100. No step fails. Without it even 1 * 1 % 97, nine times over, is an overflow.", "quantifier": "all decimals, factor lists, exponents and rate lists as described, both builds", "why_tests_cant": "unbounded iteration in which the digit count claimed by each result decides whether a later step fails", "anchors": ["src/arith.rs:add_to", "src/arith.rs:sub_to", "src/arith.rs:mul_to", "src/arith.rs:rem_to", "src/round.rs:round_to"]}
{"id": "C107", "title": "Horner's rule and reading digit by digit", "statement": "acc = acc * x + c over a list of whole coefficients, compacted as in C106, for a whole x of up to nine digits: exact and without failure while intermediate values stay below 10^63. Hence up to 63 digits read one by one give the number that from_str makes of them. Without compacting whatever is returned is still exact, but reading 1000000000 is an overflow although 1111111111 is read.", "quantifier": "all coefficient lists of any length, all whole points of up to nine digits, both builds", "why_tests_cant": "unbounded iteration over products and sums", "anchors": ["src/arith.rs:mul_to", "src/arith.rs:add_to", "src/decimal.rs:from_str"]}
{"id": "C108", "title": "Remainders of numbers of any length", "statement": "acc = (acc * x + c) % M over the chunks c of a number in base x (up to 18 digits), compacted as in C106, gives the remainder of the whole number modulo M, for M below 10^18 (debug builds: 10^9), however many chunks there are; no step fails. In particular for texts of digits of any length, far beyond the 81 digits a decimal holds.", "quantifier": "all chunk lists of any length, all moduli and bases in range, both builds", "why_tests_cant": "unbounded iteration; a check digit computed over account numbers of any length", "anchors": ["src/arith.rs:mul_to", "src/arith.rs:add_to", "src/arith.rs:rem_to"]}
{"id": "C109", "title": "The {:?} text shows every field", "statement": "Two decimals have the same {:?} text, and the same {:#?} text, exactly if they agree in every stored field: sign flag, both digit counts and all nine units; no two field values look alike, whatever the fields hold. The intg shown is the number of integral digits, less 128 for a negative decimal, so it is below zero exactly for negative decimals. The {:?} texts of the four errors differ.", "quantifier": "all decimals, field values and errors", "why_tests_cant": "an injectivity claim over all pairs of values; assert_eq! failures and logs are compared by this text", "anchors": ["src/decimal.rs:FixedDecimal", "src/error.rs:Error"]}
{"id": "C110", "title": "Balances with interest and payments", "statement": "interest = round(rate * balance, k); balance = balance + interest - payment, for one period after the other: for any number of periods, with balances and payments of at most k decimals and 9u integral digits, rates below 10^8 with at most f decimals, u + 1 + ceil((k+f)/9) <= 8, and balances that stay below 10^(9u), no call fails and every interest and every balance is exactly that of the recurrence on the numbers. Whenever a schedule runs through, the last balance is the first one plus all interest minus all payments, exactly. The rate has to be the left factor: in debug builds (1.50 - 1.00) * 0.05 is an assertion failure although 0.05 * (1.50 - 1.00) is not.", "quantifier": "all period lists of any length, all amounts and rates in range, both builds", "why_tests_cant": "unbounded iteration in which the digit counts of each result decide whether a later step fails", "anchors": ["src/arith.rs:mul_abs", "src/arith.rs:add_to", "src/arith.rs:sub_to", "src/round.rs:round_to"]}
{"id": "C111", "title": "Binary search, and sorted lists as sets", "statement": "binary_search (Rust's library loop over cmp) in an ascending slice of decimals of any length never fails; it returns the place of an element with the same number and sign, whatever the scales, exactly if there is one, and otherwise the place where the element belongs: everything before it sorts before, everything from there on after. A sorted Vec kept by inserting at that place, filled with any decimals in any order, stays strictly ascending and holds each number put in exactly once; another spelling of a number already there (1.0 after 1) changes nothing.", "quantifier": "all lists of any length, all decimals, all orders of insertion", "why_tests_cant": "search correctness depends on cmp being a consistent order on every triple of values", "anchors": ["src/cmp.rs:Ord for FixedDecimal", "src/cmp.rs:PartialOrd for FixedDecimal"]}
{"id": "C112", "title": "Rates by bracket", "statement": "part = clamp(x, lo, hi) - lo; total += round(rate * part, k), bracket after bracket: for any number of brackets with ascending thresholds from zero up and rates from 0 to 1, with at most k (rates: f) decimals and 9u integral digits, u + 1 + ceil((k+f)/9) <= 8, no call fails and the total is exactly the sum over the brackets of the part of x in the bracket times the rate, rounded half away from zero. A larger amount is charged at least as much, and leaves at least as much after the charge, roundings included. Splitting at thresholds loses nothing.", "quantifier": "all bracket lists of any length, all amounts, thresholds and rates in range, both builds", "why_tests_cant": "monotonicity over all pairs of amounts through comparison, subtraction, multiplication and rounding", "anchors": ["src/cmp.rs:Ord for FixedDecimal", "src/arith.rs:sub_to", "src/arith.rs:mul_to", "src/arith.rs:add_to", "src/round.rs:round_to"]}
{"id": "C113", "title": "Extended Euclid and modular inverses", "statement": "The extended Euclidean loop on whole decimals - quotient by div_to with increment 0 and compacted, remainder by %, coefficient s0 - q*s1 compacted - started from a below 10^18 and b below 10^18 (debug: 10^9), b not 0: no call fails, the loop ends, it can return only one pair, and that is gcd(a, b) together with a coefficient s, |s| <= b, such that s*a + t*b = gcd(a, b) for some whole t. If a and b are coprime and b >= 2, s (plus b if negative) is the inverse of a modulo b: it lies from 0 to b - 1 and its product with a leaves the remainder 1.", "quantifier": "all whole decimals a, b in range in any representation, both builds, any number of loop steps", "why_tests_cant": "loop length depends on the inputs; every step feeds results of / % * - into one another", "anchors": ["src/arith.rs:div_to", "src/arith.rs:rem_to", "src/arith.rs:mul_to", "src/arith.rs:sub_to", "src/arith.rs:add_to"]}
{"id": "C114", "title": "Proportional shares and interpolation", "statement": "cum += w; t = round(cum * a / total, k); share = t - before; before = t, over any number of whole weights with a total from 1 to 10^9 - 1: no call fails, the shares add up to the amount exactly, each is within one unit of the k-th digit of the exact share, has the amount's sign, and is zero for a zero weight. y0 + round((x - x0) * (y1 - y0) / (x1 - x0), k) for whole x0 <= x <= x1 below 10^9: no call fails, the result is within half a unit of the exact value, lies between y0 and y1, meets both ends exactly and is monotone in x.", "quantifier": "all amounts and ordinates of at most k digits and 9u integral digits (u + 1 + ceil(k/9) <= 8, k <= 35), all weight lists of any length, all increments from max(9, k+1) to 80, both builds", "why_tests_cant": "no loss over lists of any length; exact rounding of every quotient", "anchors": ["src/arith.rs:mul_to", "src/arith.rs:div_to", "src/arith.rs:add_to", "src/arith.rs:sub_to", "src/round.rs:round_to"]}
{"id": "C115", "title": "Dot products and variance", "statement": "acc = acc + x * y over any number of pairs (quantities times prices): with factors of at most 9u and 9v integral and k and l fractional digits, u + v + ceil((k+l)/9) <= 8, left factors with an integral digit (release: any), and magnitudes of the products adding up to less than 10^(9(u+v)), no call fails and the result is exact. n * sum(x*x) - sum(x) * sum(x) over any number n < 10^9 of decimals (2u + 2 + ceil(2k/9) <= 8) is exact, never negative, and zero exactly if all numbers are equal; in debug builds the sum has to be zero or at least 1 in magnitude: 0.5 and 0.3 are an assertion failure there.", "quantifier": "all lists of decimals in range, both builds", "why_tests_cant": "lists of any length; sign of a difference of two sums", "anchors": ["src/arith.rs:mul_to", "src/arith.rs:add_to", "src/arith.rs:sub_to"]}
{"id": "C116", "title": "A debug build returns no wrong quotient, if the divisor's scale is not too fine", "statement": "In a debug build, whenever div_to returns a quotient and the divisor has no more fractional units (nine digits each) than the dividend has fractional and the quotient integral units together - in particular whenever frac(b) <= frac(a) - the quotient is exactly a / b cut off after frac() digits, for operands of any length and every requested precision: the wrong correction step of the long division is always caught by an assertion. The two conditions are needed. 1 / 0.500000000000000000999999999 comes out as 1.000000003999999995999999996000000015 in both builds, silently. A release build returns 1.999999999999999989999999989 for 1999999998000000021 / 999999999000000010.999999999, where the debug build stops.", "quantifier": "all pairs of valid decimals, all requested precisions, debug builds", "why_tests_cant": "the faulty step is met by about one pair in 10^9, and whether it is caught depends on the step after it", "anchors": ["src/arith.rs:div_to", "src/arith.rs:div_abs"]}
{"id": "C117", "title": "The leading unit of a quotient is right", "statement": "Every quotient that div_to returns as a valid decimal has the same leading nine-digit unit, at the same place, as the exact quotient, or is zero because the exact quotient is below its last digit; so it has the right sign and is wrong by less than a factor of two, whatever the wrong correction step of the long division did to the rest. In debug builds this holds of every quotient, by every divisor and at every requested precision. Two is the right factor: 1 / 0.500000000000000000999999999.", "quantifier": "all pairs of valid decimals, all requested precisions; debug builds, and release builds when the result is a valid decimal", "why_tests_cant": "how far off a faulty quotient can be at most is a statement about all operands", "anchors": ["src/arith.rs:div_to", "src/arith.rs:div_abs"]}
{"id": "C118", "title": "Bisection and square roots to k decimals", "statement": "The loop that halves an interval with `t = round(&half * &(&lo + &hi), k); mid = &(&t + &one) - &one` and keeps the half chosen by a test on t ends, after n steps with width * 10^k <= 2^n, with a decimal r at which the condition holds and one unit of the k-th digit above which it does not, whatever the condition; no call fails, in any build. With the test `&x * &x <= n` this gives the square root cut off after k digits: r^2 <= n < (r + 10^-k)^2. Without the `+ 1 - 1` the loop can panic.", "quantifier": "all conditions, all intervals, all k with room (u + 1 + ceil((k+1)/9) <= 8; for roots 2(u+1) + ceil(2k/9) <= 9), all step counts that suffice", "why_tests_cant": "the number of steps and the digit counts the intermediate results claim are unbounded inputs", "anchors": ["src/arith.rs:add_to", "src/arith.rs:mul_to", "src/round.rs:round_to", "src/cmp.rs:cmp"]}
{"id": "C119", "title": "The other rounding modes", "statement": "round_to rounds halves away from zero; with one comparison with the argument and one addition or subtraction of 10^-k it gives floor, ceiling, truncation and rounding away from zero to k digits, and with the exact difference between the two also halves towards zero and halves to the even digit (banker's rounding). Each of the six programs succeeds in every build and returns exactly the number its name says, for negative numbers and negative zero too.", "quantifier": "all decimals with truthful digit counts of at most u integral units, magnitude below 10^(9u) - 1, all k with u + ceil(k/9) <= 8 (half to even: u + 1 + ceil((k+1)/9) <= 8)", "why_tests_cant": "ties, signs and carries into a new unit over all values and scales", "anchors": ["src/round.rs:round_to", "src/cmp.rs:cmp", "src/arith.rs:add_to", "src/arith.rs:sub_to"]}
{"id": "C120", "title": "Sums of series, and e", "statement": "The loop `t = round(&(c * &t) / d, k); s = &s + &t` over any list of ratios c/d of whole numbers below 10^9 (the term compacted by + 1 - 1) never fails while |s| + n|t| < 10^9 and computes exactly the rational recurrence with each term rounded half away from zero; if every ratio is at most one half, n terms are within n units of the k-th digit of the exact sum. With c = 1 and d = 2, 3, 4, ... counted up by the program itself this is Euler's number: within n 10^-k + (n+3)/((n+2)!(n+2)) of exp(1).", "quantifier": "all lists of ratios of any length, all starting terms and sums, k <= 35, both builds", "why_tests_cant": "the number of terms is unbounded, and rounding errors and claimed digits could accumulate", "anchors": ["src/arith.rs:mul_to", "src/arith.rs:div_to", "src/round.rs:round_to", "src/arith.rs:add_to"]}
{"id": "C121", "title": "Which quotients and remainders can be wrong", "statement": "Whether a division can go wrong can be read off the exact quotient x of the operands. A remainder that is returned is the truncated remainder unless for some j with 10^(9j) <= |x| the number |x|/10^(9j) lies below a whole number by at most 2*10^-18 times one more than the last nine digits of its whole part (so never more than two parts in a thousand million). For |a| < 10^9 |b| a wrong remainder is exactly |b| minus the right one, not zero, and at most (|a|+|b|)/(5*10^17): a remainder that is not tiny is right, and a zero remainder means exactly that b goes into a a whole number of times. A whole quotient of at most 4*10^17 always gives remainder zero and comes back exactly from the division. A returned quotient is the truncated one unless |x| 10^(9k) is just below a whole number in the same sense for some place k of the result before the last.", "quantifier": "all well-formed operands (for quotients: room for the divisor's fraction), all digit increments, both builds", "why_tests_cant": "the wrong cases are about one in a thousand million: random tests do not meet them, and a bound on where they lie needs a proof over all operands", "anchors": ["src/arith.rs:rem_to", "src/arith.rs:div_to", "src/arith.rs:rem_abs", "src/arith.rs:div_abs"]}
{"id": "C122", "title": "How rare wrong remainders are", "statement": "Fix a divisor of B units of some decimal scale. Of the N*B dividends at that scale with quotient below N (N <= 10^9), at most B N (N+3) / 10^18 get a wrong remainder: a fraction of at most (N+3)/10^18, so at most 1.000000003 in 10^9 over all quotients below 10^9, and with quotients below a million at most one in 10^12.", "quantifier": "all divisors and scales, all N up to 10^9, however the dividends are represented, both builds", "why_tests_cant": "a count over up to 10^81 dividends; this is why testing does not find them", "anchors": ["src/arith.rs:rem_to", "src/arith.rs:rem_abs"]}
{"id": "C123", "title": "A group of nines gives a wrong quotient away", "statement": "Cut a number into groups of nine digits, counted from the point. (1) If no group of the exact quotient down to the last place of the result is 999999998 or 999999999, the quotient a release build returns is the truncated one and a debug build returns the same (given room for the dividend). (2) The check can be made on the returned quotient itself: a valid result that shows no such group is what debug builds return, and is the truncated quotient. (3) A remainder is right, and the same in debug builds, if no group of the quotient before the point, nor the first one behind it, is 999999998 or 999999999.", "quantifier": "all well-formed operands and scale increments; all returned results", "why_tests_cant": "an a-posteriori check of correctness over all operand pairs; wrong results are too rare (C122) for tests to meet", "anchors": ["src/arith.rs:div_to", "src/arith.rs:div_abs", "src/arith.rs:rem_to", "src/arith.rs:rem_abs"]}
{"id": "C124", "title": "Exact fractions", "statement": "A pair of whole decimals (p, q), reduced by Euclid's algorithm on |p| and q with both entries divided by the result and compacted, stands for p/q in lowest terms with positive denominator. p1*q2 + p2*q1 over q1*q2, and p1*p2 over q1*q2, reduced, are exactly the sum and the product of the rationals; cmp(p1*q2, p2*q1) is their order; a loop adding up any number of fractions is exact. No call fails while the product of the denominators stays below 10^18 (debug builds: 10^9) and the unreduced numerator below 10^36; nothing else can be returned. 1/3 + 1/3 + 1/3 is 1 with fractions, and below 1 with decimal quotients.", "quantifier": "all rationals within the stated room, lists of any length, both builds", "why_tests_cant": "a loop over lists of any length around Euclid's loop, each call of which could fail or be wrong", "anchors": ["src/arith.rs:mul_to", "src/arith.rs:add_to", "src/arith.rs:rem_to", "src/arith.rs:div_to", "src/cmp.rs:cmp"]}
{"id": "C125", "title": "JSON numbers", "statement": "Every text to_string writes is a JSON number (RFC 8259) without exponent. Every JSON number within the parser's limits is read, exactly. A JSON number without exponent and of at most 65 digits that is read and written again comes back byte for byte: digits, trailing zeros and a minus sign in front of a zero included. The parser takes more than JSON (+1, .5) and not all of it (1e66, 1e-31 are refused).", "quantifier": "all well-formed decimals and precisions; all byte strings of the JSON grammar; both builds", "why_tests_cant": "ranges over all texts of a grammar", "anchors": ["src/serde.rs:from_bytes_str", "src/serde.rs:to_string", "src/serde.rs:append_str_buf"]}
{"id": "C126", "title": "Moving sums and partial sums do not drift", "statement": "A moving sum kept up to date by adding the item that comes in and subtracting the one that goes out is, after any number of items, exactly the sum of the items in the window; with items of a common layout and (w+1) times the largest magnitude below the layout's range it never fails, however long the stream. A table of partial sums has exact entries, and the sum of any stretch is the exact difference of two entries, which never fails if the magnitudes together stay below the layout's range.", "quantifier": "all streams of well-formed decimals of any length, window sizes and stretches; both builds", "why_tests_cant": "ranges over streams of any length; a drift would only show after enough items", "anchors": ["src/arith.rs:add_to", "src/arith.rs:sub_to", "src/arith.rs:Add", "src/arith.rs:Sub"]}
{"id": "C127", "title": "Columns of a fixed precision and scale", "statement": "A column DECIMAL(p,s) stores x by rounding it to s digits and comparing the magnitude with 10^(p-s). Stored is the number rounded half away from zero, with scale s and the sign kept; refused is exactly a number whose rounded value has more than p-s integral digits. Storing fails by a panic for no value that leaves room (integral units plus the units of s digits at most eight). What was stored is stored again field by field; the order is kept, and what lies between two storable values is storable; a number the column can hold is stored unchanged; its text has at most p-s digits before and s after the point, and for p up to 65 it can be written out and read in again, giving the same bytes.", "quantifier": "all decimals with truthful digit counts, all precisions and scales up to 127, both builds", "why_tests_cant": "the boundary cases (values that round up into the limit) lie anywhere, and the claims relate two or three stored values", "anchors": ["src/round.rs:round_to", "src/cmp.rs:cmp", "src/serde.rs:to_string", "src/serde.rs:from_bytes_str", "src/decimal.rs:set_pos"]}
{"id": "C128", "title": "Totals of a column", "statement": "The total of at most 10^e rows, each stored in a column of w digits before and s after the point (C127), is computed without failing, is exactly the sum of the rows, and is stored unchanged in a column with e more digits before the point.", "quantifier": "all columns with room (w+e <= 9I, I units plus the units of s digits at most eight), all lists of stored rows, both builds", "why_tests_cant": "ranges over every table content; the largest table is the boundary case", "anchors": ["src/arith.rs:add_to", "src/arith.rs:Add", "src/round.rs:round_to", "src/cmp.rs:cmp"]}
{"id": "C129", "title": "Products of columns", "statement": "The product of a value of a column with w1 digits before and s1 after the point and a value of a column with w2 and s2, if it is computed and nothing is cut off (C27 and C56 say exactly when), is stored unchanged in a column with w1+w2 digits before and s1+s2 after the point.", "quantifier": "all pairs of stored values of all columns, both builds", "why_tests_cant": "relates the size and scale of a product to those of its factors for every pair of rows, the largest and the zero rows included", "anchors": ["src/arith.rs:mul_to", "src/arith.rs:Mul", "src/round.rs:round_to", "src/cmp.rs:cmp"]}
{"id": "C130", "title": "Changing the type of a column", "statement": "Widening a column (no fewer digits before the point, no fewer after it) succeeds for every stored value for which there is room for the digits after the point (integral units plus the units of those digits at most nine) and changes no number; storing the widened value back in the old column cannot fail and prints the old text, byte for byte. Narrowing step by step is off the original by at most half a unit of each of the two last digits, off the number narrowed at once by at most one unit of the last digit, and gives the same number and text unless the value in between is a tie. Narrowing twice is not always narrowing once: .445 becomes .5 by way of two digits and .4 at once.", "quantifier": "all stored values of all columns, both builds", "why_tests_cant": "a migration touches every row; one value without room or printed differently is enough to break it", "anchors": ["src/round.rs:round_to", "src/cmp.rs:cmp", "src/serde.rs:to_string"]}
