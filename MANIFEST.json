{
 "claims": [
  {
   "property": "C01",
   "status": "proved",
   "theorems": [
    "Fxd.Props.C01_parse_exact",
    "Fxd.Props.C01_from_str_exact",
    "Fxd.Props.C01_denote_unique"
   ],
   "note": "In debug builds for every length, in release builds for up to 127 digits; C03 covers the rest."
  },
  {
   "property": "C02",
   "status": "proved",
   "theorems": [
    "Fxd.Props.C02_accept_iff",
    "Fxd.Props.C02_rejected",
    "Fxd.Props.C02_shape"
   ],
   "note": "Same range as C01."
  },
  {
   "property": "C03",
   "status": "partial",
   "theorems": [
    "Fxd.Props.C03_no_misread_partial",
    "Fxd.Props.C03_debug_no_misread_partial",
    "Fxd.Props.C03_misread_128",
    "Fxd.Props.C03_misread_257",
    "Fxd.Props.C03_debug_panics"
   ],
   "note": "False of the code beyond 127 digits: release builds misread, debug builds panic. Proved up to 127 digits (release) and, without the panic-freedom, for every length (debug). C73 gives the exact outcome on every byte string."
  },
  {
   "property": "C04",
   "status": "proved",
   "theorems": [
    "Fxd.Props.C04_reset"
   ],
   "note": ""
  },
  {
   "property": "C05",
   "status": "proved",
   "theorems": [
    "Fxd.Props.C05_untouched"
   ],
   "note": ""
  },
  {
   "property": "C06",
   "status": "proved",
   "theorems": [
    "Fxd.Props.C06_entry_points"
   ],
   "note": ""
  },
  {
   "property": "C07",
   "status": "proved",
   "theorems": [
    "Fxd.Props.C07_same_number"
   ],
   "note": ""
  },
  {
   "property": "C08",
   "status": "proved",
   "theorems": [
    "Fxd.Props.C08_plus",
    "Fxd.Props.C08_minus",
    "Fxd.Props.C08_sign_flag"
   ],
   "note": ""
  },
  {
   "property": "C09",
   "status": "proved",
   "theorems": [
    "Fxd.Props.C09_parsed_always",
    "Fxd.Props.C09_from_str_always",
    "Fxd.Props.C09_parsed_tight",
    "Fxd.Props.C09_from_str_tight",
    "Fxd.Props.C09_needs_reset"
   ],
   "note": ""
  },
  {
   "property": "C10",
   "status": "proved",
   "theorems": [
    "Fxd.Props.C10_exact",
    "Fxd.Props.C10_all_wf"
   ],
   "note": ""
  },
  {
   "property": "C100",
   "status": "proved",
   "theorems": [
    "Fxd.Props.C100_compound",
    "Fxd.Props.C100_decay"
   ],
   "note": "C99 shows why the number of periods is limited."
  },
  {
   "property": "C101",
   "status": "proved",
   "theorems": [
    "Fxd.Props.C101_stop_iff",
    "Fxd.Props.C101_action",
    "Fxd.Props.C101_program",
    "Fxd.Props.C101_release",
    "Fxd.Props.C101_witness"
   ],
   "note": "Arguments are in the range of their Rust types (Action.InRange)."
  },
  {
   "property": "C102",
   "status": "proved",
   "theorems": [
    "Fxd.Props.C102_unique",
    "Fxd.Props.C102_divides",
    "Fxd.Props.C102_fraction",
    "Fxd.Props.C102_nested",
    "Fxd.Props.C102_sum",
    "Fxd.Props.C102_congruent"
   ],
   "note": "Divisors of more units are covered by C37 only when no guess is too large."
  },
  {
   "property": "C103",
   "status": "proved",
   "theorems": [
    "Fxd.Props.C103_euclid",
    "Fxd.Props.C103_only",
    "Fxd.Props.C103_integers"
   ],
   "note": ""
  },
  {
   "property": "C104",
   "status": "proved",
   "theorems": [
    "Fxd.Props.C104_int_div",
    "Fxd.Props.C104_int_rem",
    "Fxd.Props.C104_digits",
    "Fxd.Props.C104_only"
   ],
   "note": ""
  },
  {
   "property": "C105",
   "status": "proved",
   "theorems": [
    "Fxd.Props.C105_sqrt",
    "Fxd.Props.C105_only",
    "Fxd.Props.C105_zero"
   ],
   "note": ""
  },
  {
   "property": "C106",
   "status": "proved",
   "theorems": [
    "Fxd.Props.C106_compact",
    "Fxd.Props.C106_product",
    "Fxd.Props.C106_factorial",
    "Fxd.Props.C106_mulMod",
    "Fxd.Props.C106_pow",
    "Fxd.Props.C106_growth",
    "Fxd.Props.C106_uncompacted"
   ],
   "note": ""
  },
  {
   "property": "C107",
   "status": "proved",
   "theorems": [
    "Fxd.Props.C107_horner",
    "Fxd.Props.C107_digits",
    "Fxd.Props.C107_plain_exact",
    "Fxd.Props.C107_uncompacted"
   ],
   "note": ""
  },
  {
   "property": "C108",
   "status": "proved",
   "theorems": [
    "Fxd.Props.C108_residue",
    "Fxd.Props.C108_text"
   ],
   "note": ""
  },
  {
   "property": "C109",
   "status": "proved",
   "theorems": [
    "Fxd.Props.C109_debug_iff",
    "Fxd.Props.C109_pretty_iff",
    "Fxd.Props.C109_intg_shown",
    "Fxd.Props.C109_error_iff"
   ],
   "note": "Both forms, {:?} and {:#?}; width, precision and the other formatting flags are not modelled."
  },
  {
   "property": "C11",
   "status": "proved",
   "theorems": [
    "Fxd.Props.C11_truncates"
   ],
   "note": ""
  },
  {
   "property": "C110",
   "status": "proved",
   "theorems": [
    "Fxd.Props.C110_schedule",
    "Fxd.Props.C110_conserved",
    "Fxd.Props.C110_witness_order"
   ],
   "note": ""
  },
  {
   "property": "C111",
   "status": "proved",
   "theorems": [
    "Fxd.Props.C111_search",
    "Fxd.Props.C111_found_iff",
    "Fxd.Props.C111_set"
   ],
   "note": "slice::binary_search is Rust's library code; the loop is written down here as in recent versions of the library, not taken from /repo."
  },
  {
   "property": "C112",
   "status": "proved",
   "theorems": [
    "Fxd.Props.C112_tax",
    "Fxd.Props.C112_monotone",
    "Fxd.Props.C112_parts"
   ],
   "note": "C112_parts is the accounting identity on the numbers; C112_tax ties the program to them."
  },
  {
   "property": "C113",
   "status": "proved",
   "theorems": [
    "Fxd.Props.C113_only",
    "Fxd.Props.C113_bezout",
    "Fxd.Props.C113_inverse"
   ],
   "note": "Stated for the relation ExtEuclid, the loop's trace; C113_only shows that it is functional."
  },
  {
   "property": "C114",
   "status": "proved",
   "theorems": [
    "Fxd.Props.C114_shares",
    "Fxd.Props.C114_fair",
    "Fxd.Props.C114_interpolate",
    "Fxd.Props.C114_interpolate_mono"
   ],
   "note": "C114_shares gives every share as a number; C114_fair is the English statement."
  },
  {
   "property": "C115",
   "status": "proved",
   "theorems": [
    "Fxd.Props.C115_dot",
    "Fxd.Props.C115_variance",
    "Fxd.Props.C115_witness"
   ],
   "note": "C115_witness: the debug build's assertion failure on 0.5, 0.3."
  },
  {
   "property": "C116",
   "status": "proved",
   "theorems": [
    "Fxd.Props.C116_debug_right",
    "Fxd.Props.C116_same_scale",
    "Fxd.Props.C116_large",
    "Fxd.Props.C116_truncates",
    "Fxd.Props.C116_round",
    "Fxd.Props.C116_witness_silent",
    "Fxd.Props.C116_witness_release"
   ],
   "note": "C116_witness_silent and C116_witness_release show that both conditions are needed."
  },
  {
   "property": "C117",
   "status": "proved",
   "theorems": [
    "Fxd.Props.C117_leading",
    "Fxd.Props.C117_factor",
    "Fxd.Props.C117_debug",
    "Fxd.Props.C117_witness"
   ],
   "note": "Validity of the result is part of the hypothesis in release builds (C36_code says when); in debug builds it is C77."
  },
  {
   "property": "C118",
   "status": "proved",
   "theorems": [
    "Fxd.Props.C118_bisect",
    "Fxd.Props.C118_sqrt",
    "Fxd.Props.C118_sqrt_real",
    "Fxd.Props.C118_sqrt18",
    "Fxd.Props.C118_witness_plain"
   ],
   "note": "The loop is a client of the API, not part of the crate."
  },
  {
   "property": "C119",
   "status": "proved",
   "theorems": [
    "Fxd.Props.C119_floor",
    "Fxd.Props.C119_ceil",
    "Fxd.Props.C119_trunc",
    "Fxd.Props.C119_away",
    "Fxd.Props.C119_half_down",
    "Fxd.Props.C119_half_even",
    "Fxd.Props.half_even_unique"
   ],
   "note": "The programs are clients of the API; the crate itself offers only half away from zero."
  },
  {
   "property": "C12",
   "status": "proved",
   "theorems": [
    "Fxd.Props.C12_canonical"
   ],
   "note": ""
  },
  {
   "property": "C120",
   "status": "proved",
   "theorems": [
    "Fxd.Props.C120_series",
    "Fxd.Props.C120_error",
    "Fxd.Props.C120_e"
   ],
   "note": "Client loop. exp is Mathlib's Real.exp."
  },
  {
   "property": "C121",
   "status": "proved",
   "theorems": [
    "Fxd.Props.C121_rem",
    "Fxd.Props.C121_rem_short",
    "Fxd.Props.C121_rem_checked",
    "Fxd.Props.C121_divides_iff",
    "Fxd.Props.C121_divisible",
    "Fxd.Props.C121_quo",
    "Fxd.Props.C121_quo_plain",
    "Fxd.Props.C121_quo_whole",
    "Fxd.Props.C121_witness"
   ],
   "note": "Bounds the wrong results of C36 and C37 in terms of the exact quotient alone."
  },
  {
   "property": "C122",
   "status": "proved",
   "theorems": [
    "Fxd.Props.C122_rare",
    "Fxd.Props.C122_chance"
   ],
   "note": "An upper bound on the set of exceptions of C37; C121_witness shows that the set is not empty."
  },
  {
   "property": "C123",
   "status": "proved",
   "theorems": [
    "Fxd.Props.C123_quo",
    "Fxd.Props.C123_self",
    "Fxd.Props.C123_rem",
    "Fxd.Props.C123_rem_debug",
    "Fxd.Props.C123_witness"
   ],
   "note": "C123_witness: with such a group results can be wrong."
  },
  {
   "property": "C124",
   "status": "proved",
   "theorems": [
    "Fxd.Props.C124_make",
    "Fxd.Props.C124_add",
    "Fxd.Props.C124_mul",
    "Fxd.Props.C124_cmp",
    "Fxd.Props.C124_sum",
    "Fxd.Props.C124_only",
    "Fxd.Props.C124_harmonic",
    "Fxd.Props.C124_thirds"
   ],
   "note": "Fractions are stated against Mathlib's ℚ: the entries are Rat.num and Rat.den of the exact result."
  },
  {
   "property": "C125",
   "status": "proved",
   "theorems": [
    "Fxd.Props.C125_written",
    "Fxd.Props.C125_read",
    "Fxd.Props.C125_identity",
    "Fxd.Props.C125_witness"
   ],
   "note": "The RFC 8259 grammar is Spec.JsonNumber, a definition of this project."
  },
  {
   "property": "C126",
   "status": "proved",
   "theorems": [
    "Fxd.Props.C126_window_exact",
    "Fxd.Props.C126_window_total",
    "Fxd.Props.C126_partials",
    "Fxd.Props.C126_range",
    "Fxd.Props.C126_range_total",
    "Fxd.Props.C126_witness"
   ],
   "note": "The loops are client programs written in the model; the operators they use are the crate's."
  },
  {
   "property": "C127",
   "status": "proved",
   "theorems": [
    "Fxd.Props.C127_store",
    "Fxd.Props.C127_answers_iff",
    "Fxd.Props.C127_total",
    "Fxd.Props.C127_again",
    "Fxd.Props.C127_monotone",
    "Fxd.Props.C127_exact",
    "Fxd.Props.C127_text",
    "Fxd.Props.C127_reload",
    "Fxd.Props.C127_witness"
   ],
   "note": "The storing function is a client program written in the model; the operations it uses are the crate's."
  },
  {
   "property": "C128",
   "status": "proved",
   "theorems": [
    "Fxd.Props.C128_total",
    "Fxd.Props.C128_witness"
   ],
   "note": "The summing loop is a client program written in the model."
  },
  {
   "property": "C129",
   "status": "proved",
   "theorems": [
    "Fxd.Props.C129_product",
    "Fxd.Props.C129_witness"
   ],
   "note": ""
  },
  {
   "property": "C13",
   "status": "proved",
   "theorems": [
    "Fxd.Props.C13_ascii"
   ],
   "note": "For every state of the struct, not only well-formed ones."
  },
  {
   "property": "C130",
   "status": "proved",
   "theorems": [
    "Fxd.Props.C130_widen",
    "Fxd.Props.C130_narrow",
    "Fxd.Props.C130_witness",
    "Fxd.Props.C130_narrow_witness"
   ],
   "note": ""
  },
  {
   "property": "C14",
   "status": "proved",
   "theorems": [
    "Fxd.Props.C14_appends"
   ],
   "note": "For every state of the struct, including those where formatting panics."
  },
  {
   "property": "C15",
   "status": "proved",
   "theorems": [
    "Fxd.Props.C15_roundtrip",
    "Fxd.Props.C15_bound_needed"
   ],
   "note": ""
  },
  {
   "property": "C16",
   "status": "proved",
   "theorems": [
    "Fxd.Props.C16_cmp_spec",
    "Fxd.Props.C16_cmp_numeric",
    "Fxd.Props.C16_cmp_zeros"
   ],
   "note": "The order is numeric except that -0 < +0 (witness C16_cmp_zeros)."
  },
  {
   "property": "C17",
   "status": "proved",
   "theorems": [
    "Fxd.Props.C17_cmp_refl",
    "Fxd.Props.C17_cmp_swap",
    "Fxd.Props.C17_cmp_total",
    "Fxd.Props.C17_cmp_trans",
    "Fxd.Props.C17_eq_equivalence",
    "Fxd.Props.C17_trichotomy"
   ],
   "note": ""
  },
  {
   "property": "C18",
   "status": "proved",
   "theorems": [
    "Fxd.Props.C18_eq_iff",
    "Fxd.Props.C18_eq_of_val_eq"
   ],
   "note": ""
  },
  {
   "property": "C19",
   "status": "partial",
   "theorems": [
    "Fxd.Props.C19_hash_eq_partial",
    "Fxd.Props.C19_hash_iff",
    "Fxd.Props.C19_hash_false"
   ],
   "note": "False of the code in general: 1 and 1.0 are equal but hash differently (C19_hash_false). Proved for equal decimals with the same number of integral and fractional units; C19_hash_iff says exactly when two decimals feed the hasher the same words."
  },
  {
   "property": "C20",
   "status": "proved",
   "theorems": [
    "Fxd.Props.C20_add_exact",
    "Fxd.Props.C22_add_ok_iff"
   ],
   "note": ""
  },
  {
   "property": "C21",
   "status": "proved",
   "theorems": [
    "Fxd.Props.C21_sub_exact",
    "Fxd.Props.C22_sub_ok_iff"
   ],
   "note": ""
  },
  {
   "property": "C22",
   "status": "proved",
   "theorems": [
    "Fxd.Props.C22_add_ok_iff",
    "Fxd.Props.C22_sub_ok_iff",
    "Fxd.Props.C22_never_err",
    "Fxd.Props.C22_add_fail",
    "Fxd.Props.C22_sub_fail",
    "Fxd.Props.C22_carry_panic"
   ],
   "note": ""
  },
  {
   "property": "C23",
   "status": "proved",
   "theorems": [
    "Fxd.Props.C23_scale"
   ],
   "note": ""
  },
  {
   "property": "C24",
   "status": "proved",
   "theorems": [
    "Fxd.Props.C24_add_comm"
   ],
   "note": ""
  },
  {
   "property": "C25",
   "status": "proved",
   "theorems": [
    "Fxd.Props.C25_add_sub",
    "Fxd.Props.C25_sub_self",
    "Fxd.Props.C25_sub_eq_add_opp"
   ],
   "note": ""
  },
  {
   "property": "C26",
   "status": "proved",
   "theorems": [
    "Fxd.Props.C26_add_assoc"
   ],
   "note": ""
  },
  {
   "property": "C27",
   "status": "proved",
   "theorems": [
    "Fxd.Props.C27_mul_exact",
    "Fxd.Props.C56_mul_ok_iff"
   ],
   "note": ""
  },
  {
   "property": "C28",
   "status": "proved",
   "theorems": [
    "Fxd.Props.C28_mul_trunc",
    "Fxd.Props.C28_code",
    "Fxd.Props.C28_value",
    "Fxd.Props.C28_error",
    "Fxd.Props.C28_witness_rows"
   ],
   "note": "The exact integer computed is codeMul (each schoolbook row cut off on its own), for all well-formed operands."
  },
  {
   "property": "C29",
   "status": "proved",
   "theorems": [
    "Fxd.Props.C29_overflow",
    "Fxd.Props.C29_err_iff",
    "Fxd.Props.C29_wf_err_iff",
    "Fxd.Props.C29_left",
    "Fxd.Props.C29_witness_left"
   ],
   "note": "C29_wf_err_iff and C29_left hold for every well-formed pair; C29_err_iff is the sharper form for truthful digit counts."
  },
  {
   "property": "C30",
   "status": "proved",
   "theorems": [
    "Fxd.Props.C30_mul_sign",
    "Fxd.Props.C30_mul_sign_wf",
    "Fxd.Props.C30_div_sign",
    "Fxd.Props.C30_div_sign_val"
   ],
   "note": ""
  },
  {
   "property": "C31",
   "status": "proved",
   "theorems": [
    "Fxd.Props.C31_mul_comm",
    "Fxd.Props.C31_order_matters"
   ],
   "note": "Bit for bit, when both orders succeed; in debug builds one order can panic (C31_order_matters)."
  },
  {
   "property": "C32",
   "status": "proved",
   "theorems": [
    "Fxd.Props.C32_mul_one"
   ],
   "note": ""
  },
  {
   "property": "C33",
   "status": "proved",
   "theorems": [
    "Fxd.Props.C33_div_zero",
    "Fxd.Props.C33_div_zero_only",
    "Fxd.Props.C33_rem_zero",
    "Fxd.Props.C33_rem_zero_only"
   ],
   "note": ""
  },
  {
   "property": "C34",
   "status": "proved",
   "theorems": [
    "Fxd.Props.C34_zero_div",
    "Fxd.Props.C34_zero_rem"
   ],
   "note": ""
  },
  {
   "property": "C35",
   "status": "proved",
   "theorems": [
    "Fxd.Props.C35_short_div",
    "Fxd.Props.C35_short_div_ok"
   ],
   "note": ""
  },
  {
   "property": "C36",
   "status": "partial",
   "theorems": [
    "Fxd.Props.C36_exact_partial",
    "Fxd.Props.C36_code",
    "Fxd.Props.C36_guess_iff",
    "Fxd.Props.C36_two_units_partial",
    "Fxd.Props.C36_witness_addback",
    "Fxd.Props.C36_witness_last_unit",
    "Fxd.Props.C116_debug_right",
    "Fxd.Props.C116_witness_silent",
    "Fxd.Props.C121_quo_plain"
   ],
   "note": "False of the code: the add-back correction is wrong (C36_witness_addback) and dropped remainder units can cost one unit in the last place (C36_witness_last_unit). Proved: the exact value of every quotient returned, right or wrong, and when it is well-formed (C36_code, the integer recursion codeQuo of Spec/LongDivision); truncation whenever no guess before the last is too large and the divisor's fractional units fit, the sharp error bound otherwise (C36_exact_partial); in operands, when a guess is too large (C36_guess_iff); never for divisors of at most two significant units; debug builds return only truncated quotients unless the divisor has many fractional units (C116_debug_right, C116_witness_silent); in terms of the exact quotient, where wrong ones can lie (C121_quo_plain)."
  },
  {
   "property": "C37",
   "status": "partial",
   "theorems": [
    "Fxd.Props.C37_bounded",
    "Fxd.Props.C37_code",
    "Fxd.Props.C37_exact_partial",
    "Fxd.Props.C37_guess_iff",
    "Fxd.Props.C37_two_units_partial",
    "Fxd.Props.C37_witness_addback",
    "Fxd.Props.C121_rem",
    "Fxd.Props.C121_rem_short",
    "Fxd.Props.C122_rare"
   ],
   "note": "False of the code: the add-back correction negates the window (C37_witness_addback). Proved for every successful call: well-formed, below |b|, sign, scale, and the exact value returned (C37_code, the integer recursion codeRem of Spec/LongDivision). It is the truncated remainder whenever no guess is too large (C37_exact_partial; C37_guess_iff says in operands when that is), in particular for all divisors of at most two significant units."
  },
  {
   "property": "C38",
   "status": "proved",
   "theorems": [
    "Fxd.Props.C38_smaller",
    "Fxd.Props.C38_room",
    "Fxd.Props.C38_equal",
    "Fxd.Props.C38_witness_no_room"
   ],
   "note": ""
  },
  {
   "property": "C39",
   "status": "proved",
   "theorems": [
    "Fxd.Props.C39_round_to",
    "Fxd.Props.C39_ok_iff",
    "Fxd.Props.C39_nearest"
   ],
   "note": ""
  },
  {
   "property": "C40",
   "status": "proved",
   "theorems": [
    "Fxd.Props.C40_extend",
    "Fxd.Props.C40_panic"
   ],
   "note": ""
  },
  {
   "property": "C41",
   "status": "partial",
   "theorems": [
    "Fxd.Props.C41_round_eq_partial",
    "Fxd.Props.C41_extend_iff",
    "Fxd.Props.C41_code",
    "Fxd.Props.C55_ok_iff",
    "Fxd.Props.C41_false"
   ],
   "note": "False of the code when the scale grows by a whole unit (C41_false). Proved for k < frac() and characterised exactly for k >= frac()."
  },
  {
   "property": "C42",
   "status": "partial",
   "theorems": [
    "Fxd.Props.C42_round_neg_partial",
    "Fxd.Props.C42_ok_iff",
    "Fxd.Props.C42_edge_truncates",
    "Fxd.Props.C42_large_zero",
    "Fxd.Props.C42_witnesses"
   ],
   "note": "False of the code when 9 divides j or j >= intg(); what it does there is proved."
  },
  {
   "property": "C43",
   "status": "proved",
   "theorems": [
    "Fxd.Props.C43_idempotent",
    "Fxd.Props.C43_monotone"
   ],
   "note": "For precisions up to 127; see C55."
  },
  {
   "property": "C44",
   "status": "proved",
   "theorems": [
    "Fxd.Props.C44_half_ulp"
   ],
   "note": ""
  },
  {
   "property": "C45",
   "status": "proved",
   "theorems": [
    "Fxd.Props.C45_from_u64",
    "Fxd.Props.C45_from_i64"
   ],
   "note": ""
  },
  {
   "property": "C46",
   "status": "proved",
   "theorems": [
    "Fxd.Props.C46_as_i64"
   ],
   "note": ""
  },
  {
   "property": "C47",
   "status": "proved",
   "theorems": [
    "Fxd.Props.C47_as_u64"
   ],
   "note": ""
  },
  {
   "property": "C48",
   "status": "proved",
   "theorems": [
    "Fxd.Props.C48_i64_roundtrip",
    "Fxd.Props.C48_u64_roundtrip"
   ],
   "note": ""
  },
  {
   "property": "C49",
   "status": "proved",
   "theorems": [
    "Fxd.Props.C49_add_sub",
    "Fxd.Props.C49_mul_div_rem"
   ],
   "note": ""
  },
  {
   "property": "C50",
   "status": "proved",
   "theorems": [
    "Fxd.Props.C50_tight",
    "Fxd.Props.C50_wf",
    "Fxd.Props.C50_sound_exact",
    "Fxd.Props.C50_witness_div"
   ],
   "note": "C50_sound_exact: each step restriction of C50_wf holds exactly when the step keeps its result well-formed. The restrictions (no division for tightness; no overflowing quotient unit) are forced by the code: C50_witness_div; the second is exact (C36_code)."
  },
  {
   "property": "C51",
   "status": "proved",
   "theorems": [
    "Fxd.Props.C51_add",
    "Fxd.Props.C51_sub",
    "Fxd.Props.C51_mul",
    "Fxd.Props.C51_div",
    "Fxd.Props.C51_rem",
    "Fxd.Props.C51_round"
   ],
   "note": ""
  },
  {
   "property": "C52",
   "status": "proved",
   "theorems": [
    "Fxd.Props.C52_operators",
    "Fxd.Props.C52_div_zero"
   ],
   "note": ""
  },
  {
   "property": "C53",
   "status": "partial",
   "theorems": [
    "Fxd.Props.C53_witness",
    "Fxd.Props.C53_mul_iff",
    "Fxd.Props.C53_quotient_mul_iff",
    "Fxd.Props.C53_quotient_mul_partial",
    "Fxd.Props.C53_round_first"
   ],
   "note": "False of the code (C53_witness). Proved: the exact condition under which a product with a quotient is well-formed and correct (C53_mul_iff, C53_quotient_mul_iff)."
  },
  {
   "property": "C54",
   "status": "proved",
   "theorems": [
    "Fxd.Props.C54_constants",
    "Fxd.Props.C54_set_const",
    "Fxd.Props.C54_set_sign",
    "Fxd.Props.C54_predicates"
   ],
   "note": ""
  },
  {
   "property": "C55",
   "status": "partial",
   "theorems": [
    "Fxd.Props.C55_scale_partial",
    "Fxd.Props.C55_code",
    "Fxd.Props.C55_ok_iff",
    "Fxd.Props.C55_precision_wraps"
   ],
   "note": "False of the code for k >= 128; proved for k <= 127. For every k at all, C55_code gives the exact outcome and C55_ok_iff the exact success condition."
  },
  {
   "property": "C56",
   "status": "proved",
   "theorems": [
    "Fxd.Props.C56_mul_ok_iff",
    "Fxd.Props.C56_wf_ok_iff",
    "Fxd.Props.C56_debug_panic"
   ],
   "note": ""
  },
  {
   "property": "C57",
   "status": "proved",
   "theorems": [
    "Fxd.Props.C57_scale",
    "Fxd.Props.C57_scale_small",
    "Fxd.Props.C57_witness_wrap"
   ],
   "note": ""
  },
  {
   "property": "C58",
   "status": "proved",
   "theorems": [
    "Fxd.Props.C58_release_ok_iff",
    "Fxd.Props.C58_debug_ok_iff",
    "Fxd.Props.C58_overflow_iff",
    "Fxd.Props.C58_debug_panic"
   ],
   "note": ""
  },
  {
   "property": "C59",
   "status": "proved",
   "theorems": [
    "Fxd.Props.agrees_iff",
    "Fxd.Props.agrees_overflow_iff",
    "Fxd.Props.C59_arith",
    "Fxd.Props.C59_rest"
   ],
   "note": ""
  },
  {
   "property": "C60",
   "status": "proved",
   "theorems": [
    "Fxd.Props.C60_release_ok_iff",
    "Fxd.Props.C60_debug_ok_iff",
    "Fxd.Props.C60_short_ok"
   ],
   "note": ""
  },
  {
   "property": "C61",
   "status": "proved",
   "theorems": [
    "Fxd.Props.C61_mul_mono",
    "Fxd.Props.C61_add_mono"
   ],
   "note": "For factors with the same digit counts."
  },
  {
   "property": "C62",
   "status": "proved",
   "theorems": [
    "Fxd.Props.C62_add",
    "Fxd.Props.C62_sub",
    "Fxd.Props.C62_mul",
    "Fxd.Props.C62_cmp"
   ],
   "note": ""
  },
  {
   "property": "C63",
   "status": "partial",
   "theorems": [
    "Fxd.Props.C63_rem_partial",
    "Fxd.Props.C63_rem_large",
    "Fxd.Props.C63_rem_right_iff",
    "Fxd.Props.C63_rem_witness",
    "Fxd.Props.C63_div_partial",
    "Fxd.Props.C63_div_large_partial",
    "Fxd.Props.C63_div_witness",
    "Fxd.Props.C63_rem_debug_iff",
    "Fxd.Props.C63_div_debug_iff",
    "Fxd.Props.C63_div_large_right_iff",
    "Fxd.Props.C63_div_large_debug_iff",
    "Fxd.Props.C63_div_sound",
    "Fxd.Props.C63_exact_witness"
   ],
   "note": "False of the code: 9000000000000000000 % 1000000000000000001 gives 9; 10^18 % (10^9+1) and 10^9 / (10^9+1) panic in debug builds; 9*10^18 / (10^18+1) is ill-formed in release builds. Proved for |b| < 10^18: every successful call is right in both builds, and calls succeed in release builds, and in debug builds for |b| < 10^9. For |b| >= 10^18 the remainder is always computed and its value is known exactly: right unless one explicit integer inequality (Missed) holds, and then it is below 400 and the right one within 400 of |b| (C63_rem_large, C63_rem_right_iff); quotients are right unless Missed. Exact for every pair (IntsExact): a debug build computes a remainder or quotient by a divisor of 10 to 18 digits exactly unless an explicit integer inequality (Stopped) holds, a quotient by 19 or 20 digits exactly unless Missed or StoppedBig; a returned quotient is right exactly if it is well-formed, exactly unless Spilled, and a debug build returns no wrong one (C63_div_sound)."
  },
  {
   "property": "C64",
   "status": "proved",
   "theorems": [
    "Fxd.Props.C64_mul",
    "Fxd.Props.C64_div",
    "Fxd.Props.C64_rem",
    "Fxd.Props.C64_add",
    "Fxd.Props.C64_sub",
    "Fxd.Props.C64_value"
   ],
   "note": ""
  },
  {
   "property": "C65",
   "status": "proved",
   "theorems": [
    "Fxd.Props.C65_add_trimmed",
    "Fxd.Props.C65_sub_trimmed",
    "Fxd.Props.C65_add_comm_exact",
    "Fxd.Props.C65_sub_anti"
   ],
   "note": ""
  },
  {
   "property": "C66",
   "status": "proved",
   "theorems": [
    "Fxd.Props.C66_balance_exact",
    "Fxd.Props.C66_balance_total",
    "Fxd.Props.C66_balance_perm"
   ],
   "note": ""
  },
  {
   "property": "C67",
   "status": "proved",
   "theorems": [
    "Fxd.Props.C67_distrib",
    "Fxd.Props.C67_mul_assoc"
   ],
   "note": ""
  },
  {
   "property": "C68",
   "status": "proved",
   "theorems": [
    "Fxd.Props.C68_mul_div",
    "Fxd.Props.C68_mul_div_long",
    "Fxd.Props.C68_div_one",
    "Fxd.Props.C68_div_self",
    "Fxd.Props.C68_rem_idem"
   ],
   "note": ""
  },
  {
   "property": "C69",
   "status": "proved",
   "theorems": [
    "Fxd.Props.C69_text_iff",
    "Fxd.Props.C69_equal_same_text",
    "Fxd.Props.C69_prefix",
    "Fxd.Props.C69_round_then_print"
   ],
   "note": ""
  },
  {
   "property": "C70",
   "status": "proved",
   "theorems": [
    "Fxd.Props.C70_i64_mono",
    "Fxd.Props.C70_i64_between",
    "Fxd.Props.C70_u64_mono",
    "Fxd.Props.C70_agree",
    "Fxd.Props.C70_i64_round_trip",
    "Fxd.Props.C70_u64_ops"
   ],
   "note": ""
  },
  {
   "property": "C71",
   "status": "proved",
   "theorems": [
    "Fxd.Props.C71_parse",
    "Fxd.Props.C71_from_u64",
    "Fxd.Props.C71_from_i64",
    "Fxd.Props.C71_div",
    "Fxd.Props.C71_rem",
    "Fxd.Props.C71_rest",
    "Fxd.Props.C71_operators",
    "Fxd.Props.C71_release"
   ],
   "note": ""
  },
  {
   "property": "C72",
   "status": "proved",
   "theorems": [
    "Fxd.Props.C72_add",
    "Fxd.Props.C72_sub",
    "Fxd.Props.C72_mul",
    "Fxd.Props.C72_div",
    "Fxd.Props.C72_rem",
    "Fxd.Props.C72_round",
    "Fxd.Props.C72_round_to",
    "Fxd.Props.C72_from_u64",
    "Fxd.Props.C72_from_i64"
   ],
   "note": ""
  },
  {
   "property": "C73",
   "status": "proved",
   "theorems": [
    "Fxd.Props.C73_parse",
    "Fxd.Props.C73_from_str"
   ],
   "note": ""
  },
  {
   "property": "C74",
   "status": "proved",
   "theorems": [
    "Fxd.Props.C74_div",
    "Fxd.Props.C74_round",
    "Fxd.Props.C74_round_to"
   ],
   "note": ""
  },
  {
   "property": "C75",
   "status": "proved",
   "theorems": [
    "Fxd.Props.C75_program",
    "Fxd.Props.C75_determined",
    "Fxd.Props.C75_layout",
    "Fxd.Props.C75_observe"
   ],
   "note": "Stated for programs whose steps avoid the inexact cases (Call.Exact); those are the ones C03, C19, C36, C37, C41, C42, C53, C55 describe."
  },
  {
   "property": "C76",
   "status": "proved",
   "theorems": [
    "Fxd.Props.C76_step",
    "Fxd.Props.C76_trace",
    "Fxd.Props.C76_plain",
    "Fxd.Props.C76_plain_wf"
   ],
   "note": "C76_plain and C76_plain_wf have only syntactic conditions on the session; C76_trace allows every action as long as the reference run keeps registers well-formed."
  },
  {
   "property": "C77",
   "status": "proved",
   "theorems": [
    "Fxd.Props.C77_debug_div",
    "Fxd.Props.C77_debug_session",
    "Fxd.Props.C77_debug_halts",
    "Fxd.Props.C77_release_witness"
   ],
   "note": "Debug sessions without multiplication, parsing into a dirty output and precisions beyond 127; the release half is a counterexample."
  },
  {
   "property": "C78",
   "status": "proved",
   "theorems": [
    "Fxd.Props.C78_cleared",
    "Fxd.Props.C78_look",
    "Fxd.Props.C78_div_rem",
    "Fxd.Props.C78_parse",
    "Fxd.Props.C78_step",
    "Fxd.Props.C78_trace",
    "Fxd.Props.C78_usable",
    "Fxd.Props.C78_session",
    "Fxd.Props.C78_sum",
    "Fxd.Props.C78_difference",
    "Fxd.Props.C78_exceptions"
   ],
   "note": "Sessions exclude exactly the actions of Action.Blind and precisions beyond 127; C78_exceptions shows each exception on concrete numbers."
  },
  {
   "property": "C79",
   "status": "proved",
   "theorems": [
    "Fxd.Props.C79_relations",
    "Fxd.Props.C79_clamp_all",
    "Fxd.Props.C79_clamp_panics_iff",
    "Fxd.Props.C79_le_ge",
    "Fxd.Props.C79_max",
    "Fxd.Props.C79_min",
    "Fxd.Props.C79_clamp",
    "Fxd.Props.C79_clamp_panics",
    "Fxd.Props.C79_maxOf",
    "Fxd.Props.C79_minOf",
    "Fxd.Props.C79_sorted",
    "Fxd.Props.C79_sort"
   ],
   "note": "The provided methods of Ord are Rust's library defaults, modelled in Model/OrdProvided.lean."
  },
  {
   "property": "C80",
   "status": "proved",
   "theorems": [
    "Fxd.Props.C80_rounded_sum",
    "Fxd.Props.C80_sum_of_rounded",
    "Fxd.Props.C80_no_loss"
   ],
   "note": ""
  },
  {
   "property": "C81",
   "status": "proved",
   "theorems": [
    "Fxd.Props.C81_div_rem",
    "Fxd.Props.C81_div_rem_long",
    "Fxd.Props.C81_div_rem_two"
   ],
   "note": "Longer divisors carry the conditions of C36/C37, where the claim is false of the code without them."
  },
  {
   "property": "C82",
   "status": "proved",
   "theorems": [
    "Fxd.Props.C82_average",
    "Fxd.Props.C82_average_same"
   ],
   "note": ""
  },
  {
   "property": "C83",
   "status": "proved",
   "theorems": [
    "Fxd.Props.C83_charge",
    "Fxd.Props.C83_charge_mono",
    "Fxd.Props.C83_charge_neg"
   ],
   "note": "Products that are cut off are C28."
  },
  {
   "property": "C84",
   "status": "proved",
   "theorems": [
    "Fxd.Props.C84_equal_same_key",
    "Fxd.Props.C84_key",
    "Fxd.Props.C84_key_exact",
    "Fxd.Props.C84_key_iff",
    "Fxd.Props.C84_hash"
   ],
   "note": ""
  },
  {
   "property": "C85",
   "status": "proved",
   "theorems": [
    "Fxd.Props.C85_write",
    "Fxd.Props.C85_roundtrip"
   ],
   "note": "The 65-digit condition is that of C15."
  },
  {
   "property": "C86",
   "status": "proved",
   "theorems": [
    "Fxd.Props.C86_parse",
    "Fxd.Props.C86_from_str",
    "Fxd.Props.C86_add_sub_mul",
    "Fxd.Props.C86_div",
    "Fxd.Props.C86_rem",
    "Fxd.Props.C86_as_int",
    "Fxd.Props.C86_display_inj",
    "Fxd.Props.C86_panic_texts",
    "Fxd.Props.C86_sums_raw"
   ],
   "note": ""
  },
  {
   "property": "C87",
   "status": "proved",
   "theorems": [
    "Fxd.Props.C87_length",
    "Fxd.Props.C87_bound",
    "Fxd.Props.C87_sorts"
   ],
   "note": ""
  },
  {
   "property": "C88",
   "status": "proved",
   "theorems": [
    "Fxd.Props.C88_difference"
   ],
   "note": ""
  },
  {
   "property": "C89",
   "status": "proved",
   "theorems": [
    "Fxd.Props.C89_repeated"
   ],
   "note": ""
  },
  {
   "property": "C90",
   "status": "proved",
   "theorems": [
    "Fxd.Props.C90_split"
   ],
   "note": ""
  },
  {
   "property": "C91",
   "status": "proved",
   "theorems": [
    "Fxd.Props.C91_step",
    "Fxd.Props.C91_stored",
    "Fxd.Props.C91_texts"
   ],
   "note": "Starts from registers that hold values of the struct (every decimal obtained from the API does). The example is a session whose registers end with a negative unit and a negative digit count."
  },
  {
   "property": "C92",
   "status": "proved",
   "theorems": [
    "Fxd.Props.C92_div",
    "Fxd.Props.C92_rem"
   ],
   "note": "An example shows that two tests of the condition are not enough in a debug build."
  },
  {
   "property": "C93",
   "status": "proved",
   "theorems": [
    "Fxd.Props.C93_add",
    "Fxd.Props.C93_sub",
    "Fxd.Props.C93_mul",
    "Fxd.Props.C93_div",
    "Fxd.Props.C93_div_full",
    "Fxd.Props.C93_rem",
    "Fxd.Props.C93_round",
    "Fxd.Props.C93_round_to",
    "Fxd.Props.C93_index"
   ],
   "note": "C93_index: the one index computed with unsigned numbers in another order than in the model, buf1[i as usize + 1], never overflows, whatever the fields hold. Also yields C22_add_fail/C22_sub_fail: a failing addition or subtraction ends in an index panic and nothing else."
  },
  {
   "property": "C94",
   "status": "proved",
   "theorems": [
    "Fxd.Props.C94_add",
    "Fxd.Props.C94_sub",
    "Fxd.Props.C94_mul",
    "Fxd.Props.C94_div",
    "Fxd.Props.C94_rem",
    "Fxd.Props.C94_round",
    "Fxd.Props.C94_round_to",
    "Fxd.Props.C94_parse",
    "Fxd.Props.C94_from_str",
    "Fxd.Props.C94_operators"
   ],
   "note": ""
  },
  {
   "property": "C95",
   "status": "proved",
   "theorems": [
    "Fxd.Props.C95_guess",
    "Fxd.Props.C95_div",
    "Fxd.Props.C95_rem",
    "Fxd.Props.C95_operators",
    "Fxd.Props.C95_session"
   ],
   "note": ""
  },
  {
   "property": "C96",
   "status": "proved",
   "theorems": [
    "Fxd.Props.C96_round_quotient",
    "Fxd.Props.C96_exact_iff",
    "Fxd.Props.C96_exact_two_five",
    "Fxd.Props.C96_witness_scale"
   ],
   "note": "Long divisors carry the conditions of C36 (Truncates); the witness shows k < frac() is needed."
  },
  {
   "property": "C97",
   "status": "proved",
   "theorems": [
    "Fxd.Props.C97_div_mono",
    "Fxd.Props.C97_div_mono_finer",
    "Fxd.Props.C97_div_anti",
    "Fxd.Props.C97_same_digits",
    "Fxd.Props.C97_witness_digits"
   ],
   "note": "Long divisors carry the conditions of C36."
  },
  {
   "property": "C98",
   "status": "proved",
   "theorems": [
    "Fxd.Props.C98_divide_multiply",
    "Fxd.Props.C98_there_and_back",
    "Fxd.Props.C98_convert_back"
   ],
   "note": "When the product is not cut off and the quotient carries more than j digits; long divisors carry the conditions of C36 (automatic for rates of at most two units)."
  },
  {
   "property": "C99",
   "status": "proved",
   "theorems": [
    "Fxd.Props.C99_chain",
    "Fxd.Props.C99_tenth_fails"
   ],
   "note": ""
  }
 ]
}
