# Axioms of each theorem in MANIFEST.json

Output of `#print axioms` (Lean 4.33.0). `full` stands for `propext`, `Classical.choice`, `Quot.sound`.

| Claim | Theorem | Axioms |
|---|---|---|
| C01 | `Fxd.Props.C01_parse_exact` | full |
| C01 | `Fxd.Props.C01_from_str_exact` | full |
| C01 | `Fxd.Props.C01_denote_unique` | full |
| C02 | `Fxd.Props.C02_accept_iff` | full |
| C02 | `Fxd.Props.C02_rejected` | full |
| C02 | `Fxd.Props.C02_shape` | full |
| C03 | `Fxd.Props.C03_no_misread_partial` | full |
| C03 | `Fxd.Props.C03_debug_no_misread_partial` | full |
| C03 | `Fxd.Props.C03_misread_128` | propext, Quot.sound |
| C03 | `Fxd.Props.C03_misread_257` | propext, Quot.sound |
| C03 | `Fxd.Props.C03_debug_panics` | full |
| C04 | `Fxd.Props.C04_reset` | full |
| C05 | `Fxd.Props.C05_untouched` | full |
| C06 | `Fxd.Props.C06_entry_points` | propext, Quot.sound |
| C07 | `Fxd.Props.C07_same_number` | full |
| C08 | `Fxd.Props.C08_plus` | full |
| C08 | `Fxd.Props.C08_minus` | full |
| C08 | `Fxd.Props.C08_sign_flag` | full |
| C09 | `Fxd.Props.C09_parsed_always` | full |
| C09 | `Fxd.Props.C09_from_str_always` | full |
| C09 | `Fxd.Props.C09_parsed_tight` | full |
| C09 | `Fxd.Props.C09_from_str_tight` | full |
| C09 | `Fxd.Props.C09_needs_reset` | full |
| C10 | `Fxd.Props.C10_exact` | full |
| C10 | `Fxd.Props.C10_all_wf` | full |
| C100 | `Fxd.Props.C100_compound` | full |
| C100 | `Fxd.Props.C100_decay` | full |
| C101 | `Fxd.Props.C101_stop_iff` | propext, Quot.sound |
| C101 | `Fxd.Props.C101_action` | full |
| C101 | `Fxd.Props.C101_program` | full |
| C101 | `Fxd.Props.C101_release` | full |
| C101 | `Fxd.Props.C101_witness` | full |
| C102 | `Fxd.Props.C102_unique` | full |
| C102 | `Fxd.Props.C102_divides` | full |
| C102 | `Fxd.Props.C102_fraction` | full |
| C102 | `Fxd.Props.C102_nested` | full |
| C102 | `Fxd.Props.C102_sum` | full |
| C102 | `Fxd.Props.C102_congruent` | full |
| C103 | `Fxd.Props.C103_euclid` | full |
| C103 | `Fxd.Props.C103_only` | propext, Quot.sound |
| C103 | `Fxd.Props.C103_integers` | full |
| C104 | `Fxd.Props.C104_int_div` | full |
| C104 | `Fxd.Props.C104_int_rem` | full |
| C104 | `Fxd.Props.C104_digits` | full |
| C104 | `Fxd.Props.C104_only` | propext, Quot.sound |
| C105 | `Fxd.Props.C105_sqrt` | full |
| C105 | `Fxd.Props.C105_only` | propext, Quot.sound |
| C105 | `Fxd.Props.C105_zero` | propext, Quot.sound |
| C106 | `Fxd.Props.C106_compact` | full |
| C106 | `Fxd.Props.C106_product` | full |
| C106 | `Fxd.Props.C106_factorial` | full |
| C106 | `Fxd.Props.C106_mulMod` | full |
| C106 | `Fxd.Props.C106_pow` | full |
| C106 | `Fxd.Props.C106_growth` | full |
| C106 | `Fxd.Props.C106_uncompacted` | propext, Quot.sound |
| C107 | `Fxd.Props.C107_horner` | full |
| C107 | `Fxd.Props.C107_digits` | full |
| C107 | `Fxd.Props.C107_plain_exact` | full |
| C107 | `Fxd.Props.C107_uncompacted` | propext, Quot.sound |
| C108 | `Fxd.Props.C108_residue` | full |
| C108 | `Fxd.Props.C108_text` | full |
| C109 | `Fxd.Props.C109_debug_iff` | full |
| C109 | `Fxd.Props.C109_pretty_iff` | full |
| C109 | `Fxd.Props.C109_intg_shown` | propext, Quot.sound |
| C109 | `Fxd.Props.C109_error_iff` | full |
| C11 | `Fxd.Props.C11_truncates` | full |
| C110 | `Fxd.Props.C110_schedule` | full |
| C110 | `Fxd.Props.C110_conserved` | full |
| C110 | `Fxd.Props.C110_witness_order` | full |
| C111 | `Fxd.Props.C111_search` | full |
| C111 | `Fxd.Props.C111_found_iff` | full |
| C111 | `Fxd.Props.C111_set` | full |
| C112 | `Fxd.Props.C112_tax` | full |
| C112 | `Fxd.Props.C112_monotone` | full |
| C112 | `Fxd.Props.C112_parts` | full |
| C113 | `Fxd.Props.C113_only` | propext, Quot.sound |
| C113 | `Fxd.Props.C113_bezout` | full |
| C113 | `Fxd.Props.C113_inverse` | full |
| C114 | `Fxd.Props.C114_shares` | full |
| C114 | `Fxd.Props.C114_fair` | full |
| C114 | `Fxd.Props.C114_interpolate` | full |
| C114 | `Fxd.Props.C114_interpolate_mono` | full |
| C115 | `Fxd.Props.C115_dot` | full |
| C115 | `Fxd.Props.C115_variance` | full |
| C115 | `Fxd.Props.C115_witness` | full |
| C116 | `Fxd.Props.C116_debug_right` | full |
| C116 | `Fxd.Props.C116_same_scale` | full |
| C116 | `Fxd.Props.C116_large` | full |
| C116 | `Fxd.Props.C116_truncates` | full |
| C116 | `Fxd.Props.C116_round` | full |
| C116 | `Fxd.Props.C116_witness_silent` | full |
| C116 | `Fxd.Props.C116_witness_release` | full |
| C117 | `Fxd.Props.C117_leading` | full |
| C117 | `Fxd.Props.C117_factor` | full |
| C117 | `Fxd.Props.C117_debug` | full |
| C117 | `Fxd.Props.C117_witness` | full |
| C118 | `Fxd.Props.C118_bisect` | full |
| C118 | `Fxd.Props.C118_sqrt` | full |
| C118 | `Fxd.Props.C118_sqrt_real` | full |
| C118 | `Fxd.Props.C118_sqrt18` | full |
| C118 | `Fxd.Props.C118_witness_plain` | full |
| C119 | `Fxd.Props.C119_floor` | full |
| C119 | `Fxd.Props.C119_ceil` | full |
| C119 | `Fxd.Props.C119_trunc` | full |
| C119 | `Fxd.Props.C119_away` | full |
| C119 | `Fxd.Props.C119_half_down` | full |
| C119 | `Fxd.Props.C119_half_even` | full |
| C119 | `Fxd.Props.half_even_unique` | full |
| C12 | `Fxd.Props.C12_canonical` | full |
| C120 | `Fxd.Props.C120_series` | full |
| C120 | `Fxd.Props.C120_error` | full |
| C120 | `Fxd.Props.C120_e` | full |
| C121 | `Fxd.Props.C121_rem` | full |
| C121 | `Fxd.Props.C121_rem_short` | full |
| C121 | `Fxd.Props.C121_rem_checked` | full |
| C121 | `Fxd.Props.C121_divides_iff` | full |
| C121 | `Fxd.Props.C121_divisible` | full |
| C121 | `Fxd.Props.C121_quo` | full |
| C121 | `Fxd.Props.C121_quo_plain` | full |
| C121 | `Fxd.Props.C121_quo_whole` | full |
| C121 | `Fxd.Props.C121_witness` | full |
| C122 | `Fxd.Props.C122_rare` | full |
| C122 | `Fxd.Props.C122_chance` | full |
| C123 | `Fxd.Props.C123_quo` | full |
| C123 | `Fxd.Props.C123_self` | full |
| C123 | `Fxd.Props.C123_rem` | full |
| C123 | `Fxd.Props.C123_rem_debug` | full |
| C123 | `Fxd.Props.C123_witness` | full |
| C124 | `Fxd.Props.C124_make` | full |
| C124 | `Fxd.Props.C124_add` | full |
| C124 | `Fxd.Props.C124_mul` | full |
| C124 | `Fxd.Props.C124_cmp` | full |
| C124 | `Fxd.Props.C124_sum` | full |
| C124 | `Fxd.Props.C124_only` | propext, Quot.sound |
| C124 | `Fxd.Props.C124_harmonic` | full |
| C124 | `Fxd.Props.C124_thirds` | full |
| C125 | `Fxd.Props.C125_written` | full |
| C125 | `Fxd.Props.C125_read` | full |
| C125 | `Fxd.Props.C125_identity` | full |
| C125 | `Fxd.Props.C125_witness` | full |
| C126 | `Fxd.Props.C126_window_exact` | full |
| C126 | `Fxd.Props.C126_window_total` | full |
| C126 | `Fxd.Props.C126_partials` | full |
| C126 | `Fxd.Props.C126_range` | full |
| C126 | `Fxd.Props.C126_range_total` | full |
| C126 | `Fxd.Props.C126_witness` | full |
| C127 | `Fxd.Props.C127_store` | full |
| C127 | `Fxd.Props.C127_answers_iff` | full |
| C127 | `Fxd.Props.C127_total` | full |
| C127 | `Fxd.Props.C127_again` | full |
| C127 | `Fxd.Props.C127_monotone` | full |
| C127 | `Fxd.Props.C127_exact` | full |
| C127 | `Fxd.Props.C127_text` | full |
| C127 | `Fxd.Props.C127_reload` | full |
| C127 | `Fxd.Props.C127_witness` | full |
| C128 | `Fxd.Props.C128_total` | full |
| C128 | `Fxd.Props.C128_witness` | full |
| C129 | `Fxd.Props.C129_product` | full |
| C129 | `Fxd.Props.C129_witness` | full |
| C13 | `Fxd.Props.C13_ascii` | full |
| C130 | `Fxd.Props.C130_widen` | full |
| C130 | `Fxd.Props.C130_narrow` | full |
| C130 | `Fxd.Props.C130_witness` | full |
| C130 | `Fxd.Props.C130_narrow_witness` | full |
| C14 | `Fxd.Props.C14_appends` | propext, Quot.sound |
| C15 | `Fxd.Props.C15_roundtrip` | full |
| C15 | `Fxd.Props.C15_bound_needed` | propext, Quot.sound |
| C16 | `Fxd.Props.C16_cmp_spec` | full |
| C16 | `Fxd.Props.C16_cmp_numeric` | full |
| C16 | `Fxd.Props.C16_cmp_zeros` | full |
| C17 | `Fxd.Props.C17_cmp_refl` | full |
| C17 | `Fxd.Props.C17_cmp_swap` | full |
| C17 | `Fxd.Props.C17_cmp_total` | full |
| C17 | `Fxd.Props.C17_cmp_trans` | full |
| C17 | `Fxd.Props.C17_eq_equivalence` | full |
| C17 | `Fxd.Props.C17_trichotomy` | full |
| C18 | `Fxd.Props.C18_eq_iff` | full |
| C18 | `Fxd.Props.C18_eq_of_val_eq` | full |
| C19 | `Fxd.Props.C19_hash_eq_partial` | full |
| C19 | `Fxd.Props.C19_hash_iff` | full |
| C19 | `Fxd.Props.C19_hash_false` | full |
| C20 | `Fxd.Props.C20_add_exact` | full |
| C20 | `Fxd.Props.C22_add_ok_iff` | full |
| C21 | `Fxd.Props.C21_sub_exact` | full |
| C21 | `Fxd.Props.C22_sub_ok_iff` | full |
| C22 | `Fxd.Props.C22_add_ok_iff` | full |
| C22 | `Fxd.Props.C22_sub_ok_iff` | full |
| C22 | `Fxd.Props.C22_never_err` | full |
| C22 | `Fxd.Props.C22_add_fail` | full |
| C22 | `Fxd.Props.C22_sub_fail` | full |
| C22 | `Fxd.Props.C22_carry_panic` | propext, Quot.sound |
| C23 | `Fxd.Props.C23_scale` | full |
| C24 | `Fxd.Props.C24_add_comm` | full |
| C25 | `Fxd.Props.C25_add_sub` | full |
| C25 | `Fxd.Props.C25_sub_self` | full |
| C25 | `Fxd.Props.C25_sub_eq_add_opp` | full |
| C26 | `Fxd.Props.C26_add_assoc` | full |
| C27 | `Fxd.Props.C27_mul_exact` | full |
| C27 | `Fxd.Props.C56_mul_ok_iff` | full |
| C28 | `Fxd.Props.C28_mul_trunc` | full |
| C28 | `Fxd.Props.C28_code` | full |
| C28 | `Fxd.Props.C28_value` | full |
| C28 | `Fxd.Props.C28_error` | full |
| C28 | `Fxd.Props.C28_witness_rows` | propext, Quot.sound |
| C29 | `Fxd.Props.C29_overflow` | full |
| C29 | `Fxd.Props.C29_err_iff` | full |
| C29 | `Fxd.Props.C29_wf_err_iff` | full |
| C29 | `Fxd.Props.C29_left` | full |
| C29 | `Fxd.Props.C29_witness_left` | propext, Quot.sound |
| C30 | `Fxd.Props.C30_mul_sign` | full |
| C30 | `Fxd.Props.C30_mul_sign_wf` | full |
| C30 | `Fxd.Props.C30_div_sign` | full |
| C30 | `Fxd.Props.C30_div_sign_val` | full |
| C31 | `Fxd.Props.C31_mul_comm` | full |
| C31 | `Fxd.Props.C31_order_matters` | propext, Quot.sound |
| C32 | `Fxd.Props.C32_mul_one` | full |
| C33 | `Fxd.Props.C33_div_zero` | full |
| C33 | `Fxd.Props.C33_div_zero_only` | full |
| C33 | `Fxd.Props.C33_rem_zero` | full |
| C33 | `Fxd.Props.C33_rem_zero_only` | full |
| C34 | `Fxd.Props.C34_zero_div` | full |
| C34 | `Fxd.Props.C34_zero_rem` | full |
| C35 | `Fxd.Props.C35_short_div` | full |
| C35 | `Fxd.Props.C35_short_div_ok` | full |
| C36 | `Fxd.Props.C36_exact_partial` | full |
| C36 | `Fxd.Props.C36_code` | full |
| C36 | `Fxd.Props.C36_guess_iff` | full |
| C36 | `Fxd.Props.C36_two_units_partial` | full |
| C36 | `Fxd.Props.C36_witness_addback` | full |
| C36 | `Fxd.Props.C36_witness_last_unit` | full |
| C36 | `Fxd.Props.C116_debug_right` | full |
| C36 | `Fxd.Props.C116_witness_silent` | full |
| C36 | `Fxd.Props.C121_quo_plain` | full |
| C37 | `Fxd.Props.C37_bounded` | full |
| C37 | `Fxd.Props.C37_code` | full |
| C37 | `Fxd.Props.C37_exact_partial` | full |
| C37 | `Fxd.Props.C37_guess_iff` | full |
| C37 | `Fxd.Props.C37_two_units_partial` | full |
| C37 | `Fxd.Props.C37_witness_addback` | full |
| C37 | `Fxd.Props.C121_rem` | full |
| C37 | `Fxd.Props.C121_rem_short` | full |
| C37 | `Fxd.Props.C122_rare` | full |
| C38 | `Fxd.Props.C38_smaller` | full |
| C38 | `Fxd.Props.C38_room` | full |
| C38 | `Fxd.Props.C38_equal` | full |
| C38 | `Fxd.Props.C38_witness_no_room` | propext, Quot.sound |
| C39 | `Fxd.Props.C39_round_to` | full |
| C39 | `Fxd.Props.C39_ok_iff` | full |
| C39 | `Fxd.Props.C39_nearest` | full |
| C40 | `Fxd.Props.C40_extend` | full |
| C40 | `Fxd.Props.C40_panic` | full |
| C41 | `Fxd.Props.C41_round_eq_partial` | full |
| C41 | `Fxd.Props.C41_extend_iff` | full |
| C41 | `Fxd.Props.C41_code` | full |
| C41 | `Fxd.Props.C55_ok_iff` | full |
| C41 | `Fxd.Props.C41_false` | full |
| C42 | `Fxd.Props.C42_round_neg_partial` | full |
| C42 | `Fxd.Props.C42_ok_iff` | full |
| C42 | `Fxd.Props.C42_edge_truncates` | full |
| C42 | `Fxd.Props.C42_large_zero` | full |
| C42 | `Fxd.Props.C42_witnesses` | propext, Quot.sound |
| C43 | `Fxd.Props.C43_idempotent` | full |
| C43 | `Fxd.Props.C43_monotone` | full |
| C44 | `Fxd.Props.C44_half_ulp` | full |
| C45 | `Fxd.Props.C45_from_u64` | full |
| C45 | `Fxd.Props.C45_from_i64` | full |
| C46 | `Fxd.Props.C46_as_i64` | full |
| C47 | `Fxd.Props.C47_as_u64` | full |
| C48 | `Fxd.Props.C48_i64_roundtrip` | full |
| C48 | `Fxd.Props.C48_u64_roundtrip` | full |
| C49 | `Fxd.Props.C49_add_sub` | full |
| C49 | `Fxd.Props.C49_mul_div_rem` | full |
| C50 | `Fxd.Props.C50_tight` | full |
| C50 | `Fxd.Props.C50_wf` | full |
| C50 | `Fxd.Props.C50_sound_exact` | full |
| C50 | `Fxd.Props.C50_witness_div` | propext, Quot.sound |
| C51 | `Fxd.Props.C51_add` | propext, Quot.sound |
| C51 | `Fxd.Props.C51_sub` | propext, Quot.sound |
| C51 | `Fxd.Props.C51_mul` | propext, Quot.sound |
| C51 | `Fxd.Props.C51_div` | propext, Quot.sound |
| C51 | `Fxd.Props.C51_rem` | propext, Quot.sound |
| C51 | `Fxd.Props.C51_round` | propext, Quot.sound |
| C52 | `Fxd.Props.C52_operators` | propext, Quot.sound |
| C52 | `Fxd.Props.C52_div_zero` | full |
| C53 | `Fxd.Props.C53_witness` | full |
| C53 | `Fxd.Props.C53_mul_iff` | full |
| C53 | `Fxd.Props.C53_quotient_mul_iff` | full |
| C53 | `Fxd.Props.C53_quotient_mul_partial` | full |
| C53 | `Fxd.Props.C53_round_first` | full |
| C54 | `Fxd.Props.C54_constants` | full |
| C54 | `Fxd.Props.C54_set_const` | propext, Quot.sound |
| C54 | `Fxd.Props.C54_set_sign` | full |
| C54 | `Fxd.Props.C54_predicates` | full |
| C55 | `Fxd.Props.C55_scale_partial` | full |
| C55 | `Fxd.Props.C55_code` | full |
| C55 | `Fxd.Props.C55_ok_iff` | full |
| C55 | `Fxd.Props.C55_precision_wraps` | propext, Quot.sound |
| C56 | `Fxd.Props.C56_mul_ok_iff` | full |
| C56 | `Fxd.Props.C56_wf_ok_iff` | full |
| C56 | `Fxd.Props.C56_debug_panic` | full |
| C57 | `Fxd.Props.C57_scale` | full |
| C57 | `Fxd.Props.C57_scale_small` | full |
| C57 | `Fxd.Props.C57_witness_wrap` | propext, Quot.sound |
| C58 | `Fxd.Props.C58_release_ok_iff` | full |
| C58 | `Fxd.Props.C58_debug_ok_iff` | full |
| C58 | `Fxd.Props.C58_overflow_iff` | full |
| C58 | `Fxd.Props.C58_debug_panic` | full |
| C59 | `Fxd.Props.agrees_iff` | none |
| C59 | `Fxd.Props.agrees_overflow_iff` | none |
| C59 | `Fxd.Props.C59_arith` | propext, Quot.sound |
| C59 | `Fxd.Props.C59_rest` | propext, Quot.sound |
| C60 | `Fxd.Props.C60_release_ok_iff` | full |
| C60 | `Fxd.Props.C60_debug_ok_iff` | full |
| C60 | `Fxd.Props.C60_short_ok` | full |
| C61 | `Fxd.Props.C61_mul_mono` | full |
| C61 | `Fxd.Props.C61_add_mono` | full |
| C62 | `Fxd.Props.C62_add` | full |
| C62 | `Fxd.Props.C62_sub` | full |
| C62 | `Fxd.Props.C62_mul` | full |
| C62 | `Fxd.Props.C62_cmp` | full |
| C63 | `Fxd.Props.C63_rem_partial` | full |
| C63 | `Fxd.Props.C63_rem_large` | full |
| C63 | `Fxd.Props.C63_rem_right_iff` | full |
| C63 | `Fxd.Props.C63_rem_witness` | full |
| C63 | `Fxd.Props.C63_div_partial` | full |
| C63 | `Fxd.Props.C63_div_large_partial` | full |
| C63 | `Fxd.Props.C63_div_witness` | full |
| C63 | `Fxd.Props.C63_rem_debug_iff` | full |
| C63 | `Fxd.Props.C63_div_debug_iff` | full |
| C63 | `Fxd.Props.C63_div_large_right_iff` | full |
| C63 | `Fxd.Props.C63_div_large_debug_iff` | full |
| C63 | `Fxd.Props.C63_div_sound` | full |
| C63 | `Fxd.Props.C63_exact_witness` | propext |
| C64 | `Fxd.Props.C64_mul` | full |
| C64 | `Fxd.Props.C64_div` | full |
| C64 | `Fxd.Props.C64_rem` | full |
| C64 | `Fxd.Props.C64_add` | full |
| C64 | `Fxd.Props.C64_sub` | full |
| C64 | `Fxd.Props.C64_value` | full |
| C65 | `Fxd.Props.C65_add_trimmed` | full |
| C65 | `Fxd.Props.C65_sub_trimmed` | full |
| C65 | `Fxd.Props.C65_add_comm_exact` | full |
| C65 | `Fxd.Props.C65_sub_anti` | full |
| C66 | `Fxd.Props.C66_balance_exact` | full |
| C66 | `Fxd.Props.C66_balance_total` | full |
| C66 | `Fxd.Props.C66_balance_perm` | full |
| C67 | `Fxd.Props.C67_distrib` | full |
| C67 | `Fxd.Props.C67_mul_assoc` | full |
| C68 | `Fxd.Props.C68_mul_div` | full |
| C68 | `Fxd.Props.C68_mul_div_long` | full |
| C68 | `Fxd.Props.C68_div_one` | full |
| C68 | `Fxd.Props.C68_div_self` | full |
| C68 | `Fxd.Props.C68_rem_idem` | full |
| C69 | `Fxd.Props.C69_text_iff` | full |
| C69 | `Fxd.Props.C69_equal_same_text` | full |
| C69 | `Fxd.Props.C69_prefix` | full |
| C69 | `Fxd.Props.C69_round_then_print` | full |
| C70 | `Fxd.Props.C70_i64_mono` | full |
| C70 | `Fxd.Props.C70_i64_between` | full |
| C70 | `Fxd.Props.C70_u64_mono` | full |
| C70 | `Fxd.Props.C70_agree` | full |
| C70 | `Fxd.Props.C70_i64_round_trip` | full |
| C70 | `Fxd.Props.C70_u64_ops` | full |
| C71 | `Fxd.Props.C71_parse` | full |
| C71 | `Fxd.Props.C71_from_u64` | propext, Quot.sound |
| C71 | `Fxd.Props.C71_from_i64` | propext, Quot.sound |
| C71 | `Fxd.Props.C71_div` | full |
| C71 | `Fxd.Props.C71_rem` | full |
| C71 | `Fxd.Props.C71_rest` | propext, Quot.sound |
| C71 | `Fxd.Props.C71_operators` | full |
| C71 | `Fxd.Props.C71_release` | none |
| C72 | `Fxd.Props.C72_add` | full |
| C72 | `Fxd.Props.C72_sub` | full |
| C72 | `Fxd.Props.C72_mul` | full |
| C72 | `Fxd.Props.C72_div` | full |
| C72 | `Fxd.Props.C72_rem` | full |
| C72 | `Fxd.Props.C72_round` | full |
| C72 | `Fxd.Props.C72_round_to` | full |
| C72 | `Fxd.Props.C72_from_u64` | full |
| C72 | `Fxd.Props.C72_from_i64` | full |
| C73 | `Fxd.Props.C73_parse` | full |
| C73 | `Fxd.Props.C73_from_str` | full |
| C74 | `Fxd.Props.C74_div` | full |
| C74 | `Fxd.Props.C74_round` | full |
| C74 | `Fxd.Props.C74_round_to` | full |
| C75 | `Fxd.Props.C75_program` | full |
| C75 | `Fxd.Props.C75_determined` | full |
| C75 | `Fxd.Props.C75_layout` | full |
| C75 | `Fxd.Props.C75_observe` | full |
| C76 | `Fxd.Props.C76_step` | full |
| C76 | `Fxd.Props.C76_trace` | full |
| C76 | `Fxd.Props.C76_plain` | full |
| C76 | `Fxd.Props.C76_plain_wf` | full |
| C77 | `Fxd.Props.C77_debug_div` | full |
| C77 | `Fxd.Props.C77_debug_session` | full |
| C77 | `Fxd.Props.C77_debug_halts` | full |
| C77 | `Fxd.Props.C77_release_witness` | full |
| C78 | `Fxd.Props.C78_cleared` | full |
| C78 | `Fxd.Props.C78_look` | full |
| C78 | `Fxd.Props.C78_div_rem` | full |
| C78 | `Fxd.Props.C78_parse` | full |
| C78 | `Fxd.Props.C78_step` | full |
| C78 | `Fxd.Props.C78_trace` | full |
| C78 | `Fxd.Props.C78_usable` | full |
| C78 | `Fxd.Props.C78_session` | full |
| C78 | `Fxd.Props.C78_sum` | full |
| C78 | `Fxd.Props.C78_difference` | full |
| C78 | `Fxd.Props.C78_exceptions` | full |
| C79 | `Fxd.Props.C79_relations` | full |
| C79 | `Fxd.Props.C79_clamp_all` | full |
| C79 | `Fxd.Props.C79_clamp_panics_iff` | full |
| C79 | `Fxd.Props.C79_le_ge` | full |
| C79 | `Fxd.Props.C79_max` | full |
| C79 | `Fxd.Props.C79_min` | full |
| C79 | `Fxd.Props.C79_clamp` | full |
| C79 | `Fxd.Props.C79_clamp_panics` | full |
| C79 | `Fxd.Props.C79_maxOf` | full |
| C79 | `Fxd.Props.C79_minOf` | full |
| C79 | `Fxd.Props.C79_sorted` | full |
| C79 | `Fxd.Props.C79_sort` | full |
| C80 | `Fxd.Props.C80_rounded_sum` | full |
| C80 | `Fxd.Props.C80_sum_of_rounded` | full |
| C80 | `Fxd.Props.C80_no_loss` | full |
| C81 | `Fxd.Props.C81_div_rem` | full |
| C81 | `Fxd.Props.C81_div_rem_long` | full |
| C81 | `Fxd.Props.C81_div_rem_two` | full |
| C82 | `Fxd.Props.C82_average` | full |
| C82 | `Fxd.Props.C82_average_same` | full |
| C83 | `Fxd.Props.C83_charge` | full |
| C83 | `Fxd.Props.C83_charge_mono` | full |
| C83 | `Fxd.Props.C83_charge_neg` | full |
| C84 | `Fxd.Props.C84_equal_same_key` | full |
| C84 | `Fxd.Props.C84_key` | full |
| C84 | `Fxd.Props.C84_key_exact` | full |
| C84 | `Fxd.Props.C84_key_iff` | full |
| C84 | `Fxd.Props.C84_hash` | full |
| C85 | `Fxd.Props.C85_write` | full |
| C85 | `Fxd.Props.C85_roundtrip` | full |
| C86 | `Fxd.Props.C86_parse` | full |
| C86 | `Fxd.Props.C86_from_str` | full |
| C86 | `Fxd.Props.C86_add_sub_mul` | full |
| C86 | `Fxd.Props.C86_div` | full |
| C86 | `Fxd.Props.C86_rem` | full |
| C86 | `Fxd.Props.C86_as_int` | full |
| C86 | `Fxd.Props.C86_display_inj` | none |
| C86 | `Fxd.Props.C86_panic_texts` | full |
| C86 | `Fxd.Props.C86_sums_raw` | full |
| C87 | `Fxd.Props.C87_length` | full |
| C87 | `Fxd.Props.C87_bound` | full |
| C87 | `Fxd.Props.C87_sorts` | full |
| C88 | `Fxd.Props.C88_difference` | full |
| C89 | `Fxd.Props.C89_repeated` | full |
| C90 | `Fxd.Props.C90_split` | full |
| C91 | `Fxd.Props.C91_step` | full |
| C91 | `Fxd.Props.C91_stored` | full |
| C91 | `Fxd.Props.C91_texts` | full |
| C92 | `Fxd.Props.C92_div` | full |
| C92 | `Fxd.Props.C92_rem` | full |
| C93 | `Fxd.Props.C93_add` | full |
| C93 | `Fxd.Props.C93_sub` | full |
| C93 | `Fxd.Props.C93_mul` | full |
| C93 | `Fxd.Props.C93_div` | full |
| C93 | `Fxd.Props.C93_div_full` | full |
| C93 | `Fxd.Props.C93_rem` | full |
| C93 | `Fxd.Props.C93_round` | full |
| C93 | `Fxd.Props.C93_round_to` | full |
| C93 | `Fxd.Props.C93_index` | full |
| C94 | `Fxd.Props.C94_add` | full |
| C94 | `Fxd.Props.C94_sub` | full |
| C94 | `Fxd.Props.C94_mul` | full |
| C94 | `Fxd.Props.C94_div` | full |
| C94 | `Fxd.Props.C94_rem` | full |
| C94 | `Fxd.Props.C94_round` | full |
| C94 | `Fxd.Props.C94_round_to` | full |
| C94 | `Fxd.Props.C94_parse` | full |
| C94 | `Fxd.Props.C94_from_str` | full |
| C94 | `Fxd.Props.C94_operators` | full |
| C95 | `Fxd.Props.C95_guess` | full |
| C95 | `Fxd.Props.C95_div` | full |
| C95 | `Fxd.Props.C95_rem` | full |
| C95 | `Fxd.Props.C95_operators` | full |
| C95 | `Fxd.Props.C95_session` | full |
| C96 | `Fxd.Props.C96_round_quotient` | full |
| C96 | `Fxd.Props.C96_exact_iff` | full |
| C96 | `Fxd.Props.C96_exact_two_five` | full |
| C96 | `Fxd.Props.C96_witness_scale` | full |
| C97 | `Fxd.Props.C97_div_mono` | full |
| C97 | `Fxd.Props.C97_div_mono_finer` | full |
| C97 | `Fxd.Props.C97_div_anti` | full |
| C97 | `Fxd.Props.C97_same_digits` | full |
| C97 | `Fxd.Props.C97_witness_digits` | propext, Quot.sound |
| C98 | `Fxd.Props.C98_divide_multiply` | full |
| C98 | `Fxd.Props.C98_there_and_back` | full |
| C98 | `Fxd.Props.C98_convert_back` | full |
| C99 | `Fxd.Props.C99_chain` | full |
| C99 | `Fxd.Props.C99_tenth_fails` | full |
