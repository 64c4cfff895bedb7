# Axioms of the theorems in MANIFEST.json

Written by `tools/axioms.py` from `#print axioms`.

## none

* `Verif.Lcrng.C04_shipped`
* `Verif.Lcrng.C05_shipped`
* `Verif.Compilation.C119_types`
* `Verif.Lcrng.C12_lcrng_re_init`
* `Verif.Xorshift128.C12_xorshift_re_init`
* `Verif.EnumClass.C125_creates`
* `Verif.EnumClass.C125_constants`
* `Verif.Gen3.C58_partial`
* `Verif.Gen3.C58_swapped`
* `Verif.Personal.C67_sizes`
* `Verif.Personal.C67_shipped`

## Classical.choice, Quot.sound, propext

* `Verif.Lcrng.C01_jump`
* `Verif.Lcrng.C01_jump_too_far`
* `Verif.Lcrng.C02_const_jump`
* `Verif.Lcrng.C02_const_jump_too_far`
* `Verif.Lcrng.C03_history`
* `Verif.Lcrng.C03_history_is_one_jump`
* `Verif.Lcrng.C04_reverse_next`
* `Verif.Lcrng.C04_reverse_even`
* `Verif.Lcrng.C04_reverse_walk`
* `Verif.Lcrng.C05_period`
* `Verif.Lcrng.C05_reach`
* `Verif.Lcrng.C07_reciprocal_partial`
* `Verif.Lcrng.C08_mul_shift`
* `Verif.Lcrng.C08_monotone`
* `Verif.Lcrng.C09_balanced`
* `Verif.MtPeriod.C100_equidistributed`
* `Verif.MtPeriod.C100_occurs`
* `Verif.MtPeriod.C100_distinct`
* `Verif.SfmtPeriod.C101_periodic`
* `Verif.SfmtPeriod.C101_least`
* `Verif.SfmtPeriod.C101_distinct`
* `Verif.Xorshift128.C102_quadruples`
* `Verif.Xorshift128.C102_outputs`
* `Verif.Xorshift128.C102_next_rand`
* `Verif.Xoroshiro.C102_outputs`
* `Verif.Xoroshiro.C102_rejection`
* `Verif.Xoroshiro.C102_splitmix`
* `Verif.Xoroshiro.C102_splitmix_next_rand`
* `Verif.Lcrng.C102_next_u16`
* `Verif.Lcrng.C102_modulo`
* `Verif.Lcrng.C102_reciprocal`
* `Verif.Lcrng.C102_next_u32`
* `Verif.Lcrng.C102_mul_shift`
* `Verif.Lcrng.C103_poke`
* `Verif.Lcrng.C103_arng_xdrng`
* `Verif.Lcrng.C103_bw`
* `Verif.Lcrng.C103_triple16`
* `Verif.Lcrng.C103_triple32`
* `Verif.Lcrng.C103_sharp`
* `Verif.ShippedLa.C104_loads`
* `Verif.ShippedLa.C105_levels_partial`
* `Verif.ShippedLa.C105_odd_table`
* `Verif.ShippedLa.C105_full_false`
* `Verif.ShippedLa.C106_exact_partial`
* `Verif.ShippedLa.C106_dead`
* `Verif.ShippedLa.C106_full_false`
* `Verif.ShippedLa.C107_spawners`
* `Verif.ShippedLa.C107_outbreaks`
* `Verif.Xoroshiro.C108_xoroshiro`
* `Verif.Xoroshiro.C108_xoroshiro_period`
* `Verif.Xorshift128.C108_xorshift`
* `Verif.Xorshift128.C108_xorshift_period`
* `Verif.TinyMt.C108_tinymt`
* `Verif.MtPeriod.C108_mt_determines`
* `Verif.MtPeriod.C108_mt_patterns`
* `Verif.Determined.C109_mt`
* `Verif.Determined.C109_mt_623`
* `Verif.Determined.C109_sfmt`
* `Verif.Compat.C11_mod_inv_ok`
* `Verif.Compat.C11_mod_inv_error`
* `Verif.Compat.C11_negative_value_rejected`
* `Verif.SfmtPeriod.C110_exact`
* `Verif.SfmtPeriod.C110_from_start`
* `Verif.SfmtPeriod.C110_occurs`
* `Verif.SfmtPeriod.C111_determines`
* `Verif.SfmtPeriod.C111_seeds`
* `Verif.SfmtPeriod.C111_any`
* `Verif.SfmtPeriod.C111_blind`
* `Verif.TableNames.C112_lookup`
* `Verif.TableNames.C112_distinct`
* `Verif.TableNames.C112_tables`
* `Verif.Lcrng.C113_low_bits`
* `Verif.Lcrng.C113_state_bit`
* `Verif.Lcrng.C113_u16`
* `Verif.Lcrng.C113_u32`
* `Verif.Lcrng.C113_agree`
* `Verif.Lcrng.C113_twins`
* `Verif.Enc3Json.C114_grammar`
* `Verif.Enc3Json.C114_dumps`
* `Verif.Enc3Json.C114_files`
* `Verif.Enc3Json.C115_parts`
* `Verif.Enc3Json.C115_sisters`
* `Verif.ShippedPersonal.C116_load`
* `Verif.ShippedPersonal.C116_records`
* `Verif.ShippedPersonal.C116_forms`
* `Verif.ShippedPersonal.C116_species`
* `Verif.ShippedPersonal.C116_repeat`
* `Verif.ShippedPersonal.C116_swsh_species`
* `Verif.ShippedPersonal.C116_platinum`
* `Verif.ShippedLa.C117_slots`
* `Verif.RngList.C118_types_partial`
* `Verif.Compilation.C119_mode`
* `Verif.Mt.C12_mt_re_init`
* `Verif.Sfmt.C12_sfmt_re_init`
* `Verif.RngList.C12_rnglist_re_init`
* `Verif.Lcrng.C121_draws_partial`
* `Verif.Lcrng.C121_full_false`
* `Verif.ShuffleDoc.C122_sfmt_only`
* `Verif.ShuffleDoc.C122_full_false`
* `Verif.TinyMt.C123_outputs`
* `Verif.TinyMt.C123_every_seed`
* `Verif.TinyMt.C123_carry`
* `Verif.TinyMt.C123_next_rand_above`
* `Verif.TinyMt.C123_next_rand_mod`
* `Verif.TinyMt.C123_next_rand`
* `Verif.EnumClass.C125_lookup`
* `Verif.EnumClass.C125_same`
* `Verif.EnumClass.C125_partial`
* `Verif.EnumClass.C125_synchronize`
* `Verif.Origin3.C126_search`
* `Verif.Origin3.C126_unique`
* `Verif.Origin3.C126_determined`
* `Verif.Origin3.C126_pid`
* `Verif.Origin3.C126_spreads`
* `Verif.Origin3.C126_ivs`
* `Verif.Origin3.C126_pids`
* `Verif.Origin3.C126_never`
* `Verif.Sha1.C128_iff`
* `Verif.Sha1.C128_console`
* `Verif.Sha1.C128_mac`
* `Verif.Gen3.C129_byte`
* `Verif.Gen3.C129_all`
* `Verif.Gen3.C129_square`
* `Verif.Mt.C13_mt19937`
* `Verif.Lcrng.C130_jump`
* `Verif.Lcrng.C130_advance`
* `Verif.Lcrng.C130_const`
* `Verif.Lcrng.C130_undo`
* `Verif.Lcrng.C130_history`
* `Verif.RngList.C131_rewind`
* `Verif.RngList.C131_add`
* `Verif.RngList.C131_cycle`
* `Verif.CalcSlotLa.C132_frequency`
* `Verif.CalcSlotLa.C132_shipped`
* `Verif.Py.C133_lcrng32`
* `Verif.Py.C133_lcrng64`
* `Verif.Py.C133_jump_uint64`
* `Verif.Py.C133_jump_is_advance`
* `Verif.Py.C133_xorshift`
* `Verif.Py.C133_undo`
* `Verif.Py.C133_xoroshiro`
* `Verif.Py.C133_splitmix`
* `Verif.Py.C133_mt`
* `Verif.Py.C133_sfmt_shuffle`
* `Verif.Py.C133_sfmt`
* `Verif.Py.C133_mt_reference`
* `Verif.Py.C133_sfmt_reference`
* `Verif.Py.C133_rnglist`
* `Verif.Py.C133_rnglist_window`
* `Verif.Py.C133_xoroshiro_period`
* `Verif.Py.C133_xorshift_period`
* `Verif.Py.C133_tinymt_period`
* `Verif.Py.C133_lcrng32_period`
* `Verif.Py.C133_lcrng64_period`
* `Verif.Py.C133_mt_period`
* `Verif.Py.C133_sfmt_period`
* `Verif.Py.C133_tinymt`
* `Verif.Py.C133_functions`
* `Verif.Py.C133_sha1_constants`
* `Verif.Py.C133_sha1_init`
* `Verif.Py.C133_sha1`
* `Verif.Py.C133_sha1_seed`
* `Verif.Py.C133_area3_slots`
* `Verif.Py.C133_area3_level`
* `Verif.Py.C133_area3_tables`
* `Verif.Py.C133_wild3_init`
* `Verif.Py.C133_wild3_cute_charm`
* `Verif.Py.C133_wild3_generate`
* `Verif.Py.C133_state3_init`
* `Verif.Py.C133_compute_stat`
* `Verif.Py.C133_calc_slot`
* `Verif.Py.C133_calc_slot_shipped`
* `Verif.Py.C133_wild3_shipped`
* `Verif.Py.C133_get_info_table_3`
* `Verif.Mt.C14_history`
* `Verif.Mt.C15_mt_disagree`
* `Verif.Mt.C15_mt_full_false`
* `Verif.Mt.C15_mt_exact`
* `Verif.Mt.C15_mt_iff`
* `Verif.Sfmt.C15_sfmt_exact`
* `Verif.Sfmt.C15_sfmt_iff`
* `Verif.Mt.C16_index_step`
* `Verif.Mt.C16_no_index_error`
* `Verif.Mt.C17_temper_bijective`
* `Verif.Mt.C18_mt_next_rand`
* `Verif.Mt.C18_mt_next_rand_mod`
* `Verif.TinyMt.C18_tiny_next_rand_partial`
* `Verif.TinyMt.C18_tiny_next_rand_numpy`
* `Verif.Sfmt.C19_ir_eq_python`
* `Verif.Sfmt.C20_sfmt19937`
* `Verif.Sfmt.C21_certified`
* `Verif.Sfmt.C22_history`
* `Verif.Sfmt.C23_next_rand`
* `Verif.TinyMt.C24_never_zero`
* `Verif.TinyMt.C24_zero_is_stuck`
* `Verif.TinyMt.C25_never_merge`
* `Verif.TinyMt.C25_top_bit_irrelevant`
* `Verif.TinyMt.C25_reversible`
* `Verif.Xorshift128.C27_next_previous`
* `Verif.Xorshift128.C27_previous_next`
* `Verif.Xorshift128.C28_next_randrange`
* `Verif.Xorshift128.C28_next_randrange_empty`
* `Verif.Xorshift128.C28_next_alternate_rand`
* `Verif.Xorshift128.C29_maximum_reached`
* `Verif.Xorshift128.C29_minimum_reached`
* `Verif.Xorshift128.C29_full_false`
* `Verif.Xorshift128.C29_zero_minimum_partial`
* `Verif.Xorshift128.C29_interval_partial`
* `Verif.Xorshift128.C29_never_above_partial`
* `Verif.Xorshift128.C29_below_minimum`
* `Verif.Xorshift128.C29_error_partial`
* `Verif.Xoroshiro.C30_rejection_next_previous`
* `Verif.Xoroshiro.C30_rejection_previous_next`
* `Verif.Xoroshiro.C30_splitmix_next_previous`
* `Verif.Xoroshiro.C30_splitmix_previous_next`
* `Verif.Xoroshiro.C31_bit_mask`
* `Verif.Xoroshiro.C32_rejection`
* `Verif.Xoroshiro.C32_in_range`
* `Verif.Xoroshiro.C33_empty_range`
* `Verif.Xoroshiro.C34_injective`
* `Verif.Xoroshiro.C34_nonzero`
* `Verif.Xoroshiro.C35_zero`
* `Verif.RngList.C36_sliding_window`
* `Verif.RngList.C36_in_bounds`
* `Verif.RngList.C37_sizes_partial`
* `Verif.RngList.C37_numba_wraps`
* `Verif.RngList.C37_full_false`
* `Verif.Sha1.C38_seed`
* `Verif.Sha1.C38_history`
* `Verif.Sha1.C39_history`
* `Verif.Sha1.C40_date`
* `Verif.Sha1.C40_date_injective`
* `Verif.Sha1.C40_time`
* `Verif.Sha1.C40_time_injective`
* `Verif.Sha1.C41_words`
* `Verif.Util.C42_endian_reverses`
* `Verif.Util.C42_endian_involutive`
* `Verif.Util.C43_rotate32`
* `Verif.Util.C43_rotate64_partial`
* `Verif.Util.C44_hex_roundtrip`
* `Verif.Stat.C45_exact`
* `Verif.Gen3.C46_partial`
* `Verif.Gen3.C46_brave`
* `Verif.Gen3.C46_full_false`
* `Verif.Util.C47_fnv1_one_position`
* `Verif.Util.C47_fnv1a_one_position`
* `Verif.Gen3.C48_gender`
* `Verif.Gen3.C48_proportion`
* `Verif.Gen3.C49_shiny`
* `Verif.Gen3.C50_letter`
* `Verif.Gen3.C51_exact`
* `Verif.Gen3.C51_partial`
* `Verif.Gen3.C51_off_by_one`
* `Verif.Gen3.C51_full_false`
* `Verif.Gen3.C52_level`
* `Verif.Gen3.C52_pressure`
* `Verif.Gen3.C52_bounds`
* `Verif.Gen3.C53_hslot`
* `Verif.Gen3.C53_type_lead`
* `Verif.Gen3.C54_modified`
* `Verif.Gen3.C55_partial`
* `Verif.Gen3.C55_split_partial`
* `Verif.Gen3.C55_exact`
* `Verif.Gen3.C55_stops`
* `Verif.Gen3.C55_far`
* `Verif.Gen3.C55_full_false`
* `Verif.Gen3.C56_state`
* `Verif.Gen3.C56_generate`
* `Verif.Gen3.C56_run`
* `Verif.Gen3.C56_created`
* `Verif.Gen3.C57_search`
* `Verif.Gen3.C57_partial`
* `Verif.Gen3.C57_full_false`
* `Verif.Gen3.C59_lead`
* `Verif.Gen3.C60_type_characteristic`
* `Verif.Gen3.C60_strength`
* `Verif.Gen3.C61_stats`
* `Verif.EncLoad3.C62_generated`
* `Verif.EncLoad3.C62_types`
* `Verif.Gen3.C62_roundtrip`
* `Verif.Cache.C63_partial`
* `Verif.Cache.C63_keyword_raises`
* `Verif.Cache.C63_full_false`
* `Verif.Cache.C63_brace_directory`
* `Verif.Cache.C64_exact`
* `Verif.Cache.C64_partial`
* `Verif.Cache.C64_full_false`
* `Verif.Personal.C66_agree`
* `Verif.Personal.C66_other`
* `Verif.Personal.C67_load`
* `Verif.Personal.C67_roundtrip`
* `Verif.FlatBuffer.C68_scalar`
* `Verif.FlatBuffer.C68_object`
* `Verif.FlatBuffer.C68_array`
* `Verif.FlatBuffer.C68_vec3F`
* `Verif.FlatBuffer.C68_multiplier`
* `Verif.FlatBuffer.C68_misc`
* `Verif.FlatBuffer.C68_parameters`
* `Verif.FlatBuffer.C68_f20`
* `Verif.FlatBuffer.C68_spawner`
* `Verif.FlatBuffer.C68_eligibility`
* `Verif.FlatBuffer.C68_alpha`
* `Verif.FlatBuffer.C68_slot`
* `Verif.FlatBuffer.C68_table`
* `Verif.FlatBuffer.C68_wave`
* `Verif.FlatBuffer.C68_group`
* `Verif.FlatBuffer.C68_lotteryDetail`
* `Verif.FlatBuffer.C68_lottery`
* `Verif.FlatBuffer.C68_root`
* `Verif.CalcSlotLa.C69_choice_partial`
* `Verif.CalcSlotLa.C69_positive`
* `Verif.CalcSlotLa.C69_exact_partial`
* `Verif.CalcSlotLa.C69_float_partial`
* `Verif.CalcSlotLa.C69_full_false`
* `Verif.CalcSlotLa.C69_plain`
* `Verif.EncLoadLa.C70_multipliers`
* `Verif.EncLoadLa.C70_nonneg`
* `Verif.EncLoad3.C71_load`
* `Verif.EncLoad3.C71_total`
* `Verif.TinyMt.C72_state`
* `Verif.TinyMt.C72_seed`
* `Verif.TinyMt.C72_next_partial`
* `Verif.TinyMt.C72_stream_partial`
* `Verif.TinyMt.C72_numba_exact`
* `Verif.Xoroshiro.C73_xoroshiro_modes`
* `Verif.Xoroshiro.C75_reference`
* `Verif.Xoroshiro.C75_stream`
* `Verif.Gen3.C76_numba_partial`
* `Verif.Gen3.C76_numpy_iff`
* `Verif.Gen3.C76_full_false`
* `Verif.Gen3.C77_plain_raises`
* `Verif.Gen3.C77_full_false`
* `Verif.Cache.C78_stale`
* `Verif.Cache.C78_full_false`
* `Verif.Cache.C78_partial`
* `Verif.FlatBuffer.C79_partial`
* `Verif.FlatBuffer.C79_full_false`
* `Verif.EncLoadLa.C80_levels`
* `Verif.Xoroshiro.C81_period`
* `Verif.Xoroshiro.C81_one_cycle`
* `Verif.Xoroshiro.C82_every_output`
* `Verif.Xoroshiro.C82_terminates`
* `Verif.Xoroshiro.C82_every_value`
* `Verif.Xorshift128.C83_period`
* `Verif.Xorshift128.C83_one_cycle`
* `Verif.Xorshift128.C83_every_output`
* `Verif.TinyMt.C84_period`
* `Verif.TinyMt.C84_every_seed`
* `Verif.TinyMt.C84_one_cycle`
* `Verif.Xoroshiro.C85_every_value`
* `Verif.MapName.C86_idempotent`
* `Verif.MapName.C86_shape`
* `Verif.MapName.C86_full_false`
* `Verif.MapName.C86_letters_partial`
* `Verif.Gen3.C88_full_false`
* `Verif.Gen3.C88_no_effect`
* `Verif.Gen3.C88_one_gender`
* `Verif.Mt.C89_mt`
* `Verif.Sfmt.C89_sfmt`
* `Verif.TinyMt.C89_tiny`
* `Verif.Shipped3.C91_load`
* `Verif.Shipped3.C92_returns`
* `Verif.Shipped3.C92_far`
* `Verif.Shipped3.C92_never`
* `Verif.Shipped3.C93_safari`
* `Verif.Shipped3.C94_names`
* `Verif.Sha1.C95_message`
* `Verif.Sha1.C95_seed`
* `Verif.Gen3.C96_csv`
* `Verif.Gen3.C96_csv_determines`
* `Verif.Gen3.C96_str_determines`
* `Verif.Gen3.C96_created`
* `Verif.Shipped3.C96_shipped`
* `Verif.Shipped3.C97_letters`
* `Verif.Shipped3.C97_elsewhere`
* `Verif.Shipped3.C97_every_letter`
* `Verif.Shipped3.C97_run`
* `Verif.Gen3.C98_shiny`
* `Verif.Gen3.C98_nature`
* `Verif.Gen3.C98_unown`
* `Verif.Gen3.C98_draw`
* `Verif.Gen3.C98_slot`
* `Verif.MtPeriod.C99_prime`
* `Verif.MtPeriod.C99_period`
* `Verif.MtPeriod.C99_least`

## Quot.sound, propext

* `Verif.Lcrng.C01_next`
* `Verif.Lcrng.C03_advance`
* `Verif.Lcrng.C06_modulo`
* `Verif.Lcrng.C06_modulo_zero`
* `Verif.Lcrng.C07_maximum_one`
* `Verif.Lcrng.C07_full_false`
* `Verif.Compat.C11_inverse_unique`
* `Verif.Lcrng.C113_shiny`
* `Verif.RngList.C118_full_false`
* `Verif.TinyMt.C12_tiny_re_init`
* `Verif.Xoroshiro.C12_xoroshiro_re_init`
* `Verif.Patch.C120_inside`
* `Verif.ShuffleDoc.C122_mt`
* `Verif.ShuffleDoc.C122_sfmt_partial`
* `Verif.Imports.C124_iff`
* `Verif.Imports.C124_total`
* `Verif.Imports.C124_exact`
* `Verif.Imports.C124_core_partial`
* `Verif.Imports.C124_generator`
* `Verif.Imports.C124_full_false`
* `Verif.Imports.C124_supplied`
* `Verif.EnumClass.C125_byte`
* `Verif.Njit.C127_partial`
* `Verif.Njit.C127_signature`
* `Verif.Njit.C127_package_partial`
* `Verif.Njit.C127_generator`
* `Verif.Njit.C127_full_false`
* `Verif.Sha1.C128_games`
* `Verif.Mt.C13_spec_unique`
* `Verif.Mt.C15_mt_partial`
* `Verif.Sfmt.C15_sfmt_partial`
* `Verif.Sfmt.C15_sfmt_disagree`
* `Verif.Sfmt.C15_sfmt_full_false`
* `Verif.Mt.C16_static_indices`
* `Verif.TinyMt.C18_tiny_out_of_range`
* `Verif.TinyMt.C18_tiny_full_false`
* `Verif.TinyMt.C18_tiny_next_rand_mod`
* `Verif.Sfmt.C19_indices`
* `Verif.Sfmt.C20_spec_unique`
* `Verif.Sfmt.C22_no_index_error`
* `Verif.Sfmt.C23_every_state`
* `Verif.TinyMt.C26_advance`
* `Verif.TinyMt.C26_outputs`
* `Verif.Xorshift128.C27_advance`
* `Verif.Xorshift128.C28_next_rand`
* `Verif.Xoroshiro.C31_bit_mask_zero`
* `Verif.Xoroshiro.C34_reference`
* `Verif.Xoroshiro.C35_advance`
* `Verif.Sha1.C39_date_makes_stale`
* `Verif.Sha1.C40_out_of_range`
* `Verif.Sha1.C41_console`
* `Verif.Sha1.C41_other`
* `Verif.Sha1.C41_shape`
* `Verif.Sha1.C41_distinct`
* `Verif.Sha1.C41_ds_differs`
* `Verif.Util.C43_rotate64_undefined`
* `Verif.Util.C43_rotate64_full_false`
* `Verif.Gen3.C46_percent`
* `Verif.Util.C47_fnv1_rec`
* `Verif.Util.C47_fnv1a_rec`
* `Verif.Gen3.C48_fixed`
* `Verif.Gen3.C50_unique`
* `Verif.Gen3.C52_empty_slot`
* `Verif.Gen3.C59_emerald`
* `Verif.Gen3.C60_unique`
* `Verif.Cache.C63_dict`
* `Verif.Cache.C63_la_roundtrip`
* `Verif.Cache.C64_permanent`
* `Verif.Personal.C65_partial`
* `Verif.Personal.C65_full_false`
* `Verif.Personal.C65_platinum_table`
* `Verif.Personal.C66_own`
* `Verif.TinyMt.C72_numba_overflow`
* `Verif.TinyMt.C72_full_false`
* `Verif.Xorshift128.C73_xorshift_modes`
* `Verif.Xorshift128.C74_xorshift`
* `Verif.EncLoadLa.C80_total`
* `Verif.Xoroshiro.C85_split_next_rand`
* `Verif.Xoroshiro.C85_split_zero`
* `Verif.Sha1.C87_full_false`
* `Verif.Sha1.C87_korean`
* `Verif.Sha1.C87_partial`
* `Verif.Sha1.C87_consistent`
* `Verif.TinyMt.C89_tiny_no_zero`
* `Verif.Text.C90_distinct`
* `Verif.Text.C90_index`
* `Verif.Gen3.C96_str`
* `Verif.Gen3.C98_shares_total`

## propext

* `Verif.Lcrng.C10_const_rand32`
* `Verif.Lcrng.C10_const_rand64`
* `Verif.Lcrng.C10_raises_iff`
* `Verif.RngList.C118_same_width`
* `Verif.Compilation.C119_plain`
* `Verif.Compilation.C119_fields_partial`
* `Verif.Compilation.C119_keyword`
* `Verif.Compilation.C119_full_false`
* `Verif.Compilation.C119_compiles`
* `Verif.Compilation.C119_again`
* `Verif.Compilation.C119_twice`
* `Verif.Patch.C120_flat`
* `Verif.Patch.C120_array`
* `Verif.Patch.C120_position`
* `Verif.Patch.C120_aligned_partial`
* `Verif.Patch.C120_full_false`
* `Verif.Lcrng.C121_arng`
* `Verif.EnumClass.C125_index`
* `Verif.EnumClass.C125_sizes`
* `Verif.EnumClass.C125_full_false`
* `Verif.EnumClass.C125_platinum`
* `Verif.Njit.C127_plain`
* `Verif.Njit.C127_bare`
* `Verif.Njit.C127_bare_iff`
* `Verif.Njit.C127_iter`
* `Verif.Njit.C127_lost`
* `Verif.Njit.C127_annotations`
* `Verif.Gen3.C51_grass_shares`
* `Verif.Gen3.C53_no_type_lead`
* `Verif.Gen3.C58_full_false`
* `Verif.Personal.C67_offsets`
