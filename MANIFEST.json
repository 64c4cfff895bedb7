{
 "claims": [
  {
   "property": "C01",
   "status": "proved",
   "theorems": [
    "Verif.Lcrng.C01_jump",
    "Verif.Lcrng.C01_next",
    "Verif.Lcrng.C01_jump_too_far"
   ],
   "note": "All widths, all distances below 2^w; distances of 2^w and more raise IndexError."
  },
  {
   "property": "C02",
   "status": "proved",
   "theorems": [
    "Verif.Lcrng.C02_const_jump",
    "Verif.Lcrng.C02_const_jump_too_far"
   ],
   "note": ""
  },
  {
   "property": "C03",
   "status": "proved",
   "theorems": [
    "Verif.Lcrng.C03_advance",
    "Verif.Lcrng.C03_history",
    "Verif.Lcrng.C03_history_is_one_jump"
   ],
   "note": "The modulo-2^w form needs an odd multiplier, which all shipped classes have."
  },
  {
   "property": "C04",
   "status": "proved",
   "theorems": [
    "Verif.Lcrng.C04_reverse_next",
    "Verif.Lcrng.C04_reverse_even",
    "Verif.Lcrng.C04_reverse_walk",
    "Verif.Lcrng.C04_shipped"
   ],
   "note": ""
  },
  {
   "property": "C05",
   "status": "proved",
   "theorems": [
    "Verif.Lcrng.C05_period",
    "Verif.Lcrng.C05_reach",
    "Verif.Lcrng.C05_shipped"
   ],
   "note": ""
  },
  {
   "property": "C06",
   "status": "proved",
   "theorems": [
    "Verif.Lcrng.C06_modulo",
    "Verif.Lcrng.C06_modulo_zero"
   ],
   "note": ""
  },
  {
   "property": "C07",
   "status": "partial",
   "theorems": [
    "Verif.Lcrng.C07_reciprocal_partial",
    "Verif.Lcrng.C07_maximum_one",
    "Verif.Lcrng.C07_full_false"
   ],
   "note": "Proved for maximum >= 2. False for maximum = 1: the divisor wraps to 0 (ZeroDivisionError under numba)."
  },
  {
   "property": "C08",
   "status": "proved",
   "theorems": [
    "Verif.Lcrng.C08_mul_shift",
    "Verif.Lcrng.C08_monotone"
   ],
   "note": ""
  },
  {
   "property": "C09",
   "status": "proved",
   "theorems": [
    "Verif.Lcrng.C09_balanced"
   ],
   "note": ""
  },
  {
   "property": "C10",
   "status": "proved",
   "theorems": [
    "Verif.Lcrng.C10_const_rand32",
    "Verif.Lcrng.C10_const_rand64",
    "Verif.Lcrng.C10_raises_iff"
   ],
   "note": ""
  },
  {
   "property": "C100",
   "status": "proved",
   "theorems": [
    "Verif.MtPeriod.C100_equidistributed",
    "Verif.MtPeriod.C100_occurs",
    "Verif.MtPeriod.C100_distinct"
   ],
   "note": ""
  },
  {
   "property": "C101",
   "status": "proved",
   "theorems": [
    "Verif.SfmtPeriod.C101_periodic",
    "Verif.SfmtPeriod.C101_least",
    "Verif.SfmtPeriod.C101_distinct"
   ],
   "note": "next only; advance moves along the same stream (C22). The exact period is C110."
  },
  {
   "property": "C102",
   "status": "proved",
   "theorems": [
    "Verif.Xorshift128.C102_quadruples",
    "Verif.Xorshift128.C102_outputs",
    "Verif.Xorshift128.C102_next_rand",
    "Verif.Xoroshiro.C102_outputs",
    "Verif.Xoroshiro.C102_rejection",
    "Verif.Xoroshiro.C102_splitmix",
    "Verif.Xoroshiro.C102_splitmix_next_rand",
    "Verif.Lcrng.C102_next_u16",
    "Verif.Lcrng.C102_modulo",
    "Verif.Lcrng.C102_reciprocal",
    "Verif.Lcrng.C102_next_u32",
    "Verif.Lcrng.C102_mul_shift"
   ],
   "note": "Reciprocal division for maximum at least 2 (C07). Counts over starting positions of a single call."
  },
  {
   "property": "C103",
   "status": "proved",
   "theorems": [
    "Verif.Lcrng.C103_poke",
    "Verif.Lcrng.C103_arng_xdrng",
    "Verif.Lcrng.C103_bw",
    "Verif.Lcrng.C103_triple16",
    "Verif.Lcrng.C103_triple32",
    "Verif.Lcrng.C103_sharp"
   ],
   "note": "Attainment is shown for the forward classes."
  },
  {
   "property": "C104",
   "status": "proved",
   "theorems": [
    "Verif.ShippedLa.C104_loads"
   ],
   "note": "About the shipped files, translated by tools/gen_la.py."
  },
  {
   "property": "C105",
   "status": "partial",
   "theorems": [
    "Verif.ShippedLa.C105_levels_partial",
    "Verif.ShippedLa.C105_odd_table",
    "Verif.ShippedLa.C105_full_false"
   ],
   "note": "False of one table, whose slots all have minimum = maximum + 2; proved for all others."
  },
  {
   "property": "C106",
   "status": "partial",
   "theorems": [
    "Verif.ShippedLa.C106_exact_partial",
    "Verif.ShippedLa.C106_dead",
    "Verif.ShippedLa.C106_full_false"
   ],
   "note": "False exactly at the listed tables, times and weathers where all weights are zero; proved elsewhere."
  },
  {
   "property": "C107",
   "status": "proved",
   "theorems": [
    "Verif.ShippedLa.C107_spawners",
    "Verif.ShippedLa.C107_outbreaks"
   ],
   "note": "About the shipped files, translated by tools/gen_la.py."
  },
  {
   "property": "C108",
   "status": "proved",
   "theorems": [
    "Verif.Xoroshiro.C108_xoroshiro",
    "Verif.Xoroshiro.C108_xoroshiro_period",
    "Verif.Xorshift128.C108_xorshift",
    "Verif.Xorshift128.C108_xorshift_period",
    "Verif.TinyMt.C108_tinymt",
    "Verif.MtPeriod.C108_mt_determines",
    "Verif.MtPeriod.C108_mt_patterns"
   ],
   "note": ""
  },
  {
   "property": "C109",
   "status": "proved",
   "theorems": [
    "Verif.Determined.C109_mt",
    "Verif.Determined.C109_mt_623",
    "Verif.Determined.C109_sfmt"
   ],
   "note": ""
  },
  {
   "property": "C11",
   "status": "proved",
   "theorems": [
    "Verif.Compat.C11_mod_inv_ok",
    "Verif.Compat.C11_mod_inv_error",
    "Verif.Compat.C11_inverse_unique",
    "Verif.Compat.C11_negative_value_rejected"
   ],
   "note": "Non-negative values and positive moduli; some negative invertible values are rejected, proved as C11_negative_value_rejected."
  },
  {
   "property": "C110",
   "status": "proved",
   "theorems": [
    "Verif.SfmtPeriod.C110_exact",
    "Verif.SfmtPeriod.C110_from_start",
    "Verif.SfmtPeriod.C110_occurs"
   ],
   "note": ""
  },
  {
   "property": "C111",
   "status": "proved",
   "theorems": [
    "Verif.SfmtPeriod.C111_determines",
    "Verif.SfmtPeriod.C111_seeds",
    "Verif.SfmtPeriod.C111_any",
    "Verif.SfmtPeriod.C111_blind"
   ],
   "note": ""
  },
  {
   "property": "C112",
   "status": "proved",
   "theorems": [
    "Verif.TableNames.C112_lookup",
    "Verif.TableNames.C112_distinct",
    "Verif.TableNames.C112_tables"
   ],
   "note": "json.loads is modelled for objects of plain strings."
  },
  {
   "property": "C113",
   "status": "proved",
   "theorems": [
    "Verif.Lcrng.C05_shipped",
    "Verif.Lcrng.C113_low_bits",
    "Verif.Lcrng.C113_state_bit",
    "Verif.Lcrng.C113_u16",
    "Verif.Lcrng.C113_u32",
    "Verif.Lcrng.C113_agree",
    "Verif.Lcrng.C113_twins",
    "Verif.Lcrng.C113_shiny"
   ],
   "note": ""
  },
  {
   "property": "C114",
   "status": "proved",
   "theorems": [
    "Verif.Enc3Json.C114_grammar",
    "Verif.Enc3Json.C114_dumps",
    "Verif.Enc3Json.C114_files"
   ],
   "note": "Plain values: no escapes in strings, no negative numbers, no floats."
  },
  {
   "property": "C115",
   "status": "proved",
   "theorems": [
    "Verif.Enc3Json.C115_parts",
    "Verif.Enc3Json.C115_sisters"
   ],
   "note": ""
  },
  {
   "property": "C116",
   "status": "proved",
   "theorems": [
    "Verif.ShippedPersonal.C116_load",
    "Verif.ShippedPersonal.C116_records",
    "Verif.ShippedPersonal.C116_forms",
    "Verif.ShippedPersonal.C116_species",
    "Verif.ShippedPersonal.C116_repeat",
    "Verif.ShippedPersonal.C116_swsh_species",
    "Verif.ShippedPersonal.C116_platinum"
   ],
   "note": ""
  },
  {
   "property": "C117",
   "status": "proved",
   "theorems": [
    "Verif.ShippedLa.C117_slots"
   ],
   "note": ""
  },
  {
   "property": "C118",
   "status": "partial",
   "theorems": [
    "Verif.RngList.C118_types_partial",
    "Verif.RngList.C118_full_false",
    "Verif.RngList.C118_same_width"
   ],
   "note": "False under numba for every type other than uint32."
  },
  {
   "property": "C119",
   "status": "partial",
   "theorems": [
    "Verif.Compilation.C119_plain",
    "Verif.Compilation.C119_fields_partial",
    "Verif.Compilation.C119_keyword",
    "Verif.Compilation.C119_full_false",
    "Verif.Compilation.C119_compiles",
    "Verif.Compilation.C119_again",
    "Verif.Compilation.C119_types",
    "Verif.Compilation.C119_twice",
    "Verif.Compilation.C119_mode"
   ],
   "note": "False for a spec given as keyword argument, which is dropped."
  },
  {
   "property": "C12",
   "status": "proved",
   "theorems": [
    "Verif.Lcrng.C12_lcrng_re_init",
    "Verif.Mt.C12_mt_re_init",
    "Verif.Sfmt.C12_sfmt_re_init",
    "Verif.TinyMt.C12_tiny_re_init",
    "Verif.Xorshift128.C12_xorshift_re_init",
    "Verif.Xoroshiro.C12_xoroshiro_re_init",
    "Verif.RngList.C12_rnglist_re_init"
   ],
   "note": "One theorem per generator class."
  },
  {
   "property": "C120",
   "status": "partial",
   "theorems": [
    "Verif.Patch.C120_flat",
    "Verif.Patch.C120_array",
    "Verif.Patch.C120_position",
    "Verif.Patch.C120_inside",
    "Verif.Patch.C120_aligned_partial",
    "Verif.Patch.C120_full_false"
   ],
   "note": "False for the alignment of an Array of NestedArrays of packed records."
  },
  {
   "property": "C121",
   "status": "partial",
   "theorems": [
    "Verif.Lcrng.C121_draws_partial",
    "Verif.Lcrng.C121_arng",
    "Verif.Lcrng.C121_full_false"
   ],
   "note": "False for ARNG and ARNGR."
  },
  {
   "property": "C122",
   "status": "partial",
   "theorems": [
    "Verif.ShuffleDoc.C122_mt",
    "Verif.ShuffleDoc.C122_sfmt_partial",
    "Verif.ShuffleDoc.C122_sfmt_only",
    "Verif.ShuffleDoc.C122_full_false"
   ],
   "note": "False for the SFMT, where the number is 312; proved with the right number for both."
  },
  {
   "property": "C123",
   "status": "proved",
   "theorems": [
    "Verif.TinyMt.C123_outputs",
    "Verif.TinyMt.C123_every_seed",
    "Verif.TinyMt.C123_carry",
    "Verif.TinyMt.C123_next_rand_above",
    "Verif.TinyMt.C123_next_rand_mod",
    "Verif.TinyMt.C123_next_rand"
   ],
   "note": ""
  },
  {
   "property": "C124",
   "status": "partial",
   "theorems": [
    "Verif.Imports.C124_iff",
    "Verif.Imports.C124_total",
    "Verif.Imports.C124_exact",
    "Verif.Imports.C124_core_partial",
    "Verif.Imports.C124_generator",
    "Verif.Imports.C124_full_false",
    "Verif.Imports.C124_supplied"
   ],
   "note": "False: undeclared dependencies, a missing file, Python 3.9 features; exact characterisation proved."
  },
  {
   "property": "C125",
   "status": "partial",
   "theorems": [
    "Verif.EnumClass.C125_creates",
    "Verif.EnumClass.C125_lookup",
    "Verif.EnumClass.C125_same",
    "Verif.EnumClass.C125_partial",
    "Verif.EnumClass.C125_index",
    "Verif.EnumClass.C125_sizes",
    "Verif.EnumClass.C125_byte",
    "Verif.EnumClass.C125_constants",
    "Verif.EnumClass.C125_synchronize",
    "Verif.EnumClass.C125_full_false",
    "Verif.EnumClass.C125_platinum"
   ],
   "note": "False for DIAMOND and PLATINUM only."
  },
  {
   "property": "C126",
   "status": "proved",
   "theorems": [
    "Verif.Origin3.C126_search",
    "Verif.Origin3.C126_unique",
    "Verif.Origin3.C126_determined",
    "Verif.Origin3.C126_pid",
    "Verif.Origin3.C126_spreads",
    "Verif.Origin3.C126_ivs",
    "Verif.Origin3.C126_pids",
    "Verif.Origin3.C126_never"
   ],
   "note": "Searches under numba; Pid and Ivs are defined from the outputs of the plain recurrence."
  },
  {
   "property": "C127",
   "status": "partial",
   "theorems": [
    "Verif.Njit.C127_partial",
    "Verif.Njit.C127_plain",
    "Verif.Njit.C127_bare",
    "Verif.Njit.C127_bare_iff",
    "Verif.Njit.C127_signature",
    "Verif.Njit.C127_iter",
    "Verif.Njit.C127_package_partial",
    "Verif.Njit.C127_lost",
    "Verif.Njit.C127_annotations",
    "Verif.Njit.C127_generator",
    "Verif.Njit.C127_full_false"
   ],
   "note": "False for the bare form without numba only; what happens there is characterised."
  },
  {
   "property": "C128",
   "status": "proved",
   "theorems": [
    "Verif.Sha1.C128_iff",
    "Verif.Sha1.C128_console",
    "Verif.Sha1.C128_games",
    "Verif.Sha1.C128_mac"
   ],
   "note": ""
  },
  {
   "property": "C129",
   "status": "proved",
   "theorems": [
    "Verif.Gen3.C129_byte",
    "Verif.Gen3.C129_all",
    "Verif.Gen3.C129_square"
   ],
   "note": ""
  },
  {
   "property": "C13",
   "status": "proved",
   "theorems": [
    "Verif.Mt.C13_mt19937",
    "Verif.Mt.C13_spec_unique"
   ],
   "note": ""
  },
  {
   "property": "C130",
   "status": "proved",
   "theorems": [
    "Verif.Lcrng.C130_jump",
    "Verif.Lcrng.C130_advance",
    "Verif.Lcrng.C130_const",
    "Verif.Lcrng.C130_undo",
    "Verif.Lcrng.C130_history"
   ],
   "note": ""
  },
  {
   "property": "C131",
   "status": "proved",
   "theorems": [
    "Verif.RngList.C131_rewind",
    "Verif.RngList.C131_add",
    "Verif.RngList.C131_cycle"
   ],
   "note": ""
  },
  {
   "property": "C132",
   "status": "proved",
   "theorems": [
    "Verif.CalcSlotLa.C132_frequency",
    "Verif.CalcSlotLa.C132_shipped"
   ],
   "note": ""
  },
  {
   "property": "C133",
   "status": "proved",
   "theorems": [
    "Verif.Py.C133_lcrng32",
    "Verif.Py.C133_lcrng64",
    "Verif.Py.C133_jump_uint64",
    "Verif.Py.C133_jump_is_advance",
    "Verif.Py.C133_xorshift",
    "Verif.Py.C133_undo",
    "Verif.Py.C133_xoroshiro",
    "Verif.Py.C133_splitmix",
    "Verif.Py.C133_mt",
    "Verif.Py.C133_sfmt_shuffle",
    "Verif.Py.C133_sfmt",
    "Verif.Py.C133_mt_reference",
    "Verif.Py.C133_sfmt_reference",
    "Verif.Py.C133_rnglist",
    "Verif.Py.C133_rnglist_window",
    "Verif.Py.C133_xoroshiro_period",
    "Verif.Py.C133_xorshift_period",
    "Verif.Py.C133_tinymt_period",
    "Verif.Py.C133_lcrng32_period",
    "Verif.Py.C133_lcrng64_period",
    "Verif.Py.C133_mt_period",
    "Verif.Py.C133_sfmt_period",
    "Verif.Py.C133_tinymt",
    "Verif.Py.C133_functions",
    "Verif.Py.C133_sha1_constants",
    "Verif.Py.C133_sha1_init",
    "Verif.Py.C133_sha1",
    "Verif.Py.C133_sha1_seed",
    "Verif.Py.C133_area3_slots",
    "Verif.Py.C133_area3_level",
    "Verif.Py.C133_area3_tables",
    "Verif.Py.C133_wild3_init",
    "Verif.Py.C133_wild3_cute_charm",
    "Verif.Py.C133_wild3_generate",
    "Verif.Py.C133_state3_init",
    "Verif.Py.C133_compute_stat",
    "Verif.Py.C133_calc_slot",
    "Verif.Py.C133_calc_slot_shipped",
    "Verif.Py.C133_wild3_shipped",
    "Verif.Py.C133_get_info_table_3"
   ],
   "note": ""
  },
  {
   "property": "C14",
   "status": "proved",
   "theorems": [
    "Verif.Mt.C14_history"
   ],
   "note": ""
  },
  {
   "property": "C15",
   "status": "partial",
   "theorems": [
    "Verif.Mt.C15_mt_partial",
    "Verif.Mt.C15_mt_disagree",
    "Verif.Mt.C15_mt_full_false",
    "Verif.Sfmt.C15_sfmt_partial",
    "Verif.Sfmt.C15_sfmt_disagree",
    "Verif.Sfmt.C15_sfmt_full_false",
    "Verif.Mt.C15_mt_exact",
    "Verif.Mt.C15_mt_iff",
    "Verif.Sfmt.C15_sfmt_exact",
    "Verif.Sfmt.C15_sfmt_iff"
   ],
   "note": "False at the top of the 32-bit range (numpy scalars wrap). Exact: after any history, the place reached in either mode, and the outputs that follow agree if and only if the sum fits 32 bits, for MT and SFMT."
  },
  {
   "property": "C16",
   "status": "proved",
   "theorems": [
    "Verif.Mt.C16_static_indices",
    "Verif.Mt.C16_index_step",
    "Verif.Mt.C16_no_index_error"
   ],
   "note": ""
  },
  {
   "property": "C17",
   "status": "proved",
   "theorems": [
    "Verif.Mt.C17_temper_bijective"
   ],
   "note": ""
  },
  {
   "property": "C18",
   "status": "partial",
   "theorems": [
    "Verif.Mt.C18_mt_next_rand",
    "Verif.Mt.C18_mt_next_rand_mod",
    "Verif.TinyMt.C18_tiny_next_rand_partial",
    "Verif.TinyMt.C18_tiny_next_rand_numpy",
    "Verif.TinyMt.C18_tiny_out_of_range",
    "Verif.TinyMt.C18_tiny_full_false",
    "Verif.TinyMt.C18_tiny_next_rand_mod"
   ],
   "note": "MersenneTwister complete. TinyMersenneTwister.next_rand leaves the range under numba when the temper sum carries into bit 32 (proved witness: seed 775, next_rand(100) = 107)."
  },
  {
   "property": "C19",
   "status": "proved",
   "theorems": [
    "Verif.Sfmt.C19_ir_eq_python",
    "Verif.Sfmt.C19_indices"
   ],
   "note": ""
  },
  {
   "property": "C20",
   "status": "proved",
   "theorems": [
    "Verif.Sfmt.C20_sfmt19937",
    "Verif.Sfmt.C20_spec_unique"
   ],
   "note": ""
  },
  {
   "property": "C21",
   "status": "proved",
   "theorems": [
    "Verif.Sfmt.C21_certified"
   ],
   "note": ""
  },
  {
   "property": "C22",
   "status": "proved",
   "theorems": [
    "Verif.Sfmt.C22_history",
    "Verif.Sfmt.C22_no_index_error"
   ],
   "note": "numba (64-bit) advance arithmetic; the numpy wrap-around is C15."
  },
  {
   "property": "C23",
   "status": "proved",
   "theorems": [
    "Verif.Sfmt.C23_next_rand",
    "Verif.Sfmt.C23_every_state"
   ],
   "note": ""
  },
  {
   "property": "C24",
   "status": "proved",
   "theorems": [
    "Verif.TinyMt.C24_never_zero",
    "Verif.TinyMt.C24_zero_is_stuck"
   ],
   "note": ""
  },
  {
   "property": "C25",
   "status": "proved",
   "theorems": [
    "Verif.TinyMt.C25_never_merge",
    "Verif.TinyMt.C25_top_bit_irrelevant",
    "Verif.TinyMt.C25_reversible"
   ],
   "note": ""
  },
  {
   "property": "C26",
   "status": "proved",
   "theorems": [
    "Verif.TinyMt.C26_advance",
    "Verif.TinyMt.C26_outputs"
   ],
   "note": ""
  },
  {
   "property": "C27",
   "status": "proved",
   "theorems": [
    "Verif.Xorshift128.C27_next_previous",
    "Verif.Xorshift128.C27_previous_next",
    "Verif.Xorshift128.C27_advance"
   ],
   "note": ""
  },
  {
   "property": "C28",
   "status": "proved",
   "theorems": [
    "Verif.Xorshift128.C28_next_rand",
    "Verif.Xorshift128.C28_next_randrange",
    "Verif.Xorshift128.C28_next_randrange_empty",
    "Verif.Xorshift128.C28_next_alternate_rand"
   ],
   "note": ""
  },
  {
   "property": "C29",
   "status": "partial",
   "theorems": [
    "Verif.Xorshift128.C29_maximum_reached",
    "Verif.Xorshift128.C29_minimum_reached",
    "Verif.Xorshift128.C29_full_false",
    "Verif.Xorshift128.C29_zero_minimum_partial",
    "Verif.Xorshift128.C29_interval_partial",
    "Verif.Xorshift128.C29_never_above_partial",
    "Verif.Xorshift128.C29_below_minimum",
    "Verif.Xorshift128.C29_error_partial"
   ],
   "note": "False: a zero draw returns the maximum, and next_float_randrange(3, 3.5) can be below 3. Proved: inside the interval for maximum - minimum >= |minimum| unless the draw is zero, never above the maximum for any bounds, error bound in general. Exponent range of binary32 not modelled (unbounded exponent)."
  },
  {
   "property": "C30",
   "status": "proved",
   "theorems": [
    "Verif.Xoroshiro.C30_rejection_next_previous",
    "Verif.Xoroshiro.C30_rejection_previous_next",
    "Verif.Xoroshiro.C30_splitmix_next_previous",
    "Verif.Xoroshiro.C30_splitmix_previous_next"
   ],
   "note": ""
  },
  {
   "property": "C31",
   "status": "proved",
   "theorems": [
    "Verif.Xoroshiro.C31_bit_mask",
    "Verif.Xoroshiro.C31_bit_mask_zero"
   ],
   "note": ""
  },
  {
   "property": "C32",
   "status": "proved",
   "theorems": [
    "Verif.Xoroshiro.C32_rejection",
    "Verif.Xoroshiro.C32_in_range"
   ],
   "note": ""
  },
  {
   "property": "C33",
   "status": "proved",
   "theorems": [
    "Verif.Xoroshiro.C33_empty_range"
   ],
   "note": ""
  },
  {
   "property": "C34",
   "status": "proved",
   "theorems": [
    "Verif.Xoroshiro.C34_reference",
    "Verif.Xoroshiro.C34_injective",
    "Verif.Xoroshiro.C34_nonzero"
   ],
   "note": ""
  },
  {
   "property": "C35",
   "status": "proved",
   "theorems": [
    "Verif.Xoroshiro.C35_advance",
    "Verif.Xoroshiro.C35_zero"
   ],
   "note": ""
  },
  {
   "property": "C36",
   "status": "proved",
   "theorems": [
    "Verif.RngList.C36_sliding_window",
    "Verif.RngList.C36_in_bounds"
   ],
   "note": ""
  },
  {
   "property": "C37",
   "status": "partial",
   "theorems": [
    "Verif.RngList.C37_sizes_partial",
    "Verif.RngList.C37_numba_wraps",
    "Verif.RngList.C37_full_false"
   ],
   "note": "False for sizes above 65536 under numba: the uint16 cursor wraps."
  },
  {
   "property": "C38",
   "status": "proved",
   "theorems": [
    "Verif.Sha1.C38_seed",
    "Verif.Sha1.C38_history"
   ],
   "note": "Against FIPS 180-4 SHA-1 on bytes, padding included, after any method history."
  },
  {
   "property": "C39",
   "status": "proved",
   "theorems": [
    "Verif.Sha1.C39_history",
    "Verif.Sha1.C39_date_makes_stale"
   ],
   "note": ""
  },
  {
   "property": "C40",
   "status": "proved",
   "theorems": [
    "Verif.Sha1.C40_date",
    "Verif.Sha1.C40_date_injective",
    "Verif.Sha1.C40_time",
    "Verif.Sha1.C40_time_injective",
    "Verif.Sha1.C40_out_of_range"
   ],
   "note": ""
  },
  {
   "property": "C41",
   "status": "proved",
   "theorems": [
    "Verif.Sha1.C41_words",
    "Verif.Sha1.C41_console",
    "Verif.Sha1.C41_other",
    "Verif.Sha1.C41_shape",
    "Verif.Sha1.C41_distinct",
    "Verif.Sha1.C41_ds_differs"
   ],
   "note": ""
  },
  {
   "property": "C42",
   "status": "proved",
   "theorems": [
    "Verif.Util.C42_endian_reverses",
    "Verif.Util.C42_endian_involutive"
   ],
   "note": ""
  },
  {
   "property": "C43",
   "status": "partial",
   "theorems": [
    "Verif.Util.C43_rotate32",
    "Verif.Util.C43_rotate64_partial",
    "Verif.Util.C43_rotate64_undefined",
    "Verif.Util.C43_rotate64_full_false"
   ],
   "note": "32-bit complete. 64-bit: counts 0 and 64 shift by the full width under numba (undefined in LLVM)."
  },
  {
   "property": "C44",
   "status": "proved",
   "theorems": [
    "Verif.Util.C44_hex_roundtrip"
   ],
   "note": ""
  },
  {
   "property": "C45",
   "status": "proved",
   "theorems": [
    "Verif.Stat.C45_exact"
   ],
   "note": ""
  },
  {
   "property": "C46",
   "status": "partial",
   "theorems": [
    "Verif.Gen3.C46_partial",
    "Verif.Gen3.C46_percent",
    "Verif.Gen3.C46_brave",
    "Verif.Gen3.C46_full_false"
   ],
   "note": "The full claim is false for the code (C46_full_false): the nature table is ordered speed, special attack, special defense but is applied to special attack, special defense, speed. C46_percent is the exact set of nature/stat pairs that come out right."
  },
  {
   "property": "C47",
   "status": "proved",
   "theorems": [
    "Verif.Util.C47_fnv1_rec",
    "Verif.Util.C47_fnv1a_rec",
    "Verif.Util.C47_fnv1_one_position",
    "Verif.Util.C47_fnv1a_one_position"
   ],
   "note": ""
  },
  {
   "property": "C48",
   "status": "proved",
   "theorems": [
    "Verif.Gen3.C48_gender",
    "Verif.Gen3.C48_fixed",
    "Verif.Gen3.C48_proportion"
   ],
   "note": ""
  },
  {
   "property": "C49",
   "status": "proved",
   "theorems": [
    "Verif.Gen3.C49_shiny"
   ],
   "note": ""
  },
  {
   "property": "C50",
   "status": "proved",
   "theorems": [
    "Verif.Gen3.C50_unique",
    "Verif.Gen3.C50_letter"
   ],
   "note": ""
  },
  {
   "property": "C51",
   "status": "partial",
   "theorems": [
    "Verif.Gen3.C51_exact",
    "Verif.Gen3.C51_partial",
    "Verif.Gen3.C51_off_by_one",
    "Verif.Gen3.C51_full_false",
    "Verif.Gen3.C51_grass_shares"
   ],
   "note": "Full claim false: each inner boundary is one too low. C51_exact is the exact behaviour."
  },
  {
   "property": "C52",
   "status": "proved",
   "theorems": [
    "Verif.Gen3.C52_level",
    "Verif.Gen3.C52_pressure",
    "Verif.Gen3.C52_bounds",
    "Verif.Gen3.C52_empty_slot"
   ],
   "note": ""
  },
  {
   "property": "C53",
   "status": "proved",
   "theorems": [
    "Verif.Gen3.C53_hslot",
    "Verif.Gen3.C53_type_lead",
    "Verif.Gen3.C53_no_type_lead"
   ],
   "note": ""
  },
  {
   "property": "C54",
   "status": "proved",
   "theorems": [
    "Verif.Gen3.C54_modified"
   ],
   "note": ""
  },
  {
   "property": "C55",
   "status": "partial",
   "theorems": [
    "Verif.Gen3.C55_partial",
    "Verif.Gen3.C55_split_partial",
    "Verif.Gen3.C55_exact",
    "Verif.Gen3.C55_stops",
    "Verif.Gen3.C55_far",
    "Verif.Gen3.C55_full_false"
   ],
   "note": "Full claim false for Rock Smash in Ruby/Sapphire/Emerald: the continue on a failed check skips rng.next(), so the rest of the range is lost (C55_stops). C55_exact is the exact result for all encounter types."
  },
  {
   "property": "C56",
   "status": "proved",
   "theorems": [
    "Verif.Gen3.C56_state",
    "Verif.Gen3.C56_generate",
    "Verif.Gen3.C56_run",
    "Verif.Gen3.C56_created"
   ],
   "note": "For areas whose slots have min_level <= max_level and species inside the personal table."
  },
  {
   "property": "C57",
   "status": "partial",
   "theorems": [
    "Verif.Gen3.C57_search",
    "Verif.Gen3.C57_partial",
    "Verif.Gen3.C57_full_false"
   ],
   "note": "Full claim false: CUTE_CHARM_M with an always-male species (Volbeat on Emerald's Route 117) searches forever. C57_search decides termination exactly."
  },
  {
   "property": "C58",
   "status": "partial",
   "theorems": [
    "Verif.Gen3.C58_partial",
    "Verif.Gen3.C58_swapped",
    "Verif.Gen3.C58_full_false"
   ],
   "note": "Full claim false: grass returns the fishing rate and the rods return the land rate (C58_swapped)."
  },
  {
   "property": "C59",
   "status": "proved",
   "theorems": [
    "Verif.Gen3.C59_lead",
    "Verif.Gen3.C59_emerald"
   ],
   "note": ""
  },
  {
   "property": "C60",
   "status": "proved",
   "theorems": [
    "Verif.Gen3.C60_type_characteristic",
    "Verif.Gen3.C60_unique",
    "Verif.Gen3.C60_strength"
   ],
   "note": ""
  },
  {
   "property": "C61",
   "status": "proved",
   "theorems": [
    "Verif.Gen3.C61_stats"
   ],
   "note": ""
  },
  {
   "property": "C62",
   "status": "proved",
   "theorems": [
    "Verif.EncLoad3.C62_generated",
    "Verif.EncLoad3.C62_types",
    "Verif.Gen3.C62_roundtrip"
   ],
   "note": "C62_generated: from the names in the data through the loader, the packed slots and the generator to the species and form of every state found; C62_types: the type lookup reads the same species number."
  },
  {
   "property": "C63",
   "status": "partial",
   "theorems": [
    "Verif.Cache.C63_dict",
    "Verif.Cache.C63_la_roundtrip",
    "Verif.Cache.C63_partial",
    "Verif.Cache.C63_keyword_raises",
    "Verif.Cache.C63_full_false",
    "Verif.Cache.C63_brace_directory"
   ],
   "note": "Proved for positional calls and a cache directory without braces, for every history. Full claim false: a keyword call raises IndexError from str.format, a brace in the cache directory breaks the file name. The pickle round trip law is a hypothesis."
  },
  {
   "property": "C64",
   "status": "partial",
   "theorems": [
    "Verif.Cache.C64_exact",
    "Verif.Cache.C64_partial",
    "Verif.Cache.C64_permanent",
    "Verif.Cache.C64_full_false"
   ],
   "note": "Full claim false: a file cut short is read on every later call and always raises (C64_permanent). C64_exact says what each crash point does."
  },
  {
   "property": "C65",
   "status": "partial",
   "theorems": [
    "Verif.Personal.C65_partial",
    "Verif.Personal.C65_full_false",
    "Verif.Personal.C65_platinum_table"
   ],
   "note": "Full claim false: Diamond and Platinum have the same identifier (C65_full_false), so Platinum gets the Diamond/Pearl table (C65_platinum_table). C65_partial: true of every other game."
  },
  {
   "property": "C66",
   "status": "proved",
   "theorems": [
    "Verif.Personal.C66_agree",
    "Verif.Personal.C66_own",
    "Verif.Personal.C66_other"
   ],
   "note": ""
  },
  {
   "property": "C67",
   "status": "proved",
   "theorems": [
    "Verif.Personal.C67_load",
    "Verif.Personal.C67_roundtrip",
    "Verif.Personal.C67_sizes",
    "Verif.Personal.C67_offsets",
    "Verif.Personal.C67_shipped"
   ],
   "note": "All 14 record layouts."
  },
  {
   "property": "C68",
   "status": "proved",
   "theorems": [
    "Verif.FlatBuffer.C68_scalar",
    "Verif.FlatBuffer.C68_object",
    "Verif.FlatBuffer.C68_array",
    "Verif.FlatBuffer.C68_vec3F",
    "Verif.FlatBuffer.C68_multiplier",
    "Verif.FlatBuffer.C68_misc",
    "Verif.FlatBuffer.C68_parameters",
    "Verif.FlatBuffer.C68_f20",
    "Verif.FlatBuffer.C68_spawner",
    "Verif.FlatBuffer.C68_eligibility",
    "Verif.FlatBuffer.C68_alpha",
    "Verif.FlatBuffer.C68_slot",
    "Verif.FlatBuffer.C68_table",
    "Verif.FlatBuffer.C68_wave",
    "Verif.FlatBuffer.C68_group",
    "Verif.FlatBuffer.C68_lotteryDetail",
    "Verif.FlatBuffer.C68_lottery",
    "Verif.FlatBuffer.C68_root"
   ],
   "note": "Each theorem is an equivalence between the reader and an independent description of the FlatBuffer layout, for buffers up to 2^32 bytes."
  },
  {
   "property": "C69",
   "status": "partial",
   "theorems": [
    "Verif.CalcSlotLa.C69_choice_partial",
    "Verif.CalcSlotLa.C69_positive",
    "Verif.CalcSlotLa.C69_exact_partial",
    "Verif.CalcSlotLa.C69_float_partial",
    "Verif.CalcSlotLa.C69_full_false",
    "Verif.CalcSlotLa.C69_plain"
   ],
   "note": "Full claim false: rand times the total is rounded and may land on the next slot (C69_full_false). Proved: zero-weight slots are never chosen; the interval holds up to (4n+10)*2^-53 of the total, and exactly, for every float32 rand, when the weights share a power of two and have at most 29 bits. rand is a float32, tables have at most 2^26 slots. Without numba the method always raises (C69_plain)."
  },
  {
   "property": "C70",
   "status": "proved",
   "theorems": [
    "Verif.EncLoadLa.C70_multipliers",
    "Verif.EncLoadLa.C70_nonneg"
   ],
   "note": ""
  },
  {
   "property": "C71",
   "status": "proved",
   "theorems": [
    "Verif.EncLoad3.C71_load",
    "Verif.EncLoad3.C71_total"
   ],
   "note": "clean_map_string is a parameter."
  },
  {
   "property": "C72",
   "status": "partial",
   "theorems": [
    "Verif.TinyMt.C72_state",
    "Verif.TinyMt.C72_seed",
    "Verif.TinyMt.C72_next_partial",
    "Verif.TinyMt.C72_stream_partial",
    "Verif.TinyMt.C72_numba_exact",
    "Verif.TinyMt.C72_numba_overflow",
    "Verif.TinyMt.C72_full_false"
   ],
   "note": "False under numba when the temper sum carries (seed 775): then the value is 2^32 too big (C72_stream_partial, exact for every seed and k)."
  },
  {
   "property": "C73",
   "status": "proved",
   "theorems": [
    "Verif.Xorshift128.C73_xorshift_modes",
    "Verif.Xoroshiro.C73_xoroshiro_modes"
   ],
   "note": ""
  },
  {
   "property": "C74",
   "status": "proved",
   "theorems": [
    "Verif.Xorshift128.C74_xorshift"
   ],
   "note": ""
  },
  {
   "property": "C75",
   "status": "proved",
   "theorems": [
    "Verif.Xoroshiro.C75_reference",
    "Verif.Xoroshiro.C75_stream"
   ],
   "note": ""
  },
  {
   "property": "C76",
   "status": "partial",
   "theorems": [
    "Verif.Gen3.C76_numba_partial",
    "Verif.Gen3.C76_numpy_iff",
    "Verif.Gen3.C76_full_false"
   ],
   "note": "Full claim false without numba: the true division is stored unrounded; C76_numpy_iff: rounded down it is right, and it is whole exactly if the second bits of the six IVs are equal."
  },
  {
   "property": "C77",
   "status": "partial",
   "theorems": [
    "Verif.Gen3.C77_plain_raises",
    "Verif.Gen3.C77_full_false"
   ],
   "note": "Full claim false: without numba the bare @optional_njit decorator replaces the helper functions, every call raises TypeError. There is no input for which the claim holds."
  },
  {
   "property": "C78",
   "status": "partial",
   "theorems": [
    "Verif.Cache.C78_stale",
    "Verif.Cache.C78_full_false",
    "Verif.Cache.C78_partial"
   ],
   "note": "Full claim false: the cache is not versioned, a present cache file wins. C78_partial: right when the new version loads the same value for the argument as the old one."
  },
  {
   "property": "C79",
   "status": "partial",
   "theorems": [
    "Verif.FlatBuffer.C79_partial",
    "Verif.FlatBuffer.C79_full_false"
   ],
   "note": "Full claim false: an absent string with the default None or a str default raises AttributeError."
  },
  {
   "property": "C80",
   "status": "proved",
   "theorems": [
    "Verif.EncLoadLa.C80_levels",
    "Verif.EncLoadLa.C80_total"
   ],
   "note": ""
  },
  {
   "property": "C81",
   "status": "proved",
   "theorems": [
    "Verif.Xoroshiro.C81_period",
    "Verif.Xoroshiro.C81_one_cycle"
   ],
   "note": "Both variants share the step."
  },
  {
   "property": "C82",
   "status": "proved",
   "theorems": [
    "Verif.Xoroshiro.C82_every_output",
    "Verif.Xoroshiro.C82_terminates",
    "Verif.Xoroshiro.C82_every_value"
   ],
   "note": ""
  },
  {
   "property": "C83",
   "status": "proved",
   "theorems": [
    "Verif.Xorshift128.C83_period",
    "Verif.Xorshift128.C83_one_cycle",
    "Verif.Xorshift128.C83_every_output"
   ],
   "note": ""
  },
  {
   "property": "C84",
   "status": "proved",
   "theorems": [
    "Verif.TinyMt.C84_period",
    "Verif.TinyMt.C84_every_seed",
    "Verif.TinyMt.C84_one_cycle"
   ],
   "note": ""
  },
  {
   "property": "C85",
   "status": "proved",
   "theorems": [
    "Verif.Xoroshiro.C85_split_next_rand",
    "Verif.Xoroshiro.C85_split_zero",
    "Verif.Xoroshiro.C85_every_value"
   ],
   "note": ""
  },
  {
   "property": "C86",
   "status": "partial",
   "theorems": [
    "Verif.MapName.C86_idempotent",
    "Verif.MapName.C86_shape",
    "Verif.MapName.C86_full_false",
    "Verif.MapName.C86_letters_partial"
   ],
   "note": "The shape and idempotence hold for all strings; the part about letters and digits is false when text follows a route or room number in the same word (C86_full_false) and proved otherwise (C86_letters_partial). ASCII strings only."
  },
  {
   "property": "C87",
   "status": "partial",
   "theorems": [
    "Verif.Sha1.C87_full_false",
    "Verif.Sha1.C87_korean",
    "Verif.Sha1.C87_partial",
    "Verif.Sha1.C87_consistent"
   ],
   "note": "False for Korean Black 2 on the DSi, which has the DS address of Korean White 2; proved for all other entries."
  },
  {
   "property": "C88",
   "status": "partial",
   "theorems": [
    "Verif.Gen3.C88_full_false",
    "Verif.Gen3.C88_no_effect",
    "Verif.Gen3.C88_one_gender"
   ],
   "note": "The claim is false: the condition is inverted. Proved is what happens: where all species have both genders a Cute Charm lead changes nothing (C88_no_effect), and for species with one gender or none it restricts the PID (C88_one_gender)."
  },
  {
   "property": "C89",
   "status": "proved",
   "theorems": [
    "Verif.Mt.C89_mt",
    "Verif.Sfmt.C89_sfmt",
    "Verif.TinyMt.C89_tiny",
    "Verif.TinyMt.C89_tiny_no_zero"
   ],
   "note": ""
  },
  {
   "property": "C90",
   "status": "proved",
   "theorems": [
    "Verif.Text.C90_distinct",
    "Verif.Text.C90_index"
   ],
   "note": ""
  },
  {
   "property": "C91",
   "status": "proved",
   "theorems": [
    "Verif.Shipped3.C91_load"
   ],
   "note": ""
  },
  {
   "property": "C92",
   "status": "proved",
   "theorems": [
    "Verif.Shipped3.C92_returns",
    "Verif.Shipped3.C92_far",
    "Verif.Shipped3.C92_never"
   ],
   "note": "Compiled (numba) mode."
  },
  {
   "property": "C93",
   "status": "proved",
   "theorems": [
    "Verif.Shipped3.C93_safari"
   ],
   "note": ""
  },
  {
   "property": "C94",
   "status": "proved",
   "theorems": [
    "Verif.Shipped3.C94_names"
   ],
   "note": ""
  },
  {
   "property": "C95",
   "status": "proved",
   "theorems": [
    "Verif.Sha1.C95_message",
    "Verif.Sha1.C95_seed"
   ],
   "note": ""
  },
  {
   "property": "C96",
   "status": "proved",
   "theorems": [
    "Verif.Gen3.C96_csv",
    "Verif.Gen3.C96_csv_determines",
    "Verif.Gen3.C96_str",
    "Verif.Gen3.C96_str_determines",
    "Verif.Gen3.C96_created",
    "Verif.Shipped3.C96_shipped"
   ],
   "note": "Compiled (numba) mode. The ability is determined up to its name (two abilities share one), and shiny and characteristic are not printed."
  },
  {
   "property": "C97",
   "status": "proved",
   "theorems": [
    "Verif.Shipped3.C97_letters",
    "Verif.Shipped3.C97_elsewhere",
    "Verif.Shipped3.C97_every_letter",
    "Verif.Shipped3.C97_run"
   ],
   "note": ""
  },
  {
   "property": "C98",
   "status": "proved",
   "theorems": [
    "Verif.Gen3.C98_shiny",
    "Verif.Gen3.C98_nature",
    "Verif.Gen3.C98_unown",
    "Verif.Gen3.C98_draw",
    "Verif.Gen3.C98_slot",
    "Verif.Gen3.C98_shares_total"
   ],
   "note": ""
  },
  {
   "property": "C99",
   "status": "proved",
   "theorems": [
    "Verif.MtPeriod.C99_prime",
    "Verif.MtPeriod.C99_period",
    "Verif.MtPeriod.C99_least"
   ],
   "note": "next only; advance moves along the same stream (C14)."
  }
 ]
}
