{"claims": [
{"property": "C01", "status": "proved", "theorems": ["Simint.C01_enumeration"], "note": "every am, Psi4 generator"},
{"property": "C02", "status": "proved", "theorems": ["Simint.C02_tables_complete", "Simint.C02_tables_cover", "Simint.C02_lookup_inverse"], "note": "both shipped tables, whole table"},
{"property": "C03", "status": "proved", "theorems": ["Simint.C03_hash_injective", "Simint.C03_collision_at_256"], "note": "injective below 256; collision witness at 256"},
{"property": "C04", "status": "proved", "theorems": ["Simint.C04_quartet_index_bijective", "Simint.C04_row_major", "Simint.C04_targets_complete"], "note": "any complete Cartesian order"},
{"property": "C05", "status": "proved", "theorems": ["Simint.C05_strict_total_orders", "Simint.C05_type_not_compared"], "note": ""},
{"property": "C06", "status": "proved", "theorems": ["Simint.C06_direction"], "note": "C++ and python choose the same direction"},
{"property": "C07", "status": "proved", "theorems": ["Simint.C07_table_is_generated", "Simint.C07_recur_record"], "note": "whole shipped table, and any am for the generator"},
{"property": "C08", "status": "proved", "theorems": ["Simint.C08_bra_identity", "Simint.C08_ket_identity", "Simint.functionalFam_hrr"], "note": "any linear functional over a commutative ring"},
{"property": "C09", "status": "proved", "theorems": ["Simint.C09_search_closed"], "note": "any finite set of valid classes, any set iteration order"},
{"property": "C10", "status": "proved", "theorems": ["Simint.C10_order_topological", "Simint.C10_reads_are_deps"], "note": ""},
{"property": "C11", "status": "proved", "theorems": ["Simint.C11_inline_exact", "Simint.C11_mixed_exact", "Simint.C11_external_arguments"], "note": "all thresholds; Psi4 order and pair AM up to 18 when generic routines may be used"},
{"property": "C12", "status": "proved", "theorems": ["Simint.C12_general_exact", "Simint.C12_gamess_order_wrong"], "note": "Psi4 order; the GAMESS order is shown to give wrong values"},
{"property": "C13", "status": "proved", "theorems": ["Simint.C13_step_identity"], "note": "all four centers, any family over a commutative ring"},
{"property": "C14", "status": "proved", "theorems": ["Simint.C14_search_closed"], "note": "any list of targets, any set iteration order"},
{"property": "C15", "status": "proved", "theorems": ["Simint.C15_orders_sufficient"], "note": ""},
{"property": "C16", "status": "proved", "theorems": ["Simint.C16_order_topological"], "note": ""},
{"property": "C17", "status": "proved", "theorems": ["Simint.C17_vertical_exact", "Simint.C17_external_two_sided_diverges"], "note": "all thresholds; external code requires one-sided classes (shown necessary), generic code AM up to 18 and the Psi4 order"},
{"property": "C18", "status": "proved", "theorems": ["Simint.C18_inline_constants", "Simint.C18_external_constants"], "note": ""},
{"property": "C19", "status": "proved", "theorems": ["Simint.C19_generic_exact", "Simint.C19_specialised_agree"], "note": "AM up to 18 per center (size of the run-time table), Psi4 order"},
{"property": "C20", "status": "proved", "theorems": ["Simint.C20_vertical", "Simint.C20_horizontal", "Simint.C20_start", "Simint.C20_coulomb"], "note": "real integrals; start values are Boys functions; order zero is the Coulomb integral"},
{"property": "C21", "status": "proved", "theorems": ["Simint.C21_partition", "Simint.C21_reported", "Simint.C21_intermediates"], "note": ""},
{"property": "C22", "status": "proved", "theorems": ["Simint.C22_sufficient", "Simint.C22_monotone", "Simint.C22_multiple"], "note": ""},
{"property": "C23", "status": "proved", "theorems": ["Simint.C23_round", "Simint.C23_round_model", "Simint.C23_not_power_of_two"], "note": "power-of-two vector lengths; shown false otherwise"},
{"property": "C24", "status": "proved", "theorems": ["Simint.C24_lane_owner", "Simint.C24_owner_exists", "Simint.C24_empty_shell_wrong"], "note": "at least one primitive per shell, shown necessary"},
{"property": "C25", "status": "proved", "theorems": ["Simint.C25_direct", "Simint.C25_hrr"], "note": "bra primitives as the driver addresses them; agreement with the stored layout is C58"},
{"property": "C26", "status": "proved", "theorems": ["Simint.C26_same_shells_direct", "Simint.C26_same_shells_hrr", "Simint.C26_screen_padding_matters"], "note": "screening values of padding lanes must be fixed when screening is on, shown necessary; exact arithmetic"},
{"property": "C27", "status": "proved", "theorems": ["Simint.C27_clip_prefix", "Simint.C26_same_shells_hrr"], "note": ""},
{"property": "C28", "status": "proved", "theorems": ["Simint.C28_kept", "Simint.C28_off", "Simint.C28_difference", "Simint.C28_error", "Simint.C28_refused", "Simint.C28_vector_max"], "note": ""},
{"property": "C29", "status": "partial", "theorems": ["Simint.C29_ssss", "Simint.C29_own_data_safe", "Simint.C29_repeat_partial", "Simint.C29_history_matters"], "note": "the statement is false for the hand-written (ss|ss) function (C29_history_matters); proved: what it changes, and that repeated calls agree"},
{"property": "C30", "status": "proved", "theorems": ["Simint.C30_contract", "Simint.C30_contract_all", "Simint.C30_contract_fac", "Simint.C30_out_of_bounds"], "note": ""},
{"property": "C31", "status": "proved", "theorems": ["Simint.C31_exactly_once", "Simint.C31_names", "Simint.C31_named"], "note": ""},
{"property": "C32", "status": "proved", "theorems": ["Simint.C32_permuted", "Simint.C32_reorder"], "note": "nshell12 positive and not below the clip; same restrictions as C59"},
{"property": "C33", "status": "proved", "theorems": ["Simint.C33_layouts_coincide", "Simint.C33_sharp"], "note": ""},
{"property": "C34", "status": "proved", "theorems": ["Simint.C34_form", "Simint.C34_derivative", "Simint.C34_translation"], "note": "centerOf/moveCenter describe the position of a center; exact arithmetic"},
{"property": "C35", "status": "proved", "theorems": ["Simint.C35_reorder", "Simint.C35_permuted"], "note": "bra list read without gaps (C58); nshell12 positive for exchanged lists"},
{"property": "C36", "status": "proved", "theorems": ["Simint.C36_classes_sufficient"], "note": "classes with at most 17 AM per side (run-time tables)"},
{"property": "C37", "status": "proved", "theorems": ["Simint.C37_fill_writes_allocation"], "note": "no screening, or a screening routine that stores one value per pair of primitives (fastSchwarz_exact); the other routine is C44"},
{"property": "C38", "status": "proved", "theorems": ["Simint.C38_disjoint"], "note": ""},
{"property": "C39", "status": "proved", "theorems": ["Simint.C39_layout", "Simint.C39_holds"], "note": ""},
{"property": "C40", "status": "proved", "theorems": ["Simint.C40_symmetric", "Simint.C40_integrals", "Simint.C40_derivatives"], "note": ""},
{"property": "C41", "status": "proved", "theorems": ["Simint.C41_sort", "Simint.C41_fill"], "note": "every pair has at least one primitive (C39)"},
{"property": "C42", "status": "partial", "theorems": ["Simint.C42_multi_actual", "Simint.C42_multi_partial", "Simint.C42_multi_wrong", "Simint.C42_multi_negation", "Simint.C42_shellpairs_partial", "Simint.C42_listFor"], "note": "false for lists with several pairs and for nprim; proved for lists of one pair"},
{"property": "C43", "status": "partial", "theorems": ["Simint.C43_copy_partial", "Simint.C43_overread"], "note": "the statement is false: memcpy uses the size of the destination block; exact condition proved"},
{"property": "C44", "status": "partial", "theorems": ["Simint.C44_schwarz_iff", "Simint.C44_schwarz_partial", "Simint.C44_fastschwarz", "Simint.C44_overrun", "Simint.C44_contents"], "note": "the statement is false for lists of several pairs with simint_primscreen_schwarz; exact condition proved; the fast method is proved in full; with stores in bounds the filled contents are those of the exact values"},
{"property": "C45", "status": "proved", "theorems": ["Simint.C45_upper_bound", "Simint.C45_elements", "Simint.C45_skip", "Simint.C45_never_skipped"], "note": ""},
{"property": "C46", "status": "proved", "theorems": ["Simint.C46_overlap_terms"], "note": ""},
{"property": "C47", "status": "proved", "theorems": ["Simint.C47_kinetic_terms"], "note": ""},
{"property": "C48", "status": "proved", "theorems": ["Simint.C48_overlap", "Simint.C48_kinetic"], "note": "angular momenta up to 18, the size of the component table; exact arithmetic"},
{"property": "C49", "status": "proved", "theorems": ["Simint.C49_recursion", "Simint.C49_potential"], "note": "angular momenta up to 18, the size of the component table; exact arithmetic and exact Boys function (the Boys table ends earlier, C50)"},
{"property": "C50", "status": "partial", "theorems": ["Simint.C50_in_bounds_partial", "Simint.C50_classes_partial", "Simint.C50_outside", "Simint.C50_iff", "Simint.C50_false"], "note": "false for orders above 24; exact condition proved"},
{"property": "C51", "status": "proved", "theorems": ["Simint.C51_recursion", "Simint.C51_long"], "note": ""},
{"property": "C52", "status": "proved", "theorems": ["Simint.C52_work_list"], "note": ""},
{"property": "C53", "status": "partial", "theorems": ["Simint.C53_contents", "Simint.C53_separate_partial", "Simint.C53_lists_shared"], "note": "the statement is false as soon as derivatives are generated: all orders share one dictionary; contents of the lists proved"},
{"property": "C54", "status": "proved", "theorems": ["Simint.C54_helpers_generated", "Simint.C54_nothing_else", "Simint.C54_calls_exact", "Simint.C54_no_overwrite"], "note": "maxam up to 29 (the letters)"},
{"property": "C55", "status": "partial", "theorems": ["Simint.C55_self_call_iff", "Simint.C55_self_call", "Simint.C55_terminates_iff", "Simint.C55_no_self_call_partial", "Simint.C55_create"], "note": "false for classes with angular momentum on both centers of a pair; exact condition proved, and that create.py never asks for these"},
{"property": "C56", "status": "proved", "theorems": ["Simint.C56_common", "Simint.C56_order", "Simint.C56_left", "Simint.C56_error", "Simint.C56_prog", "Simint.C56_create_ostei", "Simint.C56_create_vrr", "Simint.C56_create_hrr"], "note": "stoi and the four option loops are modelled; create.py command lines read back"},
{"property": "C57", "status": "proved", "theorems": ["Simint.C57_delayed_sums"], "note": ""},
{"property": "C58", "status": "partial", "theorems": ["Simint.C25_bra_layout", "Simint.C25_bra_small", "Simint.C25_bra_scalar", "Simint.C25_bra_padding_wrong", "Simint.C58_batches", "Simint.C58_example1", "Simint.C64_bra_false"], "note": "the statement is false beyond one batch of shells (C25_bra_padding_wrong; C64_bra_false: for every vector length above one a positive integral comes out as 0; C58_example1: the first example program is affected); exact condition proved"},
{"property": "C59", "status": "proved", "theorems": ["Simint.C59_function", "Simint.C59_integrals"], "note": "bra list read without gaps (C58); classes with at most 18 AM per side (run-time tables); exact arithmetic and exact Boys function"},
{"property": "C60", "status": "proved", "theorems": ["Simint.C60_declared"], "note": ""},
{"property": "C61", "status": "proved", "theorems": ["Simint.C61_function", "Simint.C61_gradient"], "note": "bra list read without gaps (C58); arrays alpha2 and beta2 hold twice the exponents of the two centers; exact arithmetic and exact Boys function"},
{"property": "C62", "status": "proved", "theorems": ["Simint.C62_integrals", "Simint.C62_derivatives", "Simint.C62_complete", "Simint.C62_complete_derivatives"], "note": "bra pairs in full batches (the exact condition of C58); no screening of integrals; exact arithmetic"},
{"property": "C63", "status": "proved", "theorems": ["Simint.C63_normalized", "Simint.C63_unit", "Simint.C63_table", "Simint.C63_outside", "Simint.C63_array"], "note": "exact arithmetic with the table as written"},
{"property": "C64", "status": "partial", "theorems": ["Simint.C64_shipped", "Simint.C64_table", "Simint.C64_missing", "Simint.C64_missing_exists", "Simint.C64_screened", "Simint.C64_screened_deriv", "Simint.C64_calls_partial", "Simint.C64_integrals_partial", "Simint.C64_shells_partial", "Simint.C64_batches_partial", "Simint.C64_derivatives_partial", "Simint.C64_negative"], "note": "true for all classes up to AM 7; false above (null pointers, the init files are copied unchanged); negative tolerances screen like positive ones"},
{"property": "C65", "status": "partial", "theorems": ["Simint.C65_table", "Simint.C65_longfac", "Simint.C65_short_partial", "Simint.C65_long_small_partial", "Simint.C65_long_large_partial", "Simint.C65_long_bound_partial", "Simint.C65_long_false"], "note": "tables proved in full; the accuracy claim is false for arguments from 36.5 on and larger orders, exact error proved; exact arithmetic"},
{"property": "C66", "status": "partial", "theorems": ["Simint.C66_complete_partial", "Simint.C66_incomplete"], "note": "true without derivatives; false with derivatives (proved for every limit) when classes of total angular momentum 2l+1 are external"},
{"property": "C67", "status": "proved", "theorems": ["Simint.C67_horizontal", "Simint.C67_vertical", "Simint.C67_step", "Simint.C67_derivative"], "note": ""},
{"property": "C68", "status": "partial", "theorems": ["Simint.C68_schwarz", "Simint.C68_values_partial", "Simint.C68_missing", "Simint.C68_error_partial"], "note": "proved for angular momenta up to 7 (above, the call is a null pointer, C64) and lists for which the stores of the routine stay in the array (C44)"},
{"property": "C69", "status": "partial", "theorems": ["Simint.C69_shells_partial", "Simint.C69_missing", "Simint.C69_fast", "Simint.C69_fast_not_bound", "Simint.C69_fast_partial"], "note": "simint_shellscreen_schwarz proved up to angular momentum 7 (null pointer above); the fast method is false already for s shells with two primitives"},
{"property": "C70", "status": "partial", "theorems": ["Simint.C70_value", "Simint.C70_iff", "Simint.C70_not_bound", "Simint.C70_lost", "Simint.C70_error_partial"], "note": "false for angular momentum above 0: arbitrary losses for diffuse p functions; exact condition on one center; true for s shells"},
{"property": "C71", "status": "proved", "theorems": ["Simint.C71_arrays", "Simint.C71_letters", "Simint.C71_ident", "Simint.C71_bra_steps", "Simint.C71_ket_steps", "Simint.C71_params", "Simint.C71_params_inj", "Simint.C71_functions", "Simint.C71_calls", "Simint.C71_variants", "Simint.C71_once"], "note": "names as strings; angular momenta 60 and above have no letter"},
{"property": "C72", "status": "proved", "theorems": ["Simint.C72_tables", "Simint.C72_eri"], "note": "long double as real numbers; total of the powers below 200"},
{"property": "C73", "status": "proved", "theorems": ["Simint.C73_boys", "Simint.C73_boys_exact", "Simint.C73_outside", "Simint.C73_constants", "Simint.C73_far", "Simint.C73_eri"], "note": "truncation error only, long double as real numbers; total of the powers up to 98; from order 198 on df is read past its end"},
{"property": "C74", "status": "partial", "theorems": ["Simint.C74_order", "Simint.C74_values", "Simint.C74_values_size", "Simint.C74_values_norm", "Simint.C74_gradients_partial", "Simint.C74_gradients_overlap", "Simint.C74_gradients_false", "Simint.C74_gradients_norm_false", "Simint.C74_numeric", "Simint.C74_numeric_layout", "Simint.C74_dispatch"], "note": "values: proved for all numbers of shells; derivatives: only for one shell in the first array (the code uses a stride without the factor 12, negation C74_gradients_false, exact contents C74_gradients_overlap) and without normalisation (negation C74_gradients_norm_false); real arithmetic, exact Boys function"},
{"property": "C75", "status": "partial", "theorems": ["Simint.C75_error", "Simint.C75_table", "Simint.C75_threads", "Simint.C75_unmarked_partial", "Simint.C75_nan_false", "Simint.C75_zero_false", "Simint.C75_mark_false", "Simint.C75_buffer", "Simint.C75_reference", "Simint.C75_reference_deriv", "Simint.C75_alloc", "Simint.C75_alloc_false", "Simint.C75_maxparams", "Simint.C75_unique"], "note": "the mark misses elements that are NaN (C75_nan_false) and elements with a zero reference (C75_zero_false), and a marked line may have no wrong element (C75_mark_false); the size of the buffers overflows an int for a molecule of the tests and two threads (C75_alloc_false); everything else proved; infinities and rounding not modelled"},
{"property": "C76", "status": "partial", "theorems": ["Simint.C76_shell", "Simint.C76_pair", "Simint.C76_pair_size", "Simint.C76_pair_false", "Simint.C76_bindings", "Simint.C76_complete", "Simint.C76_calls", "Simint.C76_wrapped", "Simint.C76_worksize"], "note": "shell pairs agree exactly with Intel or PGI or with derivatives (C76_pair); gfortran without derivatives does not preprocess the file and gets other offsets (C76_pair_false); work space sizes from 2^31 on do not fit the C_INT they pass through (C76_worksize); everything else proved"},
{"property": "C77", "status": "partial", "theorems": ["Simint.C77_throws", "Simint.C77_report_partial", "Simint.C77_scalar", "Simint.C77_throws_false", "Simint.C77_primMax", "Simint.C77_never_false"], "note": "the program throws exactly if the primitive pairs of some shell pair do not fill whole vectors (C77_throws, C77_throws_false); otherwise all numbers are proved, except that screen_max is at least 1e99 and the pairs of primitives that are never significant are not found (C77_never_false); rounding and overflow not modelled"},
{"property": "C78", "status": "proved", "theorems": ["Simint.C78_packed", "Simint.C78_dense", "Simint.C78_shared", "Simint.C78_water"], "note": "exact arithmetic; angular momenta up to 7 (C64); int overflow of the indices not modelled"},
{"property": "C79", "status": "partial", "theorems": ["Simint.MolFile.C79_read", "Simint.MolFile.C79_write", "Simint.MolFile.C79_roundtrip", "Simint.MolFile.C79_eof", "Simint.MolFile.C79_unknown_letter", "Simint.MolFile.C79_nprim2_false"], "note": "round trip, layouts and cut-off files are proved; the last part of the property is false: a type letter that is not in the table is read as an s shell (C79_unknown_letter); the fourth number that gen_mol.py writes is not what its comment says (C79_nprim2_false), nobody reads it; numbers are exact, the conversion of coordinates is a parameter"},
{"property": "C80", "status": "partial", "theorems": ["Simint.Align.C80_alloc", "Simint.Align.C80_loads", "Simint.Align.C80_cover", "Simint.Align.C80_null_screen", "Simint.Align.C80_workspace", "Simint.Align.C80_results", "Simint.Align.C80_results_false", "Simint.Align.C80_tmp", "Simint.Align.C80_tmp_false"], "note": "loads from lists and the work buffer are proved; false for the result pieces of the tests (aligned exactly if the vector length divides their size; only the Intel compiler is told) and for the local array of contract_all in the AVX-512 header (aligned exactly if the array happens to be)"},
{"property": "C81", "status": "partial", "theorems": ["Simint.IntArith.C81_direct", "Simint.IntArith.C81_hrr", "Simint.IntArith.C81_alloc", "Simint.IntArith.C81_wrap", "Simint.IntArith.C81_direct_false"], "note": "false for large lists; the exact conditions are proved: the number of integrals (functions without horizontal stage), the number of quartets and the offset of the last one (functions with it), twice the number of pairs and the number of slots (allocation)"},
{"property": "C82", "status": "partial", "theorems": ["Simint.TestProg.C82_max", "Simint.TestProg.C82_eri_norace", "Simint.TestProg.C82_eri_inside", "Simint.TestProg.C82_eri_defined", "Simint.TestProg.C82_eri_defined_false", "Simint.TestProg.C82_one_race", "Simint.TestProg.C82_one_race_false", "Simint.TestProg.C82_one_inside", "Simint.TestProg.C82_bench_norace", "Simint.TestProg.C82_bench_defined", "Simint.TestProg.C82_bench_defined_false"], "note": "buffers and the two-electron loops are proved; false for files that lack an angular momentum: race in the one-electron tests, calls with uninitialised angular momenta in the two-electron tests and the benchmark (exact conditions proved)"},
{"property": "C83", "status": "partial", "theorems": ["Simint.FlBoys.C83_ieee", "Simint.FlBoys.C83_index", "Simint.FlBoys.C83_near", "Simint.FlBoys.C83_far_partial", "Simint.FlBoys.C83_far_small", "Simint.FlBoys.C83_scalar_false", "Simint.FlBoys.C83_lanes_differ", "Simint.FlBoys.C83_exact"], "note": "proved below 36.5 and for the vector functions; false for boys_F_long_single, whose pow underflows for large arguments: all orders become zero (proved for every such argument)"},
{"property": "C84", "status": "proved", "theorems": ["Simint.HRRRound.C84_bound", "Simint.HRRRound.C84_external", "Simint.HRRRound.C84_general", "Simint.HRRRound.C84_closed", "Simint.HRRRound.C84_diff", "Simint.HRRRound.C84_relative_false"], "note": "bound for any majorant and in closed form; that no bound relative to the integral itself holds is proved with a witness"},
{"property": "C85", "status": "proved", "theorems": ["Simint.VRRRound.C85_bound", "Simint.VRRRound.C85_closed", "Simint.VRRRound.C85_relative_false"], "note": "bound for any majorant and in closed form for the electron repulsion integrals; that no bound relative to the integral itself holds is proved with a witness"},
{"property": "C86", "status": "proved", "theorems": ["Simint.FlPrim.C86_ieee", "Simint.FlPrim.C86_pair", "Simint.FlPrim.C86_vars", "Simint.FlPrim.C86_arg", "Simint.FlPrim.C86_lane", "Simint.FlPrim.C86_near", "Simint.FlPrim.C86_far", "Simint.FlPrim.C86_underflow"], "note": "C86_lane for any Boys function with a relative error bound, C86_near and C86_far with the one of the library; that the prefactor has no bound of its error relative to itself is proved with a witness"},
{"property": "C87", "status": "proved", "theorems": ["Simint.C87_ieee", "Simint.C87_direct", "Simint.C87_hrr", "Simint.C87_bound", "Simint.C87_total", "Simint.C87_order"], "note": "direct classes and classes with a horizontal stage; C87_total adds errors of the primitive values; that the value depends on the order of the primitives is proved with a witness"},
{"property": "C88", "status": "proved", "theorems": ["Simint.C88_function", "Simint.C88_near", "Simint.C88_far", "Simint.C88_double"], "note": "for arguments of the Boys function at and above 36.5 with L >= 4 the hypothesis on the Boys function is left to the caller (see C65 and C83: it fails for some); a lane with a zero prefactor is taken to give zero also if something overflows in it"},
{"property": "C89", "status": "proved", "theorems": ["Simint.C89_list", "Simint.C89_shells", "Simint.C89_shells_far"], "note": "composition of the fill loops of C39 on doubles with C88; bra pairs in full batches (the exact condition of C58); without primitive screening; all hypotheses are about the shells"},
{"property": "C90", "status": "proved", "theorems": ["Simint.C90_function", "Simint.C90_double", "Simint.meanERI_eq", "Simint.meanERI_plain"], "note": "derivative functions of C61 with rounded operations and rounded factors; class up to a total angular momentum of 23; error of the Boys function as in C83"},
{"property": "C91", "status": "proved", "theorems": ["Simint.C91_gradients", "Simint.C91_gradients_far"], "note": "C89's lists and C90's functions together: complete fill and call, no hypothesis on the contents of the lists; pairs of a shell with itself included"},
{"property": "C92", "status": "proved", "theorems": ["Simint.FlOneEl.C92_overlap", "Simint.FlOneEl.C92_kinetic"], "note": "loops of C46 to C48 with rounded operations; assignments followed by an increment are one store"},
{"property": "C93", "status": "proved", "theorems": ["Simint.FlPot.C93_potential", "Simint.FlPot.C93_near", "Simint.FlPot.C93_low"], "note": "loops of C49 with rounded operations, Boys function of C83; for larger arguments with larger angular momenta C93_potential takes the error of the Boys function as a number of roundings"},
{"property": "C94", "status": "partial", "theorems": ["Simint.Stat.C94_vectors", "Simint.Stat.C94_calc", "Simint.Stat.C94_calc_off", "Simint.Stat.C94_total_partial", "Simint.Stat.C94_total_false", "Simint.Stat.C94_calc_false", "Simint.Stat.C94_store_partial", "Simint.Stat.C94_store_false"], "note": "vectors are counted right and calc_nprim is right with screening; the rest of the statement is false: padding lanes are counted, and the counters are stored past the integrals"},
{"property": "C95", "status": "proved", "theorems": ["Simint.FlNorm.C95_coef", "Simint.FlNorm.C95_norm", "Simint.FlNorm.C95_array", "Simint.FlNorm.normIn_nonneg", "Simint.FlNorm.powOK_ieee"], "note": "errors of the coefficients and of the norm of every component; normIn_nonneg: coefficients that are not negative satisfy the condition with K = 2"},
{"property": "C96", "status": "proved", "theorems": ["Simint.C96_basis", "Simint.C96_basis_far"], "note": "C95 composed with C89; the far version is for arguments of the Boys function up to 10^8 and L < 4"},
{"property": "C97", "status": "partial", "theorems": ["Simint.TableScripts.C97_rows", "Simint.TableScripts.C97_committed_partial", "Simint.TableScripts.C97_rows_false", "Simint.TableScripts.C97_lastRow", "Simint.TableScripts.C97_value", "Simint.TableScripts.C97_asym", "Simint.TableScripts.C97_longfac", "Simint.TableScripts.C97_normfac", "Simint.TableScripts.C97_cutoffs"], "note": "values, factors and cutoffs hold for all options; the number of rows is right only if the largest argument is no multiple of the spacing (exact condition without rounding), with the committed options it is right by a rounding error"},
{"property": "C98", "status": "proved", "theorems": ["Simint.FlBasisOne.C98_overlap", "Simint.FlBasisOne.C98_kinetic", "Simint.FlBasisOne.C98_norm", "Simint.FlBasisOne.C98_potential", "Simint.FlBasisOne.C98_potential_far"], "note": "C95 composed with C92 and C93"},
{"property": "C99", "status": "proved", "theorems": ["Simint.C99_gradients", "Simint.C99_gradients_far"], "note": "C95 composed with C91; the far version is for arguments of the Boys function up to 10^8 and L + 1 < 4"},
{"property": "C100", "status": "proved", "theorems": ["Simint.C100_screened", "Simint.C100_screened_far", "Simint.C100_runs", "Simint.C100_values", "Simint.C100_schwarz", "Simint.C100_schwarz_far"], "note": "C42, C44 and C89 together, on doubles"},
{"property": "C101", "status": "proved", "theorems": ["Simint.FlFast.C101_value", "Simint.FlFast.C101_shell", "Simint.FlFast.C101_near", "Simint.FlFast.C101_screened", "Simint.FlFast.C101_screened_far"], "note": "for other classes the fast values are no bound even in exact arithmetic (C70)"},
{"property": "C102", "status": "proved", "theorems": ["Simint.C102_any", "Simint.C102_same", "Simint.C102_filled", "Simint.C102_screened", "Simint.C102_screened_far", "Simint.C102_basis", "Simint.C102_basis_far"], "note": "the delayed sums of the AVX512 branches (C57) add in another order, see C103 and C104"},
{"property": "C103", "status": "proved", "theorems": ["Simint.C103_contract_all", "Simint.C103_direct", "Simint.C103_hrr", "Simint.C103_delayed", "Simint.C103_delayed_bound", "Simint.C103_lanes", "Simint.C103_builds", "Simint.C103_differ"], "note": "the bounds of C88 and of all claims built on it are stated for any variant (`Build.all`)"},
{"property": "C104", "status": "proved", "theorems": ["Simint.C104_sums", "Simint.C104_function", "Simint.C104_shells", "Simint.C104_basis", "Simint.C104_shells_far", "Simint.C104_basis_far", "Simint.C104_screened_any", "Simint.C104_screened_any_far", "Simint.C104_screened", "Simint.C104_screened_far"], "note": "C104_sums and C104_function allow any tolerance (screening values behind the batches zero); positive tolerances from filled lists: C104_screened_any, C104_screened"},
{"property": "C105", "status": "proved", "theorems": ["Simint.C105_basis", "Simint.C105_basis_far", "Simint.C105_avx512", "Simint.C105_avx512_far"], "note": "C96, C101, C102 and C104 together"},
{"property": "C106", "status": "proved", "theorems": ["Simint.C106_basis", "Simint.C106_basis_far"], "note": "C96 and C100 together; stores of screening values in their array (C44) is a hypothesis"}
]}
