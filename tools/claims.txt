C01 | proved | C01_enumeration | every am, Psi4 generator
C02 | proved | C02_tables_complete C02_tables_cover C02_lookup_inverse | both shipped tables, whole table
C03 | proved | C03_hash_injective C03_collision_at_256 | injective below 256; collision witness at 256
C04 | proved | C04_quartet_index_bijective C04_row_major C04_targets_complete | any complete Cartesian order
C05 | proved | C05_strict_total_orders C05_type_not_compared |
C06 | proved | C06_direction | C++ and python choose the same direction
C07 | proved | C07_table_is_generated C07_recur_record | whole shipped table, and any am for the generator
C08 | proved | C08_bra_identity C08_ket_identity functionalFam_hrr | any linear functional over a commutative ring
C09 | proved | C09_search_closed | any finite set of valid classes, any set iteration order
C10 | proved | C10_order_topological C10_reads_are_deps |
C11 | proved | C11_inline_exact C11_mixed_exact C11_external_arguments | all thresholds; Psi4 order and pair AM up to 18 when generic routines may be used
C12 | proved | C12_general_exact C12_gamess_order_wrong | Psi4 order; the GAMESS order is shown to give wrong values
C13 | proved | C13_step_identity | all four centers, any family over a commutative ring
C14 | proved | C14_search_closed | any list of targets, any set iteration order
C15 | proved | C15_orders_sufficient |
C16 | proved | C16_order_topological |
C17 | proved | C17_vertical_exact C17_external_two_sided_diverges | all thresholds; external code requires one-sided classes (shown necessary), generic code AM up to 18 and the Psi4 order
C18 | proved | C18_inline_constants C18_external_constants |
C19 | proved | C19_generic_exact C19_specialised_agree | AM up to 18 per center (size of the run-time table), Psi4 order
C20 | proved | C20_vertical C20_horizontal C20_start C20_coulomb | real integrals; start values are Boys functions; order zero is the Coulomb integral
C21 | proved | C21_partition C21_reported C21_intermediates |
C22 | proved | C22_sufficient C22_monotone C22_multiple |
C23 | proved | C23_round C23_round_model C23_not_power_of_two | power-of-two vector lengths; shown false otherwise
C24 | proved | C24_lane_owner C24_owner_exists C24_empty_shell_wrong | at least one primitive per shell, shown necessary
C25 | proved | C25_direct C25_hrr | bra primitives as the driver addresses them; agreement with the stored layout is C58
C26 | proved | C26_same_shells_direct C26_same_shells_hrr C26_screen_padding_matters | screening values of padding lanes must be fixed when screening is on, shown necessary; exact arithmetic
C27 | proved | C27_clip_prefix C26_same_shells_hrr |
C28 | proved | C28_kept C28_off C28_difference C28_error C28_refused C28_vector_max |
C29 | partial | C29_ssss C29_own_data_safe C29_repeat_partial C29_history_matters | the statement is false for the hand-written (ss|ss) function (C29_history_matters); proved: what it changes, and that repeated calls agree
C30 | proved | C30_contract C30_contract_all C30_contract_fac C30_out_of_bounds |
C31 | proved | C31_exactly_once C31_names C31_named |
C32 | proved | C32_permuted C32_reorder | nshell12 positive and not below the clip; same restrictions as C59
C33 | proved | C33_layouts_coincide C33_sharp |
C34 | proved | C34_form C34_derivative C34_translation | centerOf/moveCenter describe the position of a center; exact arithmetic
C35 | proved | C35_reorder C35_permuted | bra list read without gaps (C58); nshell12 positive for exchanged lists
C36 | proved | C36_classes_sufficient | classes with at most 17 AM per side (run-time tables)
C37 | proved | C37_fill_writes_allocation | no screening, or a screening routine that stores one value per pair of primitives (fastSchwarz_exact); the other routine is C44
C38 | proved | C38_disjoint |
C39 | proved | C39_layout C39_holds |
C40 | proved | C40_symmetric C40_integrals C40_derivatives |
C41 | proved | C41_sort C41_fill | every pair has at least one primitive (C39)
C42 | partial | C42_multi_actual C42_multi_partial C42_multi_wrong C42_multi_negation C42_shellpairs_partial C42_listFor | false for lists with several pairs and for nprim; proved for lists of one pair
C43 | partial | C43_copy_partial C43_overread | the statement is false: memcpy uses the size of the destination block; exact condition proved
C44 | partial | C44_schwarz_iff C44_schwarz_partial C44_fastschwarz C44_overrun C44_contents | the statement is false for lists of several pairs with simint_primscreen_schwarz; exact condition proved; the fast method is proved in full; with stores in bounds the filled contents are those of the exact values
C45 | proved | C45_upper_bound C45_elements C45_skip C45_never_skipped |
C46 | proved | C46_overlap_terms |
C47 | proved | C47_kinetic_terms |
C48 | proved | C48_overlap C48_kinetic | angular momenta up to 18, the size of the component table; exact arithmetic
C49 | proved | C49_recursion C49_potential | angular momenta up to 18, the size of the component table; exact arithmetic and exact Boys function (the Boys table ends earlier, C50)
C50 | partial | C50_in_bounds_partial C50_classes_partial C50_outside C50_iff C50_false | false for orders above 24; exact condition proved
C51 | proved | C51_recursion C51_long |
C52 | proved | C52_work_list |
C53 | partial | C53_contents C53_separate_partial C53_lists_shared | the statement is false as soon as derivatives are generated: all orders share one dictionary; contents of the lists proved
C54 | proved | C54_helpers_generated C54_nothing_else C54_calls_exact C54_no_overwrite | maxam up to 29 (the letters)
C55 | partial | C55_self_call_iff C55_self_call C55_terminates_iff C55_no_self_call_partial C55_create | false for classes with angular momentum on both centers of a pair; exact condition proved, and that create.py never asks for these
C56 | proved | C56_common C56_order C56_left C56_error C56_prog C56_create_ostei C56_create_vrr C56_create_hrr | stoi and the four option loops are modelled; create.py command lines read back
C57 | proved | C57_delayed_sums |
C58 | partial | C25_bra_layout C25_bra_small C25_bra_scalar C25_bra_padding_wrong C58_batches C58_example1 C64_bra_false | the statement is false beyond one batch of shells (C25_bra_padding_wrong; C64_bra_false: for every vector length above one a positive integral comes out as 0; C58_example1: the first example program is affected); exact condition proved
C59 | proved | C59_function C59_integrals | bra list read without gaps (C58); classes with at most 18 AM per side (run-time tables); exact arithmetic and exact Boys function
C60 | proved | C60_declared |
C61 | proved | C61_function C61_gradient | bra list read without gaps (C58); arrays alpha2 and beta2 hold twice the exponents of the two centers; exact arithmetic and exact Boys function
C62 | proved | C62_integrals C62_derivatives C62_complete C62_complete_derivatives | bra pairs in full batches (the exact condition of C58); no screening of integrals; exact arithmetic
C63 | proved | C63_normalized C63_unit C63_table C63_outside C63_array | exact arithmetic with the table as written
C64 | partial | C64_shipped C64_table C64_missing C64_missing_exists C64_screened C64_screened_deriv C64_calls_partial C64_integrals_partial C64_shells_partial C64_batches_partial C64_derivatives_partial C64_negative | true for all classes up to AM 7; false above (null pointers, the init files are copied unchanged); negative tolerances screen like positive ones
C65 | partial | C65_table C65_longfac C65_short_partial C65_long_small_partial C65_long_large_partial C65_long_bound_partial C65_long_false | tables proved in full; the accuracy claim is false for arguments from 36.5 on and larger orders, exact error proved; exact arithmetic
C66 | partial | C66_complete_partial C66_incomplete | true without derivatives; false with derivatives (proved for every limit) when classes of total angular momentum 2l+1 are external
C67 | proved | C67_horizontal C67_vertical C67_step C67_derivative |
C68 | partial | C68_schwarz C68_values_partial C68_missing C68_error_partial | proved for angular momenta up to 7 (above, the call is a null pointer, C64) and lists for which the stores of the routine stay in the array (C44)
C69 | partial | C69_shells_partial C69_missing C69_fast C69_fast_not_bound C69_fast_partial | simint_shellscreen_schwarz proved up to angular momentum 7 (null pointer above); the fast method is false already for s shells with two primitives
C70 | partial | C70_value C70_iff C70_not_bound C70_lost C70_error_partial | false for angular momentum above 0: arbitrary losses for diffuse p functions; exact condition on one center; true for s shells
C71 | proved | C71_arrays C71_letters C71_ident C71_bra_steps C71_ket_steps C71_params C71_params_inj C71_functions C71_calls C71_variants C71_once | names as strings; angular momenta 60 and above have no letter
C72 | proved | C72_tables C72_eri | long double as real numbers; total of the powers below 200
C73 | proved | C73_boys C73_boys_exact C73_outside C73_constants C73_far C73_eri | truncation error only, long double as real numbers; total of the powers up to 98; from order 198 on df is read past its end
C74 | partial | C74_order C74_values C74_values_size C74_values_norm C74_gradients_partial C74_gradients_overlap C74_gradients_false C74_gradients_norm_false C74_numeric C74_numeric_layout C74_dispatch | values: proved for all numbers of shells; derivatives: only for one shell in the first array (the code uses a stride without the factor 12, negation C74_gradients_false, exact contents C74_gradients_overlap) and without normalisation (negation C74_gradients_norm_false); real arithmetic, exact Boys function
C75 | partial | C75_error C75_table C75_threads C75_unmarked_partial C75_nan_false C75_zero_false C75_mark_false C75_buffer C75_reference C75_reference_deriv C75_alloc C75_alloc_false C75_maxparams C75_unique | the mark misses elements that are NaN (C75_nan_false) and elements with a zero reference (C75_zero_false), and a marked line may have no wrong element (C75_mark_false); the size of the buffers overflows an int for a molecule of the tests and two threads (C75_alloc_false); everything else proved; infinities and rounding not modelled
C76 | partial | C76_shell C76_pair C76_pair_size C76_pair_false C76_bindings C76_complete C76_calls C76_wrapped C76_worksize | shell pairs agree exactly with Intel or PGI or with derivatives (C76_pair); gfortran without derivatives does not preprocess the file and gets other offsets (C76_pair_false); work space sizes from 2^31 on do not fit the C_INT they pass through (C76_worksize); everything else proved
C77 | partial | C77_throws C77_report_partial C77_scalar C77_throws_false C77_primMax C77_never_false | the program throws exactly if the primitive pairs of some shell pair do not fill whole vectors (C77_throws, C77_throws_false); otherwise all numbers are proved, except that screen_max is at least 1e99 and the pairs of primitives that are never significant are not found (C77_never_false); rounding and overflow not modelled
C78 | proved | C78_packed C78_dense C78_shared C78_water | exact arithmetic; angular momenta up to 7 (C64); int overflow of the indices not modelled
C79 | partial | MolFile.C79_read MolFile.C79_write MolFile.C79_roundtrip MolFile.C79_eof MolFile.C79_unknown_letter MolFile.C79_nprim2_false | round trip, layouts and cut-off files are proved; the last part of the property is false: a type letter that is not in the table is read as an s shell (C79_unknown_letter); the fourth number that gen_mol.py writes is not what its comment says (C79_nprim2_false), nobody reads it; numbers are exact, the conversion of coordinates is a parameter
C80 | partial | Align.C80_alloc Align.C80_loads Align.C80_cover Align.C80_null_screen Align.C80_workspace Align.C80_results Align.C80_results_false Align.C80_tmp Align.C80_tmp_false | loads from lists and the work buffer are proved; false for the result pieces of the tests (aligned exactly if the vector length divides their size; only the Intel compiler is told) and for the local array of contract_all in the AVX-512 header (aligned exactly if the array happens to be)
C81 | partial | IntArith.C81_direct IntArith.C81_hrr IntArith.C81_alloc IntArith.C81_wrap IntArith.C81_direct_false | false for large lists; the exact conditions are proved: the number of integrals (functions without horizontal stage), the number of quartets and the offset of the last one (functions with it), twice the number of pairs and the number of slots (allocation)
C82 | partial | TestProg.C82_max TestProg.C82_eri_norace TestProg.C82_eri_inside TestProg.C82_eri_defined TestProg.C82_eri_defined_false TestProg.C82_one_race TestProg.C82_one_race_false TestProg.C82_one_inside TestProg.C82_bench_norace TestProg.C82_bench_defined TestProg.C82_bench_defined_false | buffers and the two-electron loops are proved; false for files that lack an angular momentum: race in the one-electron tests, calls with uninitialised angular momenta in the two-electron tests and the benchmark (exact conditions proved)
C83 | partial | FlBoys.C83_ieee FlBoys.C83_index FlBoys.C83_near FlBoys.C83_far_partial FlBoys.C83_far_small FlBoys.C83_scalar_false FlBoys.C83_lanes_differ FlBoys.C83_exact | proved below 36.5 and for the vector functions; false for boys_F_long_single, whose pow underflows for large arguments: all orders become zero (proved for every such argument)
C84 | proved | HRRRound.C84_bound HRRRound.C84_external HRRRound.C84_general HRRRound.C84_closed HRRRound.C84_diff HRRRound.C84_relative_false | bound for any majorant and in closed form; that no bound relative to the integral itself holds is proved with a witness
C85 | proved | VRRRound.C85_bound VRRRound.C85_closed VRRRound.C85_relative_false | bound for any majorant and in closed form for the electron repulsion integrals; that no bound relative to the integral itself holds is proved with a witness
C86 | proved | FlPrim.C86_ieee FlPrim.C86_pair FlPrim.C86_vars FlPrim.C86_arg FlPrim.C86_lane FlPrim.C86_near FlPrim.C86_far FlPrim.C86_underflow | C86_lane for any Boys function with a relative error bound, C86_near and C86_far with the one of the library; that the prefactor has no bound of its error relative to itself is proved with a witness
C87 | proved | C87_ieee C87_direct C87_hrr C87_bound C87_total C87_order | direct classes and classes with a horizontal stage; C87_total adds errors of the primitive values; that the value depends on the order of the primitives is proved with a witness
C88 | proved | C88_function C88_near C88_far C88_double | for arguments of the Boys function at and above 36.5 with L >= 4 the hypothesis on the Boys function is left to the caller (see C65 and C83: it fails for some); a lane with a zero prefactor is taken to give zero also if something overflows in it
C89 | proved | C89_list C89_shells C89_shells_far | composition of the fill loops of C39 on doubles with C88; bra pairs in full batches (the exact condition of C58); without primitive screening; all hypotheses are about the shells
C90 | proved | C90_function C90_double meanERI_eq meanERI_plain | derivative functions of C61 with rounded operations and rounded factors; class up to a total angular momentum of 23; error of the Boys function as in C83
C91 | proved | C91_gradients C91_gradients_far | C89's lists and C90's functions together: complete fill and call, no hypothesis on the contents of the lists; pairs of a shell with itself included
C92 | proved | FlOneEl.C92_overlap FlOneEl.C92_kinetic | loops of C46 to C48 with rounded operations; assignments followed by an increment are one store
C93 | proved | FlPot.C93_potential FlPot.C93_near FlPot.C93_low | loops of C49 with rounded operations, Boys function of C83; for larger arguments with larger angular momenta C93_potential takes the error of the Boys function as a number of roundings
C94 | partial | Stat.C94_vectors Stat.C94_calc Stat.C94_calc_off Stat.C94_total_partial Stat.C94_total_false Stat.C94_calc_false Stat.C94_store_partial Stat.C94_store_false | vectors are counted right and calc_nprim is right with screening; the rest of the statement is false: padding lanes are counted, and the counters are stored past the integrals
C95 | proved | FlNorm.C95_coef FlNorm.C95_norm FlNorm.C95_array FlNorm.normIn_nonneg FlNorm.powOK_ieee | errors of the coefficients and of the norm of every component; normIn_nonneg: coefficients that are not negative satisfy the condition with K = 2
C96 | proved | C96_basis C96_basis_far | C95 composed with C89; the far version is for arguments of the Boys function up to 10^8 and L < 4
C97 | partial | TableScripts.C97_rows TableScripts.C97_committed_partial TableScripts.C97_rows_false TableScripts.C97_lastRow TableScripts.C97_value TableScripts.C97_asym TableScripts.C97_longfac TableScripts.C97_normfac TableScripts.C97_cutoffs | values, factors and cutoffs hold for all options; the number of rows is right only if the largest argument is no multiple of the spacing (exact condition without rounding), with the committed options it is right by a rounding error
C98 | proved | FlBasisOne.C98_overlap FlBasisOne.C98_kinetic FlBasisOne.C98_norm FlBasisOne.C98_potential FlBasisOne.C98_potential_far | C95 composed with C92 and C93
C99 | proved | C99_gradients C99_gradients_far | C95 composed with C91; the far version is for arguments of the Boys function up to 10^8 and L + 1 < 4
C100 | proved | C100_screened C100_screened_far C100_runs C100_values C100_schwarz C100_schwarz_far | C42, C44 and C89 together, on doubles
C101 | proved | FlFast.C101_value FlFast.C101_shell FlFast.C101_near FlFast.C101_screened FlFast.C101_screened_far | for other classes the fast values are no bound even in exact arithmetic (C70)
C102 | proved | C102_any C102_same C102_filled C102_screened C102_screened_far C102_basis C102_basis_far | the delayed sums of the AVX512 branches (C57) add in another order, see C103 and C104
C103 | proved | C103_contract_all C103_direct C103_hrr C103_delayed C103_delayed_bound C103_lanes C103_builds C103_differ | the bounds of C88 and of all claims built on it are stated for any variant (`Build.all`)
C104 | proved | C104_sums C104_function C104_shells C104_basis C104_shells_far C104_basis_far C104_screened_any C104_screened_any_far C104_screened C104_screened_far | C104_sums and C104_function allow any tolerance (screening values behind the batches zero); positive tolerances from filled lists: C104_screened_any, C104_screened
C105 | proved | C105_basis C105_basis_far C105_avx512 C105_avx512_far | C96, C101, C102 and C104 together
C106 | proved | C106_basis C106_basis_far | C96 and C100 together; stores of screening values in their array (C44) is a hypothesis
