import Verif.Props.Align
import Verif.Props.Boys
import Verif.Props.BraBatch
import Verif.Props.Cat
import Verif.Props.CommandLine
import Verif.Props.CreatePy
import Verif.Props.Deriv
import Verif.Props.DerivPermute
import Verif.Props.Dispatch
import Verif.Props.Driver
import Verif.Props.Exact
import Verif.Props.FastScreen
import Verif.Props.FileList
import Verif.Props.FlBasis
import Verif.Props.FlBasisGrad
import Verif.Props.FlBasisOne
import Verif.Props.FlBasisSchwarz
import Verif.Props.FlBasisScreen
import Verif.Props.FlBoys
import Verif.Props.FlDeriv
import Verif.Props.FlFast
import Verif.Props.FlFunction
import Verif.Props.FlGrad
import Verif.Props.FlHsum
import Verif.Props.FlNorm
import Verif.Props.FlOneEl
import Verif.Props.FlPot
import Verif.Props.FlPrim
import Verif.Props.FlScreen
import Verif.Props.FlShells
import Verif.Props.FlSsss
import Verif.Props.FlSum
import Verif.Props.Fortran
import Verif.Props.Function
import Verif.Props.HRR
import Verif.Props.HRRRound
import Verif.Props.Hsum
import Verif.Props.IntArith
import Verif.Props.MolFile
import Verif.Props.Naming
import Verif.Props.Norm
import Verif.Props.OneEl
import Verif.Props.Ordering
import Verif.Props.Packed
import Verif.Props.Permute
import Verif.Props.Potential
import Verif.Props.RealIntegrals
import Verif.Props.SchwarzFill
import Verif.Props.Screen
import Verif.Props.ScreenStat
import Verif.Props.ScreenTest
import Verif.Props.Shell
import Verif.Props.ShellFill
import Verif.Props.ShellScreen
import Verif.Props.Sort
import Verif.Props.SortFill
import Verif.Props.Ssss
import Verif.Props.SsssDelayed
import Verif.Props.SsssDelayedFar
import Verif.Props.SsssDelayedScreen
import Verif.Props.TableScripts
import Verif.Props.Tables
import Verif.Props.TestErrors
import Verif.Props.TestProg
import Verif.Props.VRR
import Verif.Props.VRRRound
import Verif.Props.Valeev
import Verif.Props.ValeevArrays
import Verif.Props.ValeevNum
import Verif.Props.Workspace

/-! Axioms used by each property theorem, printed during the build. -/

#print axioms Simint.C01_enumeration
#print axioms Simint.C02_tables_complete
#print axioms Simint.C02_tables_cover
#print axioms Simint.C02_lookup_inverse
#print axioms Simint.C03_hash_injective
#print axioms Simint.C03_collision_at_256
#print axioms Simint.C04_quartet_index_bijective
#print axioms Simint.C04_row_major
#print axioms Simint.C04_targets_complete
#print axioms Simint.C05_strict_total_orders
#print axioms Simint.C05_type_not_compared
#print axioms Simint.C06_direction
#print axioms Simint.C07_table_is_generated
#print axioms Simint.C07_recur_record
#print axioms Simint.C08_bra_identity
#print axioms Simint.C08_ket_identity
#print axioms Simint.functionalFam_hrr
#print axioms Simint.C09_search_closed
#print axioms Simint.C10_order_topological
#print axioms Simint.C10_reads_are_deps
#print axioms Simint.C11_inline_exact
#print axioms Simint.C11_mixed_exact
#print axioms Simint.C11_external_arguments
#print axioms Simint.C12_general_exact
#print axioms Simint.C12_gamess_order_wrong
#print axioms Simint.C13_step_identity
#print axioms Simint.C14_search_closed
#print axioms Simint.C15_orders_sufficient
#print axioms Simint.C16_order_topological
#print axioms Simint.C17_vertical_exact
#print axioms Simint.C17_external_two_sided_diverges
#print axioms Simint.C18_inline_constants
#print axioms Simint.C18_external_constants
#print axioms Simint.C19_generic_exact
#print axioms Simint.C19_specialised_agree
#print axioms Simint.C20_vertical
#print axioms Simint.C20_horizontal
#print axioms Simint.C20_start
#print axioms Simint.C20_coulomb
#print axioms Simint.C21_partition
#print axioms Simint.C21_reported
#print axioms Simint.C21_intermediates
#print axioms Simint.C22_sufficient
#print axioms Simint.C22_monotone
#print axioms Simint.C22_multiple
#print axioms Simint.C23_round
#print axioms Simint.C23_round_model
#print axioms Simint.C23_not_power_of_two
#print axioms Simint.C24_lane_owner
#print axioms Simint.C24_owner_exists
#print axioms Simint.C24_empty_shell_wrong
#print axioms Simint.C25_direct
#print axioms Simint.C25_hrr
#print axioms Simint.C26_same_shells_direct
#print axioms Simint.C26_same_shells_hrr
#print axioms Simint.C26_screen_padding_matters
#print axioms Simint.C27_clip_prefix
#print axioms Simint.C28_kept
#print axioms Simint.C28_off
#print axioms Simint.C28_difference
#print axioms Simint.C28_error
#print axioms Simint.C28_refused
#print axioms Simint.C28_vector_max
#print axioms Simint.C29_ssss
#print axioms Simint.C29_own_data_safe
#print axioms Simint.C29_repeat_partial
#print axioms Simint.C29_history_matters
#print axioms Simint.C30_contract
#print axioms Simint.C30_contract_all
#print axioms Simint.C30_contract_fac
#print axioms Simint.C30_out_of_bounds
#print axioms Simint.C31_exactly_once
#print axioms Simint.C31_names
#print axioms Simint.C31_named
#print axioms Simint.C32_permuted
#print axioms Simint.C32_reorder
#print axioms Simint.C33_layouts_coincide
#print axioms Simint.C33_sharp
#print axioms Simint.C34_form
#print axioms Simint.C34_derivative
#print axioms Simint.C34_translation
#print axioms Simint.C35_reorder
#print axioms Simint.C35_permuted
#print axioms Simint.C36_classes_sufficient
#print axioms Simint.C37_fill_writes_allocation
#print axioms Simint.C38_disjoint
#print axioms Simint.C39_layout
#print axioms Simint.C39_holds
#print axioms Simint.C40_symmetric
#print axioms Simint.C40_integrals
#print axioms Simint.C40_derivatives
#print axioms Simint.C41_sort
#print axioms Simint.C41_fill
#print axioms Simint.C42_multi_actual
#print axioms Simint.C42_multi_partial
#print axioms Simint.C42_multi_wrong
#print axioms Simint.C42_multi_negation
#print axioms Simint.C42_shellpairs_partial
#print axioms Simint.C42_listFor
#print axioms Simint.C43_copy_partial
#print axioms Simint.C43_overread
#print axioms Simint.C44_schwarz_iff
#print axioms Simint.C44_schwarz_partial
#print axioms Simint.C44_fastschwarz
#print axioms Simint.C44_overrun
#print axioms Simint.C44_contents
#print axioms Simint.C45_upper_bound
#print axioms Simint.C45_elements
#print axioms Simint.C45_skip
#print axioms Simint.C45_never_skipped
#print axioms Simint.C46_overlap_terms
#print axioms Simint.C47_kinetic_terms
#print axioms Simint.C48_overlap
#print axioms Simint.C48_kinetic
#print axioms Simint.C49_recursion
#print axioms Simint.C49_potential
#print axioms Simint.C50_in_bounds_partial
#print axioms Simint.C50_classes_partial
#print axioms Simint.C50_outside
#print axioms Simint.C50_iff
#print axioms Simint.C50_false
#print axioms Simint.C51_recursion
#print axioms Simint.C51_long
#print axioms Simint.C52_work_list
#print axioms Simint.C53_contents
#print axioms Simint.C53_separate_partial
#print axioms Simint.C53_lists_shared
#print axioms Simint.C54_helpers_generated
#print axioms Simint.C54_nothing_else
#print axioms Simint.C54_calls_exact
#print axioms Simint.C54_no_overwrite
#print axioms Simint.C55_self_call_iff
#print axioms Simint.C55_self_call
#print axioms Simint.C55_terminates_iff
#print axioms Simint.C55_no_self_call_partial
#print axioms Simint.C55_create
#print axioms Simint.C56_common
#print axioms Simint.C56_order
#print axioms Simint.C56_left
#print axioms Simint.C56_error
#print axioms Simint.C56_prog
#print axioms Simint.C56_create_ostei
#print axioms Simint.C56_create_vrr
#print axioms Simint.C56_create_hrr
#print axioms Simint.C57_delayed_sums
#print axioms Simint.C25_bra_layout
#print axioms Simint.C25_bra_small
#print axioms Simint.C25_bra_scalar
#print axioms Simint.C25_bra_padding_wrong
#print axioms Simint.C58_batches
#print axioms Simint.C58_example1
#print axioms Simint.C64_bra_false
#print axioms Simint.C59_function
#print axioms Simint.C59_integrals
#print axioms Simint.C60_declared
#print axioms Simint.C61_function
#print axioms Simint.C61_gradient
#print axioms Simint.C62_integrals
#print axioms Simint.C62_derivatives
#print axioms Simint.C62_complete
#print axioms Simint.C62_complete_derivatives
#print axioms Simint.C63_normalized
#print axioms Simint.C63_unit
#print axioms Simint.C63_table
#print axioms Simint.C63_outside
#print axioms Simint.C63_array
#print axioms Simint.C64_shipped
#print axioms Simint.C64_table
#print axioms Simint.C64_missing
#print axioms Simint.C64_missing_exists
#print axioms Simint.C64_screened
#print axioms Simint.C64_screened_deriv
#print axioms Simint.C64_calls_partial
#print axioms Simint.C64_integrals_partial
#print axioms Simint.C64_shells_partial
#print axioms Simint.C64_batches_partial
#print axioms Simint.C64_derivatives_partial
#print axioms Simint.C64_negative
#print axioms Simint.C65_table
#print axioms Simint.C65_longfac
#print axioms Simint.C65_short_partial
#print axioms Simint.C65_long_small_partial
#print axioms Simint.C65_long_large_partial
#print axioms Simint.C65_long_bound_partial
#print axioms Simint.C65_long_false
#print axioms Simint.C66_complete_partial
#print axioms Simint.C66_incomplete
#print axioms Simint.C67_horizontal
#print axioms Simint.C67_vertical
#print axioms Simint.C67_step
#print axioms Simint.C67_derivative
#print axioms Simint.C68_schwarz
#print axioms Simint.C68_values_partial
#print axioms Simint.C68_missing
#print axioms Simint.C68_error_partial
#print axioms Simint.C69_shells_partial
#print axioms Simint.C69_missing
#print axioms Simint.C69_fast
#print axioms Simint.C69_fast_not_bound
#print axioms Simint.C69_fast_partial
#print axioms Simint.C70_value
#print axioms Simint.C70_iff
#print axioms Simint.C70_not_bound
#print axioms Simint.C70_lost
#print axioms Simint.C70_error_partial
#print axioms Simint.C71_arrays
#print axioms Simint.C71_letters
#print axioms Simint.C71_ident
#print axioms Simint.C71_bra_steps
#print axioms Simint.C71_ket_steps
#print axioms Simint.C71_params
#print axioms Simint.C71_params_inj
#print axioms Simint.C71_functions
#print axioms Simint.C71_calls
#print axioms Simint.C71_variants
#print axioms Simint.C71_once
#print axioms Simint.C72_tables
#print axioms Simint.C72_eri
#print axioms Simint.C73_boys
#print axioms Simint.C73_boys_exact
#print axioms Simint.C73_outside
#print axioms Simint.C73_constants
#print axioms Simint.C73_far
#print axioms Simint.C73_eri
#print axioms Simint.C74_order
#print axioms Simint.C74_values
#print axioms Simint.C74_values_size
#print axioms Simint.C74_values_norm
#print axioms Simint.C74_gradients_partial
#print axioms Simint.C74_gradients_overlap
#print axioms Simint.C74_gradients_false
#print axioms Simint.C74_gradients_norm_false
#print axioms Simint.C74_numeric
#print axioms Simint.C74_numeric_layout
#print axioms Simint.C74_dispatch
#print axioms Simint.C75_error
#print axioms Simint.C75_table
#print axioms Simint.C75_threads
#print axioms Simint.C75_unmarked_partial
#print axioms Simint.C75_nan_false
#print axioms Simint.C75_zero_false
#print axioms Simint.C75_mark_false
#print axioms Simint.C75_buffer
#print axioms Simint.C75_reference
#print axioms Simint.C75_reference_deriv
#print axioms Simint.C75_alloc
#print axioms Simint.C75_alloc_false
#print axioms Simint.C75_maxparams
#print axioms Simint.C75_unique
#print axioms Simint.C76_shell
#print axioms Simint.C76_pair
#print axioms Simint.C76_pair_size
#print axioms Simint.C76_pair_false
#print axioms Simint.C76_bindings
#print axioms Simint.C76_complete
#print axioms Simint.C76_calls
#print axioms Simint.C76_wrapped
#print axioms Simint.C76_worksize
#print axioms Simint.C77_throws
#print axioms Simint.C77_report_partial
#print axioms Simint.C77_scalar
#print axioms Simint.C77_throws_false
#print axioms Simint.C77_primMax
#print axioms Simint.C77_never_false
#print axioms Simint.C78_packed
#print axioms Simint.C78_dense
#print axioms Simint.C78_shared
#print axioms Simint.C78_water
#print axioms Simint.MolFile.C79_read
#print axioms Simint.MolFile.C79_write
#print axioms Simint.MolFile.C79_roundtrip
#print axioms Simint.MolFile.C79_eof
#print axioms Simint.MolFile.C79_unknown_letter
#print axioms Simint.MolFile.C79_nprim2_false
#print axioms Simint.Align.C80_alloc
#print axioms Simint.Align.C80_loads
#print axioms Simint.Align.C80_cover
#print axioms Simint.Align.C80_null_screen
#print axioms Simint.Align.C80_workspace
#print axioms Simint.Align.C80_results
#print axioms Simint.Align.C80_results_false
#print axioms Simint.Align.C80_tmp
#print axioms Simint.Align.C80_tmp_false
#print axioms Simint.IntArith.C81_direct
#print axioms Simint.IntArith.C81_hrr
#print axioms Simint.IntArith.C81_alloc
#print axioms Simint.IntArith.C81_wrap
#print axioms Simint.IntArith.C81_direct_false
#print axioms Simint.TestProg.C82_max
#print axioms Simint.TestProg.C82_eri_norace
#print axioms Simint.TestProg.C82_eri_inside
#print axioms Simint.TestProg.C82_eri_defined
#print axioms Simint.TestProg.C82_eri_defined_false
#print axioms Simint.TestProg.C82_one_race
#print axioms Simint.TestProg.C82_one_race_false
#print axioms Simint.TestProg.C82_one_inside
#print axioms Simint.TestProg.C82_bench_norace
#print axioms Simint.TestProg.C82_bench_defined
#print axioms Simint.TestProg.C82_bench_defined_false
#print axioms Simint.FlBoys.C83_ieee
#print axioms Simint.FlBoys.C83_index
#print axioms Simint.FlBoys.C83_near
#print axioms Simint.FlBoys.C83_far_partial
#print axioms Simint.FlBoys.C83_far_small
#print axioms Simint.FlBoys.C83_scalar_false
#print axioms Simint.FlBoys.C83_lanes_differ
#print axioms Simint.FlBoys.C83_exact
#print axioms Simint.HRRRound.C84_bound
#print axioms Simint.HRRRound.C84_external
#print axioms Simint.HRRRound.C84_general
#print axioms Simint.HRRRound.C84_closed
#print axioms Simint.HRRRound.C84_diff
#print axioms Simint.HRRRound.C84_relative_false
#print axioms Simint.VRRRound.C85_bound
#print axioms Simint.VRRRound.C85_closed
#print axioms Simint.VRRRound.C85_relative_false
#print axioms Simint.FlPrim.C86_ieee
#print axioms Simint.FlPrim.C86_pair
#print axioms Simint.FlPrim.C86_vars
#print axioms Simint.FlPrim.C86_arg
#print axioms Simint.FlPrim.C86_lane
#print axioms Simint.FlPrim.C86_near
#print axioms Simint.FlPrim.C86_far
#print axioms Simint.FlPrim.C86_underflow
#print axioms Simint.C87_ieee
#print axioms Simint.C87_direct
#print axioms Simint.C87_hrr
#print axioms Simint.C87_bound
#print axioms Simint.C87_total
#print axioms Simint.C87_order
#print axioms Simint.C88_function
#print axioms Simint.C88_near
#print axioms Simint.C88_far
#print axioms Simint.C88_double
#print axioms Simint.C89_list
#print axioms Simint.C89_shells
#print axioms Simint.C89_shells_far
#print axioms Simint.C90_function
#print axioms Simint.C90_double
#print axioms Simint.meanERI_eq
#print axioms Simint.meanERI_plain
#print axioms Simint.C91_gradients
#print axioms Simint.C91_gradients_far
#print axioms Simint.FlOneEl.C92_overlap
#print axioms Simint.FlOneEl.C92_kinetic
#print axioms Simint.FlPot.C93_potential
#print axioms Simint.FlPot.C93_near
#print axioms Simint.FlPot.C93_low
#print axioms Simint.Stat.C94_vectors
#print axioms Simint.Stat.C94_calc
#print axioms Simint.Stat.C94_calc_off
#print axioms Simint.Stat.C94_total_partial
#print axioms Simint.Stat.C94_total_false
#print axioms Simint.Stat.C94_calc_false
#print axioms Simint.Stat.C94_store_partial
#print axioms Simint.Stat.C94_store_false
#print axioms Simint.FlNorm.C95_coef
#print axioms Simint.FlNorm.C95_norm
#print axioms Simint.FlNorm.C95_array
#print axioms Simint.FlNorm.normIn_nonneg
#print axioms Simint.FlNorm.powOK_ieee
#print axioms Simint.C96_basis
#print axioms Simint.C96_basis_far
#print axioms Simint.TableScripts.C97_rows
#print axioms Simint.TableScripts.C97_committed_partial
#print axioms Simint.TableScripts.C97_rows_false
#print axioms Simint.TableScripts.C97_lastRow
#print axioms Simint.TableScripts.C97_value
#print axioms Simint.TableScripts.C97_asym
#print axioms Simint.TableScripts.C97_longfac
#print axioms Simint.TableScripts.C97_normfac
#print axioms Simint.TableScripts.C97_cutoffs
#print axioms Simint.FlBasisOne.C98_overlap
#print axioms Simint.FlBasisOne.C98_kinetic
#print axioms Simint.FlBasisOne.C98_norm
#print axioms Simint.FlBasisOne.C98_potential
#print axioms Simint.FlBasisOne.C98_potential_far
#print axioms Simint.C99_gradients
#print axioms Simint.C99_gradients_far
#print axioms Simint.C100_screened
#print axioms Simint.C100_screened_far
#print axioms Simint.C100_runs
#print axioms Simint.C100_values
#print axioms Simint.C100_schwarz
#print axioms Simint.C100_schwarz_far
#print axioms Simint.FlFast.C101_value
#print axioms Simint.FlFast.C101_shell
#print axioms Simint.FlFast.C101_near
#print axioms Simint.FlFast.C101_screened
#print axioms Simint.FlFast.C101_screened_far
#print axioms Simint.C102_any
#print axioms Simint.C102_same
#print axioms Simint.C102_filled
#print axioms Simint.C102_screened
#print axioms Simint.C102_screened_far
#print axioms Simint.C102_basis
#print axioms Simint.C102_basis_far
#print axioms Simint.C103_contract_all
#print axioms Simint.C103_direct
#print axioms Simint.C103_hrr
#print axioms Simint.C103_delayed
#print axioms Simint.C103_delayed_bound
#print axioms Simint.C103_lanes
#print axioms Simint.C103_builds
#print axioms Simint.C103_differ
#print axioms Simint.C104_sums
#print axioms Simint.C104_function
#print axioms Simint.C104_shells
#print axioms Simint.C104_basis
#print axioms Simint.C104_shells_far
#print axioms Simint.C104_basis_far
#print axioms Simint.C104_screened_any
#print axioms Simint.C104_screened_any_far
#print axioms Simint.C104_screened
#print axioms Simint.C104_screened_far
#print axioms Simint.C105_basis
#print axioms Simint.C105_basis_far
#print axioms Simint.C105_avx512
#print axioms Simint.C105_avx512_far
#print axioms Simint.C106_basis
#print axioms Simint.C106_basis_far
