Ebcc.C01_complete: propext, Quot.sound
Ebcc.C01_count: propext, Quot.sound
Ebcc.C01_head: propext, Classical.choice, Quot.sound
Ebcc.C01_natural: propext, Quot.sound
Ebcc.C01_nodup: propext, Classical.choice, Quot.sound
Ebcc.C01_sign: propext, Classical.choice, Quot.sound
Ebcc.C02_docstring_disagrees: propext, Classical.choice, Quot.sound
Ebcc.C02_failure: propext, Classical.choice, Quot.sound
Ebcc.C02_rearrangement: propext, Classical.choice, Quot.sound
Ebcc.C02_roundtrip: propext, Classical.choice, Quot.sound
Ebcc.C03_binomial: propext, Classical.choice, Quot.sound
Ebcc.C03_count: propext, Classical.choice, Quot.sound
Ebcc.C03_enumeration: propext, Classical.choice, Quot.sound
Ebcc.C03_zero_dims: propext
Ebcc.C04_size: propext, Classical.choice, Quot.sound
Ebcc.C05_accepts_iff: propext, Classical.choice, Quot.sound
Ebcc.C05_axiswise_string_rejected: propext, Classical.choice, Quot.sound
Ebcc.C05_diag_antisym_fails: propext, Classical.choice, Quot.sound
Ebcc.C05_roundtrip: propext, Classical.choice, Quot.sound
Ebcc.C06_antisymmetric: propext, Classical.choice, Quot.sound
Ebcc.C06_roundtrip: propext, Classical.choice, Quot.sound
Ebcc.C06_vanishing_needed: propext, Classical.choice, Quot.sound
Ebcc.C07_diag_antisym_fails: propext, Classical.choice, Quot.sound
Ebcc.C07_symmetry: propext, Classical.choice, Quot.sound
Ebcc.C08_mixed_fails: propext, Classical.choice, Quot.sound
Ebcc.C08_symmetry_partial: propext, Classical.choice, Quot.sound
Ebcc.C08_uniform: propext, Classical.choice, Quot.sound
Ebcc.C09_idempotent_partial: propext, Classical.choice, Quot.sound
Ebcc.C09_identity_iff: propext, Classical.choice, Quot.sound
Ebcc.C09_identity_partial: propext, Classical.choice, Quot.sound
Ebcc.C09_scaling: propext, Classical.choice, Quot.sound
Ebcc.C09_three_axes_fails: propext, Classical.choice, Quot.sound
Ebcc.C100_energy: propext, Classical.choice, Quot.sound
Ebcc.C100_fock_false: propext
Ebcc.C100_mean_field: propext, Quot.sound
Ebcc.C100_options: propext
Ebcc.C100_orbitals_false: propext
Ebcc.C100_orbitals_partial: propext, Quot.sound
Ebcc.C10_antisymmetric: propext, Classical.choice, Quot.sound
Ebcc.C10_default: propext, Quot.sound
Ebcc.C10_scaling: propext, Classical.choice, Quot.sound
Ebcc.C11_all: propext, Classical.choice, Quot.sound
Ebcc.C11_all_excited: propext, Classical.choice, Quot.sound
Ebcc.C11_count: propext, Quot.sound
Ebcc.C11_order: propext, Classical.choice, Quot.sound
Ebcc.C11_unique: propext, Classical.choice, Quot.sound
Ebcc.C11_unique_count: propext, Classical.choice, Quot.sound
Ebcc.C12_ok_iff: propext, Classical.choice, Quot.sound
Ebcc.C12_spec: propext, Classical.choice, Quot.sound
Ebcc.C12_unequal: propext, Quot.sound
Ebcc.C13_inverse: propext, Classical.choice, Quot.sound
Ebcc.C13_permutation: propext, Classical.choice, Quot.sound
Ebcc.C13_sorted_stable: propext, Classical.choice, Quot.sound
Ebcc.C13_unique: propext, Classical.choice, Quot.sound
Ebcc.C13_unique_elements: propext, Quot.sound
Ebcc.C14_delete: propext, Classical.choice, Quot.sound
Ebcc.C14_eq: propext, Classical.choice, Quot.sound
Ebcc.C14_getattr: propext
Ebcc.C14_history: propext, Classical.choice, Quot.sound
Ebcc.C14_independent: propext, Classical.choice, Quot.sound
Ebcc.C14_shadowed: propext, Quot.sound
Ebcc.C15_contract_backend: propext, Classical.choice, Quot.sound
Ebcc.C15_contract_ttgt: propext, Classical.choice, Quot.sound
Ebcc.C15_einsum_one: propext, Classical.choice, Quot.sound
Ebcc.C15_einsum_two: propext, Classical.choice, Quot.sound
Ebcc.C15_rejects_inconsistent_sizes: propext, Classical.choice, Quot.sound
Ebcc.C16_comma_in_output: propext, Classical.choice, Quot.sound
Ebcc.C16_ellipsis_einsum: propext, Classical.choice, Quot.sound
Ebcc.C16_ellipsis_explicit: propext, Classical.choice, Quot.sound
Ebcc.C16_ellipsis_implicit: propext, Classical.choice, Quot.sound
Ebcc.C16_ellipsis_output_checked: propext, Classical.choice, Quot.sound
Ebcc.C16_ellipsis_rejected: propext, Classical.choice, Quot.sound
Ebcc.C16_empty_text_differs: propext, Classical.choice, Quot.sound
Ebcc.C16_explicit_output: propext, Classical.choice, Quot.sound
Ebcc.C16_implicit_output: propext, Classical.choice, Quot.sound
Ebcc.C16_list_form: propext, Classical.choice, Quot.sound
Ebcc.C16_list_form_error_kind: propext, Classical.choice, Quot.sound
Ebcc.C16_malformed_arrow: propext, Classical.choice, Quot.sound
Ebcc.C16_no_ellipsis: propext, Classical.choice, Quot.sound
Ebcc.C16_output_checked: propext, Classical.choice, Quot.sound
Ebcc.C17_chain_is_einstein_sum: propext, Classical.choice, Quot.sound
Ebcc.C17_einsum_chain: propext, Classical.choice, Quot.sound
Ebcc.C17_path_independent: propext, Classical.choice, Quot.sound
Ebcc.C17_scaling_rejected: propext, Classical.choice, Quot.sound
Ebcc.C18_dirsum_element_partial: propext, Classical.choice, Quot.sound
Ebcc.C18_dirsum_partial: propext, Classical.choice, Quot.sound
Ebcc.C18_implicit_partial: propext, Classical.choice, Quot.sound
Ebcc.C18_leading_sign_fails: propext, Classical.choice, Quot.sound
Ebcc.C18_surplus_operand_ignored: propext, Classical.choice, Quot.sound
Ebcc.C19_active_inactive_partial: propext, Classical.choice, Quot.sound
Ebcc.C19_counts: propext, Classical.choice, Quot.sound
Ebcc.C19_inactive_includes_frozen: propext
Ebcc.C19_masks: propext, Classical.choice, Quot.sound
Ebcc.C19_partition: propext, Classical.choice, Quot.sound
Ebcc.C19_sums: propext, Classical.choice, Quot.sound
Ebcc.C20_accepted_is_valid: propext, Classical.choice, Quot.sound
Ebcc.C20_accepts: 
Ebcc.C20_rejects_iff: propext, Classical.choice, Quot.sound
Ebcc.C21_oslice: propext, Classical.choice, Quot.sound
Ebcc.C21_sector_masks: propext, Classical.choice, Quot.sound
Ebcc.C21_slice: propext, Classical.choice, Quot.sound
Ebcc.C21_slice_raises_iff: propext, Classical.choice, Quot.sound
Ebcc.C21_vslice_empty_class_fails: propext
Ebcc.C21_vslice_iff: propext, Classical.choice, Quot.sound
Ebcc.C21_vslice_partial: propext, Classical.choice, Quot.sound
Ebcc.C21_xslice_inactive_fails: propext, Classical.choice, Quot.sound
Ebcc.C21_xslice_partial: propext, Classical.choice, Quot.sound
Ebcc.C22_default: propext, Classical.choice, Quot.sound
Ebcc.C22_fno_frac_monotone_partial: propext, Classical.choice, Quot.sound
Ebcc.C22_fno_freezes_lowest_partial: propext, Classical.choice, Quot.sound
Ebcc.C22_fno_freezes_occupied: propext, Classical.choice, Quot.sound
Ebcc.C22_fno_partial: propext, Classical.choice, Quot.sound
Ebcc.C22_fno_threshold_partial: propext, Classical.choice, Quot.sound
Ebcc.C22_fno_tol_monotone_partial: propext, Classical.choice, Quot.sound
Ebcc.C23_collision: propext, Classical.choice, Quot.sound
Ebcc.C23_injective: propext, Quot.sound
Ebcc.C23_named_distinct: propext, Classical.choice, Quot.sound
Ebcc.C23_roundtrip_fails: propext, Quot.sound
Ebcc.C23_roundtrip_hyphen: propext, Classical.choice, Quot.sound
Ebcc.C23_roundtrip_partial: propext, Quot.sound
Ebcc.C24_bosonic: propext, Classical.choice, Quot.sound
Ebcc.C24_ccd: propext, Classical.choice, Quot.sound
Ebcc.C24_coupling: propext, Quot.sound
Ebcc.C24_coupling_eom: propext, Quot.sound
Ebcc.C24_fermionic: propext, Classical.choice, Quot.sound
Ebcc.C24_mp: propext, Classical.choice, Quot.sound
Ebcc.C24_quadruples_not_adapted: propext, Classical.choice, Quot.sound
Ebcc.C24_slice_lengths: propext
Ebcc.C24_slices_partial: propext
Ebcc.C24_strictly_increasing_partial: propext, Classical.choice, Quot.sound
Ebcc.C24_two_triples: propext, Classical.choice, Quot.sound
Ebcc.C24_well_formed: propext, Classical.choice, Quot.sound
Ebcc.C25_bosonic: propext, Classical.choice, Quot.sound
Ebcc.C25_ccd_fails: propext, Classical.choice, Quot.sound
Ebcc.C25_fermionic_partial: propext, Classical.choice, Quot.sound
Ebcc.C25_flags_by_name: propext, Classical.choice, Quot.sound
Ebcc.C25_from_string: propext, Classical.choice, Quot.sound
Ebcc.C25_has_perturbative: propext, Classical.choice, Quot.sound
Ebcc.C25_one_shot: propext, Classical.choice, Quot.sound
Ebcc.C25_unknown_method_accepted: propext, Classical.choice, Quot.sound
Ebcc.C25_unknown_method_is_mp: propext, Classical.choice, Quot.sound
Ebcc.C26_bookkeeping_partial: propext, Classical.choice, Quot.sound
Ebcc.C26_newest_dropped: propext, Classical.choice, Quot.sound
Ebcc.C26_output_is_reference: propext, Classical.choice, Quot.sound
Ebcc.C26_space_exceeded: propext, Classical.choice, Quot.sound
Ebcc.C26_stale_cache: propext, Classical.choice, Quot.sound
Ebcc.C27_extrapolation: propext, Classical.choice, Quot.sound
Ebcc.C28_default_second_call_partial: propext, Classical.choice, Quot.sound
Ebcc.C28_first_call_partial: propext, Classical.choice, Quot.sound
Ebcc.C28_newest_not_returned: propext, Classical.choice, Quot.sound
Ebcc.C28_stuck_at_first: propext, Classical.choice, Quot.sound
Ebcc.C29_fixed_point: propext, Quot.sound
Ebcc.C29_linear_damping: propext, Classical.choice, Quot.sound
Ebcc.C29_undamped: propext, Classical.choice, Quot.sound
Ebcc.C30_converged: propext, Classical.choice, Quot.sound
Ebcc.C30_iterations: propext, Classical.choice, Quot.sound
Ebcc.C30_one_shot: propext, Quot.sound
Ebcc.C30_spurious_convergence: propext, Classical.choice, Quot.sound
Ebcc.C30_stops: propext, Classical.choice, Quot.sound
Ebcc.C31_given_amplitudes_ignored: propext
Ebcc.C31_ignores_argument: propext, Classical.choice, Quot.sound
Ebcc.C31_lambda_partial: propext, Classical.choice, Quot.sound
Ebcc.C32_amplitudes_partial: propext, Classical.choice, Quot.sound
Ebcc.C32_named: propext, Classical.choice, Quot.sound
Ebcc.C32_names: propext, Classical.choice, Quot.sound
Ebcc.C32_quadruples_reshaped: propext, Classical.choice, Quot.sound
Ebcc.C32_two_triples: propext, Classical.choice, Quot.sound
Ebcc.C32_vectors_partial: propext, Classical.choice, Quot.sound
Ebcc.C33_amplitudes_partial: propext, Classical.choice, Quot.sound
Ebcc.C33_named: propext, Classical.choice, Quot.sound
Ebcc.C33_vectors_partial: propext, Classical.choice, Quot.sound
Ebcc.C34_amplitudes_partial: propext, Classical.choice, Quot.sound
Ebcc.C34_named: propext, Classical.choice, Quot.sound
Ebcc.C34_vectors_partial: propext, Classical.choice, Quot.sound
Ebcc.C34_wrong_length: propext, Classical.choice, Quot.sound
Ebcc.C35_lengths_partial: propext, Classical.choice, Quot.sound
Ebcc.C35_long_vector_accepted: propext, Classical.choice, Quot.sound
Ebcc.C36_fixed_point: propext, Classical.choice, Quot.sound
Ebcc.C36_fixed_point_unrestricted_partial: propext, Classical.choice, Quot.sound
Ebcc.C36_unrestricted_triples_not_fixed: propext, Classical.choice, Quot.sound
Ebcc.C36_update: propext, Classical.choice, Quot.sound
Ebcc.C36_update_unrestricted: propext, Classical.choice, Quot.sound
Ebcc.C37_generalised_coupling_wrong: propext, Classical.choice, Quot.sound
Ebcc.C37_generalised_coupling_zero: propext, Classical.choice, Quot.sound
Ebcc.C37_generalised_partial: propext, Classical.choice, Quot.sound
Ebcc.C37_lambdas: propext, Classical.choice, Quot.sound
Ebcc.C37_lambdas_unrestricted: propext, Classical.choice, Quot.sound
Ebcc.C37_restricted: propext, Classical.choice, Quot.sound
Ebcc.C37_unrestricted_coupling_shape: propext, Classical.choice, Quot.sound
Ebcc.C37_unrestricted_coupling_wrong: propext, Classical.choice, Quot.sound
Ebcc.C37_unrestricted_partial: propext, Classical.choice, Quot.sound
Ebcc.C38_coupling_transposes: propext, Classical.choice, Quot.sound
Ebcc.C38_rdm1_fixed: propext, Classical.choice, Quot.sound
Ebcc.C38_rdm1_idempotent: propext, Classical.choice, Quot.sound
Ebcc.C38_rdm1_symmetric: propext, Classical.choice, Quot.sound
Ebcc.C38_rdm1_trace: propext, Classical.choice, Quot.sound
Ebcc.C38_rdm2_fixed: propext, Classical.choice, Quot.sound
Ebcc.C38_rdm2_idempotent: propext, Classical.choice, Quot.sound
Ebcc.C38_rdm2_mixed: propext, Classical.choice, Quot.sound
Ebcc.C38_rdm2_symmetric: propext, Classical.choice, Quot.sound
Ebcc.C38_rdm2_trace: propext, Classical.choice, Quot.sound
Ebcc.C39_27_characters_fail: propext, Classical.choice, Quot.sound
Ebcc.C39_argument_changed: propext, Classical.choice, Quot.sound
Ebcc.C39_argument_kept_iff: propext, Classical.choice, Quot.sound
Ebcc.C39_elements: propext, Classical.choice, Quot.sound
Ebcc.C39_elements_unrestricted: propext, Classical.choice, Quot.sound
Ebcc.C40_no_bosons: propext, Quot.sound
Ebcc.C40_shifted: propext, Classical.choice, Quot.sound
Ebcc.C40_unshifted: propext, Classical.choice, Quot.sound
Ebcc.C40_xi: propext, Classical.choice, Quot.sound
Ebcc.C41_diagonal_partial: propext, Classical.choice, Quot.sound
Ebcc.C41_not_unshifted: propext, Quot.sound
Ebcc.C41_off_diagonal: propext, Classical.choice, Quot.sound
Ebcc.C41_off_diagonal_wrong: propext, Classical.choice, Quot.sound
Ebcc.C41_one_mode: propext, Classical.choice, Quot.sound
Ebcc.C41_trace: propext, Classical.choice, Quot.sound
Ebcc.C42_antisymmetric: propext, Quot.sound
Ebcc.C42_blocks: propext, Quot.sound
Ebcc.C42_general_lambdas_partial: propext, Classical.choice, Quot.sound
Ebcc.C42_general_partial: propext, Classical.choice, Quot.sound
Ebcc.C42_restricted_to_general: propext, Classical.choice, Quot.sound
Ebcc.C42_space: propext, Classical.choice, Quot.sound
Ebcc.C42_triples_fails: propext, Classical.choice, Quot.sound
Ebcc.C42_unrestricted: propext, Classical.choice, Quot.sound
Ebcc.C42_unrestricted_identity: propext, Classical.choice, Quot.sound
Ebcc.C42_unrestricted_lambdas: propext, Classical.choice, Quot.sound
Ebcc.C42_unrestricted_symmetry: propext, Classical.choice, Quot.sound
Ebcc.C43_bosons: propext, Classical.choice, Quot.sound
Ebcc.C43_general_amplitudes: propext, Classical.choice, Quot.sound
Ebcc.C43_general_vectors: propext, Classical.choice, Quot.sound
Ebcc.C43_named: propext, Classical.choice, Quot.sound
Ebcc.C43_restricted_amplitudes: propext, Classical.choice, Quot.sound
Ebcc.C43_restricted_vectors: propext, Classical.choice, Quot.sound
Ebcc.C43_unrestricted_amplitudes_partial: propext, Classical.choice, Quot.sound
Ebcc.C43_unrestricted_fails: propext, Classical.choice, Quot.sound
Ebcc.C43_unrestricted_singles: propext, Classical.choice, Quot.sound
Ebcc.C43_unrestricted_vectors_partial: propext, Classical.choice, Quot.sound
Ebcc.C43_unrestricted_wrong_length: propext, Classical.choice, Quot.sound
Ebcc.C44_absolute: propext, Classical.choice, Quot.sound
Ebcc.C44_distinct: propext, Quot.sound
Ebcc.C44_excitations: propext, Classical.choice, Quot.sound
Ebcc.C44_guesses: propext, Classical.choice, Quot.sound
Ebcc.C44_koopmans_few: propext, Classical.choice, Quot.sound
Ebcc.C44_none: propext, Classical.choice, Quot.sound
Ebcc.C45_amplitudes: propext, Classical.choice, Quot.sound
Ebcc.C45_bosons: propext, Classical.choice, Quot.sound
Ebcc.C45_coefficients: propext, Classical.choice, Quot.sound
Ebcc.C45_coefficients_identity: propext, Classical.choice, Quot.sound
Ebcc.C45_coefficients_unrestricted: propext, Classical.choice, Quot.sound
Ebcc.C45_columns: propext, Classical.choice, Quot.sound
Ebcc.C45_identity: propext, Classical.choice, Quot.sound
Ebcc.C45_unrestricted_fails: propext, Classical.choice, Quot.sound
Ebcc.C45_unrestricted_partial: propext, Classical.choice, Quot.sound
Ebcc.C46_attribute_fails: propext
Ebcc.C46_attribute_partial: propext, Quot.sound
Ebcc.C46_message: propext, Classical.choice, Quot.sound
Ebcc.C47_active_axis_raises: propext, Classical.choice, Quot.sound
Ebcc.C47_corrected_partial: propext, Classical.choice, Quot.sound
Ebcc.C47_corrected_unrestricted_partial: propext, Classical.choice, Quot.sound
Ebcc.C47_frozen_fails: propext, Classical.choice, Quot.sound
Ebcc.C47_frozen_raises: propext, Classical.choice, Quot.sound
Ebcc.C47_reentrant_fails: propext
Ebcc.C47_refines: propext, Classical.choice, Quot.sound
Ebcc.C47_restored: propext, Classical.choice, Quot.sound
Ebcc.C47_tailored_partial: propext, Classical.choice, Quot.sound
Ebcc.C47_tailored_unrestricted_partial: propext, Classical.choice, Quot.sound
Ebcc.C48_exception_fails: propext, Classical.choice, Quot.sound
Ebcc.C48_exception_leaves: propext, Classical.choice, Quot.sound
Ebcc.C48_restores_partial: propext, Classical.choice, Quot.sound
Ebcc.C48_scoped_partial: propext, Classical.choice, Quot.sound
Ebcc.C49_density_fitting_fails: propext, Classical.choice, Quot.sound
Ebcc.C49_module_name_fails: propext, Classical.choice, Quot.sound
Ebcc.C49_none_fails: propext, Classical.choice, Quot.sound
Ebcc.C49_roundtrip_partial: propext, Classical.choice, Quot.sound
Ebcc.C49_stale_fails: propext, Classical.choice, Quot.sound
Ebcc.C50_bounded: propext, Classical.choice, Quot.sound
Ebcc.C50_follow_state_raises: propext, Classical.choice, Quot.sound
Ebcc.C50_projected: propext, Classical.choice, Quot.sound
Ebcc.C50_too_many: propext, Classical.choice, Quot.sound
Ebcc.C51_basis: propext, Classical.choice, Quot.sound
Ebcc.C51_orthonormalise: propext, Classical.choice, Quot.sound
Ebcc.C51_project: propext, Classical.choice, Quot.sound
Ebcc.C52_change_fails: propext, Classical.choice, Quot.sound
Ebcc.C52_change_partial: propext, Classical.choice, Quot.sound
Ebcc.C52_residual: propext, Classical.choice, Quot.sound
Ebcc.C53_cderis: propext, Classical.choice, Quot.sound
Ebcc.C53_cderis_unrestricted: propext, Classical.choice, Quot.sound
Ebcc.C53_couplings: propext, Quot.sound
Ebcc.C53_couplings_unrestricted: propext, Classical.choice, Quot.sound
Ebcc.C53_eris: propext, Quot.sound
Ebcc.C53_eris_unrestricted: propext, Classical.choice, Quot.sound
Ebcc.C53_fock_fails: propext, Classical.choice, Quot.sound
Ebcc.C53_fock_partial: propext, Classical.choice, Quot.sound
Ebcc.C53_fock_unrestricted_partial: propext, Classical.choice, Quot.sound
Ebcc.C53_unknown: propext, Classical.choice, Quot.sound
Ebcc.C53_unknown_fails: propext, Classical.choice, Quot.sound
Ebcc.C54_blocks: propext, Quot.sound
Ebcc.C54_first_pair: propext, Quot.sound
Ebcc.C54_last_pair: propext, Quot.sound
Ebcc.C55_contract: propext, Classical.choice, Quot.sound
Ebcc.C55_exchange: propext, Classical.choice, Quot.sound
Ebcc.C55_exchange_unrestricted: propext, Classical.choice, Quot.sound
Ebcc.C55_pair: propext, Classical.choice, Quot.sound
Ebcc.C56_builds: propext, Classical.choice, Quot.sound
Ebcc.C56_dispatch: propext, Classical.choice, Quot.sound
Ebcc.C56_override_partial: propext, Classical.choice, Quot.sound
Ebcc.C56_positional_fails: propext, Classical.choice, Quot.sound
Ebcc.C57_fails: propext, Classical.choice, Quot.sound
Ebcc.C57_hyphen_fails: propext, Classical.choice, Quot.sound
Ebcc.C57_listed_partial: propext, Classical.choice, Quot.sound
Ebcc.C57_lists: propext, Classical.choice, Quot.sound
Ebcc.C57_prime_fails: propext, Classical.choice, Quot.sound
Ebcc.C57_resolves_partial: propext, Classical.choice, Quot.sound
Ebcc.C58_precision_fails: propext, Classical.choice, Quot.sound
Ebcc.C58_precision_ignored: propext, Classical.choice, Quot.sound
Ebcc.C58_precision_partial: propext, Classical.choice, Quot.sound
Ebcc.C58_text: propext, Classical.choice, Quot.sound
Ebcc.C58_total: propext, Classical.choice, Quot.sound
Ebcc.C58_units: propext, Classical.choice, Quot.sound
Ebcc.C58_zero: propext, Classical.choice, Quot.sound
Ebcc.C59_block: propext, Classical.choice, Quot.sound
Ebcc.C59_block_inverse: propext, Classical.choice, Quot.sound
Ebcc.C59_fails: propext, Classical.choice, Quot.sound
Ebcc.C59_fails_fourth: propext, Classical.choice, Quot.sound
Ebcc.C59_inverse_partial: propext, Classical.choice, Quot.sound
Ebcc.C59_restricted: propext, Classical.choice, Quot.sound
Ebcc.C59_roundtrip_partial: propext, Classical.choice, Quot.sound
Ebcc.C59_unsupported: propext, Classical.choice, Quot.sound
Ebcc.C60_fails: propext, Classical.choice, Quot.sound
Ebcc.C60_fresh: propext, Classical.choice, Quot.sound
Ebcc.C60_keywords: propext, Classical.choice, Quot.sound
Ebcc.C60_others: propext, Classical.choice, Quot.sound
Ebcc.C60_unchanged_partial: propext, Classical.choice, Quot.sound
Ebcc.C61_factorial: propext, Classical.choice, Quot.sound
Ebcc.C61_factorial_negative: propext, Quot.sound
Ebcc.C61_mixed_spin: propext, Classical.choice, Quot.sound
Ebcc.C61_prod: propext, Quot.sound
Ebcc.C61_regularise_forms: propext
Ebcc.C61_regularise_raises: propext, Classical.choice, Quot.sound
Ebcc.C61_regularise_result: propext, Classical.choice, Quot.sound
Ebcc.C61_unique_order: propext, Classical.choice, Quot.sound
Ebcc.C62_lap: propext
Ebcc.C62_laps_add_up: propext
Ebcc.C62_nonneg: propext, Quot.sound
Ebcc.C62_total: propext
Ebcc.C63_koopmans: propext, Classical.choice, Quot.sound
Ebcc.C63_koopmans_breaks_pairs: propext, Classical.choice, Quot.sound
Ebcc.C63_make_real: propext, Quot.sound
Ebcc.C63_pairs_mixed: propext, Classical.choice, Quot.sound
Ebcc.C63_pick_enough: propext, Classical.choice, Quot.sound
Ebcc.C63_pick_keeps: propext, Classical.choice, Quot.sound
Ebcc.C63_pick_raises: propext, Classical.choice, Quot.sound
Ebcc.C63_pick_too_few: propext, Classical.choice, Quot.sound
Ebcc.C63_pick_vectors_partial: propext, Classical.choice, Quot.sound
Ebcc.C64_linear: propext, Classical.choice, Quot.sound
Ebcc.C64_preconditioner: propext, Classical.choice, Quot.sound
Ebcc.C64_sign_lost: propext, Classical.choice, Quot.sound
Ebcc.C65_external_partial: propext, Classical.choice, Quot.sound
Ebcc.C65_external_unrestricted_partial: propext, Classical.choice, Quot.sound
Ebcc.C65_frozen_fails: propext, Classical.choice, Quot.sound
Ebcc.C65_reentry_fails: propext, Classical.choice, Quot.sound
Ebcc.C66_cderis: propext, Classical.choice, Quot.sound
Ebcc.C66_cderis_four_unrestricted: propext, Classical.choice, Quot.sound
Ebcc.C66_cderis_unrestricted: propext, Classical.choice, Quot.sound
Ebcc.C66_couplings: propext, Classical.choice, Quot.sound
Ebcc.C66_couplings_unrestricted: propext, Classical.choice, Quot.sound
Ebcc.C66_eris: propext, Classical.choice, Quot.sound
Ebcc.C66_eris_general: propext, Classical.choice, Quot.sound
Ebcc.C66_eris_unrestricted: propext, Classical.choice, Quot.sound
Ebcc.C66_fock_partial: propext, Classical.choice, Quot.sound
Ebcc.C66_fock_unrestricted_partial: propext, Classical.choice, Quot.sound
Ebcc.C67_fixed_point: propext, Classical.choice, Quot.sound
Ebcc.C67_fixed_point_unrestricted_partial: propext, Classical.choice, Quot.sound
Ebcc.C67_general_perturbative_fails: propext, Classical.choice, Quot.sound
Ebcc.C67_perturbative_partial: propext, Classical.choice, Quot.sound
Ebcc.C67_unrestricted_perturbative_ignored: propext, Classical.choice, Quot.sound
Ebcc.C67_unrestricted_triples_not_fixed: propext, Classical.choice, Quot.sound
Ebcc.C67_update: propext, Classical.choice, Quot.sound
Ebcc.C67_update_unrestricted: propext, Classical.choice, Quot.sound
Ebcc.C68_arguments: propext, Classical.choice, Quot.sound
Ebcc.C68_foreign_integrals: propext, Classical.choice, Quot.sound
Ebcc.C68_general_density_fitting_fails: propext, Classical.choice, Quot.sound
Ebcc.C68_initial_integrals_fails: propext, Classical.choice, Quot.sound
Ebcc.C68_names: propext, Classical.choice, Quot.sound
Ebcc.C68_naux_fails: propext, Classical.choice, Quot.sound
Ebcc.C68_success: propext, Classical.choice, Quot.sound
Ebcc.C69_amplitudes: propext, Classical.choice, Quot.sound
Ebcc.C69_bosons_partial: propext, Classical.choice, Quot.sound
Ebcc.C69_density_matrices: propext, Classical.choice, Quot.sound
Ebcc.C69_initial_lambdas: propext, Classical.choice, Quot.sound
Ebcc.C69_lambdas: propext, Classical.choice, Quot.sound
Ebcc.C69_unshifted_fails: propext, Classical.choice, Quot.sound
Ebcc.C70_general_partial: propext, Classical.choice, Quot.sound
Ebcc.C70_restricted_partial: propext, Classical.choice, Quot.sound
Ebcc.C70_sign_fails: propext, Classical.choice, Quot.sound
Ebcc.C70_unrestricted_guess_fails: propext, Classical.choice, Quot.sound
Ebcc.C70_unrestricted_partial: propext, Classical.choice, Quot.sound
Ebcc.C71_arguments: propext, Classical.choice, Quot.sound
Ebcc.C71_general_eigenvectors: propext, Classical.choice, Quot.sound
Ebcc.C71_intermediate_arguments: propext, Classical.choice, Quot.sound
Ebcc.C71_intermediates: propext, Classical.choice, Quot.sound
Ebcc.C71_restricted_eigenvectors: propext, Classical.choice, Quot.sound
Ebcc.C71_unrestricted_eigenvectors_partial: propext, Classical.choice, Quot.sound
Ebcc.C71_unrestricted_fails: propext, Classical.choice, Quot.sound
Ebcc.C72_CC2: propext, Classical.choice, Quot.sound
Ebcc.C72_CCD: propext, Classical.choice, Quot.sound
Ebcc.C72_CCSD: propext, Classical.choice, Quot.sound
Ebcc.C72_DCD: propext, Classical.choice, Quot.sound
Ebcc.C72_DCSD: propext, Classical.choice, Quot.sound
Ebcc.C72_LCCD: propext, Classical.choice, Quot.sound
Ebcc.C72_LCCSD: propext, Classical.choice, Quot.sound
Ebcc.C72_MP2: propext, Classical.choice, Quot.sound
Ebcc.C72_QCISD: propext, Classical.choice, Quot.sound
Ebcc.C73_CC2: propext, Classical.choice, Quot.sound
Ebcc.C73_CCD: propext, Classical.choice, Quot.sound
Ebcc.C73_CCSD: propext, Classical.choice, Quot.sound
Ebcc.C73_DCD: propext, Classical.choice, Quot.sound
Ebcc.C73_DCSD: propext, Classical.choice, Quot.sound
Ebcc.C73_LCCD: propext, Classical.choice, Quot.sound
Ebcc.C73_LCCSD: propext, Classical.choice, Quot.sound
Ebcc.C73_QCISD: propext, Classical.choice, Quot.sound
Ebcc.C74_CC2: propext, Classical.choice, Quot.sound
Ebcc.C74_CCD: propext, Classical.choice, Quot.sound
Ebcc.C74_CCSD: propext, Classical.choice, Quot.sound
Ebcc.C75_CC2_amps: propext, Classical.choice, Quot.sound
Ebcc.C75_CC2_energy: propext, Classical.choice, Quot.sound
Ebcc.C75_CC2_lams: propext, Classical.choice, Quot.sound
Ebcc.C75_CCD_amps: propext, Classical.choice, Quot.sound
Ebcc.C75_CCD_energy: propext, Classical.choice, Quot.sound
Ebcc.C75_CCD_lams: propext, Classical.choice, Quot.sound
Ebcc.C75_CCSD_amps: propext, Classical.choice, Quot.sound
Ebcc.C75_CCSD_energy: propext, Classical.choice, Quot.sound
Ebcc.C75_CCSD_lams: propext, Classical.choice, Quot.sound
Ebcc.C75_DCD_amps: propext, Classical.choice, Quot.sound
Ebcc.C75_DCD_energy: propext, Classical.choice, Quot.sound
Ebcc.C75_DCSD_amps: propext, Classical.choice, Quot.sound
Ebcc.C75_DCSD_energy: propext, Classical.choice, Quot.sound
Ebcc.C75_LCCD_amps: propext, Classical.choice, Quot.sound
Ebcc.C75_LCCD_energy: propext, Classical.choice, Quot.sound
Ebcc.C75_LCCSD_amps: propext, Classical.choice, Quot.sound
Ebcc.C75_LCCSD_energy: propext, Classical.choice, Quot.sound
Ebcc.C75_QCISD_amps: propext, Classical.choice, Quot.sound
Ebcc.C75_QCISD_energy: propext, Classical.choice, Quot.sound
Ebcc.C76_CC2_false: propext, Classical.choice, Quot.sound
Ebcc.C76_CCD: propext, Classical.choice, Quot.sound
Ebcc.C76_CCSD: propext, Classical.choice, Quot.sound
Ebcc.C76_CCSDT: propext, Classical.choice, Quot.sound
Ebcc.C76_SD_1_1_false: propext, Classical.choice, Quot.sound
Ebcc.C76_SD_1_1_partial: propext, Classical.choice, Quot.sound
Ebcc.C76_SD_1_2_false: propext, Classical.choice, Quot.sound
Ebcc.C76_SD_1_2_partial: propext, Classical.choice, Quot.sound
Ebcc.C76_S_1_1_false: propext, Classical.choice, Quot.sound
Ebcc.C76_S_1_1_partial: propext, Classical.choice, Quot.sound
Ebcc.C77_CC2_energy_false: propext, Classical.choice, Quot.sound
Ebcc.C77_CC2_energy_partial: propext, Classical.choice, Quot.sound
Ebcc.C77_CC2_traces: propext, Classical.choice, Quot.sound
Ebcc.C77_CCD_energy: propext, Classical.choice, Quot.sound
Ebcc.C77_CCD_traces: propext, Classical.choice, Quot.sound
Ebcc.C77_CCSDT_traces: propext, Classical.choice, Quot.sound
Ebcc.C77_CCSD_SD_1_1_energy: propext, Classical.choice, Quot.sound
Ebcc.C77_CCSD_SD_1_1_traces: propext, Classical.choice, Quot.sound
Ebcc.C77_CCSD_SD_1_2_traces: propext, Classical.choice, Quot.sound
Ebcc.C77_CCSD_S_1_1_energy: propext, Classical.choice, Quot.sound
Ebcc.C77_CCSD_S_1_1_traces: propext, Classical.choice, Quot.sound
Ebcc.C77_CCSD_energy: propext, Classical.choice, Quot.sound
Ebcc.C77_CCSD_traces: propext, Classical.choice, Quot.sound
Ebcc.C78_CC2_ea_false: propext, Classical.choice, Quot.sound
Ebcc.C78_CC2_ip_false: propext, Classical.choice, Quot.sound
Ebcc.C78_CC2_jacobian_partial: propext, Classical.choice, Quot.sound
Ebcc.C78_CCD_ea: propext, Classical.choice, Quot.sound
Ebcc.C78_CCD_ee: propext, Classical.choice, Quot.sound
Ebcc.C78_CCD_ip: propext, Classical.choice, Quot.sound
Ebcc.C78_CCD_jacobian: propext, Classical.choice, Quot.sound
Ebcc.C78_CCSD_ea: propext, Classical.choice, Quot.sound
Ebcc.C78_CCSD_ee: propext, Classical.choice, Quot.sound
Ebcc.C78_CCSD_ip: propext, Classical.choice, Quot.sound
Ebcc.C78_CCSD_jacobian: propext, Classical.choice, Quot.sound
Ebcc.C78_CCSD_jacobian_at_solution: propext, Classical.choice, Quot.sound
Ebcc.C78_MP2_ea: propext, Classical.choice, Quot.sound
Ebcc.C78_MP2_ee_false: propext, Classical.choice, Quot.sound
Ebcc.C78_MP2_ip: propext, Classical.choice, Quot.sound
Ebcc.C79_GCC2: propext, Classical.choice, Quot.sound
Ebcc.C79_GCCD: propext, Classical.choice, Quot.sound
Ebcc.C79_GCCSD: propext, Classical.choice, Quot.sound
Ebcc.C79_GMP2: propext, Classical.choice, Quot.sound
Ebcc.C79_RCC2: propext, Classical.choice, Quot.sound
Ebcc.C79_RCCD: propext, Classical.choice, Quot.sound
Ebcc.C79_RCCSD: propext, Classical.choice, Quot.sound
Ebcc.C79_RDFCC2: propext, Classical.choice, Quot.sound
Ebcc.C79_RDFCCD: propext, Classical.choice, Quot.sound
Ebcc.C79_RDFCCSD: propext, Classical.choice, Quot.sound
Ebcc.C79_RMP2: propext, Classical.choice, Quot.sound
Ebcc.C79_UCC2: propext, Classical.choice, Quot.sound
Ebcc.C79_UCCD: propext, Classical.choice, Quot.sound
Ebcc.C79_UCCSD: propext, Classical.choice, Quot.sound
Ebcc.C79_UDFCC2: propext, Classical.choice, Quot.sound
Ebcc.C79_UDFCCD: propext, Classical.choice, Quot.sound
Ebcc.C79_UDFCCSD: propext, Classical.choice, Quot.sound
Ebcc.C79_UMP2: propext, Classical.choice, Quot.sound
Ebcc.C80_CC2_amps: propext, Classical.choice, Quot.sound
Ebcc.C80_CC2_energy: propext, Classical.choice, Quot.sound
Ebcc.C80_CC2_lams: propext, Classical.choice, Quot.sound
Ebcc.C80_CCD_amps: propext, Classical.choice, Quot.sound
Ebcc.C80_CCD_energy: propext, Classical.choice, Quot.sound
Ebcc.C80_CCD_lams: propext, Classical.choice, Quot.sound
Ebcc.C80_CCSD_SD_1_1_energy: propext, Classical.choice, Quot.sound
Ebcc.C80_CCSD_SD_1_2_energy: propext, Classical.choice, Quot.sound
Ebcc.C80_CCSD_S_1_1_energy: propext, Classical.choice, Quot.sound
Ebcc.C80_CCSD_amps: propext, Classical.choice, Quot.sound
Ebcc.C80_CCSD_energy: propext, Classical.choice, Quot.sound
Ebcc.C80_CCSD_lams: propext, Classical.choice, Quot.sound
Ebcc.C80_LCCD_amps: propext, Classical.choice, Quot.sound
Ebcc.C80_LCCD_energy: propext, Classical.choice, Quot.sound
Ebcc.C80_LCCSD_amps: propext, Classical.choice, Quot.sound
Ebcc.C80_LCCSD_energy: propext, Classical.choice, Quot.sound
Ebcc.C80_MP2_energy: propext, Classical.choice, Quot.sound
Ebcc.C80_MP3_energy: propext, Classical.choice, Quot.sound
Ebcc.C80_QCISD_amps: propext, Classical.choice, Quot.sound
Ebcc.C80_QCISD_energy: propext, Classical.choice, Quot.sound
Ebcc.C81_CCSD_SD_1_1_amps: propext, Classical.choice, Quot.sound
Ebcc.C81_CCSD_SD_1_1_energy: propext, Classical.choice, Quot.sound
Ebcc.C81_CCSD_SD_1_2_amps: propext, Classical.choice, Quot.sound
Ebcc.C81_CCSD_SD_1_2_energy: propext, Classical.choice, Quot.sound
Ebcc.C81_CCSD_S_1_1_amps_false: propext, Classical.choice, Quot.sound
Ebcc.C81_CCSD_S_1_1_amps_partial: propext, Classical.choice, Quot.sound
Ebcc.C81_CCSD_S_1_1_energy: propext, Classical.choice, Quot.sound
Ebcc.C82_fixed_points: propext, Classical.choice, Quot.sound
Ebcc.C82_step_false: propext, Classical.choice, Quot.sound
Ebcc.C82_step_partial: propext, Classical.choice, Quot.sound
Ebcc.C83_diis: propext, Classical.choice, Quot.sound
Ebcc.C83_diis_unrestricted: propext, Classical.choice, Quot.sound
Ebcc.C83_generator_false: propext, Classical.choice, Quot.sound
Ebcc.C83_generator_partial: propext, Classical.choice, Quot.sound
Ebcc.C83_orthonormal: propext, Classical.choice, Quot.sound
Ebcc.C83_orthonormal_unrestricted: propext, Classical.choice, Quot.sound
Ebcc.C83_sign: propext, Classical.choice, Quot.sound
Ebcc.C83_step: propext, Classical.choice, Quot.sound
Ebcc.C83_undamped: propext, Classical.choice, Quot.sound
Ebcc.C83_undamped_keeps: propext, Classical.choice, Quot.sound
Ebcc.C84_amplitudes: propext, Classical.choice, Quot.sound
Ebcc.C84_coefficients: propext, Classical.choice, Quot.sound
Ebcc.C84_general_amplitudes: propext, Classical.choice, Quot.sound
Ebcc.C84_general_coefficients: propext, Classical.choice, Quot.sound
Ebcc.C84_inverse: propext, Classical.choice, Quot.sound
Ebcc.C84_roundtrip: propext, Classical.choice, Quot.sound
Ebcc.C85_amplitudes_partial: propext, Classical.choice, Quot.sound
Ebcc.C85_amplitudes_partial.two_ne85: propext, Classical.choice, Quot.sound
Ebcc.C85_fails: propext, Classical.choice, Quot.sound
Ebcc.C85_vector_partial: propext, Classical.choice, Quot.sound
Ebcc.C86_amplitudes: propext, Classical.choice, Quot.sound
Ebcc.C86_restricted_amplitudes: propext, Classical.choice, Quot.sound
Ebcc.C86_restricted_coefficients: propext, Classical.choice, Quot.sound
Ebcc.C86_roundtrip: propext, Classical.choice, Quot.sound
Ebcc.C86_unrestricted: propext, Classical.choice, Quot.sound
Ebcc.C86_vector: propext, Classical.choice, Quot.sound
Ebcc.C87_fixed_points_partial: propext, Classical.choice, Quot.sound
Ebcc.C87_residuals: propext, Classical.choice, Quot.sound
Ebcc.C87_update_partial: propext, Classical.choice, Quot.sound
Ebcc.C88_converged: propext, Classical.choice, Quot.sound
Ebcc.C88_count_false: propext, Classical.choice, Quot.sound
Ebcc.C88_normalised: propext, Classical.choice, Quot.sound
Ebcc.C88_roots: propext, Classical.choice, Quot.sound
Ebcc.C89_frozen_false: propext, Classical.choice, Quot.sound
Ebcc.C89_hamiltonian: propext, Classical.choice, Quot.sound
Ebcc.C89_hamiltonian_unrestricted: propext, Classical.choice, Quot.sound
Ebcc.C89_total_energy_false: propext, Classical.choice, Quot.sound
Ebcc.C90_not_found: propext
Ebcc.C90_out: propext, Classical.choice, Quot.sound
Ebcc.C90_out_false: propext
Ebcc.C90_rejects_inconsistent_sizes: propext, Classical.choice, Quot.sound
Ebcc.C90_uninitialised_false: propext, Classical.choice, Quot.sound
Ebcc.C90_value: propext, Classical.choice, Quot.sound
Ebcc.C91_amps_CCSD: propext, Classical.choice, Quot.sound
Ebcc.C91_amps_LCCSD: propext, Classical.choice, Quot.sound
Ebcc.C91_amps_QCISD: propext, Classical.choice, Quot.sound
Ebcc.C91_amps_S_1_1: propext, Classical.choice, Quot.sound
Ebcc.C91_coupling_SD_1_1: propext, Classical.choice, Quot.sound
Ebcc.C91_coupling_SD_1_2: propext, Classical.choice, Quot.sound
Ebcc.C91_energy_CC2: propext, Classical.choice, Quot.sound
Ebcc.C91_energy_CCD: propext, Classical.choice, Quot.sound
Ebcc.C91_energy_CCSD: propext, Classical.choice, Quot.sound
Ebcc.C91_energy_CCSDT: propext, Classical.choice, Quot.sound
Ebcc.C91_energy_LCCSD: propext, Classical.choice, Quot.sound
Ebcc.C91_energy_MP3: propext, Classical.choice, Quot.sound
Ebcc.C91_energy_QCISD: propext, Classical.choice, Quot.sound
Ebcc.C91_energy_SD_1_1: propext, Classical.choice, Quot.sound
Ebcc.C91_energy_SD_1_2: propext, Classical.choice, Quot.sound
Ebcc.C91_energy_S_1_1: propext, Classical.choice, Quot.sound
Ebcc.C91_lams_CCSD: propext, Classical.choice, Quot.sound
Ebcc.C91_lams_SD_1_1_false: propext, Classical.choice, Quot.sound
Ebcc.C91_lams_S_1_1_singles: propext, Classical.choice, Quot.sound
Ebcc.C91_lmatvec_ea: propext, Classical.choice, Quot.sound
Ebcc.C91_lmatvec_ip: propext, Classical.choice, Quot.sound
Ebcc.C91_matvec_ea: propext, Classical.choice, Quot.sound
Ebcc.C91_matvec_ip: propext, Classical.choice, Quot.sound
Ebcc.C91_rdm1_CCSD: propext, Classical.choice, Quot.sound
Ebcc.C91_rdm1_CCSDT: propext, Classical.choice, Quot.sound
Ebcc.C91_rdm1_SD_1_1: propext, Classical.choice, Quot.sound
Ebcc.C91_rdm1_SD_1_2: propext, Classical.choice, Quot.sound
Ebcc.C91_rdm1_S_1_1: propext, Classical.choice, Quot.sound
Ebcc.C91_rdm1_b_SD_1_1: propext, Classical.choice, Quot.sound
Ebcc.C91_rdm1_b_SD_1_2: propext, Classical.choice, Quot.sound
Ebcc.C91_sing_b_SD_1_1: propext, Classical.choice, Quot.sound
Ebcc.C91_sing_b_SD_1_2: propext, Classical.choice, Quot.sound
Ebcc.C92_bitwise_and: propext, Quot.sound
Ebcc.C92_bitwise_not: 
Ebcc.C92_block: propext, Classical.choice, Quot.sound
Ebcc.C92_concatenate: propext, Classical.choice, Quot.sound
Ebcc.C92_concatenate_none_false: propext
Ebcc.C92_concatenate_rejects: propext, Quot.sound
Ebcc.C92_count_nonzero: propext, Classical.choice, Quot.sound
Ebcc.C92_indices: propext, Quot.sound
Ebcc.C92_put: propext, Quot.sound
Ebcc.C92_put_ctf_false: propext, Quot.sound
Ebcc.C92_put_false: propext, Quot.sound
Ebcc.C92_ravel_multi_index_false: propext, Quot.sound
Ebcc.C92_ravel_multi_index_matrix: propext, Quot.sound
Ebcc.C92_ravel_multi_index_partial: propext, Classical.choice, Quot.sound
Ebcc.C92_stack: propext, Classical.choice, Quot.sound
Ebcc.C92_stack_negative_false: propext
Ebcc.C93_GCC2: propext, Classical.choice, Quot.sound
Ebcc.C93_GCCD: propext, Classical.choice, Quot.sound
Ebcc.C93_GCCSD: propext, Classical.choice, Quot.sound
Ebcc.C93_GCCSDT: propext, Classical.choice, Quot.sound
Ebcc.C93_GCCSDTQ: propext, Classical.choice, Quot.sound
Ebcc.C93_GCCSD_SD_1_1: propext, Classical.choice, Quot.sound
Ebcc.C93_GCCSD_SD_1_2: propext, Classical.choice, Quot.sound
Ebcc.C93_GCCSD_S_1_1: propext, Classical.choice, Quot.sound
Ebcc.C93_GLCCD: propext, Classical.choice, Quot.sound
Ebcc.C93_GLCCSD: propext, Classical.choice, Quot.sound
Ebcc.C93_GMP2: propext, Classical.choice, Quot.sound
Ebcc.C93_GMP3: propext, Classical.choice, Quot.sound
Ebcc.C93_GQCISD: propext, Classical.choice, Quot.sound
Ebcc.C93_GecCC: propext, Classical.choice, Quot.sound
Ebcc.C93_RCC2: propext, Classical.choice, Quot.sound
Ebcc.C93_RCCD: propext, Classical.choice, Quot.sound
Ebcc.C93_RCCSD: propext, Classical.choice, Quot.sound
Ebcc.C93_RCCSD_SD_1_1: propext, Classical.choice, Quot.sound
Ebcc.C93_RCCSD_SD_1_2: propext, Classical.choice, Quot.sound
Ebcc.C93_RCCSD_S_1_1: propext, Classical.choice, Quot.sound
Ebcc.C93_RDCD: propext, Classical.choice, Quot.sound
Ebcc.C93_RDCSD: propext, Classical.choice, Quot.sound
Ebcc.C93_RDFCC2: propext, Classical.choice, Quot.sound
Ebcc.C93_RDFCCD: propext, Classical.choice, Quot.sound
Ebcc.C93_RDFCCSD: propext, Classical.choice, Quot.sound
Ebcc.C93_RDFDCD: propext, Classical.choice, Quot.sound
Ebcc.C93_RDFDCSD: propext, Classical.choice, Quot.sound
Ebcc.C93_RDFLCCD: propext, Classical.choice, Quot.sound
Ebcc.C93_RDFLCCSD: propext, Classical.choice, Quot.sound
Ebcc.C93_RDFQCISD: propext, Classical.choice, Quot.sound
Ebcc.C93_RLCCD: propext, Classical.choice, Quot.sound
Ebcc.C93_RLCCSD: propext, Classical.choice, Quot.sound
Ebcc.C93_RMP2: propext, Classical.choice, Quot.sound
Ebcc.C93_RQCISD: propext, Classical.choice, Quot.sound
Ebcc.C93_RecCC: propext, Classical.choice, Quot.sound
Ebcc.C93_UCC2: propext, Classical.choice, Quot.sound
Ebcc.C93_UCCD: propext, Classical.choice, Quot.sound
Ebcc.C93_UCCSD: propext, Classical.choice, Quot.sound
Ebcc.C93_UCCSD_SD_1_1: propext, Classical.choice, Quot.sound
Ebcc.C93_UCCSD_SD_1_2: propext, Classical.choice, Quot.sound
Ebcc.C93_UCCSD_S_1_1: propext, Classical.choice, Quot.sound
Ebcc.C93_UDCD: propext, Classical.choice, Quot.sound
Ebcc.C93_UDCSD: propext, Classical.choice, Quot.sound
Ebcc.C93_ULCCD: propext, Classical.choice, Quot.sound
Ebcc.C93_ULCCSD: propext, Classical.choice, Quot.sound
Ebcc.C93_UMP2: propext, Classical.choice, Quot.sound
Ebcc.C93_UMP3: propext, Classical.choice, Quot.sound
Ebcc.C93_UQCISD: propext, Classical.choice, Quot.sound
Ebcc.C93_UecCC: propext, Classical.choice, Quot.sound
Ebcc.C93_energies: propext, Classical.choice, Quot.sound
Ebcc.C93_energies_mp: propext, Classical.choice, Quot.sound
Ebcc.C93_energies_mp_u: propext, Classical.choice, Quot.sound
Ebcc.C93_energies_u: propext, Classical.choice, Quot.sound
Ebcc.C93_scalar: propext, Classical.choice, Quot.sound
Ebcc.C94_cderis: propext, Classical.choice, Quot.sound
Ebcc.C94_eris: propext, Classical.choice, Quot.sound
Ebcc.C94_eris_general: propext, Classical.choice, Quot.sound
Ebcc.C94_fock: propext, Classical.choice, Quot.sound
Ebcc.C95_amps: propext, Classical.choice, Quot.sound
Ebcc.C95_amps_u: propext, Classical.choice, Quot.sound
Ebcc.C95_lams: propext, Classical.choice, Quot.sound
Ebcc.C95_orbitals: propext, Classical.choice, Quot.sound
Ebcc.C95_orbitals_g: propext, Classical.choice, Quot.sound
Ebcc.C95_orbitals_u: propext, Classical.choice, Quot.sound
Ebcc.C96_pack_1e: propext, Classical.choice, Quot.sound
Ebcc.C96_pack_2e: propext, Classical.choice, Quot.sound
Ebcc.C96_pack_2e_arguments: propext
Ebcc.C96_symmetry: propext, Classical.choice, Quot.sound
Ebcc.C96_trace: propext, Quot.sound
Ebcc.C97_general_false: 
Ebcc.C97_general_partial: propext, Quot.sound
Ebcc.C97_objects: propext, Classical.choice, Quot.sound
Ebcc.C97_restricted: propext, Quot.sound
Ebcc.C97_two_ways: propext, Quot.sound
Ebcc.C97_unrestricted_false: 
Ebcc.C97_unrestricted_partial: propext, Quot.sound
Ebcc.C97_unrestricted_reference: propext
Ebcc.C98_correlation_false: propext
Ebcc.C98_false: propext
Ebcc.C98_general: propext, Classical.choice, Quot.sound
Ebcc.C98_norm: propext, Classical.choice, Quot.sound
Ebcc.C98_norm_restricted: propext, Classical.choice, Quot.sound
Ebcc.C98_reference: propext, Classical.choice, Quot.sound
Ebcc.C98_reference_general: propext, Quot.sound
Ebcc.C98_separate_partial: propext, Quot.sound
Ebcc.C98_t1: propext, Classical.choice, Quot.sound
Ebcc.C98_t1_unrestricted: propext, Classical.choice, Quot.sound
Ebcc.C98_total: propext, Classical.choice, Quot.sound
Ebcc.C99_first: propext, Classical.choice, Quot.sound
Ebcc.C99_git_false: propext, Classical.choice, Quot.sound
Ebcc.C99_git_missing: propext, Classical.choice, Quot.sound
Ebcc.C99_later: propext, Classical.choice, Quot.sound
Ebcc.C99_no_exception_partial: propext, Classical.choice, Quot.sound
Ebcc.C99_once: propext, Classical.choice, Quot.sound
Ebcc.C99_output: propext
Ebcc.C99_silent: propext, Classical.choice, Quot.sound
