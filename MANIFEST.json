{
 "claims": [
  {
   "property": "C01",
   "status": "proved",
   "theorems": [
    "Ebcc.C01_count",
    "Ebcc.C01_complete",
    "Ebcc.C01_nodup",
    "Ebcc.C01_head",
    "Ebcc.C01_sign",
    "Ebcc.C01_natural"
   ],
   "note": "Model of permutations_with_signs; completeness, no duplicates, sign by inversion parity, naturality."
  },
  {
   "property": "C02",
   "status": "proved",
   "theorems": [
    "Ebcc.C02_roundtrip",
    "Ebcc.C02_rearrangement",
    "Ebcc.C02_failure",
    "Ebcc.C02_docstring_disagrees"
   ],
   "note": "Round trip and exact failure condition; the docstring example disagrees with the code (C02_docstring_disagrees)."
  },
  {
   "property": "C03",
   "status": "proved",
   "theorems": [
    "Ebcc.C03_enumeration",
    "Ebcc.C03_count",
    "Ebcc.C03_binomial",
    "Ebcc.C03_zero_dims"
   ],
   "note": "Enumeration, order and count for every n and dims."
  },
  {
   "property": "C04",
   "status": "proved",
   "theorems": [
    "Ebcc.C04_size"
   ],
   "note": "Length of the packed array equals get_compressed_size, for every subscript and sizes."
  },
  {
   "property": "C05",
   "status": "proved",
   "theorems": [
    "Ebcc.C05_roundtrip",
    "Ebcc.C05_accepts_iff",
    "Ebcc.C05_axiswise_string_rejected",
    "Ebcc.C05_diag_antisym_fails"
   ],
   "note": "For every accepted symmetry string, diagonal excluded (or included with no \"-\" group). Refuted with the diagonal and \"-\" (C05_diag_antisym_fails); accepted strings characterised (C05_accepts_iff)."
  },
  {
   "property": "C06",
   "status": "proved",
   "theorems": [
    "Ebcc.C06_roundtrip",
    "Ebcc.C06_antisymmetric",
    "Ebcc.C06_vanishing_needed"
   ],
   "note": "For every subscript and every array with the declared symmetry; vanishing condition shown necessary."
  },
  {
   "property": "C07",
   "status": "proved",
   "theorems": [
    "Ebcc.C07_symmetry",
    "Ebcc.C07_diag_antisym_fails"
   ],
   "note": "Diagonal excluded, or included without \"-\" groups. include_diagonal with \"-\" is refuted by C07_diag_antisym_fails."
  },
  {
   "property": "C08",
   "status": "partial",
   "theorems": [
    "Ebcc.C08_symmetry_partial",
    "Ebcc.C08_uniform",
    "Ebcc.C08_mixed_fails"
   ],
   "note": "Proved for uniform strings (including the default) and, more generally, when the string is constant on the axes of the first symbol: the result has that one symmetry in every group. The full claim is false of the code for mixed strings (C08_mixed_fails)."
  },
  {
   "property": "C09",
   "status": "partial",
   "theorems": [
    "Ebcc.C09_scaling",
    "Ebcc.C09_identity_partial",
    "Ebcc.C09_idempotent_partial",
    "Ebcc.C09_identity_iff",
    "Ebcc.C09_three_axes_fails"
   ],
   "note": "Exact scaling factor k!/2^(k-1) per group for every subscript; identity and idempotence proved when no symbol has more than two axes, and shown to hold only then (C09_identity_iff); refuted for three axes (C09_three_axes_fails)."
  },
  {
   "property": "C10",
   "status": "proved",
   "theorems": [
    "Ebcc.C10_antisymmetric",
    "Ebcc.C10_scaling",
    "Ebcc.C10_default"
   ],
   "note": "Every rank, every tuple of distinct axes of equal sizes."
  },
  {
   "property": "C11",
   "status": "proved",
   "theorems": [
    "Ebcc.C11_all",
    "Ebcc.C11_all_excited",
    "Ebcc.C11_order",
    "Ebcc.C11_count",
    "Ebcc.C11_unique",
    "Ebcc.C11_unique_count"
   ],
   "note": "All four flag settings, every n."
  },
  {
   "property": "C12",
   "status": "proved",
   "theorems": [
    "Ebcc.C12_spec",
    "Ebcc.C12_ok_iff",
    "Ebcc.C12_unequal"
   ],
   "note": "Exact specification of the result and exact success condition; the limit is 91 distinct keys."
  },
  {
   "property": "C13",
   "status": "proved",
   "theorems": [
    "Ebcc.C13_permutation",
    "Ebcc.C13_sorted_stable",
    "Ebcc.C13_unique",
    "Ebcc.C13_inverse",
    "Ebcc.C13_unique_elements"
   ],
   "note": "Stable sorting permutation, inverse on permutations, unique."
  },
  {
   "property": "C14",
   "status": "proved",
   "theorems": [
    "Ebcc.C14_history",
    "Ebcc.C14_getattr",
    "Ebcc.C14_delete",
    "Ebcc.C14_independent",
    "Ebcc.C14_eq",
    "Ebcc.C14_shadowed"
   ],
   "note": "Refinement of a heap of namespaces to the history of operations; names of methods shadow attribute access (C14_shadowed)."
  },
  {
   "property": "C15",
   "status": "proved",
   "theorems": [
    "Ebcc.C15_contract_ttgt",
    "Ebcc.C15_rejects_inconsistent_sizes",
    "Ebcc.C15_contract_backend",
    "Ebcc.C15_einsum_one",
    "Ebcc.C15_einsum_two"
   ],
   "note": "contractTtgt equals alpha times the Einstein sum plus beta times out for every subscript, size and ring element, fast path and fallback; inconsistent sizes are rejected; lifted to einsum with one and two operands. Exact arithmetic; numpy.einsum and dgemm are modelled by their meaning."
  },
  {
   "property": "C16",
   "status": "partial",
   "theorems": [
    "Ebcc.C16_implicit_output",
    "Ebcc.C16_explicit_output",
    "Ebcc.C16_output_checked",
    "Ebcc.C16_malformed_arrow",
    "Ebcc.C16_list_form",
    "Ebcc.C16_empty_text_differs",
    "Ebcc.C16_list_form_error_kind",
    "Ebcc.C16_comma_in_output",
    "Ebcc.C16_ellipsis_explicit",
    "Ebcc.C16_ellipsis_implicit",
    "Ebcc.C16_no_ellipsis",
    "Ebcc.C16_ellipsis_rejected",
    "Ebcc.C16_ellipsis_einsum",
    "Ebcc.C16_ellipsis_output_checked"
   ],
   "note": "Implicit and explicit output, output check, malformed arrows, the list form and ellipses are proved for every string. The list form differs for an empty text (C16_empty_text_differs) and in the kind of exception (C16_list_form_error_kind), so equivalence of the two forms is proved for non-empty texts and accepted calls."
  },
  {
   "property": "C17",
   "status": "proved",
   "theorems": [
    "Ebcc.C17_chain_is_einstein_sum",
    "Ebcc.C17_path_independent",
    "Ebcc.C17_einsum_chain",
    "Ebcc.C17_scaling_rejected"
   ],
   "note": "Every number of operands, every valid path, both contraction methods; the path itself (numpy.einsum_path) is external and enters as a hypothesis."
  },
  {
   "property": "C18",
   "status": "partial",
   "theorems": [
    "Ebcc.C18_dirsum_partial",
    "Ebcc.C18_dirsum_element_partial",
    "Ebcc.C18_implicit_partial",
    "Ebcc.C18_leading_sign_fails",
    "Ebcc.C18_surplus_operand_ignored"
   ],
   "note": "Explicit and implicit output proved for all numbers of operands; a leading sign raises ValueError in the code (refuted), surplus operands are ignored."
  },
  {
   "property": "C19",
   "status": "partial",
   "theorems": [
    "Ebcc.C19_masks",
    "Ebcc.C19_partition",
    "Ebcc.C19_counts",
    "Ebcc.C19_sums",
    "Ebcc.C19_active_inactive_partial",
    "Ebcc.C19_inactive_includes_frozen"
   ],
   "note": "Masks, partitions and all count identities are proved for every accepted space; inactive is defined as the complement of active and therefore contains frozen orbitals (C19_inactive_includes_frozen), so active and inactive only split the correlated orbitals when nothing is frozen."
  },
  {
   "property": "C20",
   "status": "proved",
   "theorems": [
    "Ebcc.C20_rejects_iff",
    "Ebcc.C20_accepts",
    "Ebcc.C20_accepted_is_valid"
   ],
   "note": "Construction raises ValueError exactly for unequal sizes or an orbital both frozen and active."
  },
  {
   "property": "C21",
   "status": "partial",
   "theorems": [
    "Ebcc.C21_slice",
    "Ebcc.C21_slice_raises_iff",
    "Ebcc.C21_sector_masks",
    "Ebcc.C21_oslice",
    "Ebcc.C21_vslice_iff",
    "Ebcc.C21_vslice_partial",
    "Ebcc.C21_vslice_empty_class_fails",
    "Ebcc.C21_xslice_partial",
    "Ebcc.C21_xslice_inactive_fails"
   ],
   "note": "slice, omask, vmask, xmask proved for every space and class; oslice and vslice assume occupied orbitals first, vslice is right exactly when the class does not end before the virtual sector (refuted for empty classes), xslice is right for all classes but i and a (refuted with frozen orbitals)."
  },
  {
   "property": "C22",
   "status": "partial",
   "theorems": [
    "Ebcc.C22_default",
    "Ebcc.C22_fno_partial",
    "Ebcc.C22_fno_freezes_lowest_partial",
    "Ebcc.C22_fno_threshold_partial",
    "Ebcc.C22_fno_tol_monotone_partial",
    "Ebcc.C22_fno_frac_monotone_partial",
    "Ebcc.C22_fno_freezes_occupied"
   ],
   "note": "Default space proved for every occupation array. The FNO statements need the occupied orbitals listed first; without that an occupied orbital can be frozen (C22_fno_freezes_occupied)."
  },
  {
   "property": "C23",
   "status": "partial",
   "theorems": [
    "Ebcc.C23_roundtrip_fails",
    "Ebcc.C23_roundtrip_partial",
    "Ebcc.C23_injective",
    "Ebcc.C23_named_distinct",
    "Ebcc.C23_collision",
    "Ebcc.C23_roundtrip_hyphen"
   ],
   "note": "Injectivity is proved for every well-formed name and for all named ansatzes. The round trip is characterised exactly: it fails for every name with a hyphen, a square bracket or one of w, x, y, p (C23_roundtrip_fails) and otherwise holds exactly when parentheses alternate."
  },
  {
   "property": "C24",
   "status": "partial",
   "theorems": [
    "Ebcc.C24_fermionic",
    "Ebcc.C24_mp",
    "Ebcc.C24_ccd",
    "Ebcc.C24_well_formed",
    "Ebcc.C24_strictly_increasing_partial",
    "Ebcc.C24_slices_partial",
    "Ebcc.C24_slice_lengths",
    "Ebcc.C24_quadruples_not_adapted",
    "Ebcc.C24_two_triples",
    "Ebcc.C24_bosonic",
    "Ebcc.C24_coupling",
    "Ebcc.C24_coupling_eom"
   ],
   "note": "Every ansatz string, spin type and kind. Refuted: quadruples keep their slices for l, ip, ea (C24_quadruples_not_adapted); two kinds of triples give two entries of the same name (C24_two_triples), so ranks increase strictly only without those."
  },
  {
   "property": "C25",
   "status": "partial",
   "theorems": [
    "Ebcc.C25_fermionic_partial",
    "Ebcc.C25_bosonic",
    "Ebcc.C25_ccd_fails",
    "Ebcc.C25_has_perturbative",
    "Ebcc.C25_one_shot",
    "Ebcc.C25_flags_by_name",
    "Ebcc.C25_from_string",
    "Ebcc.C25_unknown_method_is_mp",
    "Ebcc.C25_unknown_method_accepted"
   ],
   "note": "Perturbative suffix proved except EOM-CCD (refuted, C25_ccd_fails); from_string rejects all unlisted names; the constructor does not check the method type (C25_unknown_method_is_mp)."
  },
  {
   "property": "C26",
   "status": "partial",
   "theorems": [
    "Ebcc.C26_bookkeeping_partial",
    "Ebcc.C26_output_is_reference",
    "Ebcc.C26_space_exceeded",
    "Ebcc.C26_newest_dropped",
    "Ebcc.C26_stale_cache"
   ],
   "note": "Bookkeeping (stored vectors and errors agree, cache equals the inner products, no exception) for every history of calls and resets with min_space, space at least 1. Refuted: the subspace is exceeded by one after an extrapolation (C26_space_exceeded), the newest vector may be the one dropped (C26_newest_dropped), a separate second extrapolate leaves a stale cache (C26_stale_cache)."
  },
  {
   "property": "C27",
   "status": "proved",
   "theorems": [
    "Ebcc.C27_extrapolation"
   ],
   "note": "After every history; assumes only that the solver returned a solution of this one linear system (the pseudo-inverse used for singular systems is external)."
  },
  {
   "property": "C28",
   "status": "partial",
   "theorems": [
    "Ebcc.C28_first_call_partial",
    "Ebcc.C28_stuck_at_first",
    "Ebcc.C28_newest_not_returned",
    "Ebcc.C28_default_second_call_partial"
   ],
   "note": "The claim is false for DIIS: while fewer than min_space errors are stored it returns the first vector (C28_stuck_at_first, for all settings and histories; C28_newest_not_returned). True for the first call and for the second call with the default settings."
  },
  {
   "property": "C29",
   "status": "proved",
   "theorems": [
    "Ebcc.C29_linear_damping",
    "Ebcc.C29_fixed_point",
    "Ebcc.C29_undamped"
   ],
   "note": "Every sequence of calls and every factor."
  },
  {
   "property": "C30",
   "status": "proved",
   "theorems": [
    "Ebcc.C30_converged",
    "Ebcc.C30_iterations",
    "Ebcc.C30_one_shot",
    "Ebcc.C30_stops",
    "Ebcc.C30_spurious_convergence"
   ],
   "note": "Every update map, energy functional, damping, tolerance and max_iter, with exceptions. Beyond the claim: with DIIS and diis_min_space at least 2 (or diis_space 1) convergence is reported after two iterations whatever the update map (C30_spurious_convergence)."
  },
  {
   "property": "C31",
   "status": "partial",
   "theorems": [
    "Ebcc.C31_lambda_partial",
    "Ebcc.C31_given_amplitudes_ignored",
    "Ebcc.C31_ignores_argument"
   ],
   "note": "Convergence and iteration counts are proved. The amplitudes passed by the caller are ignored (C31_given_amplitudes_ignored, C31_ignores_argument), so that part is false of the code."
  },
  {
   "property": "C32",
   "status": "partial",
   "theorems": [
    "Ebcc.C32_amplitudes_partial",
    "Ebcc.C32_vectors_partial",
    "Ebcc.C32_names",
    "Ebcc.C32_named",
    "Ebcc.C32_quadruples_reshaped",
    "Ebcc.C32_two_triples"
   ],
   "note": "proved for every ansatz with distinct block names (at most one kind of triples, coupling ranks of one digit), among them all named ansatzes, where it holds without further hypotheses (C32_named). False for two kinds of triples (C32_two_triples); quadruple lambda amplitudes come back with the shape of excitations (C32_quadruples_reshaped)"
  },
  {
   "property": "C33",
   "status": "partial",
   "theorems": [
    "Ebcc.C33_amplitudes_partial",
    "Ebcc.C33_vectors_partial",
    "Ebcc.C33_named"
   ],
   "note": "proved for every ansatz with distinct block names, among them all named ansatzes (C33_named); two kinds of triples break it as in C32"
  },
  {
   "property": "C34",
   "status": "partial",
   "theorems": [
    "Ebcc.C34_amplitudes_partial",
    "Ebcc.C34_vectors_partial",
    "Ebcc.C34_wrong_length",
    "Ebcc.C34_named"
   ],
   "note": "proved for every ansatz with distinct block names and fermionic coupling rank at most 1 (the code raises otherwise), in any ring without 2-torsion; the hypotheses hold for all named ansatzes (C34_named)"
  },
  {
   "property": "C35",
   "status": "partial",
   "theorems": [
    "Ebcc.C35_lengths_partial",
    "Ebcc.C35_long_vector_accepted"
   ],
   "note": "Shorter vectors raise ValueError; longer vectors are accepted by the restricted and general classes and the surplus is ignored (C35_long_vector_accepted)."
  },
  {
   "property": "C36",
   "status": "partial",
   "theorems": [
    "Ebcc.C36_update",
    "Ebcc.C36_fixed_point",
    "Ebcc.C36_update_unrestricted",
    "Ebcc.C36_fixed_point_unrestricted_partial",
    "Ebcc.C36_unrestricted_triples_not_fixed"
   ],
   "note": "Restricted and generalised: the update is r/e+t block by block and its fixed points are exactly the zeros of the residuals, in full. Unrestricted: the update is characterised for all ranks; fixed points = zeros of the residuals only up to doubles (_partial). From triples on the claim is false of the code: C36_unrestricted_triples_not_fixed."
  },
  {
   "property": "C37",
   "status": "partial",
   "theorems": [
    "Ebcc.C37_restricted",
    "Ebcc.C37_generalised_partial",
    "Ebcc.C37_generalised_coupling_zero",
    "Ebcc.C37_unrestricted_partial",
    "Ebcc.C37_lambdas",
    "Ebcc.C37_lambdas_unrestricted",
    "Ebcc.C37_generalised_coupling_wrong",
    "Ebcc.C37_unrestricted_coupling_wrong",
    "Ebcc.C37_unrestricted_coupling_shape"
   ],
   "note": "Restricted initial amplitudes and all initial lambda amplitudes: in full. Generalised coupling amplitudes are left zero by the code because it tests the stale loop variable n (C37_generalised_coupling_wrong); unrestricted bb coupling amplitudes use the alpha energies and sizes (C37_unrestricted_coupling_wrong, _shape)."
  },
  {
   "property": "C38",
   "status": "proved",
   "theorems": [
    "Ebcc.C38_rdm1_symmetric",
    "Ebcc.C38_rdm1_fixed",
    "Ebcc.C38_rdm1_idempotent",
    "Ebcc.C38_rdm1_trace",
    "Ebcc.C38_rdm2_symmetric",
    "Ebcc.C38_rdm2_fixed",
    "Ebcc.C38_rdm2_idempotent",
    "Ebcc.C38_rdm2_trace",
    "Ebcc.C38_rdm2_mixed",
    "Ebcc.C38_coupling_transposes"
   ],
   "note": "Symmetry, fixed points, idempotence and traces of make_rdm1_f, make_rdm2_f (all blocks) and the transposition of the two blocks of make_eb_coup_rdm, for every size, over any field."
  },
  {
   "property": "C39",
   "status": "partial",
   "theorems": [
    "Ebcc.C39_elements",
    "Ebcc.C39_elements_unrestricted",
    "Ebcc.C39_argument_kept_iff",
    "Ebcc.C39_argument_changed",
    "Ebcc.C39_27_characters_fail"
   ],
   "note": "Element formula and shape proved for both spellings; the clause that the passed signs_dict is left unchanged is false of the code (C39_argument_kept_iff, C39_argument_changed), and 27-character keys fail (C39_27_characters_fail)."
  },
  {
   "property": "C40",
   "status": "proved",
   "theorems": [
    "Ebcc.C40_unshifted",
    "Ebcc.C40_xi",
    "Ebcc.C40_shifted",
    "Ebcc.C40_no_bosons"
   ],
   "note": "All three spin types, any number of modes and orbitals, with and without bare_G."
  },
  {
   "property": "C41",
   "status": "partial",
   "theorems": [
    "Ebcc.C41_diagonal_partial",
    "Ebcc.C41_one_mode",
    "Ebcc.C41_trace",
    "Ebcc.C41_off_diagonal",
    "Ebcc.C41_not_unshifted",
    "Ebcc.C41_off_diagonal_wrong"
   ],
   "note": "The diagonal, the trace and the one-mode case are right; off the diagonal the code applies no correction (C41_off_diagonal), refuted by C41_off_diagonal_wrong."
  },
  {
   "property": "C42",
   "status": "partial",
   "theorems": [
    "Ebcc.C42_space",
    "Ebcc.C42_antisymmetric",
    "Ebcc.C42_blocks",
    "Ebcc.C42_general_partial",
    "Ebcc.C42_unrestricted_symmetry",
    "Ebcc.C42_unrestricted_identity",
    "Ebcc.C42_unrestricted",
    "Ebcc.C42_restricted_to_general",
    "Ebcc.C42_triples_fails",
    "Ebcc.C42_unrestricted_lambdas",
    "Ebcc.C42_general_lambdas_partial"
   ],
   "note": "Space conversion for every spin assignment (C42_space), restricted to unrestricted for all ranks the code supports, also for the lambda amplitudes (C42_unrestricted, C42_unrestricted_lambdas, symmetry, identity), unrestricted to general for singles, doubles and couplings with one excitation (C42_general_partial, C42_general_lambdas_partial, C42_antisymmetric, C42_blocks), restricted to general doubles formula. Triples: false, the conversion raises ValueError for unequal spin sizes (C42_triples_fails)."
  },
  {
   "property": "C43",
   "status": "partial",
   "theorems": [
    "Ebcc.C43_restricted_amplitudes",
    "Ebcc.C43_restricted_vectors",
    "Ebcc.C43_general_amplitudes",
    "Ebcc.C43_general_vectors",
    "Ebcc.C43_unrestricted_amplitudes_partial",
    "Ebcc.C43_unrestricted_vectors_partial",
    "Ebcc.C43_unrestricted_singles",
    "Ebcc.C43_unrestricted_wrong_length",
    "Ebcc.C43_unrestricted_fails",
    "Ebcc.C43_bosons",
    "Ebcc.C43_named"
   ],
   "note": "Round trips proved both ways for restricted and generalised EOM vectors and unrestricted singles. False for unrestricted same-spin doubles (C43_unrestricted_fails): unpacking divides blocks by a factor; the exact result is proved (C43_unrestricted_*_partial). Bosonic ansatzes raise ModelNotImplemented (C43_bosons)."
  },
  {
   "property": "C44",
   "status": "partial",
   "theorems": [
    "Ebcc.C44_guesses",
    "Ebcc.C44_excitations",
    "Ebcc.C44_none",
    "Ebcc.C44_distinct",
    "Ebcc.C44_absolute",
    "Ebcc.C44_koopmans_few"
   ],
   "note": "Proved as stated for excitations (C44_excitations). Ionisation and attachment sort by absolute value (C44_absolute), and koopmans may return fewer vectors (C44_koopmans_few); C44_guesses gives the exact behaviour for all cases."
  },
  {
   "property": "C45",
   "status": "partial",
   "theorems": [
    "Ebcc.C45_amplitudes",
    "Ebcc.C45_identity",
    "Ebcc.C45_bosons",
    "Ebcc.C45_unrestricted_partial",
    "Ebcc.C45_columns",
    "Ebcc.C45_coefficients",
    "Ebcc.C45_coefficients_unrestricted",
    "Ebcc.C45_coefficients_identity",
    "Ebcc.C45_unrestricted_fails"
   ],
   "note": "orbital columns and the restricted and general rotations proved in full; the unrestricted transform_amplitudes rotates one spin block of each amplitude only: C45_unrestricted_partial, refuted by C45_unrestricted_fails; active-space amplitudes (shapes other than correlated) not covered"
  },
  {
   "property": "C46",
   "status": "partial",
   "theorems": [
    "Ebcc.C46_message",
    "Ebcc.C46_attribute_partial",
    "Ebcc.C46_attribute_fails"
   ],
   "note": "the convergence message and the iteration count are proved correct for every history; the attribute converged is never assigned, so the property fails: C46_attribute_partial, C46_attribute_fails"
  },
  {
   "property": "C47",
   "status": "partial",
   "theorems": [
    "Ebcc.C47_restored",
    "Ebcc.C47_refines",
    "Ebcc.C47_reentrant_fails",
    "Ebcc.C47_tailored_partial",
    "Ebcc.C47_tailored_unrestricted_partial",
    "Ebcc.C47_corrected_partial",
    "Ebcc.C47_frozen_fails",
    "Ebcc.C47_frozen_raises",
    "Ebcc.C47_active_axis_raises",
    "Ebcc.C47_corrected_unrestricted_partial"
   ],
   "note": "contexts: full refinement for well nested programs (any exit path); re-entering the same object shown to fail. Effect of tailoring and corrections, restricted and unrestricted, proved for spaces without frozen orbitals and amplitudes without active axes; with frozen orbitals the wrong elements are written (proved)"
  },
  {
   "property": "C48",
   "status": "partial",
   "theorems": [
    "Ebcc.C48_restores_partial",
    "Ebcc.C48_exception_leaves",
    "Ebcc.C48_scoped_partial",
    "Ebcc.C48_exception_fails"
   ],
   "note": "proved for every body that does not end by an exception (normal or return, any nesting); if the body raises the settings are not restored (proved, with witness)"
  },
  {
   "property": "C49",
   "status": "partial",
   "theorems": [
    "Ebcc.C49_roundtrip_partial",
    "Ebcc.C49_density_fitting_fails",
    "Ebcc.C49_module_name_fails",
    "Ebcc.C49_stale_fails",
    "Ebcc.C49_none_fails"
   ],
   "note": "proved for every calculation that the constructor can make without density fitting and module name, all attributes set; density fitting flag and module name are not restored, stale lambdas survive in a reused file, None values come back as defaults (all proved by witnesses)"
  },
  {
   "property": "C50",
   "status": "proved",
   "theorems": [
    "Ebcc.C50_projected",
    "Ebcc.C50_bounded",
    "Ebcc.C50_too_many",
    "Ebcc.C50_follow_state_raises"
   ],
   "note": "holds for every run; initial vectors that do not fit into the allocated matrix raise ValueError (C50_too_many); in addition follow_state is shown always to raise"
  },
  {
   "property": "C51",
   "status": "proved",
   "theorems": [
    "Ebcc.C51_orthonormalise",
    "Ebcc.C51_project",
    "Ebcc.C51_basis"
   ],
   "note": "exact arithmetic over a field with conjugation, with a norm whose square is the inner product"
  },
  {
   "property": "C52",
   "status": "partial",
   "theorems": [
    "Ebcc.C52_residual",
    "Ebcc.C52_change_partial",
    "Ebcc.C52_change_fails"
   ],
   "note": "the residual condition holds for every flag in every run (C52_residual); the eigenvalue change is not tested when the trial vectors are exhausted: C52_change_partial, refuted by C52_change_fails. For left eigenvectors the flags are those of the right ones"
  },
  {
   "property": "C53",
   "status": "partial",
   "theorems": [
    "Ebcc.C53_eris",
    "Ebcc.C53_couplings",
    "Ebcc.C53_eris_unrestricted",
    "Ebcc.C53_couplings_unrestricted",
    "Ebcc.C53_cderis",
    "Ebcc.C53_cderis_unrestricted",
    "Ebcc.C53_fock_partial",
    "Ebcc.C53_fock_unrestricted_partial",
    "Ebcc.C53_unknown",
    "Ebcc.C53_fock_fails",
    "Ebcc.C53_unknown_fails"
   ],
   "note": "transparent for every sequence of reads of two-electron integrals, density fitted integrals and couplings (restricted and unrestricted); Fock matrices proved for blocks in the molecular basis or without a shift; with a shift a block in the atomic basis raises once and is then returned unshifted (C53_fock_fails); over-long keys are accepted silently (C53_unknown_fails)"
  },
  {
   "property": "C54",
   "status": "proved",
   "theorems": [
    "Ebcc.C54_last_pair",
    "Ebcc.C54_first_pair",
    "Ebcc.C54_blocks"
   ],
   "note": "for the stored array and for every block of the container; the integrals over the atomic basis are arbitrary"
  },
  {
   "property": "C55",
   "status": "proved",
   "theorems": [
    "Ebcc.C55_contract",
    "Ebcc.C55_exchange",
    "Ebcc.C55_pair",
    "Ebcc.C55_exchange_unrestricted"
   ],
   "note": "in every state of a container; the transformation of PySCF is modelled by nrE2Packed for the exchange symmetries"
  },
  {
   "property": "C56",
   "status": "partial",
   "theorems": [
    "Ebcc.C56_dispatch",
    "Ebcc.C56_builds",
    "Ebcc.C56_override_partial",
    "Ebcc.C56_positional_fails"
   ],
   "note": "class and module for every call (C56_dispatch); factories override an ansatz given by keyword (C56_override_partial); given by position it raises TypeError (C56_positional_fails)"
  },
  {
   "property": "C57",
   "status": "partial",
   "theorems": [
    "Ebcc.C57_lists",
    "Ebcc.C57_fails",
    "Ebcc.C57_listed_partial",
    "Ebcc.C57_resolves_partial",
    "Ebcc.C57_hyphen_fails",
    "Ebcc.C57_prime_fails"
   ],
   "note": "no listed name is accepted as it stands, as it has the spin letter in front (C57_fails); without the letter it resolves for names without hyphen, brackets and final prime"
  },
  {
   "property": "C58",
   "status": "partial",
   "theorems": [
    "Ebcc.C58_precision_ignored",
    "Ebcc.C58_total",
    "Ebcc.C58_units",
    "Ebcc.C58_precision_partial",
    "Ebcc.C58_precision_fails",
    "Ebcc.C58_text",
    "Ebcc.C58_zero"
   ],
   "note": "the parts add up to the whole milliseconds and the text determines them; precision has no effect (C58_precision_ignored, C58_precision_fails)"
  },
  {
   "property": "C59",
   "status": "partial",
   "theorems": [
    "Ebcc.C59_block",
    "Ebcc.C59_block_inverse",
    "Ebcc.C59_roundtrip_partial",
    "Ebcc.C59_inverse_partial",
    "Ebcc.C59_restricted",
    "Ebcc.C59_unsupported",
    "Ebcc.C59_fails",
    "Ebcc.C59_fails_fourth"
   ],
   "note": "Packing and extraction are proved inverse in both directions up to second order for all sizes and up to fourth order when both spins have the same sizes; also for the restricted extraction. For different sizes the unrestricted extraction uses the wrong spin for the sizes of the axes: C59_fails (wrong shape at third order) and C59_fails_fourth (AssertionError). The addresses of PySCF are a parameter with stated properties; the generated conversions between coefficients and cluster amplitudes are not modelled."
  },
  {
   "property": "C60",
   "status": "partial",
   "theorems": [
    "Ebcc.C60_keywords",
    "Ebcc.C60_others",
    "Ebcc.C60_fresh",
    "Ebcc.C60_unchanged_partial",
    "Ebcc.C60_fails"
   ],
   "note": "keywords take precedence, other objects do not change; the object that is passed is changed by keywords and loses its shift without bosons (C60_fails)"
  },
  {
   "property": "C61",
   "status": "proved",
   "theorems": [
    "Ebcc.C61_regularise_forms",
    "Ebcc.C61_regularise_raises",
    "Ebcc.C61_regularise_result",
    "Ebcc.C61_mixed_spin",
    "Ebcc.C61_unique_order",
    "Ebcc.C61_factorial",
    "Ebcc.C61_factorial_negative",
    "Ebcc.C61_prod"
   ],
   "note": "all clauses"
  },
  {
   "property": "C62",
   "status": "proved",
   "theorems": [
    "Ebcc.C62_laps_add_up",
    "Ebcc.C62_lap",
    "Ebcc.C62_total",
    "Ebcc.C62_nonneg"
   ],
   "note": "all clauses; time is an abelian group, ordered for the last clause"
  },
  {
   "property": "C63",
   "status": "partial",
   "theorems": [
    "Ebcc.C63_make_real",
    "Ebcc.C63_pick_raises",
    "Ebcc.C63_pick_keeps",
    "Ebcc.C63_pick_enough",
    "Ebcc.C63_pick_too_few",
    "Ebcc.C63_pick_vectors_partial",
    "Ebcc.C63_pairs_mixed",
    "Ebcc.C63_koopmans",
    "Ebcc.C63_koopmans_breaks_pairs"
   ],
   "note": "eigenvalues: order, completeness and when enough roots are returned (iff) are proved; \"at least as many as asked for\" is false when too few are real (C63_pick_too_few). Eigenvectors: proved when different pairs have different real parts (C63_pick_vectors_partial), false otherwise for an unstable argsort (C63_pairs_mixed) and with koopmans (C63_koopmans_breaks_pairs)"
  },
  {
   "property": "C64",
   "status": "proved",
   "theorems": [
    "Ebcc.C64_preconditioner",
    "Ebcc.C64_linear",
    "Ebcc.C64_sign_lost"
   ],
   "note": "all clauses, for numpy (in-place put); the sign of a small denominator is lost (C64_sign_lost)"
  },
  {
   "property": "C65",
   "status": "partial",
   "theorems": [
    "Ebcc.C65_external_partial",
    "Ebcc.C65_external_unrestricted_partial",
    "Ebcc.C65_frozen_fails",
    "Ebcc.C65_reentry_fails"
   ],
   "note": "proved for spaces without frozen orbitals and one entry; false with frozen orbitals (C65_frozen_fails) and on re-entry in the unrestricted case (C65_reentry_fails)"
  },
  {
   "property": "C66",
   "status": "partial",
   "theorems": [
    "Ebcc.C66_eris",
    "Ebcc.C66_eris_unrestricted",
    "Ebcc.C66_eris_general",
    "Ebcc.C66_couplings",
    "Ebcc.C66_couplings_unrestricted",
    "Ebcc.C66_cderis",
    "Ebcc.C66_cderis_unrestricted",
    "Ebcc.C66_cderis_four_unrestricted",
    "Ebcc.C66_fock_partial",
    "Ebcc.C66_fock_unrestricted_partial"
   ],
   "note": "all containers; the Fock matrix for blocks in the molecular basis (with a shift, indices in the atomic basis raise, see C53)"
  },
  {
   "property": "C67",
   "status": "partial",
   "theorems": [
    "Ebcc.C67_update",
    "Ebcc.C67_fixed_point",
    "Ebcc.C67_perturbative_partial",
    "Ebcc.C67_general_perturbative_fails",
    "Ebcc.C67_update_unrestricted",
    "Ebcc.C67_fixed_point_unrestricted_partial",
    "Ebcc.C67_unrestricted_triples_not_fixed",
    "Ebcc.C67_unrestricted_perturbative_ignored"
   ],
   "note": "ordinary update for all classes, fixed points for the restricted and general class and for the unrestricted class up to doubles; false for unrestricted triples (C67_unrestricted_triples_not_fixed). Perturbative update: restricted class; the general class raises NameError (C67_general_perturbative_fails), the unrestricted class ignores the flag (C67_unrestricted_perturbative_ignored)"
  },
  {
   "property": "C68",
   "status": "partial",
   "theorems": [
    "Ebcc.C68_arguments",
    "Ebcc.C68_success",
    "Ebcc.C68_foreign_integrals",
    "Ebcc.C68_general_density_fitting_fails",
    "Ebcc.C68_names",
    "Ebcc.C68_naux_fails",
    "Ebcc.C68_initial_integrals_fails"
   ],
   "note": "arguments of every successful call (C68_arguments, C68_success, C68_names). False: the general class has no density fitted integrals (C68_general_density_fitting_fails), the unrestricted class omits naux when integrals are not given (C68_naux_fails), initial amplitudes ignore given integrals (C68_initial_integrals_fails)"
  },
  {
   "property": "C69",
   "status": "partial",
   "theorems": [
    "Ebcc.C69_amplitudes",
    "Ebcc.C69_lambdas",
    "Ebcc.C69_initial_lambdas",
    "Ebcc.C69_density_matrices",
    "Ebcc.C69_bosons_partial",
    "Ebcc.C69_unshifted_fails"
   ],
   "note": "true for energies, updates and fermionic density matrices; for bosonic and coupling density matrices only when no shift is undone (C69_bosons_partial), otherwise false (C69_unshifted_fails)"
  },
  {
   "property": "C70",
   "status": "partial",
   "theorems": [
    "Ebcc.C70_restricted_partial",
    "Ebcc.C70_general_partial",
    "Ebcc.C70_unrestricted_partial",
    "Ebcc.C70_sign_fails",
    "Ebcc.C70_unrestricted_guess_fails"
   ],
   "note": "proved with the sign the code uses (sign70); the sign is wrong for IP in all classes, EA restricted and EE unrestricted (C70_sign_fails), and the unrestricted guesses are then the highest excitations (C70_unrestricted_guess_fails)"
  },
  {
   "property": "C71",
   "status": "partial",
   "theorems": [
    "Ebcc.C71_intermediates",
    "Ebcc.C71_arguments",
    "Ebcc.C71_intermediate_arguments",
    "Ebcc.C71_restricted_eigenvectors",
    "Ebcc.C71_general_eigenvectors",
    "Ebcc.C71_unrestricted_eigenvectors_partial",
    "Ebcc.C71_unrestricted_fails"
   ],
   "note": "arguments and intermediates for all classes, eigenvectors for the restricted and general class; the unrestricted class divides the unpacked blocks by the number of equal spins, so eigenvalues are changed (C71_unrestricted_fails), the exact relation is C71_unrestricted_eigenvectors_partial"
  },
  {
   "property": "C72",
   "status": "proved",
   "theorems": [
    "Ebcc.C72_MP2",
    "Ebcc.C72_LCCD",
    "Ebcc.C72_LCCSD",
    "Ebcc.C72_CCD",
    "Ebcc.C72_CC2",
    "Ebcc.C72_CCSD",
    "Ebcc.C72_QCISD",
    "Ebcc.C72_DCD",
    "Ebcc.C72_DCSD"
   ],
   "note": "one theorem per method; the sums of products that the two functions compute are brought to a canonical form and compared"
  },
  {
   "property": "C73",
   "status": "proved",
   "theorems": [
    "Ebcc.C73_LCCD",
    "Ebcc.C73_LCCSD",
    "Ebcc.C73_CCD",
    "Ebcc.C73_CC2",
    "Ebcc.C73_CCSD",
    "Ebcc.C73_QCISD",
    "Ebcc.C73_DCD",
    "Ebcc.C73_DCSD"
   ],
   "note": "one theorem per method, as C72"
  },
  {
   "property": "C74",
   "status": "proved",
   "theorems": [
    "Ebcc.C74_CCD",
    "Ebcc.C74_CC2",
    "Ebcc.C74_CCSD"
   ],
   "note": "one theorem per method, as C72"
  },
  {
   "property": "C75",
   "status": "proved",
   "theorems": [
    "Ebcc.C75_LCCD_energy",
    "Ebcc.C75_LCCD_amps",
    "Ebcc.C75_LCCSD_energy",
    "Ebcc.C75_LCCSD_amps",
    "Ebcc.C75_CCD_energy",
    "Ebcc.C75_CCD_amps",
    "Ebcc.C75_CCD_lams",
    "Ebcc.C75_CC2_energy",
    "Ebcc.C75_CC2_amps",
    "Ebcc.C75_CC2_lams",
    "Ebcc.C75_CCSD_energy",
    "Ebcc.C75_CCSD_amps",
    "Ebcc.C75_CCSD_lams",
    "Ebcc.C75_QCISD_energy",
    "Ebcc.C75_QCISD_amps",
    "Ebcc.C75_DCD_energy",
    "Ebcc.C75_DCD_amps",
    "Ebcc.C75_DCSD_energy",
    "Ebcc.C75_DCSD_amps"
   ],
   "note": "one theorem per method and function, as C72"
  },
  {
   "property": "C76",
   "status": "partial",
   "theorems": [
    "Ebcc.C76_CCD",
    "Ebcc.C76_CCSD",
    "Ebcc.C76_CCSDT",
    "Ebcc.C76_S_1_1_partial",
    "Ebcc.C76_SD_1_1_partial",
    "Ebcc.C76_SD_1_2_partial",
    "Ebcc.C76_S_1_1_false",
    "Ebcc.C76_SD_1_1_false",
    "Ebcc.C76_SD_1_2_false",
    "Ebcc.C76_CC2_false"
   ],
   "note": "Proved for all data for CCD, CCSD and CCSDT. With bosons proved at solutions of the amplitude equations in the directions t1, t2, s1 and s2, and refuted in the directions u11 and u12; refuted for CC2 (C76_..._false)."
  },
  {
   "property": "C77",
   "status": "partial",
   "theorems": [
    "Ebcc.C77_CCD_traces",
    "Ebcc.C77_CC2_traces",
    "Ebcc.C77_CCSD_traces",
    "Ebcc.C77_CCSDT_traces",
    "Ebcc.C77_CCSD_S_1_1_traces",
    "Ebcc.C77_CCSD_SD_1_1_traces",
    "Ebcc.C77_CCSD_SD_1_2_traces",
    "Ebcc.C77_CCD_energy",
    "Ebcc.C77_CCSD_energy",
    "Ebcc.C77_CCSD_S_1_1_energy",
    "Ebcc.C77_CCSD_SD_1_1_energy",
    "Ebcc.C77_CC2_energy_partial",
    "Ebcc.C77_CC2_energy_false"
   ],
   "note": "Traces and symmetries proved for all seven methods, the energy for CCD, CCSD, CCSD-S-1-1 and CCSD-SD-1-1 (for CCSDT and CCSD-SD-1-2 proofs exist in commit c5453c3 and were left out for the time the kernel takes); not for CC2, whose density matrices are those of CCSD: their energy is the Lagrangian with the amplitude equations of CCSD (C77_CC2_energy_partial) and not with those of CC2 (C77_CC2_energy_false)."
  },
  {
   "property": "C78",
   "status": "partial",
   "theorems": [
    "Ebcc.C78_CCD_ip",
    "Ebcc.C78_CCD_ea",
    "Ebcc.C78_CCD_ee",
    "Ebcc.C78_CCSD_ip",
    "Ebcc.C78_CCSD_ea",
    "Ebcc.C78_CCSD_ee",
    "Ebcc.C78_MP2_ip",
    "Ebcc.C78_MP2_ea",
    "Ebcc.C78_CCSD_jacobian",
    "Ebcc.C78_CCSD_jacobian_at_solution",
    "Ebcc.C78_CC2_jacobian_partial",
    "Ebcc.C78_CCD_jacobian",
    "Ebcc.C78_CC2_ip_false",
    "Ebcc.C78_CC2_ea_false",
    "Ebcc.C78_MP2_ee_false"
   ],
   "note": "Proved for CCD and CCSD (all three sorts, adjoint and Jacobian) and for MP2 IP and EA. Refuted for the left functions of CC2 and for MP2 EE (C78_..._false); for CC2 the Jacobian is proved for single excitations (C78_CC2_jacobian_partial); double excitations of CC2 are not treated."
  },
  {
   "property": "C79",
   "status": "partial",
   "theorems": [
    "Ebcc.C79_GMP2",
    "Ebcc.C79_GCCD",
    "Ebcc.C79_GCC2",
    "Ebcc.C79_GCCSD",
    "Ebcc.C79_RMP2",
    "Ebcc.C79_RCCD",
    "Ebcc.C79_RCC2",
    "Ebcc.C79_RCCSD",
    "Ebcc.C79_RDFCCD",
    "Ebcc.C79_RDFCC2",
    "Ebcc.C79_RDFCCSD",
    "Ebcc.C79_UMP2",
    "Ebcc.C79_UCCD",
    "Ebcc.C79_UCC2",
    "Ebcc.C79_UCCSD",
    "Ebcc.C79_UDFCCD",
    "Ebcc.C79_UDFCC2",
    "Ebcc.C79_UDFCCSD"
   ],
   "note": "Results are proved for all functions. That the namespace is left as it was is proved for CCSD without density fitting; all other functions empty it (second half of the theorems, IntsEmptied79), so that the intermediates are calculated again for every product."
  },
  {
   "property": "C80",
   "status": "partial",
   "theorems": [
    "Ebcc.C80_MP2_energy",
    "Ebcc.C80_MP3_energy",
    "Ebcc.C80_LCCD_energy",
    "Ebcc.C80_LCCSD_energy",
    "Ebcc.C80_CCD_energy",
    "Ebcc.C80_CC2_energy",
    "Ebcc.C80_CCSD_energy",
    "Ebcc.C80_QCISD_energy",
    "Ebcc.C80_LCCD_amps",
    "Ebcc.C80_LCCSD_amps",
    "Ebcc.C80_CCD_amps",
    "Ebcc.C80_CC2_amps",
    "Ebcc.C80_CCSD_amps",
    "Ebcc.C80_QCISD_amps",
    "Ebcc.C80_CCD_lams",
    "Ebcc.C80_CC2_lams",
    "Ebcc.C80_CCSD_lams",
    "Ebcc.C80_CCSD_S_1_1_energy",
    "Ebcc.C80_CCSD_SD_1_1_energy",
    "Ebcc.C80_CCSD_SD_1_2_energy"
   ],
   "note": "CC3 and CCSDT (triples) and the lambda equations with bosons are not treated; with bosons only the energies are stated (proofs for the amplitude equations exist in commit c5453c3 and were left out for the time the kernel takes)."
  },
  {
   "property": "C81",
   "status": "partial",
   "theorems": [
    "Ebcc.C81_CCSD_S_1_1_energy",
    "Ebcc.C81_CCSD_S_1_1_amps_partial",
    "Ebcc.C81_CCSD_SD_1_1_energy",
    "Ebcc.C81_CCSD_SD_1_1_amps",
    "Ebcc.C81_CCSD_SD_1_2_energy",
    "Ebcc.C81_CCSD_SD_1_2_amps",
    "Ebcc.C81_CCSD_S_1_1_amps_false"
   ],
   "note": "Refuted for the singles of update_amps of CCSD-S-1-1, which are twice the unrestricted ones; everything else is proved."
  },
  {
   "property": "C82",
   "status": "partial",
   "theorems": [
    "Ebcc.C82_step_partial",
    "Ebcc.C82_fixed_points",
    "Ebcc.C82_step_false"
   ],
   "note": "Refuted for the amplitudes of two equal spins, whose change is twice that of the converted amplitudes; the other blocks and the equivalence of fixed points are proved. Ansaetze with coupled electron-boson amplitudes or triples are not treated."
  },
  {
   "property": "C83",
   "status": "partial",
   "theorems": [
    "Ebcc.C83_step",
    "Ebcc.C83_sign",
    "Ebcc.C83_orthonormal",
    "Ebcc.C83_diis",
    "Ebcc.C83_undamped_keeps",
    "Ebcc.C83_undamped",
    "Ebcc.C83_generator_partial",
    "Ebcc.C83_generator_false",
    "Ebcc.C83_orthonormal_unrestricted",
    "Ebcc.C83_diis_unrestricted"
   ],
   "note": "Refuted for the orbitals that the generator couples if occupied correlated orbitals do not come first; the rest is proved. The matrix logarithm is a parameter, assumed to map real orthogonal matrices of determinant one to matrices with antisymmetric real part."
  },
  {
   "property": "C84",
   "status": "proved",
   "theorems": [
    "Ebcc.C84_general_amplitudes",
    "Ebcc.C84_general_coefficients",
    "Ebcc.C84_amplitudes",
    "Ebcc.C84_coefficients",
    "Ebcc.C84_roundtrip",
    "Ebcc.C84_inverse"
   ],
   "note": "The existence of amplitudes for given coefficients (C84_inverse) is proved by recursion over the order; the restricted functions RecCC are the subject of C86."
  },
  {
   "property": "C85",
   "status": "partial",
   "theorems": [
    "Ebcc.C85_amplitudes_partial",
    "Ebcc.C85_vector_partial",
    "Ebcc.C85_fails"
   ],
   "note": "Third and fourth order need equal numbers of orbitals of both spins; for different numbers the claim is refuted at fourth order (C85_fails, as C59_fails). PySCF addresses and signs are a parameter with assumed properties."
  },
  {
   "property": "C86",
   "status": "proved",
   "theorems": [
    "Ebcc.C86_restricted_amplitudes",
    "Ebcc.C86_restricted_coefficients",
    "Ebcc.C86_amplitudes",
    "Ebcc.C86_unrestricted",
    "Ebcc.C86_vector",
    "Ebcc.C86_roundtrip"
   ],
   "note": "Amplitudes are those of a singlet operator on spin orbitals (Spec/Singlet.lean); PySCF addresses and signs are a parameter with assumed properties, as in C59."
  },
  {
   "property": "C87",
   "status": "partial",
   "theorems": [
    "Ebcc.C87_residuals",
    "Ebcc.C87_update_partial",
    "Ebcc.C87_fixed_points_partial"
   ],
   "note": "C87_residuals is complete for the generated functions; the step (C87_update_partial, C87_fixed_points_partial) is proved for spaces without frozen orbitals and given amplitudes that include singles. The function of GCCSDTQ is cut after the statements of t1new and t2new."
  },
  {
   "property": "C88",
   "status": "partial",
   "theorems": [
    "Ebcc.C88_roots",
    "Ebcc.C88_converged",
    "Ebcc.C88_normalised",
    "Ebcc.C88_count_false"
   ],
   "note": "The number of roots is refuted (C88_count_false): with complex pairs in the subspace fewer roots than asked for are returned and converged is set. All other parts are proved. The products are a linear function that does not raise; np.linalg.eig is a parameter."
  },
  {
   "property": "C89",
   "status": "partial",
   "theorems": [
    "Ebcc.C89_hamiltonian",
    "Ebcc.C89_hamiltonian_unrestricted",
    "Ebcc.C89_total_energy_false",
    "Ebcc.C89_frozen_false"
   ],
   "note": "The identity of operators is proved for all spin types (orbitals that are frozen have no operators in it). Refuted: e_tot does not account for const (C89_total_energy_false), and G and xi leave out frozen occupied orbitals (C89_frozen_false)."
  },
  {
   "property": "C90",
   "status": "partial",
   "theorems": [
    "Ebcc.C90_value",
    "Ebcc.C90_out",
    "Ebcc.C90_not_found",
    "Ebcc.C90_rejects_inconsistent_sizes",
    "Ebcc.C90_uninitialised_false",
    "Ebcc.C90_out_false"
   ],
   "note": "The value is proved for a given out or beta = 0 (C90_value), what out holds by C90_out. Refuted: without out and with beta other than zero the result depends on uninitialised memory (C90_uninitialised_false); out need not hold the result (C90_out_false). as_einsum of the library is taken to do what its interface says; data types are not modelled."
  },
  {
   "property": "C91",
   "status": "partial",
   "theorems": [
    "Ebcc.C91_energy_CCSD",
    "Ebcc.C91_energy_QCISD",
    "Ebcc.C91_energy_LCCSD",
    "Ebcc.C91_energy_CC2",
    "Ebcc.C91_energy_CCD",
    "Ebcc.C91_energy_CCSDT",
    "Ebcc.C91_energy_S_1_1",
    "Ebcc.C91_energy_SD_1_1",
    "Ebcc.C91_energy_SD_1_2",
    "Ebcc.C91_amps_CCSD",
    "Ebcc.C91_amps_QCISD",
    "Ebcc.C91_amps_LCCSD",
    "Ebcc.C91_amps_S_1_1",
    "Ebcc.C91_lams_CCSD",
    "Ebcc.C91_rdm1_CCSD",
    "Ebcc.C91_rdm1_CCSDT",
    "Ebcc.C91_rdm1_S_1_1",
    "Ebcc.C91_rdm1_SD_1_1",
    "Ebcc.C91_rdm1_SD_1_2",
    "Ebcc.C91_sing_b_SD_1_1",
    "Ebcc.C91_sing_b_SD_1_2",
    "Ebcc.C91_rdm1_b_SD_1_1",
    "Ebcc.C91_rdm1_b_SD_1_2",
    "Ebcc.C91_coupling_SD_1_1",
    "Ebcc.C91_coupling_SD_1_2",
    "Ebcc.C91_lams_S_1_1_singles",
    "Ebcc.C91_lams_SD_1_1_false",
    "Ebcc.C91_energy_MP3",
    "Ebcc.C91_matvec_ip",
    "Ebcc.C91_lmatvec_ip",
    "Ebcc.C91_matvec_ea",
    "Ebcc.C91_lmatvec_ea"
   ],
   "note": "Energies, amplitude equations of CCSD, QCISD, LCCSD and CCSD-S-1-1, lambda equations of CCSD, density matrices rdm1 and IP and EA products. The lambda equations for the singles of CCSD-S-1-1 differ from those of CCSD by products with the residuals of the singles, zero at a solution (C91_lams_S_1_1_singles); refuted: lu11new of CCSD-SD-1-1 without s2 is not that of CCSD-S-1-1 (C91_lams_SD_1_1_false). The density matrices of CCSD-S-1-1 are the transposed ones of CCSD. General spin only; not stated for update_amps of CCSDT, CCSD-SD-1-1 and CCSD-SD-1-2, for update_lams of CCSDT, CCSD-S-1-1 but for the singles, CCSD-SD-1-1 (but for the refutation) and CCSD-SD-1-2, for make_rdm2_f, and for the products of EE-EOM-CCSD (proofs of some of these exist in commit 80ad2cc and were left out for the time the kernel takes)."
  },
  {
   "property": "C92",
   "status": "partial",
   "theorems": [
    "Ebcc.C92_concatenate",
    "Ebcc.C92_concatenate_rejects",
    "Ebcc.C92_concatenate_none_false",
    "Ebcc.C92_stack",
    "Ebcc.C92_stack_negative_false",
    "Ebcc.C92_block",
    "Ebcc.C92_bitwise_and",
    "Ebcc.C92_bitwise_not",
    "Ebcc.C92_count_nonzero",
    "Ebcc.C92_ravel_multi_index_partial",
    "Ebcc.C92_ravel_multi_index_matrix",
    "Ebcc.C92_ravel_multi_index_false",
    "Ebcc.C92_indices",
    "Ebcc.C92_put",
    "Ebcc.C92_put_false",
    "Ebcc.C92_put_ctf_false"
   ],
   "note": "Proved for concatenate, stack with a non-negative axis, block of two levels, masks, indices, ravel_multi_index with axes of one size and _put with grids (TensorFlow). Refuted: concatenate with axis None, stack with a negative axis, ravel_multi_index of a matrix that is not square (exact condition in C92_ravel_multi_index_matrix), _put with lists that are not a grid (TensorFlow) and with tuples (CTF)."
  },
  {
   "property": "C93",
   "status": "partial",
   "theorems": [
    "Ebcc.C93_scalar",
    "Ebcc.C93_GCC2",
    "Ebcc.C93_GCCD",
    "Ebcc.C93_GCCSD",
    "Ebcc.C93_GCCSDT",
    "Ebcc.C93_GCCSDTQ",
    "Ebcc.C93_GCCSD_SD_1_1",
    "Ebcc.C93_GCCSD_SD_1_2",
    "Ebcc.C93_GCCSD_S_1_1",
    "Ebcc.C93_GLCCD",
    "Ebcc.C93_GLCCSD",
    "Ebcc.C93_GMP2",
    "Ebcc.C93_GMP3",
    "Ebcc.C93_GQCISD",
    "Ebcc.C93_GecCC",
    "Ebcc.C93_RCC2",
    "Ebcc.C93_RCCD",
    "Ebcc.C93_RCCSD",
    "Ebcc.C93_RCCSD_SD_1_1",
    "Ebcc.C93_RCCSD_SD_1_2",
    "Ebcc.C93_RCCSD_S_1_1",
    "Ebcc.C93_RDCD",
    "Ebcc.C93_RDCSD",
    "Ebcc.C93_RDFCC2",
    "Ebcc.C93_RDFCCD",
    "Ebcc.C93_RDFCCSD",
    "Ebcc.C93_RDFDCD",
    "Ebcc.C93_RDFDCSD",
    "Ebcc.C93_RDFLCCD",
    "Ebcc.C93_RDFLCCSD",
    "Ebcc.C93_RDFQCISD",
    "Ebcc.C93_RLCCD",
    "Ebcc.C93_RLCCSD",
    "Ebcc.C93_RMP2",
    "Ebcc.C93_RQCISD",
    "Ebcc.C93_RecCC",
    "Ebcc.C93_UCC2",
    "Ebcc.C93_UCCD",
    "Ebcc.C93_UCCSD",
    "Ebcc.C93_UCCSD_SD_1_1",
    "Ebcc.C93_UCCSD_SD_1_2",
    "Ebcc.C93_UCCSD_S_1_1",
    "Ebcc.C93_UDCD",
    "Ebcc.C93_UDCSD",
    "Ebcc.C93_ULCCD",
    "Ebcc.C93_ULCCSD",
    "Ebcc.C93_UMP2",
    "Ebcc.C93_UMP3",
    "Ebcc.C93_UQCISD",
    "Ebcc.C93_UecCC",
    "Ebcc.C93_energies",
    "Ebcc.C93_energies_mp",
    "Ebcc.C93_energies_u",
    "Ebcc.C93_energies_mp_u"
   ],
   "note": "All functions of MP2, MP3, CCD, CCSD, CC2, LCCD, LCCSD, QCISD, DCD, DCSD, CCSDT, CCSDTQ, with bosons, with density fitting and the conversions of CI coefficients that are in Verif/Gen, of moderate size; not stated for the largest ones (update_lams with bosons and of unrestricted CCSD and CC2, update_amps of unrestricted CCSD with bosons, EOM products, unrestricted fourth-order conversions) because of the time the checks take."
  },
  {
   "property": "C94",
   "status": "proved",
   "theorems": [
    "Ebcc.C94_fock",
    "Ebcc.C94_eris",
    "Ebcc.C94_cderis",
    "Ebcc.C94_eris_general"
   ],
   "note": "Fock matrix, integrals of the restricted class, of each pair of spins and of the general class, density fitted integrals for three-index keys; ao2mo and nr_e2 of PySCF are modelled by what their interfaces say."
  },
  {
   "property": "C95",
   "status": "partial",
   "theorems": [
    "Ebcc.C95_amps",
    "Ebcc.C95_amps_u",
    "Ebcc.C95_lams",
    "Ebcc.C95_orbitals",
    "Ebcc.C95_orbitals_g",
    "Ebcc.C95_orbitals_u"
   ],
   "note": "For the functions of C93 (C95_amps, C95_amps_u, C95_lams), that is, not for the largest ones; from integrals over atomic orbitals for methods without bosons (C95_orbitals, C95_orbitals_g, C95_orbitals_u). Iterations are not claimed to be the same: denominators are taken from the diagonal of the Fock matrix."
  },
  {
   "property": "C96",
   "status": "proved",
   "theorems": [
    "Ebcc.C96_pack_2e",
    "Ebcc.C96_pack_2e_arguments",
    "Ebcc.C96_pack_1e",
    "Ebcc.C96_symmetry",
    "Ebcc.C96_trace"
   ],
   "note": "np.block for nested lists of two entries per level, as it is called. That the generated functions give the blocks in this order was checked by a script for all 96 calls, not proved."
  },
  {
   "property": "C97",
   "status": "partial",
   "theorems": [
    "Ebcc.C97_restricted",
    "Ebcc.C97_general_partial",
    "Ebcc.C97_unrestricted_partial",
    "Ebcc.C97_unrestricted_reference",
    "Ebcc.C97_two_ways",
    "Ebcc.C97_objects",
    "Ebcc.C97_unrestricted_false",
    "Ebcc.C97_general_false"
   ],
   "note": "Proved for the restricted class and that no object is changed (C97_objects). Refuted for the unrestricted class with Kohn-Sham references, where a return comes before the lines that calculate the energy (C97_unrestricted_false, C97_two_ways gives the difference), and for the general class with references that have general orbitals and a functional (C97_general_false). Conversions of PySCF are taken to make a new object."
  },
  {
   "property": "C98",
   "status": "partial",
   "theorems": [
    "Ebcc.C98_general",
    "Ebcc.C98_separate_partial",
    "Ebcc.C98_total",
    "Ebcc.C98_reference",
    "Ebcc.C98_reference_general",
    "Ebcc.C98_false",
    "Ebcc.C98_correlation_false",
    "Ebcc.C98_norm",
    "Ebcc.C98_norm_restricted",
    "Ebcc.C98_t1",
    "Ebcc.C98_t1_unrestricted"
   ],
   "note": "Refuted: e_prev is read after the energy of the shared mean-field object was replaced (C98_false); in the general class always, which then compares correlation energies (C98_general), in the others in the first iteration (C98_separate_partial), so that these compare neither total nor correlation energies throughout (C98_correlation_false). The reference is changed in the general class (C98_reference_general). Total energies, norms and the reference in the other classes are proved."
  },
  {
   "property": "C99",
   "status": "partial",
   "theorems": [
    "Ebcc.C99_later",
    "Ebcc.C99_no_exception_partial",
    "Ebcc.C99_once",
    "Ebcc.C99_first",
    "Ebcc.C99_silent",
    "Ebcc.C99_git_missing",
    "Ebcc.C99_git_false",
    "Ebcc.C99_output"
   ],
   "note": "Refuted without the program git: FileNotFoundError is not caught and no calculation can be made (C99_git_missing, C99_git_false). Otherwise proved; a first silent logger uses up the header (C99_silent)."
  },
  {
   "property": "C100",
   "status": "partial",
   "theorems": [
    "Ebcc.C100_mean_field",
    "Ebcc.C100_energy",
    "Ebcc.C100_orbitals_partial",
    "Ebcc.C100_options",
    "Ebcc.C100_orbitals_false",
    "Ebcc.C100_fock_false"
   ],
   "note": "Energies, flags and the original are proved. Orbitals and Fock matrix are proved for calculations with those of the mean field (C100_orbitals_partial) and refuted for calculations given mo_coeff or fock (C100_orbitals_false, C100_fock_false), which are not passed on. The options object is shared (C100_options)."
  }
 ]
}