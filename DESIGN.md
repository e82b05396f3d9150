# Formal model of ebcc: design

## Approach

The Python sources in /repo are modelled in Lean 4, function by function, as
shallow, total, computable functions over lists, naturals, integers and exact
scalars. Exceptions are values (`Except PyErr`). Each model definition cites
the file and lines it mirrors and states its simplifications.

Layout of `lean/Verif`:

* `Model/` the model of the Python code, one file per group of functions.
* `Spec/` the few independent specifications (Einstein sum, permutation
  parity, symmetry of an array) that theorems refer to.
* `Lemmas/` helper lemmas.
* `Thms/Cxx.lean` the theorems for property `Cxx`, each with `example`s that
  instantiate it on concrete, non-trivial data.

Naming of theorems: `Cxx_...` states a part of the property that holds;
`..._partial` states what holds of a property that is not true, or not proved,
in full; `..._fails` and similar names refute a clause with a concrete input.
`MANIFEST.json` lists all of them.

Conventions

* numpy arrays: `NDArray R`, a shape and the row-major list of elements.
* floating point numbers: elements of an arbitrary commutative ring, field or
  ordered field, or the reals. Rounding, overflow and NaN are not modelled.
* strings: lists of characters (code points).
* dictionaries: association lists in insertion order.
* objects with state: structures, methods as state transformers; objects that
  can be shared (options, namespaces, contexts) live in an explicit heap.
* Python aliasing of arrays is modelled only where a theorem is about it
  (options objects, namespaces, the dictionary of signs, context objects).

## Trusted base

* The kernel of Lean 4.33.0, and the elaborator for turning the text of the
  statements into terms. Mathlib is used for algebra and finite sums; its
  proofs are checked by the same kernel.
* Axioms: every theorem depends at most on `propext`, `Classical.choice` and
  `Quot.sound`. `AXIOMS.txt` lists the axioms of each theorem, as printed by
  `#print axioms`. The project declares no axioms and uses no `sorry`,
  `native_decide` or `bv_decide`. `decide` and `decide +kernel` are used only
  for refutations by a concrete witness, for `example`s, for facts about literal
  names, and to evaluate the verified comparison of polynomials (C72 on, see
  below).
* The model. That the Lean definitions say what the Python text says is
  checked by reading, with the citations as guide; no Python was executed.
* The semantics given to Python and to the external libraries:
  * Python: `dict` order, `sorted` stable, slices with wrapped negative bounds,
    `str.replace`, `str.rstrip` (a set of characters), `set` iteration order
    either irrelevant or a parameter, generators as lists.
  * numpy: `reshape`, `transpose`, `ravel`, `put`, `ix_`, `concatenate`,
    boolean masks, broadcasting only where the code relies on it.
    `numpy.einsum` is its documented meaning, the Einstein sum.
    `numpy.einsum_path` is an arbitrary valid path.
    `linalg.solve`, `eig`, `eigh`, `norm` are parameters with the stated
    properties as hypotheses.
  * PySCF: integral transformations, `tn_addrs_signs`, `get_ghf_orbspin`,
    `dump`/`load` are parameters or simple models, described in the file that
    uses them.

## Code that is modelled

| Python | Lean model | properties |
| --- | --- | --- |
| util/permutations.py | Perms, Strings, Tril, Spin, Symmetrise, Subscripts, Compress, Misc, Utilities, Pack | C01-C13, C61, C96 |
| util/misc.py: `Namespace`, `argsort`, `regularise_tuple`, `prod`, `Timer` | Namespace, Misc, Array, Package, Utilities | C13, C14, C58, C61, C62 |
| util/einsumfunc.py | EinsumParse, Ellipsis, Einsum, Dirsum, Tblis | C15-C18, C90 |
| ham/space.py | Space | C19-C22 |
| core/ansatz.py | Ansatz, Package (`_get_eqns`) | C23-C25, C57 |
| core/damping.py: `LinearDamping`, `DIIS` | Damping | C26-C29 |
| cc/base.py: `kernel`, `solve_lambda` | Kernel | C30, C31 |
| cc/base.py: `_load_function`, `_get_amps`, `_get_lams`, `energy`; cc/{r,u,g}ebcc.py: `get_eris`, `_pack_codegen_kwargs` | Arguments | C68, C69 |
| cc/{r,u,g}ebcc.py: vectors | Vectors | C32-C35 |
| cc/{r,u,g}ebcc.py: `energy_sum`, `update_amps`, `update_lams` | Amps | C36, C39, C67 |
| cc/{r,u,g}ebcc.py: `init_amps`, `init_lams` | InitAmps | C37 |
| cc/{r,u,g}ebcc.py, cc/base.py: density matrices, `xi`, `get_mean_field_G` | Rdm | C38, C40, C41 |
| cc/uebcc.py `from_rebcc`, cc/gebcc.py `from_uebcc` | Convert | C42 |
| eom/{r,u,g}eom.py: vectors, guesses | EomVectors, Guesses | C43, C44 |
| eom/{r,u,g}eom.py: `diag`; eom/base.py: `matvec`, `matvec_intermediates` | EomOps | C70, C71 |
| opt/: amplitudes, coefficients, `kernel`, `get_rotation_matrix` | Brueckner, BruecknerKernel, BruecknerRotation | C45, C46, C83 |
| ext/tcc.py, ext/eccc.py: contexts, `_set_active_space`, `_add_to_amps`, `_get_external_amplitudes` | Context, Tailor, External | C47, C65 |
| core/precision.py | Precision | C48 |
| core/dump.py | Dump | C49 |
| core/davidson.py, eom/base.py `get_pick` | Davidson, PickRoots | C50-C52, C63, C64 |
| ham/{base,eris,fock,elbos,cderis}.py | Ham | C53-C55, C66, C94 |
| __init__.py, cc/base.py `__init__` | Package | C56, C57, C60 |
| ext/fci.py: packing and extraction of CI vectors | Fci | C59 |
| ext/fci.py: conversion of coefficients and amplitudes | FciConvert | C84 |
| ext/fci.py: CI vectors to amplitudes and back, unrestricted | FciAmps | C85 |
| ext/fci.py: the same with restricted spins; codegen/RecCC.py | FciAmps, FciConvert, Gen/RecCC | C86 |
| ext/eccc.py: `_update_external_corrections`, `__enter__`, `update_amps` (spin orbitals); codegen/GCCSDTQ.py:18-110 | ExternalUpdate, Gen/GecCCExt, Gen/GCCSDTQ | C87 |
| eom/base.py: `davidson` (`kernel`) | EomKernel | C88 |
| cc/base.py: `const`, `e_tot` | Polaritonic | C89 |
| backend/: functions for CTF and TensorFlow, `_put` | Backends | C92 |
| cc/{r,u,g}ebcc.py: `_convert_mf`; opt/base.py: energies in `kernel`; opt: `get_t1_norm` | MeanField, T1Norm | C97, C98 |
| cc/base.py `__init__`, `from_rebcc`, `from_uebcc`: orbitals, Fock matrix, energies | Calc | C100 |
| core/logging.py | Logging | C99 |
| codegen/: the functions in `Verif/Gen` | GenCode, Gen | C72-C81, C84, C91, C93, C95 |

### Generated functions

`tools/gencode.py` reads a module of `ebcc/codegen` as text and writes each
function as a list of statements (`Model/GenCode.lean`: `einsum` with integer
labels through the model of C15-C18, `np.copy`, `+=`, `transpose`, `zeros`, `eye`,
`del`) with the text of the line above each.  The translation is part of what
has to be trusted to read the theorems; it stops on anything that is not a
statement of the model.  Literals such as `0.16666666666667` become fractions
(denominator at most 600, error below 1e-11).  Arithmetic is in any field of
characteristic zero.

`Verif/Tensor` evaluates such a function with polynomials in the elements of
its arguments in place of arrays: sums over indices of named spaces, of any
size.  `GenFun.sym_sound` proves that the arrays have the values of the
polynomials.  The theorems compare two polynomials; the kernel evaluates the
comparison (`decide +kernel`), which is a decision procedure on terms, not a
check of particular sizes or values.  Hints for the canonical form of a product
(`Verif/Gen/Hints`, written by `tools/hints.py` and `tools/claims.py`) are not
trusted: a wrong hint makes the comparison fail.

Functions of the spin-orbital class are called with `GHam.args`
(`Spec/GenArgsG.lean`): blocks of a symmetric Fock matrix, antisymmetrised
integrals with the symmetries of real orbitals, boson integrals, and amplitudes
with their antisymmetries.  Matrices of functions that return several blocks
packed with `np.block`, `pack_2e` or `np.array` are returned block by block
(the packing is the subject of C96; a script compared the order of blocks in all 96 calls in codegen/ with that of `pack_2e` and `np.block`).
Products of equation-of-motion methods get `ints` as the results of the functions
for intermediates; `Model/GenInts.lean` has the entries deleted by a call.
`Tensor/Claim.lean` and `DerivSound.lean` add identities between results of
several functions and derivatives along a direction (`HasDerivAt` of Mathlib).

The theorem files C73 to C81 import each other in two chains, for no other reason
than that the build should not evaluate more than two of them at the same time
(they need up to 10 GB each; C80B and C81 run alone).

## Code that is not modelled

* ebcc/codegen (generated equations), other than the functions in `Verif/Gen`:
  residuals, energies and raw density matrices enter as arbitrary functions or
  arrays.
* log output other than the header (C99), timing.
* backend modules other than `_put` and the functions of C92 (the libraries' own functions are taken to be those of NumPy).
* util/einsumfunc.py: data types; the library TBLIS itself (C90 takes `as_einsum` to do what its interface says).
* core/davidson.py: within the solver (C50-C52) the preconditioner and the
  selection of eigenvalues are parameters; C63 and C64 are about them alone.
* opt: the matrix exponential is Mathlib's, the matrix logarithm a parameter of the model (C83).
* ext/eccc.py: `_update_external_corrections` for restricted and unrestricted spins (a parameter).

## Disagreements between the properties and the code

Each of these is proved in the theorem named; the property keeps its original
statement.

* C02: the permutation in the docstring example is not the one returned
  (`C02_docstring_disagrees`).
* C05, C07: with `include_diagonal=True` and a "-" group the round trip and the
  antisymmetry fail (`C05_diag_antisym_fails`, `C07_diag_antisym_fails`).
  A symmetry string given axis by axis is rejected when the axes of a group are
  not neighbours (`C05_axiswise_string_rejected`).
* C08: `symmetrise` uses the first character of a mixed string for every group
  (`C08_mixed_fails`).
* C09: the factor is not that of a projector for three or more equal axes
  (`C09_three_axes_fails`, `C09_identity_iff`).
* C12: at most 91 different keys (`C12_ok_iff`).
* C14: names of methods hide members in attribute access (`C14_shadowed`).
* C16: empty text, kind of exception and a comma in the output differ between
  the two call forms (`C16_empty_text_differs`, `C16_list_form_error_kind`,
  `C16_comma_in_output`).
* C18: a leading sign raises ValueError (`C18_leading_sign_fails`); surplus
  operands are ignored (`C18_surplus_operand_ignored`).
* C19: `inactive` includes frozen orbitals (`C19_inactive_includes_frozen`).
* C21: `vslice` wraps around for classes that end before the virtual orbitals
  (`C21_vslice_empty_class_fails`); `xslice` is wrong for `i` and `a` with
  frozen orbitals (`C21_xslice_inactive_fails`).
* C22: an occupied orbital can be frozen if the occupied orbitals do not come
  first (`C22_fno_freezes_occupied`).
* C23: the round trip fails for names with a hyphen, square brackets or one of
  the letters w, x, y, p (`C23_roundtrip_fails`).
* C24: quadruples are not adapted for lambda, IP and EA amplitudes
  (`C24_quadruples_not_adapted`); two kinds of triples give the same name twice
  (`C24_two_triples`).
* C25: EOM-CCD with a perturbative suffix loses its singles (`C25_ccd_fails`);
  an unknown method type is treated as MP (`C25_unknown_method_is_mp`).
* C26: the subspace is exceeded by one after an extrapolation
  (`C26_space_exceeded`); the newest vector can be dropped
  (`C26_newest_dropped`); a second `extrapolate` leaves a stale cache
  (`C26_stale_cache`).
* C28: below `min_space` DIIS returns the first vector, not the newest
  (`C28_stuck_at_first`). C30: the kernel then reports convergence after two
  iterations (`C30_spurious_convergence`).
* C31: `solve_lambda` ignores the amplitudes it is given
  (`C31_given_amplitudes_ignored`).
* C32: quadruple lambda amplitudes get the shape of excitations
  (`C32_quadruples_reshaped`); two kinds of triples break the round trip
  (`C32_two_triples`).
* C35: the restricted and general classes accept vectors that are too long
  (`C35_long_vector_accepted`).
* C36: the unrestricted update scales triples, so solutions are not fixed
  points (`C36_unrestricted_triples_not_fixed`).
* C37: general coupling amplitudes stay zero, because the test uses the loop
  variable of an earlier loop (`C37_generalised_coupling_wrong`); unrestricted
  beta coupling amplitudes use energies and sizes of the alpha orbitals
  (`C37_unrestricted_coupling_wrong`, `C37_unrestricted_coupling_shape`).
* C39: `energy_sum` writes into the dictionary of the caller
  (`C39_argument_changed`).
* C41: unshifting corrects only the diagonal (`C41_off_diagonal_wrong`).
* C42: triples raise ValueError for unequal numbers of alpha and beta orbitals
  (`C42_triples_fails`).
* C43: unpacking divides same-spin blocks of unrestricted EOM vectors by a
  factor (`C43_unrestricted_fails`).
* C44: IP and EA guesses are sorted by absolute value (`C44_absolute`);
  `koopmans` can return too few (`C44_koopmans_few`).
* C45: the unrestricted `transform_amplitudes` rotates one spin block only
  (`C45_unrestricted_fails`); all versions ignore the argument `amplitudes`.
* C46: the attribute `converged` is never assigned (`C46_attribute_fails`).
* C47: with frozen orbitals tailoring writes wrong elements or raises
  (`C47_frozen_fails`, `C47_frozen_raises`, `C47_active_axis_raises`); entering
  one context object twice breaks it (`C47_reentrant_fails`).
* C48: the precision is not restored if the body raises
  (`C48_exception_fails`).
* C49: density fitting flag, module name and None options are lost, stale
  lambda amplitudes survive in a reused file (`C49_*_fails`).
* C50: `follow_state` always raises (`C50_follow_state_raises`); too many
  guesses raise (`C50_too_many`).
* C52: the change of the eigenvalue is not tested when the trial vectors are
  exhausted (`C52_change_fails`).
* C53: a Fock block over atomic orbitals with a shift raises once and is then
  returned unshifted (`C53_fock_fails`); over-long keys are accepted
  (`C53_unknown_fails`).
* C56: a method-named factory called with a positional ansatz raises TypeError
  (`C56_positional_fails`).
* C57: listed names carry the spin letter and are not accepted (`C57_fails`);
  hyphens and a final prime are lost (`C57_hyphen_fails`, `C57_prime_fails`).
* C58: `precision` has no effect (`C58_precision_fails`).
* C59: for different numbers of alpha and beta orbitals the unrestricted
  extraction has the wrong sizes from third order on (`C59_fails`,
  `C59_fails_fourth`).
* C60: the options object passed by the caller is changed (`C60_fails`).
* C61: `factorial` of a negative number recurses until RecursionError
  (`C61_factorial_negative`); `is_mixed_spin` of nothing is true
  (`C61_mixed_spin`).
* C63: fewer roots than asked for are returned when too few eigenvalues are real,
  although the threshold is raised to the next imaginary part, as the comparison
  is strict (`C63_pick_too_few`); pairs of complex conjugates get mixed for equal
  real parts or with koopmans (`C63_pairs_mixed`, `C63_koopmans_breaks_pairs`).
* C64: the sign of a small denominator is lost (`C64_sign_lost`).
* C65: with frozen orbitals the wrong elements are taken (`C65_frozen_fails`);
  unrestricted amplitudes of the caller are overwritten, so that a second entry
  loses them (`C65_reentry_fails`).
* C67: in the general class the perturbative lambda update ends in NameError
  (`C67_general_perturbative_fails`, gebcc.py:569); the unrestricted class
  ignores the flag (`C67_unrestricted_perturbative_ignored`) and scales triples
  (`C67_unrestricted_triples_not_fixed`).
* C68: with density fitting the general class raises AttributeError
  (`C68_general_density_fitting_fails`); the unrestricted class passes no `naux`
  when the integrals are omitted (`C68_naux_fails`); initial amplitudes are
  made of the stored integrals although others were given
  (`C68_initial_integrals_fails`).
* C69: undoing the shift in `make_rdm1_b` (base.py:755) and
  `make_eb_coup_rdm` (rebcc.py:440) uses the stored amplitudes, not the given
  ones (`C69_unshifted_fails`).
* C70: `diag` has the opposite sign for IP in all classes, for EA in the
  restricted class and for EE in the unrestricted class (`C70_sign_fails`).
  Unrestricted EE guesses therefore are the highest excitations
  (`C70_unrestricted_guess_fails`).
* C71: because the unrestricted unpacking divides (C43), the product is not the
  one of the generated function for blocks of equal spins
  (`C71_unrestricted_fails`).
* C76: `update_lams` of the functions with bosons is not the gradient of the
  Lagrangian in the directions of `u11` and `u12`, even at solutions of the
  amplitude equations (`C76_S_1_1_false`, `C76_SD_1_1_false`,
  `C76_SD_1_2_false`; e.g. the terms G l1, f_ov ls1 are missing or doubled,
  GCCSD_SD_1_1.py:547-548, 977-985).  For CC2 it is not the gradient either
  (`C76_CC2_false`): terms with the integrals of four virtual orbitals are there
  in the lambda equations, but not in the amplitude equations.
* C77: the density matrices of CC2 are those of CCSD; their energy is not the
  CC2 Lagrangian (`C77_CC2_energy_false`).
* C78: for CC2 the functions for left vectors are not the adjoints of those for
  right vectors (`C78_CC2_ip_false`, `C78_CC2_ea_false`);
  `hbar_matvec_ee` of MP2 is not symmetric (`C78_MP2_ee_false`).
* C79: all product functions but those of CCSD without density fitting delete
  every entry of the namespace `ints` of the caller (`C79_GCCD`, `C79_RCCD`, ...).
  Results stay right because an empty namespace is false (eom/base.py:392), but
  the intermediates are calculated again for every later product.
* C80: the residuals of two equal spins are those of the spin orbitals, while the
  unrestricted amplitudes of two equal spins are half of those (C42).  The step
  `residual / denominator` which `UEBCC.update_amps` adds to these amplitudes
  (uebcc.py:367-376) is therefore twice that of `GEBCC.update_amps`; solutions
  are the same.
* C81: `update_amps` of RCCSD-S-1-1 returns twice the residual of the singles
  (RCCSD_S_1_1.py:464-466 and the terms before, e.g. `t1new += f.vo * 2`); all
  other results, also of the other two methods, agree with the unrestricted
  functions (`C81_CCSD_S_1_1_amps_false`, `C81_CCSD_S_1_1_amps_partial`).  Steps of
  the restricted iteration are twice as long for t1; solutions are the same.
* C82: the step of `UEBCC.update_amps` is not the conversion of the step of
  `REBCC.update_amps` (`C82_step_false`): amplitudes of two equal spins change by
  twice as much (uebcc.py:367-376, see C80); everything else, and fixed points,
  agree (`C82_step_partial`, `C82_fixed_points`).
* C83: `get_rotation_matrix` builds the generator with occupied orbitals first
  (rbrueckner.py:58-60), `mo_update_correlated` writes columns in the order of the
  correlated orbitals; with another order a virtual orbital is mixed with a virtual
  one (`C83_generator_false`; `C83_generator_partial` for occupied orbitals first).
  The sign change for negative determinants (rbrueckner.py:63-64,
  ubrueckner.py:75-78, the latter with the shape of the wrong spin) is not reached
  (`C83_sign`). Keeping the real part of the logarithm loses rotations with the
  eigenvalue -1; this is the hypothesis of `C83_undamped`.
* C85: with different numbers of orbitals of the two spins `fci_to_amplitudes` raises
  an `AssertionError` at fourth order (`C85_fails`), for the reason of C59.
* C86: the comment at fci.py:224 ("I have literally no idea why this works") is
  answered by `C86_unrestricted`: for a singlet operator the ladder identities turn
  the sums over permutations into multiples of the blocks with equal spins.
* C88: `converged` of an EOM calculation is `all` of the flags of the roots that were
  found, not of those asked for (eom/base.py:325); `pick_real_eigenvalues` drops a
  pair of complex roots if its imaginary part is the largest one allowed, so a
  calculation for two roots can return one and report convergence
  (`C88_count_false`).
* C89: with a shift the Hamiltonian of the calculation is the bare one plus `const`, but `e_tot`
  (cc/base.py:1078-1086) does not subtract it: total energies with and without the shift differ by
  `const` (`C89_total_energy_false`). `get_mean_field_G` and `xi` sum over the occupied orbitals
  that are not frozen (a FIXME in the code asks whether they should), so with frozen occupied orbitals
  their coupling is missing (`C89_frozen_false`).
* C90: `_contract_tblis` takes `np.empty` as the array to add to if no `out` is given
  (einsumfunc.py:424-425) and passes `beta` on: for `beta` other than zero the result depends on
  uninitialised memory (`C90_uninitialised_false`); the other methods ignore `beta` then. The
  docstring of `einsum` (einsumfunc.py:482) says the calculation is done into `out`; only the
  library does so, and only if `np.reshape` gives a view (`C90_out`, `C90_out_false`).
* C91: `update_lams` of CCSD-S-1-1 with absent bosons differs from that of CCSD off solutions of
  the amplitude equations: `l1new` has the additional terms `l2 * t1new`, which vanish at a solution
  (`C91_lams_S_1_1_singles`). `lu11new` of CCSD-SD-1-1 without `s2` and `ls2` is not that of CCSD-S-1-1
  (`C91_lams_SD_1_1_false`): the two differ by 30 terms, among them `-f.ov t1 lu11`. The fermionic
  density matrices of the methods with bosons are transposed with respect to those of CCSD
  (`C91_rdm1_S_1_1`), which is seen with `hermitise=False` only.
* C92: `_tensorflow.ravel_multi_index` computes strides from all axes but the last instead of all but
  the first: for a matrix it is right exactly if the matrix is square, or has one row or no column
  (`C92_ravel_multi_index_matrix`). `_ctf.stack` with a negative axis inserts the new axis one place too
  early and joins along another one (`C92_stack_negative_false`). `_ctf.concatenate` takes the axis
  `None` to be `0` (`C92_concatenate_none_false`). `_put` of TensorFlow makes a grid of any tuple of
  indices (`C92_put_false`); for CTF it reads the global `np`, which is not defined then
  (`C92_put_ctf_false`), and so does `_inflate`.
* C97: `UEBCC._convert_mf` returns before the lines that calculate the Hartree-Fock energy, so total
  energies for Kohn-Sham references are relative to the Kohn-Sham energy (`C97_unrestricted_false`,
  `C97_two_ways`); the general class uses a reference with general orbitals as it is
  (`C97_general_false`).
* C98: `e_prev` in the Brueckner kernel is read after the energy of the mean-field object, which the
  calculation shares, has been replaced (`C98_false`, `C98_general`, `C98_separate_partial`); the general
  class changes the mean-field object of the user (`C98_reference_general`).
* C99: `init_logging` catches `CalledProcessError` only; without the program `git` no calculation can be
  made (`C99_git_missing`).
* C100: `from_rebcc` and `from_uebcc` do not pass on `mo_coeff`, `mo_occ` and `fock`: a calculation that was
  given orbitals is converted to one with the orbitals of the mean field and amplitudes for the others
  (`C100_orbitals_false`, `C100_fock_false`); the options object is shared (`C100_options`).

## Wrong programs

`seeded/LOG.jsonl` lists 376 edits of model definitions that imitate plausible
bugs, each made in a scratch copy and rebuilt. An entry names the definition,
the edit, the property it breaks and what stopped building. Most edits stop
the build at a lemma about the edited definition, on which the theorems rest;
such an entry shows only that the proof no longer goes through.
Edits that survived led to new or stronger theorems, or to the removal of an
unused definition; these are recorded in the entries. A script lists the model
definitions that no property theorem mentions, directly or through other
definitions; theorems were added for those that turned up.

## Plan per property (written before the proofs)

* **C01 Signed permutation enumeration is complete, duplicate free and correctly signed.** Model the recursion and the position sign literally on lists. Prove by induction on the sequence: length n!, completeness, no duplicates, sign = (-1)^inversions (specification: count of inverted pairs), naturality in the items.
* **C02 String permutation round trip.** Model both functions with exceptions as values. Prove round trip and exact failure condition by induction on the target with the dictionary of unused positions as invariant.
* **C03 Lower triangular index enumeration.** Model the mask over the row-major box. Specification: strictly/weakly decreasing lists below n. Count via Pascal recursion to Nat.choose; itertools.combinations modelled as the recursive enumeration.
* **C04 Compressed size is the number of compressed elements.** Product of ntril over the distinct characters equals the length of the packed list; uses C03.
* **C05 compress after decompress is the identity.** Model arrays as shape + row-major data, put as overwrite in order. Invariant: last write wins, disjointness of strictly decreasing tuples under distinct permutations.
* **C06 decompress after compress is the identity on symmetric arrays.** As C05, plus every index tuple without repetition is a unique permutation of a strictly decreasing one.
* **C07 Decompressed arrays carry the declared symmetry.** As C05/C06; the include_diagonal with '-' case is refuted by a witness.
* **C08 symmetrise produces an array with the requested symmetry.** Sum over a product of permutation groups; reindexing by a transposition. Mixed strings refuted by a witness, uniform ones proved.
* **C09 symmetrise leaves already symmetric arrays unchanged.** Compute the factor: each group contributes k!/2^(k-1). Proved identity iff all groups have at most two axes (characteristic zero); the general claim refuted for k>=3.
* **C10 antisymmetrise_array antisymmetrises and scales antisymmetric input by k!.** Same reindexing as C08.
* **C11 Spin combinations cover every spin class exactly once.** Induction on n for the product; classes by alpha count.
* **C12 combine_subscripts identifies positions exactly by their keys.** Invariant on the character map, induction on positions.
* **C13 argsort returns the stable sorting permutation.** Insertion model of Python's stable sort; permutation, sortedness and stability by induction.
* **C14 Namespace behaves as an insertion ordered map.** Refinement of the ordered member list to a partial map plus an order, over arbitrary operation lists.
* **C15 Two operand einsum equals the defining sum on every path.** Model TTGT branch by branch over a commutative ring; reindexing of finite sums.
* **C16 Einsum input parsing: implicit output and rejection of malformed input.** String functions on character lists with exceptions as values.
* **C17 Chained einsum is independent of the contraction path.** Abstract expression model: contraction lists over any path; induction on the path, distributivity of sums.
* **C18 dirsum element formula.** Model the textual sign replacement and the broadcast sum.
* **C19 The orbital space is partitioned.** Boolean mask algebra, pointwise; counts by induction.
* **C20 Space construction rejects exactly the invalid assignments.** Decision logic.
* **C21 Slices select exactly the orbitals of the mask.** Model argmax, contiguity check, Python slice normalisation with negative numbers. Witness for the failing boundary case.
* **C22 Default and frozen natural orbital spaces are valid.** Lists of occupations over an ordered field; prefix property of a descending filter.
* **C23 Ansatz name and module identifier determine each other.** String rewriting on character lists; witness for '-', '[]' names; round trip on the language without them.
* **C24 Cluster ranks of an ansatz are well formed.** Model the notation tables literally; prove shape of keys and ordering for all strings; witness for quadruples de-excitation keys.
* **C25 Perturbative suffix and method type handling.** Model; suffix theorem; witness for unknown prefix.
* **C26 DIIS bookkeeping is consistent in every history.** State machine over arbitrary call sequences with invariants.
* **C27 DIIS extrapolation is an affine, error-minimising combination.** Linear algebra over an ordered field: KKT system of the constrained least squares problem.
* **C28 Damping returns the newest vector until extrapolation starts.** State machine; refuted with a witness for min_space >= 2; proved for the settings where it holds.
* **C29 Linear damping is the stated convex combination.** State machine.
* **C30 Ground state kernel reports convergence only when it has converged.** Loop as recursion over remaining iterations with abstract update/energy; invariant.
* **C31 Lambda kernel uses the amplitudes it is given and reports convergence faithfully.** As C30; argument forwarding modelled explicitly; witness that the passed amplitudes are ignored.
* **C32 Restricted amplitude vector round trip.** Lists of blocks with shapes; concatenate / slice round trip by induction.
* **C33 General amplitude vector round trip.** As C32 with C05/C06.
* **C34 Unrestricted amplitude vector round trip.** As C33 with spin blocks.
* **C35 Vectors of wrong length are rejected.** Decision logic, witness.
* **C36 Amplitude update has exactly the solutions as fixed points.** Field arithmetic pointwise; UHF case uses C09, refuted for rank 3.
* **C37 Initial amplitudes are first order amplitudes for every class.** Model; witness for stale variables.
* **C38 Hermitised density matrices are Hermitian and hermitising is idempotent.** Ring arithmetic on matrices.
* **C39 Energy denominators.** Model signs dictionary and the direct sum.
* **C40 Shifting removes the mean-field boson term.** Field arithmetic.
* **C41 Bosonic density matrix unshifting.** Ring arithmetic, witness with two modes.
* **C42 Conversion between spin types preserves the amplitudes.** Model scatter by spin; antisymmetry.
* **C43 EOM amplitude vector round trip.** As C32-C34.
* **C44 EOM guesses.** Uses C13.
* **C45 Brueckner rotation touches exactly the correlated orbitals and all amplitudes.** Model per-block transformation loop; witness.
* **C46 Brueckner kernel reports convergence.** State machine; witness.
* **C47 Tailoring and external corrections are reversible contexts.** State machine of nested contexts with exceptions.
* **C48 Precision context restores the previous precision.** State machine with exceptions; witness for the exception path.
* **C49 Saving and loading reproduces the calculation.** Record round trip; witnesses.
* **C50 Davidson subspace is bounded and its projected matrix is consistent.** Loop invariant.
* **C51 Davidson orthonormalisation.** Inner product space over the reals (Mathlib).
* **C52 Davidson convergence flags are truthful.** Loop invariant.
* **C53 Integral containers are transparent caches.** Cache refinement over arbitrary read sequences.
* **C54 Antisymmetrised integrals are antisymmetric.** Ring arithmetic.
* **C55 Density fitted integrals equal the contracted product.** Ring arithmetic.
* **C56 Factory dispatch.** Decision logic.
* **C57 Available models lists the importable model names.** Strings; witnesses.
* **C58 Time formatting preserves the duration.** Natural number arithmetic on whole milliseconds; witness for precision.
* **C59 FCI vector packing.** Lists; round trip.
* **C60 Options of one solver do not leak into another.** Heap of options objects; frame property.
* **C61 Small utilities.** Equivalences over all argument lists; induction.
* **C62 Timer.** State machine over arbitrary call sequences; telescoping sum.
* **C63 Choice of roots in the Davidson subspace.** Lists of complex pairs, argsort as a parameter that only sorts; pairs by induction on the sorted list; witnesses for ties.
* **C64 Diagonal preconditioner.** Ordered field arithmetic.
* **C65 External amplitudes in the full space.** As C47; heap of namespaces for the shallow copy, witness for re-entry.
* **C66 Integral blocks are over the named orbitals.** Slices are the positions of the mask (C21); transparency (C53) reduces any state to a new container.
* **C67 Lambda updates.** Lemmas of C36, for either kind of amplitude; perturbative fold; refutations for the general and unrestricted classes.
* **C68 Arguments of generated functions.** Resolution of every argument as an inductive relation, dictionaries by key; injectivity of names.
* **C69 Given amplitudes replace the stored ones.** Two calculations that differ in the stored amplitudes; witness with a shift.
* **C70 Diagonal of EOM calculations.** Elementwise product with the packed vector is the packed zeroth-order action; signs as a table, refuted where wrong.
* **C71 EOM matrix-vector products.** Arguments by C68; eigenvectors by linearity and injectivity of packing.
* **C72 to C74 Restricted and unrestricted equations agree.** Polynomials with sums over spaces of any size, a canonical form under renaming of summed indices and the symmetries of the tensors, soundness of the evaluation of the generated statements.
* **C75 Density-fitted equations agree.** As C72; the two-electron integrals are sums over an auxiliary space.
* **C76 Lambda equations.** As C72, with derivatives: an identity between the polynomials of the three functions and a formal derivative along a direction, whose soundness is a statement with `HasDerivAt`; refutations by data for which the deviation is not zero.
* **C77 Density matrices.** Identities as C76, without derivatives, for every block; sums over all orbitals from the blocks.
* **C78 EOM products.** Identities as C77 with two calls for intermediates and two for products; derivatives as C76.
* **C79 Intermediates kept between products.** The variables left at the end of a call as part of the model; invariant over the sequence of calls: the namespace is full or empty.
* **C80 General and unrestricted functions.** A polynomial of spin orbitals is split by the spins of its summed indices (`Verif/Tensor/Split.lean`, proved once for all sizes and orders of spin orbitals); the split polynomials are compared with those of the unrestricted function, all 16 spin blocks of doubles.
* **C81 Restricted and unrestricted functions with bosons.** As C72 with the tensors of bosons; refutation by a value for the singles of CCSD-S-1-1.
* **C82 Steps of the amplitude equations.** Lemmas of C36 and C42 for the blocks; factors of the blocks of equal spins; fixed points as a consequence; witness with two orbitals of each kind.
* **C83 Brueckner rotations.** Exponentials of antisymmetric matrices; invariant over the steps: the total rotation is orthogonal with determinant one, the vectors stored by DIIS are antisymmetric; orthonormality of updated orbitals; order of orbitals by ranks in masks; witness.
* **C84 Coefficients of exp(T).** The coefficients are defined by the sum over divisions of the orbitals into groups (`Spec/ExpCoeff.lean`); as polynomials in antisymmetric tensors they are compared with the generated functions (`Tensor/SetupE.lean`); chains of calls by induction over the order; the coefficients are antisymmetric and every antisymmetric function is given by coefficients (`Lemmas/ExpCoeff.lean`), by exchanging the order of divisions and by recursion over the order.
* **C85 CI vectors and amplitudes.** C59 and C84 composed: blocks of coefficients antisymmetric in equal spins extend to one antisymmetric function of spin orbitals (`Lemmas/CoeffArray.lean`: sort by spin with sign), and blocks of such a function are antisymmetric.
* **C86 restricted CI vectors and amplitudes.** Restricted arrays are tensors of spatial orbitals with the spins of a pattern (`resTensor`), their symmetries are checked as for C81; the blocks with unrestricted spins follow from sums over moved spins (`Lemmas/SpinSum.lean`) and the ladder identities of a singlet (`Thms/C86Sums.lean`).
* **C87 External corrections.** Arrays in the active space are tensors restricted to the active orbitals (`Spec/Active.lean`); a sum over active orbitals is a sum over all of a tensor that vanishes outside, and so is a block added at the active positions (`Tensor/External.lean`, `Tensor/ExternalSum.lean`), after which the identity is one of polynomials as in C77. The step is C36 with two additions of blocks (C47).
* **C88 EOM kernel.** C52 for the flags, C63 for the order and the real parts, C51 for the norm: coefficients of unit norm in an orthonormal basis; witness with a pair of imaginary eigenvalues.
* **C89 Shift of bosons.** The blocks are those of C66, `xi` and `G` those of C40; the identity of operators is linear in sums over orbitals, per mode by `module`. Refutations: a mode on polynomials (`b` the derivative minus one), and a space with a frozen occupied orbital.
* **C90 Contraction with TBLIS.** Case analysis of the branches; Einstein sum of C15; witness with shapes of 1000 elements by the general lemma, not by evaluation.
* **C91 Smaller methods.** Vanishing arguments are empty polynomials (`Tensor/Reduce.lean`); equal results as in C77. The difference of `lu11new` is read off the polynomials and evaluated for one orbital of each kind.
* **C92 Backends.** Invariant of the loop over the arrays: those written so far are found at their offsets, the rest is unchanged; `stack` and `block` by `concatenate`.
* **C93 Rotated orbitals.** A contraction of rotated arrays has sums over labels and over the positions of the labels; orthogonality removes one summed label at a time (`Lemmas/Rotated.lean`). So it is enough that each label occurs twice among operands and output and its axes have one space, which `Tensor/Covariant.lean` checks statement by statement; no polynomials are needed. A function with a label that occurs once is shown not to be covariant.
* **C94 Integrals of rotated orbitals.** Blocks are sums over all axes with a matrix per axis (`axSum` in `Lemmas/AxSum.lean`); the coefficients of a class are those of the whole rotation restricted to the class (`coeff94`), and products of matrices come out of the sums.
* **C95 Solutions for rotated orbitals.** Rotating back with the transposed matrices gives the original array (`rotSum_back`), so residuals vanish together; a call depends on its arguments only (`call_congr95`), so C94 supplies them for restricted calculations.
* **C96 Assembly of density matrices.** Induction over the axes: inside the lists for the first axes the array is made of the blocks with a common beginning of the name; the loop fills a dictionary, names are injective.
* **C97 Mean-field objects.** Heap of objects; case analysis of the three conversions; witness with a functional.
* **C98 Brueckner energies.** Invariant over the iterations: which of `self.mf` and `self.cc.mf` are one object; the list of energy differences by induction. Sums of squares for the norms.
* **C99 Header.** Induction over the calls; the global variable is set only at the end of a call.
* **C100 Converted calculations.** Heap of C97; what the constructors pass on; witness with orbitals given by the user.
