{"id": "C01", "title": "Signed permutation enumeration is complete, duplicate free and correctly signed", "statement": "permutations_with_signs(seq) returns exactly n! entries for a sequence of n distinct items; every arrangement of the sequence occurs exactly once, nothing else occurs, the first entry is the sequence itself with sign +1, and the sign returned with an arrangement is the parity of that arrangement (+1 for an even, -1 for an odd number of inversions).", "quantifier": "every finite sequence, of every length", "why_tests_cant": "a test enumerates a handful of lengths; the sign is produced by list position, so correctness for each length depends on the whole recursion and needs induction over the length", "anchors": ["ebcc/util/permutations.py:permutations_with_signs"]}
{"id": "C02", "title": "String permutation round trip", "statement": "If target is a rearrangement of string (or any selection of its characters respecting multiplicity), permute_string(string, get_string_permutation(string, target)) returns target, and the returned tuple has no repeated position; if some character of target occurs more often than in string the call raises.", "quantifier": "every pair of strings, with arbitrary repeated characters", "why_tests_cant": "repeated characters make the space of inputs unbounded; examples only cover a few letter patterns", "anchors": ["ebcc/util/permutations.py:permute_string", "ebcc/util/permutations.py:get_string_permutation"]}
{"id": "C03", "title": "Lower triangular index enumeration", "statement": "tril_indices_ndim(n, dims) lists exactly the index tuples below n that are strictly decreasing (weakly decreasing with include_diagonal), each exactly once and in row-major order, and the number of tuples equals ntril_ndim(n, dims), i.e. the binomial coefficient C(n, dims) (C(n+dims-1, dims) with the diagonal).", "quantifier": "every n, every number of dimensions >= 1, both diagonal settings", "why_tests_cant": "two unrelated enumerations have to agree for all n and dims; tests check small shapes only", "anchors": ["ebcc/util/permutations.py:tril_indices_ndim", "ebcc/util/permutations.py:ntril_ndim"]}
{"id": "C04", "title": "Compressed size is the number of compressed elements", "statement": "For an array whose axes have sizes consistent with the subscript, the number of elements of compress_axes(subscript, array) equals get_compressed_size(subscript, sizes). The packed length used to slice vectors is therefore the packed length produced.", "quantifier": "every subscript, every axis sizes", "why_tests_cant": "a mismatch for one unusual subscript shifts every later slice of an amplitude vector; only a proof covers all subscripts", "anchors": ["ebcc/util/permutations.py:compress_axes", "ebcc/util/permutations.py:get_compressed_size"]}
{"id": "C05", "title": "compress after decompress is the identity", "statement": "compress_axes(sub, decompress_axes(sub, x, shape)) = x for the default (antisymmetric) symmetry and for any valid symmetry string, when the diagonal is not included.", "quantifier": "every subscript, shape, packed array x and symmetry string that is accepted", "why_tests_cant": "decompression overwrites elements permutation by permutation; that the lower triangle survives for every rank and every grouping cannot be shown by sampling", "anchors": ["ebcc/util/permutations.py:compress_axes", "ebcc/util/permutations.py:decompress_axes"]}
{"id": "C06", "title": "decompress after compress is the identity on symmetric arrays", "statement": "If the array has the declared symmetry in each group of equally named axes and vanishes when two equally named indices coincide (automatic for antisymmetric arrays), decompress_axes(sub, compress_axes(sub, a), a.shape) = a.", "quantifier": "every subscript, every shape, every array with the symmetry", "why_tests_cant": "needs every index tuple to be reached by exactly the right signed permutation, for all ranks", "anchors": ["ebcc/util/permutations.py:compress_axes", "ebcc/util/permutations.py:decompress_axes"]}
{"id": "C07", "title": "Decompressed arrays carry the declared symmetry", "statement": "decompress_axes returns an array that changes by the declared sign under exchange of any two axes with the same character, and (diagonal excluded) is zero whenever two such indices coincide.", "quantifier": "every subscript, shape, packed array and accepted symmetry string; include_diagonal for '+' groups; for '-' groups with include_diagonal the claim must be examined", "why_tests_cant": "universally quantified over ranks, groups and index values", "anchors": ["ebcc/util/permutations.py:decompress_axes"]}
{"id": "C08", "title": "symmetrise produces an array with the requested symmetry", "statement": "symmetrise(sub, a, symmetry) changes by the sign requested for the group under exchange of two axes of that group, for every symmetry string it accepts.", "quantifier": "every subscript, array and accepted symmetry string (including strings mixing '+' and '-' groups)", "why_tests_cant": "tests use uniform strings; mixed strings are accepted but never exercised", "anchors": ["ebcc/util/permutations.py:symmetrise"]}
{"id": "C09", "title": "symmetrise leaves already symmetric arrays unchanged", "statement": "With the factor applied, symmetrise(sub, a) = a whenever a already has the requested symmetry; hence symmetrise is idempotent.", "quantifier": "every subscript and every array with the symmetry", "why_tests_cant": "holds for groups of at most two axes; unit tests only use such groups", "anchors": ["ebcc/util/permutations.py:symmetrise", "ebcc/util/permutations.py:get_symmetry_factor"]}
{"id": "C10", "title": "antisymmetrise_array antisymmetrises and scales antisymmetric input by k!", "statement": "antisymmetrise_array(v, axes) changes sign under exchange of any two of the listed axes, and equals k! times v when v is already antisymmetric in the k axes.", "quantifier": "every array rank, every tuple of distinct axes", "why_tests_cant": "arbitrary rank and axis choice", "anchors": ["ebcc/util/permutations.py:antisymmetrise_array"]}
{"id": "C11", "title": "Spin combinations cover every spin class exactly once", "statement": "generate_spin_combinations(n) yields the 2^n balanced combinations without repetition in product order; with unique=True every class of combinations (same number of alpha in the occupied and virtual halves) is represented by exactly one output, with excited=True likewise for the shortened strings.", "quantifier": "every n, all four flag settings", "why_tests_cant": "classes are represented after a rewriting step that swaps representatives; a missing or doubled class only shows for particular n", "anchors": ["ebcc/util/permutations.py:generate_spin_combinations"]}
{"id": "C12", "title": "combine_subscripts identifies positions exactly by their keys", "statement": "combine_subscripts returns a string of the same length in which two positions carry the same character iff all the input subscripts agree there; the returned sizes give each new character the size of its key; the call raises for unequal lengths and for too many distinct keys.", "quantifier": "every tuple of subscripts", "why_tests_cant": "quantifies over all strings; tests use a few", "anchors": ["ebcc/util/permutations.py:combine_subscripts"]}
{"id": "C13", "title": "argsort returns the stable sorting permutation", "statement": "argsort(values) is a permutation of the positions, arranging the values in non-decreasing order and keeping equal values in their original order; applying argsort to a permutation yields its inverse.", "quantifier": "every list of comparable values", "why_tests_cant": "stability matters for the axis grouping, sampling cannot settle it", "anchors": ["ebcc/util/misc.py:argsort"]}
{"id": "C14", "title": "Namespace behaves as an insertion ordered map", "statement": "After any sequence of item or attribute assignments, deletions and copies a Namespace returns for each key the last value assigned, reports exactly the keys assigned and not deleted, in order of first insertion, has the matching length, and copies are independent; lookups of missing keys raise KeyError (item) or AttributeError (attribute).", "quantifier": "every history of operations", "why_tests_cant": "histories are unbounded", "anchors": ["ebcc/util/misc.py:Namespace"]}
{"id": "C15", "title": "Two operand einsum equals the defining sum on every path", "statement": "The transpose-transpose-GEMM-transpose contraction returns, for every subscript it does not hand to the fallback, exactly alpha times the Einstein sum over the shared indices plus beta times the output array, with the output axes in the requested order.", "quantifier": "every pair of arrays, every subscript, all alpha, beta", "why_tests_cant": "the reordering is data dependent on the subscript; the fast path is only taken for large arrays so tests seldom reach it", "anchors": ["ebcc/util/einsumfunc.py:_contract_ttgt", "ebcc/util/einsumfunc.py:_contract_backend"]}
{"id": "C16", "title": "Einsum input parsing: implicit output and rejection of malformed input", "statement": "In implicit mode the output subscript consists of exactly the characters that appear once in the input, in sorted order; an explicit output is kept; an output with a repeated character or a character absent from the inputs is rejected, as is a subscript with a malformed arrow; the integer-list call form is equivalent to the string form.", "quantifier": "every subscript string and every list form", "why_tests_cant": "strings are unbounded", "anchors": ["ebcc/util/einsumfunc.py:_parse_einsum_input"]}
{"id": "C17", "title": "Chained einsum is independent of the contraction path", "statement": "For three or more operands, evaluating the contraction pairwise along any valid contraction path gives the Einstein sum over all indices absent from the output.", "quantifier": "every number of operands, every path", "why_tests_cant": "the path is chosen by a heuristic and depends on the sizes at run time", "anchors": ["ebcc/util/einsumfunc.py:einsum"]}
{"id": "C18", "title": "dirsum element formula", "statement": "dirsum over arrays returns the array whose element is the sum of the elements of the operands, each with the sign written before it, with output axes in the requested order.", "quantifier": "every number of operands, every rank, all signs", "why_tests_cant": "sign handling is textual; leading signs and chained minus signs have to be right for all strings", "anchors": ["ebcc/util/einsumfunc.py:dirsum", "ebcc/util/einsumfunc.py:_parse_einsum_input"]}
{"id": "C19", "title": "The orbital space is partitioned", "statement": "For every accepted occupied/frozen/active assignment: occupied and virtual partition all orbitals; correlated and frozen partition them; the correlated occupied orbitals split into active and inactive occupied ones, likewise for virtuals; all reported counts are the sizes of the masks and add up accordingly.", "quantifier": "every number of orbitals and every assignment", "why_tests_cant": "2^(3n) assignments", "anchors": ["ebcc/ham/space.py:Space"]}
{"id": "C20", "title": "Space construction rejects exactly the invalid assignments", "statement": "Space(occupied, frozen, active) raises iff the three arrays have different sizes or an orbital is both frozen and active.", "quantifier": "every triple of boolean arrays, of any lengths", "why_tests_cant": "the claim is an equivalence over all assignments; tests try a handful of invalid ones", "anchors": ["ebcc/ham/space.py:Space.__init__"]}
{"id": "C21", "title": "Slices select exactly the orbitals of the mask", "statement": "space.slice(char) either raises because the orbitals of the class are not contiguous, or selects exactly the orbitals of space.mask(char), in order; omask/vmask/xmask and oslice/vslice/xslice select, inside the occupied, virtual and active-correlated sectors, exactly the orbitals of that class.", "quantifier": "every accepted assignment, every class character", "why_tests_cant": "boundary cases (empty classes, classes touching the sector boundary) are where Python slices wrap around", "anchors": ["ebcc/ham/space.py:Space.slice", "ebcc/ham/space.py:Space.oslice", "ebcc/ham/space.py:Space.vslice", "ebcc/ham/space.py:Space.xslice"]}
{"id": "C22", "title": "Default and frozen natural orbital spaces are valid", "statement": "construct_default_space marks exactly the orbitals with positive occupation as occupied with nothing frozen or active; construct_fno_space never freezes an occupied orbital, freezes only the natural orbitals with the lowest occupations, and a larger threshold never freezes fewer orbitals.", "quantifier": "all occupation arrays, spectra and thresholds", "why_tests_cant": "monotonicity and validity are universally quantified over real spectra", "anchors": ["ebcc/ham/space.py:construct_default_space", "ebcc/ham/space.py:construct_fno_space"]}
{"id": "C23", "title": "Ansatz name and module identifier determine each other", "statement": "identifier_to_name(name_to_identifier(name)) = name for every method name, and different supported names never map to the same generated module.", "quantifier": "every method name built from the characters of the naming scheme", "why_tests_cant": "string rewriting over an unbounded language", "anchors": ["ebcc/core/ansatz.py:name_to_identifier", "ebcc/core/ansatz.py:identifier_to_name"]}
{"id": "C24", "title": "Cluster ranks of an ansatz are well formed", "statement": "fermionic_cluster_ranks returns entries with increasing rank, one per excitation class named in the ansatz, with a key of n occupied followed by n virtual indices; for de-excitation amplitudes the key halves are exchanged and t becomes l; for IP the last virtual index and for EA, with the halves exchanged, the last occupied index is dropped; bosonic and coupling ranks likewise have keys of the declared length.", "quantifier": "every ansatz string accepted, every spin type, every kind of amplitude", "why_tests_cant": "strings combine freely; adapting keys is done separately for each notation", "anchors": ["ebcc/core/ansatz.py:Ansatz.fermionic_cluster_ranks", "ebcc/core/ansatz.py:Ansatz.bosonic_cluster_ranks", "ebcc/core/ansatz.py:Ansatz.coupling_cluster_ranks"]}
{"id": "C25", "title": "Perturbative suffix and method type handling", "statement": "A perturbative correction in parentheses does not change the iterative cluster ranks; has_perturbative_correction and is_one_shot are determined by the name only; names not starting with a supported method type are rejected.", "quantifier": "every ansatz string", "why_tests_cant": "unbounded set of strings", "anchors": ["ebcc/core/ansatz.py:Ansatz"]}
{"id": "C26", "title": "DIIS bookkeeping is consistent in every history", "statement": "After any sequence of calls, the DIIS object stores at most the configured number of vectors, every stored vector has its error, every cached inner product of errors equals the inner product of the errors currently stored under those keys, and the newest vector is stored.", "quantifier": "every sequence of calls, every subspace size and threshold", "why_tests_cant": "history dependent; staleness of a cache only shows after particular call patterns", "anchors": ["ebcc/core/damping.py:DIIS"]}
{"id": "C27", "title": "DIIS extrapolation is an affine, error-minimising combination", "statement": "The coefficients solved for sum to one; the extrapolated error has the smallest norm among all affine combinations of the stored errors; if all stored vectors are equal the result is that vector (converged amplitudes are not disturbed).", "quantifier": "every number of stored vectors and every real data, whenever the linear system has a solution", "why_tests_cant": "real valued, unbounded dimension", "anchors": ["ebcc/core/damping.py:DIIS.extrapolate"]}
{"id": "C28", "title": "Damping returns the newest vector until extrapolation starts", "statement": "While there are too few stored vectors to extrapolate, calling the DIIS or damping object with a new vector returns that new vector, so the iteration proceeds undamped.", "quantifier": "every subspace size, minimum size and history", "why_tests_cant": "default settings hide the behaviour for other settings; needs an argument over histories", "anchors": ["ebcc/core/damping.py:DIIS", "ebcc/core/damping.py:LinearDamping"]}
{"id": "C29", "title": "Linear damping is the stated convex combination", "statement": "LinearDamping returns (1-f) times the new vector plus f times the vector pushed before it, never keeps more than two vectors, and preserves fixed points.", "quantifier": "every sequence of calls, every factor", "why_tests_cant": "histories unbounded", "anchors": ["ebcc/core/damping.py:LinearDamping"]}
{"id": "C30", "title": "Ground state kernel reports convergence only when it has converged", "statement": "If the amplitude iteration reports converged, the last iteration changed both energy and amplitudes by less than the tolerances and the stored energy is that of the stored amplitudes; if it never meets the tolerances within max_iter iterations it reports not converged; at most max_iter updates are made; one-shot methods make none.", "quantifier": "every update map, every energy functional, every tolerance and max_iter", "why_tests_cant": "the loop has data dependent length and for/else control flow", "anchors": ["ebcc/cc/base.py:BaseEBCC.kernel"]}
{"id": "C31", "title": "Lambda kernel uses the amplitudes it is given and reports convergence faithfully", "statement": "solve_lambda(amplitudes=T) solves the lambda equations for T; it reports converged only if the last change is below the tolerance and makes at most max_iter updates.", "quantifier": "every update map and amplitudes", "why_tests_cant": "control flow with data dependent length, optional arguments", "anchors": ["ebcc/cc/base.py:BaseEBCC.solve_lambda"]}
{"id": "C32", "title": "Restricted amplitude vector round trip", "statement": "For RHF-type calculations vector_to_amplitudes(amplitudes_to_vector(T)) = T and amplitudes_to_vector(vector_to_amplitudes(x)) = x for vectors of the right length; the length is the sum of the block sizes.", "quantifier": "every ansatz, space, number of bosons and amplitudes", "why_tests_cant": "any number of blocks of any shape", "anchors": ["ebcc/cc/rebcc.py:REBCC.amplitudes_to_vector", "ebcc/cc/rebcc.py:REBCC.vector_to_amplitudes", "ebcc/cc/rebcc.py:REBCC.lambdas_to_vector", "ebcc/cc/rebcc.py:REBCC.vector_to_lambdas"]}
{"id": "C33", "title": "General amplitude vector round trip", "statement": "For GHF-type calculations the vector is not packed: the round trip is the identity on all amplitudes of the declared shapes (antisymmetric or not) and on vectors of the right length, which is the sum of the block sizes.", "quantifier": "every ansatz, space, number of bosons", "why_tests_cant": "ranks and sizes unbounded", "anchors": ["ebcc/cc/gebcc.py:GEBCC.amplitudes_to_vector", "ebcc/cc/gebcc.py:GEBCC.vector_to_amplitudes"]}
{"id": "C34", "title": "Unrestricted amplitude vector round trip", "statement": "For UHF-type calculations the packed vector round trip is the identity on spin-block amplitudes antisymmetric in equal spins, and on vectors of the right length; vectors of any other length are rejected.", "quantifier": "every ansatz, pair of spaces, number of bosons", "why_tests_cant": "spin blocks have different sizes and packing; error only for some open shell shapes", "anchors": ["ebcc/cc/uebcc.py:UEBCC.amplitudes_to_vector", "ebcc/cc/uebcc.py:UEBCC.vector_to_amplitudes"]}
{"id": "C35", "title": "Vectors of wrong length are rejected", "statement": "vector_to_amplitudes raises when the vector does not have exactly the length of the ansatz.", "quantifier": "every ansatz, space and vector of any length", "why_tests_cant": "a test tries single wrong lengths; the claim is about every length that is not the right one", "anchors": ["ebcc/cc/rebcc.py:REBCC.vector_to_amplitudes", "ebcc/cc/gebcc.py:GEBCC.vector_to_amplitudes", "ebcc/cc/uebcc.py:UEBCC.vector_to_amplitudes"]}
{"id": "C36", "title": "Amplitude update has exactly the solutions as fixed points", "statement": "update_amps leaves amplitudes unchanged iff all residuals vanish (with non-zero energy denominators and amplitudes of the right symmetry).", "quantifier": "all residual values, amplitudes, energies, every ansatz and spin type", "why_tests_cant": "real valued data; the open shell variant symmetrises, which only matters for higher ranks", "anchors": ["ebcc/cc/rebcc.py:REBCC.update_amps", "ebcc/cc/gebcc.py:GEBCC.update_amps", "ebcc/cc/uebcc.py:UEBCC.update_amps"]}
{"id": "C37", "title": "Initial amplitudes are first order amplitudes for every class", "statement": "init_amps gives every amplitude of the ansatz the declared shape, with singles, doubles, one-boson and one-fermion-one-boson amplitudes initialised from the matching integrals and energy denominators of their own spin, and all others zero; init_lams gives the transposed amplitudes.", "quantifier": "every ansatz and space", "why_tests_cant": "unusual ansatzes and open shells are not covered by tests", "anchors": ["ebcc/cc/gebcc.py:GEBCC.init_amps", "ebcc/cc/rebcc.py:REBCC.init_amps", "ebcc/cc/uebcc.py:UEBCC.init_amps", "ebcc/cc/rebcc.py:REBCC.init_lams"]}
{"id": "C38", "title": "Hermitised density matrices are Hermitian and hermitising is idempotent", "statement": "make_rdm1_f(hermitise=True) returns a symmetric matrix; make_rdm2_f(hermitise=True) is invariant under exchange of the index pairs (0,1)<->(2,3) and under simultaneous exchange of particles (1,0,3,2); hermitising does not change a density matrix with these symmetries; traces are preserved; the two electron-boson coupling blocks are mutual transposes.", "quantifier": "every raw density matrix", "why_tests_cant": "real valued arrays of every size", "anchors": ["ebcc/cc/rebcc.py:REBCC.make_rdm1_f", "ebcc/cc/rebcc.py:REBCC.make_rdm2_f", "ebcc/cc/rebcc.py:REBCC.make_eb_coup_rdm"]}
{"id": "C39", "title": "Energy denominators", "statement": "energy_sum(key) returns the array whose element is the sum over the positions of the key of the orbital (or boson) energy with + for occupied and - for virtual and boson indices unless overridden, and does not change its arguments.", "quantifier": "every key of up to 26 characters, every energies, every sign override", "why_tests_cant": "unbounded keys; mutation of a caller dictionary is invisible to value tests", "anchors": ["ebcc/cc/rebcc.py:REBCC.energy_sum"]}
{"id": "C40", "title": "Shifting removes the mean-field boson term", "statement": "With the shift option on, the mean-field boson non-conserving term G is zero for non-zero frequencies; with it off, xi = 0 and G is the bare term plus the mean-field trace.", "quantifier": "every Hamiltonian, number of bosons and orbitals, shifted or not", "why_tests_cant": "numerical tests compare energies of single molecules to a tolerance; the identity is exact and for every input", "anchors": ["ebcc/cc/rebcc.py:REBCC.xi", "ebcc/cc/rebcc.py:REBCC.get_mean_field_G"]}
{"id": "C41", "title": "Bosonic density matrix unshifting", "statement": "make_rdm1_b(unshifted=True) returns the density matrix of the unshifted operators: every element (p,q) is corrected by the shift terms xi_p, xi_q.", "quantifier": "every number of boson modes", "why_tests_cant": "tests use one mode or check traces only", "anchors": ["ebcc/cc/base.py:BaseEBCC.make_rdm1_b"]}
{"id": "C42", "title": "Conversion between spin types preserves the amplitudes", "statement": "Converting restricted to unrestricted amplitudes and unrestricted to general amplitudes yields arrays with the required antisymmetry whose spin blocks are the original amplitudes.", "quantifier": "every amplitudes and space, every rank supported", "why_tests_cant": "any rank and orbital interleaving", "anchors": ["ebcc/cc/uebcc.py:UEBCC.from_rebcc", "ebcc/cc/gebcc.py:GEBCC.from_uebcc"]}
{"id": "C43", "title": "EOM amplitude vector round trip", "statement": "For excitation, ionisation and attachment EOM objects of every spin type, packing amplitudes into a vector and unpacking are mutually inverse (on amplitudes of the right symmetry).", "quantifier": "every ansatz, space and excitation type", "why_tests_cant": "ranks and sizes unbounded", "anchors": ["ebcc/eom/reom.py", "ebcc/eom/geom.py", "ebcc/eom/ueom.py"]}
{"id": "C44", "title": "EOM guesses", "statement": "get_guesses returns min(nroots, size) distinct unit vectors, located at the smallest diagonal elements in order.", "quantifier": "every diagonal and number of roots", "why_tests_cant": "all real vectors of all lengths", "anchors": ["ebcc/eom/base.py:BaseEOM.get_guesses"]}
{"id": "C45", "title": "Brueckner rotation touches exactly the correlated orbitals and all amplitudes", "statement": "Writing back rotated orbitals changes only the correlated columns; transform_amplitudes rotates every amplitude of the ansatz (each spin block) with the rotation of its own spin, and rotating with the identity changes nothing.", "quantifier": "every ansatz, space with frozen and active orbitals, set of amplitudes and rotation", "why_tests_cant": "the tests rotate closed-shell molecules without frozen orbitals and only compare final energies", "anchors": ["ebcc/opt/base.py", "ebcc/opt/ubrueckner.py:BruecknerUEBCC.transform_amplitudes"]}
{"id": "C46", "title": "Brueckner kernel reports convergence", "statement": "After a Brueckner calculation the converged attribute is true iff the iteration met its thresholds.", "quantifier": "every sequence of inner calculations, thresholds and iteration limits", "why_tests_cant": "tests see converged runs only; the claim is about every way the loop can end", "anchors": ["ebcc/opt/base.py:BaseBruecknerEBCC.kernel"]}
{"id": "C47", "title": "Tailoring and external corrections are reversible contexts", "statement": "Entering a tailored or externally corrected context changes update_amps, leaving it (normally or by an exception) restores the original behaviour, for any well nested sequence of contexts; inside, tailored amplitudes are fixed in the active block and untouched outside.", "quantifier": "all well nested histories, all amplitudes", "why_tests_cant": "histories unbounded", "anchors": ["ebcc/ext/tcc.py", "ebcc/ext/eccc.py"]}
{"id": "C48", "title": "Precision context restores the previous precision", "statement": "with precision(...): restores the previous settings at exit for any nesting, whether the body returns or raises.", "quantifier": "every nesting and every exit path", "why_tests_cant": "exception paths multiply", "anchors": ["ebcc/core/precision.py:precision"]}
{"id": "C49", "title": "Saving and loading reproduces the calculation", "statement": "Writing a calculation and reading it back yields the same ansatz, space, amplitudes, lambdas, energies, options and convergence flags.", "quantifier": "every stored state", "why_tests_cant": "every combination of missing parts", "anchors": ["ebcc/core/dump.py:Dump"]}
{"id": "C50", "title": "Davidson subspace is bounded and its projected matrix is consistent", "statement": "In every iteration of the eigensolver the subspace never exceeds the allocated projected matrix, and the projected matrix element (i,j) equals the inner product of vector i with the operator applied to vector j, also after restarts.", "quantifier": "every number of roots, maximum space, cycles and data", "why_tests_cant": "control flow over unbounded iterations", "anchors": ["ebcc/core/davidson.py:davidson", "ebcc/core/davidson.py:_fill_subspace_matrix"]}
{"id": "C51", "title": "Davidson orthonormalisation", "statement": "Vectors appended to the subspace are orthogonal to the basis; the orthonormalised vectors are orthonormal and span no more than the input.", "quantifier": "every list of vectors over the complex numbers, linearly dependent or not", "why_tests_cant": "dependent or nearly dependent vectors do not turn up in the tests", "anchors": ["ebcc/core/davidson.py:_orthonormalise_vectors", "ebcc/core/davidson.py:_project_vectors"]}
{"id": "C52", "title": "Davidson convergence flags are truthful", "statement": "A root is reported converged only if its eigenvalue change is below the tolerance and its residual norm is below the loose tolerance in the last iteration.", "quantifier": "every matrix, guess, tolerance and iteration limit", "why_tests_cant": "the flags are compared in no test; wrong flags need runs that stop early", "anchors": ["ebcc/core/davidson.py:davidson"]}
{"id": "C53", "title": "Integral containers are transparent caches", "statement": "Reading a block of an integral container returns the same array irrespective of which other blocks have been read before and how often; unknown keys raise and leave the container unchanged.", "quantifier": "every sequence of reads with any keys on any container", "why_tests_cant": "a stale or shared cache entry shows only for particular orders of reads", "anchors": ["ebcc/ham/base.py", "ebcc/ham/eris.py", "ebcc/ham/fock.py", "ebcc/ham/elbos.py"]}
{"id": "C54", "title": "Antisymmetrised integrals are antisymmetric", "statement": "General-spin integrals satisfy <pq||rs> = -<pq||sr>, and = -<qp||rs> when the underlying integrals have (pq|rs) = (rs|pq).", "quantifier": "every number of alpha and beta orbitals, every integral array", "why_tests_cant": "tests compare energies; an error in one block can cancel or be too small", "anchors": ["ebcc/ham/eris.py:GERIs"]}
{"id": "C55", "title": "Density fitted integrals equal the contracted product", "statement": "Four-index blocks of a density-fitted container equal the sum over the auxiliary index of the two three-index blocks, and hence have the exchange symmetry of the pairs.", "quantifier": "every number of auxiliary functions and orbitals, every packed array", "why_tests_cant": "tests compare density fitted energies with a tolerance larger than single-element errors", "anchors": ["ebcc/ham/cderis.py"]}
{"id": "C56", "title": "Factory dispatch", "statement": "EBCC(mf) builds the unrestricted class for UHF, the general class for GHF and the restricted class otherwise, and method-named factories override the ansatz.", "quantifier": "every mean-field type and option set", "why_tests_cant": "decision logic with several flags", "anchors": ["ebcc/__init__.py:EBCC"]}
{"id": "C57", "title": "Available models lists the importable model names", "statement": "Every name printed by available_models can be passed back as an ansatz and resolves to the generated module it came from.", "quantifier": "every generated module file name", "why_tests_cant": "string handling over all names", "anchors": ["ebcc/__init__.py:available_models"]}
{"id": "C58", "title": "Time formatting preserves the duration", "statement": "Timer.format_time(t, precision) prints the units of the duration, the printed parts add up to the whole number of milliseconds of t, and at most `precision` units are shown.", "quantifier": "every non-negative duration and precision", "why_tests_cant": "arithmetic over all reals", "anchors": ["ebcc/util/misc.py:Timer.format_time"]}
{"id": "C59", "title": "FCI vector packing", "statement": "Coefficient blocks (antisymmetric in the indices of each spin) packed into a CI vector, normalised or not, and extracted again with the same spaces and order are the original blocks; packing what was extracted from a CI vector gives the elements of the vector relative to the reference element at all addresses of the orders taken, and zero elsewhere. Orders above four raise NotImplementedError.", "quantifier": "all coefficient blocks, sizes of the spaces of both spins, and orders up to four; any table of distinct addresses with signs", "why_tests_cant": "index bookkeeping over all sizes; the tests use molecules with equal numbers of alpha and beta orbitals at higher order, where the wrong sizes in the unrestricted extraction cannot be seen", "anchors": ["ebcc/ext/fci.py:_ci_vector_to_coefficients_restricted", "ebcc/ext/fci.py:_ci_vector_to_coefficients_unrestricted", "ebcc/ext/fci.py:_amplitudes_to_ci_vector_unrestricted"]}
{"id": "C60", "title": "Options of one solver do not leak into another", "statement": "Keyword arguments given to a solver take precedence over its options object; constructing a solver leaves every other options object, and the fields of the options object it is given, as the caller made them.", "quantifier": "every sequence of constructions, with shared options objects", "why_tests_cant": "aliasing across all combinations of arguments", "anchors": ["ebcc/cc/base.py:BaseEBCC.__init__"]}
{"id": "C61", "title": "Small utilities", "statement": "regularise_tuple(t) and regularise_tuple(*t) both give the items of t; a tuple followed by further arguments raises ValueError and a call without arguments IndexError, and nothing else raises. is_mixed_spin says whether two spins differ. unique keeps the order of first occurrence. factorial(n) is n! for n >= 0 (below the recursion limit) and raises RecursionError for negative n; prod is the product.", "quantifier": "every argument list of every length; every integer", "why_tests_cant": "the helpers have no tests of their own; the tests reach them only through the few argument forms the package uses", "anchors": ["ebcc/util/misc.py:regularise_tuple", "ebcc/util/permutations.py:is_mixed_spin", "ebcc/util/misc.py:prod", "ebcc/util/permutations.py:unique", "ebcc/util/permutations.py:factorial"]}
{"id": "C62", "title": "Timer", "statement": "The numbers returned by Timer.lap are the times between consecutive laps: they add up to the time from the creation of the timer to the last lap, whatever calls of total are made in between; total is the time since the creation; with a clock that does not run backwards no number returned is negative.", "quantifier": "every sequence of calls and every sequence of clock readings", "why_tests_cant": "the clock is not under the control of a test, and the claim is about all interleavings of the two methods", "anchors": ["ebcc/util/misc.py:Timer"]}
{"id": "C63", "title": "Choice of roots in the Davidson subspace", "statement": "pick_real_eigenvalues returns each eigenvalue whose imaginary part is below the threshold exactly once, by ascending real part, and at least as many roots as asked for whenever that many eigenvalues exist; a pair of complex conjugate eigenvectors is replaced by the real and the imaginary part of one of them. With koopmans the roots of largest overlap are returned, again by ascending real part.", "quantifier": "all spectra and eigenvectors, all numbers of roots, and every argsort that sorts (numpy's is not stable)", "why_tests_cant": "complex pairs and ties of the sort appear only for special spectra, which the molecules of the tests do not have", "anchors": ["ebcc/core/davidson.py:pick_real_eigenvalues", "ebcc/core/davidson.py:make_eigenvectors_real", "ebcc/eom/base.py:BaseEOM.get_pick"]}
{"id": "C64", "title": "Diagonal preconditioner", "statement": "The preconditioner of the Davidson solver divides every entry by the shifted diagonal where its magnitude is at least the tolerance and by the tolerance elsewhere, so no entry grows by more than 1/tolerance; it is linear in the vector.", "quantifier": "all diagonals, vectors, shifts, energies, positive tolerances", "why_tests_cant": "near-singular denominators are of measure zero in the inputs of the tests", "anchors": ["ebcc/core/davidson.py:make_diagonal_preconditioner"]}
{"id": "C65", "title": "External amplitudes in the full space", "statement": "The externally corrected solvers hold the amplitudes they were given in the active block of arrays over the full space that are zero elsewhere; the caller's amplitudes are not changed, and entering the context again gives the same amplitudes.", "quantifier": "all spaces and amplitudes, restricted and unrestricted, every number of entries", "why_tests_cant": "the tests enter each context once, without frozen orbitals", "anchors": ["ebcc/ext/eccc.py:BaseExternalCorrection", "ebcc/ext/tcc.py:BaseTailor"]}
{"id": "C66", "title": "Integral blocks are over the named orbitals", "statement": "Every element of a block read from an integral container is the integral over the orbitals that the characters of the key name, with the coefficients and the space of the position and the spin of its index; an index in the atomic basis is not transformed; general-spin blocks are antisymmetrised integrals in physicists' notation; Fock blocks contain the shift by the bosons for those orbitals.", "quantifier": "every set of spaces with contiguous classes, every key, every sequence of reads before, all coefficients and integrals", "why_tests_cant": "the tests compare energies of a few molecules, mostly without frozen orbitals and with equal spaces for the four positions", "anchors": ["ebcc/ham/base.py:_get_coeffs", "ebcc/ham/eris.py", "ebcc/ham/cderis.py", "ebcc/ham/fock.py", "ebcc/ham/elbos.py"]}
{"id": "C67", "title": "Lambda updates", "statement": "update_lams divides every residual by the energy denominator of its own key and adds the old amplitude, so that the fixed points are exactly the solutions; with perturbative=True it returns the residuals over the denominators, without the old amplitudes, under names that end in 'pert'.", "quantifier": "every ansatz, all residual functions and amplitudes, restricted, unrestricted and general classes", "why_tests_cant": "tests run few ansatzes to convergence; perturbative lambda amplitudes are tested for one class only", "anchors": ["ebcc/cc/rebcc.py:update_lams", "ebcc/cc/uebcc.py:update_lams", "ebcc/cc/gebcc.py:update_lams"]}
{"id": "C68", "title": "Arguments of generated functions", "statement": "The functions generated for an ansatz are called with exactly: the integrals given by the caller, or else those of the calculation; the amplitudes given by the caller if any, otherwise those stored, otherwise the initial ones; the same for lambda amplitudes; the sizes, the Fock matrix and the bosonic parameters of the calculation; the number of auxiliary functions exactly when the integrals are density fitted. A later dictionary wins over an earlier one, but the names of amplitudes, lambda amplitudes and parameters never coincide. A function that was not generated raises ModelNotImplemented.", "quantifier": "every spin class, every ansatz, every function name, every combination of given, empty and omitted arguments", "why_tests_cant": "tests call few functions with few combinations of omitted arguments; density fitting is tested for two classes", "anchors": ["ebcc/cc/base.py:_load_function", "ebcc/cc/base.py:_get_amps", "ebcc/cc/base.py:_get_lams", "ebcc/cc/rebcc.py:_pack_codegen_kwargs", "ebcc/cc/rebcc.py:get_eris"]}
{"id": "C69", "title": "Given amplitudes replace the stored ones", "statement": "Energies, updates and density matrices computed for amplitudes and lambda amplitudes given by the caller do not depend on the amplitudes stored in the calculation.", "quantifier": "every calculation, all stored and all given non-empty amplitudes, every function, shifted or not", "why_tests_cant": "tests pass the stored amplitudes or none at all", "anchors": ["ebcc/cc/base.py:energy", "ebcc/cc/base.py:make_sing_b_dm", "ebcc/cc/base.py:make_rdm1_b", "ebcc/cc/rebcc.py:make_rdm1_f", "ebcc/cc/rebcc.py:make_eb_coup_rdm"]}
{"id": "C70", "title": "Diagonal of EOM calculations", "statement": "The vector returned by diag() is the diagonal, in the packed vectors, of the zeroth-order EOM operator: multiplying a packed excitation element by element with it gives the packed excitation whose every element is multiplied by its excitation energy (virtual minus occupied orbital energies).", "quantifier": "every ansatz without bosons, IP/EA/EE, restricted, unrestricted and general, all spaces, all orbital energies, all excitations", "why_tests_cant": "tests compare a few converged roots, for which the diagonal is only a preconditioner and source of guesses", "anchors": ["ebcc/eom/reom.py:diag", "ebcc/eom/ueom.py:diag", "ebcc/eom/geom.py:diag"]}
{"id": "C71", "title": "EOM matrix-vector products", "statement": "matvec calls the generated function of the excitation type and side with the unpacked vector, the intermediates, the amplitudes and the integrals; intermediates computed beforehand give the same product as intermediates computed on the way; a vector is an eigenvector of matvec exactly if the unpacked amplitudes are an eigenvector of the generated function, with the same eigenvalue.", "quantifier": "every calculation, every generated function, IP/EA/EE, left and right, all vectors, all eigenvalues", "why_tests_cant": "tests compare energies of some molecules at low rank", "anchors": ["ebcc/eom/base.py:matvec", "ebcc/eom/base.py:matvec_intermediates"]}
{"id": "C72", "title": "Restricted and unrestricted energies agree", "statement": "For a closed-shell calculation, the generated energy function of the unrestricted class, called with the integrals of both spins and with the spin blocks of the amplitudes that from_rebcc makes from the restricted amplitudes, returns the number that the generated energy function of the restricted class returns for the restricted amplitudes and integrals.", "quantifier": "MP2, LCCD, LCCSD, CCD, CC2, CCSD, QCISD, DCD, DCSD; all numbers of occupied and virtual orbitals, all amplitudes and integrals with the symmetries of real closed-shell data, whether or not the amplitudes solve the equations, all contraction paths", "why_tests_cant": "tests compare converged energies of a few molecules, where singles and residuals are special", "anchors": ["ebcc/codegen/RCCSD.py:energy", "ebcc/codegen/UCCSD.py:energy", "ebcc/cc/uebcc.py:from_rebcc"]}
{"id": "C73", "title": "Restricted and unrestricted amplitude residuals agree", "statement": "For a closed-shell calculation, the singles returned by the generated update_amps of the unrestricted class are, for both spins, those of the restricted class; the opposite-spin doubles are the restricted doubles, which are symmetric under exchange of the electrons, and the same-spin doubles are the restricted doubles antisymmetrised.", "quantifier": "LCCD, LCCSD, CCD, CC2, CCSD, QCISD, DCD, DCSD; all numbers of orbitals, all amplitudes and integrals with the symmetries of real closed-shell data, all contraction paths", "why_tests_cant": "only converged amplitudes are compared, for which the residuals vanish", "anchors": ["ebcc/codegen/RCCSD.py:update_amps", "ebcc/codegen/UCCSD.py:update_amps"]}
{"id": "C74", "title": "Restricted and unrestricted lambda residuals agree", "statement": "For a closed-shell calculation, the arrays returned by the generated update_lams of the unrestricted class are those of the restricted class, in the sense of C73.", "quantifier": "CCD, CC2, CCSD; all numbers of orbitals, all amplitudes, lambda amplitudes and integrals with the symmetries of real closed-shell data, all contraction paths", "why_tests_cant": "only converged amplitudes are compared", "anchors": ["ebcc/codegen/RCCSD.py:update_lams", "ebcc/codegen/UCCSD.py:update_lams"]}
{"id": "C75", "title": "Density-fitted equations agree with the unfitted ones", "statement": "The generated energy, update_amps and update_lams functions with density fitting, called with three-centre integrals, return the arrays that the functions without density fitting return for the four-centre integrals contracted from the three-centre integrals.", "quantifier": "restricted LCCD, LCCSD, CCD, CC2, CCSD, QCISD, DCD, DCSD; all numbers of occupied, virtual and auxiliary functions, all amplitudes and three-centre integrals with the symmetries of real closed-shell data, all contraction paths", "why_tests_cant": "tests compare converged energies of a molecule", "anchors": ["ebcc/codegen/RDFCCSD.py", "ebcc/codegen/RCCSD.py", "ebcc/ham/cderis.py"]}
{"id": "C76", "title": "Lambda equations are the gradient of the Lagrangian", "statement": "The arrays returned by the generated update_lams are the gradient, with respect to the amplitudes, of the Lagrangian E(t) + l.Omega(t), where E is the result of energy and Omega are the results of update_amps; where the code drops multiples of the residuals, at solutions of the amplitude equations.", "quantifier": "spin-orbital CCD, CC2, CCSD, CCSDT, CCSD-S-1-1, CCSD-SD-1-1, CCSD-SD-1-2; all numbers of orbitals and boson modes, all integrals, amplitudes, lambda amplitudes and directions with the symmetries of real data, all contraction paths", "why_tests_cant": "tests compare converged energies and density matrices of a few molecules with stored values; gradients are not computed", "anchors": ["ebcc/codegen/GCCSD.py:energy", "ebcc/codegen/GCCSD.py:update_amps", "ebcc/codegen/GCCSD.py:update_lams", "ebcc/codegen/GCCSDT.py:update_lams", "ebcc/codegen/GCC2.py:update_lams", "ebcc/codegen/GCCSD_SD_1_1.py:update_lams"]}
{"id": "C77", "title": "Density matrices have the traces, symmetries and energy of N-electron density matrices", "statement": "The density matrices returned by the generated make_rdm1_f and make_rdm2_f have the number of occupied orbitals as trace, the partial trace of the two-particle matrix is the one-particle matrix times that number less one, and the two-particle matrix has the symmetries of exchanging electrons. The energy of all density matrices (with bosons also those of make_sing_b_dm, make_rdm1_b and make_eb_coup_rdm) is the Lagrangian: reference energy, result of energy, and lambda amplitudes times results of update_amps.", "quantifier": "spin-orbital CCD, CC2, CCSD, CCSDT, CCSD-S-1-1, CCSD-SD-1-1, CCSD-SD-1-2; all numbers of orbitals and boson modes, all integrals, amplitudes and lambda amplitudes with the symmetries of real data, converged or not, all contraction paths", "why_tests_cant": "tests compare traces and energies of converged amplitudes for a few molecules", "anchors": ["ebcc/codegen/GCCSD.py:make_rdm1_f", "ebcc/codegen/GCCSD.py:make_rdm2_f", "ebcc/codegen/GCCSDT.py:make_rdm2_f", "ebcc/codegen/GCC2.py:make_rdm2_f", "ebcc/codegen/GCCSD_SD_1_1.py:make_eb_coup_rdm"]}
{"id": "C78", "title": "Left EOM products are adjoints of right ones, and the EE product is the Jacobian of the amplitude equations", "statement": "With the intermediates of the functions hbar_[l]matvec_*_intermediates for the same integrals and amplitudes: the product of a left vector with the result of hbar_matvec_ip (ea, ee) for a right vector is the product of the result of hbar_lmatvec_ip (ea, ee) for the left vector with the right vector, every different amplitude being counted once; where there is no left function (MP2) the right one is symmetric. The result of hbar_matvec_ee is the derivative of the results of update_amps in the direction of the vector, whenever the residuals of single excitations are zero.", "quantifier": "spin-orbital MP2, CCD, CC2 and CCSD; all numbers of orbitals, all integrals and amplitudes with the symmetries of real data, converged or not, all excitation vectors, all contraction paths", "why_tests_cant": "tests compare a few eigenvalues of left and right problems for one or two molecules; eigenvalues do not show that the products agree for all vectors", "anchors": ["ebcc/codegen/GCCSD.py:hbar_matvec_ip", "ebcc/codegen/GCCSD.py:hbar_lmatvec_ip", "ebcc/codegen/GCCSD.py:hbar_matvec_ee", "ebcc/codegen/GCCSD.py:hbar_lmatvec_ee", "ebcc/codegen/GCCD.py:hbar_matvec_ee", "ebcc/codegen/GCC2.py:hbar_lmatvec_ip", "ebcc/codegen/GMP2.py:hbar_matvec_ee"]}
{"id": "C79", "title": "One namespace of intermediates can be used for any number of EOM products", "statement": "After ints = eom.matvec_intermediates(...), a sequence of calls eom.matvec(v, ints=ints, ...) gives for every vector the result of the generated product function with these intermediates, however many products were calculated before with the same ints (as the eigensolver does), and the products leave the namespace ints of the caller as it was.", "quantifier": "all generated product functions hbar_matvec_* and hbar_lmatvec_* of MP2, CCD, CC2 and CCSD (restricted, unrestricted, spin-orbital; density-fitted restricted and unrestricted), all sequences of vectors, all integrals, amplitudes and sizes; also if a call raises", "why_tests_cant": "tests run the eigensolver for a few molecules; whether results depend on earlier calls through deleted entries concerns all sequences of calls and 73 functions", "anchors": ["ebcc/eom/base.py:392-404", "ebcc/eom/base.py:289-290", "ebcc/util/misc.py:93-99", "ebcc/codegen/UCCD.py:hbar_matvec_ip", "ebcc/codegen/RCCSD.py:hbar_matvec_ip", "ebcc/codegen/UDFCCSD.py:hbar_lmatvec_ea"]}
{"id": "C80", "title": "General and unrestricted generated functions agree", "statement": "For integrals and amplitudes that conserve the spin, energy, update_amps and update_lams of the generated module of a general (spin-orbital) method return the same as those of the unrestricted method: the energies are equal, every element of a residual of the general function is the element of the spin block of the unrestricted one (t1new.aa, t1new.bb, t2new.aaaa, t2new.abab, t2new.bbbb, also with bosonic axes), by antisymmetry for the orders of spins that have no block, and zero if the spin is not conserved.", "quantifier": "MP2, MP3 (energy), LCCD, LCCSD, QCISD, CCSD-S-1-1, CCSD-SD-1-1, CCSD-SD-1-2 (energy, update_amps), CCD, CC2, CCSD (also update_lams); all integrals with the symmetries of real orbitals, all antisymmetric amplitudes, all numbers of orbitals of both spins and of bosons, all orders of the spin orbitals", "why_tests_cant": "the project's tests compare converged energies of a few molecules; wrong terms that vanish at convergence, for closed shells or for one ordering of spin orbitals are not seen, and residuals of forbidden spin blocks are never looked at", "anchors": ["ebcc/codegen/GCCSD.py:update_amps", "ebcc/codegen/UCCSD.py:update_amps", "ebcc/codegen/GCCSD_SD_1_2.py:update_amps", "ebcc/codegen/UCCSD_SD_1_2.py:update_amps", "ebcc/codegen/GMP3.py:energy", "ebcc/cc/gebcc.py:75-231"]}
{"id": "C81", "title": "Restricted and unrestricted generated functions with bosons agree", "statement": "For amplitudes and integrals of a closed-shell calculation with bosons, energy and update_amps of the generated modules RCCSD_S_1_1, RCCSD_SD_1_1 and RCCSD_SD_1_2 return the same as those of the unrestricted modules: energies and purely bosonic residuals are equal, every spin block of a mixed residual and of the singles is the restricted array, the doubles of different spins are the restricted array and those of equal spins its antisymmetrised form.", "quantifier": "all closed-shell integrals with the symmetries of real orbitals, all amplitudes with the symmetries of the methods, all numbers of occupied and virtual orbitals and of bosons, all contraction methods and paths", "why_tests_cant": "the project's tests compare converged energies of one Hubbard-Holstein chain and one molecule; a residual that is scaled has the same zeros, so that converged energies do not show it", "anchors": ["ebcc/codegen/RCCSD_S_1_1.py:update_amps", "ebcc/codegen/UCCSD_S_1_1.py:update_amps", "ebcc/codegen/RCCSD_SD_1_1.py:update_amps", "ebcc/codegen/RCCSD_SD_1_2.py:update_amps", "ebcc/cc/uebcc.py:107-187"]}
{"id": "C82", "title": "A step of the amplitude equations commutes with the conversion to the unrestricted class", "statement": "Let the unrestricted function return, for amplitudes converted from the restricted class, the closed-shell form of the restricted residual (C73, C81). Then converting the amplitudes and calling UEBCC.update_amps gives the same as calling REBCC.update_amps and converting the result; in particular restricted amplitudes are left unchanged by REBCC.update_amps if and only if their conversion is left unchanged by UEBCC.update_amps.", "quantifier": "all ansaetze with singles, doubles and bosonic amplitudes, all orbital energies, all numbers of orbitals and bosons, all amplitudes and residuals symmetric under exchange of the electrons", "why_tests_cant": "the project's tests compare converged energies, which depend on the fixed points only; the steps on the way, and with them rates of convergence and the vectors that DIIS extrapolates, are never compared", "anchors": ["ebcc/cc/uebcc.py:343-394", "ebcc/cc/uebcc.py:107-187", "ebcc/cc/rebcc.py:225-265"]}
{"id": "C83", "title": "Brueckner rotations are orthogonal and keep the orbitals orthonormal", "statement": "In every step of a Brueckner calculation get_rotation_matrix returns an orthogonal matrix of determinant one, with or without DIIS damping, and the orbitals computed from it are orthonormal with respect to the overlap; orbitals outside the correlated space are those of the mean field. The change of sign for negative determinants is never made. Without damping the total rotation is the product of the rotations of the steps. The matrix that is exponentiated couples exactly the occupied and virtual orbitals that the amplitude t1[i,a] belongs to.", "quantifier": "all sequences of singles amplitudes, all spaces, all overlaps and orthonormal orbitals, all DIIS settings, real matrix functions", "why_tests_cant": "the project's tests run one molecule to convergence in the standard order of orbitals, where the total rotation is small; sequences of damped rotations and spaces in other orders are not run", "anchors": ["ebcc/opt/rbrueckner.py:34-73", "ebcc/opt/gbrueckner.py:34-73", "ebcc/opt/ubrueckner.py:34-92", "ebcc/opt/base.py:147-155"]}
{"id": "C84", "title": "Conversions between CI coefficients and cluster amplitudes are exp and log", "statement": "The functions convert_tn_to_cn (n = 1..4) of the generated modules GecCC and UecCC return the coefficients of the determinants in exp(T)|0> for the cluster operator T with the given amplitudes, and convert_cn_to_tn return the amplitudes of order n from those coefficients and the lower amplitudes. _coefficients_to_amplitudes_unrestricted returns the amplitudes of T, each spin block divided by the factorials of the numbers of its alpha and beta orbitals, _amplitudes_to_coefficients_unrestricted takes these to the coefficients, and each undoes the other for all amplitudes and all coefficients that are antisymmetric and conserve the spin.", "quantifier": "all amplitudes and all coefficients, all orders 1..4, all numbers of occupied and virtual orbitals of both spins, all contraction methods and paths", "why_tests_cant": "the project's tests convert the CI vectors of a few molecules with time-reversal symmetry, for which the blocks of both spins are equal; a wrong factor or sign of one product of lower amplitudes needs all four orders with independent blocks to show", "anchors": ["ebcc/ext/fci.py:76-91", "ebcc/ext/fci.py:289-346", "ebcc/codegen/GecCC.py", "ebcc/codegen/UecCC.py:325-1521"]}
{"id": "C85", "title": "CI vectors and cluster amplitudes are converted into each other without loss", "statement": "With unrestricted spins, amplitudes_to_fci followed by fci_to_amplitudes (ext/fci.py: _amplitudes_to_ci_vector_unrestricted and _ci_vector_to_amplitudes_unrestricted) returns the amplitudes it was given, normalised or not; and for every CI vector, fci_to_amplitudes followed by amplitudes_to_fci returns the CI vector in intermediate normalisation at all determinants up to the maximum order and zero elsewhere.", "quantifier": "all amplitudes antisymmetric among orbitals of equal spin, all CI vectors, all maximum orders 1..4, all numbers of orbitals and electrons of both spins, all contraction methods and paths", "why_tests_cant": "the project's tests convert a few FCI vectors of closed-shell molecules with equal numbers of electrons of both spins, compare energies and do not convert arbitrary vectors back and forth", "anchors": ["ebcc/ext/fci.py:349-440", "ebcc/ext/fci.py:443-463", "ebcc/ext/fci.py:466-593", "ebcc/codegen/UecCC.py:325-1521"]}
{"id": "C86", "title": "Restricted amplitudes of a singlet state are converted to a CI vector and back without loss", "statement": "For restricted amplitudes of a singlet operator T (one that commutes with exchange of the spins and with the spin-lowering operator), _amplitudes_to_ci_vector_restricted builds every block of T with unrestricted spins from t1, t2, t3, t4 and t4a, so its CI vector is that of exp(T); _coefficients_to_amplitudes_restricted takes the coefficients of exp(T) to the amplitudes; and amplitudes_to_fci followed by fci_to_amplitudes returns the restricted amplitudes it was given, normalised or not. The comment in the source says 'I have literally no idea why this works'.", "quantifier": "all antisymmetric spin-conserving singlet amplitudes up to fourth order, all maximum orders 1..4, all numbers of orbitals and electrons, all contraction methods and paths", "why_tests_cant": "the project's tests convert the FCI vectors of a few closed-shell molecules; that the sums over permutations with these factors give the blocks of the operator is an identity over all singlet amplitudes, which the author states to be unexplained", "anchors": ["ebcc/ext/fci.py:76-91", "ebcc/ext/fci.py:94-174", "ebcc/ext/fci.py:175-195", "ebcc/ext/fci.py:198-268", "ebcc/codegen/RecCC.py"]}
{"id": "C87", "title": "External corrections make the CCSD iteration solve the CCSDTQ singles and doubles equations", "statement": "With the external corrections of ext/eccc.py for general spins and the strategy 'update', entering the context and every step of the amplitude equations succeed, and the step returns, for t1 and t2, the residuals of the CCSDTQ equations with triples and quadruples that are the given ones in the active space and zero elsewhere, divided by the energy denominators, plus the old amplitudes. The amplitudes are a fixed point exactly when these residuals vanish. In particular the generated functions update_amps_external and update_amps_mixed, added at the active blocks, are the difference between the CCSDTQ and CCSD residuals.", "quantifier": "all integrals, amplitudes, active spaces, orbital energies, contraction methods and paths", "why_tests_cant": "the project's tests compare energies of a few molecules with externally corrected amplitudes from FCI, for which a missing active block changes the energy slightly; no test compares with the CCSDTQ residuals for arbitrary amplitudes", "anchors": ["ebcc/ext/eccc.py:113-155", "ebcc/ext/eccc.py:482-515", "ebcc/codegen/GecCC.py", "ebcc/codegen/GCCSDTQ.py:18-110"]}
{"id": "C88", "title": "Roots returned by the EOM kernel solve the eigenvalue equation", "statement": "If EOM.kernel sets converged, every returned vector, with the matrix-vector product of the calculation, satisfies the eigenvalue equation with the returned energy up to a residual of norm below the square root of e_tol; as many vectors as energies are returned, the energies ascend, there are as many as asked for or as there are guesses, and the vector of a real root is normalised.", "quantifier": "all linear operators, diagonals, guesses, options (koopmans or not), eigensolvers and sorting functions, all numbers of iterations and restarts", "why_tests_cant": "the project's tests solve for a few roots of small molecules and compare energies with PySCF; complex pairs in the subspace, restarts and exhausted subspaces depend on the operator and do not occur there", "anchors": ["ebcc/eom/base.py:198-258", "ebcc/eom/base.py:264-349", "ebcc/core/davidson.py:37-131", "ebcc/core/davidson.py:275-408"]}
{"id": "C89", "title": "Shifting the bosons changes variables, not the Hamiltonian", "statement": "The integrals of a calculation with coupled bosons describe one operator whether options.shift is set or not: with operators p\u2020q relative to the reference and boson operators b + xi, the blocks of fock, g, G and omega give the Hamiltonian of the bare coupling and bare G plus the constant const; so total energies (e_tot) of exact calculations with and without the shift agree, also with frozen orbitals.", "quantifier": "all algebras of operators, all Fock matrices, couplings (symmetric or not), frequencies, bare terms, orbital spaces and coefficients, spin types, orders of reads of the containers", "why_tests_cant": "tests compare the Fock blocks, xi, const and energies of both settings with stored numbers of one model each; an error of a sign or a factor consistent with the stored numbers, or for a coupling that is not symmetric, goes unseen", "anchors": ["ebcc/ham/fock.py:27-56", "ebcc/ham/elbos.py:22-42", "ebcc/cc/rebcc.py:605-638", "ebcc/cc/uebcc.py:802-839", "ebcc/cc/gebcc.py:847-880", "ebcc/cc/base.py:1003-1013", "ebcc/cc/base.py:1078-1086"]}
{"id": "C90", "title": "Contraction with TBLIS", "statement": "With CONTRACTION_METHOD set to 'tblis', a contraction of two arrays returns alpha times the Einstein sum plus beta times out (nothing if out is not given), the same array as the other methods, whichever branch it takes; afterwards out holds the result (\"the calculation is done into this array\"); operands with inconsistent sizes are rejected; without the library an ImportError is raised.", "quantifier": "all pairs of subscripts with a valid output, all shapes, arrays over any commutative ring, alpha, beta, output arrays, contents of new memory", "why_tests_cant": "TBLIS is optional and not installed where the tests run; the branches depend on sizes of at least 1000 elements and on the pattern of indices; memory of np.empty is often zero", "anchors": ["ebcc/util/einsumfunc.py:350-453", "ebcc/util/einsumfunc.py:482"]}
{"id": "C91", "title": "A method whose additional amplitudes vanish is the smaller method", "statement": "For amplitudes (and lambda amplitudes) of which the additional sorts are zero, energy, update_amps, update_lams and the density matrices of the general functions return what those of the smaller method return for the amplitudes they share: CCSD, QCISD without t1 as CCD, LCCSD as LCCD, CC2 and CCD the energy of MP2, CCSDT without t3 as CCSD, CCSD-S-1-1 with absent bosons as CCSD, CCSD-SD-1-1 without s2 as CCSD-S-1-1, CCSD-SD-1-2 without u12 as CCSD-SD-1-1; products of EOM-CCSD without t1 as those of EOM-CCD; the energy of MP3 is that of a step of LCCD.", "quantifier": "all numbers of orbitals and bosons, all integrals with their symmetries, all remaining amplitudes, all orders of contractions, over any field of characteristic zero", "why_tests_cant": "each method is compared with stored numbers for converged amplitudes of one or two molecules; no test calls a function with amplitudes that vanish, and the files are generated one by one", "anchors": ["ebcc/codegen/GCCSD.py:48-226", "ebcc/codegen/GCCD.py:40-98", "ebcc/codegen/GCCSDT.py:19-569", "ebcc/codegen/GCCSD_S_1_1.py:362-923", "ebcc/codegen/GCCSD_SD_1_1.py:390-987", "ebcc/codegen/GCCSD_SD_1_2.py:25-523", "ebcc/codegen/GMP3.py:19-44", "ebcc/codegen/GLCCD.py:32-62"]}
{"id": "C92", "title": "Array functions of the other backends are those of NumPy", "statement": "With the backends CTF and TensorFlow, the functions which ebcc defines itself return what NumPy's functions of the same name return: concatenate and stack for any axis (also counted from the end) and None, rejecting shapes that do not fit, block for rows of matrices, bitwise_and, bitwise_not and count_nonzero of masks, ravel_multi_index and indices for any dimensions, and _put for any indices.", "quantifier": "all numbers of arrays, all dimensions and shapes, all axes, all elements, masks, indices and values", "why_tests_cant": "CTF and TensorFlow are not installed where the tests run, and the few backend tests use square shapes and one axis; whether indices are flattened correctly depends on the sizes of all axes", "anchors": ["ebcc/backend/_ctf.py:95-156", "ebcc/backend/_tensorflow.py:21-70", "ebcc/backend/__init__.py:34-46", "ebcc/backend/__init__.py:109-161"]}
{"id": "C93", "title": "Results in terms of rotated orbitals", "statement": "If the orbitals of each space (occupied, virtual, bosons, auxiliary functions; each spin by itself) are rotated by an orthogonal matrix, and integrals, amplitudes and vectors are given in terms of the rotated orbitals, then energy, update_amps, update_lams, the density matrices, the conversions between CI coefficients and amplitudes and the products of equation-of-motion methods return their results in terms of the rotated orbitals; energies do not change.", "quantifier": "all numbers of orbitals of each space, all orthogonal matrices, all arrays with axes of the right spaces (no symmetry needed), all orders of contractions, over any field", "why_tests_cant": "tests run each function with the canonical orbitals of a few molecules, where the numbers are compared with stored ones; no test rotates occupied or virtual orbitals, and one label in the wrong place in one of some thousand contractions can be hidden by symmetry of the molecule", "anchors": ["ebcc/codegen/GCCSD.py:19-226", "ebcc/codegen/RCCSD.py:19-692", "ebcc/codegen/UCCSD.py:19-866", "ebcc/codegen/GCCSDT.py:7-569", "ebcc/codegen/RCCSD_SD_1_2.py:7-631", "ebcc/codegen/RDFCCSD.py:19-754", "ebcc/codegen/UecCC.py:325-700"]}
{"id": "C94", "title": "Integrals of rotated orbitals", "statement": "If orbitals are rotated among those of each class (none into another class), a block of the Fock matrix, of the two-electron integrals (restricted, of two spins, or antisymmetrised over spin orbitals) or of the density fitted integrals that the containers return for the rotated coefficients is the block for the original coefficients with each axis rotated by the matrix of its class; the axis of the auxiliary functions is not rotated.", "quantifier": "all numbers of atomic and molecular orbitals, all spaces with frozen and active orbitals, all coefficients, all matrices (orthogonal or not), all keys, all integrals over atomic orbitals, over any commutative ring", "why_tests_cant": "tests read blocks for the canonical orbitals of a few molecules; no test rotates the coefficients", "anchors": ["ebcc/ham/base.py:97-114", "ebcc/ham/fock.py:37-54", "ebcc/ham/eris.py:26-52", "ebcc/ham/eris.py:96-142", "ebcc/ham/cderis.py:45-73"]}
{"id": "C95", "title": "Solutions and energies do not depend on the choice of orbitals within each space", "statement": "Amplitudes make all residuals returned by update_amps zero (and lambda amplitudes those of update_lams) if and only if the amplitudes in terms of rotated orbitals make them zero for the integrals of the rotated orbitals, and the energy is the same; for restricted (with and without density fitting), unrestricted and general methods this holds from the integrals over atomic orbitals and the coefficients on, for the blocks that the containers return.", "quantifier": "all numbers of orbitals of each space, all orthogonal matrices of the spaces, all coefficients and integrals over atomic orbitals, all amplitudes, all orders of contractions, over any field", "why_tests_cant": "tests compare energies with stored ones for canonical orbitals of a few molecules; no test solves the equations for rotated orbitals", "anchors": ["ebcc/codegen/GCCSD.py:19-226", "ebcc/codegen/RCCSD.py:19-692", "ebcc/codegen/RDFCCSD.py:19-754", "ebcc/cc/rebcc.py:225-300", "ebcc/ham/base.py:97-114", "ebcc/ham/eris.py:26-52", "ebcc/ham/cderis.py:45-73"]}
{"id": "C96", "title": "Density matrices are put together with each block at its place", "statement": "pack_2e, given the sixteen blocks in the order in which the generated functions give them, returns the array over all orbitals in which occupied orbitals come before virtual ones on every axis and the element at any index is the element of the block named by the spaces of the index, at the positions within those spaces; the numbers of orbitals may differ between the axes, as for blocks of mixed spin. np.block([[oo, ov], [vo, vv]]) does the same for one-electron density matrices. Another number of arguments raises AssertionError. So the array has any symmetry, also up to sign, that its blocks have with names exchanged accordingly, and the trace of a one-electron density matrix is the sum of those of its two diagonal blocks.", "quantifier": "for all numbers of occupied and virtual orbitals on each axis (zero included), all blocks of the corresponding shapes, all permutations of the axes", "why_tests_cant": "Tests compare some density matrices with references or check hermiticity, where two exchanged blocks of equal shape that are each other's transposes cannot be told apart; the claim is about every element for every size.", "anchors": ["ebcc/util/permutations.py:582-612", "ebcc/codegen/GCCSD.py:508"]}
{"id": "C97", "title": "Total energies are relative to the Hartree-Fock energy of the reference", "statement": "For every mean-field object given to REBCC, UEBCC or GEBCC the mean-field object of the calculation has as e_tot the Hartree-Fock energy of the given orbitals, so that e_tot of the calculation is that energy plus e_corr, also if the given object is a Kohn-Sham calculation. The given object and all other objects are left unchanged.", "quantifier": "all mean-field objects (restricted, unrestricted, general, with and without a functional), all energies and orbitals, all three classes", "why_tests_cant": "Tests use Hartree-Fock references, or compare a Kohn-Sham reference in one class with a stored energy; for Hartree-Fock references leaving out the recalculation of the energy makes no difference.", "anchors": ["ebcc/cc/rebcc.py:96-102", "ebcc/cc/uebcc.py:98-105", "ebcc/cc/gebcc.py:97-109", "ebcc/cc/base.py:141", "ebcc/cc/base.py:1078-1086"]}
{"id": "C98", "title": "Brueckner iterations are judged by the change of the total energy and by the single amplitudes", "statement": "In every iteration of a Brueckner calculation the energy difference that is compared with e_tol is that between the total energies of the calculation after and before the iteration, as kernel computes it (the documentation of e_tol says correlation energy). The total energy after an iteration is the mean-field energy of its orbitals plus its correlation energy. The norm compared with t_tol bounds all single amplitudes, and is that of the amplitudes of both spins together in the unrestricted class. The mean-field object given by the user is left unchanged.", "quantifier": "all classes, all references, all sequences of orbitals and correlation energies the iterations come to, all amplitudes", "why_tests_cant": "Tests look at converged results, where energies no longer change, so that which energies are compared does not show; which object is shared with which is not visible in numbers of a single run.", "anchors": ["ebcc/opt/base.py:157-190", "ebcc/opt/base.py:87", "ebcc/cc/base.py:141", "ebcc/cc/gebcc.py:104-105", "ebcc/opt/rbrueckner.py:117-129", "ebcc/opt/ubrueckner.py:134-148", "ebcc/opt/gbrueckner.py:117-129"]}
{"id": "C99", "title": "The header is logged once, and logging does not prevent calculations", "statement": "The first calculation made in a process logs the header with the versions and git hashes of numpy, pyscf and ebcc, and no later one does, whatever loggers they have; a package that is not in a repository is shown without hash. init_logging, which is called by every calculation, Brueckner object and external-correction context, does not raise, whether git works or not.", "quantifier": "all sequences of calls, loggers of any level or silent, any outcome of each call of git", "why_tests_cant": "The header is logged once in a process, so the tests see one outcome of git, that of the machine they run on.", "anchors": ["ebcc/core/logging.py:26-101", "ebcc/cc/base.py:197", "ebcc/opt/base.py:95", "ebcc/ext/tcc.py:94", "ebcc/ext/eccc.py:102"]}
{"id": "C100", "title": "Converted calculations keep energies, orbitals and the Fock matrix", "statement": "UEBCC.from_rebcc and GEBCC.from_uebcc return a calculation with the total energy, correlation energy and convergence flags of the original, which is left unchanged, and whose orbitals and Fock matrix are those of the original in the form of the new class, so that the converted amplitudes belong to them.", "quantifier": "all calculations, with orbitals and Fock matrix of the mean field or given by the user, all references", "why_tests_cant": "Tests convert calculations that use the orbitals of the mean field; arguments that are not passed on make no difference then.", "anchors": ["ebcc/cc/uebcc.py:107-130", "ebcc/cc/gebcc.py:111-166", "ebcc/cc/base.py:91-194", "ebcc/cc/base.py:1015-1024"]}
