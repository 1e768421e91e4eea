{"id": "C01", "title": "Exact solve", "statement": "If SLIP_LU_analyze, SLIP_LU_factorize and SLIP_LU_solve all succeed on a square integer CSC matrix A and a dense integer right-hand side b, the rational matrix X returned satisfies A_true*X = b_true exactly, where A_true = A/scale(A), b_true = b/scale(b); and whenever det A is nonzero (n >= 1, no out-of-memory) they do all succeed.", "quantifier": "every n >= 1, every integer matrix A (any sparsity pattern, explicit zeros allowed), every right-hand side with any number of columns, every column order, every pivoting option and tolerance, every pair of nonzero scales", "why_tests_cant": "Exactness is an identity in unbounded integers over all matrices and pivot sequences; a test samples finitely many matrices and usually small entries.", "anchors": ["SLIP_LU/Source/SLIP_LU_solve.c:SLIP_LU_solve", "SLIP_LU/Source/SLIP_LU_factorize.c:SLIP_LU_factorize", "SLIP_LU/Source/slip_forward_sub.c:slip_forward_sub", "SLIP_LU/Source/slip_back_sub.c:slip_back_sub", "SLIP_LU/Source/SLIP_backslash.c:SLIP_backslash"]}
{"id": "C02", "title": "Singular verdict is exact", "statement": "SLIP_LU_factorize returns SLIP_SINGULAR if and only if det A = 0 (mathematically singular, not numerically close); otherwise it returns SLIP_OK.", "quantifier": "every square integer CSC matrix, every column permutation, every pivoting option and tolerance", "why_tests_cant": "Both directions are universal: no nonsingular matrix may be rejected under any pivot choice, and no singular one accepted.", "anchors": ["SLIP_LU/Source/SLIP_LU_factorize.c:SLIP_LU_factorize", "SLIP_LU/Source/slip_get_pivot.c:slip_get_pivot", "SLIP_LU/Source/slip_get_smallest_pivot.c", "SLIP_LU/Source/slip_get_largest_pivot.c", "SLIP_LU/Source/slip_get_nonzero_pivot.c"]}
{"id": "C03", "title": "The last pivot is the determinant (up to permutation sign)", "statement": "After a successful factorization, the last entry of rhos equals sign(row permutation)*sign(column permutation)*det A. (The documentation says 'the determinant of A'; that literal claim is false and is refuted with a witness.)", "quantifier": "every nonsingular square integer matrix, column order and pivot option", "why_tests_cant": "It relates the output of an n-step elimination to a sum over n! permutations.", "anchors": ["SLIP_LU/Source/SLIP_LU_factorize.c:SLIP_LU_factorize", "SLIP_LU/Include/SLIP_LU.h:SLIP_LU_factorize"]}
{"id": "C04", "title": "The factors reproduce the matrix", "statement": "On success the returned L, U, rhos, pinv and the column order q satisfy P A Q = L D^{-1} U, where D = diag(rhos[0], rhos[0]rhos[1], ..., rhos[n-2]rhos[n-1]).", "quantifier": "every nonsingular square integer matrix, column order, pivot option", "why_tests_cant": "The factor identity is an equation between all n^2 entries for every matrix; sampling residuals cannot establish it.", "anchors": ["SLIP_LU/Source/SLIP_LU_factorize.c:SLIP_LU_factorize", "SLIP_LU/Source/slip_ref_triangular_solve.c:slip_ref_triangular_solve"]}
{"id": "C05", "title": "Integer preserving: every division is exact and every factor entry is a minor", "statement": "During factorization and solve no integer division ever has a zero divisor or a remainder, and every entry of L and U returned is (the value of) a bordered minor of A; hence the entries obey the Hadamard-type size bound that makes the algorithm polynomial.", "quantifier": "every matrix, order, pivot option, right-hand side; every mpz_divexact call executed", "why_tests_cant": "mpz_divexact silently returns garbage on an inexact quotient, so the claim must hold at every one of an unbounded number of divisions.", "anchors": ["SLIP_LU/Source/slip_ref_triangular_solve.c", "SLIP_LU/Source/slip_forward_sub.c", "SLIP_LU/Source/slip_back_sub.c", "SLIP_LU/Source/SLIP_gmp.c:SLIP_mpz_divexact"]}
{"id": "C06", "title": "L and U are valid, triangular, and share the pivots on the diagonal", "statement": "On success L and U are valid CSC matrices (monotone column pointers from 0, row indices in range, no duplicate within a column), L is lower and U upper triangular after the returned row permutation, L(k,k) = U(k,k) = rhos[k] are nonzero, and the last entry of every column of U is its diagonal.", "quantifier": "every nonsingular matrix, order, pivot option", "why_tests_cant": "The back substitution relies on the position of the diagonal in every column for every pivot sequence.", "anchors": ["SLIP_LU/Source/SLIP_LU_factorize.c", "SLIP_LU/Source/slip_back_sub.c"]}
{"id": "C07", "title": "The returned row permutation is a permutation", "statement": "pinv returned by SLIP_LU_factorize is a bijection of 0..n-1, and during the run it stays the inverse of the row permutation and agrees with the set of rows already chosen as pivots.", "quantifier": "every matrix, order, pivot option, every iteration", "why_tests_cant": "An invariant over every pivot sequence.", "anchors": ["SLIP_LU/Source/slip_get_pivot.c:slip_get_pivot", "SLIP_LU/Source/SLIP_LU_factorize.c"]}
{"id": "C08", "title": "Factorization and solve are free of undefined behaviour", "statement": "On valid input, factorization and solve never read or write an array out of bounds, never read an uninitialised array element or integer, and never initialise an integer twice; in particular the single doubling of L and U before each column always leaves enough room.", "quantifier": "every valid CSC input, every estimate lnz, unz >= n produced by the analysis, every iteration", "why_tests_cant": "An overflow of L or U depends on the fill-in of arbitrary matrices; uninitialised reads are not observable in tests.", "anchors": ["SLIP_LU/Source/SLIP_LU_factorize.c", "SLIP_LU/Source/slip_sparse_realloc.c:slip_sparse_realloc", "SLIP_LU/Source/SLIP_LU_analyze.c", "SLIP_LU/Source/slip_reach.c", "SLIP_LU/Source/slip_dfs.c"]}
{"id": "C09", "title": "The symbolic pattern is exactly the reachable set", "statement": "The nonzero pattern used for column k is exactly the set of rows reachable from the pattern of the column of A in the graph of the columns of L already computed: nothing that can be nonzero is missed and nothing is listed twice.", "quantifier": "every partial factor, column and permutation state", "why_tests_cant": "Graph reachability over arbitrary graphs; a missed node corrupts only rare patterns.", "anchors": ["SLIP_LU/Source/slip_reach.c:slip_reach", "SLIP_LU/Source/slip_dfs.c:slip_dfs"]}
{"id": "C10", "title": "The graph search terminates and leaves its input unchanged", "statement": "The depth-first search used by factorization always terminates (within 2n+1 steps per starting node), never overflows its stacks, and leaves the column pointers of L exactly as they were.", "quantifier": "every partial factor, every starting node, every mark state", "why_tests_cant": "Termination and restoration are universal; a leaked mark would corrupt later columns only for particular patterns.", "anchors": ["SLIP_LU/Source/slip_dfs.c:slip_dfs", "SLIP_LU/Source/slip_reach.c:slip_reach", "SLIP_LU/Source/slip_internal.h:SLIP_FLIP"]}
{"id": "C11", "title": "Results do not depend on workspace contents", "statement": "The factors and solution are functions of A, b, the order and the options only: whatever the allocator returns in uninitialised workspace has no influence.", "quantifier": "every content of uninitialised memory", "why_tests_cant": "Tests run with one allocator state at a time.", "anchors": ["SLIP_LU/Source/SLIP_LU_factorize.c", "SLIP_LU/Source/slip_ref_triangular_solve.c", "SLIP_LU/Source/slip_forward_sub.c"]}
{"id": "C12", "title": "The solution is independent of ordering and pivoting", "statement": "Two successful solves of the same system with different column orders, pivot options, tolerances or storage estimates return equal rational solutions.", "quantifier": "every pair of option settings, every nonsingular system", "why_tests_cant": "Quantifies over pairs of runs.", "anchors": ["SLIP_LU/Source/SLIP_LU_solve.c", "SLIP_LU/Source/SLIP_LU_factorize.c", "SLIP_LU/Source/SLIP_backslash.c"]}
{"id": "C13", "title": "Right-hand sides are independent and a factorization can be reused", "statement": "Column j of the solution depends only on column j of b: solving with several right-hand sides at once equals solving them one at a time with the same factors, and the factors, A and b are not modified by the solve.", "quantifier": "every factorization, every number of right-hand sides, every sequence of solves", "why_tests_cant": "Cross-column interference (for example through the history matrix) shows only for particular zero patterns.", "anchors": ["SLIP_LU/Source/SLIP_LU_solve.c", "SLIP_LU/Source/slip_forward_sub.c", "SLIP_LU/Source/slip_back_sub.c"]}
{"id": "C14", "title": "The optional solution check is exact", "statement": "The built-in check accepts X if and only if A X = b exactly; hence a solve with checking switched on never reports SLIP_INCORRECT on valid input, and, whatever factors and permutations it is given, even those of another matrix, if it returns SLIP_OK then the solution it returns is exact.", "quantifier": "every A, X, b of matching dimensions", "why_tests_cant": "An iff over all rational matrices.", "anchors": ["SLIP_LU/Source/slip_check_solution.c:slip_check_solution", "SLIP_LU/Source/SLIP_LU_solve.c"]}
{"id": "C15", "title": "Pivoting policies do what they document", "statement": "Among the eligible (nonzero, not yet pivotal) entries of the current column: SMALLEST picks one of least absolute value, LARGEST one of greatest, FIRST_NONZERO the first, DIAGONAL the diagonal if eligible else the smallest, TOL_SMALLEST (default) the diagonal if |smallest| >= tol*|diagonal| else the smallest, TOL_LARGEST the diagonal if |diagonal| >= tol*|largest| else the largest.", "quantifier": "every column, pattern, pivot status, tolerance", "why_tests_cant": "Comparison logic over all values, signs included (TOL_LARGEST mishandles a negative largest entry).", "anchors": ["SLIP_LU/Source/slip_get_pivot.c", "SLIP_LU/Source/slip_get_smallest_pivot.c", "SLIP_LU/Source/slip_get_largest_pivot.c", "SLIP_LU/Source/slip_get_nonzero_pivot.c"]}
{"id": "C16", "title": "Pivot search reports singular exactly when nothing is eligible", "statement": "Each of the six pivot searches returns SLIP_SINGULAR if and only if no entry of the column is both nonzero and not yet pivotal; otherwise the row returned is eligible.", "quantifier": "every column, pattern, pivot status, option", "why_tests_cant": "Universal over values and status arrays.", "anchors": ["SLIP_LU/Source/slip_get_pivot.c", "SLIP_LU/Source/slip_get_smallest_pivot.c", "SLIP_LU/Source/slip_get_largest_pivot.c", "SLIP_LU/Source/slip_get_nonzero_pivot.c"]}
{"id": "C17", "title": "Analysis returns a permutation and usable estimates", "statement": "On success SLIP_LU_analyze yields a column order that is a permutation of 0..n-1 and estimates lnz, unz that are at least n, for each ordering method.", "quantifier": "every square CSC matrix, every ordering option", "why_tests_cant": "The estimate clamps interact (ceil(n^2/2), +n); the factorization's memory safety rests on the bound for every n and nnz.", "anchors": ["SLIP_LU/Source/SLIP_LU_analyze.c:SLIP_LU_analyze"]}
{"id": "C18", "title": "Scaling is undone exactly", "statement": "If A and b carry scale factors s_A and s_b, the solution returned is exactly (s_A/s_b) times the solution of the scaled integer system, i.e. the solution of the unscaled rational system.", "quantifier": "every pair of nonzero rational scales", "why_tests_cant": "Algebraic identity over all rationals; swapped numerator and denominator pass tests with equal scales.", "anchors": ["SLIP_LU/Source/SLIP_LU_solve.c", "SLIP_LU/Source/slip_expand_mpq_array.c", "SLIP_LU/Source/slip_expand_double_array.c"]}
{"id": "C19", "title": "SLIP_matrix_copy preserves the matrix", "statement": "Copying a valid matrix to another storage kind and to a type its entries convert to exactly yields a valid matrix of the requested kind and type, with its own arrays and the same dimensions, representing the same rational matrix. (False of the code for dense-to-triplet with zeros, for MPZ-to-MPZ kind changes with scale != 1, for INT64-to-MPQ, for sparse-to-dense MPFR, and for empty or all-zero rational/floating-point matrices converted to MPZ; all refuted with witnesses.)", "quantifier": "every valid matrix of each of the 3 kinds and 5 types, to each of the 3 kinds and 5 types", "why_tests_cant": "Nine conversion paths over all patterns, including empty columns, explicit zeros and unsorted entries.", "anchors": ["SLIP_LU/Source/SLIP_matrix_copy.c:SLIP_matrix_copy", "SLIP_LU/Source/slip_cast_matrix.c:slip_cast_matrix", "SLIP_LU/Source/slip_cast_array.c:slip_cast_array"]}
{"id": "C20", "title": "CSC / triplet conversion is a permutation of entries", "statement": "Converting triplet to CSC keeps exactly the multiset of entries, in stable order within each column; converting CSC to triplet keeps all entries in order; CSC to triplet and back is the identity. Nothing is dropped, duplicated or written out of bounds.", "quantifier": "every list of triplets with indices in range", "why_tests_cant": "Bucket-sort correctness over all index sequences.", "anchors": ["SLIP_LU/Source/SLIP_matrix_copy.c:SLIP_matrix_copy", "SLIP_LU/Source/slip_cumsum.c:slip_cumsum"]}
{"id": "C21", "title": "Rational input is scaled to integers exactly", "statement": "Converting an MPQ array to integers multiplies by the least common multiple of the denominators: every integer entry divided by the scale equals the rational input exactly.", "quantifier": "every nonempty array of rationals", "why_tests_cant": "Universal over all rationals; partial lcm mistakes pass on small denominators.", "anchors": ["SLIP_LU/Source/slip_expand_mpq_array.c:slip_expand_mpq_array"]}
{"id": "C22", "title": "Floating-point input is scaled to integers by a common factor", "statement": "Converting a double array yields integers y and a positive scale s with y_i/s = round(10^17 x_i)/10^17 and gcd of the nonzero y equal to 1; likewise with 2^precision for MPFR. (The all-zero array yields scale 0 instead of a positive one: refuted with a witness; entries below 1e-17 vanish.)", "quantifier": "every array of finite floating-point values", "why_tests_cant": "Needs all arrays including all-zero, negative, tiny values and zeros before the first nonzero.", "anchors": ["SLIP_LU/Source/slip_expand_double_array.c:slip_expand_double_array", "SLIP_LU/Source/slip_expand_mpfr_array.c:slip_expand_mpfr_array"]}
{"id": "C23", "title": "SLIP_matrix_check is sound and complete", "statement": "SLIP_matrix_check returns SLIP_OK on a CSC matrix iff its column pointers start at 0, are nondecreasing, end at nnz, all row indices are in range and no column has duplicates; on a triplet matrix iff indices are in range and no duplicate pair exists.", "quantifier": "every matrix object", "why_tests_cant": "An iff over all index arrays, including malformed ones.", "anchors": ["SLIP_LU/Source/SLIP_matrix_check.c:SLIP_matrix_check"]}
{"id": "C24", "title": "SLIP_matrix_nnz counts entries", "statement": "SLIP_matrix_nnz returns the number of stored entries (p[n], nz, or m*n for the three kinds), which is at least the number of nonzeros of the represented matrix, and -1 when the library is not initialised, the matrix or its column pointers are missing, its kind is invalid or a dimension is negative.", "quantifier": "every matrix object", "why_tests_cant": "Case logic over all objects.", "anchors": ["SLIP_LU/Source/SLIP_matrix_nnz.c:SLIP_matrix_nnz"]}
{"id": "C25", "title": "Prefix sums are correct", "statement": "The cumulative sum used by all conversions yields p[j] = sum of counts before j for j = 0..n, and resets the count array to p[0..n-1].", "quantifier": "every count array of every length", "why_tests_cant": "Induction over arbitrary lengths.", "anchors": ["SLIP_LU/Source/slip_cumsum.c:slip_cumsum"]}
{"id": "C26", "title": "SLIP_matrix_allocate gives a well-formed matrix or nothing", "statement": "SLIP_matrix_allocate returns SLIP_OK with a matrix of the requested kind, type and dimensions, owning exactly the arrays the kind needs, unit scale, or an error code with a NULL handle and every block it obtained freed.", "quantifier": "every kind, type, dimension, shallow/init flags, and every allocation failure point", "why_tests_cant": "Failure points cannot be enumerated by ordinary tests; error code differs from documentation (INCORRECT_INPUT instead of OUT_OF_MEMORY).", "anchors": ["SLIP_LU/Source/SLIP_matrix_allocate.c:SLIP_matrix_allocate", "SLIP_LU/Source/SLIP_matrix_free.c:SLIP_matrix_free"]}
{"id": "C27", "title": "Initialisation protocol", "statement": "SLIP_initialize succeeds only when not initialised and otherwise returns SLIP_PANIC without effect; SLIP_finalize likewise in the other direction; every user-callable function called while not initialised returns its failure value (SLIP_PANIC / NULL / -1) without touching its arguments.", "quantifier": "every sequence of initialise, finalise and other calls", "why_tests_cant": "Quantifies over call histories.", "anchors": ["SLIP_LU/Source/SLIP_initialize.c", "SLIP_LU/Source/SLIP_initialize_expert.c", "SLIP_LU/Source/SLIP_finalize.c", "SLIP_LU/Source/slip_internal.h:slip_initialized"]}
{"id": "C28", "title": "GMP memory bookkeeping", "statement": "The list of GMP allocations made inside a wrapped call contains exactly the live blocks of that call, so on an allocation failure every block allocated by the call and not yet returned is freed exactly once, none leaks and no block owned by the user is freed.", "quantifier": "every sequence of allocate, reallocate and free calls, every failure point, every list capacity growth", "why_tests_cant": "Failure inside GMP plus list growth cannot be exhaustively provoked.", "anchors": ["SLIP_LU/Source/SLIP_gmp.c:slip_gmp_allocate", "SLIP_LU/Source/SLIP_gmp.c:slip_gmp_free", "SLIP_LU/Source/SLIP_gmp.c:slip_gmp_reallocate", "SLIP_LU/Source/SLIP_gmp.c:slip_gmp_failure", "SLIP_LU/Source/SLIP_gmp.h"]}
{"id": "C29", "title": "SLIP_malloc, SLIP_calloc, SLIP_realloc and SLIP_free do what they say, also on failure", "statement": "SLIP_realloc preserves the first min(old,new) elements, reports ok=true only if the block has the requested size, and on failure returns the old block unchanged (a failed shrink still succeeds). SLIP_malloc and SLIP_calloc return NULL without any effect or a new block of the size requested (zeroed for calloc), also when the product of the sizes would not fit in size_t; SLIP_free releases the block it is given. None of them affects another block.", "quantifier": "every old/new size, every allocator answer", "why_tests_cant": "Allocator failure is not reachable in ordinary tests.", "anchors": ["SLIP_LU/Source/SLIP_realloc.c:SLIP_realloc", "SLIP_LU/Source/slip_sparse_realloc.c", "SLIP_LU/Source/slip_sparse_collapse.c", "SuiteSparse_config/SuiteSparse_config.c:SuiteSparse_realloc", "SLIP_LU/Source/SLIP_malloc.c:SLIP_malloc", "SLIP_LU/Source/SLIP_calloc.c:SLIP_calloc", "SLIP_LU/Source/SLIP_free.c:SLIP_free"]}
{"id": "C30", "title": "Out-of-memory safety of the solver pipeline", "statement": "If any allocation inside a user-callable function fails, the function returns an error code, leaves its output handles NULL and frees every block it obtained, exactly once; on success the blocks still live are exactly those owned by the outputs.", "quantifier": "every allocation failure point of analyze, factorize, solve, backslash, copy", "why_tests_cant": "The number of failure points is unbounded (grows with n).", "anchors": ["SLIP_LU/Source/SLIP_LU_factorize.c:SLIP_FREE_ALL", "SLIP_LU/Source/SLIP_LU_solve.c", "SLIP_LU/Source/SLIP_LU_analyze.c", "SLIP_LU/Source/SLIP_backslash.c", "SLIP_LU/Source/SLIP_matrix_free.c"]}
{"id": "C31", "title": "Double to int64 conversion saturates", "statement": "Casting a double to int64 yields 0 for NaN, saturates at INT64_MIN/INT64_MAX outside the range and truncates toward zero inside. (At exactly 2^63 the code performs the undefined conversion; refuted with a witness.)", "quantifier": "every double", "why_tests_cant": "2^64 values; the faulty one is a single point.", "anchors": ["SLIP_LU/Source/slip_internal.h:slip_cast_double_to_int64"]}
{"id": "C32", "title": "NULL options mean the defaults", "statement": "Every user-callable function behaves identically with option = NULL and with the options object made by SLIP_create_default_options.", "quantifier": "every call of every function taking options", "why_tests_cant": "Equality of behaviours over all inputs.", "anchors": ["SLIP_LU/Source/slip_internal.h:SLIP_OPTION_PIVOT", "SLIP_LU/Source/SLIP_create_default_options.c"]}
{"id": "C33", "title": "Permuting right-hand side and solution", "statement": "The row permutation applied to b and the inverse column permutation applied to x are exact reorderings: no entry is lost or duplicated and the inputs are unchanged.", "quantifier": "every permutation, every number of columns", "why_tests_cant": "Universal over permutations; swapped directions agree on involutions.", "anchors": ["SLIP_LU/Source/slip_permute_b.c", "SLIP_LU/Source/slip_permute_x.c"]}
{"id": "C34", "title": "Arguments are validated before use", "statement": "Each of analyze, factorize, solve and backslash returns SLIP_INCORRECT_INPUT, with no other effect than clearing its output handles, when a required argument is missing, of the wrong kind or type, or of mismatched dimensions, and never dereferences it.", "quantifier": "every combination of missing/wrong arguments", "why_tests_cant": "Case logic over a product of argument states.", "anchors": ["SLIP_LU/Source/SLIP_LU_analyze.c", "SLIP_LU/Source/SLIP_LU_factorize.c", "SLIP_LU/Source/SLIP_LU_solve.c", "SLIP_LU/Source/SLIP_backslash.c", "SLIP_LU/Source/slip_internal.h:SLIP_REQUIRE"]}
{"id": "C35", "title": "Type of the backslash result", "statement": "SLIP_backslash with output type MPQ returns the exact solution; with FP64 or MPFR it returns, entry by entry, the library's rounding of the exact rational solution, i.e. errors come only from one final rounding.", "quantifier": "every nonsingular system, each output type, each rounding mode", "why_tests_cant": "Must hold for all systems; intermediate floating-point use would pass loose tolerance tests.", "anchors": ["SLIP_LU/Source/SLIP_backslash.c:SLIP_backslash", "SLIP_LU/Source/SLIP_matrix_copy.c", "SLIP_LU/Source/slip_cast_array.c"]}
{"id": "C36", "title": "From matrix objects of any kind and type to the exact solution", "statement": "Copying A to a CSC integer matrix and b to a dense integer matrix with SLIP_matrix_copy and then calling SLIP_backslash yields, for a nonsingular A, exactly the rational solution of the system the original objects represent (scale factors included), and SLIP_SINGULAR for a singular A.", "quantifier": "every pair of valid matrix objects, of each of the 3 kinds and 5 types, whose entries convert exactly; every option setting", "why_tests_cant": "The composition of two scale factors with the solver must be right for all inputs of 15 x 15 format pairs.", "anchors": ["SLIP_LU/Demo/example.c", "SLIP_LU/Source/SLIP_matrix_copy.c", "SLIP_LU/Source/SLIP_backslash.c"]}
{"id": "C37", "title": "Demo programs solve the system in their files", "statement": "Reading a well-formed triplet file gives exactly the matrix it lists, reading a well-formed dense file gives exactly its entries, and the demo programs example2 and SLIPLU print the exact solution of the system stored in the two files or report that the matrix is singular or the sizes do not match. The demo example, which draws a random system, stops with a message if the matrix is singular and otherwise delivers the exact solution with each entry converted to double once. A reader without file or handle, a triplet file that ends before its last entry, and a dense file that ends early are rejected with SLIP_INCORRECT_INPUT.", "quantifier": "every well-formed pair of files (any size, any order of entries); for example, every size and every sequence of random numbers; every prefix of a well-formed file for the rejections", "why_tests_cant": "Files of every size and shape; the repository only has a few sample files.", "anchors": ["SLIP_LU/Demo/demos.c:SLIP_tripread", "SLIP_LU/Demo/demos.c:SLIP_read_dense", "SLIP_LU/Demo/example2.c", "SLIP_LU/Demo/SLIPLU.c", "SLIP_LU/Demo/example.c"]}
{"id": "C38", "title": "Command line of the demo program", "statement": "SLIPLU accepts exactly the argument lists made of the supported items, in any order; the last occurrence of each setting wins, settings not mentioned keep their defaults, and an argument list with any other item is rejected before anything is read.", "quantifier": "every list of argument strings", "why_tests_cant": "Unbounded lists of arguments in any order and combination.", "anchors": ["SLIP_LU/Demo/demos.c:SLIP_process_command_line", "SLIP_LU/Demo/SLIPLU.c"]}
{"id": "C39", "title": "MATLAB interface returns the exact solution", "statement": "SLIP_mex_soln (A,b,option) returns the exact solution of A x = b, as text denoting the exact rationals or as doubles each obtained from the exact entry; it reports a singular matrix, and rejects wrong argument counts, complex, full/sparse mix-ups and mismatched sizes with a message.", "quantifier": "every sparse nonsingular A and full b whose entries are finite doubles that are multiples of 1e-17 other than 2^63, every options struct", "why_tests_cant": "Values are routed through two different conversions (int64 or scaled double) depending on all entries; must be right for every matrix.", "anchors": ["SLIP_LU/MATLAB/SLIP_mex_soln.c:mexFunction", "SLIP_LU/MATLAB/Source/slip_mex_get_A_and_b.c", "SLIP_LU/MATLAB/Source/slip_mex_check_for_inf.c", "SLIP_LU/MATLAB/Source/slip_mex_error.c"]}
{"id": "C40", "title": "MATLAB options struct", "statement": "Each field of the options struct sets exactly the corresponding option (names of orderings and pivoting schemes, tolerance in (0,1], digits between 2 and 2^29, print level truncated and clamped to 0..3), missing fields give the documented defaults, other settings are unchanged, and a struct with any other content ends with an error message.", "quantifier": "every options struct with text or numeric fields", "why_tests_cant": "All strings and numbers in six fields, with one field's use depending on another.", "anchors": ["SLIP_LU/MATLAB/Source/slip_get_matlab_options.c:slip_get_matlab_options"]}
{"id": "C41", "title": "The default column ordering is always a permutation", "statement": "colamd_l, called with the pattern of a matrix without duplicate entries and a workspace of at least the documented size, terminates, stays inside its arrays, reads nothing uninitialised, returns TRUE and leaves a permutation of 0..n_col-1 in p; any other size, pointer or row index that is not acceptable makes it return FALSE with p unchanged. No 64-bit integer overflows for a workspace of fewer than 2^60 elements (when the input is rejected: if the differences of consecutive pointers fit in 64 bits).", "quantifier": "every m-by-n pattern (rows in any order, empty rows and columns), every workspace size, every dense-row and dense-column threshold, aggressive absorption on or off", "why_tests_cant": "Garbage collection, supercolumn detection, aggressive absorption and mass elimination interact in one shared array; which of them run, and where, depends on every entry of the pattern.", "anchors": ["COLAMD/Source/colamd.c:colamd_l", "COLAMD/Source/colamd.c:init_rows_cols", "COLAMD/Source/colamd.c:init_scoring", "COLAMD/Source/colamd.c:find_ordering", "COLAMD/Source/colamd.c:order_children", "COLAMD/Source/colamd.c:detect_super_cols", "COLAMD/Source/colamd.c:garbage_collection", "SLIP_LU/Source/SLIP_LU_analyze.c:SLIP_LU_analyze"]}
{"id": "C42", "title": "Rounding conversions act on each entry separately", "statement": "SLIP_matrix_copy to type MPFR, FP64 or INT64 keeps every position and converts each entry by itself: MPFR gets the exact number (an MPZ integer divided by the scale factor) rounded to option->prec bits in direction option->round, FP64 is rounded once, INT64 saturates (NaN gives 0) and an MPFR source is rounded in direction option->round. Changing the kind at the same time gives the same result as changing the type first and the kind afterwards.", "quantifier": "every CSC, triplet or dense matrix of every type, including infinities and NaN, every scale factor, precision and rounding direction, every target kind", "why_tests_cant": "Fifteen type pairs times nine kind pairs times all values, precisions and directions; a conversion that ignores the scale factor or the rounding direction agrees with the right one on most test values.", "anchors": ["SLIP_LU/Source/SLIP_matrix_copy.c:SLIP_matrix_copy", "SLIP_LU/Source/slip_cast_array.c:slip_cast_array", "SLIP_LU/Source/slip_cast_matrix.c:slip_cast_matrix", "SLIP_LU/Source/slip_internal.h:slip_cast_double_to_int64"]}
{"id": "C43", "title": "The AMD ordering is always a permutation", "statement": "amd_l_order, called with the pattern of an n-by-n matrix, n > 0, terminates, stays inside its arrays, reads nothing uninitialised, and returns a permutation of 0..n-1 in P with status AMD_OK (sorted columns without duplicates) or AMD_OK_BUT_JUMBLED (otherwise), and an estimate AMD_LNZ between 0 and n(n-1)/2, or AMD_OUT_OF_MEMORY exactly if an allocation it needs fails; an input that is not such a pattern gives AMD_INVALID with P unchanged. No 64-bit integer overflows for n <= 2^29.", "quantifier": "every n-by-n pattern (rows in any order, repeated entries, empty rows and columns, any symmetry), every dense-row threshold, aggressive absorption on or off, every outcome of the allocations", "why_tests_cant": "Quotient graph, element absorption, supervariable detection by hashing, dense rows, mass elimination, garbage collection and the postorder share ten arrays that are reused for different purposes; the path depends on every entry.", "anchors": ["AMD/Source/amd_order.c:AMD_order", "AMD/Source/amd_valid.c:AMD_valid", "AMD/Source/amd_preprocess.c:AMD_preprocess", "AMD/Source/amd_aat.c:AMD_aat", "AMD/Source/amd_1.c:AMD_1", "AMD/Source/amd_2.c:AMD_2", "AMD/Source/amd_postorder.c:AMD_postorder", "AMD/Source/amd_post_tree.c:AMD_post_tree", "SLIP_LU/Source/SLIP_LU_analyze.c:SLIP_LU_analyze"]}
{"id": "C44", "title": "Integers do not grow beyond Hadamard's bound", "statement": "Every entry of the returned L, U and rhos, and the numerator and denominator of every entry of the solution, is bounded by the product of the euclidean lengths of the columns of A (and b) involved; with at most gamma nonzeros per column of absolute value at most B, an entry in column t of L is at most (B*sqrt(gamma))^(t+1). So the bit length is linear in the step, there is no exponential growth as in fraction-free elimination without division. The same holds for the integers of the workspace: every integer stored during the factorization, products before their division included, is at most the product of the squared column lengths, also when A is singular; and every integer stored by the solve before the final quotients is at most n times that product times the length of the longest right-hand side. A machine that has room for integers of this size never runs out of it.", "quantifier": "every integer matrix, column order, pivoting scheme and right-hand side; every n", "why_tests_cant": "A missing or postponed division gives the same solution after all and only shows as growth on larger matrices; the bound must hold for every matrix.", "anchors": ["SLIP_LU/Source/slip_ref_triangular_solve.c:slip_ref_triangular_solve", "SLIP_LU/Source/SLIP_LU_factorize.c:SLIP_LU_factorize", "SLIP_LU/Source/slip_back_sub.c:slip_back_sub", "SLIP_LU/Source/SLIP_LU_solve.c:SLIP_LU_solve"]}
{"id": "C45", "title": "Everything the library makes passes its own check", "statement": "SLIP_matrix_check returns SLIP_OK, at every print level, for every matrix the library hands out: a new matrix from SLIP_matrix_allocate, the result of SLIP_matrix_copy for every conversion that C19 or C42 covers, the factors L and U and the vector rhos of SLIP_LU_factorize, the solution of SLIP_LU_solve, and the result of SLIP_backslash in each of its three types. (A dense matrix with zeros converted to triplet form is the exception.)", "quantifier": "every kind, type and size; every valid input matrix and right-hand side; every options object; every qsort", "why_tests_cant": "An index one too large, a repeated row or a pointer array left unfinished shows only for some patterns; the sets of matrices are infinite.", "anchors": ["SLIP_LU/Source/SLIP_matrix_check.c:SLIP_matrix_check", "SLIP_LU/Source/SLIP_matrix_allocate.c:SLIP_matrix_allocate", "SLIP_LU/Source/SLIP_matrix_copy.c:SLIP_matrix_copy", "SLIP_LU/Source/SLIP_LU_factorize.c:SLIP_LU_factorize", "SLIP_LU/Source/SLIP_LU_solve.c:SLIP_LU_solve", "SLIP_LU/Source/SLIP_backslash.c:SLIP_backslash"]}
{"id": "C46", "title": "No 64-bit overflow", "statement": "For every valid square matrix with at most 2^29 rows and every right-hand side with at most 2^60 entries, SLIP_LU_analyze, SLIP_LU_factorize and SLIP_LU_solve never overflow an int64_t (in SLIP_LU, COLAMD and AMD), never pass a size to malloc that does not fit in size_t, and return exactly what the same algorithms return in unbounded integer arithmetic; for a nonsingular matrix the three calls return SLIP_OK and the exact solution. (SLIP_matrix_allocate of a dense matrix computes m*n without a guard: 2^32 by 2^32 overflows.) Neither does copying a valid matrix with at most 2^60 rows, columns and entries (for dense matrices: positions), nor SLIP_backslash: wherever the exact-arithmetic code is defined, the 64-bit code returns the same result. The same holds of SLIP_matrix_check, on well-formed and malformed matrices alike, with at most 2^59 entries and 2^60 columns: it returns SLIP_OK exactly for the well-formed ones. And of the demo programs: for all well-formed files of a system within these sizes, SLIP_tripread and SLIP_read_dense deliver the matrices in the files, and example2 and SLIPLU the exact solution (or a message if the matrix is singular).", "quantifier": "every valid matrix and right-hand side within the sizes, every ordering and pivoting scheme, every analysis with estimates of at most 2^60 entries", "why_tests_cant": "An overflow needs sizes, pointers or products that no test machine can allocate; the flipping of the column pointers and the doubling of the capacity are data-dependent.", "anchors": ["SLIP_LU/Source/SLIP_LU_analyze.c:SLIP_LU_analyze", "SLIP_LU/Source/SLIP_LU_factorize.c:SLIP_LU_factorize", "SLIP_LU/Source/SLIP_LU_solve.c:SLIP_LU_solve", "SLIP_LU/Source/slip_internal.h:SLIP_FLIP", "SLIP_LU/Source/slip_sparse_realloc.c:slip_sparse_realloc", "SLIP_LU/Source/SLIP_matrix_allocate.c:SLIP_matrix_allocate", "SLIP_LU/Source/SLIP_matrix_copy.c:SLIP_matrix_copy", "SLIP_LU/Source/SLIP_backslash.c:SLIP_backslash", "SLIP_LU/Source/SLIP_matrix_check.c:SLIP_matrix_check", "SLIP_LU/Demo/demos.c:SLIP_tripread", "SLIP_LU/Demo/demos.c:SLIP_read_dense", "SLIP_LU/Demo/SLIPLU.c:main", "SLIP_LU/Demo/example2.c:main", "SLIP_LU/Demo/example.c:main"]}
{"id": "C47", "title": "The factors do not depend on how the matrix is stored", "statement": "If two CSC objects store the same entries, in any order within each column, with any amount of spare room, then SLIP_LU_factorize, called with the same column order, pivoting scheme and tolerance and with any admissible estimates lnz and unz, returns the same status and identical L, U, rhos and pinv, array for array. If the two objects only represent the same matrix (explicit zeros, other column orders, other options), the computed solutions are still equal.", "quantifier": "every pair of valid CSC matrices with the same entries, every right-hand side, every column order, pivoting scheme, tolerance and pair of estimates", "why_tests_cant": "The order of the entries steers the depth-first search, the order of the updates and the scan for the pivot; that none of it shows in the result has to hold for every permutation of every column of every matrix.", "anchors": ["SLIP_LU/Source/SLIP_LU_factorize.c:SLIP_LU_factorize", "SLIP_LU/Source/slip_reach.c:slip_reach", "SLIP_LU/Source/slip_ref_triangular_solve.c:slip_REF_triangular_solve", "SLIP_LU/Source/slip_get_pivot.c:slip_get_pivot", "SLIP_LU/Source/SLIP_LU_solve.c:SLIP_LU_solve"]}
{"id": "C48", "title": "Time and memory are proportional to the arithmetic work and the size of the factors", "statement": "The number of arithmetic operations on GMP numbers that SLIP_LU_factorize does is at most 5 W + 2 nnz(U), where W is the number of multiplications of the elimination itself (for each stored entry u_ik of U, the number of stored entries of column i of L); all its loops together, the search for the nonzero pattern and for the pivot and the initialization of new memory included, run at most 2 nnz(A) + 2 W + 14 nnz(L) + 16 nnz(U) times, with no term in n^2 for a sparse matrix. The entries of L and U for which it requests memory, all enlarged arrays added up, are at most the two estimates of the analysis plus 4 (nnz(L) + nnz(U) + 2 n). For every matrix, also a singular one, there are at most 5/3 n^3 + 2 n^2 operations. SLIP_LU_solve with k right-hand sides does at most k (5 nnz(L) + nnz(U) + 5 n) + 1 operations (plus 2 k nnz(A) with the check) and as many loop iterations up to a multiple of k n.", "quantifier": "every valid CSC matrix, right-hand side, column order, pivoting scheme and tolerance", "why_tests_cant": "A test can time some matrices; a hidden quadratic scan, a pattern entry visited twice or a mark that is not undone shows only on particular patterns and in the limit of large sizes.", "anchors": ["SLIP_LU/Source/SLIP_LU_factorize.c:SLIP_LU_factorize", "SLIP_LU/Source/slip_reach.c:slip_reach", "SLIP_LU/Source/slip_dfs.c:slip_dfs", "SLIP_LU/Source/slip_ref_triangular_solve.c:slip_REF_triangular_solve", "SLIP_LU/Source/slip_get_pivot.c:slip_get_pivot", "SLIP_LU/Source/SLIP_LU_solve.c:SLIP_LU_solve", "SLIP_LU/Source/slip_forward_sub.c:slip_forward_sub", "SLIP_LU/Source/slip_back_sub.c:slip_back_sub", "SLIP_LU/Source/slip_sparse_realloc.c:slip_sparse_realloc"]}
{"id": "C49", "title": "Inputs are not modified, shared arrays are harmless, outputs are new objects", "statement": "SLIP_LU_analyze, SLIP_LU_factorize, SLIP_LU_solve and SLIP_backslash leave every array that existed before the call as it was, whether they succeed or fail (slip_dfs marks visited columns in L->p, but only of the L under construction, and unmarks them). The arguments may share arrays in any way, for instance b->x may be A->x or two factors may be the same object: status and results are those of the same call on separate copies. The arrays of the returned analysis, factors, pivots, row permutation and solution have been allocated by the call and are pairwise different, so none of them is an array of an input, and SLIP_backslash releases only objects that it has created. Any number of solves with the same factors gives, for each right-hand side, the solution that it would have as the only one, and no solution is changed by a later solve. SLIP_matrix_free releases exactly the arrays that are not shallow.", "quantifier": "every memory state, every placement and sharing of the arrays of the arguments, every value of the arguments (valid or not), every ordering and option, every sequence of solves", "why_tests_cant": "Whether two arguments share an array, and which arrays a function writes, is a property of all executions including the failing ones; a test sees the arrays it compares on the paths it takes.", "anchors": ["SLIP_LU/Source/SLIP_LU_analyze.c:SLIP_LU_analyze", "SLIP_LU/Source/SLIP_LU_factorize.c:SLIP_LU_factorize", "SLIP_LU/Source/SLIP_LU_solve.c:SLIP_LU_solve", "SLIP_LU/Source/SLIP_backslash.c:SLIP_backslash", "SLIP_LU/Source/SLIP_matrix_free.c:SLIP_matrix_free", "SLIP_LU/Source/slip_dfs.c:slip_dfs", "SLIP_LU/Source/slip_permute_b.c:slip_permute_b"]}
{"id": "C50", "title": "What the matrix checker prints, and that the print level decides nothing else", "statement": "SLIP_matrix_check returns the same status at every print level, and what it prints at a level is a definite part of one complete output: nothing at level 0 and below, the error message only at level 1, at level 2 the header and the first 30 lines (then '...') and the error message, everything at level 3 and above. If SLIP_OK is returned the complete output is the header, the scale factor and every entry of the matrix exactly once in storage order with its value; otherwise it is the beginning of that listing followed by exactly one error message, which is true of the matrix (the index named is out of range, the pair named occurs twice, ...) and belongs to the code returned; without memory for the workspace no CSC or triplet matrix is accepted. If the conversion of a number to text fails, the status is the code of that failure or is unaffected; at levels 0 and 1 no number is converted.", "quantifier": "every matrix of every kind and type (well formed or not), every print level, every outcome of the allocation and of each conversion to text", "why_tests_cant": "The cut after 30 lines, the position of the first defect and the failing conversion combine in unboundedly many ways; tests run the checker with one print level and look at the status only.", "anchors": ["SLIP_LU/Source/SLIP_matrix_check.c:SLIP_matrix_check", "SLIP_LU/Source/SLIP_matrix_check.c:SLIP_PR_LIMIT", "SLIP_LU/Source/slip_internal.h:SLIP_PR1", "SLIP_LU/Source/SLIP_gmp.c:SLIP_mpfr_asprintf"]}
{"id": "C51", "title": "SLIP_matrix_copy makes an independent deep copy", "statement": "A matrix made by SLIP_matrix_copy consists of arrays of its own, all allocated by the call and pairwise different: it shares none with the original, even if the two types agree, the original is shallow or its own arrays are shared. The original and every other object that existed before the call is unchanged, whether the copy succeeds or fails. Afterwards overwriting or freeing the original does not change the copy, overwriting the copy does not change the original, and freeing the copy with SLIP_matrix_free succeeds and leaves the memory as it was before the copy: no workspace is left behind and nothing is freed twice.", "quantifier": "every source matrix (three kinds, five types, any sharing or shallowness of its arrays, well formed or not), every target kind and type, every option, every later history that only touches arrays of the other object", "why_tests_cant": "Sharing shows only when one of the two objects is modified or freed later; there are 45 combinations of kinds and types, each with its own code path for the work matrix, and unboundedly many matrices.", "anchors": ["SLIP_LU/Source/SLIP_matrix_copy.c:SLIP_matrix_copy", "SLIP_LU/Source/slip_cast_matrix.c:slip_cast_matrix", "SLIP_LU/Source/slip_cast_array.c:slip_cast_array", "SLIP_LU/Source/SLIP_matrix_allocate.c:SLIP_matrix_allocate", "SLIP_LU/Source/SLIP_matrix_free.c:SLIP_matrix_free", "SLIP_LU/Source/slip_cumsum.c:slip_cumsum", "SLIP_LU/Source/slip_expand_double_array.c", "SLIP_LU/Source/slip_expand_mpfr_array.c", "SLIP_LU/Source/slip_expand_mpq_array.c"]}
{"id": "C52", "title": "Equivalent systems have the same answer", "statement": "Two calls of SLIP_backslash on systems that differ by an invertible rational transformation (A2 = M A1 N, b2 = M b1: row operations, renumbering or scaling of equations and unknowns, another storage order, another scale factor, other options) are both answered SLIP_SINGULAR, or both SLIP_OK with x1 = N x2; renumbering permutes the answer and nothing else; the answer is exactly linear in the right-hand side; a right-hand side A y returns y; the identity as right-hand side returns the two-sided inverse; rounded results (FP64, MPFR) of systems with the same exact solution are equal.", "quantifier": "all pairs of valid systems of any size related by invertible rational matrices, all options and orderings in each of the calls", "why_tests_cant": "It relates two runs on arbitrary inputs that take different pivots and different paths; tests can only compare sampled pairs.", "anchors": ["SLIP_LU/Source/SLIP_backslash.c: SLIP_backslash", "SLIP_LU/Source/SLIP_LU_factorize.c: SLIP_LU_factorize", "SLIP_LU/Source/SLIP_LU_solve.c: SLIP_LU_solve"]}
{"id": "C53", "title": "Every rational handed out is in lowest terms", "statement": "If the rationals of the arguments (scale factors, entries of MPQ matrices) are in GMP's canonical form, then SLIP_LU_solve, SLIP_matrix_copy (except INT64 to MPQ) and SLIP_backslash never apply GMP arithmetic to a rational that is not canonical, and every rational they hand out is canonical: the denominator is positive and has no common factor with the numerator. For a nonsingular system the numerator and denominator of each entry of the solution are those of the exact solution in lowest terms. A copy from INT64 to MPQ breaks this.", "quantifier": "all matrices, kinds, types, options, status codes", "why_tests_cant": "A rational that is not reduced has the right value; GMP does not check its operands, and a wrong result shows up only for particular common factors in a later operation.", "anchors": ["SLIP_LU/Source/slip_matrix_div.c: slip_matrix_div", "SLIP_LU/Source/SLIP_LU_solve.c: SLIP_LU_solve", "SLIP_LU/Source/slip_check_solution.c: slip_check_solution", "SLIP_LU/Source/slip_cast_array.c: slip_cast_array", "SLIP_LU/Source/slip_expand_mpq_array.c: slip_expand_mpq_array", "SLIP_LU/Source/SLIP_gmp.c: SLIP_mpq_set_si"]}
{"id": "C54", "title": "What analysis, solve and backslash print, and that the print level decides nothing else", "statement": "The print level never changes what SLIP_LU_analyze, SLIP_LU_solve and SLIP_backslash return; at level 0 and below, and without options, they print nothing, and all levels from 1 on print the same. From level 1 on: the analysis of a valid matrix prints nothing without an ordering, a heading, AMD's control parameters and AMD's report for AMD, and a heading, COLAMD's report and ten times the number of entries for COLAMD; a solve prints that the solution is verified exactly when checking is on and it returns SLIP_OK, and that it is wrong exactly when it returns SLIP_INCORRECT; 'verified' is only ever printed about an exact solution; backslash on a nonsingular system prints the report of the analysis and, with checking, 'verified', and on a singular one the report only.", "quantifier": "all matrices, factors, permutations, options, print levels", "why_tests_cant": "Output is rarely compared by tests, and whether it is truthful or influences the result is a statement about all arguments, including factors of other matrices, and all pairs of print levels.", "anchors": ["SLIP_LU/Source/SLIP_LU_analyze.c: SLIP_LU_analyze", "SLIP_LU/Source/slip_check_solution.c: slip_check_solution", "SLIP_LU/Source/SLIP_LU_solve.c: SLIP_LU_solve", "SLIP_LU/Source/SLIP_backslash.c: SLIP_backslash", "SLIP_LU/Source/slip_internal.h: SLIP_PR1"]}
{"id": "C55", "title": "A MATLAB session: every call leaves the library finalized, and calls do not influence each other", "statement": "After every call of SLIP_mex_soln that comes back, with a result or an error message, the library is finalized, whatever its state before and wherever in the call the error occurred (arguments, options, reading A and b, solving, converting the result). A call behaves the same whether the library happens to be initialised or not. Hence in any sequence of calls, each has the result or error message that it would have as the only call of a fresh session, whatever calls (failed ones included) precede it; and if each of them runs through on its own, so does the sequence.", "quantifier": "all sequences of calls, all numbers and kinds of arguments and values in them, all options structs, both states of the library before the first call, all places where a call can fail", "why_tests_cant": "A MEX file stays loaded after an error, so the property is about all histories of successful and failing calls.", "anchors": ["SLIP_LU/MATLAB/SLIP_mex_soln.c: mexFunction", "SLIP_LU/MATLAB/Source/slip_mex_error.c: slip_mex_error", "SLIP_LU/MATLAB/Source/slip_mex_get_A_and_b.c: slip_mex_get_A_and_b", "SLIP_LU/Source/SLIP_finalize.c: SLIP_finalize", "SLIP_LU/Source/SLIP_initialize_expert.c: SLIP_initialize_expert"]}
{"id": "C56", "title": "Memory pressure never changes an answer", "statement": "Whatever requests for memory are refused, at whatever points (other than those AMD makes for itself, for which see C30), SLIP_LU_analyze, SLIP_LU_factorize, SLIP_LU_solve and SLIP_backslash behave in one of two ways: if none of the requests the call makes is refused, they return exactly what they return with unlimited memory; if one is, they return SLIP_OUT_OF_MEMORY or SLIP_INCORRECT_INPUT (SLIP_LU_analyze: SLIP_OUT_OF_MEMORY) and NULL in every output handle. So for a nonsingular system SLIP_backslash gives the exact solution or no solution, a matrix is reported singular only if it is, and if as many requests are granted as the unlimited run makes, the answer is that of the unlimited run, whatever is refused later.", "quantifier": "all arguments (valid or not), all histories of granted and refused requests, all starting points in them", "why_tests_cant": "The number of requests grows with the matrix and with the size of the integers; a test refuses one request of one run, not every pattern in every run.", "anchors": ["SLIP_LU/Source/SLIP_backslash.c: SLIP_backslash", "SLIP_LU/Source/SLIP_LU_analyze.c: SLIP_LU_analyze", "SLIP_LU/Source/SLIP_LU_factorize.c: SLIP_LU_factorize", "SLIP_LU/Source/SLIP_LU_solve.c: SLIP_LU_solve", "SLIP_LU/Source/slip_sparse_realloc.c: slip_sparse_realloc", "SLIP_LU/Source/SLIP_matrix_allocate.c: SLIP_matrix_allocate", "SLIP_LU/Source/slip_internal.h: SLIP_CHECK"]}
{"id": "C57", "title": "A copy made under memory pressure", "statement": "Whatever requests for memory are refused, at whatever points, SLIP_matrix_copy (any arguments, formats and types) returns exactly what it returns with unlimited memory if none of its requests is refused. If one is, copies from CSC to CSC or triplet, from triplet to triplet and from dense to dense return SLIP_OUT_OF_MEMORY or SLIP_INCORRECT_INPUT and NULL; the other five pairs of formats may also return SLIP_OK and a matrix with the right dimensions, pattern and entries but a wrong scale (a defect: a program that looks at every status can then compute a wrong solution). If as many requests are granted as the unlimited run makes, the result is that of the unlimited run. Converting a nonsingular system and solving it under any such history therefore gives an error, or a nonzero multiple of the exact solution - the exact solution itself if nothing was refused, or if the matrix was given as CSC and the right-hand side as dense.", "quantifier": "all arguments (valid or not), all pairs of formats and types, all histories of granted and refused requests, all starting points in them", "why_tests_cant": "The number of requests grows with the matrix and with the size of the integers, and differs for each of the 225 combinations of formats and types; a test refuses one request of one run.", "anchors": ["SLIP_LU/Source/SLIP_matrix_copy.c: SLIP_matrix_copy", "SLIP_LU/Source/slip_cast_matrix.c: slip_cast_matrix", "SLIP_LU/Source/slip_cast_array.c: slip_cast_array", "SLIP_LU/Source/slip_expand_double_array.c: slip_expand_double_array", "SLIP_LU/Source/slip_expand_mpfr_array.c: slip_expand_mpfr_array", "SLIP_LU/Source/slip_expand_mpq_array.c: slip_expand_mpq_array", "SLIP_LU/Source/SLIP_matrix_allocate.c: SLIP_matrix_allocate"]}
{"id": "C58", "title": "The function MATLAB users call", "statement": "x = SLIP_backslash (A,b,option) in MATLAB, with a nonsingular real A (sparse, or full: it is then converted) and a full real b of values the interface takes exactly, returns the exact solution in the way option.solution asks for: doubles rounded once per entry, exact fractions, or the exact fractions handed to vpa with option.digits (or MATLAB's own setting). Leaving out option means doubles. A singular A, complex or non-numeric arguments, a sparse b, an A that is not square and a b of the wrong size give an error message that says so. A call made while the library is finalized leaves it finalized, whatever the arguments.", "quantifier": "all sizes, all matrices sparse or full, all right-hand sides, all option structs (or none), all states of the library before the call", "why_tests_cant": "The space of matrices, storage formats and option structs is unbounded; MATLAB/SLIP_test.m tries a few sizes at random.", "anchors": ["SLIP_LU/MATLAB/SLIP_backslash.m: SLIP_backslash", "SLIP_LU/MATLAB/SLIP_mex_soln.c: mexFunction"]}
{"id": "C59", "title": "What is printed can be read back", "statement": "The text that SLIP_matrix_check prints at level 3 determines the matrix: if two valid matrices of type MPZ, MPQ or INT64 give the same text, they have the same kind, type, dimensions, number of entries and scale and represent the same matrix. The strings that SLIP_backslash returns to MATLAB for option.solution = 'char' read as the exact solution. Every integer and every fraction is printed so that it reads back as the same number. (Not so for matrices of doubles, which are printed with six decimals; and an integer solution is not of the documented form 'numerator/denominator'.)", "quantifier": "all valid matrices of the three formats and three exact types, all numbers, all systems", "why_tests_cant": "There are infinitely many matrices and numbers; a test compares the text of a few with a file.", "anchors": ["SLIP_LU/Source/SLIP_matrix_check.c: SLIP_matrix_check", "SLIP_LU/Source/SLIP_gmp.c: SLIP_mpfr_asprintf", "SLIP_LU/MATLAB/SLIP_mex_soln.c: mexFunction", "SLIP_LU/MATLAB/SLIP_backslash.m: SLIP_backslash"]}
{"id": "C60", "title": "Copying takes time and memory linear in the sizes of the matrices", "statement": "SLIP_matrix_copy from any kind and type to any kind and type, of an m-by-n matrix with N entries (m*n if it is dense), makes at most 15 calls of GMP and MPFR per entry, at most 17 N + 2 n + 7 loop iterations and requests memory for at most 11 N + 2 n + 13 array elements, temporary arrays included; a dense result adds m*n iterations and elements. This holds whether or not the copy succeeds, for any row and column indices and any values, if the column pointers of a CSC source start at 0 and do not decrease. Sorting triplets into columns, finding a common denominator or a common divisor never takes quadratic time, and a copy between sparse formats never needs memory for m*n entries.", "quantifier": "all dimensions, all matrices of the three kinds and five types, all target kinds and types, all options", "why_tests_cant": "A bound on the work of every input cannot be established by timing some of them.", "anchors": ["SLIP_LU/Source/SLIP_matrix_copy.c: SLIP_matrix_copy", "SLIP_LU/Source/slip_cast_matrix.c: slip_cast_matrix", "SLIP_LU/Source/slip_cast_array.c: slip_cast_array", "SLIP_LU/Source/slip_expand_mpq_array.c: slip_expand_mpq_array", "SLIP_LU/Source/slip_expand_double_array.c: slip_expand_double_array", "SLIP_LU/Source/slip_expand_mpfr_array.c: slip_expand_mpfr_array", "SLIP_LU/Source/slip_cumsum.c: slip_cumsum", "SLIP_LU/Source/SLIP_matrix_allocate.c: SLIP_matrix_allocate"]}
{"id": "C61", "title": "Checking takes linear time and memory, however corrupt the matrix", "statement": "SLIP_matrix_check of an m-by-n matrix object with positive nzmax for which SLIP_matrix_nnz reports N entries makes at most 2 n + 3 N loop iterations (the work inside qsort not counted), prints at most N values and requests a workspace of at most m + 2 N elements. Nothing else is assumed: column pointers, indices and values may be arbitrary and arrays may be missing or too short; column pointers that decrease or run away do not make the check visit entries twice or run on.", "quantifier": "all dimensions, all matrix objects of any kind and type with any contents, all options, all behaviours of qsort", "why_tests_cant": "A bound on the work for every corrupt input cannot be established by trying some of them.", "anchors": ["SLIP_LU/Source/SLIP_matrix_check.c: SLIP_matrix_check", "SLIP_LU/Source/SLIP_matrix_nnz.c: SLIP_matrix_nnz"]}
