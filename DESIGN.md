# SLIP LU in Lean 4 - design

Source: `/repo/SLIP_LU`, `/repo/COLAMD` and `/repo/AMD` (C). Model and proofs: `/verif/lean/Verif`.

## 1. Approach

The C functions are transcribed one by one into total, computable Lean functions in the
monad `C α = Except Fail α` where

* `Fail.ub`    - the C code would execute undefined behaviour: index out of bounds, read of an
  uninitialised array element, use of an `mpz_t` that was never `mpz_init`'ed, double
  initialisation of an `mpz_t`, `mpz_divexact` with zero divisor or non-dividing divisor,
  NULL dereference;
* `Fail.fuel`  - a `while` loop ran out of the fuel the model gives it (so termination is a
  theorem "never `fuel`", not an assumption);
* `Fail.ret e` - the C function returned the error code `e` (`SLIP_SINGULAR`, ...).

Arrays are `List (Option α)`; `none` is an element never written (malloc'ed / mpz not
initialised). Array reads and writes take `Int` indices, as in C, and are checked. A function
that mutates through pointers returns the new contents. `for` loops are `forRange`
(structural recursion on the trip count), `while` loops take fuel.

A theorem of the form `f args = .ok r ∧ ...` therefore includes memory safety, initialisedness,
exactness of all divisions and termination.

Specifications are stated with Mathlib notions only: `Matrix (Fin n) (Fin n) ℤ`, `Matrix.det`,
`Equiv.Perm`, `Matrix.mulVec`; the abstraction functions (`csc ↦ Matrix`) are small and in the
file `Spec.lean`.

## 2. Plan per property

| id | modelled | how proved |
|----|----------|-----------|
| C01 | analyze estimates, factorize, permute_b, forward_sub, mul, back_sub, div, permute_x, scale step | refinement: factor invariant (entries are bordered minors), Bareiss/Sylvester identity via Schur complement, linearity of minors, Cramer |
| C02 | factorize + 6 pivot searches | all candidates zero ⇒ columns dependent ⇒ det = 0; conversely completed run ⇒ last pivot = ±det ≠ 0 |
| C03 | same | last pivot is the determinant of the doubly permuted matrix; `Matrix.det_permute`; literal claim refuted by 2×2 witness |
| C04 | same | telescoping of the Sylvester identity |
| C05 | same + divexact as partial operation | every `divexact` in the model is checked; success theorem ⇒ all exact; entries = minors |
| C06 | same | loop invariant |
| C07 | get_pivot swap | loop invariant |
| C08 | whole pipeline in the checked monad, slip_sparse_realloc | success theorem; capacity invariant |
| C09, C10 | slip_reach, slip_dfs with flip marks, stack in `xi`, fuel | DFS invariant (white/grey/black nodes), reachability by paths |
| C11 | uninitialised = `none`, reading it = `ub` | success theorem for every workspace content |
| C12, C13 | corollaries of uniqueness of the solution / columnwise loops | |
| C14 | slip_check_solution | loop invariants over ℚ |
| C15, C16 | 5 search functions + get_pivot; tolerance a rational (finite double) | loop invariants |
| C17 | SLIP_LU_analyze with COLAMD and AMD inside the model | C41, C43, case analysis, arithmetic |
| C18 | scale step of SLIP_LU_solve | algebra |
| C19, C20 | SLIP_matrix_copy, cast_matrix, cumsum over a universal matrix struct | loop invariants; negations by witness |
| C21, C22 | slip_expand_*; floating point rounding as a parameter with stated assumptions | gcd/lcm loop invariants |
| C23, C24, C25 | as in the code | loop invariants |
| C26, C29, C30 | allocation skeleton with a failing allocator and a ledger of live blocks | invariants over the ledger |
| C27 | state machine | induction on call histories |
| C28 | gmp list | induction on operation sequences |
| C31 | doubles as rationals with NaN/±inf; rounding of INT64_MAX | case analysis; witness at 2^63 |
| C32, C34 | option accessors, argument checks | case analysis |
| C33 | permute_b, permute_x | loop invariants |
| C35 | backslash pipeline, rounding as parameter | composition |
| C36 | SLIP_matrix_copy then SLIP_backslash | composition of C19 and C35 |
| C37 | file readers of the demos over a stream of words, main functions; `rand ()` as an arbitrary sequence | loop invariants, composition |
| C38 | SLIP_process_command_line | induction on the argument list against a grammar |
| C39 | the MEX function: argument checks, conversion of A and b, solve, result | loop invariants, composition; `mxArray` as a value, errors as exceptions |
| C40 | slip_get_matlab_options | case analysis against a table of names |
| C41 | colamd_l: init_rows_cols, init_scoring, find_ordering (with garbage collection, supercolumns, aggressive absorption, mass elimination), order_children | invariants on the row/column quotient graph in the shared index space, the degree and hash lists, the scores, and the tree of absorbed columns; every integer operation goes through `ck`, which is the identity or the test for 64-bit overflow (`Model/Arith.lean`), and the same invariants show that no test fails |
| C42 | slip_cast_array and SLIP_matrix_copy for the targets MPFR, FP64, INT64; roundings to `double` as parameters tied to the documented rounding | loop invariant per type pair; the copy with a change of kind is shown equal, as a computation, to two copies |
| C43 | AMD: amd_order with everything it calls (AMD_valid, AMD_preprocess, AMD_aat, AMD_1, AMD_2, AMD_postorder, AMD_post_tree), the ten arrays of AMD_2 as one memory | loop invariants: quotient graph in `Iw` with disjoint lists, degree and hash lists as linked lists, supervariables partition the columns, assembly tree is a forest, postorder is a bijection |
| C44 | the factors and the solution of the same model; `Model/Sized.lean`, the two phases with a limit on each `mpz` stored, for the integers in the workspace | every stored integer is a bordered minor, a product of two of them or a partial sum of the back substitution; C05, Cramer's rule, Hadamard's inequality (proved from Mathlib's volume form) |
| C45 | the checker of C23 applied to what the other models return | C23 (exactness of the checker) with C06, C19, C35, C42; `nzmax` of every copy is followed through `SLIP_matrix_copy` |
| C46 | the code of C01-C17 once more with every `int64_t` operation and every size passed to malloc checked (`Model/Machine.lean`) | `Agree`: the checked function equals the unbounded one unless the latter is undefined, which C08 and C17 exclude; invariants: all index arrays hold numbers far inside the range, `lnz, unz <= k*n` before column `k`, a capacity is doubled only while it is below `n*n`; COLAMD and AMD: `Le`, a checked run is undefined or equal to the unbounded run, and C41, C43 for the checked run (their proofs are for any arithmetic that accepts numbers of the order of the sizes, `Fits`) |
| C47 | `SLIP_LU_factorize` run on two objects with the same entries (`SameEntries`) | two-run relational proof (`Proof/Stored.lean`): both runs satisfy the invariant of C01 with the same `r, pi, lp, up`; the sorted pattern of a column is the reachable set, so it is the same list in both; the pivot search reads only that list and the (equal) values; equality of the finished arrays by extensionality. Solutions: uniqueness by C04 |
| C48 | `Model/Cost.lean`, `Model/CostApi.lean`: the functions of both phases with a counter, weight α for each arithmetic operation on GMP numbers, β for each execution of a loop body, γ for each entry of L and U for which memory is requested | the metered function returns the same and adds at most the bound (`Cnt`, compositional rules in `Proof/Cost.lean`); amortized potential for the depth-first search (every entry of a column of L is scanned once: `Proof/Reach.lean`); the pattern of column k is exactly what is appended to L and U, so the sums over columns telescope to nnz(L), nnz(U) and the elimination work; the doublings telescope to the last capacity |
| C49 | `Model/Store.lean`, `Model/StoreApi.lean`: the whole pipeline once more, with matrices that hold references into a heap of arrays; reads, writes, allocation and `free` act on the heap, nothing is assumed about which references are equal | a simulation (`Sim`, compositional rules in `Proof/Store.lean`) between the heap program and the program on values: the heap after each step is the old heap extended by the arrays of the call (`ext`), so every write goes to a new array; failure included. Freshness and disjointness of the outputs are read off the final heap; sequences of solves by induction with the frame property |
| C50 | `Model/Print.lean`: SLIP_matrix_check with its output as a list of print calls, the local variables `pr`, `lines`, `status`, and an environment that decides about memory and about every conversion to text | a simulation between a run at any level and the run at level 3 (`PSim`, Proof/Print.lean), loop invariants for the listing and the messages (Proof/PrintList.lean), a simulation with the model of C23 and with runs in which conversions fail (Proof/PrintCode.lean) |
| C51 | `Model/StoreCopy.lean`: SLIP_matrix_copy, slip_cast_matrix, slip_cast_array, the slip_expand functions, slip_cumsum, SLIP_matrix_allocate and SLIP_matrix_free once more, statement by statement, with all five kinds of arrays in a heap; the work matrix `Y` shares the values of `A` when the types agree | a simulation (`Sim`, Proof/StoreCopy.lean) with the function on values that carries the exact heap after every loop; from it: nothing old changes, exactly the arrays of the result are added; independence and freeing follow from that frame |
| C52 | nothing new: SLIP_backslash on two (three) related systems | C35 and C02 for each run, uniqueness of the solution over the rationals |
| C53 | `Model/Canon.lean`: every function that handles an `mpq_t` once more, with an `mpq_t` as numerator and denominator and the GMP calls one by one; arithmetic on an operand that is not canonical is undefined | the transcription commutes with the map from rational numbers to canonical pairs (loop by loop; `slip_matrix_div` needs the invariant that the elements not yet visited are 0/1), so it refines the model with rational numbers |
| C54 | `Model/PrintSolve.lean`: SLIP_LU_analyze, slip_check_solution, SLIP_LU_solve, SLIP_backslash with their output as a list of print statements | a two-run relation between two print levels (`Lev`, Proof/PrintSolve.lean) that also gives equality with the silent model; the output for each status code by cases over where the function can return (`solve_cases`), the exactness by C14 |
| C55 | `Model/MatlabRun.lean`: mexFunction as a computation that carries whether the library is initialised and ends with a result or an error message; a session is a list of calls | two predicates closed under sequencing (`Keeps`, `Ends`, Props/MatlabRun.lean); induction over the session |
| C56 | `Model/Flaky.lean`: the pipeline once more, values and requests together; an arbitrary sequence of answers (granted / refused) and a counter | relation "the unlimited computation, cut short by a refused request", closed under sequencing and loops (`Flk`, `Cut`, `Stop`, Proof/Flaky.lean) |
| C57 | `Model/FlakyCopy.lean`: SLIP_matrix_copy and everything it calls, values and requests together; the ignored status of `SLIP_mpq_set` lets the run go on with an arbitrary scale | as C56, with a relation for runs that may go on after a refused request (`Amb`, Proof/FlakyCopy.lean); concrete runs for what is not true |
| C58 | `Model/MatlabFun.lean`: SLIP_backslash.m, statement by statement, on top of the MEX file of C46/C55; MATLAB's `sparse (A)` column by column | `sparse (A)` is a valid sparse array of the same matrix (induction over columns, sums over lists); then C46 and C55 |
| C59 | `Model/Text.lean`: the characters behind each print event of C50 and behind the MATLAB strings; `SpecText.lean`: reading numbers | decimal digits by induction (`Nat.ofDigits`); lines end at newlines and numbers at spaces or commas, so the text splits uniquely into lines and lines into numbers (Proof/TextLines.lean); lines determine the entries (Proof/TextListing.lean) |
| C60 | `Model/CostCopy.lean`: SLIP_matrix_copy and everything it calls with a meter (the monad of C48) | the metered function returns what the unmetered one returns, and a bound for the three counts, by composition over the code (`Lin`); column loops by a telescoping sum over the column pointers; for dense to triplet, the pointers built from a dense matrix do not decrease (loop invariant) |
| C61 | `Model/CostCheck.lean`: SLIP_matrix_check with a meter (the monad of C48) | as C60; the loop over the rows runs only after the pointers were tested, and a successful test makes them start at 0 and not decrease, so that the lengths of the columns add up to the count of SLIP_matrix_nnz |

## 3. Trusted base

* **Lean 4.33.0's kernel**, and Mathlib's definitions (`Matrix`, `Matrix.det`, `Equiv.Perm`, `ℚ`, ...)
  used in the statements.
* **Axioms**: only `propext`, `Classical.choice` and `Quot.sound`. No theorem depends on any other
  axiom; none is declared here. A few (`C23_check_null`, `C34_analyze`, `C27_gmp_unguarded_refuted`,
  `C28_unarchived_refuted`, ...) need fewer. `tools/axioms.lean.txt` (copy it to a scratch .lean file) prints the axioms of every `Cnn_`
  theorem (run with `lake env lean` in `lean/`).
* **The transcription**: that the Lean functions in `Verif/Model` say what the C functions say. Every
  definition cites the lines it transcribes.
* **The specification vocabulary**: `Spec.lean` (CSC/dense objects, permutations, analyses),
  `SpecGraph.lean` (reachability), `SpecMat.lean` (general matrix objects, what they represent),
  `SpecMem.lean` (GMP block ledger), `SpecHeap.lean` (ledger of the pipeline), `SpecFile.lean` (files and command lines), `SpecMatlab.lean`
  (MATLAB arrays and options), `SpecColamd.lean` (rectangular patterns), `SpecAmd.lean` (square patterns), `SpecText.lean` (reading numbers). These files contain
  definitions only.

### 3.1 Modelled code

| C source (`/repo/SLIP_LU`) | Lean model | properties |
|---|---|---|
| slip_reach.c, slip_dfs.c, slip_ref_triangular_solve.c, slip_get_pivot.c, slip_get_{smallest,largest,nonzero}_pivot.c, slip_sparse_realloc.c, slip_sparse_collapse.c, SLIP_LU_factorize.c | `Model/Factor.lean`, with explicit memory contents `Model/Workspace.lean` | C01-C11, C15, C16 |
| slip_permute_b.c, slip_forward_sub.c, slip_matrix_mul.c, slip_back_sub.c, slip_matrix_div.c, slip_permute_x.c, slip_check_solution.c, SLIP_LU_solve.c | `Model/Solve.lean` | C01, C08, C12-C14, C18, C33 |
| SLIP_LU_analyze.c, argument checks, option accessors (SLIP_LU.h, slip_internal.h, SLIP_create_default_options.c) | `Model/Api.lean`, `Model/Matrix.lean` | C17, C32, C34 |
| SLIP_matrix_copy.c, slip_cast_matrix.c, slip_cast_array.c, slip_expand_{double,mpfr,mpq}_array.c, slip_cumsum.c, slip_cast_double_to_int64, SLIP_backslash.c | `Model/Convert.lean` | C19-C22, C25, C31, C34-C36, C42 |
| SLIP_matrix_check.c (all tests and their order; with the output, memory and failing conversions in `Model/Print.lean`), SLIP_matrix_nnz.c | `Model/MatCheck.lean`, `Model/Print.lean`, `Model/Matrix.lean` | C23, C24, C50 |
| SLIP_malloc.c, SLIP_calloc.c, SLIP_realloc.c, SLIP_free.c, SuiteSparse_realloc | `Model/Realloc.lean` | C29 |
| SLIP_gmp.c: slip_gmp_allocate / free / reallocate, the list, the `SLIP_GMP*_WRAPPER` macros with setjmp/longjmp | `Model/Gmp.lean` | C28 |
| the allocation skeleton (every SLIP_malloc/calloc/realloc/free, every GMP object, every `SLIP_CHECK` exit) of AMD_order, SLIP_matrix_allocate, SLIP_matrix_free, SLIP_matrix_copy, SLIP_LU_analyze, SLIP_LU_factorize, SLIP_LU_solve, SLIP_backslash and all internal functions they call | `Model/Memory.lean` | C26, C30 |
| SLIP_initialize, SLIP_initialize_expert, SLIP_finalize, and histories of calls of all user-callable functions | `Model/Session.lean` | C27, C30 |
| Demo/demos.c (SLIP_tripread, SLIP_tripread_double, SLIP_read_dense, SLIP_process_command_line), Demo/example.c, Demo/example2.c, Demo/SLIPLU.c | `Model/Drivers.lean` | C37, C38 |
| /repo/COLAMD/Source/colamd.c: colamd_l and all it calls (not the statistics, not symamd) | `Model/Colamd.lean` | C41, C17 |
| /repo/AMD/Source: amd_order.c, amd_valid.c, amd_preprocess.c, amd_aat.c, amd_1.c, amd_2.c, amd_postorder.c, amd_post_tree.c (not the statistics except AMD_LNZ, not the control/info printing) | `Model/Amd.lean` | C43, C17 |
| the int64_t arithmetic of SLIP_LU_analyze.c, SLIP_LU_factorize.c, SLIP_LU_solve.c and the internal functions they call, and of COLAMD and AMD | `Model/Machine.lean`, `Model/Arith.lean` | C46 |
| the int64_t arithmetic of SLIP_matrix_allocate.c, SLIP_matrix_nnz.c, slip_cumsum.c, slip_cast_matrix.c, SLIP_matrix_copy.c, SLIP_backslash.c | `Model/Machine2.lean` | C46 |
| the int64_t arithmetic of SLIP_matrix_check.c (including the line counter) | `Model/Machine3.lean` | C46 |
| the int64_t arithmetic of SLIP_tripread, SLIP_read_dense (demos.c), example.c, example2.c, SLIPLU.c, and the range of `%ld` | `Model/Machine4.lean` | C46 |
| the `double` arithmetic of SLIP_LU_analyze.c (estimates of nnz(L), nnz(U), conversions to int64_t) on top of the checked `int64_t` arithmetic | `Model/AnalyzeFl.lean` | C17, C46 |
| the `mpz` values stored by slip_ref_triangular_solve.c, SLIP_LU_factorize.c, slip_forward_sub.c, slip_matrix_mul.c, slip_back_sub.c (a copy of these functions with a limit on the size) | `Model/Sized.lean`, `Model/SizedApi.lean` | C44 |
| the work of slip_dfs.c, slip_reach.c, slip_ref_triangular_solve.c, slip_get_*pivot.c, SLIP_LU_factorize.c, slip_permute_b.c, slip_forward_sub.c, slip_matrix_mul.c, slip_back_sub.c, slip_matrix_div.c, slip_permute_x.c, slip_check_solution.c, SLIP_LU_solve.c (a copy with a counter) | `Model/Cost.lean`, `Model/CostApi.lean` | C48 |
| SLIP_LU_analyze.c, SLIP_LU_factorize.c, SLIP_LU_solve.c, SLIP_backslash.c, SLIP_matrix_free.c and the internal functions of the two phases, with arrays in a heap | `Model/Store.lean`, `Model/StoreApi.lean` | C49 |
| SLIP_matrix_copy.c, slip_cast_matrix.c, slip_cast_array.c, slip_expand_*.c, slip_cumsum.c, SLIP_matrix_allocate.c, SLIP_matrix_free.c, with arrays in a heap | `Model/StoreCopy.lean` | C51 |
| every use of an `mpq_t` that leaves the library: slip_matrix_div.c, slip_permute_x.c, slip_check_solution.c, SLIP_LU_solve.c, slip_expand_*_array.c, slip_cast_array.c, slip_cast_matrix.c, SLIP_matrix_allocate.c, SLIP_matrix_copy.c, SLIP_backslash.c, with numerators and denominators | `Model/Canon.lean` | C53 |
| SLIP_LU_analyze.c, slip_check_solution.c, SLIP_LU_solve.c, SLIP_backslash.c with what they print | `Model/PrintSolve.lean` | C54 |
| MATLAB/SLIP_mex_soln.c, slip_mex_get_A_and_b.c, slip_mex_error.c in 64-bit arithmetic, with the state of the library, and sequences of calls | `Model/MatlabRun.lean` | C46, C55 |
| SLIP_LU_analyze.c, SLIP_LU_factorize.c and everything it calls, SLIP_LU_solve.c and everything it calls, SLIP_backslash.c, with every request for memory | `Model/Flaky.lean` | C56 |
| SLIP_matrix_copy.c, slip_cast_matrix.c, slip_cast_array.c, slip_expand_*_array.c, SLIP_matrix_allocate.c, with every request for memory | `Model/FlakyCopy.lean` | C57, C56 |
| MATLAB/SLIP_backslash.m; MATLAB's `sparse`, `isnumeric`, `vpa` for arrays of doubles, as documented | `Model/MatlabFun.lean` | C58 |
| the text printed by SLIP_matrix_check.c (not `%.*Rf`; `%lf` for positive numbers only), the strings of MATLAB/SLIP_mex_soln.c | `Model/Text.lean` | C59 |
| the work of SLIP_matrix_copy.c, slip_cast_matrix.c, slip_cast_array.c, slip_expand_*_array.c, slip_cumsum.c, SLIP_matrix_allocate.c (counts, as for C48) | `Model/CostCopy.lean` | C60 |
| the work of SLIP_matrix_check.c (counts, as for C48) | `Model/CostCheck.lean` | C61 |
| MATLAB/SLIP_mex_soln.c, MATLAB/Source/* (not the printing, not the text of the numbers) | `Model/Matlab.lean` | C39, C40 |

### 3.2 Assumed of code outside the model (hypotheses of the theorems, never axioms)

* **GMP/MPFR arithmetic** is exact (`mpz_t` is `ℤ`, `mpq_t` is `ℚ`: C53 proves that the rationals of the library are always canonical, so that this is so, except after a copy from INT64 to MPQ); `mpz_divexact` by zero or by a
  non-divisor is undefined behaviour and is checked. MPFR rounding and double rounding are
  parameters: the theorems about them quantify over every rounding function with the stated
  properties (`Props/Convert.lean`, `Props/Round.lean`).
* **`nc`**, the comparison `mpfr_cmp` inside the two tolerance schemes, is modelled as the code does it
  (ratio of two integers against the tolerance in rational arithmetic); theorems that do not talk
  about the tolerance quantify over an arbitrary comparison result.
* **AMD and COLAMD**: only the thresholds computed in floating point are outside the model; they are arbitrary.
  If the options ask for AMD, C17 and the theorems about whole pipelines assume that AMD's allocations
  succeed and that `n > 0` (`AmdOk`; without it: `C17_amd_failure_refuted`, `C17_amd_empty_refuted`).
* **qsort** in `slip_ref_triangular_solve`/`SLIP_matrix_check` sorts (C-library contract).
* **stdio, atoi, atof** (demos): a file is a list of words, numbers in it are exact integers; `atoi` and
  `atof` are arbitrary functions.
* **MATLAB's `mx` functions**: arrays are values; `mexErrMsgTxt` does not return; the conversion of an
  `int64_t` that is a `double` to `double` is exact (`Int64ToDExact`).
* `double` arithmetic in SLIP_LU_analyze and AMD (only in `C17_analysis_rounded` and `C46_pipeline_rounded`): `Doubles.Ok` (SpecFl.lean), relative error 2^-52 per operation, integers and half-integers up to 2^53 exact, and 2^-20 for AMD's accumulated sum (each of its at most 2^29+1 terms takes four rounded operations and one rounded addition). `rnd53_ok` shows that rounding to 53 bits meets this.
* **malloc/calloc/realloc/free** (memory models): a refused request has no effect, a fresh block is
  disjoint from all live ones; every request may be refused, independently.

### 3.3 Not modelled

* 64-bit overflow outside `Model/Machine.lean`, `Model/Machine2.lean`, `Model/Machine3.lean` and `Model/Machine4.lean` (analyze, factorize, solve, copy, backslash, check, readers, demos; C46): in SLIP_tripread_double indices are `ℤ` only (the MATLAB interface: `Model/MatlabRun.lean`). The tests `S->lnz > (double) n*n` and `ceil (0.5*n*n)` of SLIP_LU_analyze and AMD's sum `Info [AMD_LNZ]` are exact in `Model/Api.lean` and `Model/Machine.lean`, and rounded in `Model/AnalyzeFl.lean`.
* Stack depth. Time only as the counts of C48, C60 and C61: not qsort, realloc and the (de)allocation of the workspace, not the cost of one GMP operation, not the analysis phase.
* Aliasing outside analyze, factorize, solve, backslash, free (C49) and SLIP_matrix_copy (C51): there input objects are values, and "inputs are
  not modified" is read off the transcription - except in the memory model, where no block of the caller
  is freed (C30). `double` and `mpfr_t` arrays are values in C49 too (the functions concerned do not touch them).
* The text printed other than by SLIP_matrix_check (C59), `%.*Rf`, the statistics in the reports of AMD and COLAMD, `SuiteSparse_config.printf_func` being NULL, SLIP_version, the `.m` files other than SLIP_backslash.m, AMD's and COLAMD's demo programs, the interiors of GMP and MPFR; the statistics of AMD (except AMD_LNZ) and of COLAMD, and symamd. AMD's tests for overflow of `size_t` always succeed in the model.

## 4. How to read the development

`Basic.lean` (monad, arrays, loops, `wp`), `Model/*` (transcription), `Spec*` (vocabulary),
`Bareiss.lean` (algebra of bordered minors), `Proof/*` (invariants), `Props/*` (the `Cnn_` theorems; each is
followed by an `example` applying it to a concrete non-trivial object of `Example.lean` or of the file).
Names ending in `_refuted` prove that a literal documented claim is false of the code, by a witness.

## 5. Findings in the code

1. `rhos[n-1]` is `sign(P) sign(Q) det A`, not the documented `det A` (`C03_literal_determinant_refuted`).
2. `SLIP_LU_solve` with n = 0 reads `rhos[-1]` (`C08_solve_empty_refuted`).
3. `slip_expand_double_array` / `_mpfr_array` return scale 0 for an all-zero array, `_mpq_array` for an empty one.
4. `SLIP_matrix_copy` dense to triplet sets `nz = m*n` although fewer entries are stored.
5. `slip_cast_matrix` + kind change MPZ to MPZ loses the scale factor.
6. `SLIP_mpq_set_si` (SLIP_gmp.c line 1143) passes a pointer where the denominator is meant.
7. `slip_cast_double_to_int64` executes the undefined conversion at exactly 2^63.
8. `SLIP_TOL_LARGEST` compares signed values: a negative largest entry defeats the tolerance
   (`C15_tol_largest_negative_refuted`); a NaN tolerance reaches `mpq_set_d` (`C08_nan_tolerance_refuted`).
9. `SLIP_matrix_allocate` returns SLIP_INCORRECT_INPUT, not SLIP_OUT_OF_MEMORY, when an array cannot be
   allocated (`C26_out_of_memory_refuted`).
10. `SLIP_matrix_check` never compares `p[n]` with `nzmax` and skips `p[0]` when `nzmax = 0`; it passes a
    `uint64_t` precision to `%.*Rf`.
11. `SLIP_LU_analyze` ignores the return codes of AMD and COLAMD (`C17_amd_failure_refuted`). So if a request
    for memory is refused inside of AMD, the analysis returns SLIP_OK, and the factorization (also that of
    SLIP_backslash) uses an order that has not been written (`C30_amd_refuted`, `C30_amd_history_refuted`);
    C30 has this as its only exception.
12. `slip_expand_double_array` is lossy below 1e-17.
13. `SLIP_LU_analyze` does not clear `*S_handle` when A is invalid; `SLIP_LU_factorize` does not check that A
    is square.
14. Demo: `SLIP_tripread_double` compares an `fscanf` count with `SLIP_OK`; leaks in `SLIP_read_dense` and in
    `slip_mex_get_A_and_b`.
15. MPQ and scaled MPZ to INT64 go through a double; MPZ to INT64 wraps.
16. `SLIP_LU_analyze` with `A->p == NULL` under COLAMD dereferences NULL (`C34_analyze_null_pointer_refuted`).
17. sparse to dense copy of type MPFR leaves NaN off the pattern.
18. `slip_expand_*`: a single negative last entry gives a negative scale.
19. MPFR NaN is treated as zero in dense to CSC.
20. GMP wrappers that do not archive their object can leave it dangling after a failure
    (`C28_unarchived_refuted`); MPFR pool blocks are lost on longjmp.
21. `SLIP_matrix_copy` ignores the return code of `SLIP_mpq_set` (lines 127, 262, 476, 560), the expand
    functions that of `SLIP_mpq_set_z` for all-zero arrays (`C30_copy_scale_refuted`, `C30_copy_zeros_refuted`). With one refused request a copy of the FP64
    triplet matrix (1/2) to CSC/MPZ returns SLIP_OK and the matrix (1), and the solution of (1/2) x = 1 is 1, all with
    SLIP_OK (`C57_scale_refuted`, `C57_wrong_solution_refuted`).
22. The GMP wrappers and SLIP_FREE do not check initialisation (`C27_gmp_unguarded_refuted`,
    `C27_free_unguarded_refuted`): SLIP_FREE after SLIP_finalize leaks.
23. User-supplied estimates `lnz`, `unz` below n make the single doubling insufficient (`C08_small_estimate_refuted`).
24. `SLIP_tripread` rejects files with a single entry and (documented) Matrix Market files; it checks neither the
    indices nor the number of fields read nor the status of the copy: an index out of range is an access
    out of bounds, a negative number of entries gives SLIP_OK with a NULL matrix, and a file that ends inside its last
    entry is accepted with value 0 or makes it access memory out of bounds (`C37_*_refuted`).
25. `SLIP_tripread_double` fails on every well-formed file (`C37_tripread_double_refuted`).
26. SLIPLU command line: the documented item `c` is not supported, `o 0` and `t 0` are rejected, a NaN tolerance is
    accepted; the documented default pivot is not the actual one (`C38_*_refuted`).
27. MATLAB: with two arguments the uninitialised `mexoptions` decides what is returned
    (`C39_no_options_refuted`); an entry 2^63 executes the undefined conversion (`C39_big_refuted`);
    entries that are not multiples of 1e-17 are changed, up to a wrong "singular" verdict
    (`C39_inexact_refuted`); a numeric `option.solution` compares an unset buffer, a NaN tolerance is accepted
    (`C40_*_refuted`).
28. COLAMD: with duplicate entries (allowed by its documentation) the end of the row form is never written but
    `pfree` is `2*nnz`, so the garbage collection reads uninitialised memory and may take it for a row index
    (`C41_duplicates_refuted`, with the recommended workspace).
29. For `n = 0` AMD leaves `Info [AMD_LNZ] = -1`, so the analysis has `lnz = unz = -1` (`C17_amd_empty_refuted`;
    harmless: the factorization allocates at least one entry).
30. AMD_valid tests the row indices of a column before the pointers of the later columns: with decreasing
    pointers it reads `Ai` out of bounds instead of returning AMD_INVALID (`C43_unsafe_refuted`).
31. SLIP_matrix_allocate computes the number of entries of a dense matrix, `m*n`, in `int64_t` without a
    test (SLIP_matrix_allocate.c line 79): for `m = n = 2^32` it overflows (on the usual machines to 0, so one
    entry is allocated and SLIP_OK is returned). `C46_dense_size_refuted`, `C46_copy_size_refuted`.
32. colamd_l computes the length of a column, `p [col+1] - p [col]`, before it tests that the pointers do
    not decrease: `p = [0, 2^63-1, -2, 1]` overflows instead of being rejected
    (`C41_reject_overflow_refuted`).
33. SLIP_matrix_check keeps the status of the conversion of the scale factor: if it fails, the failure is returned
    after the first entry has been printed if the matrix has type int64 or double, and forgotten otherwise
    (`C50_stale_status_refuted`). For MPFR matrices the precision (a `uint64_t`, in bits) is passed for the `*` of
    `"%.*Rf"`, which takes an `int` and counts decimal places (SLIP_matrix_check.c lines 255, 355, 484).
34. SLIP_matrix_check itself multiplies `m*n` of the dense matrix it is asked to check, before it has looked at any other
    field: a corrupt dense matrix that claims 2^32 rows and columns makes the checker overflow (`C46_check_size_refuted`). SLIP_read_dense (demos) multiplies the two numbers it reads
    without a test: the file `4294967296 4294967296 7` overflows (`C46_read_dense_size_refuted`).
35. A copy from INT64 to MPQ (finding 6: the address is the denominator) does not reduce either: every even entry is left
    with a common factor, and the next GMP operation on it is undefined (`C53_int64_refuted`, `C53_int64_spreads`). The
    API has no wrapper of `mpq_canonicalize`, so a user who builds an MPQ matrix with `SLIP_mpq_set_ui (x, 2, 4)` cannot
    repair it without calling GMP directly.
36. The "Estimated L and U nonzeros" that SLIP_LU_analyze prints for COLAMD is the estimate before the bounds of lines
    161-176 are applied: it can be more than n², and is not what `S->lnz` contains afterwards (`C54_estimate_refuted`).
37. `colamd_l_report` (colamd.c, print_report) prints 64-bit integers with `%d` (not modelled).
38. `slip_mex_get_A_and_b` (lines 138-146) stores a `SLIP_calloc`ed array in a matrix that stays marked as shallow (unlike A's,
    line 91), so `SLIP_matrix_free` does not free it: MATLAB's memory manager reclaims it when the MEX file is left (read off the
    code; the ledger of C38 is about the C interface).
39. SLIP_backslash.m documents the strings of a 'char' result as 'numerator/denominator'; an integer is returned without a slash
    (`C59_slash_refuted`), so a program that splits at the slash fails on integer solutions.
40. SLIP_matrix_check prints doubles with `%lf`, that is six decimals: 2^-30 and 2^-31 both appear as 0.000000
    (`C59_double_refuted`).

## 6. Seeded bugs

`seeded/LOG.jsonl`: one line per wrong program tried (definition edited, edit, claim it breaks, declarations
whose proofs failed, property theorems resting on them, theorems tightened).
