{
 "claims": [
  {
   "property": "C01",
   "status": "proved",
   "theorems": [
    "Slip.C01_pipeline",
    "Slip.C01_pipeline_sound",
    "Slip.C01_solution_exact",
    "Slip.C01_solve_succeeds"
   ],
   "note": ""
  },
  {
   "property": "C02",
   "status": "proved",
   "theorems": [
    "Slip.C02_singular_verdict_exact",
    "Slip.C02_singular_iff"
   ],
   "note": ""
  },
  {
   "property": "C03",
   "status": "proved",
   "theorems": [
    "Slip.C03_last_pivot",
    "Slip.C03_last_pivot_abs",
    "Slip.C03_literal_determinant_refuted"
   ],
   "note": "the documented literal claim (rhos[n-1] = det A) is refuted by C03_literal_determinant_refuted; the corrected claim (up to permutation signs) is proved"
  },
  {
   "property": "C04",
   "status": "proved",
   "theorems": [
    "Slip.C04_factors_reproduce_matrix"
   ],
   "note": ""
  },
  {
   "property": "C05",
   "status": "proved",
   "theorems": [
    "Slip.C05_L_entries_are_minors",
    "Slip.C05_U_entries_are_minors",
    "Slip.C05_L_entry_bound",
    "Slip.C05_U_entry_bound"
   ],
   "note": ""
  },
  {
   "property": "C06",
   "status": "proved",
   "theorems": [
    "Slip.C06_factors_valid_triangular"
   ],
   "note": ""
  },
  {
   "property": "C07",
   "status": "proved",
   "theorems": [
    "Slip.C07_pinv_is_permutation",
    "Slip.C07_permutation_invariant"
   ],
   "note": ""
  },
  {
   "property": "C08",
   "status": "proved",
   "theorems": [
    "Slip.C08_factorize_safe",
    "Slip.C08_solve_empty_refuted",
    "Slip.C08_nan_tolerance_refuted",
    "Slip.C08_small_estimate_refuted",
    "Slip.C08_solve_safe"
   ],
   "note": "for n >= 1 (solve) and finite tolerances; the excluded cases are refuted by C08_solve_empty_refuted, C08_nan_tolerance_refuted, C08_small_estimate_refuted"
  },
  {
   "property": "C09",
   "status": "proved",
   "theorems": [
    "Slip.C09_pattern_is_reachable_set",
    "Slip.C09_pattern_in_factorization"
   ],
   "note": ""
  },
  {
   "property": "C10",
   "status": "proved",
   "theorems": [
    "Slip.C10_search_terminates_and_restores"
   ],
   "note": "fuel is 2n+1 iterations per starting node"
  },
  {
   "property": "C11",
   "status": "proved",
   "theorems": [
    "Slip.C11_workspace_irrelevant",
    "Slip.C11_any_two_runs_agree",
    "Slip.C11_workspace_any"
   ],
   "note": "factorization with explicit memory contents; the solve phase obtains no uninitialised memory (calloc / initialised entries only)"
  },
  {
   "property": "C12",
   "status": "proved",
   "theorems": [
    "Slip.C12_solution_independent"
   ],
   "note": ""
  },
  {
   "property": "C13",
   "status": "proved",
   "theorems": [
    "Slip.C13_columns_independent",
    "Slip.C13_one_at_a_time"
   ],
   "note": ""
  },
  {
   "property": "C14",
   "status": "proved",
   "theorems": [
    "Slip.C14_checked_any_factors",
    "Slip.C14_check_exact",
    "Slip.C14_solve_never_incorrect"
   ],
   "note": "C14_checked_any_factors: for arbitrary factors"
  },
  {
   "property": "C15",
   "status": "proved",
   "theorems": [
    "Slip.C15_pivot_policy",
    "Slip.C15_first_nonzero",
    "Slip.C15_tol_largest_negative_refuted"
   ],
   "note": "TOL_LARGEST with a negative largest entry is excluded: refuted by C15_tol_largest_negative_refuted"
  },
  {
   "property": "C16",
   "status": "proved",
   "theorems": [
    "Slip.C16_search_singular_iff"
   ],
   "note": ""
  },
  {
   "property": "C17",
   "status": "proved",
   "theorems": [
    "Slip.C17_analysis_usable",
    "Slip.C17_analysis_rounded",
    "Slip.C17_amd_failure_refuted",
    "Slip.C17_amd_empty_refuted"
   ],
   "note": "for AMD: if its allocations succeed and n > 0 (AmdOk); AMD and COLAMD are in the model (C43, C41). Failure codes are ignored by the code, see C17_amd_failure_refuted, C17_amd_empty_refuted. C17_analysis_rounded: the same with the estimates computed in double"
  },
  {
   "property": "C18",
   "status": "proved",
   "theorems": [
    "Slip.C18_scaling"
   ],
   "note": ""
  },
  {
   "property": "C19",
   "status": "proved",
   "theorems": [
    "Slip.C19_copy_exact",
    "Slip.C19_dense_to_triplet_refuted",
    "Slip.C19_scale_lost_refuted",
    "Slip.C19_int64_to_mpq_refuted",
    "Slip.C19_mpfr_dense_refuted",
    "Slip.C19_empty_scale_refuted"
   ],
   "note": "all nine kind conversions, all type conversions that are exact (ExactConv, KindOk); five refutations for the excluded cases"
  },
  {
   "property": "C20",
   "status": "proved",
   "theorems": [
    "Slip.C20_triplet_to_csc",
    "Slip.C20_csc_to_triplet",
    "Slip.C20_roundtrip"
   ],
   "note": ""
  },
  {
   "property": "C21",
   "status": "proved",
   "theorems": [
    "Slip.C21_mpq_exact"
   ],
   "note": ""
  },
  {
   "property": "C22",
   "status": "proved",
   "theorems": [
    "Slip.C22_rounding",
    "Slip.C22_double",
    "Slip.C22_mpfr",
    "Slip.C22_double_general",
    "Slip.C22_all_zero_refuted",
    "Slip.C22_negative_scale_refuted",
    "Slip.C22_tiny_and_nan_vanish"
   ],
   "note": "with the exceptions stated in the property, which are refuted with witnesses; C22_double_general covers every precision and rounding mode"
  },
  {
   "property": "C23",
   "status": "proved",
   "theorems": [
    "Slip.C23_check_exact",
    "Slip.C23_check_null",
    "Slip.C23_ok_valid",
    "Slip.C23_ok_solver_input",
    "Slip.C23_nzmax_refuted",
    "Slip.C23_no_room_refuted"
   ],
   "note": "for nzmax >= 1; the checker does not compare p[n] with nzmax and skips p[0] when nzmax = 0: C23_nzmax_refuted, C23_no_room_refuted. qsort is a parameter with its C-library contract (QsortOk)"
  },
  {
   "property": "C24",
   "status": "proved",
   "theorems": [
    "Slip.C24_nnz",
    "Slip.C24_nnz_bounds_nonzeros"
   ],
   "note": ""
  },
  {
   "property": "C25",
   "status": "proved",
   "theorems": [
    "Slip.C25_cumsum"
   ],
   "note": ""
  },
  {
   "property": "C26",
   "status": "proved",
   "theorems": [
    "Slip.Mem.C26_allocate",
    "Slip.Mem.C26_allocate_invalid",
    "Slip.Mem.C26_free",
    "Slip.Mem.C26_allocate_free",
    "Slip.Mem.C26_out_of_memory_refuted"
   ],
   "note": "all failure points, all GMP behaviours; the documented error code on failure of an array is refuted by C26_out_of_memory_refuted"
  },
  {
   "property": "C27",
   "status": "proved",
   "theorems": [
    "Slip.Mem.C27_alternate",
    "Slip.Mem.C27_protocol",
    "Slip.Mem.C27_free_unguarded_refuted",
    "Slip.Mem.C27_gmp_unguarded_refuted",
    "Slip.Mem.C27_uninitialised",
    "Slip.Mem.C27_uninitialised_memory"
   ],
   "note": "for the functions that test the flag; the literal claim for every user-callable function is refuted for SLIP_FREE and the wrapped GMP functions (C27_free_unguarded_refuted, C27_gmp_unguarded_refuted)"
  },
  {
   "property": "C28",
   "status": "proved",
   "theorems": [
    "Slip.Mem.C28_list_exact",
    "Slip.Mem.C28_failure",
    "Slip.Mem.C28_no_leak",
    "Slip.Mem.C28_archive_cleared",
    "Slip.Mem.C28_history",
    "Slip.Mem.C28_unarchived_refuted",
    "Slip.Mem.C28_old_block_leak_refuted"
   ],
   "note": "for wrappers which archive their object; the wrappers which do not (SLIP_gmp_fscanf, SLIP_mpfr_asprintf) are refuted by C28_unarchived_refuted; 'no leak' of blocks the object had before the call needs the GMP function not to hold such a block outside its object while it allocates: C28_old_block_leak_refuted shows why"
  },
  {
   "property": "C29",
   "status": "proved",
   "theorems": [
    "Slip.Mem.C29_overflow_test_sound",
    "Slip.Mem.C29_realloc",
    "Slip.Mem.C29_realloc_null",
    "Slip.Mem.C29_realloc_uninitialised",
    "Slip.Mem.C29_malloc",
    "Slip.Mem.C29_calloc",
    "Slip.Mem.C29_free"
   ],
   "note": ""
  },
  {
   "property": "C30",
   "status": "proved",
   "theorems": [
    "Slip.Mem.C30_analyze",
    "Slip.Mem.C30_factorize",
    "Slip.Mem.C30_solve",
    "Slip.Mem.C30_backslash",
    "Slip.Mem.C30_amd_refuted",
    "Slip.Mem.C30_copy",
    "Slip.Mem.C30_copy_scale_refuted",
    "Slip.Mem.C30_copy_zeros_refuted",
    "Slip.Mem.C30_history",
    "Slip.Mem.C30_history_no_amd",
    "Slip.Mem.C30_amd_history_refuted"
   ],
   "note": "'a refused request gives an error status' holds for analyze, factorize, solve, backslash and the Clean copies; for the other copies it is refuted by C30_copy_scale_refuted and C30_copy_zeros_refuted (there: no leak, no double free) For AMD the property fails: the status of AMD is ignored, so a refused request inside AMD gives SLIP_OK and undefined behaviour in the factorization; the theorems state this as the only exception (C30_amd_refuted, C30_amd_history_refuted) and C30_history_no_amd has no exception."
  },
  {
   "property": "C31",
   "status": "proved",
   "theorems": [
    "Slip.C31_double_to_int64",
    "Slip.C31_two_pow_63_refuted"
   ],
   "note": "except at 2^63, refuted"
  },
  {
   "property": "C32",
   "status": "proved",
   "theorems": [
    "Slip.C32_null_options_are_defaults"
   ],
   "note": ""
  },
  {
   "property": "C33",
   "status": "proved",
   "theorems": [
    "Slip.C33_permute_b",
    "Slip.C33_permute_x"
   ],
   "note": ""
  },
  {
   "property": "C34",
   "status": "proved",
   "theorems": [
    "Slip.C34_analyze",
    "Slip.C34_factorize",
    "Slip.C34_solve",
    "Slip.C34_backslash",
    "Slip.C34_backslash_rows",
    "Slip.C34_factorize_not_square_refuted",
    "Slip.C34_copy",
    "Slip.C34_copy_handle",
    "Slip.C34_analyze_null_pointer_refuted"
   ],
   "note": ""
  },
  {
   "property": "C35",
   "status": "proved",
   "theorems": [
    "Slip.C35_backslash_mpq",
    "Slip.C35_backslash_fp64",
    "Slip.C35_backslash_mpfr",
    "Slip.C35_backslash_singular",
    "Slip.C35_round_isFloat",
    "Slip.C35_round_nearest",
    "Slip.C35_round_directed"
   ],
   "note": ""
  },
  {
   "property": "C36",
   "status": "proved",
   "theorems": [
    "Slip.C36_convert_and_solve",
    "Slip.C36_convert_singular",
    "Slip.C36_convert_and_solve_fp64"
   ],
   "note": ""
  },
  {
   "property": "C37",
   "status": "proved",
   "theorems": [
    "Slip.C37_tripread",
    "Slip.C37_read_dense",
    "Slip.C37_example2_dims",
    "Slip.C37_example2",
    "Slip.C37_sliplu_dims",
    "Slip.C37_sliplu",
    "Slip.C37_single_entry_refuted",
    "Slip.C37_matrix_market_refuted",
    "Slip.C37_negative_nz_refuted",
    "Slip.C37_index_range_refuted",
    "Slip.C37_tripread_double_refuted",
    "Slip.C37_readers_null",
    "Slip.C37_tripread_truncated",
    "Slip.C37_truncated_refuted",
    "Slip.C37_read_dense_truncated",
    "Slip.C37_example"
   ],
   "note": "Counterexamples to the documentation (single-entry files, Matrix Market files, unchecked indices, SLIP_tripread_double) are the theorems ending in _refuted."
  },
  {
   "property": "C38",
   "status": "proved",
   "theorems": [
    "Slip.C38_command_line",
    "Slip.C38_main",
    "Slip.C38_documented_refuted",
    "Slip.C38_default_pivot_refuted"
   ],
   "note": "Items documented but not supported are in C38_documented_refuted."
  },
  {
   "property": "C39",
   "status": "proved",
   "theorems": [
    "Slip.C39_solution",
    "Slip.C39_singular",
    "Slip.C39_rejects",
    "Slip.C39_no_options_refuted",
    "Slip.C39_big_refuted",
    "Slip.C39_inexact_refuted"
   ],
   "note": "Precondition MxExact/OptionsTyped; behaviour outside it is in the theorems ending in _refuted."
  },
  {
   "property": "C40",
   "status": "proved",
   "theorems": [
    "Slip.C40_options",
    "Slip.C40_numeric_solution_refuted",
    "Slip.C40_nan_tol_refuted"
   ],
   "note": "Precondition OptionsTyped; behaviour outside it is in the theorems ending in _refuted."
  },
  {
   "property": "C41",
   "status": "proved",
   "theorems": [
    "Slip.Colamd.C41_permutation",
    "Slip.Colamd.C41_reject",
    "Slip.Colamd.C41_permutation64",
    "Slip.Colamd.C41_reject64",
    "Slip.Colamd.C41_reject_overflow_refuted",
    "Slip.Colamd.C41_duplicates_refuted"
   ],
   "note": "Also with 64-bit integers (C41_permutation64, C41_reject64). The documented support for duplicates does not hold: C41_duplicates_refuted; a difference of two pointers that does not fit in 64 bits: C41_reject_overflow_refuted."
  },
  {
   "property": "C42",
   "status": "proved",
   "theorems": [
    "Slip.C42_entries_rounded",
    "Slip.C42_type_then_kind"
   ],
   "note": "GMP/MPFR/compiler roundings to double are parameters (Fp.Rounds); excluded: an unscaled MPZ integer outside int64 (C31), a double equal to 2^63 (undefined, finding on C31). For a change of kind the source type must differ from the target type."
  },
  {
   "property": "C43",
   "status": "proved",
   "theorems": [
    "Slip.Amd.C43_permutation",
    "Slip.Amd.C43_out_of_memory",
    "Slip.Amd.C43_no_overflow",
    "Slip.Amd.C43_permutation64",
    "Slip.Amd.C43_reject",
    "Slip.Amd.C43_reject64",
    "Slip.Amd.C43_negative",
    "Slip.Amd.C43_empty",
    "Slip.Amd.C43_unsafe_refuted"
   ],
   "note": "Also with 64-bit integers (C43_no_overflow, C43_permutation64, C43_reject64). The dense threshold (floating point) is arbitrary. AMD_INVALID for every invalid input does not hold: C43_unsafe_refuted."
  },
  {
   "property": "C44",
   "status": "proved",
   "theorems": [
    "Slip.C44_L_entries",
    "Slip.C44_U_entries",
    "Slip.C44_pivots",
    "Slip.C44_L_size",
    "Slip.C44_U_size",
    "Slip.C44_solution",
    "Slip.C44_factorize_integers",
    "Slip.C44_solve_integers",
    "Slip.C44_integers_size"
   ],
   "note": "The integers returned, and every integer stored on the way by the model with a size limit (Model/Sized.lean), whose agreement with the model without is proved. The mpq quotients and the optional check of the solution are bounded through C44_solution only."
  },
  {
   "property": "C45",
   "status": "proved",
   "theorems": [
    "Slip.C45_valid",
    "Slip.C45_allocated",
    "Slip.C45_copy",
    "Slip.C45_copy_rounded",
    "Slip.C45_factors",
    "Slip.C45_solution",
    "Slip.C45_backslash",
    "Slip.C45_dense_to_triplet_refuted"
   ],
   "note": "Exception (copying a dense matrix with zeros to triplet form) shown by C45_dense_to_triplet_refuted, finding of C19."
  },
  {
   "property": "C46",
   "status": "proved",
   "theorems": [
    "Slip.C46_pipeline_rounded",
    "Slip.C46_analyze",
    "Slip.C46_factorize",
    "Slip.C46_solve",
    "Slip.C46_pipeline",
    "Slip.C46_dense_size_refuted",
    "Slip.C46_copy",
    "Slip.C46_copy_exact",
    "Slip.C46_backslash",
    "Slip.C46_copy_size_refuted",
    "Slip.C46_check",
    "Slip.C46_check_exact",
    "Slip.C46_check_size_refuted",
    "Slip.C46_tripread",
    "Slip.C46_read_dense",
    "Slip.C46_read_dense_size_refuted",
    "Slip.C46_example2",
    "Slip.C46_sliplu",
    "Slip.C46_example",
    "Slip.C46_matlab_solution",
    "Slip.C46_matlab_singular",
    "Slip.C46_matlab_rejects"
   ],
   "note": "analyze (with COLAMD and AMD), factorize, solve, copy, backslash, check, the file readers and the demo programs. The missing guard of SLIP_matrix_allocate is shown by C46_dense_size_refuted, C46_copy_size_refuted, C46_check_size_refuted and C46_read_dense_size_refuted. C46_pipeline_rounded: with the double arithmetic of the analysis. The MATLAB interface: `C46_matlab_solution`, `C46_matlab_singular`, `C46_matlab_rejects` are the statements of C39 for the 64-bit model with the state of the library and the checks that the print level asks for, for n \u2264 2^29 and n*k \u2264 2^59."
  },
  {
   "property": "C47",
   "status": "proved",
   "theorems": [
    "Slip.C47_factors_independent_of_storage",
    "Slip.C47_solution_independent_of_storage"
   ],
   "note": "identical arrays for the same entries in any order; equal solutions for any two representations of one matrix."
  },
  {
   "property": "C48",
   "status": "proved",
   "theorems": [
    "Slip.C48_factorize_same",
    "Slip.C48_factorize_ops",
    "Slip.C48_factorize_iterations",
    "Slip.C48_factorize_storage",
    "Slip.C48_factorize_cubic",
    "Slip.C48_solve_same",
    "Slip.C48_solve_ops",
    "Slip.C48_solve_iterations"
   ],
   "note": "On copies of the two phases with a counter (Model/Cost.lean, Model/CostApi.lean); C48_*_same prove that they return what the functions of the model return. What qsort, realloc and the allocation and release of the workspace do inside is not counted; neither is the size of the operands (C44)."
  },
  {
   "property": "C49",
   "status": "proved",
   "theorems": [
    "Slip.Store.C49_analyze",
    "Slip.Store.C49_analyze_new",
    "Slip.Store.C49_factorize",
    "Slip.Store.C49_factorize_new",
    "Slip.Store.C49_solve",
    "Slip.Store.C49_solve_new",
    "Slip.Store.C49_backslash",
    "Slip.Store.C49_backslash_sharing",
    "Slip.Store.C49_solve_sequence",
    "Slip.Store.C49_matrix_free"
   ],
   "note": "On a transcription of the whole pipeline in which matrices hold references into a heap of arrays (Model/Store.lean, Model/StoreApi.lean); C49_* relate it, for every sharing of the arguments, to the functions on values that the other properties are about. AMD, COLAMD and SLIP_matrix_copy are called on values; what COLAMD leaves in its private workspace is not modelled (the array is unreadable afterwards)."
  },
  {
   "property": "C50",
   "status": "proved",
   "theorems": [
    "Slip.C50_levels",
    "Slip.C50_status",
    "Slip.C50_output",
    "Slip.C50_quiet_levels",
    "Slip.C50_terse",
    "Slip.C50_null",
    "Slip.C50_no_memory",
    "Slip.C50_format_failure",
    "Slip.C50_format_quiet",
    "Slip.C50_stale_status_refuted"
   ],
   "note": "On a transcription with the output as a list of print calls (Model/Print.lean); the text of numbers is not modelled. C50_stale_status_refuted shows why conversions must succeed for the equality of levels."
  },
  {
   "property": "C51",
   "status": "proved",
   "theorems": [
    "Slip.Copy.C51_copy_keeps",
    "Slip.Copy.C51_copy_new",
    "Slip.Copy.C51_copy_independent",
    "Slip.Copy.C51_original_independent",
    "Slip.Copy.C51_free_local",
    "Slip.Copy.C51_free",
    "Slip.Copy.C51_free_exact"
   ],
   "note": "On a transcription of SLIP_matrix_copy and everything it calls with all arrays in a heap (Model/StoreCopy.lean), in which slip_cast_matrix really shares an array with the original. C51_copy_keeps relates it, for every sharing of the arguments, to the function on values that C19-C22 and C42 are about; on an error return the workspace stays in the heap of this model (that it is freed is C30)."
  },
  {
   "property": "C52",
   "status": "proved",
   "theorems": [
    "Slip.C52_equivalent_systems",
    "Slip.C52_renumbering",
    "Slip.C52_linear",
    "Slip.C52_recovers",
    "Slip.C52_inverse",
    "Slip.C52_rounded"
   ],
   "note": "relates two (three) complete runs of SLIP_backslash"
  },
  {
   "property": "C53",
   "status": "proved",
   "theorems": [
    "Slip.Raw.C53_solve",
    "Slip.Raw.C53_copy",
    "Slip.Raw.C53_backslash",
    "Slip.Raw.C53_lowest_terms",
    "Slip.Raw.C53_int64_refuted",
    "Slip.Raw.C53_int64_spreads"
   ],
   "note": "On a transcription in which an mpq_t is a numerator and a denominator (Model/Canon.lean) and GMP's arithmetic is undefined on operands that are not canonical. INT64 to MPQ is the exception (C53_int64_refuted, C53_int64_spreads). The quotient inside slip_get_pivot, which is not handed out, is covered by the nc parameter."
  },
  {
   "property": "C54",
   "status": "proved",
   "theorems": [
    "Slip.C54_analyze_levels",
    "Slip.C54_solve_levels",
    "Slip.C54_backslash_levels",
    "Slip.C54_ordering",
    "Slip.C54_solve_output",
    "Slip.C54_verified_true",
    "Slip.C54_backslash_output",
    "Slip.C54_backslash_singular",
    "Slip.C54_wrong_factors_reported",
    "Slip.C54_estimate_refuted"
   ],
   "note": "On a transcription with the output as a list of print statements (Model/PrintSolve.lean). Not modelled: the texts, the statistics inside AMD's and COLAMD's reports except the status and AMD_LNZ."
  },
  {
   "property": "C55",
   "status": "proved",
   "theorems": [
    "Slip.C55_finalized",
    "Slip.C55_state_irrelevant",
    "Slip.C55_history",
    "Slip.C55_session_runs"
   ],
   "note": "The state of the library (initialised or not) is carried through each call (`MexS`, Model/MatlabRun.lean). `C55_finalized`, `C55_state_irrelevant`, `C55_history`, `C55_session_runs` hold for arbitrary arguments. Memory that runs out is not part of this model (MATLAB's allocator leaves the MEX file); a call that has undefined behaviour (C39_*_refuted) is outside `C55_history`, whose hypothesis is that the session runs through."
  },
  {
   "property": "C56",
   "status": "proved",
   "theorems": [
    "Slip.C56_analyze",
    "Slip.C56_factorize",
    "Slip.C56_solve",
    "Slip.C56_backslash",
    "Slip.C56_status_final",
    "Slip.C56_enough",
    "Slip.C56_exact_or_nothing",
    "Slip.C56_singular_only_if"
   ],
   "note": "Every request of the pipeline (SLIP_malloc/calloc/realloc and each wrapped GMP call that may allocate) is made explicit in Model/Flaky.lean, together with the values computed. `C56_backslash` and the three theorems for the parts hold for all arguments and all histories. SLIP_INCORRECT_INPUT for a refused array is finding C26_out_of_memory_refuted. The copy to FP64/MPFR at the end of SLIP_backslash is that of Model/FlakyCopy.lean (C57); AMD's own requests are part of `Orderings`; the two shrinking SLIP_realloc of slip_sparse_collapse are harmless when refused (C27)."
  },
  {
   "property": "C57",
   "status": "proved",
   "theorems": [
    "Slip.C57_copy",
    "Slip.C57_copy_values",
    "Slip.C57_copy_checked",
    "Slip.C57_enough",
    "Slip.C57_scale_refuted",
    "Slip.C57_wrong_solution_refuted",
    "Slip.C57_convert_and_solve"
   ],
   "note": "Every request of SLIP_matrix_copy, slip_cast_matrix, slip_cast_array, the three expand functions and SLIP_matrix_allocate is explicit in Model/FlakyCopy.lean, together with the values computed. `C57_copy` holds for all formats and types; `C57_copy_checked` gives the full claim for CSC to CSC/triplet, triplet to triplet and dense to dense. For the other pairs the claim is false of the code: `C57_scale_refuted`, `C57_wrong_solution_refuted` (finding 21); what remains true for them is `C57_copy_values` and `C57_enough`. `C57_convert_and_solve` (with C36): converting and solving under any history gives the exact solution, a multiple of it, or an error; no multiple for CSC and dense input. The scale after a refused SLIP_mpq_set is an arbitrary number."
  },
  {
   "property": "C58",
   "status": "proved",
   "theorems": [
    "Slip.C58_solution",
    "Slip.C58_two_arguments",
    "Slip.C58_singular",
    "Slip.C58_rejects",
    "Slip.C58_finalized"
   ],
   "note": "MATLAB's own `sparse`, `isnumeric`, `vpa` are modelled as documented (numeric classes other than double are not); `F.sparse` is proved to be a valid sparse array of the same matrix. Values are those the interface takes exactly (MxExact, see C39). `C58_solution` assumes that option.digits, if present, is not text."
  },
  {
   "property": "C59",
   "status": "proved",
   "theorems": [
    "Slip.C59_numbers",
    "Slip.C59_faithful",
    "Slip.C59_matlab_strings",
    "Slip.C59_slash_refuted",
    "Slip.C59_double_refuted"
   ],
   "note": "How GMP writes %Zd and %Qd (minus sign, decimal digits, slash unless the denominator is 1) is modelled from its documentation in Model/Text.lean; reading is defined separately in SpecText.lean. `C59_faithful` assumes that conversions to text succeed (see C50) and uses the validity of C45. `C59_double_refuted` and `C59_slash_refuted` are what is not true."
  },
  {
   "property": "C60",
   "status": "proved",
   "theorems": [
    "Slip.C60_same",
    "Slip.C60_calls",
    "Slip.C60_iterations",
    "Slip.C60_storage",
    "Slip.C60_valid"
   ],
   "note": "The meter (Model/CostCopy.lean) counts calls of GMP and MPFR on entries, loop iterations (initialisations and memcpy included) and requested array elements; `C60_same` proves that the metered function returns what SLIP_matrix_copy returns, and the exact counts of 59 copies are checked in examples. Not counted: at most ten calls on scale factors outside loops, what SLIP_matrix_free and calloc do with the counted elements, the cost of one GMP operation."
  },
  {
   "property": "C61",
   "status": "proved",
   "theorems": [
    "Slip.C61_same",
    "Slip.C61_iterations",
    "Slip.C61_printed",
    "Slip.C61_storage"
   ],
   "note": "The meter (Model/CostCheck.lean) counts loop iterations, printed values and elements of the workspace; `C61_same` proves that the metered function returns what SLIP_matrix_check returns; exact counts for correct and corrupt matrices are checked in examples. Not counted: qsort, the cost of printing one value."
  }
 ]
}