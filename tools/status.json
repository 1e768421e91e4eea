{
 "C01": [
  "proved",
  ""
 ],
 "C02": [
  "proved",
  ""
 ],
 "C03": [
  "proved",
  "the documented literal claim (rhos[n-1] = det A) is refuted by C03_literal_determinant_refuted; the corrected claim (up to permutation signs) is proved"
 ],
 "C04": [
  "proved",
  ""
 ],
 "C05": [
  "proved",
  ""
 ],
 "C06": [
  "proved",
  ""
 ],
 "C07": [
  "proved",
  ""
 ],
 "C08": [
  "proved",
  "for n >= 1 (solve) and finite tolerances; the excluded cases are refuted by C08_solve_empty_refuted, C08_nan_tolerance_refuted, C08_small_estimate_refuted"
 ],
 "C09": [
  "proved",
  ""
 ],
 "C10": [
  "proved",
  "fuel is 2n+1 iterations per starting node"
 ],
 "C11": [
  "proved",
  "factorization with explicit memory contents; the solve phase obtains no uninitialised memory (calloc / initialised entries only)"
 ],
 "C12": [
  "proved",
  ""
 ],
 "C13": [
  "proved",
  ""
 ],
 "C14": [
  "proved",
  "C14_checked_any_factors: for arbitrary factors"
 ],
 "C15": [
  "proved",
  "TOL_LARGEST with a negative largest entry is excluded: refuted by C15_tol_largest_negative_refuted"
 ],
 "C16": [
  "proved",
  ""
 ],
 "C17": [
  "proved",
  "for AMD: if its allocations succeed and n > 0 (AmdOk); AMD and COLAMD are in the model (C43, C41). Failure codes are ignored by the code, see C17_amd_failure_refuted, C17_amd_empty_refuted. C17_analysis_rounded: the same with the estimates computed in double"
 ],
 "C18": [
  "proved",
  ""
 ],
 "C19": [
  "proved",
  "all nine kind conversions, all type conversions that are exact (ExactConv, KindOk); five refutations for the excluded cases"
 ],
 "C20": [
  "proved",
  ""
 ],
 "C21": [
  "proved",
  ""
 ],
 "C22": [
  "proved",
  "with the exceptions stated in the property, which are refuted with witnesses; C22_double_general covers every precision and rounding mode"
 ],
 "C23": [
  "proved",
  "for nzmax >= 1; the checker does not compare p[n] with nzmax and skips p[0] when nzmax = 0: C23_nzmax_refuted, C23_no_room_refuted. qsort is a parameter with its C-library contract (QsortOk)"
 ],
 "C24": [
  "proved",
  ""
 ],
 "C25": [
  "proved",
  ""
 ],
 "C26": [
  "proved",
  "all failure points, all GMP behaviours; the documented error code on failure of an array is refuted by C26_out_of_memory_refuted"
 ],
 "C27": [
  "proved",
  "for the functions that test the flag; the literal claim for every user-callable function is refuted for SLIP_FREE and the wrapped GMP functions (C27_free_unguarded_refuted, C27_gmp_unguarded_refuted)"
 ],
 "C28": [
  "proved",
  "for wrappers which archive their object; the wrappers which do not (SLIP_gmp_fscanf, SLIP_mpfr_asprintf) are refuted by C28_unarchived_refuted; 'no leak' of blocks the object had before the call needs the GMP function not to hold such a block outside its object while it allocates: C28_old_block_leak_refuted shows why"
 ],
 "C29": [
  "proved",
  ""
 ],
 "C30": [
  "proved",
  "'a refused request gives an error status' holds for analyze, factorize, solve, backslash and the Clean copies; for the other copies it is refuted by C30_copy_scale_refuted and C30_copy_zeros_refuted (there: no leak, no double free) For AMD the property fails: the status of AMD is ignored, so a refused request inside AMD gives SLIP_OK and undefined behaviour in the factorization; the theorems state this as the only exception (C30_amd_refuted, C30_amd_history_refuted) and C30_history_no_amd has no exception."
 ],
 "C31": [
  "proved",
  "except at 2^63, refuted"
 ],
 "C32": [
  "proved",
  ""
 ],
 "C33": [
  "proved",
  ""
 ],
 "C34": [
  "proved",
  ""
 ],
 "C35": [
  "proved",
  ""
 ],
 "C36": [
  "proved",
  ""
 ],
 "C37": [
  "proved",
  "Counterexamples to the documentation (single-entry files, Matrix Market files, unchecked indices, SLIP_tripread_double) are the theorems ending in _refuted."
 ],
 "C38": [
  "proved",
  "Items documented but not supported are in C38_documented_refuted."
 ],
 "C39": [
  "proved",
  "Precondition MxExact/OptionsTyped; behaviour outside it is in the theorems ending in _refuted."
 ],
 "C40": [
  "proved",
  "Precondition OptionsTyped; behaviour outside it is in the theorems ending in _refuted."
 ],
 "C41": [
  "proved",
  "Also with 64-bit integers (C41_permutation64, C41_reject64). The documented support for duplicates does not hold: C41_duplicates_refuted; a difference of two pointers that does not fit in 64 bits: C41_reject_overflow_refuted."
 ],
 "C42": [
  "proved",
  "GMP/MPFR/compiler roundings to double are parameters (Fp.Rounds); excluded: an unscaled MPZ integer outside int64 (C31), a double equal to 2^63 (undefined, finding on C31). For a change of kind the source type must differ from the target type."
 ],
 "C43": [
  "proved",
  "Also with 64-bit integers (C43_no_overflow, C43_permutation64, C43_reject64). The dense threshold (floating point) is arbitrary. AMD_INVALID for every invalid input does not hold: C43_unsafe_refuted."
 ],
 "C44": [
  "proved",
  "The integers returned, and every integer stored on the way by the model with a size limit (Model/Sized.lean), whose agreement with the model without is proved. The mpq quotients and the optional check of the solution are bounded through C44_solution only."
 ],
 "C45": [
  "proved",
  "Exception (copying a dense matrix with zeros to triplet form) shown by C45_dense_to_triplet_refuted, finding of C19."
 ],
 "C46": [
  "proved",
  "analyze (with COLAMD and AMD), factorize, solve, copy, backslash, check, the file readers and the demo programs. The missing guard of SLIP_matrix_allocate is shown by C46_dense_size_refuted, C46_copy_size_refuted, C46_check_size_refuted and C46_read_dense_size_refuted. C46_pipeline_rounded: with the double arithmetic of the analysis. The MATLAB interface: `C46_matlab_solution`, `C46_matlab_singular`, `C46_matlab_rejects` are the statements of C39 for the 64-bit model with the state of the library and the checks that the print level asks for, for n ≤ 2^29 and n*k ≤ 2^59."
 ],
 "C47": [
  "proved",
  "identical arrays for the same entries in any order; equal solutions for any two representations of one matrix."
 ],
 "C48": [
  "proved",
  "On copies of the two phases with a counter (Model/Cost.lean, Model/CostApi.lean); C48_*_same prove that they return what the functions of the model return. What qsort, realloc and the allocation and release of the workspace do inside is not counted; neither is the size of the operands (C44)."
 ],
 "C49": [
  "proved",
  "On a transcription of the whole pipeline in which matrices hold references into a heap of arrays (Model/Store.lean, Model/StoreApi.lean); C49_* relate it, for every sharing of the arguments, to the functions on values that the other properties are about. AMD, COLAMD and SLIP_matrix_copy are called on values; what COLAMD leaves in its private workspace is not modelled (the array is unreadable afterwards)."
 ],
 "C50": [
  "proved",
  "On a transcription with the output as a list of print calls (Model/Print.lean); the text of numbers is not modelled. C50_stale_status_refuted shows why conversions must succeed for the equality of levels."
 ],
 "C51": [
  "proved",
  "On a transcription of SLIP_matrix_copy and everything it calls with all arrays in a heap (Model/StoreCopy.lean), in which slip_cast_matrix really shares an array with the original. C51_copy_keeps relates it, for every sharing of the arguments, to the function on values that C19-C22 and C42 are about; on an error return the workspace stays in the heap of this model (that it is freed is C30)."
 ],
 "C52": [
  "proved",
  "relates two (three) complete runs of SLIP_backslash"
 ],
 "C53": [
  "proved",
  "On a transcription in which an mpq_t is a numerator and a denominator (Model/Canon.lean) and GMP's arithmetic is undefined on operands that are not canonical. INT64 to MPQ is the exception (C53_int64_refuted, C53_int64_spreads). The quotient inside slip_get_pivot, which is not handed out, is covered by the nc parameter."
 ],
 "C54": [
  "proved",
  "On a transcription with the output as a list of print statements (Model/PrintSolve.lean). Not modelled: the texts, the statistics inside AMD's and COLAMD's reports except the status and AMD_LNZ."
 ],
 "C55": [
  "proved",
  "The state of the library (initialised or not) is carried through each call (`MexS`, Model/MatlabRun.lean). `C55_finalized`, `C55_state_irrelevant`, `C55_history`, `C55_session_runs` hold for arbitrary arguments. Memory that runs out is not part of this model (MATLAB's allocator leaves the MEX file); a call that has undefined behaviour (C39_*_refuted) is outside `C55_history`, whose hypothesis is that the session runs through."
 ],
 "C56": [
  "proved",
  "Every request of the pipeline (SLIP_malloc/calloc/realloc and each wrapped GMP call that may allocate) is made explicit in Model/Flaky.lean, together with the values computed. `C56_backslash` and the three theorems for the parts hold for all arguments and all histories. SLIP_INCORRECT_INPUT for a refused array is finding C26_out_of_memory_refuted. The copy to FP64/MPFR at the end of SLIP_backslash is that of Model/FlakyCopy.lean (C57); AMD's own requests are part of `Orderings`; the two shrinking SLIP_realloc of slip_sparse_collapse are harmless when refused (C27)."
 ],
 "C57": [
  "proved",
  "Every request of SLIP_matrix_copy, slip_cast_matrix, slip_cast_array, the three expand functions and SLIP_matrix_allocate is explicit in Model/FlakyCopy.lean, together with the values computed. `C57_copy` holds for all formats and types; `C57_copy_checked` gives the full claim for CSC to CSC/triplet, triplet to triplet and dense to dense. For the other pairs the claim is false of the code: `C57_scale_refuted`, `C57_wrong_solution_refuted` (finding 21); what remains true for them is `C57_copy_values` and `C57_enough`. `C57_convert_and_solve` (with C36): converting and solving under any history gives the exact solution, a multiple of it, or an error; no multiple for CSC and dense input. The scale after a refused SLIP_mpq_set is an arbitrary number."
 ],
 "C58": [
  "proved",
  "MATLAB's own `sparse`, `isnumeric`, `vpa` are modelled as documented (numeric classes other than double are not); `F.sparse` is proved to be a valid sparse array of the same matrix. Values are those the interface takes exactly (MxExact, see C39). `C58_solution` assumes that option.digits, if present, is not text."
 ],
 "C59": [
  "proved",
  "How GMP writes %Zd and %Qd (minus sign, decimal digits, slash unless the denominator is 1) is modelled from its documentation in Model/Text.lean; reading is defined separately in SpecText.lean. `C59_faithful` assumes that conversions to text succeed (see C50) and uses the validity of C45. `C59_double_refuted` and `C59_slash_refuted` are what is not true."
 ],
 "C60": [
  "proved",
  "The meter (Model/CostCopy.lean) counts calls of GMP and MPFR on entries, loop iterations (initialisations and memcpy included) and requested array elements; `C60_same` proves that the metered function returns what SLIP_matrix_copy returns, and the exact counts of 59 copies are checked in examples. Not counted: at most ten calls on scale factors outside loops, what SLIP_matrix_free and calloc do with the counted elements, the cost of one GMP operation."
 ],
 "C61": [
  "proved",
  "The meter (Model/CostCheck.lean) counts loop iterations, printed values and elements of the workspace; `C61_same` proves that the metered function returns what SLIP_matrix_check returns; exact counts for correct and corrupt matrices are checked in examples. Not counted: qsort, the cost of printing one value."
 ]
}