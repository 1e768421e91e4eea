import Verif.Proof.Workflow

/-!
# Property C36: from matrix objects of any kind and type to the exact solution

The documented use of the library: make integer copies of `A` and `b` with `SLIP_matrix_copy`, then
call `SLIP_backslash`.
-/

namespace Slip

/-- The calls a user makes (Demo/example.c lines 100-102 and 114; the copy of `A` to CSC/MPZ, the
copy of `b` to DENSE/MPZ, then `SLIP_backslash` with the output type `t`). If a copy does not return
SLIP_OK the program stops with that status. -/
def convertAndSolve (fp : Fp) (O : Orderings) (nc : Int → Int → ℚ → Bool) (t : Ty) (A b : Mat)
    (opt : Option Options) : C (Info × Handle Mat) := do
  let (e, A') ← SLIP_matrix_copy fp true (some none) .csc .mpz (some A) opt
  if e ≠ .ok then pure (e, some none)
  else do
    let (e, b') ← SLIP_matrix_copy fp true (some none) .dense .mpz (some b) opt
    if e ≠ .ok then pure (e, some none)
    else SLIP_backslash fp O nc true (some none) t A'.join b'.join opt

section
variable {fp : Fp} {O : Orderings} {nc : Int → Int → ℚ → Bool} {opt : Option Options} {n k : ℕ}
  {A b : Mat}

/-- C36: let `A` (`n`-by-`n`, `n > 0`) and `b` (`n`-by-`k`) be valid matrix objects of any kind and
type that convert exactly to integer CSC and dense objects. If the rational matrix `A` represents is
nonsingular, the calls succeed and return the exact rational solution of `A x = b`. -/
theorem C36_convert_and_solve (hO : AmdOk O opt n) (hn : 0 < n) (ht : TolOk opt)
    (hA : Valid n n A) (hEA : ExactConv n n opt A .mpz) (hKA : KindOk n n A .csc .mpz)
    (hb : Valid n k b) (hEb : ExactConv n k opt b .mpz) (hKb : KindOk n k b .dense .mpz)
    (hd : (A.toMatrix n n).det ≠ 0) :
    ∃ x, convertAndSolve fp O nc .mpq A b opt = .ok (.ok, some (some x)) ∧ IsDenseQ n k x ∧
      A.toMatrix n n * x.denseQ n k = b.toMatrix n k := by
  obtain ⟨A', eA, hA', hsA, huA, hdA, -⟩ := copy_to_csc (fp := fp) hA hEA hKA
  obtain ⟨b', eb, hb', hsb, hub, -⟩ := copy_to_dense (fp := fp) hb hEb hKb
  obtain ⟨x, ex, hx, he⟩ := C35_backslash_mpq (fp := fp) (nc := nc) (X := none) hO hA' hb' hn hsA hsb ht
    (hdA.1 hd)
  refine ⟨x, ?_, hx, by rw [← huA, ← hub, he]⟩
  unfold convertAndSolve
  simp only [eA, ok_bind, eb, ne_eq, not_true_eq_false, if_false]
  exact ex

/-- C36, singular: if the rational matrix is singular the calls report SLIP_SINGULAR. -/
theorem C36_convert_singular (hO : AmdOk O opt n) (ht : TolOk opt)
    (hA : Valid n n A) (hEA : ExactConv n n opt A .mpz) (hKA : KindOk n n A .csc .mpz)
    (hb : Valid n k b) (hEb : ExactConv n k opt b .mpz) (hKb : KindOk n k b .dense .mpz)
    (hd : (A.toMatrix n n).det = 0) :
    convertAndSolve fp O nc .mpq A b opt = .ok (.singular, some none) := by
  obtain ⟨A', eA, hA', hsA, huA, hdA, -⟩ := copy_to_csc (fp := fp) hA hEA hKA
  obtain ⟨b', eb, hb', hsb, hub, -⟩ := copy_to_dense (fp := fp) hb hEb hKb
  have hd' : (A'.matrix n).det = 0 := by
    by_contra h
    exact hdA.2 h hd
  unfold convertAndSolve
  simp only [eA, ok_bind, eb, ne_eq, not_true_eq_false, if_false]
  exact C35_backslash_singular hO hA' hb'.kind hb'.type ht hd' (by simp)

/-- C36, output type FP64: each entry is the `double` GMP makes of the entry of the exact solution. -/
theorem C36_convert_and_solve_fp64 (hO : AmdOk O opt n) (hn : 0 < n) (ht : TolOk opt)
    (hA : Valid n n A) (hEA : ExactConv n n opt A .mpz) (hKA : KindOk n n A .csc .mpz)
    (hb : Valid n k b) (hEb : ExactConv n k opt b .mpz) (hKb : KindOk n k b .dense .mpz)
    (hd : (A.toMatrix n n).det ≠ 0) :
    ∃ (x : Matrix (Fin n) (Fin k) ℚ) (y : Mat),
      convertAndSolve fp O nc .fp64 A b opt = .ok (.ok, some (some y)) ∧
      A.toMatrix n n * x = b.toMatrix n k ∧ y.kind = .dense ∧ y.type = .fp64 ∧ y.m = n ∧ y.n = k ∧
      ∀ (i : Fin n) (j : Fin k), get y.xf ((i : ℕ) + (j : ℕ) * n : ℤ) = some (fp.mpqGetD (x i j)) := by
  obtain ⟨A', eA, hA', hsA, huA, hdA, -⟩ := copy_to_csc (fp := fp) hA hEA hKA
  obtain ⟨b', eb, hb', hsb, hub, -⟩ := copy_to_dense (fp := fp) hb hEb hKb
  obtain ⟨x, y, he, ex, h1, h2, h3, h4, -, h6⟩ := C35_backslash_fp64 (fp := fp) (nc := nc) (X := none)
    hO hA' hb' hn hsA hsb ht (hdA.1 hd)
  refine ⟨x, y, ?_, by rw [← huA, ← hub, he], h1, h2, h3, h4, h6⟩
  unfold convertAndSolve
  simp only [eA, ok_bind, eb, ne_eq, not_true_eq_false, if_false]
  exact ex

end

/-! ## A concrete case -/

namespace WorkflowEx
open CopyEx

/-- The triplet matrix `[1/2 1; 0 3]` of type MPQ. -/
def R : Mat :=
  { base 2 2 3 .triplet .mpq (.mpq [some 3, some (1/2), some 1]) 1 with
    i := some [some 1, some 0, some 0], j := some [some 1, some 0, some 1] }

/-- The dense right-hand side `[5; 6]` of type INT64. -/
def r : Mat := base 2 1 0 .dense .int64 (.int64 [some 5, some 6]) 1

theorem R_valid : Valid 2 2 R := by
  refine Or.inr (Or.inl ⟨⟨rfl, rfl, ⟨_, rfl, rfl⟩, by norm_num [R, base]⟩, rfl, by decide,
    fun t h0 h1 => ?_, fun t t' h0 h1 h0' h1' => ?_⟩)
  · simp only [R, base] at h1
    interval_cases t
    · exact ⟨⟨1, by omega, rfl⟩, ⟨1, by omega, rfl⟩, _, rfl⟩
    · exact ⟨⟨0, by omega, rfl⟩, ⟨0, by omega, rfl⟩, _, rfl⟩
    · exact ⟨⟨0, by omega, rfl⟩, ⟨1, by omega, rfl⟩, _, rfl⟩
  · simp only [R, base] at h1 h1'
    interval_cases t <;> interval_cases t' <;> decide

theorem r_valid : Valid 2 1 r := by
  refine Or.inr (Or.inr ⟨⟨rfl, rfl, ⟨_, rfl, rfl⟩, by norm_num [r, base]⟩, rfl, fun i hi j hj => ?_⟩)
  interval_cases i <;> interval_cases j <;> exact ⟨_, rfl⟩

theorem R_det : (R.toMatrix 2 2).det = 3 / 2 := by
  rw [Matrix.det_fin_two]
  simp only [Mat.toMatrix, Matrix.of_apply]
  decide +kernel

/-- `C36_convert_and_solve` applies to `R` and `r` with the default options: the solution is
`[6; 2]`. -/
example (fp : Fp) (O : Orderings) (nc : Int → Int → ℚ → Bool) :
    ∃ x, convertAndSolve fp O nc .mpq R r none = .ok (.ok, some (some x)) ∧ IsDenseQ 2 1 x ∧
      R.toMatrix 2 2 * x.denseQ 2 1 = r.toMatrix 2 1 :=
  C36_convert_and_solve (fun h => absurd h (by decide)) (by omega) (fun _ => ⟨_, rfl⟩) R_valid
    (by show SLIP_matrix_nnz true (some R) ≠ .ok 0; decide)
    ⟨fun h => (by cases h), fun h => (by cases h), fun h => (by cases h)⟩ r_valid trivial
    ⟨fun h => (by cases h), fun h => (by cases h), fun _ h => (by cases h)⟩
    (by rw [R_det]; norm_num)

end WorkflowEx
end Slip
