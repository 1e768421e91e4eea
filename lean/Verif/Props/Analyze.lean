import Verif.Proof.Analyze
import Verif.Props.Solve

/-!
# The analysis (C17) and the whole pipeline (C01)
-/

namespace Slip

/-- C17: for each ordering option the analysis of a valid square CSC matrix (values of any type)
succeeds; `q` is a permutation of `0..n-1` (the identity with SLIP_NO_ORDERING), and the estimates
lie between `n` and `n²`. If the options ask for AMD, the matrix must not be empty and AMD must find
enough memory. -/
theorem C17_analysis_usable {O : Orderings} {opt : Option Options} {n : ℕ} (hO : AmdOk O opt n) {A : Mat}
    (hk : A.kind = .csc) (hm : A.m = n) (hn : A.n = n)
    (hp : IsPattern n (deref A.p) (deref A.i)) (hi : A.i ≠ none) (S0 : Option Analysis) :
    ∃ S, SLIP_LU_analyze O true (some S0) (some A) opt = .ok (.ok, some (some S)) ∧
      (∃ τ : Equiv.Perm (Fin n), Holds S.q τ ∧ (optOrder opt = .none → τ = 1)) ∧
      (n : ℤ) ≤ S.lnz ∧ (n : ℤ) ≤ S.unz ∧ S.lnz ≤ n * n ∧ S.unz ≤ n * n := by
  obtain ⟨S, e, hS, h1, h2, h3⟩ := analyzeBody_spec hO hk hn hp hi
  refine ⟨S, ?_, ?_, hS.lnz, hS.unz, h1, h2⟩
  · unfold SLIP_LU_analyze
    simp only [Bool.not_true, Bool.false_eq_true, if_false, hk, ne_eq, not_true_eq_false,
      reduceCtorEq, false_or, hm, hn, e, ok_bind]
    rfl
  · by_cases ho : optOrder opt = .none
    · exact ⟨1, h3 ho, fun _ => rfl⟩
    · obtain ⟨τ, hτ⟩ := hS.perm
      exact ⟨τ, hτ, fun h => absurd h ho⟩

example := C17_analysis_usable (Ex.orderings_ok none) (A := Ex.A) rfl rfl rfl Ex.A_csc.pattern Ex.A_csc.idx none

/-- C01, the whole pipeline: on a valid nonsingular system, analyze, factorize and solve all
succeed, and the result is the exact solution; the options may differ from call to call. -/
theorem C01_pipeline {O : Orderings} {o₁ o₂ o₃ : Option Options}
    {n k : ℕ} (hO : AmdOk O o₁ n) {nc : Int → Int → ℚ → Bool} {A b : Mat} (hA : IsCsc n A) (hb : IsDenseZ n k b)
    (hn : 0 < n) (hsA : A.scale ≠ 0) (hsb : b.scale ≠ 0) (ht : TolOk o₂)
    (hd : (A.matrix n).det ≠ 0) :
    ∃ S L U R pinv x,
      SLIP_LU_analyze O true (some none) (some A) o₁ = .ok (.ok, some (some S)) ∧
      FactorizeOk nc o₂ A S L U R pinv ∧ SolveOk o₃ b A L U R S pinv x ∧ IsDenseQ n k x ∧
      unscale (A.matrix n) A.scale * x.denseQ n k = unscale (b.denseZ n k) b.scale := by
  obtain ⟨S, e, ⟨τ, hτ, -⟩, h1, h2, -⟩ := C17_analysis_usable hO hA.kind hA.rows hA.cols hA.pattern hA.idx none
  have hS : IsAnalysis n S := ⟨⟨τ, hτ⟩, h1, h2⟩
  obtain ⟨L, U, R, pinv, x, hf, hx⟩ := C01_solve_succeeds (nc := nc) (opt' := o₃) hA hS ht hd hn hb hsb
  obtain ⟨h3, h4⟩ := C01_solution_exact hA hS ht hf hn hb hsA hsb hx
  exact ⟨S, L, U, R, pinv, x, e, hf, hx, h3, h4⟩

example := C01_pipeline (Ex.orderings_ok none) (nc := Ex.nc) (o₁ := none) (o₂ := none) (o₃ := none) Ex.A_csc
  Ex.b_dense (by decide) Ex.scale_ne.1 Ex.scale_ne.2 Ex.tol_ok (by rw [Ex.A_det]; decide)

/-- C01, the converse reading: whenever the three calls return SLIP_OK, the result is exact. -/
theorem C01_pipeline_sound {O : Orderings} {o₁ o₂ o₃ : Option Options}
    {n k : ℕ} (hO : AmdOk O o₁ n) {nc : Int → Int → ℚ → Bool} {A b : Mat} (hA : IsCsc n A) (hb : IsDenseZ n k b)
    (hn : 0 < n) (hsA : A.scale ≠ 0) (hsb : b.scale ≠ 0) (ht : TolOk o₂)
    {S : Analysis} {L U R : Mat} {pinv : Arr Int} {x : Mat}
    (h₁ : SLIP_LU_analyze O true (some none) (some A) o₁ = .ok (.ok, some (some S)))
    (h₂ : FactorizeOk nc o₂ A S L U R pinv) (h₃ : SolveOk o₃ b A L U R S pinv x) :
    unscale (A.matrix n) A.scale * x.denseQ n k = unscale (b.denseZ n k) b.scale := by
  obtain ⟨S', e, ⟨τ, hτ, -⟩, h1, h2, -⟩ := C17_analysis_usable hO hA.kind hA.rows hA.cols hA.pattern hA.idx none
  rw [h₁] at e
  cases e
  exact (C01_solution_exact hA ⟨⟨τ, hτ⟩, h1, h2⟩ ht h₂ hn hb hsA hsb h₃).2

end Slip
