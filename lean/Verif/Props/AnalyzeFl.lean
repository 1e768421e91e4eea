import Verif.Proof.AnalyzeFl
import Verif.Props.Machine

/-!
# SLIP_LU_analyze with rounded `double` arithmetic (C17, C46)

`SLIP_LU_analyzeFl D` computes the estimates of `nnz(L)` and `nnz(U)` in floating point, as the C code does,
and everything else in checked 64-bit arithmetic. `D.Ok` says that `D` is IEEE double precision as far as it
matters here; `rnd53_ok` shows that rounding to 53 bits is an instance.
-/

namespace Slip

/-- C17 with floating-point estimates: the analysis of a valid square CSC matrix with at most `2^29` columns
succeeds without overflow, `q` is a permutation of `0..n-1`, the estimates are at least `n` and at most
`n² (1 + 2^-50)`; and it returns exactly what the model without rounding returns if `n² ≤ 2^52` - the
permutation in any case. -/
theorem C17_analysis_rounded {D : Doubles} (hD : D.Ok) {O : Orderings} {opt : Option Options} {n : ℕ}
    (hO : AmdOk O opt n) (hn29 : (n : ℤ) ≤ 2 ^ 29) {A : Mat} (hk : A.kind = .csc) (hm : A.m = n) (hn : A.n = n)
    (hp : IsPattern n (deref A.p) (deref A.i)) (hi : A.i ≠ none) (S0 : Option Analysis) :
    ∃ S S', SLIP_LU_analyzeFl D O true (some S0) (some A) opt = .ok (.ok, some (some S)) ∧
      SLIP_LU_analyze O true (some S0) (some A) opt = .ok (.ok, some (some S')) ∧
      S.q = S'.q ∧ (∃ τ : Equiv.Perm (Fin n), Holds S.q τ) ∧ S.lnz = S.unz ∧ (n : ℤ) ≤ S.lnz ∧
      (S.lnz - n * n) * 2 ^ 50 ≤ n * n ∧ ((n : ℤ) * n ≤ 2 ^ 52 → S = S') := by
  obtain ⟨q, nz, nz', e1, e2, h0, h1, h2, h3⟩ := analyzeOrderFl_spec hD hO hn29 hk hn hp hi
  obtain ⟨v, e3, v1, v2, v3⟩ := clampFl_spec hD (n := n) (by omega) hn29 h0 h1
  obtain ⟨S'', e4, hS, -⟩ := analyzeBody_spec hO hk hn hp hi
  rw [e2] at e4
  cases e4
  refine ⟨⟨q, v, v⟩, ⟨q, (clampNnz n nz nz).1, (clampNnz n nz nz).2⟩, ?_, ?_, rfl, hS.perm, rfl, v1, v2, ?_⟩
  · unfold SLIP_LU_analyzeFl analyzeBodyFl
    simp only [Bool.not_true, Bool.false_eq_true, if_false, hk, ne_eq, not_true_eq_false,
      reduceCtorEq, false_or, hm, hn, e1, e3, ok_bind]
    rfl
  · unfold SLIP_LU_analyze
    simp only [Bool.not_true, Bool.false_eq_true, if_false, hk, ne_eq, not_true_eq_false,
      reduceCtorEq, false_or, hm, hn, e2, ok_bind]
    rfl
  · intro hs
    have hz : nz' = nz := by
      by_cases ho : optOrder opt = .amd
      · have := h3 ho
        rw [show (n : ℤ) * (n - 1) = n * n - n by ring] at this
        exact h2 (.inl (by omega))
      · exact h2 (.inr ho)
    rw [← hz, v3 hs]

example := C17_analysis_rounded rnd53_ok (Ex.orderings_ok none) (A := Ex.A) (by norm_num) rfl rfl rfl
  Ex.A_csc.pattern Ex.A_csc.idx none

/-- C46 with floating-point estimates, the whole pipeline: for a nonsingular matrix with at most `2^29` rows,
and a right-hand side with at most `2^60` entries, analyze, factorize and solve in 64-bit and `double`
arithmetic all succeed, and the result is the exact solution. -/
theorem C46_pipeline_rounded {D : Doubles} (hD : D.Ok) {nc : Int → Int → ℚ → Bool} {n k : ℕ} {A b : Mat}
    {O : Orderings} {o₁ o₂ o₃ : Option Options} (hO : AmdOk O o₁ n) (hA : IsCsc n A)
    (hb : IsDenseZ n k b) (hn0 : 0 < n) (hsA : A.scale ≠ 0) (hsb : b.scale ≠ 0) (ht : TolOk o₂)
    (hd : (A.matrix n).det ≠ 0) (hn : (n : ℤ) ≤ 2 ^ 29) (hnk : (n : ℤ) * k ≤ 2 ^ 60) :
    ∃ S L U R pinv x,
      SLIP_LU_analyzeFl D O true (some none) (some A) o₁ = .ok (.ok, some (some S)) ∧
      SLIP_LU_factorize64 nc true (some none) (some none) (some none) (some none) (some A) (some S) o₂ =
        .ok ⟨.ok, some (some L), some (some U), some (some R), some (some pinv)⟩ ∧
      SLIP_LU_solve64 true (some none) (some b) (some A) (some L) (some U) (some R) (some S) (some pinv) o₃ =
        .ok (.ok, some (some x)) ∧ IsDenseQ n k x ∧
      unscale (A.matrix n) A.scale * x.denseQ n k = unscale (b.denseZ n k) b.scale := by
  obtain ⟨S, -, e, -, -, hτ, h1, h2, h3, -⟩ :=
    C17_analysis_rounded hD hO hn hA.kind hA.rows hA.cols hA.pattern hA.idx none
  have hS : IsAnalysis n S := ⟨hτ, h2, h1 ▸ h2⟩
  have hnn : (n : ℤ) * n ≤ 2 ^ 58 := by nlinarith
  obtain ⟨L, U, R, pinv, x, hf, hx⟩ := C01_solve_succeeds (nc := nc) (opt' := o₃) hA hS ht hd hn0 hb hsb
  obtain ⟨h4, h5⟩ := C01_solution_exact hA hS ht hf hn0 hb hsA hsb hx
  refine ⟨S, L, U, R, pinv, x, e, ?_, ?_, h4, h5⟩
  · rw [(C46_factorize hA hS ht hn (by omega) (by omega) none none none none).1]; exact hf
  · rw [(C46_solve hA hS ht hf hn0 hb hsb hn (by omega) (by omega) hnk none).1]; exact hx

example := C46_pipeline_rounded rnd53_ok (Ex.orderings_ok none) (nc := Ex.nc) (o₁ := none) (o₂ := none)
  (o₃ := none) Ex.A_csc Ex.b_dense (by decide) Ex.scale_ne.1 Ex.scale_ne.2 Ex.tol_ok
  (by rw [Ex.A_det]; decide) (by norm_num) (by norm_num)

end Slip
