import Verif.Props.Factor

/-!
# Properties of the solve phase (C01, C08, C12, C13, C14, C18, C33)
-/

namespace Slip

open Finset

section
variable {nc : Int → Int → ℚ → Bool} {opt : Option Options} {n k : ℕ} {A b : Mat} {S : Analysis}
  {L U R : Mat} {pinv : Arr Int}

/-- The solve phase on the output of a factorization: it succeeds and returns the solution. -/
theorem solve_main {opt' : Option Options} (hA : IsCsc n A) (hS : IsAnalysis n S) (ht : TolOk opt)
    (h : FactorizeOk nc opt A S L U R pinv) (hn : 0 < n) (hb : IsDenseZ n k b)
    (hsb : b.scale ≠ 0) (x0 : Option Mat) :
    ∃ x, SLIP_LU_solve true (some x0) (some b) (some A) (some L) (some U) (some R) (some S)
        (some pinv) opt' = .ok (.ok, some (some x)) ∧ IsDenseQ n k x ∧
      (A.matrix n).map (Int.cast : ℤ → ℚ) * x.denseQ n k =
        (A.scale / b.scale) • (b.denseZ n k).map (Int.cast : ℤ → ℚ) := by
  obtain ⟨τ, hτ⟩ := hS.perm
  obtain ⟨F, tol, r, pi, c, ci, lp, up, hF, rfl, rfl, rfl, rfl, -⟩ := h.fact hA hτ hS.lnz hS.unz ht
  obtain ⟨ap, hok, hnd⟩ := hA.aok
  have hq : IsFn n S.q c := fun t ht => by
    have := hτ ⟨t, ht⟩
    rw [← hF.colEq ⟨t, ht⟩] at this
    exact this
  obtain ⟨x, X, e, xm, xn, xz, xl, hX, heq⟩ := luSolve_spec (sA := A.scale) hn hok hnd hF.ok hF.col hq
    (b := b.toDense) hb.rows hb.cols hb.isMat hsb (optCheck opt')
  refine ⟨Mat.ofDenseQ x, ?_, ⟨rfl, rfl, xm, xn, xz, xl, ⟨rfl, rfl, rfl, rfl⟩, ⟨rfl, rfl, rfl⟩,
    rfl, ?_⟩, ?_⟩
  · rw [SLIP_LU_solve_eq hA hb ⟨hF.ok.L.mEq, hF.ok.L.nEq⟩ ⟨hF.ok.U.mEq, hF.ok.U.nEq⟩, e]
    rfl
  · intro i hi j hj; exact ⟨_, hX i hi j hj⟩
  · ext i j
    have hx : ∀ l : Fin n, (Mat.ofDenseQ x).denseQ n k l j = X l j := by
      intro l
      have := hX l l.2 j j.2
      unfold ix2 at this
      change (get x.x _).getD 0 = _
      rw [this]; rfl
    have := heq i i.2 j j.2
    simp only [Matrix.mul_apply, Matrix.map_apply, Matrix.smul_apply, smul_eq_mul, hx]
    rw [Finset.sum_range] at this
    simp only [Mat.matrix, Matrix.of_apply, Mat.denseZ]
    rw [this]; ring

/-- C08 (solve part): on valid input the call never executes undefined behaviour (`n ≥ 1`; for
`n = 0` see `C08_solve_empty_refuted`). -/
theorem C08_solve_safe {opt' : Option Options} (hA : IsCsc n A) (hS : IsAnalysis n S)
    (ht : TolOk opt) (h : FactorizeOk nc opt A S L U R pinv) (hn : 0 < n) (hb : IsDenseZ n k b)
    (hsb : b.scale ≠ 0) (x0 : Option Mat) :
    ∃ o, SLIP_LU_solve true (some x0) (some b) (some A) (some L) (some U) (some R) (some S)
      (some pinv) opt' = .ok o := by
  obtain ⟨x, e, -⟩ := solve_main (opt' := opt') hA hS ht h hn hb hsb x0
  exact ⟨_, e⟩

example := C08_solve_safe (opt' := none) Ex.A_csc Ex.S_ok Ex.tol_ok Ex.factorize_ok (by decide)
  Ex.b_dense Ex.scale_ne.2 none

theorem SolveOk.main {opt' : Option Options} {x : Mat} (hA : IsCsc n A) (hS : IsAnalysis n S)
    (ht : TolOk opt) (h : FactorizeOk nc opt A S L U R pinv) (hn : 0 < n) (hb : IsDenseZ n k b)
    (hsb : b.scale ≠ 0) (hx : SolveOk opt' b A L U R S pinv x) :
    IsDenseQ n k x ∧
      (A.matrix n).map (Int.cast : ℤ → ℚ) * x.denseQ n k =
        (A.scale / b.scale) • (b.denseZ n k).map (Int.cast : ℤ → ℚ) := by
  obtain ⟨x', e, h1, h2⟩ := solve_main (opt' := opt') hA hS ht h hn hb hsb none
  unfold SolveOk at hx
  rw [e] at hx
  cases hx
  exact ⟨h1, h2⟩

/-- C18: the solution returned is `scale(A)/scale(b)` times the solution of the stored integer
system. -/
theorem C18_scaling {opt' : Option Options} {x : Mat} (hA : IsCsc n A) (hS : IsAnalysis n S)
    (ht : TolOk opt) (h : FactorizeOk nc opt A S L U R pinv) (hn : 0 < n) (hb : IsDenseZ n k b)
    (hsb : b.scale ≠ 0) (hx : SolveOk opt' b A L U R S pinv x) :
    (A.matrix n).map (Int.cast : ℤ → ℚ) * x.denseQ n k =
      (A.scale / b.scale) • (b.denseZ n k).map (Int.cast : ℤ → ℚ) :=
  (SolveOk.main hA hS ht h hn hb hsb hx).2

example := C18_scaling Ex.A_csc Ex.S_ok Ex.tol_ok Ex.factorize_ok (by decide)
  Ex.b_dense Ex.scale_ne.2 Ex.solve_ok

/-- C01 (correctness): any solution returned satisfies `A_true X = b_true`. -/
theorem C01_solution_exact {opt' : Option Options} {x : Mat} (hA : IsCsc n A)
    (hS : IsAnalysis n S) (ht : TolOk opt) (h : FactorizeOk nc opt A S L U R pinv) (hn : 0 < n)
    (hb : IsDenseZ n k b) (hsA : A.scale ≠ 0) (hsb : b.scale ≠ 0)
    (hx : SolveOk opt' b A L U R S pinv x) :
    IsDenseQ n k x ∧
    unscale (A.matrix n) A.scale * x.denseQ n k = unscale (b.denseZ n k) b.scale := by
  obtain ⟨h1, h2⟩ := SolveOk.main hA hS ht h hn hb hsb hx
  refine ⟨h1, ?_⟩
  ext i j
  have := congrFun (congrFun h2 i) j
  simp only [Matrix.mul_apply, Matrix.map_apply, Matrix.smul_apply, smul_eq_mul, unscale,
    Matrix.of_apply] at this ⊢
  have e : ∀ l, (A.matrix n i l : ℚ) / A.scale * x.denseQ n k l j =
      (A.matrix n i l : ℚ) * x.denseQ n k l j / A.scale := fun l => by ring
  simp only [e]
  rw [← Finset.sum_div, this]
  field_simp

example := C01_solution_exact Ex.A_csc Ex.S_ok Ex.tol_ok Ex.factorize_ok (by decide)
  Ex.b_dense Ex.scale_ne.1 Ex.scale_ne.2 Ex.solve_ok

/-- C01 (completeness): if the matrix is nonsingular, all calls succeed. -/
theorem C01_solve_succeeds {opt' : Option Options} (hA : IsCsc n A) (hS : IsAnalysis n S)
    (ht : TolOk opt) (hd : (A.matrix n).det ≠ 0) (hn : 0 < n) (hb : IsDenseZ n k b)
    (hsb : b.scale ≠ 0) :
    ∃ L U R pinv x, FactorizeOk nc opt A S L U R pinv ∧ SolveOk opt' b A L U R S pinv x := by
  obtain ⟨L, U, R, pinv, e⟩ := (C02_singular_verdict_exact (nc := nc) hA hS ht none none none none).2 hd
  obtain ⟨x, e', -⟩ := solve_main (opt' := opt') hA hS ht e hn hb hsb none
  exact ⟨L, U, R, pinv, x, e, e'⟩

example := C01_solve_succeeds (nc := Ex.nc) (opt' := none) Ex.A_csc Ex.S_ok Ex.tol_ok
  (by rw [Ex.A_det]; decide) (by decide) Ex.b_dense Ex.scale_ne.2

/-- The determinant is nonzero after a successful factorization. -/
theorem FactorizeOk.det_ne_zero (hA : IsCsc n A) (hS : IsAnalysis n S) (ht : TolOk opt)
    (h : FactorizeOk nc opt A S L U R pinv) : (A.matrix n).det ≠ 0 := by
  obtain ⟨τ, hτ⟩ := hS.perm
  obtain ⟨F, tol, r, pi, c, ci, lp, up, hF, -, -, -, -, hd⟩ := h.fact hA hτ hS.lnz hS.unz ht
  exact hd

/-- Uniqueness of the solution of a nonsingular system. -/
theorem unique_of_det {M : Matrix (Fin n) (Fin n) ℤ} (hd : M.det ≠ 0)
    {X Y : Matrix (Fin n) (Fin k) ℚ}
    (h : M.map (Int.cast : ℤ → ℚ) * X = M.map (Int.cast : ℤ → ℚ) * Y) : X = Y := by
  have hu : IsUnit (M.map (Int.cast : ℤ → ℚ)).det := by
    rw [isUnit_iff_ne_zero]
    have := (Int.castRingHom ℚ).map_det M
    simp only [RingHom.mapMatrix_apply, Int.coe_castRingHom] at this
    rw [← this]
    exact_mod_cast hd
  have h2 := congrArg (fun Z => (M.map (Int.cast : ℤ → ℚ))⁻¹ * Z) h
  simpa [← Matrix.mul_assoc, Matrix.nonsing_inv_mul _ hu] using h2

/-- C12: the solution does not depend on the column order, the pivoting scheme, the tolerance, the
storage estimates or the check option. -/
theorem C12_solution_independent {nc' : Int → Int → ℚ → Bool} {opt₁ opt₂ o₁ o₂ : Option Options}
    {S₁ S₂ : Analysis} {L₁ U₁ R₁ L₂ U₂ R₂ x₁ x₂ : Mat} {p₁ p₂ : Arr Int} (hA : IsCsc n A)
    (hS₁ : IsAnalysis n S₁) (hS₂ : IsAnalysis n S₂) (ht₁ : TolOk opt₁) (ht₂ : TolOk opt₂)
    (h₁ : FactorizeOk nc opt₁ A S₁ L₁ U₁ R₁ p₁) (h₂ : FactorizeOk nc' opt₂ A S₂ L₂ U₂ R₂ p₂)
    (hn : 0 < n) (hb : IsDenseZ n k b) (hsb : b.scale ≠ 0)
    (hx₁ : SolveOk o₁ b A L₁ U₁ R₁ S₁ p₁ x₁) (hx₂ : SolveOk o₂ b A L₂ U₂ R₂ S₂ p₂ x₂) :
    x₁.denseQ n k = x₂.denseQ n k := by
  refine unique_of_det (h₁.det_ne_zero hA hS₁ ht₁) ?_
  rw [(SolveOk.main hA hS₁ ht₁ h₁ hn hb hsb hx₁).2, (SolveOk.main hA hS₂ ht₂ h₂ hn hb hsb hx₂).2]

/- Two runs with different column orders. -/
example := C12_solution_independent Ex.A_csc Ex.S_ok Ex.S2_ok Ex.tol_ok Ex.tol_ok Ex.factorize_ok
  Ex.factorize2_ok (by decide) Ex.b_dense Ex.scale_ne.2 Ex.solve_ok Ex.solve2_ok

end

end Slip
