import Verif.Proof.SizedBound
import Verif.Model.SizedApi

/-!
# C44: the integers in the workspace

The factors and the solution are bounded by `Verif/Props/Growth.lean`. Here: the same for every integer that
the two phases store on the way. The model with a limit (`Verif/Model/Sized.lean`) fails as soon as it would
store an integer that does not fit; the theorems say that with the limit below it is the model without.
-/

namespace Slip

open Finset

/-- The product of the squared euclidean lengths of the columns that are not zero. -/
def colsSq {n : ℕ} (M : Matrix (Fin n) (Fin n) ℤ) : ℤ := ∏ c, max 1 (colSq M c)

variable {n k : ℕ} {nc : Int → Int → ℚ → Bool} {opt : Option Options} {A b L U R : Mat} {S : Analysis}
  {pinv : Arr Int}

theorem colP_eq : colP A.entry n = colsSq (A.matrix n) := by
  unfold colP colsSq
  rw [Finset.prod_range]
  refine Finset.prod_congr rfl fun l _ => ?_
  unfold colQ colSq
  rw [Finset.sum_range]
  rfl

theorem factorizeB_tol {fits : Int → Bool} {order : Pivot} {tol tol' : Dbl} (h : ¬ Pivot.usesTol order) :
    factorizeB fits nc order tol = factorizeB fits nc order tol' := by
  have : factStepB fits nc order tol = factStepB fits nc order tol' := by
    funext A q k s
    unfold factStepB
    rw [slip_get_pivot_tol h]
  funext A q lnz unz
  unfold factorizeB
  rw [this]

theorem exists_fin_tolB (h : TolOk opt) (nc) (fits : Int → Bool) :
    ∃ t : ℚ, factorize nc (optPivot opt) (optTol opt) = factorize nc (optPivot opt) (.fin t) ∧
      factorizeB fits nc (optPivot opt) (optTol opt) = factorizeB fits nc (optPivot opt) (.fin t) := by
  by_cases hu : (optPivot opt).usesTol
  · obtain ⟨t, ht⟩ := h hu
    exact ⟨t, by rw [ht], by rw [ht]⟩
  · exact ⟨0, factorize_tol hu, factorizeB_tol hu⟩

theorem SLIP_LU_factorizeB_eq {fits : Int → Bool} (hA : IsCsc n A) (l u rh : Option Mat)
    (pv : Option (Arr Int)) :
    SLIP_LU_factorizeB fits nc true (some l) (some u) (some rh) (some pv) (some A) (some S) opt =
      factWrap A.n (factorizeB fits nc (optPivot opt) (optTol opt) A.toCsc S.q S.lnz S.unz) := by
  obtain ⟨z, hz, hz0, -⟩ := hA.nnz
  unfold SLIP_LU_factorizeB
  simp only [Bool.not_true, Bool.false_eq_true, if_false, hA.kind, hA.type, ne_eq,
    not_true_eq_false, hz, ok_bind, reduceCtorEq, false_or]
  rw [if_neg (by omega)]

theorem SLIP_LU_solveB_eq {fits : Int → Bool} {F : Factors}
    (hA : IsCsc n A) (hb : IsDenseZ n k b) (hL : F.L.m = n ∧ F.L.n = n)
    (hU : F.U.m = n ∧ F.U.n = n) (x : Option Mat) :
    SLIP_LU_solveB fits true (some x) (some b) (some A) (some (Mat.ofCsc F.L)) (some (Mat.ofCsc F.U))
      (some (Mat.ofDenseZ A.n 1 (max A.n 1) F.rhos)) (some S) (some F.pinv) opt =
    solveWrap (luSolveB fits A.toCsc A.scale b.toDense b.scale F S.q (optCheck opt)) := by
  unfold SLIP_LU_solveB
  have e1 : requireFails (some b) .dense .mpz = false := by
    simp [requireFails, hb.kind, hb.type]
  have e2 : requireFails (some A) .csc .mpz = false := by
    simp [requireFails, hA.kind, hA.type]
  have e3 : ∀ M, requireFails (some (Mat.ofCsc M)) .csc .mpz = false := by
    simp [requireFails, Mat.ofCsc]
  have e4 : ∀ a b c d, requireFails (some (Mat.ofDenseZ a b c d)) .dense .mpz = false := by
    simp [requireFails, Mat.ofDenseZ]
  simp only [e1, e2, e3, e4, Bool.not_true, Bool.false_eq_true, if_false]
  rw [if_neg]
  · rfl
  · simp [Mat.ofCsc, hA.rows, hA.cols, hb.rows, hL, hU]

/-- C44: every integer that the factorization stores, including the products before they are divided, is at
most the product of the squared lengths of the columns in absolute value: if integers up to this size fit,
none is ever too large, and the limited call does exactly what the unlimited one does. This also holds when
the matrix is singular. -/
theorem C44_factorize_integers (hA : IsCsc n A) (hS : IsAnalysis n S) (ht : TolOk opt)
    {fits : Int → Bool} (hfits : ∀ v : ℤ, |v| ≤ colsSq (A.matrix n) → fits v = true)
    (l u rh : Option Mat) (pv : Option (Arr Int)) :
    SLIP_LU_factorizeB fits nc true (some l) (some u) (some rh) (some pv) (some A) (some S) opt =
      SLIP_LU_factorize nc true (some l) (some u) (some rh) (some pv) (some A) (some S) opt := by
  rw [SLIP_LU_factorizeB_eq hA, SLIP_LU_factorize_eq hA]
  obtain ⟨τ, hτ⟩ := hS.perm
  obtain ⟨c, ci, hc, hp, -⟩ := hτ.isFn
  obtain ⟨ap, hok, -⟩ := hA.aok
  obtain ⟨t, e, e'⟩ := exists_fin_tolB ht nc fits
  have hf : ∀ v : ℤ, v ^ 2 ≤ colP A.entry n ^ 2 → fits v = true := by
    intro v hv
    rw [colP_eq] at hv
    refine hfits v (abs_le_of_sq_le_sq hv ?_)
    have := one_le_colP (A := A.entry) (n := n)
    rw [colP_eq] at this
    omega
  rw [e, e', factorizeB_eq hok hA.cols hc hp.rlt (fun t ht u hu e => by
      rw [← hp.pr t ht, ← hp.pr u hu, e]) hS.lnz hS.unz
    fun k hk r hr => sizeOk_fact hf hp hr hk]

/-- C44: every integer that the solve stores before the final quotients, including the products before they
are divided, is at most `n` times the product of the squared lengths of the columns of `A` times the length of
the longest right-hand side. -/
theorem C44_solve_integers {opt' : Option Options} (hA : IsCsc n A) (hS : IsAnalysis n S) (ht : TolOk opt)
    (h : FactorizeOk nc opt A S L U R pinv) (hn : 0 < n) (hb : IsDenseZ n k b) {β : ℤ} (hβ1 : 1 ≤ β)
    (hβ : ∀ j, colSq (b.denseZ n k) j ≤ β) {fits : Int → Bool}
    (hfits : ∀ v : ℤ, v ^ 2 ≤ n ^ 2 * (colsSq (A.matrix n) ^ 2 * β) → fits v = true) (x0 : Option Mat) :
    SLIP_LU_solveB fits true (some x0) (some b) (some A) (some L) (some U) (some R) (some S)
        (some pinv) opt' =
      SLIP_LU_solve true (some x0) (some b) (some A) (some L) (some U) (some R) (some S)
        (some pinv) opt' := by
  obtain ⟨τ, hτ⟩ := hS.perm
  obtain ⟨F, tol, r, pi, c, ci, lp, up, hF, rfl, rfl, rfl, rfl, -⟩ := h.fact hA hτ hS.lnz hS.unz ht
  rw [SLIP_LU_solve_eq hA hb ⟨hF.ok.L.mEq, hF.ok.L.nEq⟩ ⟨hF.ok.U.mEq, hF.ok.U.nEq⟩,
    SLIP_LU_solveB_eq hA hb ⟨hF.ok.L.mEq, hF.ok.L.nEq⟩ ⟨hF.ok.U.mEq, hF.ok.U.nEq⟩,
    luSolveB_eq hn hF.ok hF.col (b := b.toDense) hb.rows hb.cols hb.isMat]
  intro j hj
  refine solveFits (β := β) hβ1 (fun v hv => hfits v (by rwa [colP_eq] at hv)) hF.ok.perm hF.col
    (hF.ok.rho.ne n (le_refl _)) hn ?_
  rw [Finset.sum_range]
  exact hβ ⟨j, hj⟩

/-- C44: the size of the bound. With at most `γ ≥ 1` nonzeros in each column, each at most `B ≥ 1` in absolute
value, it is at most `(γ B²)^n`: the length of the integers in bits is linear in `n`. -/
theorem C44_integers_size {M : Matrix (Fin n) (Fin n) ℤ} {γ : ℕ} {B : ℤ} (h1 : 1 ≤ γ) (h2 : 1 ≤ B)
    (hγ : ∀ c, (Finset.univ.filter fun i => M i c ≠ 0).card ≤ γ) (hB : ∀ i c, |M i c| ≤ B) :
    colsSq M ≤ (γ * B ^ 2) ^ n := by
  unfold colsSq
  have : ∀ c : Fin n, max 1 (colSq M c) ≤ γ * B ^ 2 := fun c => by
    refine max_le ?_ (colSq_le (hγ c) fun i => hB i c)
    exact one_le_mul_of_one_le_of_one_le (by exact_mod_cast h1) (one_le_pow₀ h2)
  refine (Finset.prod_le_prod (fun c _ => zero_le_one.trans (le_max_left _ _)) fun c _ => this c).trans ?_
  simp

/-! ## The example: all the theorems apply to it, and the limit has an effect -/

example := C44_factorize_integers (nc := Ex.nc) (fits := fun v => decide (|v| ≤ colsSq (Ex.A.matrix 3)))
  Ex.A_csc Ex.S_ok Ex.tol_ok (fun _ h => decide_eq_true h) none none none none
example := C44_solve_integers (opt' := none) (β := 100000)
  (fits := fun v => decide (v ^ 2 ≤ (3 : ℕ) ^ 2 * (colsSq (Ex.A.matrix 3) ^ 2 * 100000)))
  Ex.A_csc Ex.S_ok Ex.tol_ok Ex.factorize_ok (by decide) Ex.b_dense (by decide) (by decide +kernel)
  (fun _ h => decide_eq_true h) none
example := C44_integers_size (M := Ex.A.matrix 3) (γ := 3) (B := 6) (by decide) (by decide)
  (by decide +kernel) (by decide +kernel)

/-- With room for the entries of the matrix only, the factorization of the example fails. -/
example : (match factorizeB (fun v => decide (|v| ≤ 6)) Ex.nc .smallest (.fin 1) Ex.A.toCsc Ex.S.q Ex.S.lnz
    Ex.S.unz with | .error (.ret .outOfMemory) => true | _ => false) = true := by decide +kernel

end Slip
