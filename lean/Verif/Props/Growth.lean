import Verif.Props.Solve
import Verif.Proof.Hadamard
import Mathlib.LinearAlgebra.Matrix.Adjugate

/-!
# C44: the size of the integers

The bound of Hadamard: the entries of the factors and the numerators and denominators of the solution are
bounded by the product of the euclidean lengths of the columns of the matrix (here squared, so that the
statements are about integers).
-/

namespace Slip

/-- The squared euclidean length of column `c`. -/
def colSq {n k : ℕ} (M : Matrix (Fin n) (Fin k) ℤ) (c : Fin k) : ℤ := ∑ i, (M i c) ^ 2

theorem colSq_nonneg {n k : ℕ} (M : Matrix (Fin n) (Fin k) ℤ) (c : Fin k) : 0 ≤ colSq M c :=
  Finset.sum_nonneg fun _ _ => sq_nonneg _

/-- With at most `γ` nonzero entries, each at most `B` in absolute value, a squared length is at most
`γ * B²`. -/
theorem colSq_le {n k : ℕ} {M : Matrix (Fin n) (Fin k) ℤ} {c : Fin k} {γ : ℕ} {B : ℤ}
    (hγ : (Finset.univ.filter fun i => M i c ≠ 0).card ≤ γ) (hB : ∀ i, |M i c| ≤ B) :
    colSq M c ≤ γ * B ^ 2 := by
  unfold colSq
  rw [← Finset.sum_filter_add_sum_filter_not Finset.univ (fun i => M i c ≠ 0),
    Finset.sum_eq_zero (s := Finset.univ.filter fun i => ¬M i c ≠ 0), add_zero]
  · calc ∑ i ∈ Finset.univ.filter (fun i => M i c ≠ 0), (M i c) ^ 2
        ≤ ∑ i ∈ Finset.univ.filter (fun i => M i c ≠ 0), B ^ 2 :=
          Finset.sum_le_sum fun i _ => by
            rw [← sq_abs]; exact pow_le_pow_left₀ (abs_nonneg _) (hB i) 2
      _ = (Finset.univ.filter fun i => M i c ≠ 0).card * B ^ 2 := by rw [Finset.sum_const]; simp
      _ ≤ γ * B ^ 2 := by
          refine mul_le_mul_of_nonneg_right ?_ (sq_nonneg _)
          exact_mod_cast hγ
  · intro i hi
    have : M i c = 0 := by simpa using hi
    rw [this]; rfl

variable {n k : ℕ} {nc : Int → Int → ℚ → Bool} {opt : Option Options} {A b L U R : Mat} {S : Analysis}
  {pinv : Arr Int}

/-- C44: the entries of column `t` of `L` are bounded by the lengths of the columns `q[0..t]`. -/
theorem C44_L_entries (hA : IsCsc n A) (hS : IsAnalysis n S) (ht : TolOk opt)
    (h : FactorizeOk nc opt A S L U R pinv) {τ : Equiv.Perm (Fin n)} (hτ : Holds S.q τ) (s t : Fin n) :
    L.entry s t ^ 2 ≤ ∏ y : Fin ((t : ℕ) + 1), colSq (A.matrix n) (τ ⟨y, by omega⟩) := by
  obtain ⟨-, σ, hσ⟩ := C07_pinv_is_permutation hA hS ht h
  rw [C05_L_entries_are_minors hA hS ht h hσ hτ s t]
  by_cases hst : (t : ℕ) ≤ s
  · refine hadamard_minor _ _ _ ?_
    refine σ.symm.injective.comp fun x y e => ?_
    by_cases hx : (x : ℕ) < t <;> by_cases hy : (y : ℕ) < t
    · rw [dif_pos hx, dif_pos hy] at e
      exact Fin.ext (congrArg (fun z : Fin n => (z : ℕ)) e)
    · rw [dif_pos hx, dif_neg hy] at e
      have := congrArg (fun z : Fin n => (z : ℕ)) e
      simp only at this
      omega
    · rw [dif_neg hx, dif_pos hy] at e
      have := congrArg (fun z : Fin n => (z : ℕ)) e
      simp only at this
      omega
    · exact Fin.ext (by omega)
  · rw [Matrix.det_zero_of_row_eq (i := ⟨s, by omega⟩) (j := ⟨t, by omega⟩)]
    · rw [zero_pow (by decide)]
      exact Finset.prod_nonneg fun _ _ => colSq_nonneg _ _
    · intro e
      have := congrArg (fun z : Fin ((t : ℕ) + 1) => (z : ℕ)) e
      simp only at this
      omega
    · funext y
      simp only [Matrix.submatrix_apply]
      rw [dif_pos (by omega), dif_neg (by omega)]

/-- C44: entry `(s,t)` of `U` is bounded by the lengths of the columns `q[0..s-1]` and `q[t]`. -/
theorem C44_U_entries (hA : IsCsc n A) (hS : IsAnalysis n S) (ht : TolOk opt)
    (h : FactorizeOk nc opt A S L U R pinv) {τ : Equiv.Perm (Fin n)} (hτ : Holds S.q τ) (s t : Fin n) :
    U.entry s t ^ 2 ≤
      (∏ y : Fin s, colSq (A.matrix n) (τ ⟨y, by omega⟩)) * colSq (A.matrix n) (τ t) := by
  obtain ⟨-, σ, hσ⟩ := C07_pinv_is_permutation hA hS ht h
  rw [C05_U_entries_are_minors hA hS ht h hσ hτ s t]
  refine (hadamard_minor _ _ _ ?_).trans (le_of_eq ?_)
  · refine σ.symm.injective.comp fun x y e => ?_
    exact Fin.ext (congrArg (fun z : Fin n => (z : ℕ)) e)
  · rw [Fin.prod_univ_castSucc]
    congr 1
    · refine Finset.prod_congr rfl fun y _ => ?_
      rw [dif_pos (by simp)]
      rfl
    · rw [dif_neg (by simp)]
      rfl

/-- C44: pivot `t` is bounded by the lengths of the columns `q[0..t]`. -/
theorem C44_pivots (hA : IsCsc n A) (hS : IsAnalysis n S) (ht : TolOk opt)
    (h : FactorizeOk nc opt A S L U R pinv) {τ : Equiv.Perm (Fin n)} (hτ : Holds S.q τ) (t : Fin n) :
    ∃ ρ, get R.xz (t : ℕ) = some ρ ∧
      ρ ^ 2 ≤ ∏ y : Fin ((t : ℕ) + 1), colSq (A.matrix n) (τ ⟨y, by omega⟩) := by
  obtain ⟨ρ, e, -, hl, -⟩ := (C06_factors_valid_triangular hA hS ht h).2.2.2.2.1 t t.2
  exact ⟨ρ, e, hl ▸ C44_L_entries hA hS ht h hτ t t⟩

/-- C44: with at most `γ` nonzeros in each column of `A`, each at most `B` in absolute value, the entries of
column `t` of `L` are at most `(B √γ)^(t+1)`: their length in bits grows linearly with `t`, not
exponentially. -/
theorem C44_L_size (hA : IsCsc n A) (hS : IsAnalysis n S) (ht : TolOk opt)
    (h : FactorizeOk nc opt A S L U R pinv) {γ : ℕ} {B : ℤ}
    (hγ : ∀ c, (Finset.univ.filter fun i => A.matrix n i c ≠ 0).card ≤ γ)
    (hB : ∀ i c, |A.matrix n i c| ≤ B) (s t : Fin n) :
    L.entry s t ^ 2 ≤ (γ * B ^ 2) ^ ((t : ℕ) + 1) := by
  obtain ⟨τ, hτ⟩ := hS.perm
  refine (C44_L_entries hA hS ht h hτ s t).trans ?_
  refine (Finset.prod_le_prod (fun _ _ => colSq_nonneg _ _)
    fun y _ => colSq_le (hγ _) fun i => hB i _).trans ?_
  simp

/-- C44: the same for `U`. -/
theorem C44_U_size (hA : IsCsc n A) (hS : IsAnalysis n S) (ht : TolOk opt)
    (h : FactorizeOk nc opt A S L U R pinv) {γ : ℕ} {B : ℤ}
    (hγ : ∀ c, (Finset.univ.filter fun i => A.matrix n i c ≠ 0).card ≤ γ)
    (hB : ∀ i c, |A.matrix n i c| ≤ B) (s t : Fin n) :
    U.entry s t ^ 2 ≤ (γ * B ^ 2) ^ ((s : ℕ) + 1) := by
  obtain ⟨τ, hτ⟩ := hS.perm
  refine (C44_U_entries hA hS ht h hτ s t).trans ?_
  rw [pow_succ]
  refine mul_le_mul ?_ (colSq_le (hγ _) fun i => hB i _) (colSq_nonneg _ _) (by positivity)
  refine (Finset.prod_le_prod (fun _ _ => colSq_nonneg _ _)
    fun y _ => colSq_le (hγ _) fun i => hB i _).trans ?_
  simp

/-- The numerators of Cramer's rule. -/
theorem cramer_bound (M : Matrix (Fin n) (Fin n) ℤ) (v : Fin n → ℤ) (i : Fin n) :
    M.cramer v i ^ 2 ≤ (∏ c ∈ Finset.univ.erase i, colSq M c) * ∑ r, v r ^ 2 := by
  rw [Matrix.cramer_apply]
  refine (hadamard_int _).trans (le_of_eq ?_)
  rw [← Finset.prod_erase_mul _ _ (Finset.mem_univ i)]
  congr 1
  · refine Finset.prod_congr rfl fun c hc => ?_
    have : c ≠ i := Finset.ne_of_mem_erase hc
    simp [colSq, this]
  · simp

/-- C44: each entry of the solution is `(scale(A)/scale(b)) * N / D` with integers `N` and `D ≠ 0` that are
bounded by the lengths of the columns of `A` and of `b`; with both scale factors 1 these bound the numerator
and the denominator that are stored. -/
theorem C44_solution {opt' : Option Options} {x : Mat} (hA : IsCsc n A) (hS : IsAnalysis n S)
    (ht : TolOk opt) (h : FactorizeOk nc opt A S L U R pinv) (hn : 0 < n) (hb : IsDenseZ n k b)
    (hsb : b.scale ≠ 0) (hx : SolveOk opt' b A L U R S pinv x) (i : Fin n) (j : Fin k) :
    (∃ N D : ℤ, D ≠ 0 ∧ x.denseQ n k i j = A.scale / b.scale * (N / D) ∧
      N ^ 2 ≤ (∏ c ∈ Finset.univ.erase i, colSq (A.matrix n) c) * colSq (b.denseZ n k) j ∧
      D ^ 2 ≤ ∏ c, colSq (A.matrix n) c) ∧
    (A.scale = 1 → b.scale = 1 →
      (x.denseQ n k i j).num ^ 2 ≤
        (∏ c ∈ Finset.univ.erase i, colSq (A.matrix n) c) * colSq (b.denseZ n k) j ∧
      ((x.denseQ n k i j).den : ℤ) ^ 2 ≤ ∏ c, colSq (A.matrix n) c) := by
  have hd := FactorizeOk.det_ne_zero hA hS ht h
  have hx' := C18_scaling hA hS ht h hn hb hsb hx
  set M := A.matrix n with hM
  have hdq : (M.det : ℚ) ≠ 0 := by exact_mod_cast hd
  have key : x.denseQ n k i j =
      A.scale / b.scale * ((M.cramer (fun r => b.denseZ n k r j) i : ℤ) / (M.det : ℤ)) := by
    have hcr : M.map (Int.cast : ℤ → ℚ) * Matrix.of (fun r l =>
        A.scale / b.scale * (((M.cramer (fun r => b.denseZ n k r l) r : ℤ) : ℚ) / (M.det : ℚ))) =
        M.map (Int.cast : ℤ → ℚ) * x.denseQ n k := by
      rw [hx']
      ext r l
      have e := congrFun (Matrix.mulVec_cramer M fun r => b.denseZ n k r l) r
      simp only [Matrix.mulVec, dotProduct, Pi.smul_apply, smul_eq_mul] at e
      have e' : ∑ c, (M r c : ℚ) * (M.cramer (fun r => b.denseZ n k r l) c : ℤ) =
          (M.det : ℚ) * (b.denseZ n k r l : ℤ) := by exact_mod_cast e
      simp only [Matrix.mul_apply, Matrix.map_apply, Matrix.of_apply, Matrix.smul_apply, smul_eq_mul]
      have : ∀ c, (M r c : ℚ) * (A.scale / b.scale *
          (((M.cramer (fun r => b.denseZ n k r l) c : ℤ) : ℚ) / (M.det : ℚ))) =
          A.scale / b.scale / M.det * ((M r c : ℚ) * (M.cramer (fun r => b.denseZ n k r l) c : ℤ)) :=
        fun c => by ring
      simp only [this]
      rw [← Finset.mul_sum, e']
      field_simp
    have := unique_of_det hd hcr
    rw [← this]
    rfl
  have hN := cramer_bound M (fun r => b.denseZ n k r j) i
  have hD := hadamard_int M
  refine ⟨⟨_, _, hd, key, hN, hD⟩, fun h1 h2 => ?_⟩
  rw [h1, h2, div_one, one_mul] at key
  have hnum : |(x.denseQ n k i j).num| ≤ |M.cramer (fun r => b.denseZ n k r j) i| ∧
      |((x.denseQ n k i j).den : ℤ)| ≤ |M.det| := by
    rw [key, ← Rat.divInt_eq_div]
    refine ⟨?_, ?_⟩
    · by_cases h0 : M.cramer (fun r => b.denseZ n k r j) i = 0
      · rw [h0]; simp
      · exact Int.le_of_dvd (abs_pos.2 h0) ((abs_dvd_abs _ _).2 (Rat.num_dvd _ hd))
    · exact Int.le_of_dvd (abs_pos.2 hd) ((abs_dvd_abs _ _).2 (Rat.den_dvd _ _))
  refine ⟨?_, ?_⟩
  · exact (sq_le_sq.2 hnum.1).trans hN
  · exact (sq_le_sq.2 hnum.2).trans hD

/-! ## The example: all the theorems apply to it -/

example := C44_L_entries Ex.A_csc Ex.S_ok Ex.tol_ok Ex.factorize_ok Ex.S_holds 2 1
example := C44_U_entries Ex.A_csc Ex.S_ok Ex.tol_ok Ex.factorize_ok Ex.S_holds 1 2
example := C44_pivots Ex.A_csc Ex.S_ok Ex.tol_ok Ex.factorize_ok Ex.S_holds 2
example := C44_L_size (γ := 3) (B := 6) Ex.A_csc Ex.S_ok Ex.tol_ok Ex.factorize_ok (by decide +kernel)
  (by decide +kernel) 2 1
example := C44_U_size (γ := 3) (B := 6) Ex.A_csc Ex.S_ok Ex.tol_ok Ex.factorize_ok (by decide +kernel)
  (by decide +kernel) 1 2
example := C44_solution Ex.A_csc Ex.S_ok Ex.tol_ok Ex.factorize_ok (by decide) Ex.b_dense
  Ex.scale_ne.2 Ex.solve_ok 1 0

end Slip
