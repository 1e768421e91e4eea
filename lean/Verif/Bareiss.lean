import Mathlib.LinearAlgebra.Matrix.SchurComplement
import Mathlib.LinearAlgebra.Matrix.Determinant.Basic
import Mathlib.LinearAlgebra.Matrix.ToLinearEquiv
import Mathlib.Tactic.Ring
import Mathlib.Tactic.FieldSimp
import Mathlib.Tactic.LinearCombination

/-!
# Bordered minors and the integer-preserving (Bareiss / Edmonds) identities

Pure mathematics, no code is modelled here.  `A i j` is the entry in row `i`, column `j` of an
integer matrix, `r t` and `c t` are the row and the column chosen as the `t`-th pivot.
-/

namespace Slip

open Matrix

variable (A : ℕ → ℕ → ℤ) (r c : ℕ → ℕ)

/-- Leading minor: determinant of the first `t` pivot rows and columns. -/
def piv (t : ℕ) : ℤ :=
  Matrix.det (Matrix.of fun (x y : Fin t) => A (r x) (c y))

/-- Bordered minor: rows `r 0, ..., r (t-1), i`, columns `c 0, ..., c (t-1)` and the vector `v`. -/
def lev (t : ℕ) (v : ℕ → ℤ) (i : ℕ) : ℤ :=
  Matrix.det (Matrix.of fun (x y : Fin (t + 1)) =>
    if (y : ℕ) < t then A (if (x : ℕ) < t then r x else i) (c y)
    else v (if (x : ℕ) < t then r x else i))

@[simp] theorem piv_zero : piv A r c 0 = 1 := by simp [piv]

@[simp] theorem lev_zero (v : ℕ → ℤ) (i : ℕ) : lev A r c 0 v i = v i := by
  simp [lev]

theorem piv_succ (t : ℕ) : piv A r c (t + 1) = lev A r c t (fun i => A i (c t)) (r t) := by
  unfold piv lev
  congr 1
  ext x y
  simp only [Matrix.of_apply]
  have hx : (if (x : ℕ) < t then r x else r t) = r x := by
    split
    · rfl
    · have := x.isLt; congr 1; omega
  rw [hx]
  split
  · rfl
  · have := y.isLt
    have : (y : ℕ) = t := by omega
    rw [this]

/-- The pivots only depend on the rows and columns chosen so far. -/
theorem piv_congr {A' : ℕ → ℕ → ℤ} {r' c' : ℕ → ℕ} (t : ℕ)
    (h : ∀ x < t, ∀ y < t, A' (r' x) (c' y) = A (r x) (c y)) :
    piv A' r' c' t = piv A r c t := by
  unfold piv
  congr 1
  ext x y
  exact h x x.isLt y y.isLt

theorem lev_congr {r' c' : ℕ → ℕ} (t : ℕ) (v : ℕ → ℤ) (i : ℕ)
    (hr : ∀ x < t, r' x = r x) (hc : ∀ x < t, c' x = c x) :
    lev A r' c' t v i = lev A r c t v i := by
  unfold lev
  congr 1
  ext x y
  simp only [Matrix.of_apply]
  have hx : (if (x : ℕ) < t then r' x else i) = (if (x : ℕ) < t then r x else i) := by
    split
    · rename_i h; exact hr _ h
    · rfl
  rw [hx]
  split
  · rename_i h; rw [hc _ h]
  · rfl

theorem lev_congr_v (t : ℕ) {v w : ℕ → ℤ} (i : ℕ)
    (hr : ∀ x < t, v (r x) = w (r x)) (hi : v i = w i) :
    lev A r c t v i = lev A r c t w i := by
  unfold lev
  congr 1
  ext x y
  simp only [Matrix.of_apply]
  split
  · rfl
  · split
    · rename_i h; exact hr _ h
    · exact hi

/-- A row already used as a pivot row gives a zero bordered minor. -/
theorem lev_row_eq_zero {t s : ℕ} (hs : s < t) (v : ℕ → ℤ) : lev A r c t v (r s) = 0 := by
  unfold lev
  refine Matrix.det_zero_of_row_eq (i := ⟨s, by omega⟩) (j := ⟨t, by omega⟩) ?_ ?_
  · simp; omega
  · ext y
    simp [hs]

/-- A column already used as a pivot column gives a zero bordered minor. -/
theorem lev_col_eq_zero {t s : ℕ} (hs : s < t) (i : ℕ) :
    lev A r c t (fun x => A x (c s)) i = 0 := by
  unfold lev
  refine Matrix.det_zero_of_column_eq (i := ⟨s, by omega⟩) (j := ⟨t, by omega⟩) ?_ ?_
  · simp; omega
  · intro x
    simp [hs]

/-- The leading block over the rationals. -/
private def blk (t : ℕ) : Matrix (Fin t) (Fin t) ℚ :=
  Matrix.of fun x y => (A (r x) (c y) : ℚ)

private theorem blk_det (t : ℕ) : (blk A r c t).det = (piv A r c t : ℚ) := by
  unfold piv blk
  have := (Int.castRingHom ℚ).map_det (Matrix.of fun (x y : Fin t) => A (r x) (c y))
  simp only [eq_intCast] at this
  rw [this]
  rfl

/-- The Schur complement entry: `v i - A(i,C) * A(R,C)⁻¹ * v(R)`. -/
noncomputable def schur (t : ℕ) (v : ℕ → ℤ) (i : ℕ) : ℚ :=
  (v i : ℚ) - ∑ y : Fin t, ∑ x : Fin t, (A i (c y) : ℚ) *
    ((Matrix.of fun x y : Fin t => (A (r x) (c y) : ℚ))⁻¹ y x) * (v (r x) : ℚ)

/-- general block computation -/
private theorem det_border (t m : ℕ) (hp : piv A r c t ≠ 0)
    (B : Fin t → Fin m → ℚ) (C : Fin m → Fin t → ℚ) (D : Fin m → Fin m → ℚ) :
    Matrix.det (Matrix.fromBlocks (blk A r c t) (Matrix.of B) (Matrix.of C) (Matrix.of D)) =
      (piv A r c t : ℚ) *
        Matrix.det (Matrix.of fun a b => D a b - ∑ y, ∑ x, C a y * ((blk A r c t)⁻¹ y x) * B x b) := by
  have hdet : (blk A r c t).det ≠ 0 := by
    rw [blk_det]; exact_mod_cast hp
  have hu : IsUnit (blk A r c t).det := isUnit_iff_ne_zero.mpr hdet
  let _ : Invertible (blk A r c t) := Matrix.invertibleOfIsUnitDet _ hu
  rw [Matrix.det_fromBlocks₁₁, blk_det, Matrix.invOf_eq_nonsing_inv]
  congr 2
  ext a b
  simp only [Matrix.sub_apply, Matrix.of_apply, Matrix.mul_apply]
  congr 1
  simp only [Finset.sum_mul]
  rw [Finset.sum_comm]

theorem lev_eq_schur (t : ℕ) (hp : piv A r c t ≠ 0) (v : ℕ → ℤ) (i : ℕ) :
    (lev A r c t v i : ℚ) = (piv A r c t : ℚ) * schur A r c t v i := by
  have h := det_border A r c t 1 hp (fun x _ => (v (r x) : ℚ)) (fun _ y => (A i (c y) : ℚ))
    (fun _ _ => (v i : ℚ))
  have h1 : (lev A r c t v i : ℚ) = Matrix.det (Matrix.fromBlocks (blk A r c t)
      (Matrix.of (fun x (_ : Fin 1) => (v (r x) : ℚ)))
      (Matrix.of (fun (_ : Fin 1) y => (A i (c y) : ℚ)))
      (Matrix.of (fun (_ _ : Fin 1) => (v i : ℚ)))) := by
    unfold lev
    have := (Int.castRingHom ℚ).map_det (Matrix.of fun (x y : Fin (t + 1)) =>
      if (y : ℕ) < t then A (if (x : ℕ) < t then r x else i) (c y)
      else v (if (x : ℕ) < t then r x else i))
    simp only [eq_intCast] at this
    rw [this, ← Matrix.det_submatrix_equiv_self (finSumFinEquiv (m := t) (n := 1))]
    congr 1
    ext x y
    rcases x with x | x <;> rcases y with y | y <;> simp [blk]
  rw [h1, h]
  simp [schur, blk]

theorem lev_succ_eq_schur (t : ℕ) (hp : piv A r c t ≠ 0) (v : ℕ → ℤ) (i : ℕ) :
    (lev A r c (t + 1) v i : ℚ) = (piv A r c t : ℚ) *
      (schur A r c t (fun i => A i (c t)) (r t) * schur A r c t v i
        - schur A r c t v (r t) * schur A r c t (fun i => A i (c t)) i) := by
  have h := det_border A r c t 2 hp
    (fun x b => if (b : ℕ) = 0 then (A (r x) (c t) : ℚ) else (v (r x) : ℚ))
    (fun a y => (A (if (a : ℕ) = 0 then r t else i) (c y) : ℚ))
    (fun a b => if (b : ℕ) = 0 then (A (if (a : ℕ) = 0 then r t else i) (c t) : ℚ)
      else (v (if (a : ℕ) = 0 then r t else i) : ℚ))
  have h1 : (lev A r c (t + 1) v i : ℚ) = Matrix.det (Matrix.fromBlocks (blk A r c t)
      (Matrix.of (fun x (b : Fin 2) => if (b : ℕ) = 0 then (A (r x) (c t) : ℚ) else (v (r x) : ℚ)))
      (Matrix.of (fun (a : Fin 2) y => (A (if (a : ℕ) = 0 then r t else i) (c y) : ℚ)))
      (Matrix.of (fun (a b : Fin 2) =>
        if (b : ℕ) = 0 then (A (if (a : ℕ) = 0 then r t else i) (c t) : ℚ)
        else (v (if (a : ℕ) = 0 then r t else i) : ℚ)))) := by
    unfold lev
    have := (Int.castRingHom ℚ).map_det (Matrix.of fun (x y : Fin (t + 1 + 1)) =>
      if (y : ℕ) < t + 1 then A (if (x : ℕ) < t + 1 then r x else i) (c y)
      else v (if (x : ℕ) < t + 1 then r x else i))
    simp only [eq_intCast] at this
    rw [this, ← Matrix.det_submatrix_equiv_self (finSumFinEquiv (m := t) (n := 2))]
    congr 1
    ext x y
    rcases x with x | x <;> rcases y with y | y
    · simp [blk]
    · fin_cases y <;> simp [blk]
    · fin_cases x <;> simp [blk]
    · fin_cases x <;> fin_cases y <;> simp
  rw [h1, h, Matrix.det_fin_two]
  simp [schur, blk]

/-- **Sylvester / Bareiss identity**, the correctness of one integer-preserving update. -/
theorem lev_step (t : ℕ) (hp : piv A r c t ≠ 0) (v : ℕ → ℤ) (i : ℕ) :
    piv A r c t * lev A r c (t + 1) v i =
      piv A r c (t + 1) * lev A r c t v i
        - lev A r c t (fun i => A i (c t)) i * lev A r c t v (r t) := by
  have h : ((piv A r c t * lev A r c (t + 1) v i : ℤ) : ℚ) =
      ((piv A r c (t + 1) * lev A r c t v i
        - lev A r c t (fun i => A i (c t)) i * lev A r c t v (r t) : ℤ) : ℚ) := by
    rw [piv_succ]
    push_cast
    rw [lev_succ_eq_schur A r c t hp, lev_eq_schur A r c t hp, lev_eq_schur A r c t hp,
      lev_eq_schur A r c t hp, lev_eq_schur A r c t hp]
    ring
  exact_mod_cast h

/-- The bordered minor is additive in the bordering vector. -/
theorem lev_sum (t : ℕ) (hp : piv A r c t ≠ 0) {ι : Type*} (s : Finset ι) (z : ι → ℤ)
    (v : ι → ℕ → ℤ) (i : ℕ) :
    lev A r c t (fun i => ∑ j ∈ s, z j * v j i) i = ∑ j ∈ s, z j * lev A r c t (v j) i := by
  have h : ((lev A r c t (fun i => ∑ j ∈ s, z j * v j i) i : ℤ) : ℚ) =
      ((∑ j ∈ s, z j * lev A r c t (v j) i : ℤ) : ℚ) := by
    push_cast
    rw [lev_eq_schur A r c t hp]
    simp only [lev_eq_schur A r c t hp, schur, Int.cast_sum, Int.cast_mul]
    simp only [mul_sub, Finset.sum_sub_distrib, Finset.mul_sum]
    congr 1
    · refine Finset.sum_congr rfl fun j _ => by ring
    · rw [Finset.sum_comm (s := s)]
      refine Finset.sum_congr rfl fun y _ => ?_
      rw [Finset.sum_comm (s := s)]
      refine Finset.sum_congr rfl fun x _ => Finset.sum_congr rfl fun j _ => by ring
  exact_mod_cast h

theorem lev_smul (t : ℕ) (hp : piv A r c t ≠ 0) (z : ℤ) (v : ℕ → ℤ) (i : ℕ) :
    lev A r c t (fun i => z * v i) i = z * lev A r c t v i := by
  have := lev_sum A r c t hp {()} (fun _ => z) (fun _ => v) i
  simpa using this

/-- The matrix of the first `n` rows and columns. -/
def toMat (n : ℕ) : Matrix (Fin n) (Fin n) ℤ := Matrix.of fun i j => A i j

/-- If no row is eligible as the `k`-th pivot then the matrix is singular. -/
theorem det_eq_zero_of_lev_zero (n k : ℕ) (hk : k < n) (hc : ∀ x < n, c x < n)
    (hinj : ∀ y < k, c y ≠ c k) (hp : piv A r c k ≠ 0)
    (hz : ∀ i < n, lev A r c k (fun i => A i (c k)) i = 0) :
    (toMat A n).det = 0 := by
  have hpq : (piv A r c k : ℚ) ≠ 0 := by exact_mod_cast hp
  -- the kernel vector
  let w : Fin k → ℚ := fun y => ∑ x : Fin k,
    ((Matrix.of fun x y : Fin k => (A (r x) (c y) : ℚ))⁻¹ y x) * (A (r x) (c k) : ℚ)
  let z : Fin n → ℚ := fun j =>
    (if (j : ℕ) = c k then 1 else 0) - ∑ y : Fin k, if (j : ℕ) = c y then w y else 0
  have hS : ∀ i < n, (A i (c k) : ℚ) = ∑ y : Fin k, (A i (c y) : ℚ) * w y := by
    intro i hi
    have h1 := lev_eq_schur A r c k hp (fun i => A i (c k)) i
    rw [hz i hi] at h1
    have h2 : schur A r c k (fun i => A i (c k)) i = 0 := by
      simpa [hpq] using h1.symm
    unfold schur at h2
    rw [sub_eq_zero] at h2
    rw [h2]
    refine Finset.sum_congr rfl fun y _ => ?_
    simp only [w, Finset.mul_sum, mul_assoc]
  have hdet : ((toMat A n).map (Int.castRingHom ℚ)).det = 0 := by
    rw [← Matrix.exists_mulVec_eq_zero_iff]
    refine ⟨z, ?_, ?_⟩
    · intro h0
      have := congrFun h0 ⟨c k, hc k hk⟩
      simp only [z, if_true, Pi.zero_apply] at this
      rw [Finset.sum_eq_zero] at this
      · norm_num at this
      · intro y _
        rw [if_neg]
        exact fun h => hinj y y.isLt h.symm
    · ext i
      have hmv : ((toMat A n).map (Int.castRingHom ℚ)).mulVec z i
          = ∑ j : Fin n, (A i j : ℚ) * z j := by
        simp [Matrix.mulVec, dotProduct, toMat]
      rw [hmv]
      simp only [z, mul_sub, Finset.sum_sub_distrib, Pi.zero_apply]
      have pick : ∀ (a : ℕ) (ha : a < n) (u : ℚ),
          ∑ j : Fin n, (A i j : ℚ) * (if (j : ℕ) = a then u else 0) = (A i a : ℚ) * u := by
        intro a ha u
        rw [Finset.sum_eq_single (⟨a, ha⟩ : Fin n)]
        · simp
        · intro b _ hb
          rw [if_neg]
          · simp
          · intro h; exact hb (Fin.ext h)
        · simp
      rw [pick _ (hc k hk)]
      simp only [Finset.mul_sum]
      rw [Finset.sum_comm]
      rw [Finset.sum_congr rfl (fun (y : Fin k) _ => pick (c y) (hc y (by omega)) (w y))]
      rw [mul_one, hS i i.isLt, sub_self]
  have h := (Int.castRingHom ℚ).map_det (toMat A n)
  have h' : ((Int.castRingHom ℚ) (toMat A n).det) = 0 := by
    rw [h]; exact hdet
  simpa using h'

/-- The last leading minor is the determinant of the doubly permuted matrix. -/
theorem piv_eq_det_submatrix (n : ℕ) (σ τ : Fin n → Fin n) (hσ : ∀ x : Fin n, (σ x : ℕ) = r x)
    (hτ : ∀ x : Fin n, (τ x : ℕ) = c x) :
    piv A r c n = ((toMat A n).submatrix σ τ).det := by
  unfold piv
  congr 1
  ext x y
  simp [toMat, hσ, hτ]

/-- The last leading minor is the determinant up to the signs of the two permutations. -/
theorem piv_eq_sign_det (n : ℕ) (σ τ : Equiv.Perm (Fin n)) (hσ : ∀ x : Fin n, (σ x : ℕ) = r x)
    (hτ : ∀ x : Fin n, (τ x : ℕ) = c x) :
    piv A r c n = (Equiv.Perm.sign σ : ℤ) * (Equiv.Perm.sign τ : ℤ) * (toMat A n).det := by
  rw [piv_eq_det_submatrix A r c n σ τ hσ hτ]
  have h1 : (toMat A n).submatrix σ τ = ((toMat A n).submatrix id τ).submatrix σ id := rfl
  rw [h1, Matrix.det_permute, Matrix.det_permute', mul_assoc]
  simp

/-- Integer form of Cramer's rule for the doubly permuted system. -/
theorem exists_int_solution (n : ℕ) (σ τ : Equiv.Perm (Fin n))
    (hσ : ∀ x : Fin n, (σ x : ℕ) = r x) (hτ : ∀ x : Fin n, (τ x : ℕ) = c x) (b : Fin n → ℤ) :
    ∃ Z : Fin n → ℤ, (toMat A n).mulVec Z = fun i => piv A r c n * b i := by
  refine ⟨fun j => (Equiv.Perm.sign σ : ℤ) * (Equiv.Perm.sign τ : ℤ) *
    ((toMat A n).adjugate.mulVec b) j, ?_⟩
  have h : (fun j => (Equiv.Perm.sign σ : ℤ) * (Equiv.Perm.sign τ : ℤ) *
      ((toMat A n).adjugate.mulVec b) j) =
      ((Equiv.Perm.sign σ : ℤ) * (Equiv.Perm.sign τ : ℤ)) • ((toMat A n).adjugate.mulVec b) := by
    ext j; simp
  rw [h, Matrix.mulVec_smul, Matrix.mulVec_mulVec, Matrix.mul_adjugate, piv_eq_sign_det A r c n σ τ hσ hτ]
  ext i
  simp
  ring

end Slip
