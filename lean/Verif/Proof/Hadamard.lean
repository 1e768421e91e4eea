import Mathlib.Analysis.InnerProductSpace.Orientation
import Mathlib.Analysis.InnerProductSpace.PiL2

/-!
# Hadamard's inequality for integer matrices
-/

namespace Slip

theorem hadamard_real {m : ℕ} (M : Matrix (Fin m) (Fin m) ℝ) :
    M.det ^ 2 ≤ ∏ j, ∑ i, (M i j) ^ 2 := by
  have hf : Fact (Module.finrank ℝ (EuclideanSpace ℝ (Fin m)) = m) := ⟨by simp⟩
  let b := EuclideanSpace.basisFun (Fin m) ℝ
  let o := b.toBasis.orientation
  let v : Fin m → EuclideanSpace ℝ (Fin m) := fun j => WithLp.toLp 2 fun i => M i j
  have h := o.abs_volumeForm_apply_le v
  rw [o.volumeForm_robust b rfl, Module.Basis.det_apply] at h
  have e : b.toBasis.toMatrix v = M := by
    ext i j
    simp [b, v, Module.Basis.toMatrix_apply]
  rw [e] at h
  rw [← sq_abs]
  refine (pow_le_pow_left₀ (abs_nonneg _) h 2).trans (le_of_eq ?_)
  rw [← Finset.prod_pow]
  refine Finset.prod_congr rfl fun j _ => ?_
  rw [EuclideanSpace.norm_sq_eq]
  simp [v]

theorem hadamard_int {m : ℕ} (M : Matrix (Fin m) (Fin m) ℤ) :
    M.det ^ 2 ≤ ∏ j, ∑ i, (M i j) ^ 2 := by
  have h := hadamard_real (M.map (Int.cast : ℤ → ℝ))
  have e : (M.map (Int.cast : ℤ → ℝ)).det = (M.det : ℝ) := (Int.cast_det M).symm
  rw [e] at h
  simp only [Matrix.map_apply] at h
  exact_mod_cast h

/-- A minor is bounded by the whole columns. -/
theorem hadamard_minor {m n : ℕ} (M : Matrix (Fin n) (Fin n) ℤ) (f g : Fin m → Fin n)
    (hf : Function.Injective f) :
    (M.submatrix f g).det ^ 2 ≤ ∏ y, ∑ i, (M i (g y)) ^ 2 := by
  refine (hadamard_int _).trans (Finset.prod_le_prod (fun y _ => ?_) fun y _ => ?_)
  · exact Finset.sum_nonneg fun i _ => sq_nonneg _
  · simp only [Matrix.submatrix_apply]
    rw [← Finset.sum_image (s := Finset.univ) (g := f) (f := fun i => (M i (g y)) ^ 2) (hf.injOn)]
    exact Finset.sum_le_sum_of_subset_of_nonneg (Finset.subset_univ _) fun i _ _ => sq_nonneg _

end Slip
