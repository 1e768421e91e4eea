import Verif.Props.Api
import Verif.Props.Copy

/-!
# From matrix objects of any kind to the integer objects the solver needs
-/

namespace Slip

theorem Mat.val_mpz {A : Mat} {m n : ℕ} (h : Header m n A) (ht : A.type = .mpz) (t : ℤ) :
    A.val t = (get A.xz t).map fun v : ℤ => (v : ℚ) / A.scale := by
  obtain ⟨x, hx, hxt⟩ := h.typed
  rw [ht] at hxt
  cases x <;> simp [Vals.ty] at hxt
  simp [Mat.val, hx, Vals.val, Mat.xz]

theorem ValidCsc.isCsc {n : ℕ} {A : Mat} (h : ValidCsc n n A) (ht : A.type = .mpz) : IsCsc n A := by
  refine ⟨h.kind, ht, h.rows, h.cols, h.p0, fun j hj => ?_, h.idx⟩
  obtain ⟨a, b, ha, hb, hab, he, hd⟩ := h.col j hj
  refine ⟨a, b, ha, hb, hab, fun t h1 h2 => ⟨(he t h1 h2).1, ?_⟩, hd⟩
  obtain ⟨v, hv⟩ := (he t h1 h2).2
  rw [Mat.val_mpz h.toHeader ht] at hv
  cases hg : get A.xz t with
  | none => simp [hg] at hv
  | some z => exact ⟨z, rfl⟩

theorem ValidCsc.unscale {n : ℕ} {A : Mat} (h : ValidCsc n n A) (ht : A.type = .mpz) :
    unscale (A.matrix n) A.scale = A.toMatrix n n := by
  ext i j
  obtain ⟨a, b, ha, hb, hab, he, hd⟩ := h.col j j.2
  simp only [Slip.unscale, Mat.matrix, Mat.toMatrix, Matrix.of_apply, Mat.entry, Mat.num, h.kind, ha, hb]
  push_cast
  rw [Finset.sum_div]
  refine Finset.sum_congr rfl fun t htt => ?_
  rw [Finset.mem_Ico] at htt
  obtain ⟨v, hv⟩ := (he t htt.1 htt.2).2
  rw [Mat.val_mpz h.toHeader ht]
  cases hg : get A.xz t with
  | none => simp [Mat.val_mpz h.toHeader ht, hg] at hv
  | some z => split <;> simp

theorem ValidDense.isDenseZ {m k : ℕ} {A : Mat} (h : ValidDense m k A) (ht : A.type = .mpz) :
    IsDenseZ m k A := by
  refine ⟨h.kind, ht, h.rows, h.cols, fun i hi j hj => ?_⟩
  obtain ⟨v, hv⟩ := h.entry i hi j hj
  rw [Mat.val_mpz h.toHeader ht] at hv
  cases hg : get A.xz ((i : ℤ) + j * m) with
  | none => simp [hg] at hv
  | some z => exact ⟨z, rfl⟩

theorem ValidDense.unscale {m k : ℕ} {A : Mat} (h : ValidDense m k A) (ht : A.type = .mpz) :
    unscale (A.denseZ m k) A.scale = A.toMatrix m k := by
  ext i j
  obtain ⟨v, hv⟩ := h.entry i i.2 j j.2
  simp only [Slip.unscale, Mat.denseZ, Mat.toMatrix, Matrix.of_apply, Mat.num, h.kind]
  rw [h.rows]
  rw [Mat.val_mpz h.toHeader ht] at hv ⊢
  cases hg : get A.xz ((i : ℕ) + (j : ℕ) * m : ℤ) with
  | none => simp [hg] at hv
  | some z => simp

theorem Valid.csc {m n : ℕ} {A : Mat} (h : Valid m n A) (hk : A.kind = .csc) : ValidCsc m n A := by
  rcases h with h | h | h
  · exact h
  · exact absurd (hk.symm.trans h.kind) (by decide)
  · exact absurd (hk.symm.trans h.kind) (by decide)

theorem Valid.dense {m n : ℕ} {A : Mat} (h : Valid m n A) (hk : A.kind = .dense) : ValidDense m n A := by
  rcases h with h | h | h
  · exact absurd (hk.symm.trans h.kind) (by decide)
  · exact absurd (hk.symm.trans h.kind) (by decide)
  · exact h

theorem det_unscale {n : ℕ} (M : Matrix (Fin n) (Fin n) ℤ) (s : ℚ) :
    (unscale M s).det = (1 / s) ^ n * (M.det : ℚ) := by
  have : unscale M s = (1 / s) • M.map (Int.cast : ℤ → ℚ) := by
    ext i j
    simp [unscale, div_eq_inv_mul]
  rw [this, Matrix.det_smul, Fintype.card_fin]
  congr 1
  exact (Int.cast_det M).symm

/-- Copying to an integer CSC matrix, as the solver needs it. -/
theorem copy_to_csc {fp : Fp} {opt : Option Options} {n : ℕ} {A : Mat} (hA : Valid n n A)
    (hE : ExactConv n n opt A .mpz) (hK : KindOk n n A .csc .mpz) :
    ∃ A', SLIP_matrix_copy fp true (some none) .csc .mpz (some A) opt = .ok (.ok, some (some A')) ∧
      IsCsc n A' ∧ A'.scale ≠ 0 ∧ unscale (A'.matrix n) A'.scale = A.toMatrix n n ∧
      ((A.toMatrix n n).det ≠ 0 ↔ (A'.matrix n).det ≠ 0) ∧ A'.m = n ∧ A'.n = n := by
  obtain ⟨A', h1, h2, h3, h4, -, h6⟩ := C19_copy_exact (fp := fp) (Ch := some none) (by simp)
    (kind := .csc) hA rfl hE hK
  have hv := h4.csc h2
  have hu : unscale (A'.matrix n) A'.scale = A.toMatrix n n := by
    rw [hv.unscale h3]
    ext i j
    simpa [Mat.toMatrix] using h6 i j i.2 j.2
  refine ⟨A', h1, hv.isCsc h3, hv.scale, hu, ?_, hv.rows, hv.cols⟩
  rw [← hu, det_unscale]
  simp [hv.scale]

/-- Copying to an integer dense matrix, as the solver needs it. -/
theorem copy_to_dense {fp : Fp} {opt : Option Options} {n k : ℕ} {b : Mat} (hb : Valid n k b)
    (hE : ExactConv n k opt b .mpz) (hK : KindOk n k b .dense .mpz) :
    ∃ b', SLIP_matrix_copy fp true (some none) .dense .mpz (some b) opt = .ok (.ok, some (some b')) ∧
      IsDenseZ n k b' ∧ b'.scale ≠ 0 ∧ unscale (b'.denseZ n k) b'.scale = b.toMatrix n k ∧ b'.m = n := by
  obtain ⟨b', h1, h2, h3, h4, -, h6⟩ := C19_copy_exact (fp := fp) (Ch := some none) (by simp)
    (kind := .dense) hb rfl hE hK
  have hv := h4.dense h2
  refine ⟨b', h1, hv.isDenseZ h3, hv.scale, ?_, hv.rows⟩
  rw [hv.unscale h3]
  ext i j
  simpa [Mat.toMatrix] using h6 i j i.2 j.2

end Slip
