import Verif.Proof.CostCheck

/-!
# C61: the time and the memory of a check

`Verif/Model/CostCheck.lean` has `SLIP_matrix_check` with a counter: with the weights `1, 0, 0` it counts the entries whose
values are printed, with `0, 1, 0` the iterations of all loops (what `qsort` does is not counted), with `0, 0, 1` the elements
of the workspace.
-/

namespace Slip

/-! ## Specification -/

/-- A matrix object of which only this is known: its dimensions are `m` and `n`, its `nzmax` is positive (as in every object of
`SLIP_matrix_allocate`), and `SLIP_matrix_nnz` says `N`. Its pointers, indices and values may be anything, and any
of its arrays may be missing or too short. -/
structure Suspect (m n N : ℕ) (A : Mat) : Prop where
  rows : A.m = m
  cols : A.n = n
  room : 0 < A.nzmax
  nnz : SLIP_matrix_nnz true (some A) = .ok (N : ℤ)

/-- The number of loop iterations of a check. -/
def checkIts (qs : List (Int × Int) → List (Int × Int)) (A : Mat) (opt : Option Options) : ℕ :=
  (SLIP_matrix_checkT 0 1 0 qs true (some A) opt 0).2

/-- The number of entries whose values are printed. -/
def checkPrinted (qs : List (Int × Int) → List (Int × Int)) (A : Mat) (opt : Option Options) : ℕ :=
  (SLIP_matrix_checkT 1 0 0 qs true (some A) opt 0).2

/-- The number of elements of the workspace. -/
def checkStorage (qs : List (Int × Int) → List (Int × Int)) (A : Mat) (opt : Option Options) : ℕ :=
  (SLIP_matrix_checkT 0 0 1 qs true (some A) opt 0).2

/-! ## Theorems -/

variable {m n N : ℕ} {A : Mat} {opt : Option Options} {qs : List (Int × Int) → List (Int × Int)}

/-- C61: the counted check is the check: whatever the weights, it returns what `SLIP_matrix_check` returns. -/
theorem C61_same (h : Suspect m n N A) (α β γ w : ℕ) :
    (SLIP_matrix_checkT α β γ qs true (some A) opt w).1 = SLIP_matrix_check qs true (some A) opt := by
  obtain ⟨w', e, -⟩ := SLIP_matrix_checkT_lin (α := α) (β := β) (γ := γ) qs h.rows h.cols h.room h.nnz opt w
  rw [e]

/-- C61: however corrupt the matrix is, its check makes at most `2n + 3N` loop iterations: column pointers
that decrease or run away do not make it visit entries twice or run on. -/
theorem C61_iterations (h : Suspect m n N A) : checkIts qs A opt ≤ 2 * n + 3 * N := by
  obtain ⟨w', e, hw⟩ := SLIP_matrix_checkT_lin (α := 0) (β := 1) (γ := 0) qs h.rows h.cols h.room h.nnz opt 0
  unfold checkIts
  rw [e]
  show w' ≤ _
  omega

/-- C61: it prints at most one value per entry. -/
theorem C61_printed (h : Suspect m n N A) : checkPrinted qs A opt ≤ N := by
  obtain ⟨w', e, hw⟩ := SLIP_matrix_checkT_lin (α := 1) (β := 0) (γ := 0) qs h.rows h.cols h.room h.nnz opt 0
  unfold checkPrinted
  rw [e]
  show w' ≤ _
  omega

/-- C61: its workspace has at most `m + 2N` elements. -/
theorem C61_storage (h : Suspect m n N A) : checkStorage qs A opt ≤ m + 2 * N := by
  obtain ⟨w', e, hw⟩ := SLIP_matrix_checkT_lin (α := 0) (β := 0) (γ := 1) qs h.rows h.cols h.room h.nnz opt 0
  unfold checkStorage
  rw [e]
  show w' ≤ _
  omega

/-! ## Examples -/

namespace CheckWorkEx

/-- A 2-by-3 matrix with 3 entries (6 if dense). -/
def src (kind : Kind) (p i : List Int) : Mat :=
  { m := 2, n := 3, nzmax := 6, nz := 3, kind := kind, type := .mpz, p := some (p.map some),
    pShallow := false, i := some (i.map some), iShallow := false, j := some [some 0, some 1, some 1],
    jShallow := false, x := some (.mpz [some 6, some 4, some 10, some 0, some 7, some 8]), xShallow := false, scale := 1 }

/-- Options that ask for printing. -/
def loud : Option Options := (SLIP_create_default_options true).map ({ · with printLevel := 3 })

/-- The verdict and the three counts of one check. -/
def counts (A : Mat) (opt : Option Options) : C Info × ℕ × ℕ × ℕ :=
  (SLIP_matrix_check id true (some A) opt, checkIts id A opt, checkPrinted id A opt, checkStorage id A opt)

/-- The hypotheses are met, also by a matrix whose first pointers are out of order. -/
example : Suspect 2 3 3 (src .csc [0, 1, 3, 3] [1, 0, 1]) ∧ Suspect 2 3 3 (src .triplet [] [1, 0, 1]) ∧
    Suspect 2 3 6 (src .dense [] []) ∧ Suspect 2 3 3 (src .csc [0, 1000000, -5, 3] [1, 0, 1]) :=
  ⟨⟨rfl, rfl, by decide, rfl⟩, ⟨rfl, rfl, by decide, rfl⟩, ⟨rfl, rfl, by decide, rfl⟩, ⟨rfl, rfl, by decide, rfl⟩⟩

/-- What is counted for correct matrices of the three kinds, silent and with printing. -/
example : counts (src .csc [0, 1, 3, 3] [1, 0, 1]) none = (.ok .ok, 9, 0, 2) ∧
    counts (src .csc [0, 1, 3, 3] [1, 0, 1]) loud = (.ok .ok, 9, 3, 2) ∧
    counts (src .triplet [] [1, 0, 1]) none = (.ok .ok, 8, 0, 6) ∧
    counts (src .triplet [] [1, 0, 1]) loud = (.ok .ok, 8, 3, 6) ∧
    counts (src .dense [] []) none = (.ok .ok, 9, 0, 0) ∧
    counts (src .dense [] []) loud = (.ok .ok, 9, 6, 0) := by decide +kernel

/-- Corrupt matrices: a pointer that runs away, a duplicate, a row index out of range. The check stops there. -/
example : counts (src .csc [0, 1000000, -5, 3] [1, 0, 1]) none = (.ok .incorrectInput, 1, 0, 0) ∧
    counts (src .csc [0, 1, 3, 3] [1, 0, 0]) none = (.ok .incorrectInput, 8, 0, 2) ∧
    counts (src .csc [0, 1, 3, 3] [2, 0, 1]) none = (.ok .incorrectInput, 5, 0, 2) ∧
    counts (src .triplet [] [1, 0, 0]) none = (.ok .incorrectInput, 8, 0, 6) := by decide +kernel

end CheckWorkEx

end Slip
