import Verif.Proof.Machine3Check
import Verif.Proof.Machine6
import Verif.Props.MatCheck

/-!
# C46, continued: SLIP_matrix_check in 64-bit arithmetic
-/

namespace Slip
open Slip.M64

/-- C46 (SLIP_matrix_check): when the number of entries `N` of the matrix is at most 2^59, the number of columns at most 2^60
and, for a dense matrix, the number of positions at most 2^60, the checker computes in 64 bits what it computes in integers of
unbounded size, at every print level: no counter, no line number and no index overflows. The matrix need not be well formed:
the indices and pointers are arbitrary. -/
theorem C46_check (qs : List (Int × Int) → List (Int × Int)) (opt : Option Options) (A : Mat) {N : Int}
    (hN : SLIP_matrix_nnz true (some A) = .ok N) (hz : N ≤ 2 ^ 59) (hn : A.n ≤ 2 ^ 60)
    (hd : A.kind = .dense → A.m * A.n ≤ 2 ^ 60)
    (hub : SLIP_matrix_check qs true (some A) opt ≠ .error .ub) :
    SLIP_matrix_check64 qs true (some A) opt = SLIP_matrix_check qs true (some A) opt := by
  have hnn : SLIP_matrix_nnz64 true (some A) = .ok N := by
    have := (agree_nnz (A := A) fun h => by have := hd h; omega).eq (by rw [hN]; simp)
    rw [this, hN]
  unfold SLIP_matrix_check64 SLIP_matrix_check
  unfold SLIP_matrix_check at hub
  simp only [Bool.not_true, Bool.false_eq_true, if_false] at hub ⊢
  rw [hN, ok_bind] at hub
  rw [hN, hnn, ok_bind, ok_bind]
  by_cases h0 : N < 0
  · rw [if_pos h0, if_pos h0]
  rw [if_neg h0] at hub
  rw [if_neg h0, if_neg h0]
  by_cases c1 : A.m < 0
  · rw [if_pos c1, if_pos c1]
  rw [if_neg c1] at hub
  rw [if_neg c1, if_neg c1]
  by_cases c2 : A.n < 0
  · rw [if_pos c2, if_pos c2]
  rw [if_neg c2] at hub
  rw [if_neg c2, if_neg c2]
  by_cases c3 : A.nzmax < 0
  · rw [if_pos c3, if_pos c3]
  rw [if_neg c3] at hub
  rw [if_neg c3, if_neg c3]
  by_cases c4 : (!A.type.good) = true
  · rw [if_pos c4, if_pos c4]
  rw [if_neg c4] at hub
  rw [if_neg c4, if_neg c4]
  congr 1
  refine (agree_checkKind (by omega) (by omega) hn hz hd).eq ?_
  intro e
  rw [e] at hub
  exact hub rfl

/-- C46 (SLIP_matrix_check): under the same bounds the verdict in 64 bits is exactly the specification of a well-formed
matrix (C23): `SLIP_OK` if and only if the matrix is well formed, `SLIP_INCORRECT_INPUT` otherwise. -/
theorem C46_check_exact {qs : List (Int × Int) → List (Int × Int)} (hq : QsortOk qs)
    (opt : Option Options) (A : Mat) (hr : Readable (optPrint opt) A) (hzm : A.nzmax ≠ 0) {N : Int}
    (hN : SLIP_matrix_nnz true (some A) = .ok N) (hz : N ≤ 2 ^ 59) (hn : A.n ≤ 2 ^ 60)
    (hd : A.kind = .dense → A.m * A.n ≤ 2 ^ 60) :
    (SLIP_matrix_check64 qs true (some A) opt = .ok .ok ∧ WellFormed A) ∨
    (SLIP_matrix_check64 qs true (some A) opt = .ok .incorrectInput ∧ ¬ WellFormed A) := by
  have h := C23_check_exact hq opt A hr hzm
  rw [C46_check qs opt A hN hz hn hd (by rcases h with h | h <;> rw [h.1] <;> simp)]
  exact h

/-- C46: the size bound cannot be dropped. Asked to check a dense matrix that claims 2^32 rows and 2^32 columns, the checker
overflows in its own first computation, the product of the two numbers, before any of the fields is looked at. -/
theorem C46_check_size_refuted : ∃ A : Mat, A.m = 2 ^ 32 ∧ A.n = 2 ^ 32 ∧ A.kind = .dense ∧
    (∀ qs opt, SLIP_matrix_check64 qs true (some A) opt = .error .ub) ∧
    (∀ qs, SLIP_matrix_check qs true (some A) none = .ok .incorrectInput) :=
  ⟨{ m := 2 ^ 32, n := 2 ^ 32, nzmax := 1, nz := 0, kind := .dense, type := .mpz,
     p := none, pShallow := false, i := none, iShallow := false, j := none, jShallow := false,
     x := none, xShallow := false, scale := 1 }, rfl, rfl, rfl,
    fun _ _ => rfl, fun _ => rfl⟩

/-- The hypotheses of `C46_check` and `C46_check_exact` are met by the matrix of the examples, at print level 3. -/
example : SLIP_matrix_check64 Ex.qs true (some Ex.A) ((SLIP_create_default_options true).map ({ · with printLevel := 3 })) = .ok .ok ∧
    SLIP_matrix_nnz true (some Ex.A) = .ok 6 ∧ Ex.A.n ≤ 2 ^ 60 := by
  decide +kernel

end Slip
