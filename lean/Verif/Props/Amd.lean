import Verif.Proof.AmdOrder
import Verif.Proof.AmdLe
import Mathlib.Tactic.IntervalCases

/-!
# C43: AMD, the fill-reducing ordering of the pattern of A + A'
-/

namespace Slip.Amd

variable {n : ℕ} {Ap Ai P : Arr Int}

/-- C43: for every pattern of an `n`-by-`n` matrix, `n > 0` (rows in any order, repeated entries, empty
rows and columns allowed), whatever the dense-row threshold and with or without aggressive absorption:
if memory does not run out, AMD terminates, accesses no memory outside its arrays, reads no memory that was
not initialised, and returns a permutation of the columns and a count between 0 and `n (n-1) / 2`, the number of positions
below the diagonal; the status is AMD_OK if
the row indices increase strictly in each column and AMD_OK_BUT_JUMBLED otherwise. -/
theorem C43_permutation (K : Knobs) (hn : 0 < n) (h : SquarePattern n Ap Ai) (hP : n ≤ P.length) :
    ∃ st P' lnz, amd_order (ar := Arith.exact) n Ap Ai P ⟨true, true, true⟩ K = .ok (st, P', lnz) ∧
      ((st = .ok ∧ StrictlySorted n Ap Ai) ∨ (st = .jumbled ∧ ¬StrictlySorted n Ap Ai)) ∧
      (∃ τ : Equiv.Perm (Fin n), Holds P' τ) ∧ 0 ≤ lnz ∧ 2 * lnz ≤ n * (n - 1) := by
  obtain ⟨st, P', lnz, e, h | h⟩ := amd_order_pattern (ar := Arith.exact) (P := P) ⟨true, true, true⟩ K (room_exact (by omega)) hn h hP
  · exact ⟨st, P', lnz, e, h.2⟩
  · exact absurd ⟨rfl, rfl, fun _ => rfl⟩ h.1

/-- C43: with a valid pattern, AMD fails only if an allocation fails that it makes: it then returns
AMD_OUT_OF_MEMORY and no count, and otherwise the status of `C43_permutation`. The copy `R` of the matrix
is allocated only for a jumbled matrix. -/
theorem C43_out_of_memory (M : Alloc) (K : Knobs) (hn : 0 < n) (h : SquarePattern n Ap Ai)
    (hP : n ≤ P.length) :
    ∃ st P' lnz, amd_order (ar := Arith.exact) n Ap Ai P M K = .ok (st, P', lnz) ∧ st ≠ .invalid ∧
      (st = .oom ↔ M.w = false ∨ M.s = false ∨ (¬StrictlySorted n Ap Ai ∧ M.r = false)) ∧
      (st = .oom ↔ lnz = -1) ∧
      (st ≠ .oom → (∃ τ : Equiv.Perm (Fin n), Holds P' τ) ∧ (st = .ok ↔ StrictlySorted n Ap Ai)) := by
  obtain ⟨st, P', lnz, e, h | h⟩ := amd_order_pattern (ar := Arith.exact) (P := P) M K (room_exact (by omega)) hn h hP
  · obtain ⟨⟨h1, h2, h3⟩, h4, h5, h6, -⟩ := h
    have hs : st ≠ .invalid ∧ st ≠ .oom := by rcases h4 with ⟨rfl, -⟩ | ⟨rfl, -⟩ <;> exact ⟨nofun, nofun⟩
    refine ⟨st, P', lnz, e, hs.1, ⟨fun h => absurd h hs.2, ?_⟩, ⟨fun h => absurd h hs.2, by omega⟩,
      fun _ => ⟨h5, ?_⟩⟩
    · rintro (h | h | ⟨h, h'⟩)
      · rw [h1] at h; cases h
      · rw [h2] at h; cases h
      · rw [h3 h] at h'; cases h'
    · rcases h4 with ⟨rfl, h⟩ | ⟨rfl, h⟩
      · exact ⟨fun _ => h, fun _ => rfl⟩
      · exact ⟨nofun, fun h' => absurd h' h⟩
  · obtain ⟨h1, rfl, rfl⟩ := h
    refine ⟨.oom, P', -1, e, nofun, ⟨fun _ => ?_, fun _ => rfl⟩, ⟨fun _ => rfl, fun _ => rfl⟩,
      fun h => absurd rfl h⟩
    by_contra h2
    simp only [not_or, not_and, Bool.not_eq_false] at h2
    exact h1 ⟨h2.1, h2.2.1, h2.2.2⟩

/-- C43, C46: the program with its 64-bit integers. For every pattern with `n ≤ 2^29` none of the
additions, subtractions and negations of AMD overflows, whatever the threshold and whichever allocation
fails: the run is that of the algorithm on unbounded integers. -/
theorem C43_no_overflow (M : Alloc) (K : Knobs) (hB : n ≤ 2 ^ 29) (h : SquarePattern n Ap Ai) (hP : n ≤ P.length) :
    amd_order (ar := Arith.bits64) n Ap Ai P M K = amd_order (ar := Arith.exact) n Ap Ai P M K := by
  refine (amd_order_le ..).eq ?_
  rcases Nat.eq_zero_or_pos n with rfl | hn
  · intro h; cases h
  · obtain ⟨st, P', lnz, e, -⟩ := amd_order_pattern (ar := Arith.bits64) (P := P) M K
      (room_bits64 (by omega) (by exact_mod_cast hB)) hn h hP
    rw [e]
    intro h; cases h

/-- C43 with 64-bit integers: for every pattern with `0 < n ≤ 2^29`, if memory does not run out, the program
computes without undefined behaviour a permutation of the columns. -/
theorem C43_permutation64 (K : Knobs) (hn : 0 < n) (hB : n ≤ 2 ^ 29) (h : SquarePattern n Ap Ai)
    (hP : n ≤ P.length) :
    ∃ st P' lnz, amd_order (ar := Arith.bits64) n Ap Ai P ⟨true, true, true⟩ K = .ok (st, P', lnz) ∧
      ((st = .ok ∧ StrictlySorted n Ap Ai) ∨ (st = .jumbled ∧ ¬StrictlySorted n Ap Ai)) ∧
      (∃ τ : Equiv.Perm (Fin n), Holds P' τ) ∧ 0 ≤ lnz ∧ 2 * lnz ≤ n * (n - 1) := by
  rw [C43_no_overflow _ K hB h hP]
  exact C43_permutation K hn h hP

/-- C43: an input that is not the pattern of an `n`-by-`n` matrix (pointers that do not start at 0 or that
decrease, a row index out of range) is rejected with AMD_INVALID and `P` is unchanged, provided the memory
below each pointer is initialised (`C43_unsafe_refuted`: this cannot be dropped). -/
theorem C43_reject (M : Alloc) (K : Knobs) (hn : 0 < n) (hi : Initialised n Ap Ai)
    (h : ¬SquarePattern n Ap Ai) : amd_order (ar := Arith.exact) n Ap Ai P M K = .ok (.invalid, P, -1) :=
  amd_order_invalid (ar := Arith.exact) M K hn hi h

/-- C43: so it is by the program with 64-bit integers, whatever the dimension. -/
theorem C43_reject64 (M : Alloc) (K : Knobs) (hn : 0 < n) (hi : Initialised n Ap Ai)
    (h : ¬SquarePattern n Ap Ai) : amd_order (ar := Arith.bits64) n Ap Ai P M K = .ok (.invalid, P, -1) :=
  amd_order_invalid (ar := Arith.bits64) M K hn hi h

/-- C43: a negative dimension is rejected. -/
theorem C43_negative (M : Alloc) (K : Knobs) {n : ℤ} (hn : n < 0) :
    amd_order (ar := Arith.exact) n Ap Ai P M K = .ok (.invalid, P, -1) := by
  unfold amd_order
  rw [if_pos hn]
  rfl

/-- C43: for a matrix without rows the status is AMD_OK, but the count is not computed (it is -1). -/
theorem C43_empty (M : Alloc) (K : Knobs) : amd_order (ar := Arith.exact) 0 Ap Ai P M K = .ok (.ok, P, -1) := rfl

/-- C43 without the assumption on the memory is false: with decreasing pointers AMD_valid reads the row
indices of a column before it looks at the pointers of the later columns. Here `Ap = [0, 2, 1]` and there is
one row index: the matrix is invalid, but it is not rejected: `Ai [1]` is read. -/
theorem C43_unsafe_refuted (M : Alloc) (K : Knobs) :
    ¬SquarePattern 2 [some 0, some 2, some 1] [some 0] ∧
    amd_order (ar := Arith.exact) 2 [some 0, some 2, some 1] [some 0] P M K = .error .ub := by
  constructor
  · intro h
    obtain ⟨a, b, ha, hb, hab, -⟩ := h.col 1 (by decide)
    cases ha
    cases hb
    omega
  · have : amd_valid 2 2 [some 0, some 2, some 1] [some 0] = .error .ub := rfl
    unfold amd_order
    rw [if_neg (by decide), if_neg (by decide), this]
    rfl

/-! ## Examples -/

/-- A 5-by-5 pattern: the second column is empty, the first is not sorted and has a repeated entry, the
matrix is not symmetric. -/
def exP : Arr Int := [some 0, some 4, some 4, some 6, some 7, some 9]

/-- The row indices. -/
def exI : Arr Int := [some 3, some 0, some 3, some 1, some 2, some 4, some 0, some 1, some 4]

theorem ex_square : SquarePattern 5 exP exI := by
  refine ⟨rfl, fun j hj => ?_⟩
  interval_cases j
  · refine ⟨0, 4, rfl, rfl, by decide, fun t t0 t1 => ?_⟩
    interval_cases t
    exacts [⟨3, by decide, rfl⟩, ⟨0, by decide, rfl⟩, ⟨3, by decide, rfl⟩, ⟨1, by decide, rfl⟩]
  · exact ⟨4, 4, rfl, rfl, by decide, fun t t0 t1 => by omega⟩
  · refine ⟨4, 6, rfl, rfl, by decide, fun t t0 t1 => ?_⟩
    interval_cases t
    exacts [⟨2, by decide, rfl⟩, ⟨4, by decide, rfl⟩]
  · refine ⟨6, 7, rfl, rfl, by decide, fun t t0 t1 => ?_⟩
    interval_cases t
    exact ⟨0, by decide, rfl⟩
  · refine ⟨7, 9, rfl, rfl, by decide, fun t t0 t1 => ?_⟩
    interval_cases t
    exacts [⟨1, by decide, rfl⟩, ⟨4, by decide, rfl⟩]

theorem ex_jumbled : ¬StrictlySorted 5 exP exI := fun h => by
  have := h 0 (by decide) 0 4 rfl rfl 0 1 (by decide) (by decide) (by decide) 3 0 rfl rfl
  omega

/-- `C43_permutation` applies to it, whatever the parameters. -/
example (K : Knobs) : ∃ P' lnz, amd_order (ar := Arith.exact) 5 exP exI (malloc Int 5) ⟨true, true, true⟩ K =
    .ok (.jumbled, P', lnz) ∧ (∃ τ : Equiv.Perm (Fin 5), Holds P' τ) ∧ 0 ≤ lnz := by
  obtain ⟨st, P', lnz, e, h | h, h'⟩ := C43_permutation (P := malloc Int 5) K (by decide) ex_square (by decide)
  · exact absurd h.2 ex_jumbled
  · exact ⟨P', lnz, h.1 ▸ e, h'.1, h'.2.1⟩

/-- `C43_permutation64` applies to it. -/
example (K : Knobs) : ∃ P' lnz, amd_order (ar := Arith.bits64) 5 exP exI (malloc Int 5) ⟨true, true, true⟩ K =
    .ok (.jumbled, P', lnz) ∧ (∃ τ : Equiv.Perm (Fin 5), Holds P' τ) ∧ 0 ≤ lnz := by
  obtain ⟨st, P', lnz, e, h | h, h'⟩ := C43_permutation64 (P := malloc Int 5) K (by decide) (by decide) ex_square (by decide)
  · exact absurd h.2 ex_jumbled
  · exact ⟨P', lnz, h.1 ▸ e, h'.1, h'.2.1⟩

/-- What AMD returns for it: the permutation `3 0 1 2 4`, and 4 entries below the diagonal. -/
example : (match amd_order (ar := Arith.exact) 5 exP exI (malloc Int 5) ⟨true, true, true⟩ ⟨16, true⟩ with
      | .ok r => some r
      | .error _ => none) =
    some (.jumbled, [some 3, some 0, some 1, some 2, some 4], 4) := by decide +kernel

/-- `C43_reject` applies to it if the last row index is out of range. -/
example (M : Alloc) (K : Knobs) : amd_order (ar := Arith.exact) 5 exP (exI.set 8 (some 5)) (malloc Int 5) M K =
    .ok (.invalid, malloc Int 5, -1) := by
  refine C43_reject M K (by decide) ⟨fun j hj => ?_, fun j hj v hv t t0 t1 => ?_⟩ fun h => ?_
  · interval_cases j <;> exact ⟨_, rfl⟩
  · have : v ≤ 9 := by interval_cases j <;> cases hv <;> decide
    have t9 : t < 9 := by omega
    interval_cases t <;> exact ⟨_, rfl⟩
  · obtain ⟨a, b, ha, hb, -, h⟩ := h.col 4 (by decide)
    cases ha
    cases hb
    obtain ⟨r, hr, e⟩ := h 8 (by decide) (by decide)
    cases e
    omega

end Slip.Amd
