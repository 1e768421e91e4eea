import Verif.Proof.ColTop
import Verif.Proof.Machine5
import Mathlib.Tactic.IntervalCases

/-!
# C41: COLAMD, the default column ordering
-/

namespace Slip.Colamd

variable {n m : ℕ} {nnz Alen : ℤ} {A p : Arr Int}

/-- C41: for every pattern of an `m`-by-`n` matrix without duplicates (rows in any order, empty rows and
columns allowed), every workspace of the documented size, and whatever the thresholds for dense rows and
columns: COLAMD terminates, accesses no memory outside its arrays, reads no memory that was not
initialised, returns TRUE, and `p` holds a permutation of the columns. -/
theorem C41_permutation (K : Knobs) (hp : p.length = n + 1) (hA : (A.length : ℤ) = Alen)
    (h : RectPattern n m nnz p A) (hal : 2 * nnz + n + 6 * (n + 1) + 4 * (m + 1) ≤ Alen) :
    ∃ q, colamd (ar := Arith.exact) n m Alen A p K = .ok (true, q) ∧ ∃ τ : Equiv.Perm (Fin n), Holds q τ :=
  colamd_ok (ar := Arith.exact) hp hA.ge h hal (fun _ _ _ => rfl)

/-- C41: an input that is not acceptable (a negative size, pointers that do not start at 0 or that
decrease, a row index out of range, too little memory) is rejected with FALSE, `p` is unchanged, and no
memory is accessed that is not initialised. There may be duplicates. -/
theorem C41_reject (K : Knobs) {n m : ℤ} (hp : 0 ≤ n → p.length = n + 1) (hA : (A.length : ℤ) = Alen)
    (ip : 0 ≤ n → ∀ t : ℤ, 0 ≤ t → t ≤ n → ∃ v, get p t = some v)
    (iA : 0 ≤ n → ∀ v, get p n = some v → ∀ t : ℤ, 0 ≤ t → t < v → t < Alen → ∃ w, get A t = some w)
    (h : ¬ ∃ nnz, Acceptable n m nnz Alen p A) : colamd (ar := Arith.exact) n m Alen A p K = .ok (false, p) :=
  colamd_invalid (ar := Arith.exact) hp hA.ge ip iA (fun _ _ _ => rfl) (fun _ _ _ _ _ _ _ => rfl) h

/-- C41: the same with 64-bit integers, if the workspace has fewer than 2^60 elements (2^63 bytes, more
than can be allocated): no operation of COLAMD overflows, and the permutation is the same as with
unbounded integers. -/
theorem C41_permutation64 (K : Knobs) (hp : p.length = n + 1) (hA : (A.length : ℤ) = Alen)
    (h : RectPattern n m nnz p A) (hal : 2 * nnz + n + 6 * (n + 1) + 4 * (m + 1) ≤ Alen)
    (hs : Alen < 2 ^ 60) :
    ∃ q, colamd (ar := Arith.bits64) n m Alen A p K = .ok (true, q) ∧
      colamd (ar := Arith.exact) n m Alen A p K = .ok (true, q) ∧ ∃ τ : Equiv.Perm (Fin n), Holds q τ := by
  obtain ⟨q, e, hτ⟩ := C41_permutation K hp hA h hal
  exact ⟨q, by rw [M64.colamd64_eq hp hA.ge h hal hs]; exact e, e, hτ⟩

/-- C41: the same for input that is not acceptable, if the difference of two pointers that follow one
another fits in 64 bits. -/
theorem C41_reject64 (K : Knobs) {n m : ℤ} (hp : 0 ≤ n → p.length = n + 1) (hA : (A.length : ℤ) = Alen)
    (ip : 0 ≤ n → ∀ t : ℤ, 0 ≤ t → t ≤ n → ∃ v, get p t = some v)
    (iA : 0 ≤ n → ∀ v, get p n = some v → ∀ t : ℤ, 0 ≤ t → t < v → t < Alen → ∃ w, get A t = some w)
    (hs : n + m + Alen < 2 ^ 60)
    (hd : ∀ c : ℤ, 0 ≤ c → c < n → ∀ a b, get p c = some a → get p (c + 1) = some b →
      -2 ^ 63 ≤ b - a ∧ b - a < 2 ^ 63)
    (h : ¬ ∃ nnz, Acceptable n m nnz Alen p A) :
    colamd (ar := Arith.bits64) n m Alen A p K = .ok (false, p) := by
  by_cases h1 : m < 0
  · unfold colamd; rw [if_pos h1]; rfl
  by_cases h2 : n < 0
  · unfold colamd; rw [if_neg h1, if_pos h2]; rfl
  refine colamd_invalid (ar := Arith.bits64) hp hA.ge ip iA
    (M64.fits64 (by simp only [colSize, rowSize]; omega)) ?_ h
  intro c c0 c1 a b ha hb
  exact M64.i64_eq (hd c c0 c1 a b ha hb).1 (hd c c0 c1 a b ha hb).2

/-- The pointers of a 1-by-3 matrix, not acceptable: they decrease. -/
def wrapP : Arr Int := [some 0, some 9223372036854775807, some (-2), some 1]

/-- C41: without this condition the length of a column overflows before it is checked: `p[2] - p[1]` of
`p = [0, 2^63-1, -2, 1]` is not a 64-bit integer (colamd.c line 1675). With unbounded integers the input
is rejected. -/
theorem C41_reject_overflow_refuted (K : Knobs) :
    (¬ ∃ nnz, Acceptable 3 1 nnz 37 wrapP (some 0 :: List.replicate 36 none)) ∧
    colamd (ar := Arith.exact) 3 1 37 (some 0 :: List.replicate 36 none) wrapP K = .ok (false, wrapP) ∧
    colamd (ar := Arith.bits64) 3 1 37 (some 0 :: List.replicate 36 none) wrapP K = .error .ub := by
  refine ⟨?_, rfl, rfl⟩
  rintro ⟨nnz, h⟩
  have := h.mono 1 (by decide) (by decide) _ _ rfl rfl
  omega

/-- A 3-by-4 pattern with an empty column and unsorted rows. -/
def exP : Arr Int := [some 0, some 3, some 3, some 5, some 6]

/-- The row indices, and memory that is not initialised. -/
def exA : Arr Int := [some 2, some 0, some 1, some 2, some 1, some 0] ++ List.replicate 56 none

theorem ex_rect : RectPattern 4 3 6 exP exA := by
  refine ⟨rfl, rfl, fun j hj => ?_⟩
  interval_cases j
  · refine ⟨0, 3, rfl, rfl, by decide, fun t t0 t1 => ?_, fun t t' t0 t1 t0' t1' e => ?_⟩
    · interval_cases t
      · exact ⟨2, by decide, rfl⟩
      · exact ⟨0, by decide, rfl⟩
      · exact ⟨1, by decide, rfl⟩
    · interval_cases t <;> interval_cases t' <;> first | rfl | exact absurd e (by decide)
  · exact ⟨3, 3, rfl, rfl, by decide, fun t t0 t1 => by omega, fun t t' t0 t1 => by omega⟩
  · refine ⟨3, 5, rfl, rfl, by decide, fun t t0 t1 => ?_, fun t t' t0 t1 t0' t1' e => ?_⟩
    · interval_cases t
      · exact ⟨2, by decide, rfl⟩
      · exact ⟨1, by decide, rfl⟩
    · interval_cases t <;> interval_cases t' <;> first | rfl | exact absurd e (by decide)
  · refine ⟨5, 6, rfl, rfl, by decide, fun t t0 t1 => ?_, fun t t' t0 t1 t0' t1' e => by omega⟩
    interval_cases t
    exact ⟨0, by decide, rfl⟩

/-- `C41_permutation` applies to it, whatever the thresholds. -/
example (K : Knobs) : ∃ q, colamd (ar := Arith.exact) 4 3 62 exA exP K = .ok (true, q) ∧
    ∃ τ : Equiv.Perm (Fin 4), Holds q τ :=
  C41_permutation (n := 4) (m := 3) K rfl rfl ex_rect (by norm_num)

/-- `C41_permutation64` applies to it. -/
example (K : Knobs) : ∃ q, colamd (ar := Arith.bits64) 4 3 62 exA exP K = .ok (true, q) ∧
    colamd (ar := Arith.exact) 4 3 62 exA exP K = .ok (true, q) ∧ ∃ τ : Equiv.Perm (Fin 4), Holds q τ :=
  C41_permutation64 (n := 4) (m := 3) K rfl rfl ex_rect (by norm_num) (by norm_num)

/-- `C41_reject` applies to it if the matrix is said to have only two rows. -/
example (K : Knobs) : colamd (ar := Arith.exact) 4 2 62 exA exP K = .ok (false, exP) := by
  refine C41_reject K (fun _ => rfl) rfl ?_ ?_ ?_
  · intro _ t t0 t1
    interval_cases t <;> exact ⟨_, rfl⟩
  · rintro _ v ⟨⟩ t t0 t1 _
    interval_cases t <;> exact ⟨_, rfl⟩
  · rintro ⟨nnz, h⟩
    have e : nnz = 6 := (Option.some.inj (h.e.symm.trans (show get exP 4 = some 6 from rfl)))
    have := (h.idx 0 le_rfl (by omega) 2 rfl).2
    omega

/-! ### Duplicates -/

/-- The pointers of a 3-by-7 matrix. -/
def dupP : Arr Int := [some 0, some 3, some 6, some 8, some 9, some 12, some 15, some 16]

/-- Its row indices, with duplicates in the columns 1, 4 and 5. The workspace has the recommended size
(`COLAMD_recommended`, colamd.c lines 1032-1056: `nnz/5` more than needed). -/
def dupA : Arr Int := [some 2, some 0, some 1, some 0, some 0, some 0, some 2, some 0, some 2, some 0,
  some 1, some 0, some 1, some 2, some 2, some 1] ++ List.replicate 90 none

/-- C41: duplicates are allowed according to the documentation of COLAMD ("duplicate row indices are
removed"), but then the end of the row form is never written, and the garbage collection scans it: it
reads memory that was not initialised (and takes a negative number it finds there for the mark of a
row). The default thresholds are used. -/
theorem C41_duplicates_refuted :
    ∃ nnz Alen, Acceptable 7 3 nnz Alen dupP dupA ∧
      2 * nnz + 7 + 6 * (7 + 1) + 4 * (3 + 1) + nnz / 5 ≤ Alen ∧ (dupA.length : ℤ) = Alen ∧
      colamd (ar := Arith.exact) 7 3 Alen dupA dupP ⟨26, 17, true⟩ = .error .ub := by
  refine ⟨16, 106, ⟨by norm_num, by norm_num, by norm_num, rfl, rfl, by norm_num, ?_, ?_⟩, by norm_num,
    by decide, by decide +kernel⟩
  · intro c c0 c1 a b ha hb
    interval_cases c <;> cases ha <;> cases hb <;> decide
  · intro t t0 t1 r hr
    interval_cases t <;> cases hr <;> decide

end Slip.Colamd
