import Verif.Proof.CostCopy2
import Verif.SpecMat
import Mathlib.Tactic.IntervalCases

/-!
# C60: the time and the memory of a copy

`Verif/Model/CostCopy.lean` has `SLIP_matrix_copy` with a counter: with the weights `1, 0, 0` it counts the calls of GMP
and MPFR on entries, with `0, 1, 0` the iterations of all loops (initialisations of numbers and elements moved by `memcpy`
included), with `0, 0, 1` the elements of all arrays for which memory is requested, temporary ones included.
-/

namespace Slip

/-! ## Specification -/

/-- An `m`-by-`n` matrix object with `N` entries, as `SLIP_matrix_nnz` counts them (for a dense matrix all `m*n`). If it is CSC,
its column pointers start at 0 and do not decrease. Nothing is assumed of the row and column indices and of the values. -/
structure Shape (m n N : ℕ) (A : Mat) : Prop where
  rows : A.m = m
  cols : A.n = n
  nnz : SLIP_matrix_nnz true (some A) = .ok (N : ℤ)
  p0 : A.kind = .csc → get (deref A.p) 0 = some 0
  col : A.kind = .csc → ∀ j : ℕ, j < n → ∃ a b : ℤ, get (deref A.p) j = some a ∧
    get (deref A.p) ((j : ℤ) + 1) = some b ∧ a ≤ b

/-- The number of places of the result that are stored whatever the source contains: `m*n` for a dense result. -/
def densePlaces (kind : Kind) (m n : ℕ) : ℕ := if kind = .dense then m * n else 0

/-- The number of calls of GMP and MPFR on entries. -/
def copyCalls (fp : Fp) (Ch : Handle Mat) (kind : Kind) (type : Ty) (A : Mat) (opt : Option Options) : ℕ :=
  (SLIP_matrix_copyT 1 0 0 fp true Ch kind type (some A) opt 0).2

/-- The number of loop iterations. -/
def copyIts (fp : Fp) (Ch : Handle Mat) (kind : Kind) (type : Ty) (A : Mat) (opt : Option Options) : ℕ :=
  (SLIP_matrix_copyT 0 1 0 fp true Ch kind type (some A) opt 0).2

/-- The number of array elements for which memory is requested. -/
def copyStorage (fp : Fp) (Ch : Handle Mat) (kind : Kind) (type : Ty) (A : Mat) (opt : Option Options) : ℕ :=
  (SLIP_matrix_copyT 0 0 1 fp true Ch kind type (some A) opt 0).2

/-! ## Theorems -/

variable {m n N : ℕ} {A : Mat} {fp : Fp} {opt : Option Options} {Ch : Handle Mat} {kind : Kind} {type : Ty}

theorem Shape.ptrs (h : Shape m n N A) (hk : A.kind = .csc) : Ptrs n N (deref A.p) := by
  have hg : ∀ t ≤ n, ∃ a, get (deref A.p) (t : ℤ) = some a := by
    intro t ht
    rcases Nat.eq_zero_or_pos t with rfl | h0
    · exact ⟨0, h.p0 hk⟩
    · obtain ⟨a, b, -, hb, -⟩ := h.col hk (t - 1) (by omega)
      rw [show (((t - 1 : ℕ) : ℤ) + 1) = t by omega] at hb
      exact ⟨b, hb⟩
  refine ⟨fun t => (get (deref A.p) (t : ℤ)).getD 0, ?_, fun t ht => ?_, ?_, fun t ht => ?_⟩
  · have := h.p0 hk
    simp only [Nat.cast_zero, this, Option.getD_some]
  · obtain ⟨a, b, ha, hb, hab⟩ := h.col hk t ht
    simp only [Nat.cast_add, Nat.cast_one, ha, hb, Option.getD_some]
    exact hab
  · have hN := h.nnz
    unfold SLIP_matrix_nnz at hN
    simp only [Bool.not_true, Bool.false_eq_true, if_false, hk] at hN
    have hc := h.cols
    cases e : A.p with
    | none =>
      rw [e] at hN
      have := Except.ok.inj hN
      omega
    | some p =>
      rw [e] at hN
      simp only at hN
      rw [if_neg (by omega), hc] at hN
      have := rd_ok hN
      show (get p (n : ℤ)).getD 0 = N
      rw [this]
      rfl
  · obtain ⟨a, ha⟩ := hg t ht
    simp only [ha, Option.getD_some]

/-- Every valid matrix has a shape. -/
theorem Shape.of_valid (h : Valid m n A) : ∃ N, Shape m n N A := by
  rcases h with h | h | h
  · have hp : A.p ≠ none := by
      intro e
      have := h.p0
      rw [e] at this
      cases this
    obtain ⟨p, e⟩ := Option.ne_none_iff_exists'.1 hp
    have hcol : ∀ j : ℕ, j < n → ∃ a b : ℤ, get (deref A.p) j = some a ∧
        get (deref A.p) ((j : ℤ) + 1) = some b ∧ a ≤ b := by
      intro j hj
      obtain ⟨a, b, ha, hb, hab, -⟩ := h.col j hj
      exact ⟨a, b, ha, hb, hab⟩
    have key : ∀ t : ℕ, t ≤ n → ∃ N : ℕ, get p (t : ℤ) = some (N : ℤ) := by
      intro t
      induction t with
      | zero =>
        intro _
        have := h.p0
        rw [e] at this
        exact ⟨0, this⟩
      | succ t ih =>
        intro ht
        obtain ⟨M, hM⟩ := ih (by omega)
        obtain ⟨a, b, ha, hb, hab⟩ := hcol t (by omega)
        rw [e] at ha hb
        change get p _ = _ at ha
        change get p _ = _ at hb
        rw [hM] at ha
        cases ha
        exact ⟨b.toNat, by rw [Nat.cast_succ, hb, Int.toNat_of_nonneg (by omega)]⟩
    obtain ⟨N, hN⟩ := key n le_rfl
    refine ⟨N, h.rows, h.cols, ?_, fun _ => h.p0, fun _ => hcol⟩
    unfold SLIP_matrix_nnz
    simp only [Bool.not_true, Bool.false_eq_true, if_false, h.kind, e]
    rw [if_neg (by have := h.cols; omega), h.cols]
    unfold rd
    rw [hN]
  · have hk := h.kind
    have hz := h.nz
    refine ⟨A.nz.toNat, h.rows, h.cols, ?_, (fun e => by rw [hk] at e; cases e), fun e => by rw [hk] at e; cases e⟩
    unfold SLIP_matrix_nnz
    simp only [Bool.not_true, Bool.false_eq_true, if_false, hk]
    rw [Int.toNat_of_nonneg hz]
    rfl
  · have hk := h.kind
    refine ⟨m * n, h.rows, h.cols, ?_, (fun e => by rw [hk] at e; cases e), fun e => by rw [hk] at e; cases e⟩
    unfold SLIP_matrix_nnz
    have h1 := h.rows
    have h2 := h.cols
    simp only [Bool.not_true, Bool.false_eq_true, if_false, hk]
    rw [if_neg (by omega), h1, h2, Nat.cast_mul]
    rfl

/-- C60: the counted copy is the copy: whatever the weights, it returns what `SLIP_matrix_copy` returns. -/
theorem C60_same (h : Shape m n N A) (α β γ w : ℕ) :
    (SLIP_matrix_copyT α β γ fp true Ch kind type (some A) opt w).1 =
      SLIP_matrix_copy fp true Ch kind type (some A) opt := by
  obtain ⟨w', e, -⟩ := SLIP_matrix_copyT_lin (α := α) (β := β) (γ := γ) (kind := kind) (Ch := Ch) fp opt type h.rows h.cols
    h.nnz h.ptrs w
  rw [e]

/-- C60: a copy from any kind and type to any kind and type makes at most 15 calls of GMP and MPFR per entry of the source -
whether or not it succeeds. In particular the computation of a common denominator, or of a common divisor, does
not take quadratic time. -/
theorem C60_calls (h : Shape m n N A) : copyCalls fp Ch kind type A opt ≤ 15 * N := by
  obtain ⟨w', e, hw⟩ := SLIP_matrix_copyT_lin (α := 1) (β := 0) (γ := 0) (kind := kind) (Ch := Ch) fp opt type h.rows h.cols
    h.nnz h.ptrs 0
  unfold copyCalls
  rw [e]
  show w' ≤ _
  omega

/-- C60: the number of iterations of all its loops is at most linear in the number of entries, the number of columns and, for
a dense result only, the number of its places. In particular triplets in any order are sorted into columns in
linear time. -/
theorem C60_iterations (h : Shape m n N A) :
    copyIts fp Ch kind type A opt ≤ 17 * N + 2 * n + densePlaces kind m n + 7 := by
  obtain ⟨w', e, hw⟩ := SLIP_matrix_copyT_lin (α := 0) (β := 1) (γ := 0) (kind := kind) (Ch := Ch) fp opt type h.rows h.cols
    h.nnz h.ptrs 0
  unfold copyIts densePlaces
  rw [e]
  show w' ≤ _
  omega

/-- C60: and so is the number of array elements for which it requests memory, temporary arrays included: a copy between sparse
formats never needs memory for `m*n` entries. -/
theorem C60_storage (h : Shape m n N A) :
    copyStorage fp Ch kind type A opt ≤ 11 * N + 2 * n + densePlaces kind m n + 13 := by
  obtain ⟨w', e, hw⟩ := SLIP_matrix_copyT_lin (α := 0) (β := 0) (γ := 1) (kind := kind) (Ch := Ch) fp opt type h.rows h.cols
    h.nnz h.ptrs 0
  unfold copyStorage densePlaces
  rw [e]
  show w' ≤ _
  omega

/-- C60: the same for every valid matrix. -/
theorem C60_valid (h : Valid m n A) : ∃ N : ℕ, SLIP_matrix_nnz true (some A) = .ok (N : ℤ) ∧
    copyCalls fp Ch kind type A opt ≤ 15 * N ∧
    copyIts fp Ch kind type A opt ≤ 17 * N + 2 * n + densePlaces kind m n + 7 ∧
    copyStorage fp Ch kind type A opt ≤ 11 * N + 2 * n + densePlaces kind m n + 13 := by
  obtain ⟨N, hS⟩ := Shape.of_valid h
  exact ⟨N, hS.nnz, C60_calls hS, C60_iterations hS, C60_storage hS⟩

/-! ## Examples -/

namespace CopyWorkEx

/-- Four values of a type. -/
def vals : Ty → Vals
  | .mpz => .mpz [some 6, some 4, some 10, some 0]
  | .mpq => .mpq [some (1 / 2), some (2 / 3), some 5, some 0]
  | .mpfr => .mpfr [some (.fin 6), some (.fin 4), some (.fin 10), some (.fin 0)]
  | .int64 => .int64 [some 6, some 4, some 10, some 0]
  | _ => .fp64 [some (.fin 0), some (.fin 4), some (.fin 10), some (.fin 6)]

/-- A 2-by-2 matrix with 3 entries (4 if dense). -/
def src (kind : Kind) (type : Ty) (scale : ℚ) : Mat :=
  { m := 2, n := 2, nzmax := 4, nz := 3, kind := kind, type := type, p := some [some 0, some 1, some 3],
    pShallow := false, i := some [some 1, some 0, some 1], iShallow := false, j := some [some 0, some 1, some 1],
    jShallow := false, x := some (vals type), xShallow := false, scale := scale }

/-- Some conversions. -/
def conv : Fp := ⟨fun q => .fin q, fun q => .fin q, fun _ q => q, fun q => .fin q, fun _ => 1⟩

/-- The three counts of one copy. -/
def counts (k k' : Kind) (t t' : Ty) (s : ℚ) : ℕ × ℕ × ℕ :=
  (copyCalls conv (some none) k' t' (src k t s) none, copyIts conv (some none) k' t' (src k t s) none,
    copyStorage conv (some none) k' t' (src k t s) none)

/-- The hypotheses are met. -/
example (t : Ty) (s : ℚ) : Shape 2 2 3 (src .csc t s) ∧ Shape 2 2 3 (src .triplet t s) ∧ Shape 2 2 4 (src .dense t s) := by
  refine ⟨⟨rfl, rfl, rfl, fun _ => rfl, fun _ j hj => ?_⟩, ⟨rfl, rfl, rfl, (fun h => by cases h), fun h => by cases h⟩,
    ⟨rfl, rfl, rfl, (fun h => by cases h), fun h => by cases h⟩⟩
  interval_cases j
  · exact ⟨0, 1, rfl, rfl, by omega⟩
  · exact ⟨1, 3, rfl, rfl, by omega⟩

/-- What is counted, for the nine pairs of kinds (source CSC, triplet, dense; result the same), MPQ to MPZ. -/
example : ([Kind.csc, .triplet, .dense].map fun k => [Kind.csc, .triplet, .dense].map fun k' =>
      counts k k' .mpq .mpz 1) =
    [[(11, 23, 15), (11, 25, 15), (14, 26, 13)], [(14, 28, 20), (11, 23, 15), (14, 24, 13)],
      [(26, 36, 21), (29, 50, 30), (15, 23, 12)]] := by decide +kernel

/-- What is counted, for the 25 pairs of types, dense to dense, scale factor 1. -/
example : ([Ty.mpz, .mpq, .mpfr, .int64, .fp64].map fun t => [Ty.mpz, .mpq, .mpfr, .int64, .fp64].map fun t' =>
      counts .dense .dense t t' 1) =
    [[(4, 8, 4), (4, 8, 4), (4, 8, 4), (4, 4, 4), (4, 4, 4)],
      [(15, 23, 12), (4, 8, 4), (4, 8, 4), (4, 4, 4), (4, 4, 4)],
      [(20, 20, 8), (4, 8, 4), (4, 8, 4), (4, 4, 4), (4, 4, 4)],
      [(4, 8, 4), (4, 8, 4), (4, 8, 4), (0, 4, 4), (0, 4, 4)],
      [(22, 19, 8), (4, 8, 4), (4, 8, 4), (0, 4, 4), (0, 4, 4)]] := by decide +kernel

/-- The same, dense to CSC, with scale factor 2: the integers are divided. -/
example : ([Ty.mpz, .mpq, .mpfr, .int64, .fp64].map fun t => [Ty.mpz, .mpq, .mpfr, .int64, .fp64].map fun t' =>
      counts .dense .csc t t' 2) =
    [[(11, 13, 9), (19, 21, 13), (23, 21, 13), (12, 14, 13), (12, 14, 13)],
      [(26, 36, 21), (11, 13, 9), (15, 21, 13), (4, 14, 9), (4, 14, 13)],
      [(31, 33, 17), (15, 21, 13), (11, 13, 9), (4, 14, 13), (4, 14, 13)],
      [(15, 21, 13), (15, 21, 13), (15, 21, 13), (0, 10, 9), (0, 14, 13)],
      [(33, 32, 17), (15, 21, 13), (15, 21, 13), (0, 14, 13), (0, 10, 9)]] := by decide +kernel

end CopyWorkEx

end Slip
