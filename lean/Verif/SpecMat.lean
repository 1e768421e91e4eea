import Verif.Spec
import Verif.Model.Convert

/-!
# Specification vocabulary for matrices of any kind and type

What it means for an object to be a valid matrix of one of the three kinds, with values of one of
the five types, and which rational matrix it represents.
-/

namespace Slip

/-- The type of the entries of a values array. -/
def Vals.ty : Vals → Ty
  | .mpz _ => .mpz
  | .mpq _ => .mpq
  | .mpfr _ => .mpfr
  | .int64 _ => .int64
  | .fp64 _ => .fp64

/-- The number a floating-point value stands for, if it is finite. -/
def Dbl.rat : Dbl → Option ℚ
  | .fin v => some v
  | _ => none

/-- The exact number that entry `k` stands for; an integer of type MPZ is divided by the scale factor
of its matrix. -/
def Vals.val (s : ℚ) (x : Vals) (k : ℤ) : Option ℚ :=
  match x with
  | .mpz a => (get a k).map fun v : ℤ => (v : ℚ) / s
  | .mpq a => get a k
  | .mpfr a => (get a k).bind Dbl.rat
  | .int64 a => (get a k).map fun v : ℤ => (v : ℚ)
  | .fp64 a => (get a k).bind Dbl.rat

/-- The exact number that stored entry `k` of a matrix stands for. -/
def Mat.val (A : Mat) (k : ℤ) : Option ℚ := A.x.bind fun x => x.val A.scale k

/-- Fields common to all kinds: dimensions, values of the declared type, a scale factor. -/
structure Header (m n : ℕ) (A : Mat) : Prop where
  rows : A.m = m
  cols : A.n = n
  typed : ∃ x, A.x = some x ∧ x.ty = A.type
  scale : A.scale ≠ 0

/-- A valid CSC matrix: column pointers start at 0 and do not decrease; row indices are in range and
not repeated within a column; all values are finite. -/
structure ValidCsc (m n : ℕ) (A : Mat) : Prop extends Header m n A where
  kind : A.kind = .csc
  p0 : get (deref A.p) 0 = some 0
  col : ∀ j : ℕ, j < n → ∃ a b : ℤ, get (deref A.p) j = some a ∧
    get (deref A.p) ((j : ℤ) + 1) = some b ∧ a ≤ b ∧
    (∀ t, a ≤ t → t < b → (∃ i : ℕ, i < m ∧ get (deref A.i) t = some (i : ℤ)) ∧
      ∃ v, A.val t = some v) ∧
    (∀ t t', a ≤ t → t < b → a ≤ t' → t' < b → get (deref A.i) t = get (deref A.i) t' → t = t')
  idx : A.i ≠ none

/-- A valid triplet matrix: indices are in range, no position occurs twice, all values are finite. -/
structure ValidTriplet (m n : ℕ) (A : Mat) : Prop extends Header m n A where
  kind : A.kind = .triplet
  nz : 0 ≤ A.nz
  entry : ∀ t, 0 ≤ t → t < A.nz → (∃ i : ℕ, i < m ∧ get (deref A.i) t = some (i : ℤ)) ∧
    (∃ j : ℕ, j < n ∧ get (deref A.j) t = some (j : ℤ)) ∧ ∃ v, A.val t = some v
  nodup : ∀ t t', 0 ≤ t → t < A.nz → 0 ≤ t' → t' < A.nz → get (deref A.i) t = get (deref A.i) t' →
    get (deref A.j) t = get (deref A.j) t' → t = t'

/-- A triplet matrix with `N` entries, indices in range, all values finite; positions may be repeated. -/
structure TripletIn (m n N : ℕ) (A : Mat) : Prop extends Header m n A where
  kind : A.kind = .triplet
  nz : A.nz = N
  entry : ∀ k : ℕ, k < N → (∃ i : ℕ, i < m ∧ get (deref A.i) k = some (i : ℤ)) ∧
    (∃ j : ℕ, j < n ∧ get (deref A.j) k = some (j : ℤ)) ∧ ∃ v, A.val k = some v

/-- A valid dense matrix: all `m*n` values (by columns) are finite. -/
structure ValidDense (m n : ℕ) (A : Mat) : Prop extends Header m n A where
  kind : A.kind = .dense
  entry : ∀ i : ℕ, i < m → ∀ j : ℕ, j < n → ∃ v, A.val ((i : ℤ) + j * m) = some v

/-- A valid `m`-by-`n` matrix of any kind. -/
def Valid (m n : ℕ) (A : Mat) : Prop := ValidCsc m n A ∨ ValidTriplet m n A ∨ ValidDense m n A

/-- The `(i,j)` entry of the rational matrix a matrix object represents. -/
def Mat.num (A : Mat) (i j : ℕ) : ℚ :=
  match A.kind with
  | .csc => match get (deref A.p) j, get (deref A.p) ((j : ℤ) + 1) with
    | some a, some b => ∑ t ∈ Finset.Ico a b,
        if get (deref A.i) t = some (i : ℤ) then (A.val t).getD 0 else 0
    | _, _ => 0
  | .triplet => ∑ t ∈ Finset.Ico 0 A.nz,
      if get (deref A.i) t = some (i : ℤ) ∧ get (deref A.j) t = some (j : ℤ)
      then (A.val t).getD 0 else 0
  | .dense => (A.val ((i : ℤ) + j * A.m)).getD 0
  | .bad _ => 0

/-- The rational matrix a matrix object represents. -/
def Mat.toMatrix (A : Mat) (m n : ℕ) : Matrix (Fin m) (Fin n) ℚ := Matrix.of fun i j => A.num i j

/-- The object owns its arrays, and has exactly those its kind needs. -/
structure Owns (A : Mat) : Prop where
  notShallow : A.pShallow = false ∧ A.iShallow = false ∧ A.jShallow = false ∧ A.xShallow = false
  p : A.p.isSome = true ↔ A.kind = .csc
  i : A.i.isSome = true ↔ A.kind ≠ .dense
  j : A.j.isSome = true ↔ A.kind = .triplet
  x : A.x.isSome = true

/-- A binary floating-point number with `prec` bits and unbounded exponent. -/
def IsFloat (prec : ℕ) (q : ℚ) : Prop := ∃ m e : ℤ, |m| < 2 ^ prec ∧ q = m * (2 : ℚ) ^ e

/-- When is the conversion of the entries of the `m`-by-`n` matrix `A` to another type exact? Integers
and rationals always convert to rationals, and so do floating-point numbers. Rationals convert to
integers with a scale factor (if there are any entries). Floating-point numbers are multiplied by
`10^17` (`double`) or `2^prec` (MPFR) and must then be integers, not all zero. Conversion to MPFR is
exact if the numbers have at most `prec` bits. -/
def ExactConv (m n : ℕ) (opt : Option Options) (A : Mat) (type : Ty) : Prop :=
  match A.type, type with
  | .mpz, .mpz | .mpz, .mpq | .mpq, .mpq | .mpfr, .mpq | .fp64, .mpq => True
  | .int64, .mpz | .int64, .int64 | .fp64, .fp64 => True
  | .mpq, .mpz => SLIP_matrix_nnz true (some A) ≠ .ok 0
  | .fp64, .mpz => 93 ≤ optPrec opt ∧
      (∀ i j, i < m → j < n → IsFloat 53 (A.num i j) ∧ ∃ z : ℤ, 10 ^ 17 * A.num i j = z) ∧
      ∃ i j, i < m ∧ j < n ∧ A.num i j ≠ 0
  | .mpfr, .mpz => 0 ≤ optPrec opt ∧
      (∀ i j, i < m → j < n → IsFloat (optPrec opt).toNat (A.num i j) ∧
        ∃ z : ℤ, 2 ^ (optPrec opt).toNat * A.num i j = z) ∧
      ∃ i j, i < m ∧ j < n ∧ A.num i j ≠ 0
  | .mpz, .mpfr | .mpq, .mpfr | .mpfr, .mpfr | .int64, .mpfr | .fp64, .mpfr => 0 ≤ optPrec opt ∧
      ∀ i j, i < m → j < n → IsFloat (optPrec opt).toNat (A.num i j)
  | _, _ => False

/-- Changes of storage kind that `SLIP_matrix_copy` gets right: a scaled MPZ matrix keeps its scale
only if the kind does not change or from CSC to triplet; MPFR is not scattered into a dense matrix; a
dense matrix is converted to triplets only if it has no zero entry. -/
structure KindOk (m n : ℕ) (A : Mat) (kind : Kind) (type : Ty) : Prop where
  scale : A.type = .mpz → type = .mpz → A.kind = kind ∨ A.kind = .csc ∧ kind = .triplet ∨ A.scale = 1
  mpfr : type = .mpfr → kind = .dense → A.kind = .dense
  full : A.kind = .dense → kind = .triplet → ∀ i j, i < m → j < n → A.num i j ≠ 0

end Slip
