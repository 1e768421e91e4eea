import Verif.Model.Api
import Mathlib.Order.Interval.Finset.Basic
import Mathlib.Data.Int.Interval
import Mathlib.LinearAlgebra.Matrix.Determinant.Basic

/-!
# Specification vocabulary

What it means for a `SLIP_matrix` object to be a valid CSC / dense matrix, which mathematical
matrix it represents, and what it means for an integer array to hold a permutation. The property
theorems are stated with these notions and with Mathlib's matrices only.
-/

namespace Slip

/-- `A` is a valid `n`-by-`n` matrix of kind CSC and type MPZ: column pointers start at 0 and do
not decrease, row indices are in range and not repeated within a column, values are set. -/
structure IsCsc (n : ℕ) (A : Mat) : Prop where
  kind : A.kind = .csc
  type : A.type = .mpz
  rows : A.m = n
  cols : A.n = n
  p0 : get (deref A.p) 0 = some 0
  col : ∀ j : ℕ, j < n → ∃ a b : ℤ, get (deref A.p) j = some a ∧
    get (deref A.p) ((j : ℤ) + 1) = some b ∧ a ≤ b ∧
    (∀ t, a ≤ t → t < b → (∃ i : ℕ, i < n ∧ get (deref A.i) t = some (i : ℤ)) ∧
      ∃ v, get A.xz t = some v) ∧
    (∀ t t', a ≤ t → t < b → a ≤ t' → t' < b → get (deref A.i) t = get (deref A.i) t' → t = t')
  idx : A.i ≠ none

/-- The `(i,j)` entry represented by a CSC matrix: the sum of the values stored in column `j` with
row index `i`. -/
def Mat.entry (A : Mat) (i j : ℕ) : ℤ :=
  match get (deref A.p) j, get (deref A.p) ((j : ℤ) + 1) with
  | some a, some b => ∑ t ∈ Finset.Ico a b,
      if get (deref A.i) t = some (i : ℤ) then (get A.xz t).getD 0 else 0
  | _, _ => 0

/-- The integer matrix stored in a CSC object (without its scale factor). -/
def Mat.matrix (A : Mat) (n : ℕ) : Matrix (Fin n) (Fin n) ℤ := Matrix.of fun i j => A.entry i j

/-- `b` is a valid `m`-by-`k` matrix of kind DENSE and type MPZ. -/
structure IsDenseZ (m k : ℕ) (b : Mat) : Prop where
  kind : b.kind = .dense
  type : b.type = .mpz
  rows : b.m = m
  cols : b.n = k
  val : ∀ i : ℕ, i < m → ∀ j : ℕ, j < k → ∃ v, get b.xz ((i : ℤ) + j * m) = some v

/-- The integer matrix stored in a dense MPZ object (without its scale factor). -/
def Mat.denseZ (b : Mat) (m k : ℕ) : Matrix (Fin m) (Fin k) ℤ :=
  Matrix.of fun i j => (get b.xz ((i : ℕ) + (j : ℕ) * m : ℤ)).getD 0

/-- `x` is a valid `m`-by-`k` matrix of kind DENSE and type MPQ that owns its arrays. -/
structure IsDenseQ (m k : ℕ) (x : Mat) : Prop where
  kind : x.kind = .dense
  type : x.type = .mpq
  rows : x.m = m
  cols : x.n = k
  nzmax : x.nzmax = max (m * k : ℤ) 1
  len : x.xq.length = max (m * k) 1
  owned : x.pShallow = false ∧ x.iShallow = false ∧ x.jShallow = false ∧ x.xShallow = false
  noPattern : x.p = none ∧ x.i = none ∧ x.j = none
  scale : x.scale = 1
  val : ∀ i : ℕ, i < m → ∀ j : ℕ, j < k → ∃ v, get x.xq ((i : ℤ) + j * m) = some v

/-- The rational matrix stored in a dense MPQ object. -/
def Mat.denseQ (x : Mat) (m k : ℕ) : Matrix (Fin m) (Fin k) ℚ :=
  Matrix.of fun i j => (get x.xq ((i : ℕ) + (j : ℕ) * m : ℤ)).getD 0

/-- The rational version of an integer matrix divided by a scale factor. -/
def unscale {m n : ℕ} (A : Matrix (Fin m) (Fin n) ℤ) (s : ℚ) : Matrix (Fin m) (Fin n) ℚ :=
  Matrix.of fun i j => (A i j : ℚ) / s

/-- The array `q` holds the permutation `σ`: `q[t] = σ t`. -/
def Holds {n : ℕ} (q : Arr Int) (σ : Equiv.Perm (Fin n)) : Prop :=
  ∀ t : Fin n, get q ((t : ℕ) : ℤ) = some ((σ t : ℕ) : ℤ)

/-- A usable analysis: `q` is a permutation and the estimates are at least `n`. -/
structure IsAnalysis (n : ℕ) (S : Analysis) : Prop where
  perm : ∃ τ : Equiv.Perm (Fin n), Holds S.q τ
  lnz : (n : ℤ) ≤ S.lnz
  unz : (n : ℤ) ≤ S.unz

/-- The options make sense: the tolerance is finite if the pivoting scheme uses it. -/
def TolOk (opt : Option Options) : Prop :=
  optPivot opt = .tolSmallest ∨ optPivot opt = .tolLargest → ∃ t, optTol opt = .fin t

/-- `p`, `i` are the pointers and row indices of a valid `n`-by-`n` CSC pattern. -/
structure IsPattern (n : ℕ) (p i : Arr Int) : Prop where
  p0 : get p 0 = some 0
  col : ∀ j : ℕ, j < n → ∃ a b : ℤ, get p j = some a ∧ get p ((j : ℤ) + 1) = some b ∧ a ≤ b ∧
    (∀ t, a ≤ t → t < b → ∃ r : ℕ, r < n ∧ get i t = some (r : ℤ)) ∧
    (∀ t t', a ≤ t → t < b → a ≤ t' → t' < b → get i t = get i t' → t = t')

/-- What is assumed if the options ask for AMD: the matrix is not empty, and AMD can allocate its
workspaces. Nothing is assumed if the options ask for COLAMD (the default) or for no ordering. -/
def AmdOk (O : Orderings) (opt : Option Options) (n : ℕ) : Prop :=
  optOrder opt = .amd → 0 < n ∧ ∀ p i, O.amdMem n p i = ⟨true, true, true⟩

end Slip

namespace Slip

/-- A call of `SLIP_LU_factorize` (with valid output handles) returned SLIP_OK and these objects. -/
def FactorizeOk (nc : Int → Int → ℚ → Bool) (opt : Option Options) (A : Mat) (S : Analysis)
    (L U rhos : Mat) (pinv : Arr Int) : Prop :=
  SLIP_LU_factorize nc true (some none) (some none) (some none) (some none) (some A) (some S) opt =
    .ok ⟨.ok, some (some L), some (some U), some (some rhos), some (some pinv)⟩

/-- A call of `SLIP_LU_solve` (with a valid output handle) returned SLIP_OK and this solution. -/
def SolveOk (opt : Option Options) (b A L U rhos : Mat) (S : Analysis) (pinv : Arr Int)
    (x : Mat) : Prop :=
  SLIP_LU_solve true (some none) (some b) (some A) (some L) (some U) (some rhos) (some S)
    (some pinv) opt = .ok (.ok, some (some x))

end Slip
