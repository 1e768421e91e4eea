import Verif.SpecMat
import Verif.Model.Matlab

/-!
# Specification vocabulary for the MATLAB interface
-/

namespace Slip

/-- A `double` that the interface takes without error: finite, a multiple of `10^-17`, and not 2^63. -/
def MxExact (d : Option Dbl) (v : ℚ) : Prop :=
  d = some (.fin v) ∧ IsFloat 53 v ∧ (∃ z : ℤ, 10 ^ 17 * v = z) ∧ v ≠ 2 ^ 63

/-- A valid `n`-by-`n` sparse array of MATLAB: column pointers start at 0 and do not decrease; row
indices are in range and not repeated within a column; the values satisfy `MxExact`. -/
structure MxSparse.Ok (n : ℕ) (A : MxSparse) : Prop where
  rows : A.m = n
  cols : A.n = n
  p0 : get A.jc 0 = some 0
  col : ∀ j : ℕ, j < n → ∃ a b : ℤ, get A.jc j = some a ∧ get A.jc ((j : ℤ) + 1) = some b ∧ a ≤ b ∧
    (∀ t, a ≤ t → t < b → (∃ i : ℕ, i < n ∧ get A.ir t = some (i : ℤ)) ∧ ∃ v, MxExact (get A.pr t) v) ∧
    (∀ t t', a ≤ t → t < b → a ≤ t' → t' < b → get A.ir t = get A.ir t' → t = t')

/-- The matrix that a sparse array of MATLAB stands for. -/
def MxSparse.matrix (A : MxSparse) (n : ℕ) : Matrix (Fin n) (Fin n) ℚ :=
  Matrix.of fun i j =>
    match get A.jc (j : ℕ), get A.jc ((j : ℕ) + 1 : ℤ) with
    | some a, some b => ∑ t ∈ Finset.Ico a b,
        if get A.ir t = some ((i : ℕ) : ℤ) then ((get A.pr t).bind Dbl.rat).getD 0 else 0
    | _, _ => 0

/-- A valid `m`-by-`k` full array of MATLAB whose values satisfy `MxExact`. -/
structure MxFull.Ok (m k : ℕ) (b : MxFull) : Prop where
  rows : b.m = m
  cols : b.n = k
  entry : ∀ i : ℕ, i < m → ∀ j : ℕ, j < k → ∃ v, MxExact (get b.pr ((i : ℤ) + j * m)) v

/-- The matrix that a full array of MATLAB stands for. -/
def MxFull.matrix (b : MxFull) (m k : ℕ) : Matrix (Fin m) (Fin k) ℚ :=
  Matrix.of fun i j => ((get b.pr ((i : ℕ) + (j : ℕ) * m : ℤ)).bind Dbl.rat).getD 0

/-- What is assumed of the compiler: integers that are `double`s are converted exactly. -/
def Int64ToDExact (fp : Fp) : Prop := ∀ z : ℤ, IsFloat 53 z → fp.int64ToD z = .fin z

/-- The call returns this value. -/
def Mex.Returns (m : Mex α) (a : α) : Prop := m = .ok (.ok a)

/-- The call ends with this error message. -/
def Mex.Fails (m : Mex α) (msg : String) : Prop := m = .ok (.error msg)

/-- The names of the column orderings (SLIP_backslash.m). -/
def orderNames : List (String × ColOrder) := [("none", .none), ("colamd", .colamd), ("amd", .amd)]

/-- The names of the pivoting schemes (SLIP_backslash.m). -/
def pivotNames : List (String × Pivot) :=
  [("smallest", .smallest), ("diagonal", .diagonal), ("first", .firstNonzero),
   ("tol smallest", .tolSmallest), ("tol largest", .tolLargest), ("largest", .largest)]

/-- The names of the kinds of result (SLIP_backslash.m). -/
def solutionNames : List (String × MexSolution) := [("vpa", .vpa), ("char", .char), ("double", .double)]

/-- The number is the truncation of the rational towards zero. -/
def IsTrunc (v : ℚ) (z : ℤ) : Prop := |(z : ℚ)| ≤ |v| ∧ |v - z| < 1 ∧ 0 ≤ v * z

/-- A named setting: the default if the field is missing, otherwise the field is text from the table. -/
def Named (names : List (String × α)) (dflt : α) (f : Option MxField) (a : α) : Prop :=
  (f = none ∧ a = dflt) ∨ ∃ s, f = some (.text s) ∧ (s, a) ∈ names

/-- What the fields of the MATLAB struct mean for the settings `o`, `mo`, when the settings are `o₀`
before the struct is read. -/
structure OptionsMean (code : String → ℚ) (tenth : ℚ) (o₀ : Options) (i : MxOptions) (o : Options)
    (mo : MexOptions) : Prop where
  order : Named orderNames .colamd i.order o.order
  pivot : Named pivotNames .tolSmallest i.pivot o.pivot
  /-- The tolerance: the number in the field, in (0, 1], for the schemes that use it. -/
  tol : ∀ f, i.tol = some f → o.pivot = .tolSmallest ∨ o.pivot = .tolLargest →
    ∃ v, mxScalar code f = .fin v ∧ 0 < v ∧ v ≤ 1 ∧ o.tol = .fin v
  /-- Otherwise one tenth. -/
  tolDefault : (i.tol = none ∨ ¬ (o.pivot = .tolSmallest ∨ o.pivot = .tolLargest)) → o.tol = .fin tenth
  solution : Named solutionNames .double i.solution mo.solution
  digits : ∀ f, i.digits = some f → mxScalar code f = .fin mo.digits ∧ 2 ≤ mo.digits ∧ mo.digits ≤ 2 ^ 29
  digitsDefault : i.digits = none → mo.digits = 100
  /-- The print level: truncated and clamped to 0, 1, 2, 3. -/
  print : ∀ f, i.print = some f → ∃ v z, mxScalar code f = .fin v ∧ IsTrunc v z ∧
    o.printLevel = max 0 (min z 3)
  printDefault : i.print = none → o.printLevel = 0
  prec : o.prec = o₀.prec
  round : o.round = o₀.round
  check : o.check = o₀.check

/-- The struct contains nothing the interface does not cope with: `tol` is not a NaN, `solution` is
text, `print` is a finite number whose truncation fits into 32 bits. -/
structure OptionsTyped (code : String → ℚ) (i : MxOptions) : Prop where
  tol : ∀ f, i.tol = some f → mxScalar code f ≠ .nan
  solution : ∀ d, i.solution ≠ some (.num d)
  print : ∀ f, i.print = some f → ∃ v, mxScalar code f = .fin v ∧ |v| < 2 ^ 31

/-- The struct without fields. -/
def MxOptions.empty : MxOptions := ⟨none, none, none, none, none, none⟩

/-- The result shows the rational matrix `x`: as doubles, one rounding per entry, or exactly. -/
def MexResult.Shows (fp : Fp) (s : MexSolution) (m k : ℕ) (x : Matrix (Fin m) (Fin k) ℚ) :
    MexResult → Prop
  | .double m' k' a => s = .double ∧ m' = m ∧ k' = k ∧
      ∀ (i : Fin m) (j : Fin k), get a ((i : ℕ) + (j : ℕ) * m : ℤ) = some (fp.mpqGetD (x i j))
  | .cells m' k' a => s ≠ .double ∧ m' = m ∧ k' = k ∧
      ∀ (i : Fin m) (j : Fin k), get a ((i : ℕ) + (j : ℕ) * m : ℤ) = some (x i j)

end Slip
