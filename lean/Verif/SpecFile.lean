import Verif.SpecMat
import Verif.Model.Drivers

/-!
# Specification vocabulary for the demo programs: matrix files
-/

namespace Slip

/-- An entry of a triplet file: row and column (counted from 0) and an integer value. -/
structure Triple where
  row : ℕ
  col : ℕ
  val : ℤ
  deriving DecidableEq

/-- The words of a line of a triplet file; indices in the file are counted from 1. -/
def Triple.words (e : Triple) : List Word := [.int (e.row + 1), .int (e.col + 1), .int e.val]

/-- The words of the file of an `m`-by-`n` matrix with the given entries: the line `m n nz`, then one
line `i j x` for each entry. -/
def tripletFile (m n : ℕ) (es : List Triple) : List Word :=
  .int m :: .int n :: .int es.length :: es.flatMap Triple.words

/-- The matrix described by a list of entries. -/
def tripletMatrix (m n : ℕ) (es : List Triple) : Matrix (Fin m) (Fin n) ℚ :=
  Matrix.of fun i j => ∑ k : Fin es.length,
    if es[k].row = i ∧ es[k].col = j then (es[k].val : ℚ) else 0

/-- The entries lie in the matrix and no position occurs twice. -/
def TriplesOk (m n : ℕ) (es : List Triple) : Prop :=
  (∀ e ∈ es, e.row < m ∧ e.col < n) ∧ es.Pairwise fun e f => ¬ (e.row = f.row ∧ e.col = f.col)

/-- The words of the file of a dense `m`-by-`n` matrix: the line `m n`, then the rows. -/
def denseFile (m n : ℕ) (M : ℕ → ℕ → ℤ) : List Word :=
  .int m :: .int n :: (List.range m).flatMap fun i => (List.range n).map fun j => .int (M i j)

/-- The rational matrix with these entries. -/
def ratMatrix (m n : ℕ) (M : ℕ → ℕ → ℤ) : Matrix (Fin m) (Fin n) ℚ :=
  Matrix.of fun i j => (M i j : ℚ)

/-! ## The command line -/

/-- The options that can be given on the command line. -/
inductive CmdItem
  | help | pivot (v : String) | order (v : String) | tol (v : String) | print (v : String)
  | file (mat rhs : String)

/-- The command line `argv` is the sequence of options `items`. -/
inductive CmdLine (atoi : String → ℤ) (atof : String → Dbl) : List String → List CmdItem → Prop
  | nil : CmdLine atoi atof [] []
  | help {r is} : CmdLine atoi atof r is → CmdLine atoi atof ("help" :: r) (.help :: is)
  | pivot {k v r is} : k = "p" ∨ k = "piv" → CmdLine atoi atof r is →
      CmdLine atoi atof (k :: v :: r) (.pivot v :: is)
  | order {k v r is} : k = "q" ∨ k = "col" → CmdLine atoi atof r is →
      CmdLine atoi atof (k :: v :: r) (.order v :: is)
  | tol {k v r is} : k = "t" ∨ k = "tol" → atof v = .nan ∨ atof v = .posInf ∨ (∃ x, atof v = .fin x ∧ 0 < x) →
      CmdLine atoi atof r is → CmdLine atoi atof (k :: v :: r) (.tol v :: is)
  | print {k v r is} : k = "o" ∨ k = "out" → atoi v ≠ 0 → CmdLine atoi atof r is →
      CmdLine atoi atof (k :: v :: r) (.print v :: is)
  | file {k a b r is} : k = "f" ∨ k = "file" → CmdLine atoi atof r is →
      CmdLine atoi atof (k :: a :: b :: r) (.file a b :: is)

/-- The pivoting scheme with this number (SLIP_LU.h); out of range: the smallest pivot. -/
def pivotNumber (v : ℤ) : Pivot :=
  (([(1, .diagonal), (2, .firstNonzero), (3, .tolSmallest), (4, .tolLargest), (5, .largest)] :
    List (ℤ × Pivot)).lookup v).getD .smallest

/-- The column ordering with this number (SLIP_LU.h); out of range: COLAMD. -/
def orderNumber (v : ℤ) : ColOrder :=
  (([(0, .none), (2, .amd)] : List (ℤ × ColOrder)).lookup v).getD .colamd

/-- The last value that an option was given, or the default. -/
def lastOf {α : Type} (f : CmdItem → Option α) (dflt : α) (items : List CmdItem) : α :=
  (items.reverse.findSome? f).getD dflt

/-- The matrix file and the right-hand side file an item names. -/
def CmdItem.mat? : CmdItem → Option String
  | .file a _ => some a
  | _ => none

@[inherit_doc CmdItem.mat?]
def CmdItem.rhs? : CmdItem → Option String
  | .file _ b => some b
  | _ => none

/-- The value an item gives for the pivoting scheme, the ordering, the tolerance, the print level;
whether it asks for help. -/
def CmdItem.pivot? (atoi : String → ℤ) : CmdItem → Option Pivot
  | .pivot v => some (pivotNumber (atoi v))
  | _ => none

@[inherit_doc CmdItem.pivot?]
def CmdItem.order? (atoi : String → ℤ) : CmdItem → Option ColOrder
  | .order v => some (orderNumber (atoi v))
  | _ => none

@[inherit_doc CmdItem.pivot?]
def CmdItem.tol? (atof : String → Dbl) : CmdItem → Option Dbl
  | .tol v => some (atof v)
  | _ => none

@[inherit_doc CmdItem.pivot?]
def CmdItem.print? (atoi : String → ℤ) : CmdItem → Option ℤ
  | .print v => some (atoi v)
  | _ => none

@[inherit_doc CmdItem.pivot?]
def CmdItem.help? : CmdItem → Option Bool
  | .help => some true
  | _ => none

/-- What the options on the command line mean: the last one of each sort counts. -/
def cmdResult (atoi : String → ℤ) (atof : String → Dbl) (s : CmdSt) (items : List CmdItem) : CmdSt where
  opt := { s.opt with
    pivot := lastOf (CmdItem.pivot? atoi) s.opt.pivot items
    order := lastOf (CmdItem.order? atoi) s.opt.order items
    tol := lastOf (CmdItem.tol? atof) s.opt.tol items
    printLevel := lastOf (CmdItem.print? atoi) s.opt.printLevel items }
  mat := lastOf CmdItem.mat? s.mat items
  rhs := lastOf CmdItem.rhs? s.rhs items
  help := lastOf CmdItem.help? s.help items

end Slip
