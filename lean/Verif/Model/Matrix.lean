import Verif.Model.Solve

/-!
# The `SLIP_matrix` object, options, and the functions that only inspect them
-/

namespace Slip

/-- `SLIP_kind`: SLIP_LU.h lines 255-261; `bad` is any other integer value of the enum. -/
inductive Kind
  | csc | triplet | dense | bad (v : Int)
  deriving DecidableEq, Repr

/-- `SLIP_type`: SLIP_LU.h lines 266-274; `bad` is any other integer value of the enum. -/
inductive Ty
  | mpz | mpq | mpfr | int64 | fp64 | bad (v : Int)
  deriving DecidableEq, Repr

/-- The union `A->x`: SLIP_LU.h lines 329-336. An `mpfr_t` is its value (`Dbl`: a rational,
an infinity or NaN); its precision is not recorded. -/
inductive Vals
  | mpz (a : Arr Int) | mpq (a : Arr ℚ) | mpfr (a : Arr Dbl) | int64 (a : Arr Int)
  | fp64 (a : Arr Dbl)
  deriving DecidableEq

/-- `SLIP_matrix`: SLIP_LU.h lines 308-343. A pointer is an `Option`, `none` is NULL. -/
structure Mat where
  m : Int
  n : Int
  nzmax : Int
  nz : Int
  kind : Kind
  type : Ty
  p : Option (Arr Int)
  pShallow : Bool
  i : Option (Arr Int)
  iShallow : Bool
  j : Option (Arr Int)
  jShallow : Bool
  x : Option Vals
  xShallow : Bool
  scale : ℚ
  deriving DecidableEq

/-- The array behind a pointer; dereferencing NULL is undefined, so NULL behaves as an array of
size 0. -/
def deref (p : Option (Arr α)) : Arr α := p.getD []

/-- `A->x.mpz` (undefined unless the values are of that type). -/
def Mat.xz (A : Mat) : Arr Int := match A.x with | some (.mpz a) => a | _ => []
/-- `A->x.mpq` (undefined unless the values are of that type). -/
def Mat.xq (A : Mat) : Arr ℚ := match A.x with | some (.mpq a) => a | _ => []
/-- `A->x.mpfr` (undefined unless the values are of that type). -/
def Mat.xr (A : Mat) : Arr Dbl := match A.x with | some (.mpfr a) => a | _ => []
/-- `A->x.int64` (undefined unless the values are of that type). -/
def Mat.xi (A : Mat) : Arr Int := match A.x with | some (.int64 a) => a | _ => []
/-- `A->x.fp64` (undefined unless the values are of that type). -/
def Mat.xf (A : Mat) : Arr Dbl := match A.x with | some (.fp64 a) => a | _ => []

/-- The fields the factorization uses of a CSC MPZ matrix. -/
def Mat.toCsc (A : Mat) : Csc :=
  { m := A.m, n := A.n, nzmax := A.nzmax, p := deref A.p, i := deref A.i, x := A.xz }

/-- The fields the solve phase uses of a dense MPZ matrix. -/
def Mat.toDense (A : Mat) : Dense Int := { m := A.m, n := A.n, nzmax := A.nzmax, x := A.xz }

/-- The matrix object holding a factor: header fields as set by SLIP_matrix_allocate.c lines
77-98 and 119-143. -/
def Mat.ofCsc (L : Csc) : Mat :=
  { m := L.m, n := L.n, nzmax := L.nzmax, nz := 0, kind := .csc, type := .mpz,
    p := some L.p, pShallow := false, i := some L.i, iShallow := false,
    j := none, jShallow := false, x := some (.mpz L.x), xShallow := false, scale := 1 }

/-- A dense matrix object: header fields as set by SLIP_matrix_allocate.c lines 77-98. -/
def Mat.ofDenseZ (m n nzmax : Int) (x : Arr Int) : Mat :=
  { m := m, n := n, nzmax := nzmax, nz := 0, kind := .dense, type := .mpz,
    p := none, pShallow := false, i := none, iShallow := false,
    j := none, jShallow := false, x := some (.mpz x), xShallow := false, scale := 1 }

/-- As `Mat.ofDenseZ` for MPQ. -/
def Mat.ofDenseQ (d : Dense ℚ) : Mat :=
  { m := d.m, n := d.n, nzmax := d.nzmax, nz := 0, kind := .dense, type := .mpq,
    p := none, pShallow := false, i := none, iShallow := false,
    j := none, jShallow := false, x := some (.mpq d.x), xShallow := false, scale := 1 }

/-- `SLIP_matrix_nnz`, SLIP_matrix_nnz.c lines 14-52; `init` is `slip_initialized ( )`. -/
def SLIP_matrix_nnz (init : Bool) (A : Option Mat) : C Int :=
  if !init then pure (-1)
  else match A with
  | none => pure (-1)
  | some A =>
    match A.kind with
    | .csc => match A.p with
      | none => pure (-1)
      | some p => if A.n < 0 then pure (-1) else rd p A.n
    | .triplet => pure A.nz
    | .dense => if A.m < 0 ∨ A.n < 0 then pure (-1) else pure (A.m * A.n)
    | .bad _ => pure (-1)

/-! ## Options -/

/-- `SLIP_col_order`: SLIP_LU.h lines 210-216. -/
inductive ColOrder
  | none | colamd | amd
  deriving DecidableEq, Repr

/-- `SLIP_options`: SLIP_LU.h lines 226-243. `round` is the MPFR rounding mode, an integer. -/
structure Options where
  pivot : Pivot
  order : ColOrder
  tol : Dbl
  printLevel : Int
  prec : Int
  round : Int
  check : Bool
  deriving DecidableEq

/-- `SLIP_create_default_options`, SLIP_create_default_options.c lines 18-56; defaults are in
slip_internal.h lines 167-210 (`MPFR_RNDN` is 0). -/
def SLIP_create_default_options (init : Bool) : Option Options :=
  if !init then none
  else some { pivot := .tolSmallest, order := .colamd, printLevel := 0, prec := 128,
              tol := .fin 1, round := 0, check := false }

/-- `SLIP_OPTION_TOL`: slip_internal.h lines 216-220. -/
def optTol (o : Option Options) : Dbl := match o with | none => .fin 1 | some o => o.tol
/-- `SLIP_OPTION_CHECK`: slip_internal.h lines 222-223. -/
def optCheck (o : Option Options) : Bool := match o with | none => false | some o => o.check
/-- `SLIP_OPTION_PIVOT`: slip_internal.h lines 225-226. -/
def optPivot (o : Option Options) : Pivot := match o with | none => .tolSmallest | some o => o.pivot
/-- `SLIP_OPTION_ORDER`: slip_internal.h lines 228-229. -/
def optOrder (o : Option Options) : ColOrder := match o with | none => .colamd | some o => o.order
/-- `SLIP_OPTION_PREC`: slip_internal.h lines 231-232. -/
def optPrec (o : Option Options) : Int := match o with | none => 128 | some o => o.prec
/-- `SLIP_OPTION_PRINT_LEVEL`: slip_internal.h lines 234-235. -/
def optPrint (o : Option Options) : Int := match o with | none => 0 | some o => o.printLevel
/-- `SLIP_OPTION_ROUND`: slip_internal.h lines 237-238. -/
def optRound (o : Option Options) : Int := match o with | none => 0 | some o => o.round

end Slip
