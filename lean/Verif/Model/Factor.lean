import Verif.Basic
import Mathlib.Data.List.Sort
import Mathlib.Data.Rat.Defs
import Mathlib.Data.Rat.Cast.Order

/-!
# Model of the factorization: symbolic reach, REF triangular solve, pivot search, factorize

Every definition transcribes the C code cited in its comment.  Common simplifications:

* `int64_t` is `Int` (no overflow); `mpz_t` is `Int` (GMP arithmetic is exact);
* out-of-memory returns are not taken in this file (they are modelled in `Verif/Model/Memory.lean`);
* `SLIP_REQUIRE` checks on internally created matrices always pass and are omitted here, the
  checks of the user-callable functions are in `Verif/Model/Api.lean`.
-/

namespace Slip

/-- The fields of a `SLIP_matrix` of kind CSC and type MPZ used by the factorization:
/repo/SLIP_LU/Include/SLIP_LU.h `SLIP_matrix` (m, n, nzmax, p, i, x.mpz). -/
structure Csc where
  m : Int
  n : Int
  nzmax : Int
  p : Arr Int
  i : Arr Int
  x : Arr Int
  deriving DecidableEq

/-- `SLIP_FLIP`: slip_internal.h line 79. -/
def flip (i : Int) : Int := -i - 2

/-- `SLIP_UNFLIP`: slip_internal.h line 80. -/
def unflip (i : Int) : Int := if i < 0 then flip i else i

/-- `SLIP_MARKED`: slip_internal.h line 81. -/
def marked (Lp : Arr Int) (j : Int) : C Bool := do
  let v ← rd Lp j
  pure (decide (v < 0))

/-- `SLIP_MARK`: slip_internal.h line 82. -/
def mark (Lp : Arr Int) (j : Int) : C (Arr Int) := do
  let v ← rd Lp j
  wr Lp j (flip v)

/-! ## slip_dfs.c -/

/-- The variables of `slip_dfs` that change: `head`, `*top`, the array `L->p` (marks), and the
array `xi` of size `2n`, whose upper half is `pstack` (slip_reach.c line 47 passes `xi+n`). -/
structure DfsSt where
  head : Int
  top : Int
  Lp : Arr Int
  xi : Arr Int

/-- The inner `for` loop of `slip_dfs`, slip_dfs.c lines 67-82: the first `p` in
`[p, p + cnt)` whose neighbour `L->i[p]` is not marked, with that neighbour. -/
def dfsScan (Lp Li : Arr Int) : Nat → Int → C (Option (Int × Int))
  | 0, _ => .ok none
  | m + 1, p => do
    let i ← rd Li p
    let b ← marked Lp i
    if b then dfsScan Lp Li m (p + 1) else .ok (some (p, i))

/-- One iteration of the `while` loop of `slip_dfs`, slip_dfs.c lines 46-87.
`n` is the offset of `pstack` in `xi`. -/
def dfsStep (n : Int) (Li pinv : Arr Int) (s : DfsSt) : C DfsSt := do
  let j ← rd s.xi s.head
  let jnew ← rd pinv j
  let b ← marked s.Lp j
  let s ← (if b then pure s else do
    let Lp ← mark s.Lp j
    let p0 ← (if jnew < 0 then pure 0 else do let v ← rd Lp jnew; pure (unflip v))
    let xi ← wr s.xi (n + s.head) p0
    pure { s with Lp := Lp, xi := xi })
  let p2 ← (if jnew < 0 then pure 0 else do let v ← rd s.Lp (jnew + 1); pure (unflip v))
  let p ← rd s.xi (n + s.head)
  let r ← dfsScan s.Lp Li (p2 - p).toNat p
  match r with
  | some (p, i) =>
    let xi ← wr s.xi (n + s.head) p
    let xi ← wr xi (s.head + 1) i
    pure { s with head := s.head + 1, xi := xi }
  | none =>
    let xi ← wr s.xi (s.top - 1) j
    pure { s with head := s.head - 1, top := s.top - 1, xi := xi }

/-- The `while (head >= 0)` loop of `slip_dfs`, slip_dfs.c lines 44-88. -/
def dfsLoop (n : Int) (Li pinv : Arr Int) : Nat → DfsSt → C DfsSt
  | 0, s => if 0 ≤ s.head then .error .fuel else .ok s
  | f + 1, s => if 0 ≤ s.head then do
      let s ← dfsStep n Li pinv s
      dfsLoop n Li pinv f s
    else .ok s

/-- `slip_dfs`, slip_dfs.c lines 18-90; the fuel is `2n+1` iterations.
Returns the new `*top`, `L->p` and `xi`. -/
def slip_dfs (n : Int) (Li pinv : Arr Int) (top j : Int) (Lp xi : Arr Int) :
    C (Int × Arr Int × Arr Int) := do
  let xi ← wr xi 0 j
  let s ← dfsLoop n Li pinv (2 * n.toNat + 1) { head := 0, top := top, Lp := Lp, xi := xi }
  pure (s.top, s.Lp, s.xi)

/-! ## slip_reach.c -/

/-- `slip_reach`, slip_reach.c lines 18-56. `n = L->n`; `col` is the column of `A`.
Returns `*top`, `L->p` and `xi`. -/
def slip_reach (n : Int) (Ap Ai Li pinv : Arr Int) (col : Int) (Lp xi : Arr Int) :
    C (Int × Arr Int × Arr Int) := do
  let p0 ← rd Ap col
  let p1 ← rd Ap (col + 1)
  let (top, Lp, xi) ← forRange p0 p1 (n, Lp, xi) fun p (top, Lp, xi) => do
    let i ← rd Ai p
    let b ← marked Lp i
    if b then pure (top, Lp, xi) else slip_dfs n Li pinv top i Lp xi
  let Lp ← forRange top n Lp fun p Lp => do
    let j ← rd xi p
    mark Lp j
  pure (top, Lp, xi)

/-! ## slip_ref_triangular_solve.c -/

/-- Read the segment `a[lo .. lo+cnt-1]` (the memory `qsort` works on). -/
def rdSeg (a : Arr Int) : Nat → Int → C (List Int)
  | 0, _ => .ok []
  | m + 1, lo => do
    let v ← rd a lo
    let l ← rdSeg a m (lo + 1)
    pure (v :: l)

/-- Write the list `l` to `a[lo ..]`. -/
def wrSeg : List Int → Arr Int → Int → C (Arr Int)
  | [], a, _ => .ok a
  | v :: l, a, lo => do
    let a ← wr a lo v
    wrSeg l a (lo + 1)

/-- `qsort (&xi[top], n-top, sizeof (int64_t), compare)`, slip_ref_triangular_solve.c lines
73-85 and 143: ascending order.  The C library's `qsort` is trusted to sort; the keys are
distinct, so the result is unique. -/
def qsortSeg (xi : Arr Int) (top n : Int) : C (Arr Int) := do
  let l ← rdSeg xi (n - top).toNat top
  wrSeg (l.insertionSort (· ≤ ·)) xi top

/-- History update of `x[j]` to level `s`: `if (hj < s-1) { x[j] *= rhos[s-1];
if (hj > -1) x[j] /= rhos[hj] }`; slip_ref_triangular_solve.c lines 196-207 (`s = jnew`),
280-291 (`s = jnew`) and 312-322 (`s = k`). -/
def histUpdate (rhos : Arr Int) (x : Arr Int) (j hj s : Int) : C (Arr Int) :=
  if hj < s - 1 then do
    let xj ← rd x j
    let ρ ← rd rhos (s - 1)
    let x ← zset x j (xj * ρ)
    if hj > -1 then do
      let xj ← rd x j
      let ρh ← rd rhos hj
      let d ← divexact xj ρh
      zset x j d
    else pure x
  else pure x

/-- The IPGE update of `x[i]` by `lij = L->x[m]` and `x[j]`,
slip_ref_triangular_solve.c lines 224-303.  Returns the new `h` and `x`. -/
def ipgeUpdate (rhos : Arr Int) (h x : Arr Int) (i j jnew lij : Int) : C (Arr Int × Arr Int) := do
  let xi ← rd x i
  if xi = 0 then
    if jnew < 1 then do
      let xj ← rd x j
      let x ← zset x i (xi - lij * xj)
      let h ← wr h i jnew
      pure (h, x)
    else do
      let xj ← rd x j
      let x ← zset x i (xi - lij * xj)
      let v ← rd x i
      let ρ ← rd rhos (jnew - 1)
      let d ← divexact v ρ
      let x ← zset x i d
      let h ← wr h i jnew
      pure (h, x)
  else
    if jnew < 1 then do
      let ρ0 ← rd rhos 0
      let x ← zset x i (xi * ρ0)
      let v ← rd x i
      let xj ← rd x j
      let x ← zset x i (v - lij * xj)
      let h ← wr h i jnew
      pure (h, x)
    else do
      let hi ← rd h i
      let x ← histUpdate rhos x i hi jnew
      let v ← rd x i
      let ρj ← rd rhos jnew
      let x ← zset x i (v * ρj)
      let v ← rd x i
      let xj ← rd x j
      let x ← zset x i (v - lij * xj)
      let v ← rd x i
      let ρ ← rd rhos (jnew - 1)
      let d ← divexact v ρ
      let x ← zset x i d
      let h ← wr h i jnew
      pure (h, x)

/-- One iteration of the main loop, slip_ref_triangular_solve.c lines 183-323. -/
def solveStep (Lp Li Lx pinv rhos xi : Arr Int) (k p : Int) (h x : Arr Int) :
    C (Arr Int × Arr Int) := do
  let j ← rd xi p
  let jnew ← rd pinv j
  let xj ← rd x j
  if xj = 0 then pure (h, x)
  else if jnew < k then do
    let hj ← rd h j
    let x ← histUpdate rhos x j hj jnew
    let m0 ← rd Lp jnew
    let m1 ← rd Lp (jnew + 1)
    forRange m0 m1 (h, x) fun m (h, x) => do
      let i ← rd Li m
      let inew ← rd pinv i
      if inew > jnew then do
        let lij ← rd Lx m
        if lij = 0 then pure (h, x)
        else ipgeUpdate rhos h x i j jnew lij
      else pure (h, x)
  else do
    let hj ← rd h j
    let x ← histUpdate rhos x j hj k
    pure (h, x)

/-- Output of the triangular solve. -/
structure TriOut where
  top : Int
  Lp : Arr Int
  xi : Arr Int
  h : Arr Int
  x : Arr Int

/-- `slip_ref_triangular_solve`, slip_ref_triangular_solve.c lines 87-328. -/
def slip_ref_triangular_solve (L A : Csc) (k : Int) (xi q rhos pinv row_perm h x : Arr Int) :
    C TriOut := do
  let n := A.n
  let col ← rd q k
  let (top, Lp, xi) ← slip_reach L.n A.p A.i L.i pinv col L.p xi
  -- lines 137-140
  let xi ← forRange top n xi fun j xi => do
    let v ← rd xi j
    let w ← rd pinv v
    wr xi j w
  -- line 143
  let xi ← qsortSeg xi top n
  -- lines 146-149
  let xi ← forRange top n xi fun j xi => do
    let v ← rd xi j
    let w ← rd row_perm v
    wr xi j w
  -- lines 152-155
  let x ← forRange top n x fun i x => do
    let v ← rd xi i
    zset x v 0
  -- line 162
  let x ← zset x col 0
  -- lines 165-168
  let h ← forRange top n h fun i h => do
    let v ← rd xi i
    wr h v (-1)
  -- lines 171-175
  let a0 ← rd A.p col
  let a1 ← rd A.p (col + 1)
  let x ← forRange a0 a1 x fun p x => do
    let i ← rd A.i p
    let v ← rd A.x p
    zset x i v
  -- lines 181-324
  let (h, x) ← forRange top n (h, x) fun p (h, x) =>
    solveStep Lp L.i L.x pinv rhos xi k p h x
  pure { top := top, Lp := Lp, xi := xi, h := h, x := x }

/-! ## Pivot search -/

/-- `SLIP_pivot`: SLIP_LU.h, slip_internal.h lines 173-180. -/
inductive Pivot
  | smallest | diagonal | firstNonzero | tolSmallest | tolLargest | largest
  deriving DecidableEq, Repr

/-- A C `double`: a finite value (a rational) or not finite. -/
inductive Dbl
  | fin (v : ℚ) | posInf | negInf | nan
  deriving DecidableEq

/-- `SLIP_mpq_set_d`: exact for finite values; GMP aborts on NaN and infinities, which the
model reports as undefined behaviour. -/
def mpqSetD : Dbl → C ℚ
  | .fin v => .ok v
  | _ => .error .ub

/-- The first `while` loop of `slip_get_smallest_pivot`, slip_get_smallest_pivot.c lines
59-79: scan `xi[flag ..]` for the first eligible entry. Returns its position in `xi`, its row
and its value (`j`, `*pivot`, `small`). The C loop ends by setting `flag = -5`. -/
def smallestInit (x pivs xi : Arr Int) : Nat → Int → C (Option (Int × Int × Int))
  | 0, _ => .ok none
  | m + 1, flag => do
    let inew ← rd xi flag
    let v ← rd x inew
    let pv ← rd pivs inew
    if pv < 0 ∧ v ≠ 0 then pure (some (flag, inew, v))
    else smallestInit x pivs xi m (flag + 1)

/-- `slip_get_smallest_pivot`, slip_get_smallest_pivot.c lines 23-116. -/
def slip_get_smallest_pivot (x pivs : Arr Int) (n top : Int) (xi : Arr Int) : C Int := do
  let r ← (if 0 ≤ top then smallestInit x pivs xi (n - top).toNat top else pure none)
  let (j, pivot, small) := r.getD (n, -1, 0)
  let (pivot, _) ← forRange j n (pivot, small) fun i (pivot, small) => do
    let inew ← rd xi i
    let v ← rd x inew
    let pv ← rd pivs inew
    if pv < 0 ∧ small.natAbs > v.natAbs then
      if v ≠ 0 then pure (inew, v) else pure (pivot, small)
    else pure (pivot, small)
  if pivot = -1 then .error (.ret .singular) else pure pivot

/-- `slip_get_largest_pivot`, slip_get_largest_pivot.c lines 25-89. -/
def slip_get_largest_pivot (x pivs : Arr Int) (n top : Int) (xi : Arr Int) : C Int := do
  let (pivot, _) ← forRange top n ((-1 : Int), (0 : Int)) fun i (pivot, big) => do
    let inew ← rd xi i
    let v ← rd x inew
    let pv ← rd pivs inew
    if pv < 0 ∧ big.natAbs < v.natAbs then pure (inew, v) else pure (pivot, big)
  if pivot = -1 then .error (.ret .singular) else pure pivot

/-- The loop of `slip_get_nonzero_pivot`, slip_get_nonzero_pivot.c lines 52-65. -/
def nonzeroLoop (x pivs xi : Arr Int) : Nat → Int → C Int
  | 0, _ => .error (.ret .singular)
  | m + 1, i => do
    let inew ← rd xi i
    let v ← rd x inew
    let pv ← rd pivs inew
    if v ≠ 0 ∧ pv < 0 then pure inew else nonzeroLoop x pivs xi m (i + 1)

/-- `slip_get_nonzero_pivot`, slip_get_nonzero_pivot.c lines 22-69. -/
def slip_get_nonzero_pivot (x pivs : Arr Int) (n top : Int) (xi : Arr Int) : C Int :=
  nonzeroLoop x pivs xi (n - top).toNat top

/-- `mpq_cmp (ratio, tol) >= 0` where `ratio = num/den` was assembled by `mpq_set_num` and
`mpq_set_den` without canonicalisation.  GMP requires a positive denominator; for a negative
one its answer is unspecified and given by the oracle `nc` (`den = 0` is undefined). -/
def ratioGe (nc : Int → Int → ℚ → Bool) (num den : Int) (tol : ℚ) : C Bool :=
  if den = 0 then .error .ub
  else if 0 < den then .ok (decide (tol ≤ (num : ℚ) / (den : ℚ)))
  else .ok (nc num den tol)

/-- The choice of the pivot row, slip_get_pivot.c lines 85-187. -/
def choosePivot (nc : Int → Int → ℚ → Bool) (order : Pivot) (tol : Dbl) (x pivs : Arr Int)
    (n top : Int) (xi : Arr Int) (col : Int) : C Int :=
  match order with
  | .smallest => slip_get_smallest_pivot x pivs n top xi
  | .diagonal => do
    let v ← rd x col
    let pv ← rd pivs col
    if v ≠ 0 ∧ pv < 0 then pure col else slip_get_smallest_pivot x pivs n top xi
  | .firstNonzero => slip_get_nonzero_pivot x pivs n top xi
  | .tolLargest => do
    let pivot ← slip_get_largest_pivot x pivs n top xi
    let v ← rd x col
    let pv ← rd pivs col
    if v ≠ 0 ∧ pv < 0 then do
      let t ← mpqSetD tol
      let w ← rd x pivot
      let r ← ratioGe nc (v.natAbs : Int) w t
      if r then pure col else pure pivot
    else pure pivot
  | .largest => slip_get_largest_pivot x pivs n top xi
  | .tolSmallest => do
    let pivot ← slip_get_smallest_pivot x pivs n top xi
    let v ← rd x col
    let pv ← rd pivs col
    if v ≠ 0 ∧ pv < 0 then do
      let w ← rd x pivot
      let t ← mpqSetD tol
      let r ← ratioGe nc (w.natAbs : Int) (v.natAbs : Int) t
      if r then pure col else pure pivot
    else pure pivot

/-- Output of `slip_get_pivot`. -/
structure PivOut where
  pivot : Int
  pivs : Arr Int
  rhos : Arr Int
  pinv : Arr Int
  row_perm : Arr Int

/-- `slip_get_pivot`, slip_get_pivot.c lines 33-219. -/
def slip_get_pivot (nc : Int → Int → ℚ → Bool) (order : Pivot) (tol : Dbl) (x pivs : Arr Int)
    (n top : Int) (xi : Arr Int) (col k : Int) (rhos pinv row_perm : Arr Int) : C PivOut := do
  let pivot ← choosePivot nc order tol x pivs n top xi col
  let intermed ← rd pinv pivot
  let intermed2 ← rd row_perm k
  let row_perm ← wr row_perm k pivot
  let row_perm ← wr row_perm intermed intermed2
  let pinv ← wr pinv pivot k
  let pinv ← wr pinv intermed2 intermed
  let pivs ← wr pivs pivot 1
  let v ← rd x pivot
  let rhos ← zinit rhos k
  let rhos ← zset rhos k v
  pure { pivot := pivot, pivs := pivs, rhos := rhos, pinv := pinv, row_perm := row_perm }

/-! ## SLIP_LU_factorize.c -/

/-- `slip_sparse_realloc`, slip_sparse_realloc.c lines 19-58: double `nzmax`; the new part of
`i` is uninitialised, the new part of `x` is set to NULL (not initialised). -/
def slip_sparse_realloc (A : Csc) : Csc :=
  { A with
    x := A.x ++ malloc Int A.nzmax
    i := A.i ++ malloc Int A.nzmax
    nzmax := 2 * A.nzmax }

/-- `slip_sparse_collapse`, slip_sparse_collapse.c lines 20-50 (`anz = A->p[n]`, see
SLIP_matrix_nnz.c). -/
def slip_sparse_collapse (A : Csc) : C Csc := do
  let anz ← rd A.p A.n
  pure { A with i := A.i.take anz.toNat, x := A.x.take anz.toNat, nzmax := anz }

/-- `SLIP_matrix_allocate (&L, SLIP_CSC, SLIP_MPZ, n, n, nzmax, false, false, option)`:
SLIP_matrix_allocate.c lines 24-198 for this combination of arguments (`p` and `i` are
calloc'ed, the `mpz_t` entries are not initialised). -/
def allocCsc (n nzmax : Int) : Csc :=
  let nzmax := max nzmax 1
  { m := n, n := n, nzmax := nzmax, p := calloc (n + 1), i := calloc nzmax,
    x := malloc Int nzmax }

/-- The variables of the main loop of `SLIP_LU_factorize`. -/
structure FactSt where
  lnz : Int
  unz : Int
  L : Csc
  U : Csc
  rhos : Arr Int
  pinv : Arr Int
  row_perm : Arr Int
  pivs : Arr Int
  h : Arr Int
  xi : Arr Int
  x : Arr Int

/-- Append the entry `(row, v)` at position `nz` of `M` (`L` or `U`), SLIP_LU_factorize.c lines
243-251 and 260-268. -/
def pushEntry (M : Csc) (nz row v : Int) : C Csc := do
  let i ← wr M.i nz row
  let x ← zinit M.x nz
  let x ← zset x nz v
  pure { M with i := i, x := x }

/-- One iteration of the loop that populates L and U, SLIP_LU_factorize.c lines 233-269. -/
def popStep (xi pinv x : Arr Int) (k j : Int) (s : Int × Int × Csc × Csc) :
    C (Int × Int × Csc × Csc) := do
  let (lnz, unz, L, U) := s
  let jnew ← rd xi j
  let loc ← rd pinv jnew
  let (unz, U) ← (if loc ≤ k then do
      let v ← rd x jnew
      let U ← pushEntry U unz jnew v
      pure (unz + 1, U)
    else pure (unz, U))
  let (lnz, L) ← (if loc ≥ k then do
      let v ← rd x jnew
      let L ← pushEntry L lnz jnew v
      pure (lnz + 1, L)
    else pure (lnz, L))
  pure (lnz, unz, L, U)

/-- One iteration of the main loop, SLIP_LU_factorize.c lines 191-270. -/
def factStep (nc : Int → Int → ℚ → Bool) (order : Pivot) (tol : Dbl) (A : Csc) (q : Arr Int)
    (k : Int) (s : FactSt) : C FactSt := do
  let n := A.n
  let Lp ← wr s.L.p k s.lnz
  let Up ← wr s.U.p k s.unz
  let L := { s.L with p := Lp }
  let U := { s.U with p := Up }
  let col ← rd q k
  let L := if s.lnz + n > L.nzmax then slip_sparse_realloc L else L
  let U := if s.unz + n > U.nzmax then slip_sparse_realloc U else U
  let t ← slip_ref_triangular_solve L A k s.xi q s.rhos s.pinv s.row_perm s.h s.x
  let L := { L with p := t.Lp }
  let g ← slip_get_pivot nc order tol t.x s.pivs n t.top t.xi col k s.rhos s.pinv s.row_perm
  let (lnz, unz, L, U) ← forRange t.top n (s.lnz, s.unz, L, U) fun j st =>
    popStep t.xi g.pinv t.x k j st
  pure { lnz := lnz, unz := unz, L := L, U := U, rhos := g.rhos, pinv := g.pinv,
         row_perm := g.row_perm, pivs := g.pivs, h := t.h, xi := t.xi, x := t.x }

/-- Permute row indices: `for (i = 0 ; i < nz ; i++) M->i[i] = pinv[M->i[i]]`,
SLIP_LU_factorize.c lines 294-303. -/
def permuteRows (M : Csc) (pinv : Arr Int) (nz : Int) : C Csc := do
  let i ← forRange 0 nz M.i fun p Mi => do
    let v ← rd Mi p
    let w ← rd pinv v
    wr Mi p w
  pure { M with i := i }

/-- What `SLIP_LU_factorize` returns. -/
structure Factors where
  L : Csc
  U : Csc
  rhos : Arr Int
  pinv : Arr Int

/-- The initial state of the main loop, SLIP_LU_factorize.c lines 96-183. -/
def factInit (n lnz unz : Int) : C FactSt := do
  let h := malloc Int n
  let pivs := malloc Int n
  let pinv := malloc Int n
  let row_perm := malloc Int n
  let (h, pivs, pinv, row_perm) ← forRange 0 n (h, pivs, pinv, row_perm)
    fun i (h, pivs, pinv, row_perm) => do
      let h ← wr h i (-1)
      let pivs ← wr pivs i (-1)
      let pinv ← wr pinv i i
      let row_perm ← wr row_perm i i
      pure (h, pivs, pinv, row_perm)
  let x ← forRange 0 n (malloc Int (max n 1)) fun i x => zinit x i
  pure { lnz := 0, unz := 0, L := allocCsc n lnz, U := allocCsc n unz,
         rhos := malloc Int (max n 1), pinv := pinv, row_perm := row_perm, pivs := pivs,
         h := h, xi := malloc Int (2 * n), x := x }

/-- The body of `SLIP_LU_factorize` after the argument checks, SLIP_LU_factorize.c lines 76-322.
`q`, `lnz`, `unz` are the fields of `S`. -/
def factorize (nc : Int → Int → ℚ → Bool) (order : Pivot) (tol : Dbl) (A : Csc) (q : Arr Int)
    (lnz unz : Int) : C Factors := do
  let n := A.n
  let s ← factInit n lnz unz
  let s ← forRange 0 n s fun k s => factStep nc order tol A q k s
  let Lp ← wr s.L.p n s.lnz
  let Up ← wr s.U.p n s.unz
  let L ← slip_sparse_collapse { s.L with p := Lp }
  let U ← slip_sparse_collapse { s.U with p := Up }
  let L ← permuteRows L s.pinv s.lnz
  let U ← permuteRows U s.pinv s.unz
  pure { L := L, U := U, rhos := s.rhos, pinv := s.pinv }

end Slip
