import Verif.Model.Api

/-!
# The numerical phases over a heap

In the rest of the model an array is a value: a function receives arrays and returns the arrays it has
changed, so that it cannot change anything else and two arguments cannot be the same array. C passes
pointers. This file transcribes the same functions (`SLIP_LU_analyze`, `SLIP_LU_factorize`,
`SLIP_LU_solve` and the functions they call) once more, statement by statement, over a heap: every array
is a reference, a write goes to the heap, and two references may be equal.

Simplifications:
* the scalar fields of an object (`m`, `n`, `nzmax`, `scale`, ...) and the local variables are values;
  only the arrays are in the heap;
* `SLIP_realloc` keeps the reference of the array it resizes (all copies of the pointer are updated, since
  the only copy is the field of the matrix object);
* `SLIP_free` empties the array: any later access is undefined behaviour. References are not reused;
* the workspaces are released on success (`SLIP_FREE_WORK`); on an error return the model leaves them
  in the heap (that nothing is lost there is the subject of `Verif/Model/Memory.lean`);
* `amd_l_order` and `colamd_l` are single operations on the arrays they are given.
-/

namespace Slip.Store

/-- A pointer to an array. -/
scoped notation "Ref" => ℕ

/-- The memory: arrays of integers (`int64_t` and `mpz_t`) and of rationals (`mpq_t`). References below
`nz` (`nq`) have been handed out by the allocator. -/
structure Heap where
  z : Ref → Arr Int
  q : Ref → Arr ℚ
  nz : ℕ
  nq : ℕ

/-- A C computation that works on the heap. The heap is there also when the computation fails. -/
def H (α : Type) := Heap → Except Fail α × Heap

instance : Monad H where
  pure a := fun h => (.ok a, h)
  bind m f := fun h =>
    match m h with
    | (.ok a, h) => f a h
    | (.error e, h) => (.error e, h)

/-- The arrays that existed in `h0` have in `h` the contents they had in `h0` (new arrays may have been added).
This is part of the specification. -/
def Frame (h0 h : Heap) : Prop :=
  (∀ r, r < h0.nz → h.z r = h0.z r) ∧ (∀ r, r < h0.nq → h.q r = h0.q r) ∧
    h0.nz ≤ h.nz ∧ h0.nq ≤ h.nq

/-- Store the array `a` under the reference `r`. -/
def Heap.put (h : Heap) (r : Ref) (a : Arr Int) : Heap :=
  { h with z := fun s => if s = r then a else h.z s }

/-- Store the array `a` of rationals under the reference `r`. -/
def Heap.putq (h : Heap) (r : Ref) (a : Arr ℚ) : Heap :=
  { h with q := fun s => if s = r then a else h.q s }

/-- A computation that does not use the heap. -/
def lift {α : Type} (m : C α) : H α := fun h => (m, h)

/-- `a[i]`. -/
def rdH (r : Ref) (i : Int) : H Int := fun h => (rd (h.z r) i, h)

/-- `a[i]`, rational. -/
def rdqH (r : Ref) (i : Int) : H ℚ := fun h => (rd (h.q r) i, h)

/-- An operation that changes the array `r`. -/
def modH (r : Ref) (f : Arr Int → C (Arr Int)) : H Unit := fun h =>
  match f (h.z r) with
  | .ok a => (.ok (), h.put r a)
  | .error e => (.error e, h)

/-- An operation that changes the array `r` of rationals. -/
def modqH (r : Ref) (f : Arr ℚ → C (Arr ℚ)) : H Unit := fun h =>
  match f (h.q r) with
  | .ok a => (.ok (), h.putq r a)
  | .error e => (.error e, h)

/-- `a[i] = v`. -/
def wrH (r : Ref) (i v : Int) : H Unit := modH r fun a => wr a i v
/-- `mpz_init2 (a[i])`. -/
def zinitH (r : Ref) (i : Int) : H Unit := modH r fun a => zinit a i
/-- A GMP operation that stores `v` in `a[i]`. -/
def zsetH (r : Ref) (i v : Int) : H Unit := modH r fun a => zset a i v
/-- A GMP operation that stores the rational `v` in `a[i]`. -/
def zsetqH (r : Ref) (i : Int) (v : ℚ) : H Unit := modqH r fun a => zset a i v

/-- A new array with contents `a`. -/
def newH (a : Arr Int) : H Ref := fun h =>
  (.ok h.nz, { h.put h.nz a with nz := h.nz + 1 })

/-- A new array of rationals with contents `a`. -/
def newqH (a : Arr ℚ) : H Ref := fun h =>
  (.ok h.nq, { h.putq h.nq a with nq := h.nq + 1 })

/-- `SLIP_free`. -/
def freeH (r : Ref) : H Unit := modH r fun _ => .ok []
/-- `SLIP_free` of an array of rationals. -/
def freeqH (r : Ref) : H Unit := modqH r fun _ => .ok []

/-- `for (i = lo ; i < lo + cnt ; i++)`; `s` are the scalar variables changed by the body. -/
def forCntH {σ : Type} : Nat → Int → σ → (Int → σ → H σ) → H σ
  | 0, _, s, _ => pure s
  | m + 1, lo, s, f => do
    let s ← f lo s
    forCntH m (lo + 1) s f

/-- `for (i = lo ; i < hi ; i++)`. -/
def forH {σ : Type} (lo hi : Int) (s : σ) (f : Int → σ → H σ) : H σ :=
  forCntH (hi - lo).toNat lo s f

/-- `for (i = lo + cnt - 1 ; i >= lo ; i--)`. -/
def forDownCntH {σ : Type} : Nat → Int → σ → (Int → σ → H σ) → H σ
  | 0, _, s, _ => pure s
  | m + 1, lo, s, f => do
    let s ← f (lo + m) s
    forDownCntH m lo s f

/-- `for (i = hi-1 ; i >= lo ; i--)`. -/
def forDownH {σ : Type} (lo hi : Int) (s : σ) (f : Int → σ → H σ) : H σ :=
  forDownCntH (hi - lo).toNat lo s f

/-! ## Objects -/

/-- A `SLIP_matrix` of kind CSC and type MPZ: SLIP_LU.h `SLIP_matrix` (m, n, nzmax, p, i, x.mpz). -/
structure CscH where
  m : Int
  n : Int
  nzmax : Int
  p : Ref
  i : Ref
  x : Ref

/-- A `SLIP_matrix` of kind DENSE: SLIP_LU.h `SLIP_matrix` (m, n, nzmax, x). -/
structure DenseH where
  m : Int
  n : Int
  nzmax : Int
  x : Ref

/-! ## slip_dfs.c, slip_reach.c -/

/-- `SLIP_MARKED`: slip_internal.h line 81. -/
def markedH (Lp : Ref) (j : Int) : H Bool := do
  let v ← rdH Lp j
  pure (decide (v < 0))

/-- `SLIP_MARK`: slip_internal.h line 82. -/
def markH (Lp : Ref) (j : Int) : H Unit := do
  let v ← rdH Lp j
  wrH Lp j (flip v)

/-- The inner `for` loop of `slip_dfs`, slip_dfs.c lines 67-82 (see `dfsScan`). -/
def dfsScanH (Lp Li : Ref) : Nat → Int → H (Option (Int × Int))
  | 0, _ => pure none
  | m + 1, p => do
    let i ← rdH Li p
    let b ← markedH Lp i
    if b then dfsScanH Lp Li m (p + 1) else pure (some (p, i))

/-- One iteration of the `while` loop of `slip_dfs`, slip_dfs.c lines 46-87; `(head, top)`. -/
def dfsStepH (n : Int) (Lp Li pinv xi : Ref) (head top : Int) : H (Int × Int) := do
  let j ← rdH xi head
  let jnew ← rdH pinv j
  let b ← markedH Lp j
  (if b then pure () else do
    markH Lp j
    let p0 ← (if jnew < 0 then pure 0 else do let v ← rdH Lp jnew; pure (unflip v))
    wrH xi (n + head) p0)
  let p2 ← (if jnew < 0 then pure 0 else do let v ← rdH Lp (jnew + 1); pure (unflip v))
  let p ← rdH xi (n + head)
  let r ← dfsScanH Lp Li (p2 - p).toNat p
  match r with
  | some (p, i) => do
    wrH xi (n + head) p
    wrH xi (head + 1) i
    pure (head + 1, top)
  | none => do
    wrH xi (top - 1) j
    pure (head - 1, top - 1)

/-- The `while (head >= 0)` loop of `slip_dfs`, slip_dfs.c lines 44-88. Returns `*top`. -/
def dfsLoopH (n : Int) (Lp Li pinv xi : Ref) : Nat → Int → Int → H Int
  | 0, head, top => if 0 ≤ head then lift (.error .fuel) else pure top
  | f + 1, head, top => if 0 ≤ head then do
      let (head, top) ← dfsStepH n Lp Li pinv xi head top
      dfsLoopH n Lp Li pinv xi f head top
    else pure top

/-- `slip_dfs`, slip_dfs.c lines 18-90. Returns `*top`. -/
def slip_dfsH (n : Int) (Lp Li pinv xi : Ref) (top j : Int) : H Int := do
  wrH xi 0 j
  dfsLoopH n Lp Li pinv xi (2 * n.toNat + 1) 0 top

/-- `slip_reach`, slip_reach.c lines 18-56. Returns `*top`. -/
def slip_reachH (n : Int) (Ap Ai Lp Li pinv xi : Ref) (col : Int) : H Int := do
  let p0 ← rdH Ap col
  let p1 ← rdH Ap (col + 1)
  let top ← forH p0 p1 n fun p top => do
    let i ← rdH Ai p
    let b ← markedH Lp i
    if b then pure top else slip_dfsH n Lp Li pinv xi top i
  forH top n () fun p _ => do
    let j ← rdH xi p
    markH Lp j
  pure top

/-! ## slip_ref_triangular_solve.c -/

/-- History update, slip_ref_triangular_solve.c lines 196-207, 280-291 and 312-322 (see
`histUpdate`). -/
def histUpdateH (rhos x : Ref) (j hj s : Int) : H Unit :=
  if hj < s - 1 then do
    let xj ← rdH x j
    let ρ ← rdH rhos (s - 1)
    zsetH x j (xj * ρ)
    if hj > -1 then do
      let xj ← rdH x j
      let ρh ← rdH rhos hj
      let d ← lift (divexact xj ρh)
      zsetH x j d
    else pure ()
  else pure ()

/-- The IPGE update of `x[i]`, slip_ref_triangular_solve.c lines 224-303. -/
def ipgeUpdateH (rhos h x : Ref) (i j jnew lij : Int) : H Unit := do
  let xi ← rdH x i
  if xi = 0 then
    if jnew < 1 then do
      let xj ← rdH x j
      zsetH x i (xi - lij * xj)
      wrH h i jnew
    else do
      let xj ← rdH x j
      zsetH x i (xi - lij * xj)
      let v ← rdH x i
      let ρ ← rdH rhos (jnew - 1)
      let d ← lift (divexact v ρ)
      zsetH x i d
      wrH h i jnew
  else
    if jnew < 1 then do
      let ρ0 ← rdH rhos 0
      zsetH x i (xi * ρ0)
      let v ← rdH x i
      let xj ← rdH x j
      zsetH x i (v - lij * xj)
      wrH h i jnew
    else do
      let hi ← rdH h i
      histUpdateH rhos x i hi jnew
      let v ← rdH x i
      let ρj ← rdH rhos jnew
      zsetH x i (v * ρj)
      let v ← rdH x i
      let xj ← rdH x j
      zsetH x i (v - lij * xj)
      let v ← rdH x i
      let ρ ← rdH rhos (jnew - 1)
      let d ← lift (divexact v ρ)
      zsetH x i d
      wrH h i jnew

/-- One iteration of the main loop, slip_ref_triangular_solve.c lines 183-323. -/
def solveStepH (L : CscH) (pinv rhos xi h x : Ref) (k p : Int) : H Unit := do
  let j ← rdH xi p
  let jnew ← rdH pinv j
  let xj ← rdH x j
  if xj = 0 then pure ()
  else if jnew < k then do
    let hj ← rdH h j
    histUpdateH rhos x j hj jnew
    let m0 ← rdH L.p jnew
    let m1 ← rdH L.p (jnew + 1)
    forH m0 m1 () fun m _ => do
      let i ← rdH L.i m
      let inew ← rdH pinv i
      if inew > jnew then do
        let lij ← rdH L.x m
        if lij = 0 then pure ()
        else ipgeUpdateH rhos h x i j jnew lij
      else pure ()
  else do
    let hj ← rdH h j
    histUpdateH rhos x j hj k

/-- `slip_ref_triangular_solve`, slip_ref_triangular_solve.c lines 87-328. Returns `*top_output`. -/
def slip_ref_triangular_solveH (L A : CscH) (k : Int) (xi q rhos pinv row_perm h x : Ref) :
    H Int := do
  let n := A.n
  let col ← rdH q k
  let top ← slip_reachH L.n A.p A.i L.p L.i pinv xi col
  -- lines 137-140
  forH top n () fun j _ => do
    let v ← rdH xi j
    let w ← rdH pinv v
    wrH xi j w
  -- line 143
  modH xi fun a => qsortSeg a top n
  -- lines 146-149
  forH top n () fun j _ => do
    let v ← rdH xi j
    let w ← rdH row_perm v
    wrH xi j w
  -- lines 152-155
  forH top n () fun i _ => do
    let v ← rdH xi i
    zsetH x v 0
  -- line 162
  zsetH x col 0
  -- lines 165-168
  forH top n () fun i _ => do
    let v ← rdH xi i
    wrH h v (-1)
  -- lines 171-175
  let a0 ← rdH A.p col
  let a1 ← rdH A.p (col + 1)
  forH a0 a1 () fun p _ => do
    let i ← rdH A.i p
    let v ← rdH A.x p
    zsetH x i v
  -- lines 181-324
  forH top n () fun p _ => solveStepH L pinv rhos xi h x k p
  pure top

/-! ## Pivot search -/

/-- The first `while` loop of `slip_get_smallest_pivot`, slip_get_smallest_pivot.c lines 59-79. -/
def smallestInitH (x pivs xi : Ref) : Nat → Int → H (Option (Int × Int × Int))
  | 0, _ => pure none
  | m + 1, flag => do
    let inew ← rdH xi flag
    let v ← rdH x inew
    let pv ← rdH pivs inew
    if pv < 0 ∧ v ≠ 0 then pure (some (flag, inew, v))
    else smallestInitH x pivs xi m (flag + 1)

/-- `slip_get_smallest_pivot`, slip_get_smallest_pivot.c lines 23-116. -/
def slip_get_smallest_pivotH (x pivs : Ref) (n top : Int) (xi : Ref) : H Int := do
  let r ← (if 0 ≤ top then smallestInitH x pivs xi (n - top).toNat top else pure none)
  let (j, pivot, small) := r.getD (n, -1, 0)
  let (pivot, _) ← forH j n (pivot, small) fun i (pivot, small) => do
    let inew ← rdH xi i
    let v ← rdH x inew
    let pv ← rdH pivs inew
    if pv < 0 ∧ small.natAbs > v.natAbs then
      if v ≠ 0 then pure (inew, v) else pure (pivot, small)
    else pure (pivot, small)
  if pivot = -1 then lift (.error (.ret .singular)) else pure pivot

/-- `slip_get_largest_pivot`, slip_get_largest_pivot.c lines 25-89. -/
def slip_get_largest_pivotH (x pivs : Ref) (n top : Int) (xi : Ref) : H Int := do
  let (pivot, _) ← forH top n ((-1 : Int), (0 : Int)) fun i (pivot, big) => do
    let inew ← rdH xi i
    let v ← rdH x inew
    let pv ← rdH pivs inew
    if pv < 0 ∧ big.natAbs < v.natAbs then pure (inew, v) else pure (pivot, big)
  if pivot = -1 then lift (.error (.ret .singular)) else pure pivot

/-- `slip_get_nonzero_pivot`, slip_get_nonzero_pivot.c lines 22-69. -/
def nonzeroLoopH (x pivs xi : Ref) : Nat → Int → H Int
  | 0, _ => lift (.error (.ret .singular))
  | m + 1, i => do
    let inew ← rdH xi i
    let v ← rdH x inew
    let pv ← rdH pivs inew
    if v ≠ 0 ∧ pv < 0 then pure inew else nonzeroLoopH x pivs xi m (i + 1)

/-- The choice of the pivot row, slip_get_pivot.c lines 85-187. -/
def choosePivotH (nc : Int → Int → ℚ → Bool) (order : Pivot) (tol : Dbl) (x pivs : Ref)
    (n top : Int) (xi : Ref) (col : Int) : H Int :=
  match order with
  | .smallest => slip_get_smallest_pivotH x pivs n top xi
  | .diagonal => do
    let v ← rdH x col
    let pv ← rdH pivs col
    if v ≠ 0 ∧ pv < 0 then pure col else slip_get_smallest_pivotH x pivs n top xi
  | .firstNonzero => nonzeroLoopH x pivs xi (n - top).toNat top
  | .tolLargest => do
    let pivot ← slip_get_largest_pivotH x pivs n top xi
    let v ← rdH x col
    let pv ← rdH pivs col
    if v ≠ 0 ∧ pv < 0 then do
      let t ← lift (mpqSetD tol)
      let w ← rdH x pivot
      let r ← lift (ratioGe nc (v.natAbs : Int) w t)
      if r then pure col else pure pivot
    else pure pivot
  | .largest => slip_get_largest_pivotH x pivs n top xi
  | .tolSmallest => do
    let pivot ← slip_get_smallest_pivotH x pivs n top xi
    let v ← rdH x col
    let pv ← rdH pivs col
    if v ≠ 0 ∧ pv < 0 then do
      let w ← rdH x pivot
      let t ← lift (mpqSetD tol)
      let r ← lift (ratioGe nc (w.natAbs : Int) (v.natAbs : Int) t)
      if r then pure col else pure pivot
    else pure pivot

/-- `slip_get_pivot`, slip_get_pivot.c lines 33-219. Returns `*pivot`. -/
def slip_get_pivotH (nc : Int → Int → ℚ → Bool) (order : Pivot) (tol : Dbl) (x pivs : Ref)
    (n top : Int) (xi : Ref) (col k : Int) (rhos pinv row_perm : Ref) : H Int := do
  let pivot ← choosePivotH nc order tol x pivs n top xi col
  let intermed ← rdH pinv pivot
  let intermed2 ← rdH row_perm k
  wrH row_perm k pivot
  wrH row_perm intermed intermed2
  wrH pinv pivot k
  wrH pinv intermed2 intermed
  wrH pivs pivot 1
  let v ← rdH x pivot
  zinitH rhos k
  zsetH rhos k v
  pure pivot

/-! ## SLIP_LU_factorize.c -/

/-- `slip_sparse_realloc`, slip_sparse_realloc.c lines 19-58. -/
def slip_sparse_reallocH (A : CscH) : H CscH := do
  modH A.x fun a => .ok (a ++ malloc Int A.nzmax)
  modH A.i fun a => .ok (a ++ malloc Int A.nzmax)
  pure { A with nzmax := 2 * A.nzmax }

/-- `slip_sparse_collapse`, slip_sparse_collapse.c lines 20-50. -/
def slip_sparse_collapseH (A : CscH) : H CscH := do
  let anz ← rdH A.p A.n
  modH A.i fun a => .ok (a.take anz.toNat)
  modH A.x fun a => .ok (a.take anz.toNat)
  pure { A with nzmax := anz }

/-- `SLIP_matrix_allocate` for a CSC MPZ matrix without initialization, SLIP_matrix_allocate.c lines
24-198 (see `allocCsc`). -/
def allocCscH (n nzmax : Int) : H CscH := do
  let nzmax := max nzmax 1
  let p ← newH (calloc (n + 1))
  let i ← newH (calloc nzmax)
  let x ← newH (malloc Int nzmax)
  pure { m := n, n := n, nzmax := nzmax, p := p, i := i, x := x }

/-- Append an entry to `L` or `U`, SLIP_LU_factorize.c lines 243-251 and 260-268. -/
def pushEntryH (M : CscH) (nz row v : Int) : H Unit := do
  wrH M.i nz row
  zinitH M.x nz
  zsetH M.x nz v

/-- One iteration of the loop that populates L and U, SLIP_LU_factorize.c lines 233-269;
`(lnz, unz)`. -/
def popStepH (L U : CscH) (xi pinv x : Ref) (k j : Int) (s : Int × Int) : H (Int × Int) := do
  let (lnz, unz) := s
  let jnew ← rdH xi j
  let loc ← rdH pinv jnew
  let unz ← (if loc ≤ k then do
      let v ← rdH x jnew
      pushEntryH U unz jnew v
      pure (unz + 1)
    else pure unz)
  let lnz ← (if loc ≥ k then do
      let v ← rdH x jnew
      pushEntryH L lnz jnew v
      pure (lnz + 1)
    else pure lnz)
  pure (lnz, unz)

/-- The local variables of `SLIP_LU_factorize`, SLIP_LU_factorize.c lines 78-100: the references do not
change in the main loop. -/
structure LocH where
  rhos : Ref
  pinv : Ref
  row_perm : Ref
  pivs : Ref
  h : Ref
  xi : Ref
  x : Ref

/-- One iteration of the main loop, SLIP_LU_factorize.c lines 191-270; the scalar variables are `lnz`,
`unz` and the headers of `L` and `U`. -/
def factStepH (nc : Int → Int → ℚ → Bool) (order : Pivot) (tol : Dbl) (A : CscH) (q : Ref) (w : LocH)
    (k : Int) (s : Int × Int × CscH × CscH) : H (Int × Int × CscH × CscH) := do
  let (lnz, unz, L, U) := s
  let n := A.n
  wrH L.p k lnz
  wrH U.p k unz
  let col ← rdH q k
  let L ← (if lnz + n > L.nzmax then slip_sparse_reallocH L else pure L)
  let U ← (if unz + n > U.nzmax then slip_sparse_reallocH U else pure U)
  let top ← slip_ref_triangular_solveH L A k w.xi q w.rhos w.pinv w.row_perm w.h w.x
  let _ ← slip_get_pivotH nc order tol w.x w.pivs n top w.xi col k w.rhos w.pinv w.row_perm
  let (lnz, unz) ← forH top n (lnz, unz) fun j st => popStepH L U w.xi w.pinv w.x k j st
  pure (lnz, unz, L, U)

/-- Permute row indices, SLIP_LU_factorize.c lines 294-303. -/
def permuteRowsH (M : CscH) (pinv : Ref) (nz : Int) : H Unit :=
  forH 0 nz () fun p _ => do
    let v ← rdH M.i p
    let w ← rdH pinv v
    wrH M.i p w

/-- What `SLIP_LU_factorize` returns. -/
structure FactorsH where
  L : CscH
  U : CscH
  rhos : Ref
  pinv : Ref

/-- The initializations before the main loop, SLIP_LU_factorize.c lines 96-183. -/
def factInitH (n lnz unz : Int) : H (LocH × CscH × CscH) := do
  let pinv ← newH (malloc Int n)
  let pivs ← newH (malloc Int n)
  let h ← newH (malloc Int n)
  let xi ← newH (malloc Int (2 * n))
  let row_perm ← newH (malloc Int n)
  forH 0 n () fun i _ => do
    wrH h i (-1)
    wrH pivs i (-1)
    wrH pinv i i
    wrH row_perm i i
  let rhos ← newH (malloc Int (max n 1))
  let L ← allocCscH n lnz
  let U ← allocCscH n unz
  let x ← newH (malloc Int (max n 1))
  forH 0 n () fun i _ => zinitH x i
  pure ({ rhos := rhos, pinv := pinv, row_perm := row_perm, pivs := pivs, h := h, xi := xi,
          x := x }, L, U)

/-- The body of `SLIP_LU_factorize` after the argument checks, SLIP_LU_factorize.c lines 76-322. -/
def factorizeH (nc : Int → Int → ℚ → Bool) (order : Pivot) (tol : Dbl) (A : CscH) (q : Ref)
    (lnz unz : Int) : H FactorsH := do
  let n := A.n
  let (w, L, U) ← factInitH n lnz unz
  let (lnz, unz, L, U) ← forH 0 n (0, 0, L, U) fun k s => factStepH nc order tol A q w k s
  wrH L.p n lnz
  wrH U.p n unz
  -- `SLIP_FREE_WORK`, line 279
  freeH w.xi
  freeH w.h
  freeH w.pivs
  freeH w.row_perm
  freeH w.x
  let L ← slip_sparse_collapseH L
  let U ← slip_sparse_collapseH U
  permuteRowsH L w.pinv lnz
  permuteRowsH U w.pinv unz
  pure { L := L, U := U, rhos := w.rhos, pinv := w.pinv }

/-! ## The solve phase -/

/-- `SLIP_matrix_allocate` for an initialized dense MPZ matrix: SLIP_matrix_allocate.c lines 77-81 and
143-182 (see `allocDense`). -/
def allocDenseH (m n : Int) : H DenseH := do
  let x ← newH (allocDense Int m n).x
  pure { m := m, n := n, nzmax := max (m * n) 1, x := x }

/-- `SLIP_matrix_allocate` for an initialized dense MPQ matrix: SLIP_matrix_allocate.c lines 77-81 and
143-182 (see `allocDense`). -/
def allocDenseqH (m n : Int) : H DenseH := do
  let x ← newqH (allocDense ℚ m n).x
  pure { m := m, n := n, nzmax := max (m * n) 1, x := x }

/-- `slip_permute_b`, slip_permute_b.c lines 24-70. -/
def slip_permute_bH (b2 : DenseH) (pinv : Ref) : H DenseH := do
  let m := b2.m
  let n := b2.n
  let b ← allocDenseH m n
  forH 0 m () fun i _ =>
    forH 0 n () fun j _ => do
      let p ← rdH pinv i
      let v ← rdH b2.x (ix2 m i j)
      zsetH b.x (ix2 m p j) v
  pure b

/-- The update of `x(jnew,k)`, slip_forward_sub.c lines 114-165. -/
def fwdUpdateH (rhos h x : Ref) (ij ii i lji : Int) : H Unit := do
  let xj ← rdH x ij
  (if xj = 0 then do
    let xi ← rdH x ii
    zsetH x ij (xj - lji * xi)
    if i > 0 then do
      let v ← rdH x ij
      let ρ ← rdH rhos (i - 1)
      let d ← lift (divexact v ρ)
      zsetH x ij d
    else pure ()
  else do
    let hx ← rdH h ij
    histUpdateH rhos x ij hx i
    let v ← rdH x ij
    let ρi ← rdH rhos i
    zsetH x ij (v * ρi)
    let v ← rdH x ij
    let xi ← rdH x ii
    zsetH x ij (v - lji * xi)
    if i > 0 then do
      let v ← rdH x ij
      let ρ ← rdH rhos (i - 1)
      let d ← lift (divexact v ρ)
      zsetH x ij d
    else pure ())
  wrH h ij i

/-- One iteration `i` for right-hand side `k`, slip_forward_sub.c lines 77-168. -/
def fwdStepH (L : CscH) (rhos : Ref) (m k i : Int) (h x : Ref) : H Unit := do
  let hx ← rdH h (ix2 m i k)
  let xi ← rdH x (ix2 m i k)
  if xi = 0 then pure ()
  else do
    histUpdateH rhos x (ix2 m i k) hx i
    let p0 ← rdH L.p i
    let p1 ← rdH L.p (i + 1)
    forH p0 p1 () fun j _ => do
      let jnew ← rdH L.i j
      let lji ← rdH L.x j
      if lji = 0 then pure ()
      else if jnew > i then fwdUpdateH rhos h x (ix2 m jnew k) (ix2 m i k) i lji
      else pure ()

/-- `slip_forward_sub`, slip_forward_sub.c lines 27-181: overwrites `x`. -/
def slip_forward_subH (L : CscH) (x : DenseH) (rhos : Ref) : H Unit := do
  let h ← allocDenseH x.m x.n
  forH 0 x.nzmax () fun i _ => wrH h.x i (-1)
  forH 0 x.n () fun k _ =>
    forH 0 x.m () fun i _ => fwdStepH L rhos x.m k i h.x x.x
  freeH h.x

/-- `slip_matrix_mul` on a dense matrix, slip_matrix_mul.c lines 18-48: overwrites `x`. -/
def slip_matrix_mulH (x : DenseH) (scalar : Int) : H Unit :=
  forH 0 (x.m * x.n) () fun i _ => do
    let v ← rdH x.x i
    zsetH x.x i (v * scalar)

/-- The inner loop body of `slip_back_sub`, slip_back_sub.c lines 58-66. -/
def backInnerH (U : CscH) (m k j : Int) (y : Ref) (i : Int) : H Unit := do
  let u ← rdH U.x i
  if u = 0 then pure ()
  else do
    let row ← rdH U.i i
    let w ← rdH y (ix2 m row k)
    let bj ← rdH y (ix2 m j k)
    zsetH y (ix2 m row k) (w - u * bj)

/-- One iteration `j` for right-hand side `k`, slip_back_sub.c lines 47-67. -/
def backStepH (U : CscH) (m k j : Int) (y : Ref) : H Unit := do
  let v ← rdH y (ix2 m j k)
  if v = 0 then pure ()
  else do
    let p1 ← rdH U.p (j + 1)
    let d ← rdH U.x (p1 - 1)
    let w ← lift (divexact v d)
    zsetH y (ix2 m j k) w
    let p0 ← rdH U.p j
    forH p0 (p1 - 1) () fun i _ => backInnerH U m k j y i

/-- `slip_back_sub`, slip_back_sub.c lines 24-71: overwrites `bx`. -/
def slip_back_subH (U : CscH) (bx : DenseH) : H Unit :=
  forH 0 bx.n () fun k _ =>
    forDownH 0 U.n () fun j _ => backStepH U bx.m k j bx.x

/-- `slip_matrix_div`, slip_matrix_div.c lines 28-82. -/
def slip_matrix_divH (x : DenseH) (scalar : Int) : H DenseH := do
  let x2 ← allocDenseqH x.m x.n
  forH 0 (x.m * x.n) () fun i _ => do
    let v ← rdH x.x i
    zsetqH x2.x i (v : ℚ)
    let w ← rdqH x2.x i
    let d ← lift (mpqDiv w (scalar : ℚ))
    zsetqH x2.x i d
  pure x2

/-- `slip_permute_x`, slip_permute_x.c lines 22-72. -/
def slip_permute_xH (x2 : DenseH) (q : Ref) : H DenseH := do
  let m := x2.m
  let n := x2.n
  let x ← allocDenseqH m n
  forH 0 m () fun i _ =>
    forH 0 n () fun j _ => do
      let p ← rdH q i
      let v ← rdqH x2.x (ix2 m i j)
      zsetqH x.x (ix2 m p j) v
  pure x

/-- The product `b2 = A*x`, slip_check_solution.c lines 55-75. -/
def checkMulH (A : CscH) (x : DenseH) (m n : Int) (b2 : Ref) : H Unit :=
  forH 0 n () fun j _ =>
    forH 0 m () fun i _ => do
      let p0 ← rdH A.p i
      let p1 ← rdH A.p (i + 1)
      forH p0 p1 () fun p _ => do
        let a ← rdH A.x p
        let xv ← rdqH x.x (ix2 x.m i j)
        let r ← rdH A.i p
        let w ← rdqH b2 (ix2 m r j)
        zsetqH b2 (ix2 m r j) (w + (a : ℚ) * xv)

/-- The comparison `b == b2`, slip_check_solution.c lines 81-98. -/
def checkCmpH (b : DenseH) (b2 : Ref) : H Bool :=
  forH 0 b.n true fun j ok =>
    if !ok then pure false
    else forH 0 b.m true fun i ok =>
      if !ok then pure false
      else do
        let v ← rdH b.x (ix2 b.m i j)
        let w ← rdqH b2 (ix2 b.m i j)
        pure (decide ((v : ℚ) = w))

/-- `slip_check_solution`, slip_check_solution.c lines 20-122 (printing omitted). -/
def slip_check_solutionH (A : CscH) (x b : DenseH) : H Unit := do
  let b2 ← allocDenseqH b.m b.n
  checkMulH A x b.m b.n b2.x
  let ok ← checkCmpH b b2.x
  freeqH b2.x
  if ok then pure () else lift (.error (.ret .incorrect))

/-- The final scaling, SLIP_LU_solve.c lines 151-166: overwrites `x`. -/
def scaleSolutionH (x : DenseH) (sA sb : ℚ) : H Unit := do
  let scale ← lift (mpqDiv sA sb)
  if scale = 1 then pure ()
  else
    forH 0 (x.m * x.n) () fun i _ => do
      let v ← rdqH x.x i
      zsetqH x.x i (v * scale)

/-- The body of `SLIP_LU_solve` after the argument checks, SLIP_LU_solve.c lines 93-175. -/
def luSolveH (A : CscH) (sA : ℚ) (b : DenseH) (sb : ℚ) (F : FactorsH) (q : Ref)
    (check : Bool) : H DenseH := do
  let n := F.L.n
  let b2 ← slip_permute_bH b F.pinv
  slip_forward_subH F.L b2 F.rhos
  let det ← rdH F.rhos (n - 1)
  slip_matrix_mulH b2 det
  slip_back_subH F.U b2
  let det ← rdH F.rhos (n - 1)
  let x2 ← slip_matrix_divH b2 det
  let x ← slip_permute_xH x2 q
  -- line 136
  freeqH x2.x
  (if check then slip_check_solutionH A x b else pure ())
  scaleSolutionH x sA sb
  -- `SLIP_FREE_WORK`, line 172
  freeH b2.x
  pure x

end Slip.Store
