import Verif.Model.Api

/-!
# Analysis, factorization and solve in 64-bit arithmetic

The other models compute with unbounded integers. Here the same code is transcribed once more with
every addition, subtraction, negation and multiplication of `int64_t` values checked: a result outside
the range of `int64_t` is undefined behaviour (C11 6.5 paragraph 5). A size in bytes that does not fit
in `size_t` is also treated as a failure, because too small a block would be allocated.

Not checked: the increment of a `for` loop (`i++` with `i < hi` stays at most `hi`), the integers of
GMP, and the bit counts passed to `mpz_init2`. COLAMD and AMD run with `Arith.bits64`: their operations
are checked too.
-/

namespace Slip

/-- `SLIP_malloc (cnt * sizeof (int64_t))`: the product is computed in `size_t`. -/
def malloc64 (cnt : Int) : C (Arr Int) :=
  if 0 ≤ cnt ∧ cnt * 8 < 2 ^ 64 then .ok (malloc Int cnt) else .error .ub

/-! ## Factorization -/

/-- `SLIP_FLIP`: slip_internal.h line 79, `(-(i)-2)`. -/
def flip64 (i : Int) : C Int := do
  let a ← i64 (-i)
  i64 (a - 2)

/-- `SLIP_UNFLIP`: slip_internal.h line 80. -/
def unflip64 (i : Int) : C Int := if i < 0 then flip64 i else pure i

/-- `SLIP_MARK`: slip_internal.h line 82. -/
def mark64 (Lp : Arr Int) (j : Int) : C (Arr Int) := do
  let v ← rd Lp j
  let w ← flip64 v
  wr Lp j w

/-- One iteration of the `while` loop of `slip_dfs`, slip_dfs.c lines 46-87, as `dfsStep`. -/
def dfsStep64 (n : Int) (Li pinv : Arr Int) (s : DfsSt) : C DfsSt := do
  let j ← rd s.xi s.head
  let jnew ← rd pinv j
  let b ← marked s.Lp j
  let s ← (if b then pure s else do
    let Lp ← mark64 s.Lp j
    let p0 ← (if jnew < 0 then pure 0 else do let v ← rd Lp jnew; unflip64 v)
    let hp ← i64 (n + s.head)
    let xi ← wr s.xi hp p0
    pure { s with Lp := Lp, xi := xi })
  let p2 ← (if jnew < 0 then pure 0 else do
    let j1 ← i64 (jnew + 1)
    let v ← rd s.Lp j1
    unflip64 v)
  let hp ← i64 (n + s.head)
  let p ← rd s.xi hp
  let r ← dfsScan s.Lp Li (p2 - p).toNat p
  match r with
  | some (p, i) =>
    let xi ← wr s.xi hp p
    let head ← i64 (s.head + 1)
    let xi ← wr xi head i
    pure { s with head := head, xi := xi }
  | none =>
    let top ← i64 (s.top - 1)
    let xi ← wr s.xi top j
    let head ← i64 (s.head - 1)
    pure { s with head := head, top := top, xi := xi }

/-- The `while (head >= 0)` loop of `slip_dfs`, slip_dfs.c lines 44-88, as `dfsLoop`. -/
def dfsLoop64 (n : Int) (Li pinv : Arr Int) : Nat → DfsSt → C DfsSt
  | 0, s => if 0 ≤ s.head then .error .fuel else .ok s
  | f + 1, s => if 0 ≤ s.head then do
      let s ← dfsStep64 n Li pinv s
      dfsLoop64 n Li pinv f s
    else .ok s

/-- `slip_dfs`, slip_dfs.c lines 18-90. -/
def slip_dfs64 (n : Int) (Li pinv : Arr Int) (top j : Int) (Lp xi : Arr Int) :
    C (Int × Arr Int × Arr Int) := do
  let xi ← wr xi 0 j
  let s ← dfsLoop64 n Li pinv (2 * n.toNat + 1) { head := 0, top := top, Lp := Lp, xi := xi }
  pure (s.top, s.Lp, s.xi)

/-- `slip_reach`, slip_reach.c lines 18-56. -/
def slip_reach64 (n : Int) (Ap Ai Li pinv : Arr Int) (col : Int) (Lp xi : Arr Int) :
    C (Int × Arr Int × Arr Int) := do
  let p0 ← rd Ap col
  let c1 ← i64 (col + 1)
  let p1 ← rd Ap c1
  let (top, Lp, xi) ← forRange p0 p1 (n, Lp, xi) fun p (top, Lp, xi) => do
    let i ← rd Ai p
    let b ← marked Lp i
    if b then pure (top, Lp, xi) else slip_dfs64 n Li pinv top i Lp xi
  let Lp ← forRange top n Lp fun p Lp => do
    let j ← rd xi p
    mark64 Lp j
  pure (top, Lp, xi)

/-- The call of `qsort`, slip_ref_triangular_solve.c line 143. -/
def qsortSeg64 (xi : Arr Int) (top n : Int) : C (Arr Int) := do
  let _ ← i64 (n - top)
  qsortSeg xi top n

/-- History update, slip_ref_triangular_solve.c lines 196-207, 280-291 and 312-322, slip_forward_sub.c
lines 92-105 and 129-142. -/
def histUpdate64 (rhos : Arr Int) (x : Arr Int) (j hj s : Int) : C (Arr Int) := do
  let s1 ← i64 (s - 1)
  if hj < s1 then do
    let xj ← rd x j
    let ρ ← rd rhos s1
    let x ← zset x j (xj * ρ)
    if hj > -1 then do
      let xj ← rd x j
      let ρh ← rd rhos hj
      let d ← divexact xj ρh
      zset x j d
    else pure x
  else pure x

/-- The IPGE update, slip_ref_triangular_solve.c lines 224-303, as `ipgeUpdate`. -/
def ipgeUpdate64 (rhos : Arr Int) (h x : Arr Int) (i j jnew lij : Int) : C (Arr Int × Arr Int) := do
  let xi ← rd x i
  if xi = 0 then
    if jnew < 1 then do
      let xj ← rd x j
      let x ← zset x i (xi - lij * xj)
      let h ← wr h i jnew
      pure (h, x)
    else do
      let xj ← rd x j
      let x ← zset x i (xi - lij * xj)
      let v ← rd x i
      let j1 ← i64 (jnew - 1)
      let ρ ← rd rhos j1
      let d ← divexact v ρ
      let x ← zset x i d
      let h ← wr h i jnew
      pure (h, x)
  else
    if jnew < 1 then do
      let ρ0 ← rd rhos 0
      let x ← zset x i (xi * ρ0)
      let v ← rd x i
      let xj ← rd x j
      let x ← zset x i (v - lij * xj)
      let h ← wr h i jnew
      pure (h, x)
    else do
      let hi ← rd h i
      let x ← histUpdate64 rhos x i hi jnew
      let v ← rd x i
      let ρj ← rd rhos jnew
      let x ← zset x i (v * ρj)
      let v ← rd x i
      let xj ← rd x j
      let x ← zset x i (v - lij * xj)
      let v ← rd x i
      let j1 ← i64 (jnew - 1)
      let ρ ← rd rhos j1
      let d ← divexact v ρ
      let x ← zset x i d
      let h ← wr h i jnew
      pure (h, x)

/-- One iteration of the main loop, slip_ref_triangular_solve.c lines 183-323, as `solveStep`. -/
def solveStep64 (Lp Li Lx pinv rhos xi : Arr Int) (k p : Int) (h x : Arr Int) :
    C (Arr Int × Arr Int) := do
  let j ← rd xi p
  let jnew ← rd pinv j
  let xj ← rd x j
  if xj = 0 then pure (h, x)
  else if jnew < k then do
    let hj ← rd h j
    let x ← histUpdate64 rhos x j hj jnew
    let m0 ← rd Lp jnew
    let j1 ← i64 (jnew + 1)
    let m1 ← rd Lp j1
    forRange m0 m1 (h, x) fun m (h, x) => do
      let i ← rd Li m
      let inew ← rd pinv i
      if inew > jnew then do
        let lij ← rd Lx m
        if lij = 0 then pure (h, x)
        else ipgeUpdate64 rhos h x i j jnew lij
      else pure (h, x)
  else do
    let hj ← rd h j
    let x ← histUpdate64 rhos x j hj k
    pure (h, x)

/-- `slip_ref_triangular_solve`, slip_ref_triangular_solve.c lines 87-328. -/
def slip_ref_triangular_solve64 (L A : Csc) (k : Int) (xi q rhos pinv row_perm h x : Arr Int) :
    C TriOut := do
  let n := A.n
  let col ← rd q k
  let (top, Lp, xi) ← slip_reach64 L.n A.p A.i L.i pinv col L.p xi
  let xi ← forRange top n xi fun j xi => do
    let v ← rd xi j
    let w ← rd pinv v
    wr xi j w
  let xi ← qsortSeg64 xi top n
  let xi ← forRange top n xi fun j xi => do
    let v ← rd xi j
    let w ← rd row_perm v
    wr xi j w
  let x ← forRange top n x fun i x => do
    let v ← rd xi i
    zset x v 0
  let x ← zset x col 0
  let h ← forRange top n h fun i h => do
    let v ← rd xi i
    wr h v (-1)
  let a0 ← rd A.p col
  let c1 ← i64 (col + 1)
  let a1 ← rd A.p c1
  let x ← forRange a0 a1 x fun p x => do
    let i ← rd A.i p
    let v ← rd A.x p
    zset x i v
  let (h, x) ← forRange top n (h, x) fun p (h, x) =>
    solveStep64 Lp L.i L.x pinv rhos xi k p h x
  pure { top := top, Lp := Lp, xi := xi, h := h, x := x }

/-- The first `while` loop of `slip_get_smallest_pivot`, slip_get_smallest_pivot.c lines 59-79. -/
def smallestInit64 (x pivs xi : Arr Int) : Nat → Int → C (Option (Int × Int × Int))
  | 0, _ => .ok none
  | m + 1, flag => do
    let inew ← rd xi flag
    let v ← rd x inew
    let pv ← rd pivs inew
    if pv < 0 ∧ v ≠ 0 then pure (some (flag, inew, v))
    else do
      let flag ← i64 (flag + 1)
      smallestInit64 x pivs xi m flag

/-- `slip_get_smallest_pivot`, slip_get_smallest_pivot.c lines 23-116. -/
def slip_get_smallest_pivot64 (x pivs : Arr Int) (n top : Int) (xi : Arr Int) : C Int := do
  let r ← (if 0 ≤ top then smallestInit64 x pivs xi (n - top).toNat top else pure none)
  let (j, pivot, small) := r.getD (n, -1, 0)
  let (pivot, _) ← forRange j n (pivot, small) fun i (pivot, small) => do
    let inew ← rd xi i
    let v ← rd x inew
    let pv ← rd pivs inew
    if pv < 0 ∧ small.natAbs > v.natAbs then
      if v ≠ 0 then pure (inew, v) else pure (pivot, small)
    else pure (pivot, small)
  if pivot = -1 then .error (.ret .singular) else pure pivot

/-- The choice of the pivot row, slip_get_pivot.c lines 85-187, as `choosePivot`. -/
def choosePivot64 (nc : Int → Int → ℚ → Bool) (order : Pivot) (tol : Dbl) (x pivs : Arr Int)
    (n top : Int) (xi : Arr Int) (col : Int) : C Int :=
  match order with
  | .smallest => slip_get_smallest_pivot64 x pivs n top xi
  | .diagonal => do
    let v ← rd x col
    let pv ← rd pivs col
    if v ≠ 0 ∧ pv < 0 then pure col else slip_get_smallest_pivot64 x pivs n top xi
  | .firstNonzero => slip_get_nonzero_pivot x pivs n top xi
  | .tolLargest => do
    let pivot ← slip_get_largest_pivot x pivs n top xi
    let v ← rd x col
    let pv ← rd pivs col
    if v ≠ 0 ∧ pv < 0 then do
      let t ← mpqSetD tol
      let w ← rd x pivot
      let r ← ratioGe nc (v.natAbs : Int) w t
      if r then pure col else pure pivot
    else pure pivot
  | .largest => slip_get_largest_pivot x pivs n top xi
  | .tolSmallest => do
    let pivot ← slip_get_smallest_pivot64 x pivs n top xi
    let v ← rd x col
    let pv ← rd pivs col
    if v ≠ 0 ∧ pv < 0 then do
      let w ← rd x pivot
      let t ← mpqSetD tol
      let r ← ratioGe nc (w.natAbs : Int) (v.natAbs : Int) t
      if r then pure col else pure pivot
    else pure pivot

/-- `slip_get_pivot`, slip_get_pivot.c lines 33-219. -/
def slip_get_pivot64 (nc : Int → Int → ℚ → Bool) (order : Pivot) (tol : Dbl) (x pivs : Arr Int)
    (n top : Int) (xi : Arr Int) (col k : Int) (rhos pinv row_perm : Arr Int) : C PivOut := do
  let pivot ← choosePivot64 nc order tol x pivs n top xi col
  let intermed ← rd pinv pivot
  let intermed2 ← rd row_perm k
  let row_perm ← wr row_perm k pivot
  let row_perm ← wr row_perm intermed intermed2
  let pinv ← wr pinv pivot k
  let pinv ← wr pinv intermed2 intermed
  let pivs ← wr pivs pivot 1
  let v ← rd x pivot
  let rhos ← zinit rhos k
  let rhos ← zset rhos k v
  pure { pivot := pivot, pivs := pivs, rhos := rhos, pinv := pinv, row_perm := row_perm }

/-- `slip_sparse_realloc`, slip_sparse_realloc.c lines 19-58. -/
def slip_sparse_realloc64 (A : Csc) : C Csc := do
  let nzmax ← i64 (2 * A.nzmax)
  pure { A with
    x := A.x ++ malloc Int A.nzmax
    i := A.i ++ malloc Int A.nzmax
    nzmax := nzmax }

/-- `SLIP_matrix_allocate` of an uninitialised CSC matrix, SLIP_matrix_allocate.c lines 24-198. -/
def allocCsc64 (n nzmax : Int) : C Csc := do
  let nzmax := max nzmax 1
  let n1 ← i64 (n + 1)
  pure { m := n, n := n, nzmax := nzmax, p := calloc n1, i := calloc nzmax, x := malloc Int nzmax }

/-- One iteration of the loop that populates L and U, SLIP_LU_factorize.c lines 233-269. -/
def popStep64 (xi pinv x : Arr Int) (k j : Int) (s : Int × Int × Csc × Csc) :
    C (Int × Int × Csc × Csc) := do
  let (lnz, unz, L, U) := s
  let jnew ← rd xi j
  let loc ← rd pinv jnew
  let (unz, U) ← (if loc ≤ k then do
      let v ← rd x jnew
      let U ← pushEntry U unz jnew v
      let unz ← i64 (unz + 1)
      pure (unz, U)
    else pure (unz, U))
  let (lnz, L) ← (if loc ≥ k then do
      let v ← rd x jnew
      let L ← pushEntry L lnz jnew v
      let lnz ← i64 (lnz + 1)
      pure (lnz, L)
    else pure (lnz, L))
  pure (lnz, unz, L, U)

/-- One iteration of the main loop, SLIP_LU_factorize.c lines 191-270, as `factStep`. -/
def factStep64 (nc : Int → Int → ℚ → Bool) (order : Pivot) (tol : Dbl) (A : Csc) (q : Arr Int)
    (k : Int) (s : FactSt) : C FactSt := do
  let n := A.n
  let Lp ← wr s.L.p k s.lnz
  let Up ← wr s.U.p k s.unz
  let L := { s.L with p := Lp }
  let U := { s.U with p := Up }
  let col ← rd q k
  let needL ← i64 (s.lnz + n)
  let L ← (if needL > L.nzmax then slip_sparse_realloc64 L else pure L)
  let needU ← i64 (s.unz + n)
  let U ← (if needU > U.nzmax then slip_sparse_realloc64 U else pure U)
  let t ← slip_ref_triangular_solve64 L A k s.xi q s.rhos s.pinv s.row_perm s.h s.x
  let L := { L with p := t.Lp }
  let g ← slip_get_pivot64 nc order tol t.x s.pivs n t.top t.xi col k s.rhos s.pinv s.row_perm
  let (lnz, unz, L, U) ← forRange t.top n (s.lnz, s.unz, L, U) fun j st =>
    popStep64 t.xi g.pinv t.x k j st
  pure { lnz := lnz, unz := unz, L := L, U := U, rhos := g.rhos, pinv := g.pinv,
         row_perm := g.row_perm, pivs := g.pivs, h := t.h, xi := t.xi, x := t.x }

/-- The initial state of the main loop, SLIP_LU_factorize.c lines 96-183. -/
def factInit64 (n lnz unz : Int) : C FactSt := do
  let pinv ← malloc64 n
  let pivs ← malloc64 n
  let h ← malloc64 n
  let n2 ← i64 (2 * n)
  let xi ← malloc64 n2
  let row_perm ← malloc64 n
  let (h, pivs, pinv, row_perm) ← forRange 0 n (h, pivs, pinv, row_perm)
    fun i (h, pivs, pinv, row_perm) => do
      let h ← wr h i (-1)
      let pivs ← wr pivs i (-1)
      let pinv ← wr pinv i i
      let row_perm ← wr row_perm i i
      pure (h, pivs, pinv, row_perm)
  let nr ← i64 (n * 1)
  let L ← allocCsc64 n lnz
  let U ← allocCsc64 n unz
  let nx ← i64 (n * 1)
  let x ← forRange 0 n (malloc Int (max nx 1)) fun i x => zinit x i
  pure { lnz := 0, unz := 0, L := L, U := U,
         rhos := malloc Int (max nr 1), pinv := pinv, row_perm := row_perm, pivs := pivs,
         h := h, xi := xi, x := x }

/-- The body of `SLIP_LU_factorize`, SLIP_LU_factorize.c lines 76-322, as `factorize`. -/
def factorize64 (nc : Int → Int → ℚ → Bool) (order : Pivot) (tol : Dbl) (A : Csc) (q : Arr Int)
    (lnz unz : Int) : C Factors := do
  let n := A.n
  let s ← factInit64 n lnz unz
  let s ← forRange 0 n s fun k s => factStep64 nc order tol A q k s
  let Lp ← wr s.L.p n s.lnz
  let Up ← wr s.U.p n s.unz
  let L ← slip_sparse_collapse { s.L with p := Lp }
  let U ← slip_sparse_collapse { s.U with p := Up }
  let L ← permuteRows L s.pinv s.lnz
  let U ← permuteRows U s.pinv s.unz
  pure { L := L, U := U, rhos := s.rhos, pinv := s.pinv }

/-! ## Solve -/

/-- `SLIP_2D (A, i, j, type)`: the index `i + j * A->m`, SLIP_LU.h lines 422-425. -/
def ix64 (m i j : Int) : C Int := do
  let a ← i64 (j * m)
  i64 (i + a)

/-- `SLIP_matrix_allocate` of a dense matrix, SLIP_matrix_allocate.c lines 77-81 and 143-182. -/
def allocDense64 (α : Type) [Zero α] (m n : Int) : C (Dense α) := do
  let mn ← i64 (m * n)
  let nzmax := max mn 1
  pure { m := m, n := n, nzmax := nzmax, x := List.replicate nzmax.toNat (some 0) }

/-- `slip_permute_b`, slip_permute_b.c lines 24-70. -/
def slip_permute_b64 (b2 : Dense Int) (pinv : Arr Int) : C (Dense Int) := do
  let m := b2.m
  let n := b2.n
  let b ← allocDense64 Int m n
  let x ← forRange 0 m b.x fun i x =>
    forRange 0 n x fun j x => do
      let p ← rd pinv i
      let ij ← ix64 m i j
      let v ← rd b2.x ij
      let pj ← ix64 m p j
      zset x pj v
  pure { b with x := x }

/-- The update of `x(jnew,k)`, slip_forward_sub.c lines 114-165, as `fwdUpdate`. -/
def fwdUpdate64 (rhos : Arr Int) (h x : Arr Int) (ij ii i lji : Int) : C (Arr Int × Arr Int) := do
  let xj ← rd x ij
  let x ← (if xj = 0 then do
      let xi ← rd x ii
      let x ← zset x ij (xj - lji * xi)
      if i > 0 then do
        let v ← rd x ij
        let i1 ← i64 (i - 1)
        let ρ ← rd rhos i1
        let d ← divexact v ρ
        zset x ij d
      else pure x
    else do
      let hx ← rd h ij
      let x ← histUpdate64 rhos x ij hx i
      let v ← rd x ij
      let ρi ← rd rhos i
      let x ← zset x ij (v * ρi)
      let v ← rd x ij
      let xi ← rd x ii
      let x ← zset x ij (v - lji * xi)
      if i > 0 then do
        let v ← rd x ij
        let i1 ← i64 (i - 1)
        let ρ ← rd rhos i1
        let d ← divexact v ρ
        zset x ij d
      else pure x)
  let h ← wr h ij i
  pure (h, x)

/-- One iteration `i` for right-hand side `k`, slip_forward_sub.c lines 77-168. -/
def fwdStep64 (L : Csc) (rhos : Arr Int) (m k i : Int) (h x : Arr Int) :
    C (Arr Int × Arr Int) := do
  let ik ← ix64 m i k
  let hx ← rd h ik
  let xi ← rd x ik
  if xi = 0 then pure (h, x)
  else do
    let x ← histUpdate64 rhos x ik hx i
    let p0 ← rd L.p i
    let i1 ← i64 (i + 1)
    let p1 ← rd L.p i1
    forRange p0 p1 (h, x) fun j (h, x) => do
      let jnew ← rd L.i j
      let lji ← rd L.x j
      if lji = 0 then pure (h, x)
      else if jnew > i then do
        let ij ← ix64 m jnew k
        fwdUpdate64 rhos h x ij ik i lji
      else pure (h, x)

/-- `slip_forward_sub`, slip_forward_sub.c lines 27-181. -/
def slip_forward_sub64 (L : Csc) (x : Dense Int) (rhos : Arr Int) : C (Dense Int) := do
  let h ← allocDense64 Int x.m x.n
  let h ← forRange 0 x.nzmax h.x fun i h => wr h i (-1)
  let (_, y) ← forRange 0 x.n (h, x.x) fun k (h, y) =>
    forRange 0 x.m (h, y) fun i (h, y) => fwdStep64 L rhos x.m k i h y
  pure { x with x := y }

/-- `slip_matrix_mul`, slip_matrix_mul.c lines 18-48. -/
def slip_matrix_mul64 (x : Dense Int) (scalar : Int) : C (Dense Int) := do
  let nz ← i64 (x.m * x.n)
  let y ← forRange 0 nz x.x fun i y => do
    let v ← rd y i
    zset y i (v * scalar)
  pure { x with x := y }

/-- The inner loop body of `slip_back_sub`, slip_back_sub.c lines 58-66. -/
def backInner64 (U : Csc) (m k j : Int) (y : Arr Int) (i : Int) : C (Arr Int) := do
  let u ← rd U.x i
  if u = 0 then pure y
  else do
    let row ← rd U.i i
    let rk ← ix64 m row k
    let w ← rd y rk
    let jk ← ix64 m j k
    let bj ← rd y jk
    zset y rk (w - u * bj)

/-- One iteration `j` for right-hand side `k`, slip_back_sub.c lines 47-67. -/
def backStep64 (U : Csc) (m k j : Int) (y : Arr Int) : C (Arr Int) := do
  let jk ← ix64 m j k
  let v ← rd y jk
  if v = 0 then pure y
  else do
    let j1 ← i64 (j + 1)
    let p1 ← rd U.p j1
    let q1 ← i64 (p1 - 1)
    let d ← rd U.x q1
    let w ← divexact v d
    let y ← zset y jk w
    let p0 ← rd U.p j
    forRange p0 q1 y fun i y => backInner64 U m k j y i

/-- `slip_back_sub`, slip_back_sub.c lines 24-71. -/
def slip_back_sub64 (U : Csc) (bx : Dense Int) : C (Dense Int) := do
  let y ← forRange 0 bx.n bx.x fun k y =>
    forDown 0 U.n y fun j y => backStep64 U bx.m k j y
  pure { bx with x := y }

/-- `slip_matrix_div`, slip_matrix_div.c lines 28-82. -/
def slip_matrix_div64 (x : Dense Int) (scalar : Int) : C (Dense ℚ) := do
  let x2 ← allocDense64 ℚ x.m x.n
  let nz ← i64 (x.m * x.n)
  let y ← forRange 0 nz x2.x fun i y => do
    let v ← rd x.x i
    let y ← zset y i (v : ℚ)
    let w ← rd y i
    let d ← mpqDiv w (scalar : ℚ)
    zset y i d
  pure { x2 with x := y }

/-- `slip_permute_x`, slip_permute_x.c lines 22-72. -/
def slip_permute_x64 (x2 : Dense ℚ) (q : Arr Int) : C (Dense ℚ) := do
  let m := x2.m
  let n := x2.n
  let x ← allocDense64 ℚ m n
  let y ← forRange 0 m x.x fun i y =>
    forRange 0 n y fun j y => do
      let p ← rd q i
      let ij ← ix64 m i j
      let v ← rd x2.x ij
      let pj ← ix64 m p j
      zset y pj v
  pure { x with x := y }

/-- The product `b2 = A*x`, slip_check_solution.c lines 55-75. -/
def checkMul64 (A : Csc) (x : Dense ℚ) (m n : Int) (b2 : Arr ℚ) : C (Arr ℚ) :=
  forRange 0 n b2 fun j b2 =>
    forRange 0 m b2 fun i b2 => do
      let p0 ← rd A.p i
      let i1 ← i64 (i + 1)
      let p1 ← rd A.p i1
      forRange p0 p1 b2 fun p b2 => do
        let a ← rd A.x p
        let ij ← ix64 x.m i j
        let xv ← rd x.x ij
        let r ← rd A.i p
        let rj ← ix64 m r j
        let w ← rd b2 rj
        zset b2 rj (w + (a : ℚ) * xv)

/-- The comparison `b == b2`, slip_check_solution.c lines 81-98. -/
def checkCmp64 (b : Dense Int) (b2 : Arr ℚ) : C Bool :=
  forRange 0 b.n true fun j ok =>
    if !ok then pure false
    else forRange 0 b.m true fun i ok =>
      if !ok then pure false
      else do
        let ij ← ix64 b.m i j
        let v ← rd b.x ij
        let w ← rd b2 ij
        pure (decide ((v : ℚ) = w))

/-- `slip_check_solution`, slip_check_solution.c lines 20-122. -/
def slip_check_solution64 (A : Csc) (x : Dense ℚ) (b : Dense Int) : C Unit := do
  let b2 ← allocDense64 ℚ b.m b.n
  let y ← checkMul64 A x b.m b.n b2.x
  let ok ← checkCmp64 b y
  if ok then pure () else .error (.ret .incorrect)

/-- The final scaling, SLIP_LU_solve.c lines 151-166. -/
def scaleSolution64 (x : Dense ℚ) (sA sb : ℚ) : C (Dense ℚ) := do
  let scale ← mpqDiv sA sb
  if scale = 1 then pure x
  else do
    let nz ← i64 (x.m * x.n)
    let y ← forRange 0 nz x.x fun i y => do
      let v ← rd y i
      zset y i (v * scale)
    pure { x with x := y }

/-- The body of `SLIP_LU_solve`, SLIP_LU_solve.c lines 93-175, as `luSolve`. -/
def luSolve64 (A : Csc) (sA : ℚ) (b : Dense Int) (sb : ℚ) (F : Factors) (q : Arr Int)
    (check : Bool) : C (Dense ℚ) := do
  let n := F.L.n
  let b2 ← slip_permute_b64 b F.pinv
  let b2 ← slip_forward_sub64 F.L b2 F.rhos
  let n1 ← i64 (n - 1)
  let det ← rd F.rhos n1
  let b2 ← slip_matrix_mul64 b2 det
  let b2 ← slip_back_sub64 F.U b2
  let det ← rd F.rhos n1
  let x2 ← slip_matrix_div64 b2 det
  let x ← slip_permute_x64 x2 q
  if check then slip_check_solution64 A x b else pure ()
  scaleSolution64 x sA sb

/-! ## Analysis -/

/-- The safety margin on the estimates, SLIP_LU_analyze.c lines 162-178; the comparison with `n*n` and
the halving are done in `double`, only the additions are of `int64_t`. -/
def clampNnz64 (n lnz unz : Int) : C (Int × Int) := do
  let (lnz, unz) := if lnz > n * n then ((n * n + 1) / 2, (n * n + 1) / 2) else (lnz, unz)
  let lnz ← (if lnz < n then i64 (lnz + n) else pure lnz)
  let unz ← (if unz < n then i64 (unz + n) else pure unz)
  pure (lnz, unz)

/-- The body of `SLIP_LU_analyze`, SLIP_LU_analyze.c lines 52-187, as `analyzeBody`. -/
def analyzeBody64 (O : Orderings) (A : Mat) (opt : Option Options) : C Analysis := do
  let n := A.n
  let anz ← SLIP_matrix_nnz true (some A)
  let n1 ← i64 (n + 1)
  let q ← malloc64 n1
  let (q, nz) ← (match optOrder opt with
    | .none => do
      let q ← forRange 0 n1 q fun i q => wr q i i
      let e ← i64 (10 * anz)
      pure (q, e)
    | .amd => analyzeAmd (ar := Arith.bits64) O A q
    | .colamd => do
      let a ← i64 (2 * anz)
      let c ← i64 (6 * n1)
      let a ← i64 (a + c)
      let a ← i64 (a + c)
      let Alen ← i64 (a + n)
      let A2 ← malloc64 Alen
      let q ← forRange 0 n1 q fun i q => do
        let v ← rd (deref A.p) i
        wr q i v
      let A2 ← forRange 0 anz A2 fun i A2 => do
        let v ← rd (deref A.i) i
        wr A2 i v
      let (_, q) ← Colamd.colamd (ar := Arith.bits64) n n Alen A2 q (O.knobs n)
      let e ← i64 (10 * anz)
      pure (q, e))
  let (lnz, unz) ← clampNnz64 n nz nz
  pure { q := q, lnz := lnz, unz := unz }

/-! ## The user-callable functions -/

/-- `SLIP_LU_analyze`, SLIP_LU_analyze.c lines 29-188. -/
def SLIP_LU_analyze64 (O : Orderings) (init : Bool) (S : Handle Analysis) (A : Option Mat)
    (opt : Option Options) : C (Info × Handle Analysis) :=
  if !init then pure (.panic, S)
  else match A with
  | none => pure (.incorrectInput, S)
  | some A =>
    if A.kind ≠ .csc then pure (.incorrectInput, S)
    else if S = none ∨ A.n ≠ A.m then pure (.incorrectInput, S)
    else do
      let r ← analyzeBody64 O A opt
      pure (.ok, some (some r))

/-- `SLIP_LU_factorize`, SLIP_LU_factorize.c lines 42-326. -/
def SLIP_LU_factorize64 (nc : Int → Int → ℚ → Bool) (init : Bool) (L U rhos : Handle Mat)
    (pinv : Handle (Arr Int)) (A : Option Mat) (S : Option Analysis) (opt : Option Options) :
    C FactOut :=
  if !init then pure ⟨.panic, L, U, rhos, pinv⟩
  else match A with
  | none => pure ⟨.incorrectInput, L, U, rhos, pinv⟩
  | some A =>
    if A.kind ≠ .csc then pure ⟨.incorrectInput, L, U, rhos, pinv⟩
    else if A.type ≠ .mpz then pure ⟨.incorrectInput, L, U, rhos, pinv⟩
    else do
      let anz ← SLIP_matrix_nnz init (some A)
      match S with
      | none => pure ⟨.incorrectInput, L, U, rhos, pinv⟩
      | some S =>
        if L = none ∨ U = none ∨ rhos = none ∨ pinv = none ∨ anz < 0 then
          pure ⟨.incorrectInput, L, U, rhos, pinv⟩
        else
          factWrap A.n (factorize64 nc (optPivot opt) (optTol opt) A.toCsc S.q S.lnz S.unz)

/-- `SLIP_LU_solve`, SLIP_LU_solve.c lines 53-175. -/
def SLIP_LU_solve64 (init : Bool) (x : Handle Mat) (b A L U rhos : Option Mat)
    (S : Option Analysis) (pinv : Option (Arr Int)) (opt : Option Options) :
    C (Info × Handle Mat) :=
  if !init then pure (.panic, x)
  else if requireFails b .dense .mpz then pure (.incorrectInput, x)
  else if requireFails A .csc .mpz then pure (.incorrectInput, x)
  else if requireFails L .csc .mpz then pure (.incorrectInput, x)
  else if requireFails U .csc .mpz then pure (.incorrectInput, x)
  else if requireFails rhos .dense .mpz then pure (.incorrectInput, x)
  else match b, A, L, U, rhos, S, pinv with
  | some b, some A, some L, some U, some rhos, some S, some pinv =>
    if x = none ∨ L.m ≠ A.m ∨ L.n ≠ U.m ∨ U.n ≠ A.n ∨ A.n ≠ A.m ∨ A.m ≠ b.m then
      pure (.incorrectInput, x)
    else
      solveWrap (luSolve64 A.toCsc A.scale b.toDense b.scale
        { L := L.toCsc, U := U.toCsc, rhos := rhos.xz, pinv := pinv } S.q (optCheck opt))
  | _, _, _, _, _, _, _ => pure (.incorrectInput, x)

end Slip
