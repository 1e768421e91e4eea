import Verif.Model.Convert

/-!
# The pipeline when memory is refused

The functions of `Verif/Model/Factor.lean`, `Verif/Model/Solve.lean`, `Verif/Model/Api.lean` once more (`SLIP_matrix_copy` and
`SLIP_backslash`: `Verif/Model/FlakyCopy.lean`),
with the values they compute and with every request for memory: a request is granted or refused, as an arbitrary sequence
`ω` of answers says.  A request is a call of `SLIP_malloc`/`SLIP_calloc`/`SLIP_realloc`, or a call of a wrapper
(`SLIP_mpz_*`, `SLIP_mpq_*`) of a GMP function that may allocate: such a call is refused if anything inside is, and then
returns SLIP_OUT_OF_MEMORY (`Verif/Model/Gmp.lean`).  What the destination of a refused call contains is not defined in C, and
is not needed: `SLIP_CHECK` leaves the function.  Which blocks are freed is the subject of `Verif/Model/Memory.lean`.

Not asked: the two `SLIP_realloc` of `slip_sparse_collapse`, which shrink (when they are refused the old, larger block is kept,
`Verif/Model/Realloc.lean`, and nobody looks behind `nzmax`); AMD's own memory, which is part of `Orderings`;
`mpz_sgn`, `mpz_cmpabs`, `mpz_sizeinbase`, `mpq_cmp_ui` with 1/1, `mpq_equal`, which do not allocate.
-/

namespace Slip.Flaky

/-- A computation that requests memory: from the answers and the number of requests so far to a result and the number of
requests afterwards. -/
def F (α : Type) : Type := (ℕ → Bool) → ℕ → C α × ℕ

/-- Sequencing. -/
def F.bind {α β : Type} (m : F α) (f : α → F β) : F β := fun ω t =>
  match m ω t with
  | (.ok a, t') => f a ω t'
  | (.error e, t') => (.error e, t')

instance : Monad F where
  pure a := fun _ t => (.ok a, t)
  bind := F.bind

/-- A part that requests nothing. -/
def lift {α : Type} (m : C α) : F α := fun _ t => (m, t)

/-- A request: `ω t` says that request number `t` is refused. -/
def request : F Bool := fun ω t => (.ok (!ω t), t + 1)

/-- A request, and the status `e` if it is refused. -/
def need (e : Info) : F Unit := do
  let granted ← request
  if granted then pure () else lift (.error (.ret e))

/-- A wrapped GMP call that may allocate, under `SLIP_CHECK`: SLIP_gmp.h lines 65-110, slip_internal.h `SLIP_CHECK`. -/
def gmp : F Unit := need .outOfMemory

/-- As many requests as are granted, at most `k`; are all granted? The loop of slip_create_mpz_array.c lines 32-50,
slip_create_mpq_array.c. -/
def requests : ℕ → F Bool
  | 0 => pure true
  | k + 1 => do
    let granted ← request
    if granted then requests k else pure false

variable {σ : Type}

/-- `forCnt` (`Verif/Basic.lean`) for a body that requests memory. -/
def forCntF : Nat → Int → σ → (Int → σ → F σ) → F σ
  | 0, _, s, _ => pure s
  | m + 1, lo, s, f => do
    let s ← f lo s
    forCntF m (lo + 1) s f

/-- `for (i = lo ; i < hi ; i++)`. -/
def forRangeF (lo hi : Int) (s : σ) (f : Int → σ → F σ) : F σ := forCntF (hi - lo).toNat lo s f

/-- `forDownCnt` for a body that requests memory. -/
def forDownCntF : Nat → Int → σ → (Int → σ → F σ) → F σ
  | 0, _, s, _ => pure s
  | m + 1, lo, s, f => do
    let s ← f (lo + m) s
    forDownCntF m lo s f

/-- `for (i = hi-1 ; i >= lo ; i--)`. -/
def forDownF (lo hi : Int) (s : σ) (f : Int → σ → F σ) : F σ := forDownCntF (hi - lo).toNat lo s f

/-- A wrapped GMP call whose result is stored in entry `i` of an array. -/
def zsetF {α : Type} (a : Arr α) (i : Int) (v : α) : F (Arr α) := do
  gmp
  lift (zset a i v)

/-- `SLIP_mpz_init2` of entry `i`. -/
def zinitF (a : Arr Int) (i : Int) : F (Arr Int) := do
  gmp
  lift (zinit a i)

/-- The requests of `SLIP_matrix_allocate`, SLIP_matrix_allocate.c lines 69-195, in their order: header, scale (two calls), for
CSC the arrays `p` and `i`, the array of values and (`entries`) the initialisation of that many entries. A refused header or scale
gives SLIP_OUT_OF_MEMORY; a refused array does not stop the others and gives SLIP_INCORRECT_INPUT in the end. -/
def allocate (csc : Bool) (entries : ℕ) : F Unit := do
  need .outOfMemory
  gmp
  gmp
  let pattern ← if csc then do
      let p ← request
      let i ← request
      pure (p && i)
    else pure true
  let x ← request
  let x ← if x then requests entries else pure false
  if pattern && x then pure () else lift (.error (.ret .incorrectInput))

/-- `SLIP_matrix_allocate (&L, SLIP_CSC, SLIP_MPZ, n, n, nzmax, false, false, option)`, as `allocCsc`. -/
def allocCscF (n nzmax : Int) : F Csc := do
  allocate true 0
  pure (allocCsc n nzmax)

/-- `SLIP_matrix_allocate (&A, SLIP_DENSE, type, m, n, 0, false, true, option)` for MPZ and MPQ, as `allocDense`. -/
def allocDenseF (α : Type) [Zero α] (m n : Int) : F (Dense α) := do
  allocate false (max (m * n) 1).toNat
  pure (allocDense α m n)

/-! ## slip_ref_triangular_solve.c -/

/-- `histUpdate`: slip_ref_triangular_solve.c lines 196-207, 280-291 and 312-322. -/
def histUpdateF (rhos : Arr Int) (x : Arr Int) (j hj s : Int) : F (Arr Int) :=
  if hj < s - 1 then do
    let xj ← lift (rd x j)
    let ρ ← lift (rd rhos (s - 1))
    let x ← zsetF x j (xj * ρ)
    if hj > -1 then do
      let xj ← lift (rd x j)
      let ρh ← lift (rd rhos hj)
      let d ← lift (divexact xj ρh)
      zsetF x j d
    else pure x
  else pure x

/-- `ipgeUpdate`: slip_ref_triangular_solve.c lines 224-303. -/
def ipgeUpdateF (rhos : Arr Int) (h x : Arr Int) (i j jnew lij : Int) : F (Arr Int × Arr Int) := do
  let xi ← lift (rd x i)
  if xi = 0 then
    if jnew < 1 then do
      let xj ← lift (rd x j)
      let x ← zsetF x i (xi - lij * xj)
      let h ← lift (wr h i jnew)
      pure (h, x)
    else do
      let xj ← lift (rd x j)
      let x ← zsetF x i (xi - lij * xj)
      let v ← lift (rd x i)
      let ρ ← lift (rd rhos (jnew - 1))
      let d ← lift (divexact v ρ)
      let x ← zsetF x i d
      let h ← lift (wr h i jnew)
      pure (h, x)
  else
    if jnew < 1 then do
      let ρ0 ← lift (rd rhos 0)
      let x ← zsetF x i (xi * ρ0)
      let v ← lift (rd x i)
      let xj ← lift (rd x j)
      let x ← zsetF x i (v - lij * xj)
      let h ← lift (wr h i jnew)
      pure (h, x)
    else do
      let hi ← lift (rd h i)
      let x ← histUpdateF rhos x i hi jnew
      let v ← lift (rd x i)
      let ρj ← lift (rd rhos jnew)
      let x ← zsetF x i (v * ρj)
      let v ← lift (rd x i)
      let xj ← lift (rd x j)
      let x ← zsetF x i (v - lij * xj)
      let v ← lift (rd x i)
      let ρ ← lift (rd rhos (jnew - 1))
      let d ← lift (divexact v ρ)
      let x ← zsetF x i d
      let h ← lift (wr h i jnew)
      pure (h, x)

/-- `solveStep`: slip_ref_triangular_solve.c lines 183-323. -/
def solveStepF (Lp Li Lx pinv rhos xi : Arr Int) (k p : Int) (h x : Arr Int) : F (Arr Int × Arr Int) := do
  let j ← lift (rd xi p)
  let jnew ← lift (rd pinv j)
  let xj ← lift (rd x j)
  if xj = 0 then pure (h, x)
  else if jnew < k then do
    let hj ← lift (rd h j)
    let x ← histUpdateF rhos x j hj jnew
    let m0 ← lift (rd Lp jnew)
    let m1 ← lift (rd Lp (jnew + 1))
    forRangeF m0 m1 (h, x) fun m (h, x) => do
      let i ← lift (rd Li m)
      let inew ← lift (rd pinv i)
      if inew > jnew then do
        let lij ← lift (rd Lx m)
        if lij = 0 then pure (h, x)
        else ipgeUpdateF rhos h x i j jnew lij
      else pure (h, x)
  else do
    let hj ← lift (rd h j)
    let x ← histUpdateF rhos x j hj k
    pure (h, x)

/-- `slip_ref_triangular_solve`: slip_ref_triangular_solve.c lines 87-328. -/
def slip_ref_triangular_solveF (L A : Csc) (k : Int) (xi q rhos pinv row_perm h x : Arr Int) : F TriOut := do
  let n := A.n
  let col ← lift (rd q k)
  let (top, Lp, xi) ← lift (slip_reach L.n A.p A.i L.i pinv col L.p xi)
  -- lines 137-140
  let xi ← lift (forRange top n xi fun j xi => do
    let v ← rd xi j
    let w ← rd pinv v
    wr xi j w)
  -- line 143
  let xi ← lift (qsortSeg xi top n)
  -- lines 146-149
  let xi ← lift (forRange top n xi fun j xi => do
    let v ← rd xi j
    let w ← rd row_perm v
    wr xi j w)
  -- lines 152-155
  let x ← forRangeF top n x fun i x => do
    let v ← lift (rd xi i)
    zsetF x v 0
  -- line 162
  let x ← zsetF x col 0
  -- lines 165-168
  let h ← lift (forRange top n h fun i h => do
    let v ← rd xi i
    wr h v (-1))
  -- lines 171-175
  let a0 ← lift (rd A.p col)
  let a1 ← lift (rd A.p (col + 1))
  let x ← forRangeF a0 a1 x fun p x => do
    let i ← lift (rd A.i p)
    let v ← lift (rd A.x p)
    zsetF x i v
  -- lines 181-324
  let (h, x) ← forRangeF top n (h, x) fun p (h, x) => solveStepF Lp L.i L.x pinv rhos xi k p h x
  pure { top := top, Lp := Lp, xi := xi, h := h, x := x }

/-! ## Pivot search -/

/-- `smallestInit`: slip_get_smallest_pivot.c lines 59-79; `mpz_set (small, ...)` when the entry is found. -/
def smallestInitF (x pivs xi : Arr Int) : Nat → Int → F (Option (Int × Int × Int))
  | 0, _ => pure none
  | m + 1, flag => do
    let inew ← lift (rd xi flag)
    let v ← lift (rd x inew)
    let pv ← lift (rd pivs inew)
    if pv < 0 ∧ v ≠ 0 then do
      gmp
      pure (some (flag, inew, v))
    else smallestInitF x pivs xi m (flag + 1)

/-- `slip_get_smallest_pivot`: slip_get_smallest_pivot.c lines 23-116. -/
def slip_get_smallest_pivotF (x pivs : Arr Int) (n top : Int) (xi : Arr Int) : F Int := do
  gmp -- mpz_init (small)
  let r ← (if 0 ≤ top then smallestInitF x pivs xi (n - top).toNat top else pure none)
  let (j, pivot, small) := r.getD (n, -1, 0)
  let (pivot, _) ← forRangeF j n (pivot, small) fun i (pivot, small) => do
    let inew ← lift (rd xi i)
    let v ← lift (rd x inew)
    let pv ← lift (rd pivs inew)
    if pv < 0 ∧ small.natAbs > v.natAbs then
      if v ≠ 0 then do
        gmp
        pure (inew, v)
      else pure (pivot, small)
    else pure (pivot, small)
  if pivot = -1 then lift (.error (.ret .singular)) else pure pivot

/-- `slip_get_largest_pivot`: slip_get_largest_pivot.c lines 25-89. -/
def slip_get_largest_pivotF (x pivs : Arr Int) (n top : Int) (xi : Arr Int) : F Int := do
  gmp -- mpz_init (big)
  let (pivot, _) ← forRangeF top n ((-1 : Int), (0 : Int)) fun i (pivot, big) => do
    let inew ← lift (rd xi i)
    let v ← lift (rd x inew)
    let pv ← lift (rd pivs inew)
    if pv < 0 ∧ big.natAbs < v.natAbs then do
      gmp
      pure (inew, v)
    else pure (pivot, big)
  if pivot = -1 then lift (.error (.ret .singular)) else pure pivot

/-- `choosePivot`: slip_get_pivot.c lines 85-187. In the two schemes with a tolerance two `mpq_init`, `mpq_set_d`, the two parts
of the ratio, its absolute value (TOL_LARGEST) and `mpq_cmp` request memory. -/
def choosePivotF (nc : Int → Int → ℚ → Bool) (order : Pivot) (tol : Dbl) (x pivs : Arr Int)
    (n top : Int) (xi : Arr Int) (col : Int) : F Int :=
  match order with
  | .smallest => slip_get_smallest_pivotF x pivs n top xi
  | .diagonal => do
    let v ← lift (rd x col)
    let pv ← lift (rd pivs col)
    if v ≠ 0 ∧ pv < 0 then pure col else slip_get_smallest_pivotF x pivs n top xi
  | .firstNonzero => lift (slip_get_nonzero_pivot x pivs n top xi)
  | .tolLargest => do
    let pivot ← slip_get_largest_pivotF x pivs n top xi
    let v ← lift (rd x col)
    let pv ← lift (rd pivs col)
    if v ≠ 0 ∧ pv < 0 then do
      gmp
      gmp
      gmp
      let t ← lift (mpqSetD tol)
      gmp
      gmp
      let w ← lift (rd x pivot)
      gmp
      gmp
      let r ← lift (ratioGe nc (v.natAbs : Int) w t)
      if r then pure col else pure pivot
    else pure pivot
  | .largest => slip_get_largest_pivotF x pivs n top xi
  | .tolSmallest => do
    let pivot ← slip_get_smallest_pivotF x pivs n top xi
    let v ← lift (rd x col)
    let pv ← lift (rd pivs col)
    if v ≠ 0 ∧ pv < 0 then do
      gmp
      gmp
      let w ← lift (rd x pivot)
      gmp
      gmp
      gmp
      let t ← lift (mpqSetD tol)
      gmp
      let r ← lift (ratioGe nc (w.natAbs : Int) (v.natAbs : Int) t)
      if r then pure col else pure pivot
    else pure pivot

/-- `slip_get_pivot`: slip_get_pivot.c lines 33-219. -/
def slip_get_pivotF (nc : Int → Int → ℚ → Bool) (order : Pivot) (tol : Dbl) (x pivs : Arr Int)
    (n top : Int) (xi : Arr Int) (col k : Int) (rhos pinv row_perm : Arr Int) : F PivOut := do
  let pivot ← choosePivotF nc order tol x pivs n top xi col
  let intermed ← lift (rd pinv pivot)
  let intermed2 ← lift (rd row_perm k)
  let row_perm ← lift (wr row_perm k pivot)
  let row_perm ← lift (wr row_perm intermed intermed2)
  let pinv ← lift (wr pinv pivot k)
  let pinv ← lift (wr pinv intermed2 intermed)
  let pivs ← lift (wr pivs pivot 1)
  let v ← lift (rd x pivot)
  let rhos ← zinitF rhos k
  let rhos ← zsetF rhos k v
  pure { pivot := pivot, pivs := pivs, rhos := rhos, pinv := pinv, row_perm := row_perm }

/-! ## SLIP_LU_factorize.c -/

/-- `slip_sparse_realloc`: slip_sparse_realloc.c lines 19-58. Both requests are made before the status is looked at. -/
def slip_sparse_reallocF (A : Csc) : F Csc := do
  let okx ← request
  let oki ← request
  if !oki || !okx then lift (.error (.ret .outOfMemory)) else pure (slip_sparse_realloc A)

/-- `pushEntry`: SLIP_LU_factorize.c lines 243-251 and 260-268. -/
def pushEntryF (M : Csc) (nz row v : Int) : F Csc := do
  let i ← lift (wr M.i nz row)
  let x ← zinitF M.x nz
  let x ← zsetF x nz v
  pure { M with i := i, x := x }

/-- `popStep`: SLIP_LU_factorize.c lines 233-269. -/
def popStepF (xi pinv x : Arr Int) (k j : Int) (s : Int × Int × Csc × Csc) : F (Int × Int × Csc × Csc) := do
  let (lnz, unz, L, U) := s
  let jnew ← lift (rd xi j)
  let loc ← lift (rd pinv jnew)
  let (unz, U) ← (if loc ≤ k then do
      let v ← lift (rd x jnew)
      let U ← pushEntryF U unz jnew v
      pure (unz + 1, U)
    else pure (unz, U))
  let (lnz, L) ← (if loc ≥ k then do
      let v ← lift (rd x jnew)
      let L ← pushEntryF L lnz jnew v
      pure (lnz + 1, L)
    else pure (lnz, L))
  pure (lnz, unz, L, U)

/-- `factStep`: SLIP_LU_factorize.c lines 191-270. -/
def factStepF (nc : Int → Int → ℚ → Bool) (order : Pivot) (tol : Dbl) (A : Csc) (q : Arr Int)
    (k : Int) (s : FactSt) : F FactSt := do
  let n := A.n
  let Lp ← lift (wr s.L.p k s.lnz)
  let Up ← lift (wr s.U.p k s.unz)
  let L := { s.L with p := Lp }
  let U := { s.U with p := Up }
  let col ← lift (rd q k)
  let L ← (if s.lnz + n > L.nzmax then slip_sparse_reallocF L else pure L)
  let U ← (if s.unz + n > U.nzmax then slip_sparse_reallocF U else pure U)
  let t ← slip_ref_triangular_solveF L A k s.xi q s.rhos s.pinv s.row_perm s.h s.x
  let L := { L with p := t.Lp }
  let g ← slip_get_pivotF nc order tol t.x s.pivs n t.top t.xi col k s.rhos s.pinv s.row_perm
  let (lnz, unz, L, U) ← forRangeF t.top n (s.lnz, s.unz, L, U) fun j st => popStepF t.xi g.pinv t.x k j st
  pure { lnz := lnz, unz := unz, L := L, U := U, rhos := g.rhos, pinv := g.pinv,
         row_perm := g.row_perm, pivs := g.pivs, h := t.h, xi := t.xi, x := t.x }

/-- `factInit`: SLIP_LU_factorize.c lines 96-183. The five arrays are requested before the status is looked at. -/
def factInitF (n lnz unz : Int) : F FactSt := do
  let okPinv ← request
  let okPivs ← request
  let okH ← request
  let okXi ← request
  let okRow ← request
  if !okPivs || !okH || !okXi || !okRow || !okPinv then lift (.error (.ret .outOfMemory))
  else do
    let h := malloc Int n
    let pivs := malloc Int n
    let pinv := malloc Int n
    let row_perm := malloc Int n
    let (h, pivs, pinv, row_perm) ← lift (forRange 0 n (h, pivs, pinv, row_perm)
      fun i (h, pivs, pinv, row_perm) => do
        let h ← wr h i (-1)
        let pivs ← wr pivs i (-1)
        let pinv ← wr pinv i i
        let row_perm ← wr row_perm i i
        pure (h, pivs, pinv, row_perm))
    allocate false 0 -- rhos
    let L ← allocCscF n lnz
    let U ← allocCscF n unz
    allocate false 0 -- x
    let x ← forRangeF 0 n (malloc Int (max n 1)) fun i x => zinitF x i
    pure { lnz := 0, unz := 0, L := L, U := U,
           rhos := malloc Int (max n 1), pinv := pinv, row_perm := row_perm, pivs := pivs,
           h := h, xi := malloc Int (2 * n), x := x }

/-- `factorize`: SLIP_LU_factorize.c lines 76-322. -/
def factorizeF (nc : Int → Int → ℚ → Bool) (order : Pivot) (tol : Dbl) (A : Csc) (q : Arr Int)
    (lnz unz : Int) : F Factors := do
  let n := A.n
  let s ← factInitF n lnz unz
  let s ← forRangeF 0 n s fun k s => factStepF nc order tol A q k s
  let Lp ← lift (wr s.L.p n s.lnz)
  let Up ← lift (wr s.U.p n s.unz)
  let L ← lift (slip_sparse_collapse { s.L with p := Lp })
  let U ← lift (slip_sparse_collapse { s.U with p := Up })
  let L ← lift (permuteRows L s.pinv s.lnz)
  let U ← lift (permuteRows U s.pinv s.unz)
  pure { L := L, U := U, rhos := s.rhos, pinv := s.pinv }

/-! ## The solve -/

/-- `slip_permute_b`: slip_permute_b.c lines 24-70. -/
def slip_permute_bF (b2 : Dense Int) (pinv : Arr Int) : F (Dense Int) := do
  let m := b2.m
  let n := b2.n
  let b ← allocDenseF Int m n
  let x ← forRangeF 0 m b.x fun i x =>
    forRangeF 0 n x fun j x => do
      let p ← lift (rd pinv i)
      let v ← lift (rd b2.x (ix2 m i j))
      zsetF x (ix2 m p j) v
  pure { b with x := x }

/-- `fwdUpdate`: slip_forward_sub.c lines 114-165. -/
def fwdUpdateF (rhos : Arr Int) (h x : Arr Int) (ij ii i lji : Int) : F (Arr Int × Arr Int) := do
  let xj ← lift (rd x ij)
  let x ← (if xj = 0 then do
      let xi ← lift (rd x ii)
      let x ← zsetF x ij (xj - lji * xi)
      if i > 0 then do
        let v ← lift (rd x ij)
        let ρ ← lift (rd rhos (i - 1))
        let d ← lift (divexact v ρ)
        zsetF x ij d
      else pure x
    else do
      let hx ← lift (rd h ij)
      let x ← histUpdateF rhos x ij hx i
      let v ← lift (rd x ij)
      let ρi ← lift (rd rhos i)
      let x ← zsetF x ij (v * ρi)
      let v ← lift (rd x ij)
      let xi ← lift (rd x ii)
      let x ← zsetF x ij (v - lji * xi)
      if i > 0 then do
        let v ← lift (rd x ij)
        let ρ ← lift (rd rhos (i - 1))
        let d ← lift (divexact v ρ)
        zsetF x ij d
      else pure x)
  let h ← lift (wr h ij i)
  pure (h, x)

/-- `fwdStep`: slip_forward_sub.c lines 77-168. -/
def fwdStepF (L : Csc) (rhos : Arr Int) (m k i : Int) (h x : Arr Int) : F (Arr Int × Arr Int) := do
  let hx ← lift (rd h (ix2 m i k))
  let xi ← lift (rd x (ix2 m i k))
  if xi = 0 then pure (h, x)
  else do
    let x ← histUpdateF rhos x (ix2 m i k) hx i
    let p0 ← lift (rd L.p i)
    let p1 ← lift (rd L.p (i + 1))
    forRangeF p0 p1 (h, x) fun j (h, x) => do
      let jnew ← lift (rd L.i j)
      let lji ← lift (rd L.x j)
      if lji = 0 then pure (h, x)
      else if jnew > i then fwdUpdateF rhos h x (ix2 m jnew k) (ix2 m i k) i lji
      else pure (h, x)

/-- `slip_forward_sub`: slip_forward_sub.c lines 27-181. The history `h` is of type INT64, so its entries are not initialised one by
one. -/
def slip_forward_subF (L : Csc) (x : Dense Int) (rhos : Arr Int) : F (Dense Int) := do
  allocate false 0
  let h := allocDense Int x.m x.n
  let h ← lift (forRange 0 x.nzmax h.x fun i h => wr h i (-1))
  let (_, y) ← forRangeF 0 x.n (h, x.x) fun k (h, y) =>
    forRangeF 0 x.m (h, y) fun i (h, y) => fwdStepF L rhos x.m k i h y
  pure { x with x := y }

/-- `slip_matrix_mul`: slip_matrix_mul.c lines 18-48. -/
def slip_matrix_mulF (x : Dense Int) (scalar : Int) : F (Dense Int) := do
  let y ← forRangeF 0 (x.m * x.n) x.x fun i y => do
    let v ← lift (rd y i)
    zsetF y i (v * scalar)
  pure { x with x := y }

/-- `backInner`: slip_back_sub.c lines 58-66. -/
def backInnerF (U : Csc) (m k j : Int) (y : Arr Int) (i : Int) : F (Arr Int) := do
  let u ← lift (rd U.x i)
  if u = 0 then pure y
  else do
    let row ← lift (rd U.i i)
    let w ← lift (rd y (ix2 m row k))
    let bj ← lift (rd y (ix2 m j k))
    zsetF y (ix2 m row k) (w - u * bj)

/-- `backStep`: slip_back_sub.c lines 47-67. -/
def backStepF (U : Csc) (m k j : Int) (y : Arr Int) : F (Arr Int) := do
  let v ← lift (rd y (ix2 m j k))
  if v = 0 then pure y
  else do
    let p1 ← lift (rd U.p (j + 1))
    let d ← lift (rd U.x (p1 - 1))
    let w ← lift (divexact v d)
    let y ← zsetF y (ix2 m j k) w
    let p0 ← lift (rd U.p j)
    forRangeF p0 (p1 - 1) y fun i y => backInnerF U m k j y i

/-- `slip_back_sub`: slip_back_sub.c lines 24-71. -/
def slip_back_subF (U : Csc) (bx : Dense Int) : F (Dense Int) := do
  let y ← forRangeF 0 bx.n bx.x fun k y =>
    forDownF 0 U.n y fun j y => backStepF U bx.m k j y
  pure { bx with x := y }

/-- `slip_matrix_div`: slip_matrix_div.c lines 28-82. -/
def slip_matrix_divF (x : Dense Int) (scalar : Int) : F (Dense ℚ) := do
  gmp -- mpq_init (scalar2)
  gmp -- mpq_set_num (scalar2, scalar)
  let x2 ← allocDenseF ℚ x.m x.n
  let y ← forRangeF 0 (x.m * x.n) x2.x fun i y => do
    let v ← lift (rd x.x i)
    let y ← zsetF y i (v : ℚ)
    let w ← lift (rd y i)
    let d ← lift (mpqDiv w (scalar : ℚ))
    zsetF y i d
  pure { x2 with x := y }

/-- `slip_permute_x`: slip_permute_x.c lines 22-72. -/
def slip_permute_xF (x2 : Dense ℚ) (q : Arr Int) : F (Dense ℚ) := do
  let m := x2.m
  let n := x2.n
  let x ← allocDenseF ℚ m n
  let y ← forRangeF 0 m x.x fun i y =>
    forRangeF 0 n y fun j y => do
      let p ← lift (rd q i)
      let v ← lift (rd x2.x (ix2 m i j))
      zsetF y (ix2 m p j) v
  pure { x with x := y }

/-- `checkMul`: slip_check_solution.c lines 55-75; `mpq_set_z` and `mpq_mul` (`temp`), `mpq_add`. -/
def checkMulF (A : Csc) (x : Dense ℚ) (m n : Int) (b2 : Arr ℚ) : F (Arr ℚ) :=
  forRangeF 0 n b2 fun j b2 =>
    forRangeF 0 m b2 fun i b2 => do
      let p0 ← lift (rd A.p i)
      let p1 ← lift (rd A.p (i + 1))
      forRangeF p0 p1 b2 fun p b2 => do
        let a ← lift (rd A.x p)
        gmp
        let xv ← lift (rd x.x (ix2 x.m i j))
        gmp
        let r ← lift (rd A.i p)
        let w ← lift (rd b2 (ix2 m r j))
        zsetF b2 (ix2 m r j) (w + (a : ℚ) * xv)

/-- `checkCmp`: slip_check_solution.c lines 81-98; `mpq_set_z (temp, b(i,j))`. -/
def checkCmpF (b : Dense Int) (b2 : Arr ℚ) : F Bool :=
  forRangeF 0 b.n true fun j ok =>
    if !ok then pure false
    else forRangeF 0 b.m true fun i ok =>
      if !ok then pure false
      else do
        let v ← lift (rd b.x (ix2 b.m i j))
        gmp
        let w ← lift (rd b2 (ix2 b.m i j))
        pure (decide ((v : ℚ) = w))

/-- `slip_check_solution`: slip_check_solution.c lines 20-122. -/
def slip_check_solutionF (A : Csc) (x : Dense ℚ) (b : Dense Int) : F Unit := do
  gmp -- mpq_init (temp)
  let b2 ← allocDenseF ℚ b.m b.n
  let y ← checkMulF A x b.m b.n b2.x
  let ok ← checkCmpF b y
  if ok then pure () else lift (.error (.ret .incorrect))

/-- `scaleSolution`: SLIP_LU_solve.c lines 151-166. -/
def scaleSolutionF (x : Dense ℚ) (sA sb : ℚ) : F (Dense ℚ) := do
  gmp -- mpq_init (scale)
  gmp -- mpq_div
  let scale ← lift (mpqDiv sA sb)
  if scale = 1 then pure x
  else do
    let y ← forRangeF 0 (x.m * x.n) x.x fun i y => do
      let v ← lift (rd y i)
      zsetF y i (v * scale)
    pure { x with x := y }

/-- `luSolve`: SLIP_LU_solve.c lines 93-175. -/
def luSolveF (A : Csc) (sA : ℚ) (b : Dense Int) (sb : ℚ) (F : Factors) (q : Arr Int) (check : Bool) :
    Flaky.F (Dense ℚ) := do
  let n := F.L.n
  let b2 ← slip_permute_bF b F.pinv
  let b2 ← slip_forward_subF F.L b2 F.rhos
  let det ← lift (rd F.rhos (n - 1))
  let b2 ← slip_matrix_mulF b2 det
  let b2 ← slip_back_subF F.U b2
  let det ← lift (rd F.rhos (n - 1))
  let x2 ← slip_matrix_divF b2 det
  let x ← slip_permute_xF x2 q
  if check then slip_check_solutionF A x b else pure ()
  scaleSolutionF x sA sb

/-! ## The user-callable functions -/

/-- The end of `SLIP_LU_analyze`: SLIP_LU_analyze.c lines 155-182 (printing omitted). -/
def analyzeEnd (n : Int) (q : Arr Int) (nz : Int) : Info × Handle Analysis :=
  (.ok, some (some { q := q, lnz := (clampNnz n nz nz).1, unz := (clampNnz n nz nz).2 }))

/-- The body of `SLIP_LU_analyze`: SLIP_LU_analyze.c lines 51-182 (printing omitted). A refused request (lines 61, 65-69, 122-127)
returns SLIP_OUT_OF_MEMORY; the handle is NULL since line 51. -/
def analyzeBodyF (O : Orderings) (A : Mat) (opt : Option Options) : F (Info × Handle Analysis) := do
  let n := A.n
  let anz ← lift (SLIP_matrix_nnz true (some A))
  let granted ← request -- S
  if !granted then pure (.outOfMemory, some none)
  else do
    let granted ← request -- S->q
    if !granted then pure (.outOfMemory, some none)
    else do
      let q := malloc Int (n + 1)
      match optOrder opt with
      | .none => do
        let q ← lift (forRange 0 (n + 1) q fun i q => wr q i i)
        pure (analyzeEnd n q (10 * anz))
      | .amd => do
        let r ← lift (analyzeAmd (ar := Arith.exact) O A q)
        pure (analyzeEnd n r.1 r.2)
      | .colamd => do
        let Alen := 2 * anz + 6 * (n + 1) + 6 * (n + 1) + n
        let granted ← request -- A2
        if !granted then pure (.outOfMemory, some none)
        else do
          let A2 := malloc Int Alen
          let q ← lift (forRange 0 (n + 1) q fun i q => do
            let v ← rd (deref A.p) i
            wr q i v)
          let A2 ← lift (forRange 0 anz A2 fun i A2 => do
            let v ← rd (deref A.i) i
            wr A2 i v)
          let r ← lift (Colamd.colamd (ar := Arith.exact) n n Alen A2 q (O.knobs n))
          pure (analyzeEnd n r.2 (10 * anz))

/-- `SLIP_LU_analyze`: SLIP_LU_analyze.c lines 29-183. -/
def SLIP_LU_analyzeF (O : Orderings) (init : Bool) (S : Handle Analysis) (A : Option Mat) (opt : Option Options) :
    F (Info × Handle Analysis) :=
  if !init then pure (.panic, S)
  else match A with
  | none => pure (.incorrectInput, S)
  | some A =>
    if A.kind ≠ .csc then pure (.incorrectInput, S)
    else if S = none ∨ A.n ≠ A.m then pure (.incorrectInput, S)
    else analyzeBodyF O A opt

/-- The status and the handles of a function whose body ends with a result or by `SLIP_CHECK`: `factWrap` and `solveWrap`
(`Verif/Model/Api.lean`). -/
def wrap {α β : Type} (f : C α → C β) (m : F α) : F β := fun ω t => (f (m ω t).1, (m ω t).2)

/-- `SLIP_LU_factorize`: SLIP_LU_factorize.c lines 42-322. -/
def SLIP_LU_factorizeF (nc : Int → Int → ℚ → Bool) (init : Bool) (L U rhos : Handle Mat)
    (pinv : Handle (Arr Int)) (A : Option Mat) (S : Option Analysis) (opt : Option Options) : F FactOut :=
  if !init then pure ⟨.panic, L, U, rhos, pinv⟩
  else match A with
  | none => pure ⟨.incorrectInput, L, U, rhos, pinv⟩
  | some A =>
    if A.kind ≠ .csc then pure ⟨.incorrectInput, L, U, rhos, pinv⟩
    else if A.type ≠ .mpz then pure ⟨.incorrectInput, L, U, rhos, pinv⟩
    else do
      let anz ← lift (SLIP_matrix_nnz init (some A))
      match S with
      | none => pure ⟨.incorrectInput, L, U, rhos, pinv⟩
      | some S =>
        if L = none ∨ U = none ∨ rhos = none ∨ pinv = none ∨ anz < 0 then
          pure ⟨.incorrectInput, L, U, rhos, pinv⟩
        else
          wrap (factWrap A.n) (factorizeF nc (optPivot opt) (optTol opt) A.toCsc S.q S.lnz S.unz)

/-- `SLIP_LU_solve`: SLIP_LU_solve.c lines 53-175. -/
def SLIP_LU_solveF (init : Bool) (x : Handle Mat) (b A L U rhos : Option Mat)
    (S : Option Analysis) (pinv : Option (Arr Int)) (opt : Option Options) : F (Info × Handle Mat) :=
  if !init then pure (.panic, x)
  else if requireFails b .dense .mpz then pure (.incorrectInput, x)
  else if requireFails A .csc .mpz then pure (.incorrectInput, x)
  else if requireFails L .csc .mpz then pure (.incorrectInput, x)
  else if requireFails U .csc .mpz then pure (.incorrectInput, x)
  else if requireFails rhos .dense .mpz then pure (.incorrectInput, x)
  else match b, A, L, U, rhos, S, pinv with
  | some b, some A, some L, some U, some rhos, some S, some pinv =>
    if x = none ∨ L.m ≠ A.m ∨ L.n ≠ U.m ∨ U.n ≠ A.n ∨ A.n ≠ A.m ∨ A.m ≠ b.m then
      pure (.incorrectInput, x)
    else
      wrap solveWrap (luSolveF A.toCsc A.scale b.toDense b.scale
        { L := L.toCsc, U := U.toCsc, rhos := rhos.xz, pinv := pinv } S.q (optCheck opt))
  | _, _, _, _, _, _, _ => pure (.incorrectInput, x)

end Slip.Flaky
