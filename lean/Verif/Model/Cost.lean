import Verif.Model.Solve

/-!
# The factorization and the solve with a meter

The functions of `Verif/Model/Factor.lean` and `Verif/Model/Solve.lean` once more, with a counter for the work
they do: `α` is added for every arithmetic operation on GMP numbers (`mpz_mul`, `mpz_submul`, `mpz_divexact`,
`mpq_mul`, `mpq_add`, `mpq_div`) and `β` for every execution of the body of a loop.  With `α = 1, β = 0` the counter is the number of arithmetic
operations, with `α = 0, β = 1` the number of iterations; every iteration does a bounded number of other steps.
`γ` is added for every entry of `L` and `U` for which memory is requested, by the first allocation or by doubling.
Not counted: what `qsort`, `realloc`, `SLIP_matrix_allocate` and `SLIP_matrix_free` do inside; copies, comparisons and
changes of sign of GMP numbers.  The counter is kept when the function returns an error.
-/

namespace Slip

/-- A computation with a counter that also survives an error (no counterpart in the C code: an instrument). -/
def W (α : Type) : Type := ℕ → C α × ℕ

/-- Sequencing: the work of the second part is added if the first part succeeds. -/
def W.bind {α β : Type} (m : W α) (f : α → W β) : W β := fun w =>
  match m w with
  | (.ok a, w') => f a w'
  | (.error e, w') => (.error e, w')

instance : Monad W where
  pure a := fun w => (.ok a, w)
  bind := W.bind

/-- A part that is not counted. -/
def W.lift {α : Type} (m : C α) : W α := fun w => (m, w)

/-- Add `c` to the counter. -/
def tick (c : ℕ) : W Unit := fun w => (.ok (), w + c)

variable {σ : Type} (α β γ : ℕ)

/-- `forCnt` (`Verif/Basic.lean`) with `β` for every iteration. -/
def forCntT : Nat → Int → σ → (Int → σ → W σ) → W σ
  | 0, _, s, _ => pure s
  | m + 1, lo, s, f => do
    tick β
    let s ← f lo s
    forCntT m (lo + 1) s f

/-- `for (i = lo ; i < hi ; i++)` with `β` for every iteration. -/
def forRangeT (lo hi : Int) (s : σ) (f : Int → σ → W σ) : W σ :=
  forCntT β (hi - lo).toNat lo s f

/-- `forDownCnt` with `β` for every iteration. -/
def forDownCntT : Nat → Int → σ → (Int → σ → W σ) → W σ
  | 0, _, s, _ => pure s
  | m + 1, lo, s, f => do
    tick β
    let s ← f (lo + m) s
    forDownCntT m lo s f

/-- `for (i = hi-1 ; i >= lo ; i--)` with `β` for every iteration. -/
def forDownT (lo hi : Int) (s : σ) (f : Int → σ → W σ) : W σ :=
  forDownCntT β (hi - lo).toNat lo s f

/-! ## slip_dfs.c, slip_reach.c -/

/-- The inner `for` loop of `slip_dfs`: slip_dfs.c lines 67-82. -/
def dfsScanT (Lp Li : Arr Int) : Nat → Int → W (Option (Int × Int))
  | 0, _ => pure none
  | m + 1, p => do
    tick β
    let i ← W.lift (rd Li p)
    let b ← W.lift (marked Lp i)
    if b then dfsScanT Lp Li m (p + 1) else pure (some (p, i))

/-- One iteration of the `while` loop of `slip_dfs`: slip_dfs.c lines 46-87. -/
def dfsStepT (n : Int) (Li pinv : Arr Int) (s : DfsSt) : W DfsSt := do
  let j ← W.lift (rd s.xi s.head)
  let jnew ← W.lift (rd pinv j)
  let b ← W.lift (marked s.Lp j)
  let s ← W.lift (if b then pure s else do
    let Lp ← mark s.Lp j
    let p0 ← (if jnew < 0 then pure 0 else do let v ← rd Lp jnew; pure (unflip v))
    let xi ← wr s.xi (n + s.head) p0
    pure { s with Lp := Lp, xi := xi })
  let p2 ← W.lift (if jnew < 0 then pure 0 else do let v ← rd s.Lp (jnew + 1); pure (unflip v))
  let p ← W.lift (rd s.xi (n + s.head))
  let r ← dfsScanT β s.Lp Li (p2 - p).toNat p
  W.lift (match r with
  | some (p, i) => do
    let xi ← wr s.xi (n + s.head) p
    let xi ← wr xi (s.head + 1) i
    pure { s with head := s.head + 1, xi := xi }
  | none => do
    let xi ← wr s.xi (s.top - 1) j
    pure { s with head := s.head - 1, top := s.top - 1, xi := xi })

/-- The `while (head >= 0)` loop of `slip_dfs`: slip_dfs.c lines 44-88. -/
def dfsLoopT (n : Int) (Li pinv : Arr Int) : Nat → DfsSt → W DfsSt
  | 0, s => W.lift (if 0 ≤ s.head then .error .fuel else .ok s)
  | f + 1, s => if 0 ≤ s.head then do
      tick β
      let s ← dfsStepT β n Li pinv s
      dfsLoopT n Li pinv f s
    else pure s

/-- `slip_dfs`: slip_dfs.c lines 18-90. -/
def slip_dfsT (n : Int) (Li pinv : Arr Int) (top j : Int) (Lp xi : Arr Int) :
    W (Int × Arr Int × Arr Int) := do
  let xi ← W.lift (wr xi 0 j)
  let s ← dfsLoopT β n Li pinv (2 * n.toNat + 1) { head := 0, top := top, Lp := Lp, xi := xi }
  pure (s.top, s.Lp, s.xi)

/-- `slip_reach`: slip_reach.c lines 18-56. -/
def slip_reachT (n : Int) (Ap Ai Li pinv : Arr Int) (col : Int) (Lp xi : Arr Int) :
    W (Int × Arr Int × Arr Int) := do
  let p0 ← W.lift (rd Ap col)
  let p1 ← W.lift (rd Ap (col + 1))
  let (top, Lp, xi) ← forRangeT β p0 p1 (n, Lp, xi) fun p (top, Lp, xi) => do
    let i ← W.lift (rd Ai p)
    let b ← W.lift (marked Lp i)
    if b then pure (top, Lp, xi) else slip_dfsT β n Li pinv top i Lp xi
  let Lp ← forRangeT β top n Lp fun p Lp => W.lift (do
    let j ← rd xi p
    mark Lp j)
  pure (top, Lp, xi)

/-! ## slip_ref_triangular_solve.c -/

/-- The history update: slip_ref_triangular_solve.c lines 196-207, 280-291 and 312-322. -/
def histUpdateT (rhos : Arr Int) (x : Arr Int) (j hj s : Int) : W (Arr Int) :=
  if hj < s - 1 then do
    let xj ← W.lift (rd x j)
    let ρ ← W.lift (rd rhos (s - 1))
    tick α -- mpz_mul
    let x ← W.lift (zset x j (xj * ρ))
    if hj > -1 then do
      let xj ← W.lift (rd x j)
      let ρh ← W.lift (rd rhos hj)
      tick α -- mpz_divexact
      let d ← W.lift (divexact xj ρh)
      W.lift (zset x j d)
    else pure x
  else pure x

/-- The IPGE update: slip_ref_triangular_solve.c lines 224-303. -/
def ipgeUpdateT (rhos : Arr Int) (h x : Arr Int) (i j jnew lij : Int) : W (Arr Int × Arr Int) := do
  let xi ← W.lift (rd x i)
  if xi = 0 then
    if jnew < 1 then do
      let xj ← W.lift (rd x j)
      tick α -- mpz_submul
      let x ← W.lift (zset x i (xi - lij * xj))
      let h ← W.lift (wr h i jnew)
      pure (h, x)
    else do
      let xj ← W.lift (rd x j)
      tick α -- mpz_submul
      let x ← W.lift (zset x i (xi - lij * xj))
      let v ← W.lift (rd x i)
      let ρ ← W.lift (rd rhos (jnew - 1))
      tick α -- mpz_divexact
      let d ← W.lift (divexact v ρ)
      let x ← W.lift (zset x i d)
      let h ← W.lift (wr h i jnew)
      pure (h, x)
  else
    if jnew < 1 then do
      let ρ0 ← W.lift (rd rhos 0)
      tick α -- mpz_mul
      let x ← W.lift (zset x i (xi * ρ0))
      let v ← W.lift (rd x i)
      let xj ← W.lift (rd x j)
      tick α -- mpz_submul
      let x ← W.lift (zset x i (v - lij * xj))
      let h ← W.lift (wr h i jnew)
      pure (h, x)
    else do
      let hi ← W.lift (rd h i)
      let x ← histUpdateT α rhos x i hi jnew
      let v ← W.lift (rd x i)
      let ρj ← W.lift (rd rhos jnew)
      tick α -- mpz_mul
      let x ← W.lift (zset x i (v * ρj))
      let v ← W.lift (rd x i)
      let xj ← W.lift (rd x j)
      tick α -- mpz_submul
      let x ← W.lift (zset x i (v - lij * xj))
      let v ← W.lift (rd x i)
      let ρ ← W.lift (rd rhos (jnew - 1))
      tick α -- mpz_divexact
      let d ← W.lift (divexact v ρ)
      let x ← W.lift (zset x i d)
      let h ← W.lift (wr h i jnew)
      pure (h, x)

/-- One iteration of the main loop: slip_ref_triangular_solve.c lines 183-323. -/
def solveStepT (Lp Li Lx pinv rhos xi : Arr Int) (k p : Int) (h x : Arr Int) :
    W (Arr Int × Arr Int) := do
  let j ← W.lift (rd xi p)
  let jnew ← W.lift (rd pinv j)
  let xj ← W.lift (rd x j)
  if xj = 0 then pure (h, x)
  else if jnew < k then do
    let hj ← W.lift (rd h j)
    let x ← histUpdateT α rhos x j hj jnew
    let m0 ← W.lift (rd Lp jnew)
    let m1 ← W.lift (rd Lp (jnew + 1))
    forRangeT β m0 m1 (h, x) fun m (h, x) => do
      let i ← W.lift (rd Li m)
      let inew ← W.lift (rd pinv i)
      if inew > jnew then do
        let lij ← W.lift (rd Lx m)
        if lij = 0 then pure (h, x)
        else ipgeUpdateT α rhos h x i j jnew lij
      else pure (h, x)
  else do
    let hj ← W.lift (rd h j)
    let x ← histUpdateT α rhos x j hj k
    pure (h, x)

/-- `slip_ref_triangular_solve`: slip_ref_triangular_solve.c lines 87-328. -/
def slip_ref_triangular_solveT (L A : Csc) (k : Int) (xi q rhos pinv row_perm h x : Arr Int) :
    W TriOut := do
  let n := A.n
  let col ← W.lift (rd q k)
  let (top, Lp, xi) ← slip_reachT β L.n A.p A.i L.i pinv col L.p xi
  -- lines 137-140
  let xi ← forRangeT β top n xi fun j xi => W.lift (do
    let v ← rd xi j
    let w ← rd pinv v
    wr xi j w)
  -- line 143
  let xi ← W.lift (qsortSeg xi top n)
  -- lines 146-149
  let xi ← forRangeT β top n xi fun j xi => W.lift (do
    let v ← rd xi j
    let w ← rd row_perm v
    wr xi j w)
  -- lines 152-155
  let x ← forRangeT β top n x fun i x => W.lift (do
    let v ← rd xi i
    zset x v 0)
  -- line 162
  let x ← W.lift (zset x col 0)
  -- lines 165-168
  let h ← forRangeT β top n h fun i h => W.lift (do
    let v ← rd xi i
    wr h v (-1))
  -- lines 171-175
  let a0 ← W.lift (rd A.p col)
  let a1 ← W.lift (rd A.p (col + 1))
  let x ← forRangeT β a0 a1 x fun p x => W.lift (do
    let i ← rd A.i p
    let v ← rd A.x p
    zset x i v)
  -- lines 181-324
  let (h, x) ← forRangeT β top n (h, x) fun p (h, x) =>
    solveStepT α β Lp L.i L.x pinv rhos xi k p h x
  pure { top := top, Lp := Lp, xi := xi, h := h, x := x }

/-! ## Pivot search -/

/-- The first loop of `slip_get_smallest_pivot`: slip_get_smallest_pivot.c lines 59-79. -/
def smallestInitT (x pivs xi : Arr Int) : Nat → Int → W (Option (Int × Int × Int))
  | 0, _ => pure none
  | m + 1, flag => do
    tick β
    let inew ← W.lift (rd xi flag)
    let v ← W.lift (rd x inew)
    let pv ← W.lift (rd pivs inew)
    if pv < 0 ∧ v ≠ 0 then pure (some (flag, inew, v))
    else smallestInitT x pivs xi m (flag + 1)

/-- `slip_get_smallest_pivot`: slip_get_smallest_pivot.c lines 23-116. -/
def slip_get_smallest_pivotT (x pivs : Arr Int) (n top : Int) (xi : Arr Int) : W Int := do
  let r ← (if 0 ≤ top then smallestInitT β x pivs xi (n - top).toNat top else pure none)
  let (j, pivot, small) := r.getD (n, -1, 0)
  let (pivot, _) ← forRangeT β j n (pivot, small) fun i (pivot, small) => W.lift (do
    let inew ← rd xi i
    let v ← rd x inew
    let pv ← rd pivs inew
    if pv < 0 ∧ small.natAbs > v.natAbs then
      if v ≠ 0 then pure (inew, v) else pure (pivot, small)
    else pure (pivot, small))
  W.lift (if pivot = -1 then .error (.ret .singular) else pure pivot)

/-- `slip_get_largest_pivot`: slip_get_largest_pivot.c lines 25-89. -/
def slip_get_largest_pivotT (x pivs : Arr Int) (n top : Int) (xi : Arr Int) : W Int := do
  let (pivot, _) ← forRangeT β top n ((-1 : Int), (0 : Int)) fun i (pivot, big) => W.lift (do
    let inew ← rd xi i
    let v ← rd x inew
    let pv ← rd pivs inew
    if pv < 0 ∧ big.natAbs < v.natAbs then pure (inew, v) else pure (pivot, big))
  W.lift (if pivot = -1 then .error (.ret .singular) else pure pivot)

/-- The loop of `slip_get_nonzero_pivot`: slip_get_nonzero_pivot.c lines 52-65. -/
def nonzeroLoopT (x pivs xi : Arr Int) : Nat → Int → W Int
  | 0, _ => W.lift (.error (.ret .singular))
  | m + 1, i => do
    tick β
    let inew ← W.lift (rd xi i)
    let v ← W.lift (rd x inew)
    let pv ← W.lift (rd pivs inew)
    if v ≠ 0 ∧ pv < 0 then pure inew else nonzeroLoopT x pivs xi m (i + 1)

/-- `slip_get_nonzero_pivot`: slip_get_nonzero_pivot.c lines 22-69. -/
def slip_get_nonzero_pivotT (x pivs : Arr Int) (n top : Int) (xi : Arr Int) : W Int :=
  nonzeroLoopT β x pivs xi (n - top).toNat top

/-- The choice of the pivot row: slip_get_pivot.c lines 85-187. -/
def choosePivotT (nc : Int → Int → ℚ → Bool) (order : Pivot) (tol : Dbl) (x pivs : Arr Int)
    (n top : Int) (xi : Arr Int) (col : Int) : W Int :=
  match order with
  | .smallest => slip_get_smallest_pivotT β x pivs n top xi
  | .diagonal => do
    let v ← W.lift (rd x col)
    let pv ← W.lift (rd pivs col)
    if v ≠ 0 ∧ pv < 0 then pure col else slip_get_smallest_pivotT β x pivs n top xi
  | .firstNonzero => slip_get_nonzero_pivotT β x pivs n top xi
  | .tolLargest => do
    let pivot ← slip_get_largest_pivotT β x pivs n top xi
    W.lift (do
      let v ← rd x col
      let pv ← rd pivs col
      if v ≠ 0 ∧ pv < 0 then do
        let t ← mpqSetD tol
        let w ← rd x pivot
        let r ← ratioGe nc (v.natAbs : Int) w t
        if r then pure col else pure pivot
      else pure pivot)
  | .largest => slip_get_largest_pivotT β x pivs n top xi
  | .tolSmallest => do
    let pivot ← slip_get_smallest_pivotT β x pivs n top xi
    W.lift (do
      let v ← rd x col
      let pv ← rd pivs col
      if v ≠ 0 ∧ pv < 0 then do
        let w ← rd x pivot
        let t ← mpqSetD tol
        let r ← ratioGe nc (w.natAbs : Int) (v.natAbs : Int) t
        if r then pure col else pure pivot
      else pure pivot)

/-- `slip_get_pivot`: slip_get_pivot.c lines 33-219. -/
def slip_get_pivotT (nc : Int → Int → ℚ → Bool) (order : Pivot) (tol : Dbl) (x pivs : Arr Int)
    (n top : Int) (xi : Arr Int) (col k : Int) (rhos pinv row_perm : Arr Int) : W PivOut := do
  let pivot ← choosePivotT β nc order tol x pivs n top xi col
  W.lift (do
    let intermed ← rd pinv pivot
    let intermed2 ← rd row_perm k
    let row_perm ← wr row_perm k pivot
    let row_perm ← wr row_perm intermed intermed2
    let pinv ← wr pinv pivot k
    let pinv ← wr pinv intermed2 intermed
    let pivs ← wr pivs pivot 1
    let v ← rd x pivot
    let rhos ← zinit rhos k
    let rhos ← zset rhos k v
    pure { pivot := pivot, pivs := pivs, rhos := rhos, pinv := pinv, row_perm := row_perm })

/-! ## SLIP_LU_factorize.c -/

/-- `slip_sparse_realloc`: slip_sparse_realloc.c lines 19-58. `γ` for every entry of the new arrays, `β` for every
iteration of the loop of lines 52-55. -/
def slip_sparse_reallocT (A : Csc) : W Csc := do
  tick (γ * (2 * A.nzmax).toNat)
  forRangeT β A.nzmax (2 * A.nzmax) () fun _ u => pure u
  pure (slip_sparse_realloc A)

/-- One iteration of the main loop: SLIP_LU_factorize.c lines 191-270. -/
def factStepT (nc : Int → Int → ℚ → Bool) (order : Pivot) (tol : Dbl) (A : Csc) (q : Arr Int)
    (k : Int) (s : FactSt) : W FactSt := do
  let n := A.n
  let Lp ← W.lift (wr s.L.p k s.lnz)
  let Up ← W.lift (wr s.U.p k s.unz)
  let L := { s.L with p := Lp }
  let U := { s.U with p := Up }
  let col ← W.lift (rd q k)
  let L ← (if s.lnz + n > L.nzmax then slip_sparse_reallocT β γ L else pure L)
  let U ← (if s.unz + n > U.nzmax then slip_sparse_reallocT β γ U else pure U)
  let t ← slip_ref_triangular_solveT α β L A k s.xi q s.rhos s.pinv s.row_perm s.h s.x
  let L := { L with p := t.Lp }
  let g ← slip_get_pivotT β nc order tol t.x s.pivs n t.top t.xi col k s.rhos s.pinv s.row_perm
  let (lnz, unz, L, U) ← forRangeT β t.top n (s.lnz, s.unz, L, U) fun j st =>
    W.lift (popStep t.xi g.pinv t.x k j st)
  pure { lnz := lnz, unz := unz, L := L, U := U, rhos := g.rhos, pinv := g.pinv,
         row_perm := g.row_perm, pivs := g.pivs, h := t.h, xi := t.xi, x := t.x }

/-- Permute row indices: SLIP_LU_factorize.c lines 294-303. -/
def permuteRowsT (M : Csc) (pinv : Arr Int) (nz : Int) : W Csc := do
  let i ← forRangeT β 0 nz M.i fun p Mi => W.lift (do
    let v ← rd Mi p
    let w ← rd pinv v
    wr Mi p w)
  pure { M with i := i }

/-- The initial state of the main loop: SLIP_LU_factorize.c lines 96-183. -/
def factInitT (n lnz unz : Int) : W FactSt := do
  tick (γ * ((max lnz 1).toNat + (max unz 1).toNat)) -- SLIP_matrix_allocate of L and U, SLIP_LU_factorize.c lines 151-154
  let h := malloc Int n
  let pivs := malloc Int n
  let pinv := malloc Int n
  let row_perm := malloc Int n
  let (h, pivs, pinv, row_perm) ← forRangeT β 0 n (h, pivs, pinv, row_perm)
    fun i (h, pivs, pinv, row_perm) => W.lift (do
      let h ← wr h i (-1)
      let pivs ← wr pivs i (-1)
      let pinv ← wr pinv i i
      let row_perm ← wr row_perm i i
      pure (h, pivs, pinv, row_perm))
  let x ← forRangeT β 0 n (malloc Int (max n 1)) fun i x => W.lift (zinit x i)
  pure { lnz := 0, unz := 0, L := allocCsc n lnz, U := allocCsc n unz,
         rhos := malloc Int (max n 1), pinv := pinv, row_perm := row_perm, pivs := pivs,
         h := h, xi := malloc Int (2 * n), x := x }

/-- The body of `SLIP_LU_factorize`: SLIP_LU_factorize.c lines 76-322. -/
def factorizeT (nc : Int → Int → ℚ → Bool) (order : Pivot) (tol : Dbl) (A : Csc) (q : Arr Int)
    (lnz unz : Int) : W Factors := do
  let n := A.n
  let s ← factInitT β γ n lnz unz
  let s ← forRangeT β 0 n s fun k s => factStepT α β γ nc order tol A q k s
  let Lp ← W.lift (wr s.L.p n s.lnz)
  let Up ← W.lift (wr s.U.p n s.unz)
  let L ← W.lift (slip_sparse_collapse { s.L with p := Lp })
  let U ← W.lift (slip_sparse_collapse { s.U with p := Up })
  let L ← permuteRowsT β L s.pinv s.lnz
  let U ← permuteRowsT β U s.pinv s.unz
  pure { L := L, U := U, rhos := s.rhos, pinv := s.pinv }

/-! ## The solve -/

/-- `slip_permute_b`: slip_permute_b.c lines 24-70. -/
def slip_permute_bT (b2 : Dense Int) (pinv : Arr Int) : W (Dense Int) := do
  let m := b2.m
  let n := b2.n
  let b := allocDense Int m n
  let x ← forRangeT β 0 m b.x fun i x =>
    forRangeT β 0 n x fun j x => W.lift (do
      let p ← rd pinv i
      let v ← rd b2.x (ix2 m i j)
      zset x (ix2 m p j) v)
  pure { b with x := x }

/-- The update of `x(jnew,k)`: slip_forward_sub.c lines 114-165. -/
def fwdUpdateT (rhos : Arr Int) (h x : Arr Int) (ij ii i lji : Int) : W (Arr Int × Arr Int) := do
  let xj ← W.lift (rd x ij)
  let x ← (if xj = 0 then do
      let xi ← W.lift (rd x ii)
      tick α -- mpz_submul
      let x ← W.lift (zset x ij (xj - lji * xi))
      if i > 0 then do
        let v ← W.lift (rd x ij)
        let ρ ← W.lift (rd rhos (i - 1))
        tick α -- mpz_divexact
        let d ← W.lift (divexact v ρ)
        W.lift (zset x ij d)
      else pure x
    else do
      let hx ← W.lift (rd h ij)
      let x ← histUpdateT α rhos x ij hx i
      let v ← W.lift (rd x ij)
      let ρi ← W.lift (rd rhos i)
      tick α -- mpz_mul
      let x ← W.lift (zset x ij (v * ρi))
      let v ← W.lift (rd x ij)
      let xi ← W.lift (rd x ii)
      tick α -- mpz_submul
      let x ← W.lift (zset x ij (v - lji * xi))
      if i > 0 then do
        let v ← W.lift (rd x ij)
        let ρ ← W.lift (rd rhos (i - 1))
        tick α -- mpz_divexact
        let d ← W.lift (divexact v ρ)
        W.lift (zset x ij d)
      else pure x)
  let h ← W.lift (wr h ij i)
  pure (h, x)

/-- One iteration `i` for right-hand side `k`: slip_forward_sub.c lines 77-168. -/
def fwdStepT (L : Csc) (rhos : Arr Int) (m k i : Int) (h x : Arr Int) : W (Arr Int × Arr Int) := do
  let hx ← W.lift (rd h (ix2 m i k))
  let xi ← W.lift (rd x (ix2 m i k))
  if xi = 0 then pure (h, x)
  else do
    let x ← histUpdateT α rhos x (ix2 m i k) hx i
    let p0 ← W.lift (rd L.p i)
    let p1 ← W.lift (rd L.p (i + 1))
    forRangeT β p0 p1 (h, x) fun j (h, x) => do
      let jnew ← W.lift (rd L.i j)
      let lji ← W.lift (rd L.x j)
      if lji = 0 then pure (h, x)
      else if jnew > i then fwdUpdateT α rhos h x (ix2 m jnew k) (ix2 m i k) i lji
      else pure (h, x)

/-- `slip_forward_sub`: slip_forward_sub.c lines 27-181. -/
def slip_forward_subT (L : Csc) (x : Dense Int) (rhos : Arr Int) : W (Dense Int) := do
  let h := allocDense Int x.m x.n
  let h ← forRangeT β 0 x.nzmax h.x fun i h => W.lift (wr h i (-1))
  let (_, y) ← forRangeT β 0 x.n (h, x.x) fun k (h, y) =>
    forRangeT β 0 x.m (h, y) fun i (h, y) => fwdStepT α β L rhos x.m k i h y
  pure { x with x := y }

/-- `slip_matrix_mul`: slip_matrix_mul.c lines 18-48. -/
def slip_matrix_mulT (x : Dense Int) (scalar : Int) : W (Dense Int) := do
  let y ← forRangeT β 0 (x.m * x.n) x.x fun i y => do
    let v ← W.lift (rd y i)
    tick α -- mpz_mul
    W.lift (zset y i (v * scalar))
  pure { x with x := y }

/-- The inner loop body of `slip_back_sub`: slip_back_sub.c lines 58-66. -/
def backInnerT (U : Csc) (m k j : Int) (y : Arr Int) (i : Int) : W (Arr Int) := do
  let u ← W.lift (rd U.x i)
  if u = 0 then pure y
  else do
    let row ← W.lift (rd U.i i)
    let w ← W.lift (rd y (ix2 m row k))
    let bj ← W.lift (rd y (ix2 m j k))
    tick α -- mpz_submul
    W.lift (zset y (ix2 m row k) (w - u * bj))

/-- One iteration `j` for right-hand side `k`: slip_back_sub.c lines 47-67. -/
def backStepT (U : Csc) (m k j : Int) (y : Arr Int) : W (Arr Int) := do
  let v ← W.lift (rd y (ix2 m j k))
  if v = 0 then pure y
  else do
    let p1 ← W.lift (rd U.p (j + 1))
    let d ← W.lift (rd U.x (p1 - 1))
    tick α -- mpz_divexact
    let w ← W.lift (divexact v d)
    let y ← W.lift (zset y (ix2 m j k) w)
    let p0 ← W.lift (rd U.p j)
    forRangeT β p0 (p1 - 1) y fun i y => backInnerT α U m k j y i

/-- `slip_back_sub`: slip_back_sub.c lines 24-71. -/
def slip_back_subT (U : Csc) (bx : Dense Int) : W (Dense Int) := do
  let y ← forRangeT β 0 bx.n bx.x fun k y =>
    forDownT β 0 U.n y fun j y => backStepT α β U bx.m k j y
  pure { bx with x := y }

/-- `slip_matrix_div`: slip_matrix_div.c lines 28-82. -/
def slip_matrix_divT (x : Dense Int) (scalar : Int) : W (Dense ℚ) := do
  let x2 := allocDense ℚ x.m x.n
  let y ← forRangeT β 0 (x.m * x.n) x2.x fun i y => do
    let v ← W.lift (rd x.x i)
    let y ← W.lift (zset y i (v : ℚ))
    let w ← W.lift (rd y i)
    tick α -- mpq_div
    let d ← W.lift (mpqDiv w (scalar : ℚ))
    W.lift (zset y i d)
  pure { x2 with x := y }

/-- `slip_permute_x`: slip_permute_x.c lines 22-72. -/
def slip_permute_xT (x2 : Dense ℚ) (q : Arr Int) : W (Dense ℚ) := do
  let m := x2.m
  let n := x2.n
  let x := allocDense ℚ m n
  let y ← forRangeT β 0 m x.x fun i y =>
    forRangeT β 0 n y fun j y => W.lift (do
      let p ← rd q i
      let v ← rd x2.x (ix2 m i j)
      zset y (ix2 m p j) v)
  pure { x with x := y }

/-- The product `b2 = A*x`: slip_check_solution.c lines 55-75. -/
def checkMulT (A : Csc) (x : Dense ℚ) (m n : Int) (b2 : Arr ℚ) : W (Arr ℚ) :=
  forRangeT β 0 n b2 fun j b2 =>
    forRangeT β 0 m b2 fun i b2 => do
      let p0 ← W.lift (rd A.p i)
      let p1 ← W.lift (rd A.p (i + 1))
      forRangeT β p0 p1 b2 fun p b2 => do
        let a ← W.lift (rd A.x p)
        let xv ← W.lift (rd x.x (ix2 x.m i j))
        tick α -- mpq_mul
        let r ← W.lift (rd A.i p)
        let w ← W.lift (rd b2 (ix2 m r j))
        tick α -- mpq_add
        W.lift (zset b2 (ix2 m r j) (w + (a : ℚ) * xv))

/-- The comparison `b == b2`: slip_check_solution.c lines 81-98. The C loops stop at the first difference; the
counter here runs on, so it is at least the number of iterations. -/
def checkCmpT (b : Dense Int) (b2 : Arr ℚ) : W Bool :=
  forRangeT β 0 b.n true fun j ok =>
    if !ok then pure false
    else forRangeT β 0 b.m true fun i ok =>
      W.lift (if !ok then pure false
      else do
        let v ← rd b.x (ix2 b.m i j)
        let w ← rd b2 (ix2 b.m i j)
        pure (decide ((v : ℚ) = w)))

/-- `slip_check_solution`: slip_check_solution.c lines 20-122. -/
def slip_check_solutionT (A : Csc) (x : Dense ℚ) (b : Dense Int) : W Unit := do
  let b2 := allocDense ℚ b.m b.n
  let y ← checkMulT α β A x b.m b.n b2.x
  let ok ← checkCmpT β b y
  W.lift (if ok then pure () else .error (.ret .incorrect))

/-- The final scaling: SLIP_LU_solve.c lines 151-166. -/
def scaleSolutionT (x : Dense ℚ) (sA sb : ℚ) : W (Dense ℚ) := do
  tick α -- mpq_div
  let scale ← W.lift (mpqDiv sA sb)
  if scale = 1 then pure x
  else do
    let y ← forRangeT β 0 (x.m * x.n) x.x fun i y => do
      let v ← W.lift (rd y i)
      tick α -- mpq_mul
      W.lift (zset y i (v * scale))
    pure { x with x := y }

/-- The body of `SLIP_LU_solve`: SLIP_LU_solve.c lines 93-175. -/
def luSolveT (A : Csc) (sA : ℚ) (b : Dense Int) (sb : ℚ) (F : Factors) (q : Arr Int)
    (check : Bool) : W (Dense ℚ) := do
  let n := F.L.n
  let b2 ← slip_permute_bT β b F.pinv
  let b2 ← slip_forward_subT α β F.L b2 F.rhos
  let det ← W.lift (rd F.rhos (n - 1))
  let b2 ← slip_matrix_mulT α β b2 det
  let b2 ← slip_back_subT α β F.U b2
  let det ← W.lift (rd F.rhos (n - 1))
  let x2 ← slip_matrix_divT α β b2 det
  let x ← slip_permute_xT β x2 q
  if check then slip_check_solutionT α β A x b else pure ()
  scaleSolutionT α β x sA sb

end Slip
