import Verif.Model.Solve

/-!
# The factorization and the solve with integers of limited size

The functions of `Verif/Model/Factor.lean` and `Verif/Model/Solve.lean` that do arithmetic on `mpz_t`, with
a limit on the integers: `fits v` says that the memory of one `mpz_t` is enough for `v`.  Every result of a
multiplication, of a subtraction and of a division is tested, and also the product inside `mpz_submul`; a
value that does not fit ends the run with SLIP_OUT_OF_MEMORY, as the GMP wrappers do
(slip_gmp_allocate / slip_gmp_reallocate in slip_gmp.c).  A copy of an `mpz_t` (`mpz_set` into `L`, `U` and
`rhos`) is as long as its source and is not tested again.
-/

namespace Slip

variable (fits : Int → Bool)

/-- The absence of a limit. -/
def noLimit : Int → Bool := fun _ => true

/-- The assignment of a computed value to an `mpz_t`, which needs memory for it: slip_gmp.c
`slip_gmp_allocate`, `slip_gmp_reallocate` as called by the wrappers `SLIP_mpz_mul`, `SLIP_mpz_divexact`,
`SLIP_mpz_set`. -/
def zsetB (a : Arr Int) (i v : Int) : C (Arr Int) :=
  if fits v then zset a i v else .error (.ret .outOfMemory)

/-- `SLIP_mpz_submul (a[i], l, y)` where `a[i]` is `v`: the product and the difference need memory. -/
def zsubmulB (a : Arr Int) (i v l y : Int) : C (Arr Int) :=
  if fits (l * y) then zsetB fits a i (v - l * y) else .error (.ret .outOfMemory)

/-- `histUpdate` with the limit: slip_ref_triangular_solve.c lines 196-207, 280-291 and 312-322. -/
def histUpdateB (rhos : Arr Int) (x : Arr Int) (j hj s : Int) : C (Arr Int) :=
  if hj < s - 1 then do
    let xj ← rd x j
    let ρ ← rd rhos (s - 1)
    let x ← zsetB fits x j (xj * ρ)
    if hj > -1 then do
      let xj ← rd x j
      let ρh ← rd rhos hj
      let d ← divexact xj ρh
      zsetB fits x j d
    else pure x
  else pure x

/-- `ipgeUpdate` with the limit: slip_ref_triangular_solve.c lines 224-303. -/
def ipgeUpdateB (rhos : Arr Int) (h x : Arr Int) (i j jnew lij : Int) : C (Arr Int × Arr Int) := do
  let xi ← rd x i
  if xi = 0 then
    if jnew < 1 then do
      let xj ← rd x j
      let x ← zsubmulB fits x i xi lij xj
      let h ← wr h i jnew
      pure (h, x)
    else do
      let xj ← rd x j
      let x ← zsubmulB fits x i xi lij xj
      let v ← rd x i
      let ρ ← rd rhos (jnew - 1)
      let d ← divexact v ρ
      let x ← zsetB fits x i d
      let h ← wr h i jnew
      pure (h, x)
  else
    if jnew < 1 then do
      let ρ0 ← rd rhos 0
      let x ← zsetB fits x i (xi * ρ0)
      let v ← rd x i
      let xj ← rd x j
      let x ← zsubmulB fits x i v lij xj
      let h ← wr h i jnew
      pure (h, x)
    else do
      let hi ← rd h i
      let x ← histUpdateB fits rhos x i hi jnew
      let v ← rd x i
      let ρj ← rd rhos jnew
      let x ← zsetB fits x i (v * ρj)
      let v ← rd x i
      let xj ← rd x j
      let x ← zsubmulB fits x i v lij xj
      let v ← rd x i
      let ρ ← rd rhos (jnew - 1)
      let d ← divexact v ρ
      let x ← zsetB fits x i d
      let h ← wr h i jnew
      pure (h, x)

/-- `solveStep` with the limit: slip_ref_triangular_solve.c lines 183-323. -/
def solveStepB (Lp Li Lx pinv rhos xi : Arr Int) (k p : Int) (h x : Arr Int) :
    C (Arr Int × Arr Int) := do
  let j ← rd xi p
  let jnew ← rd pinv j
  let xj ← rd x j
  if xj = 0 then pure (h, x)
  else if jnew < k then do
    let hj ← rd h j
    let x ← histUpdateB fits rhos x j hj jnew
    let m0 ← rd Lp jnew
    let m1 ← rd Lp (jnew + 1)
    forRange m0 m1 (h, x) fun m (h, x) => do
      let i ← rd Li m
      let inew ← rd pinv i
      if inew > jnew then do
        let lij ← rd Lx m
        if lij = 0 then pure (h, x)
        else ipgeUpdateB fits rhos h x i j jnew lij
      else pure (h, x)
  else do
    let hj ← rd h j
    let x ← histUpdateB fits rhos x j hj k
    pure (h, x)

/-- `slip_ref_triangular_solve` with the limit: slip_ref_triangular_solve.c lines 87-328. -/
def slip_ref_triangular_solveB (L A : Csc) (k : Int) (xi q rhos pinv row_perm h x : Arr Int) :
    C TriOut := do
  let n := A.n
  let col ← rd q k
  let (top, Lp, xi) ← slip_reach L.n A.p A.i L.i pinv col L.p xi
  -- lines 137-140
  let xi ← forRange top n xi fun j xi => do
    let v ← rd xi j
    let w ← rd pinv v
    wr xi j w
  -- line 143
  let xi ← qsortSeg xi top n
  -- lines 146-149
  let xi ← forRange top n xi fun j xi => do
    let v ← rd xi j
    let w ← rd row_perm v
    wr xi j w
  -- lines 152-155
  let x ← forRange top n x fun i x => do
    let v ← rd xi i
    zset x v 0
  -- line 162
  let x ← zset x col 0
  -- lines 165-168
  let h ← forRange top n h fun i h => do
    let v ← rd xi i
    wr h v (-1)
  -- lines 171-175
  let a0 ← rd A.p col
  let a1 ← rd A.p (col + 1)
  let x ← forRange a0 a1 x fun p x => do
    let i ← rd A.i p
    let v ← rd A.x p
    zsetB fits x i v
  -- lines 181-324
  let (h, x) ← forRange top n (h, x) fun p (h, x) =>
    solveStepB fits Lp L.i L.x pinv rhos xi k p h x
  pure { top := top, Lp := Lp, xi := xi, h := h, x := x }

/-- `factStep` with the limit: SLIP_LU_factorize.c lines 191-270. -/
def factStepB (nc : Int → Int → ℚ → Bool) (order : Pivot) (tol : Dbl) (A : Csc) (q : Arr Int)
    (k : Int) (s : FactSt) : C FactSt := do
  let n := A.n
  let Lp ← wr s.L.p k s.lnz
  let Up ← wr s.U.p k s.unz
  let L := { s.L with p := Lp }
  let U := { s.U with p := Up }
  let col ← rd q k
  let L := if s.lnz + n > L.nzmax then slip_sparse_realloc L else L
  let U := if s.unz + n > U.nzmax then slip_sparse_realloc U else U
  let t ← slip_ref_triangular_solveB fits L A k s.xi q s.rhos s.pinv s.row_perm s.h s.x
  let L := { L with p := t.Lp }
  let g ← slip_get_pivot nc order tol t.x s.pivs n t.top t.xi col k s.rhos s.pinv s.row_perm
  let (lnz, unz, L, U) ← forRange t.top n (s.lnz, s.unz, L, U) fun j st =>
    popStep t.xi g.pinv t.x k j st
  pure { lnz := lnz, unz := unz, L := L, U := U, rhos := g.rhos, pinv := g.pinv,
         row_perm := g.row_perm, pivs := g.pivs, h := t.h, xi := t.xi, x := t.x }

/-- `factorize` with the limit: SLIP_LU_factorize.c lines 76-322. -/
def factorizeB (nc : Int → Int → ℚ → Bool) (order : Pivot) (tol : Dbl) (A : Csc) (q : Arr Int)
    (lnz unz : Int) : C Factors := do
  let n := A.n
  let s ← factInit n lnz unz
  let s ← forRange 0 n s fun k s => factStepB fits nc order tol A q k s
  let Lp ← wr s.L.p n s.lnz
  let Up ← wr s.U.p n s.unz
  let L ← slip_sparse_collapse { s.L with p := Lp }
  let U ← slip_sparse_collapse { s.U with p := Up }
  let L ← permuteRows L s.pinv s.lnz
  let U ← permuteRows U s.pinv s.unz
  pure { L := L, U := U, rhos := s.rhos, pinv := s.pinv }

/-- `fwdUpdate` with the limit: slip_forward_sub.c lines 114-165. -/
def fwdUpdateB (rhos : Arr Int) (h x : Arr Int) (ij ii i lji : Int) : C (Arr Int × Arr Int) := do
  let xj ← rd x ij
  let x ← (if xj = 0 then do
      let xi ← rd x ii
      let x ← zsubmulB fits x ij xj lji xi
      if i > 0 then do
        let v ← rd x ij
        let ρ ← rd rhos (i - 1)
        let d ← divexact v ρ
        zsetB fits x ij d
      else pure x
    else do
      let hx ← rd h ij
      let x ← histUpdateB fits rhos x ij hx i
      let v ← rd x ij
      let ρi ← rd rhos i
      let x ← zsetB fits x ij (v * ρi)
      let v ← rd x ij
      let xi ← rd x ii
      let x ← zsubmulB fits x ij v lji xi
      if i > 0 then do
        let v ← rd x ij
        let ρ ← rd rhos (i - 1)
        let d ← divexact v ρ
        zsetB fits x ij d
      else pure x)
  let h ← wr h ij i
  pure (h, x)

/-- `fwdStep` with the limit: slip_forward_sub.c lines 77-168. -/
def fwdStepB (L : Csc) (rhos : Arr Int) (m k i : Int) (h x : Arr Int) : C (Arr Int × Arr Int) := do
  let hx ← rd h (ix2 m i k)
  let xi ← rd x (ix2 m i k)
  if xi = 0 then pure (h, x)
  else do
    let x ← histUpdateB fits rhos x (ix2 m i k) hx i
    let p0 ← rd L.p i
    let p1 ← rd L.p (i + 1)
    forRange p0 p1 (h, x) fun j (h, x) => do
      let jnew ← rd L.i j
      let lji ← rd L.x j
      if lji = 0 then pure (h, x)
      else if jnew > i then fwdUpdateB fits rhos h x (ix2 m jnew k) (ix2 m i k) i lji
      else pure (h, x)

/-- `slip_forward_sub` with the limit: slip_forward_sub.c lines 27-181. -/
def slip_forward_subB (L : Csc) (x : Dense Int) (rhos : Arr Int) : C (Dense Int) := do
  let h := allocDense Int x.m x.n
  let h ← forRange 0 x.nzmax h.x fun i h => wr h i (-1)
  let (_, y) ← forRange 0 x.n (h, x.x) fun k (h, y) =>
    forRange 0 x.m (h, y) fun i (h, y) => fwdStepB fits L rhos x.m k i h y
  pure { x with x := y }

/-- `slip_matrix_mul` with the limit: slip_matrix_mul.c lines 18-48. -/
def slip_matrix_mulB (x : Dense Int) (scalar : Int) : C (Dense Int) := do
  let y ← forRange 0 (x.m * x.n) x.x fun i y => do
    let v ← rd y i
    zsetB fits y i (v * scalar)
  pure { x with x := y }

/-- `backInner` with the limit: slip_back_sub.c lines 58-66. -/
def backInnerB (U : Csc) (m k j : Int) (y : Arr Int) (i : Int) : C (Arr Int) := do
  let u ← rd U.x i
  if u = 0 then pure y
  else do
    let row ← rd U.i i
    let w ← rd y (ix2 m row k)
    let bj ← rd y (ix2 m j k)
    zsubmulB fits y (ix2 m row k) w u bj

/-- `backStep` with the limit: slip_back_sub.c lines 47-67. -/
def backStepB (U : Csc) (m k j : Int) (y : Arr Int) : C (Arr Int) := do
  let v ← rd y (ix2 m j k)
  if v = 0 then pure y
  else do
    let p1 ← rd U.p (j + 1)
    let d ← rd U.x (p1 - 1)
    let w ← divexact v d
    let y ← zsetB fits y (ix2 m j k) w
    let p0 ← rd U.p j
    forRange p0 (p1 - 1) y fun i y => backInnerB fits U m k j y i

/-- `slip_back_sub` with the limit: slip_back_sub.c lines 24-71. -/
def slip_back_subB (U : Csc) (bx : Dense Int) : C (Dense Int) := do
  let y ← forRange 0 bx.n bx.x fun k y =>
    forDown 0 U.n y fun j y => backStepB fits U bx.m k j y
  pure { bx with x := y }

/-- `luSolve` with the limit on the integers: SLIP_LU_solve.c lines 93-175.  The rationals of
`slip_matrix_div` (an integer of the solve over the determinant), of the optional check and of the final
scaling are not limited here. -/
def luSolveB (A : Csc) (sA : ℚ) (b : Dense Int) (sb : ℚ) (F : Factors) (q : Arr Int)
    (check : Bool) : C (Dense ℚ) := do
  let n := F.L.n
  let b2 ← slip_permute_b b F.pinv
  let b2 ← slip_forward_subB fits F.L b2 F.rhos
  let det ← rd F.rhos (n - 1)
  let b2 ← slip_matrix_mulB fits b2 det
  let b2 ← slip_back_subB fits F.U b2
  let det ← rd F.rhos (n - 1)
  let x2 ← slip_matrix_div b2 det
  let x ← slip_permute_x x2 q
  if check then slip_check_solution A x b else pure ()
  scaleSolution x sA sb

end Slip
