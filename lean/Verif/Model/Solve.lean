import Verif.Model.Factor

/-!
# Model of the solve phase

`slip_permute_b`, `slip_forward_sub`, `slip_matrix_mul`, `slip_back_sub`, `slip_matrix_div`,
`slip_permute_x`, `slip_check_solution` and the body of `SLIP_LU_solve`.
`mpq_t` is `ℚ` (GMP rationals are exact and canonical).
-/

namespace Slip

/-- The fields of a `SLIP_matrix` of kind DENSE used by the solve phase (m, n, nzmax, x):
/repo/SLIP_LU/Include/SLIP_LU.h `SLIP_matrix`. -/
structure Dense (α : Type) where
  m : Int
  n : Int
  nzmax : Int
  x : Arr α

/-- `SLIP_2D (A, i, j, type)` addresses `A->x.type [i + j * A->m]`: SLIP_LU.h lines 422-425. -/
def ix2 (m i j : Int) : Int := i + j * m

/-- `SLIP_matrix_allocate (&A, SLIP_DENSE, type, m, n, 0, false, true, option)`:
SLIP_matrix_allocate.c lines 77-81 and 143-182; every entry is initialised to zero. -/
def allocDense (α : Type) [Zero α] (m n : Int) : Dense α :=
  let nzmax := max (m * n) 1
  { m := m, n := n, nzmax := nzmax, x := List.replicate nzmax.toNat (some 0) }

/-- `mpq_div`: dividing by zero is undefined. -/
def mpqDiv (a b : ℚ) : C ℚ := if b = 0 then .error .ub else .ok (a / b)

/-- `slip_permute_b`, slip_permute_b.c lines 24-70 (after the checks): `b(pinv) = b2`. -/
def slip_permute_b (b2 : Dense Int) (pinv : Arr Int) : C (Dense Int) := do
  let m := b2.m
  let n := b2.n
  let b := allocDense Int m n
  let x ← forRange 0 m b.x fun i x =>
    forRange 0 n x fun j x => do
      let p ← rd pinv i
      let v ← rd b2.x (ix2 m i j)
      zset x (ix2 m p j) v
  pure { b with x := x }

/-- The update of `x(jnew,k)` by `L(jnew,i)` and `x(i,k)`, slip_forward_sub.c lines 114-165.
`ij` and `ii` are the indices of `x(jnew,k)` and `x(i,k)`. Returns `h` and `x`. -/
def fwdUpdate (rhos : Arr Int) (h x : Arr Int) (ij ii i lji : Int) : C (Arr Int × Arr Int) := do
  let xj ← rd x ij
  let x ← (if xj = 0 then do
      let xi ← rd x ii
      let x ← zset x ij (xj - lji * xi)
      if i > 0 then do
        let v ← rd x ij
        let ρ ← rd rhos (i - 1)
        let d ← divexact v ρ
        zset x ij d
      else pure x
    else do
      let hx ← rd h ij
      let x ← histUpdate rhos x ij hx i
      let v ← rd x ij
      let ρi ← rd rhos i
      let x ← zset x ij (v * ρi)
      let v ← rd x ij
      let xi ← rd x ii
      let x ← zset x ij (v - lji * xi)
      if i > 0 then do
        let v ← rd x ij
        let ρ ← rd rhos (i - 1)
        let d ← divexact v ρ
        zset x ij d
      else pure x)
  let h ← wr h ij i
  pure (h, x)

/-- One iteration `i` for right-hand side `k`, slip_forward_sub.c lines 77-168. -/
def fwdStep (L : Csc) (rhos : Arr Int) (m k i : Int) (h x : Arr Int) : C (Arr Int × Arr Int) := do
  let hx ← rd h (ix2 m i k)
  let xi ← rd x (ix2 m i k)
  if xi = 0 then pure (h, x)
  else do
    let x ← histUpdate rhos x (ix2 m i k) hx i
    let p0 ← rd L.p i
    let p1 ← rd L.p (i + 1)
    forRange p0 p1 (h, x) fun j (h, x) => do
      let jnew ← rd L.i j
      let lji ← rd L.x j
      if lji = 0 then pure (h, x)
      else if jnew > i then fwdUpdate rhos h x (ix2 m jnew k) (ix2 m i k) i lji
      else pure (h, x)

/-- `slip_forward_sub`, slip_forward_sub.c lines 27-181. -/
def slip_forward_sub (L : Csc) (x : Dense Int) (rhos : Arr Int) : C (Dense Int) := do
  let h := allocDense Int x.m x.n
  let h ← forRange 0 x.nzmax h.x fun i h => wr h i (-1)
  let (_, y) ← forRange 0 x.n (h, x.x) fun k (h, y) =>
    forRange 0 x.m (h, y) fun i (h, y) => fwdStep L rhos x.m k i h y
  pure { x with x := y }

/-- `slip_matrix_mul` on a dense matrix, slip_matrix_mul.c lines 18-48
(`nz = SLIP_matrix_nnz = m*n`). -/
def slip_matrix_mul (x : Dense Int) (scalar : Int) : C (Dense Int) := do
  let y ← forRange 0 (x.m * x.n) x.x fun i y => do
    let v ← rd y i
    zset y i (v * scalar)
  pure { x with x := y }

/-- The inner loop body of `slip_back_sub`, slip_back_sub.c lines 58-66. -/
def backInner (U : Csc) (m k j : Int) (y : Arr Int) (i : Int) : C (Arr Int) := do
  let u ← rd U.x i
  if u = 0 then pure y
  else do
    let row ← rd U.i i
    let w ← rd y (ix2 m row k)
    let bj ← rd y (ix2 m j k)
    zset y (ix2 m row k) (w - u * bj)

/-- One iteration `j` for right-hand side `k`, slip_back_sub.c lines 47-67. -/
def backStep (U : Csc) (m k j : Int) (y : Arr Int) : C (Arr Int) := do
  let v ← rd y (ix2 m j k)
  if v = 0 then pure y
  else do
    let p1 ← rd U.p (j + 1)
    let d ← rd U.x (p1 - 1)
    let w ← divexact v d
    let y ← zset y (ix2 m j k) w
    let p0 ← rd U.p j
    forRange p0 (p1 - 1) y fun i y => backInner U m k j y i

/-- `slip_back_sub`, slip_back_sub.c lines 24-71. -/
def slip_back_sub (U : Csc) (bx : Dense Int) : C (Dense Int) := do
  let y ← forRange 0 bx.n bx.x fun k y =>
    forDown 0 U.n y fun j y => backStep U bx.m k j y
  pure { bx with x := y }

/-- `slip_matrix_div`, slip_matrix_div.c lines 28-82. -/
def slip_matrix_div (x : Dense Int) (scalar : Int) : C (Dense ℚ) := do
  let x2 := allocDense ℚ x.m x.n
  let y ← forRange 0 (x.m * x.n) x2.x fun i y => do
    let v ← rd x.x i
    let y ← zset y i (v : ℚ)
    let w ← rd y i
    let d ← mpqDiv w (scalar : ℚ)
    zset y i d
  pure { x2 with x := y }

/-- `slip_permute_x`, slip_permute_x.c lines 22-72: `x(q) = x2`. -/
def slip_permute_x (x2 : Dense ℚ) (q : Arr Int) : C (Dense ℚ) := do
  let m := x2.m
  let n := x2.n
  let x := allocDense ℚ m n
  let y ← forRange 0 m x.x fun i y =>
    forRange 0 n y fun j y => do
      let p ← rd q i
      let v ← rd x2.x (ix2 m i j)
      zset y (ix2 m p j) v
  pure { x with x := y }

/-- The product `b2 = A*x`, slip_check_solution.c lines 55-75. -/
def checkMul (A : Csc) (x : Dense ℚ) (m n : Int) (b2 : Arr ℚ) : C (Arr ℚ) :=
  forRange 0 n b2 fun j b2 =>
    forRange 0 m b2 fun i b2 => do
      let p0 ← rd A.p i
      let p1 ← rd A.p (i + 1)
      forRange p0 p1 b2 fun p b2 => do
        let a ← rd A.x p
        let xv ← rd x.x (ix2 x.m i j)
        let r ← rd A.i p
        let w ← rd b2 (ix2 m r j)
        zset b2 (ix2 m r j) (w + (a : ℚ) * xv)

/-- The comparison `b == b2`, slip_check_solution.c lines 81-98; both loops stop at the first
difference (`j = b->n; break`). -/
def checkCmp (b : Dense Int) (b2 : Arr ℚ) : C Bool :=
  forRange 0 b.n true fun j ok =>
    if !ok then pure false
    else forRange 0 b.m true fun i ok =>
      if !ok then pure false
      else do
        let v ← rd b.x (ix2 b.m i j)
        let w ← rd b2 (ix2 b.m i j)
        pure (decide ((v : ℚ) = w))

/-- `slip_check_solution`, slip_check_solution.c lines 20-122 (printing omitted): returns OK or
fails with SLIP_INCORRECT. -/
def slip_check_solution (A : Csc) (x : Dense ℚ) (b : Dense Int) : C Unit := do
  let b2 := allocDense ℚ b.m b.n
  let y ← checkMul A x b.m b.n b2.x
  let ok ← checkCmp b y
  if ok then pure () else .error (.ret .incorrect)

/-- The final scaling, SLIP_LU_solve.c lines 151-166. -/
def scaleSolution (x : Dense ℚ) (sA sb : ℚ) : C (Dense ℚ) := do
  let scale ← mpqDiv sA sb
  if scale = 1 then pure x
  else do
    let y ← forRange 0 (x.m * x.n) x.x fun i y => do
      let v ← rd y i
      zset y i (v * scale)
    pure { x with x := y }

/-- The body of `SLIP_LU_solve` after the argument checks, SLIP_LU_solve.c lines 93-175.
`sA`, `sb` are `A->scale` and `b->scale`; `q = S->q`. -/
def luSolve (A : Csc) (sA : ℚ) (b : Dense Int) (sb : ℚ) (F : Factors) (q : Arr Int)
    (check : Bool) : C (Dense ℚ) := do
  let n := F.L.n
  let b2 ← slip_permute_b b F.pinv
  let b2 ← slip_forward_sub F.L b2 F.rhos
  let det ← rd F.rhos (n - 1)
  let b2 ← slip_matrix_mul b2 det
  let b2 ← slip_back_sub F.U b2
  let det ← rd F.rhos (n - 1)
  let x2 ← slip_matrix_div b2 det
  let x ← slip_permute_x x2 q
  if check then slip_check_solution A x b else pure ()
  scaleSolution x sA sb

end Slip
