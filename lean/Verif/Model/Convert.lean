import Verif.Model.Api
import Mathlib.Data.Int.Log
import Mathlib.Algebra.Order.Round
import Mathlib.Data.Rat.Floor
import Mathlib.Algebra.Order.Archimedean.Basic

/-!
# Type conversion and copying of matrices

`SLIP_matrix_allocate`, `slip_cumsum`, the `slip_expand_*` functions, `slip_cast_array`,
`slip_cast_matrix`, `SLIP_matrix_copy` and `SLIP_backslash`.

MPFR numbers are rounded to a given number of bits exactly as MPFR specifies, with an unbounded
exponent range. Rounding a rational or an integer to a `double` is done by GMP / MPFR / the
compiler and is a parameter (`Fp`).
-/

namespace Slip

/-! ## Rounding -/

/-- Round to an integer in an MPFR rounding mode: 0 nearest, ties to even; 1 towards zero; 2 up;
3 down; 4 away from zero. (MPFR_RNDF, 5, is "faithful", i.e. unspecified; the model rounds to
nearest.) -/
def roundInt (mode : Int) (q : ℚ) : ℤ :=
  if mode = 1 then (if 0 ≤ q then ⌊q⌋ else ⌈q⌉)
  else if mode = 2 then ⌈q⌉
  else if mode = 3 then ⌊q⌋
  else if mode = 4 then (if 0 ≤ q then ⌈q⌉ else ⌊q⌋)
  else if q - ⌊q⌋ < 1 / 2 then ⌊q⌋
  else if 1 / 2 < q - ⌊q⌋ then ⌊q⌋ + 1
  else if 2 ∣ ⌊q⌋ then ⌊q⌋ else ⌊q⌋ + 1

/-- Round to `prec` significant bits. -/
def roundPrec (prec mode : Int) (q : ℚ) : ℚ :=
  if q = 0 then 0
  else
    let u : ℚ := (2 : ℚ) ^ (Int.log 2 |q| + 1 - prec)
    (roundInt mode (q / u) : ℚ) * u

/-- Storing a value in an `mpfr_t` of `prec` bits. -/
def mpfrRnd (prec mode : Int) : Dbl → Dbl
  | .fin v => .fin (roundPrec prec mode v)
  | d => d

/-- `mpfr_get_z`: NaN and infinities give 0. -/
def mpfrGetZ (mode : Int) : Dbl → ℤ
  | .fin v => roundInt mode v
  | _ => 0

/-- `mpfr_get_q`: exact; NaN and infinities give 0. -/
def mpfrGetQ : Dbl → ℚ
  | .fin v => v
  | _ => 0

/-- `INT64_MAX`. -/
def int64Max : Int := 2 ^ 63 - 1
/-- `INT64_MIN`. -/
def int64Min : Int := -2 ^ 63

/-- `mpfr_get_si`: rounds, saturates; NaN gives 0. -/
def mpfrGetSi (mode : Int) : Dbl → ℤ
  | .fin v => max int64Min (min int64Max (roundInt mode v))
  | .posInf => int64Max
  | .negInf => int64Min
  | .nan => 0

/-- `mpz_get_si`: the low 63 bits with the sign, for values that do not fit. -/
def mpzGetSi (z : ℤ) : ℤ :=
  if 0 ≤ z then z % 2 ^ 63 else -1 - (-z - 1) % 2 ^ 63

/-- Multiplication of an `mpfr_t` by a nonzero finite number, before rounding. -/
def Dbl.mulPos (d : Dbl) (c : ℚ) : Dbl :=
  match d with
  | .fin v => .fin (v * c)
  | d => d

/-- Conversions done by GMP, MPFR or the compiler, and the addresses of the elements of an array
(see `slip_cast_array`, INT64 to MPQ). -/
structure Fp where
  /-- `mpq_get_d` -/
  mpqGetD : ℚ → Dbl
  /-- `mpz_get_d` -/
  mpzGetD : ℤ → Dbl
  /-- `mpfr_get_d` -/
  mpfrGetD : Int → Dbl → Dbl
  /-- `(double) x` for an `int64_t` -/
  int64ToD : ℤ → Dbl
  /-- the address of element `k` of the output array -/
  addr : Int → ℤ

/-- `slip_cast_double_to_int64`, slip_internal.h lines 657-675. `INT64_MAX` is converted to
`double`, i.e. to 2^63, in the comparison. The final cast is undefined if the truncated value does
not fit. -/
def slip_cast_double_to_int64 (x : Dbl) : C Int :=
  match x with
  | .nan => pure 0
  | .posInf => pure int64Max
  | .negInf => pure int64Min
  | .fin v =>
    if v > 2 ^ 63 then pure int64Max
    else if v < -2 ^ 63 then pure int64Min
    else
      let t := roundInt 1 v
      if int64Min ≤ t ∧ t ≤ int64Max then pure t else .error .ub

/-! ## SLIP_matrix_allocate -/

/-- The values array of a new matrix, SLIP_matrix_allocate.c lines 144-188: with `init`, GMP
numbers are 0 and MPFR numbers are NaN; without, they are not initialised. -/
def newVals (type : Ty) (nzmax : Int) (init : Bool) : Option Vals :=
  let N := nzmax.toNat
  match type with
  | .mpz => some (.mpz (List.replicate N (if init then some 0 else none)))
  | .mpq => some (.mpq (List.replicate N (if init then some 0 else none)))
  | .mpfr => some (.mpfr (List.replicate N (if init then some .nan else none)))
  | .int64 => some (.int64 (List.replicate N (some 0)))
  | .fp64 => some (.fp64 (List.replicate N (some (.fin 0))))
  | .bad _ => none

/-- `kind < SLIP_CSC || kind > SLIP_DENSE` is false. -/
def Kind.ok : Kind → Bool
  | .bad _ => false
  | _ => true
/-- `type < SLIP_MPZ || type > SLIP_FP64` is false. -/
def Ty.ok : Ty → Bool
  | .bad _ => false
  | _ => true

/-- `SLIP_matrix_allocate`, SLIP_matrix_allocate.c lines 24-198, for a non-NULL handle in an
initialised library and a successful allocator (failures: `Verif/Model/Memory.lean`). -/
def allocate (kind : Kind) (type : Ty) (m n nzmax : Int) (shallow init : Bool) : C Mat :=
  if m < 0 ∨ n < 0 ∨ kind.ok = false ∨ type.ok = false then .error (.ret .incorrectInput)
  else
    let nzmax := if kind = .dense then m * n else nzmax
    let nzmax := max nzmax 1
    let A : Mat :=
      { m := m, n := n, nzmax := nzmax, nz := 0, kind := kind, type := type,
        p := none, pShallow := shallow, i := none, iShallow := shallow,
        j := none, jShallow := shallow, x := none, xShallow := shallow, scale := 1 }
    if shallow then pure A
    else
      pure { A with
        p := if kind = .csc then some (calloc (n + 1)) else none
        i := if kind = .dense then none else some (calloc nzmax)
        j := if kind = .triplet then some (calloc nzmax) else none
        x := newVals type nzmax init }

/-! ## slip_cumsum -/

/-- `slip_cumsum`, slip_cumsum.c lines 17-38. Returns `p` and `c`. -/
def slip_cumsum (p c : Arr Int) (n : Int) : C (Arr Int × Arr Int) := do
  let (p, c, nz) ← forRange 0 n (p, c, (0 : Int)) fun i (p, c, nz) => do
    let p ← wr p i nz
    let ci ← rd c i
    let pi ← rd p i
    let c ← wr c i pi
    pure (p, c, nz + ci)
  let p ← wr p n nz
  pure (p, c)

/-! ## Expanding rational and floating-point arrays to integers -/

/-- `slip_expand_mpq_array`, slip_expand_mpq_array.c lines 23-76. Returns `x_out` and `scale`. -/
def slip_expand_mpq_array (x_out : Arr Int) (x : Arr ℚ) (n : Int) : C (Arr Int × ℚ) := do
  let x3 : Arr Int := List.replicate (max n 1).toNat (some 0)
  let x4 : Arr ℚ := List.replicate (max n 1).toNat (some 0)
  let x3 ← forRange 0 n x3 fun i x3 => do
    let v ← rd x i
    zset x3 i v.den
  let t ← rd x3 0
  let temp ← forRange 1 n t fun i temp => do
    let d ← rd x3 i
    pure (Int.lcm d temp : Int)
  let scale : ℚ := temp
  let (_, x_out) ← forRange 0 n (x4, x_out) fun i (x4, x_out) => do
    let v ← rd x i
    let x4 ← zset x4 i (v * scale)
    let w ← rd x4 i
    let x_out ← zset x_out i (roundInt 1 w)
    pure (x4, x_out)
  pure (x_out, scale)

/-- The loop that finds the first nonzero and the gcd, slip_expand_double_array.c lines 79-104 and
slip_expand_mpfr_array.c lines 88-113. The state is `none` while no nonzero was found, then
`(k, gcd)`. Returns also whether the loop ended with `r2 == 0` (`gcd == 1`). -/
def gcdLoop (x : Arr Int) : Nat → Int → Option (Int × Int) → C (Option (Int × Int × Bool))
  | 0, _, s => pure (s.map fun (k, g) => (k, g, false))
  | c + 1, i, none => do
    let v ← rd x i
    if v ≠ 0 then gcdLoop x c (i + 1) (some (i, v)) else gcdLoop x c (i + 1) none
  | c + 1, i, some (k, g) => do
    let v ← rd x i
    let g : Int := Int.gcd g v
    if g = 1 then pure (some (k, g, true)) else gcdLoop x c (i + 1) (some (k, g))

/-- The reduction by the gcd, slip_expand_double_array.c lines 78-131 and
slip_expand_mpfr_array.c lines 86-140. If all entries are zero, `one` is cleared before it is copied
into `scale` (lines 108-110), and a cleared `mpz_t` has size 0, so `scale` becomes 0. -/
def reduceGcd (x_out : Arr Int) (scale : ℚ) (n : Int) : C (Arr Int × ℚ) := do
  let r ← gcdLoop x_out n.toNat 0 none
  match r with
  | none => pure (x_out, 0)
  | some (_, _, true) => pure (x_out, scale)
  | some (k, g, false) => do
    let x_out ← forRange k n x_out fun i x_out => do
      let v ← rd x_out i
      let d ← divexact v g
      zset x_out i d
    pure (x_out, scale / g)

/-- `slip_expand_double_array`, slip_expand_double_array.c lines 26-133 (`pow (10, 17)` is exactly
10^17). Returns `x_out` and `scale`. -/
def slip_expand_double_array (opt : Option Options) (x_out : Arr Int) (x : Arr Dbl) (n : Int) :
    C (Arr Int × ℚ) := do
  let x3 : Arr Dbl := List.replicate (max n 1).toNat (some .nan)
  let rnd := mpfrRnd (optPrec opt) (optRound opt)
  let (_, x_out) ← forRange 0 n (x3, x_out) fun i (x3, x_out) => do
    let v ← rd x i
    let x3 ← zset x3 i (rnd v)
    let v ← rd x3 i
    let x3 ← zset x3 i (rnd (v.mulPos (10 ^ 17)))
    let v ← rd x3 i
    let x_out ← zset x_out i (mpfrGetZ (optRound opt) v)
    pure (x3, x_out)
  reduceGcd x_out (10 ^ 17) n

/-- `slip_expand_mpfr_array`, slip_expand_mpfr_array.c lines 27-142 (`2^prec` is exact at every
precision). Returns `x_out` and `scale`. -/
def slip_expand_mpfr_array (opt : Option Options) (x_out : Arr Int) (x : Arr Dbl) (n : Int) :
    C (Arr Int × ℚ) := do
  let x3 : Arr Dbl := List.replicate (max n 1).toNat (some .nan)
  let expon : ℚ := 2 ^ (optPrec opt).toNat
  let (_, x_out) ← forRange 0 n (x3, x_out) fun i (x3, x_out) => do
    let v ← rd x i
    let x3 ← zset x3 i (mpfrRnd (optPrec opt) (optRound opt) (v.mulPos expon))
    let v ← rd x3 i
    let x_out ← zset x_out i (mpfrGetZ (optRound opt) v)
    pure (x3, x_out)
  reduceGcd x_out expon n

/-! ## slip_cast_array -/

/-- `for (k = 0 ; k < n ; k++) y [k] = f (x [k])`. -/
def castLoop {α β : Type} (f : Int → α → C β) (y : Arr β) (x : Arr α) (n : Int) : C (Arr β) :=
  forRange 0 n y fun k y => do
    let v ← rd x k
    let w ← f k v
    zset y k w

/-- `mpq_set_z` followed, unless the scale is 1, by `mpq_div` by the scale:
slip_cast_array.c lines 147-177, 239-268, 323-353, 405-434. Division by zero aborts. -/
def unscaleZ (xs : ℚ) (v : ℤ) : C ℚ :=
  if xs = 1 then pure v else if xs = 0 then .error .ub else pure ((v : ℚ) / xs)

/-- `slip_cast_array`, slip_cast_array.c lines 43-478. `Y`, `X` carry their types; `ys`, `xs` are
the scale factors. Returns `Y` and `y_scale`. INT64 to MPQ (lines 198-206): `SLIP_mpq_set_si`
(SLIP_gmp.c line 1143) passes the address of the destination as the denominator. -/
def slip_cast_array (fp : Fp) (opt : Option Options) (Y X : Option Vals) (n : Int) (ys xs : ℚ) :
    C (Vals × ℚ) :=
  let prec := optPrec opt
  let rnd := optRound opt
  match Y, X with
  | some (.mpz y), some (.mpz x) => do
    let y ← castLoop (fun _ v => pure v) y x n
    pure (.mpz y, xs)
  | some (.mpz y), some (.mpq x) => do
    let (y, s) ← slip_expand_mpq_array y x n
    pure (.mpz y, s)
  | some (.mpz y), some (.mpfr x) => do
    let (y, s) ← slip_expand_mpfr_array opt y x n
    pure (.mpz y, s)
  | some (.mpz y), some (.int64 x) => do
    let y ← castLoop (fun _ v => pure v) y x n
    pure (.mpz y, 1)
  | some (.mpz y), some (.fp64 x) => do
    let (y, s) ← slip_expand_double_array opt y x n
    pure (.mpz y, s)
  | some (.mpq y), some (.mpz x) => do
    let y ← castLoop (fun _ v => unscaleZ xs v) y x n
    pure (.mpq y, ys)
  | some (.mpq y), some (.mpq x) => do
    let y ← castLoop (fun _ v => pure v) y x n
    pure (.mpq y, ys)
  | some (.mpq y), some (.mpfr x) => do
    let y ← castLoop (fun _ v => pure (mpfrGetQ v)) y x n
    pure (.mpq y, ys)
  | some (.mpq y), some (.int64 x) => do
    let y ← castLoop (fun k (v : Int) => pure ((v : ℚ) / fp.addr k)) y x n
    pure (.mpq y, ys)
  | some (.mpq y), some (.fp64 x) => do
    let y ← castLoop (fun _ v => mpqSetD v) y x n
    pure (.mpq y, ys)
  | some (.mpfr y), some (.mpz x) => do
    let y ← castLoop (fun _ v => do let q ← unscaleZ xs v; pure (mpfrRnd prec rnd (.fin q))) y x n
    pure (.mpfr y, ys)
  | some (.mpfr y), some (.mpq x) => do
    let y ← castLoop (fun _ v => pure (mpfrRnd prec rnd (.fin v))) y x n
    pure (.mpfr y, ys)
  | some (.mpfr y), some (.mpfr x) => do
    let y ← castLoop (fun _ v => pure (mpfrRnd prec rnd v)) y x n
    pure (.mpfr y, ys)
  | some (.mpfr y), some (.int64 x) => do
    let y ← castLoop (fun _ (v : Int) => pure (mpfrRnd prec rnd (.fin v))) y x n
    pure (.mpfr y, ys)
  | some (.mpfr y), some (.fp64 x) => do
    let y ← castLoop (fun _ v => pure (mpfrRnd prec rnd v)) y x n
    pure (.mpfr y, ys)
  | some (.int64 y), some (.mpz x) => do
    let y ← castLoop (fun _ v => if xs = 1 then pure (mpzGetSi v)
      else do let q ← unscaleZ xs v; slip_cast_double_to_int64 (fp.mpqGetD q)) y x n
    pure (.int64 y, ys)
  | some (.int64 y), some (.mpq x) => do
    let y ← castLoop (fun _ v => slip_cast_double_to_int64 (fp.mpqGetD v)) y x n
    pure (.int64 y, ys)
  | some (.int64 y), some (.mpfr x) => do
    let y ← castLoop (fun _ v => pure (mpfrGetSi rnd v)) y x n
    pure (.int64 y, ys)
  | some (.int64 y), some (.int64 x) => do
    let y ← castLoop (fun _ v => pure v) y x n
    pure (.int64 y, ys)
  | some (.int64 y), some (.fp64 x) => do
    let y ← castLoop (fun _ v => slip_cast_double_to_int64 v) y x n
    pure (.int64 y, ys)
  | some (.fp64 y), some (.mpz x) => do
    let y ← castLoop (fun _ v => if xs = 1 then pure (fp.mpzGetD v)
      else do let q ← unscaleZ xs v; pure (fp.mpqGetD q)) y x n
    pure (.fp64 y, ys)
  | some (.fp64 y), some (.mpq x) => do
    let y ← castLoop (fun _ v => pure (fp.mpqGetD v)) y x n
    pure (.fp64 y, ys)
  | some (.fp64 y), some (.mpfr x) => do
    let y ← castLoop (fun _ v => pure (fp.mpfrGetD rnd v)) y x n
    pure (.fp64 y, ys)
  | some (.fp64 y), some (.int64 x) => do
    let y ← castLoop (fun _ v => pure (fp.int64ToD v)) y x n
    pure (.fp64 y, ys)
  | some (.fp64 y), some (.fp64 x) => do
    let y ← castLoop (fun _ v => pure v) y x n
    pure (.fp64 y, ys)
  | _, _ => .error (.ret .incorrectInput)

/-! ## slip_cast_matrix -/

/-- `slip_cast_matrix`, slip_cast_matrix.c lines 20-102. Returns the values of `Y` and `Y->scale`
(its other fields are not used by the caller). If the types agree, `Y` is a shallow copy, with scale
1 (lines 57-58 and 68-85). -/
def slip_cast_matrix (fp : Fp) (opt : Option Options) (type : Ty) (A : Mat) : C (Option Vals × ℚ) := do
  let nz ← SLIP_matrix_nnz true (some A)
  let Y ← allocate .dense type nz 1 nz (decide (type = A.type)) true
  if type = A.type then pure (A.x, Y.scale)
  else do
    let (v, s) ← slip_cast_array fp opt Y.x A.x nz Y.scale A.scale
    pure (some v, s)

/-! ## SLIP_matrix_copy -/

/-- How `SLIP_matrix_copy` stores an element (`mpz_set`, `mpq_set`, `mpfr_set`, `=`) and tests it
for zero (`mpz_sgn`, `mpq_sgn`, `mpfr_sgn`, `!=`). -/
structure Elt (α : Type) where
  set : α → α
  isZero : α → Bool

/-- `mpz_t`, `int64_t`. -/
def eltZ : Elt Int := ⟨id, fun v => decide (v = 0)⟩
/-- `mpq_t`. -/
def eltQ : Elt ℚ := ⟨id, fun v => decide (v = 0)⟩
/-- `mpfr_t`: `mpfr_set` rounds to the precision of the destination; `mpfr_sgn (NaN)` is 0. -/
def eltR (opt : Option Options) : Elt Dbl :=
  ⟨mpfrRnd (optPrec opt) (optRound opt), fun v => decide (v = .fin 0 ∨ v = .nan)⟩
/-- `double`: a NaN is not equal to 0. -/
def eltD : Elt Dbl := ⟨id, fun v => decide (v = .fin 0)⟩

/-- The five `case`s of a `switch (C->type)` whose bodies differ only in the element type: run `f`
on the values `c` of C and `y` of Y. -/
def withVals {β : Type} (opt : Option Options) (c y : Option Vals)
    (f : {α : Type} → Elt α → Arr α → Arr α → C (Arr α × β)) : C (Vals × β) :=
  match c, y with
  | some (.mpz c), some (.mpz y) => do let (c, b) ← f eltZ c y; pure (.mpz c, b)
  | some (.mpq c), some (.mpq y) => do let (c, b) ← f eltQ c y; pure (.mpq c, b)
  | some (.mpfr c), some (.mpfr y) => do let (c, b) ← f (eltR opt) c y; pure (.mpfr c, b)
  | some (.int64 c), some (.int64 y) => do let (c, b) ← f eltZ c y; pure (.int64 c, b)
  | some (.fp64 c), some (.fp64 y) => do let (c, b) ← f eltD c y; pure (.fp64 c, b)
  | _, _ => .error .ub

/-- `memcpy (dst, src, n * sizeof (int64_t))`. -/
def copyInts (dst src : Arr Int) (n : Int) : C (Arr Int) :=
  forRange 0 n dst fun k dst => do
    let v ← rd src k
    wr dst k v

/-- A is CSC, C is CSC: SLIP_matrix_copy.c lines 86-97. -/
def copyCscCsc (fp : Fp) (opt : Option Options) (type : Ty) (A : Mat) (nz : Int) : C Mat := do
  let c ← allocate .csc type A.m A.n nz false true
  let p ← copyInts (deref c.p) (deref A.p) (A.n + 1)
  let i ← copyInts (deref c.i) (deref A.i) nz
  let (x, s) ← slip_cast_array fp opt c.x A.x nz c.scale A.scale
  pure { c with p := some p, i := some i, x := some x, scale := s }

/-- The building loop, SLIP_matrix_copy.c lines 141-197: entry `k` goes to position `W [A->j [k]]++`.
Returns the values and (`W`, `C->i`). -/
def buildCsc {α : Type} (e : Elt α) (Ai Aj : Arr Int) (nz : Int) (W Ci : Arr Int)
    (Cx Yx : Arr α) : C (Arr α × Arr Int) := do
  let (_, Ci, Cx) ← forRange 0 nz (W, Ci, Cx) fun k (W, Ci, Cx) => do
    let j ← rd Aj k
    let p ← rd W j
    let W ← wr W j (p + 1)
    let i ← rd Ai k
    let Ci ← wr Ci p i
    let v ← rd Yx k
    let Cx ← zset Cx p (e.set v)
    pure (W, Ci, Cx)
  pure (Cx, Ci)

/-- A is triplet, C is CSC: SLIP_matrix_copy.c lines 104-202. -/
def copyTripletCsc (fp : Fp) (opt : Option Options) (type : Ty) (A : Mat) (nz : Int) : C Mat := do
  let (y, s) ← slip_cast_matrix fp opt type A
  let W := calloc A.n
  let c ← allocate .csc type A.m A.n nz false true
  let W ← forRange 0 nz W fun k W => do
    let j ← rd (deref A.j) k
    let w ← rd W j
    wr W j (w + 1)
  let (p, W) ← slip_cumsum (deref c.p) W A.n
  let (x, i) ← withVals opt c.x y fun e Cx Yx =>
    buildCsc e (deref A.i) (deref A.j) nz W (deref c.i) Cx Yx
  pure { c with p := some p, i := some i, x := some x, scale := s }

/-- Count the nonzeros, SLIP_matrix_copy.c lines 216-258. -/
def countNz {α : Type} (e : Elt α) (nz : Int) (Yx : Arr α) : C Int :=
  forRange 0 nz 0 fun k actual => do
    let v ← rd Yx k
    if e.isZero v then pure actual else pure (actual + 1)

/-- Construct C from a dense Y, SLIP_matrix_copy.c lines 266-363. Returns the values and
(`C->p`, `C->i`). -/
def buildFromDense {α : Type} (e : Elt α) (m n : Int) (Cp Ci : Arr Int) (Cx Yx : Arr α) :
    C (Arr α × Arr Int × Arr Int) := do
  let (nz, Cp, Ci, Cx) ← forRange 0 n ((0 : Int), Cp, Ci, Cx) fun j (nz, Cp, Ci, Cx) => do
    let Cp ← wr Cp j nz
    let (nz, Ci, Cx) ← forRange 0 m (nz, Ci, Cx) fun i (nz, Ci, Cx) => do
      let v ← rd Yx (i + j * m)
      if e.isZero v then pure (nz, Ci, Cx)
      else do
        let Ci ← wr Ci nz i
        let Cx ← zset Cx nz (e.set v)
        pure (nz + 1, Ci, Cx)
    pure (nz, Cp, Ci, Cx)
  let Cp ← wr Cp n nz
  pure (Cx, Cp, Ci)

/-- A is dense, C is CSC: SLIP_matrix_copy.c lines 209-365. -/
def copyDenseCsc (fp : Fp) (opt : Option Options) (type : Ty) (A : Mat) (nz : Int) : C Mat := do
  let (y, s) ← slip_cast_matrix fp opt type A
  let (_, actual) ← withVals opt y y fun e Y Yx => do
    let a ← countNz e nz Yx
    pure (Y, a)
  let c ← allocate .csc type A.m A.n actual false true
  let (x, p, i) ← withVals opt c.x y fun e Cx Yx =>
    buildFromDense e A.m A.n (deref c.p) (deref c.i) Cx Yx
  pure { c with p := some p, i := some i, x := some x, scale := s }

/-- A is CSC, C is triplet: SLIP_matrix_copy.c lines 386-406. -/
def copyCscTriplet (fp : Fp) (opt : Option Options) (type : Ty) (A : Mat) (nz : Int) : C Mat := do
  let c ← allocate .triplet type A.m A.n nz false true
  let (x, s) ← slip_cast_array fp opt c.x A.x nz c.scale A.scale
  let i ← copyInts (deref c.i) (deref A.i) nz
  let j ← forRange 0 A.n (deref c.j) fun j Cj => do
    let a ← rd (deref A.p) j
    let b ← rd (deref A.p) (j + 1)
    forRange a b Cj fun p Cj => wr Cj p j
  pure { c with i := some i, j := some j, x := some x, scale := s, nz := nz }

/-- A is triplet, C is triplet: SLIP_matrix_copy.c lines 413-427. -/
def copyTripletTriplet (fp : Fp) (opt : Option Options) (type : Ty) (A : Mat) (nz : Int) : C Mat := do
  let c ← allocate .triplet type A.m A.n nz false true
  let j ← copyInts (deref c.j) (deref A.j) nz
  let i ← copyInts (deref c.i) (deref A.i) nz
  let (x, s) ← slip_cast_array fp opt c.x A.x nz c.scale A.scale
  pure { c with i := some i, j := some j, x := some x, scale := s, nz := nz }

/-- A is dense, C is triplet: SLIP_matrix_copy.c lines 434-447 (`nz` is that of the dense A). -/
def copyDenseTriplet (fp : Fp) (opt : Option Options) (type : Ty) (A : Mat) (nz : Int) : C Mat := do
  let t ← copyDenseCsc fp opt type A nz
  let tnz ← SLIP_matrix_nnz true (some t)
  let c ← copyCscTriplet fp opt type t tnz
  pure { c with nz := nz }

/-- Scatter the entries of a CSC matrix, SLIP_matrix_copy.c lines 484-549. -/
def scatterCsc {α : Type} (e : Elt α) (m n : Int) (Ap Ai : Arr Int) (Cx Yx : Arr α) : C (Arr α) :=
  forRange 0 n Cx fun j Cx => do
    let a ← rd Ap j
    let b ← rd Ap (j + 1)
    forRange a b Cx fun p Cx => do
      let i ← rd Ai p
      let v ← rd Yx p
      zset Cx (i + j * m) (e.set v)

/-- A is CSC, C is dense: SLIP_matrix_copy.c lines 462-465 and 475-552. -/
def copyCscDense (fp : Fp) (opt : Option Options) (type : Ty) (A : Mat) (nz : Int) : C Mat := do
  let c ← allocate .dense type A.m A.n nz false true
  let (y, s) ← slip_cast_matrix fp opt type A
  let (x, _) ← withVals opt c.x y fun e Cx Yx => do
    let x ← scatterCsc e A.m A.n (deref A.p) (deref A.i) Cx Yx
    pure (x, ())
  pure { c with x := some x, scale := s }

/-- Scatter triplets, SLIP_matrix_copy.c lines 561-617. -/
def scatterTriplet {α : Type} (e : Elt α) (m nz : Int) (Ai Aj : Arr Int) (Cx Yx : Arr α) : C (Arr α) :=
  forRange 0 nz Cx fun k Cx => do
    let i ← rd Ai k
    let j ← rd Aj k
    let v ← rd Yx k
    zset Cx (i + j * m) (e.set v)

/-- A is triplet, C is dense: SLIP_matrix_copy.c lines 462-465 and 554-620. -/
def copyTripletDense (fp : Fp) (opt : Option Options) (type : Ty) (A : Mat) (nz : Int) : C Mat := do
  let c ← allocate .dense type A.m A.n nz false true
  let (y, s) ← slip_cast_matrix fp opt type A
  let (x, _) ← withVals opt c.x y fun e Cx Yx => do
    let x ← scatterTriplet e A.m nz (deref A.i) (deref A.j) Cx Yx
    pure (x, ())
  pure { c with x := some x, scale := s }

/-- A is dense, C is dense: SLIP_matrix_copy.c lines 462-465 and 626-632. -/
def copyDenseDense (fp : Fp) (opt : Option Options) (type : Ty) (A : Mat) (nz : Int) : C Mat := do
  let c ← allocate .dense type A.m A.n nz false true
  let (x, s) ← slip_cast_array fp opt c.x A.x nz c.scale A.scale
  pure { c with x := some x, scale := s }

/-- The `switch`es on `C_kind` and `A->kind`, SLIP_matrix_copy.c lines 71-640. -/
def copyBody (fp : Fp) (opt : Option Options) (kind : Kind) (type : Ty) (A : Mat) (nz : Int) : C Mat :=
  match kind, A.kind with
  | .csc, .csc => copyCscCsc fp opt type A nz
  | .csc, .triplet => copyTripletCsc fp opt type A nz
  | .csc, .dense => copyDenseCsc fp opt type A nz
  | .triplet, .csc => copyCscTriplet fp opt type A nz
  | .triplet, .triplet => copyTripletTriplet fp opt type A nz
  | .triplet, .dense => copyDenseTriplet fp opt type A nz
  | .dense, .csc => copyCscDense fp opt type A nz
  | .dense, .triplet => copyTripletDense fp opt type A nz
  | .dense, .dense => copyDenseDense fp opt type A nz
  | _, _ => .error .ub

/-- The return paths: success, or an error code with the handle NULL (lines 57 and 644-649). -/
def copyWrap : C Mat → C (Info × Handle Mat)
  | .ok M => pure (.ok, some (some M))
  | .error (.ret e) => pure (e, some none)
  | .error f => .error f

/-- `SLIP_matrix_copy`, SLIP_matrix_copy.c lines 31-650. -/
def SLIP_matrix_copy (fp : Fp) (init : Bool) (Ch : Handle Mat) (kind : Kind) (type : Ty)
    (A : Option Mat) (opt : Option Options) : C (Info × Handle Mat) :=
  if !init then pure (.panic, Ch)
  else do
    let nz ← SLIP_matrix_nnz init A
    match A with
    | none => pure (.incorrectInput, Ch)
    | some A =>
      if Ch = none ∨ nz < 0 ∨ A.type.ok = false ∨ kind.ok = false ∨ type.ok = false then
        pure (.incorrectInput, Ch)
      else copyWrap (copyBody fp opt kind type A nz)

/-! ## SLIP_backslash -/

/-- `SLIP_backslash`, SLIP_backslash.c lines 46-135. (The intermediate handles L, U, ... are local
and initially NULL.) -/
def SLIP_backslash (fp : Fp) (O : Orderings) (nc : Int → Int → ℚ → Bool) (init : Bool)
    (X : Handle Mat) (type : Ty) (A b : Option Mat) (opt : Option Options) :
    C (Info × Handle Mat) :=
  if !init then pure (.panic, X)
  else if X = none then pure (.incorrectInput, X)
  else if type ≠ .mpq ∧ type ≠ .fp64 ∧ type ≠ .mpfr then pure (.incorrectInput, some none)
  else if requireFails A .csc .mpz then pure (.incorrectInput, some none)
  else if requireFails b .dense .mpz then pure (.incorrectInput, some none)
  else do
    let (info, S) ← SLIP_LU_analyze O init (some none) A opt
    if info ≠ .ok then pure (info, some none)
    else do
      let f ← SLIP_LU_factorize nc init (some none) (some none) (some none) (some none) A S.join opt
      if f.info ≠ .ok then pure (f.info, some none)
      else do
        let (info, x) ← SLIP_LU_solve init (some none) b A f.L.join f.U.join f.rhos.join S.join
          f.pinv.join opt
        if info ≠ .ok then pure (info, some none)
        else if type = .mpq then pure (.ok, x)
        else do
          let (info, x2) ← SLIP_matrix_copy fp init (some none) .dense type x.join opt
          if info ≠ .ok then pure (info, some none) else pure (.ok, x2)

end Slip
