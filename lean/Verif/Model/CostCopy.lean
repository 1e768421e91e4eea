import Verif.Model.Cost
import Verif.Model.Convert

/-!
# SLIP_matrix_copy with a meter

`SLIP_matrix_copy` and everything it calls (`Verif/Model/Convert.lean`) once more, with a counter for the work: `α` is
added for every call of GMP or MPFR on an entry (`mpz_set`, `mpq_set_z`, `mpq_div`, `mpfr_mul`, `mpz_gcd`, `mpz_sgn`,
...), `β` for every execution of the body of a loop, for every number initialised by `slip_create_mp*_array` and for every
element moved by `memcpy`, `γ` for every element of an array for which memory is requested.  Not counted: the calls on the
scale factors and on `gcd`, `one`, `temp` outside the loops (at most ten), what `SLIP_matrix_free` does with the temporary
matrices (it visits the elements counted with `γ` once), the clearing of memory by `calloc`.
-/

namespace Slip

variable (α β γ : ℕ)

/-- The number of array elements requested by `SLIP_matrix_allocate`: SLIP_matrix_allocate.c lines 122-188 (`A->p`, `A->i`,
`A->j` and `A->x`). -/
def allocElems (kind : Kind) (n nzmax : Int) : ℕ :=
  match kind with
  | .csc => (n + 1).toNat + 2 * nzmax.toNat
  | .triplet => 3 * nzmax.toNat
  | _ => nzmax.toNat

/-- The number of GMP / MPFR numbers initialised: the loops of slip_create_mpz_array.c lines 34-50,
slip_create_mpq_array.c lines 34-50, slip_create_mpfr_array.c lines 34-49. -/
def allocInits (type : Ty) (nzmax : Int) (init : Bool) : ℕ :=
  match type with
  | .mpz | .mpq | .mpfr => if init then nzmax.toNat else 0
  | _ => 0

/-- `SLIP_matrix_allocate`: SLIP_matrix_allocate.c lines 24-198. -/
def allocateT (kind : Kind) (type : Ty) (m n nzmax : Int) (shallow init : Bool) : W Mat :=
  if m < 0 ∨ n < 0 ∨ kind.ok = false ∨ type.ok = false then W.lift (allocate kind type m n nzmax shallow init)
  else if shallow then W.lift (allocate kind type m n nzmax shallow init)
  else do
    let N := max (if kind = .dense then m * n else nzmax) 1
    tick (γ * allocElems kind n N)
    tick (β * allocInits type N init)
    W.lift (allocate kind type m n nzmax shallow init)

/-- `slip_cumsum`: slip_cumsum.c lines 17-38. -/
def slip_cumsumT (p c : Arr Int) (n : Int) : W (Arr Int × Arr Int) := do
  let (p, c, nz) ← forRangeT β 0 n (p, c, (0 : Int)) fun i (p, c, nz) => W.lift (do
    let p ← wr p i nz
    let ci ← rd c i
    let pi ← rd p i
    let c ← wr c i pi
    pure (p, c, nz + ci))
  let p ← W.lift (wr p n nz)
  pure (p, c)

/-- The temporary matrix of one of the `slip_expand_*` functions: `SLIP_matrix_allocate (&x3, SLIP_DENSE, type, n, 1, n,
false, true, option)`, slip_expand_mpq_array.c lines 44-47, slip_expand_double_array.c line 60, slip_expand_mpfr_array.c
line 68 (its numbers are initialised one by one). -/
def tempT (n : Int) : W Unit := tick (γ * (max n 1).toNat + β * (max n 1).toNat)

/-- `slip_expand_mpq_array`: slip_expand_mpq_array.c lines 23-76. -/
def slip_expand_mpq_arrayT (x_out : Arr Int) (x : Arr ℚ) (n : Int) : W (Arr Int × ℚ) := do
  tempT β γ n
  let x3 : Arr Int := List.replicate (max n 1).toNat (some 0)
  tempT β γ n
  let x4 : Arr ℚ := List.replicate (max n 1).toNat (some 0)
  let x3 ← forRangeT β 0 n x3 fun i x3 => do
    tick α -- mpq_get_den
    W.lift (do
      let v ← rd x i
      zset x3 i v.den)
  let t ← W.lift (rd x3 0)
  let temp ← forRangeT β 1 n t fun i temp => do
    tick α -- mpz_lcm
    W.lift (do
      let d ← rd x3 i
      pure (Int.lcm d temp : Int))
  let scale : ℚ := temp
  let (_, x_out) ← forRangeT β 0 n (x4, x_out) fun i (x4, x_out) => do
    tick (2 * α) -- mpq_mul, mpz_set_q
    W.lift (do
      let v ← rd x i
      let x4 ← zset x4 i (v * scale)
      let w ← rd x4 i
      let x_out ← zset x_out i (roundInt 1 w)
      pure (x4, x_out))
  pure (x_out, scale)

/-- The loop that finds the first nonzero and the gcd: slip_expand_double_array.c lines 80-104,
slip_expand_mpfr_array.c lines 89-113. -/
def gcdLoopT (x : Arr Int) : Nat → Int → Option (Int × Int) → W (Option (Int × Int × Bool))
  | 0, _, s => pure (s.map fun (k, g) => (k, g, false))
  | c + 1, i, none => do
    tick β
    tick α -- mpz_cmp_ui
    let v ← W.lift (rd x i)
    if v ≠ 0 then do
      tick α -- mpz_set
      gcdLoopT x c (i + 1) (some (i, v))
    else gcdLoopT x c (i + 1) none
  | c + 1, i, some (k, g) => do
    tick β
    tick (2 * α) -- mpz_gcd, mpz_cmp
    let v ← W.lift (rd x i)
    let g : Int := Int.gcd g v
    if g = 1 then pure (some (k, g, true)) else gcdLoopT x c (i + 1) (some (k, g))

/-- The reduction by the gcd: slip_expand_double_array.c lines 78-131, slip_expand_mpfr_array.c lines 86-140. -/
def reduceGcdT (x_out : Arr Int) (scale : ℚ) (n : Int) : W (Arr Int × ℚ) := do
  let r ← gcdLoopT α β x_out n.toNat 0 none
  match r with
  | none => pure (x_out, 0)
  | some (_, _, true) => pure (x_out, scale)
  | some (k, g, false) => do
    let x_out ← forRangeT β k n x_out fun i x_out => do
      tick α -- mpz_divexact
      W.lift (do
        let v ← rd x_out i
        let d ← divexact v g
        zset x_out i d)
    pure (x_out, scale / g)

/-- `slip_expand_double_array`: slip_expand_double_array.c lines 26-133. -/
def slip_expand_double_arrayT (opt : Option Options) (x_out : Arr Int) (x : Arr Dbl) (n : Int) :
    W (Arr Int × ℚ) := do
  tempT β γ n
  let x3 : Arr Dbl := List.replicate (max n 1).toNat (some .nan)
  let rnd := mpfrRnd (optPrec opt) (optRound opt)
  let (_, x_out) ← forRangeT β 0 n (x3, x_out) fun i (x3, x_out) => do
    tick (3 * α) -- mpfr_set_d, mpfr_mul_d, mpfr_get_z
    W.lift (do
      let v ← rd x i
      let x3 ← zset x3 i (rnd v)
      let v ← rd x3 i
      let x3 ← zset x3 i (rnd (v.mulPos (10 ^ 17)))
      let v ← rd x3 i
      let x_out ← zset x_out i (mpfrGetZ (optRound opt) v)
      pure (x3, x_out))
  reduceGcdT α β x_out (10 ^ 17) n

/-- `slip_expand_mpfr_array`: slip_expand_mpfr_array.c lines 27-142. -/
def slip_expand_mpfr_arrayT (opt : Option Options) (x_out : Arr Int) (x : Arr Dbl) (n : Int) :
    W (Arr Int × ℚ) := do
  tempT β γ n
  let x3 : Arr Dbl := List.replicate (max n 1).toNat (some .nan)
  let expon : ℚ := 2 ^ (optPrec opt).toNat
  let (_, x_out) ← forRangeT β 0 n (x3, x_out) fun i (x3, x_out) => do
    tick (2 * α) -- mpfr_mul, mpfr_get_z
    W.lift (do
      let v ← rd x i
      let x3 ← zset x3 i (mpfrRnd (optPrec opt) (optRound opt) (v.mulPos expon))
      let v ← rd x3 i
      let x_out ← zset x_out i (mpfrGetZ (optRound opt) v)
      pure (x3, x_out))
  reduceGcdT α β x_out expon n

/-- `for (k = 0 ; k < n ; k++) y [k] = f (x [k])` with `c` for every element: the loops of slip_cast_array.c lines 83-476. -/
def castLoopT {δ ε : Type} (c : ℕ) (f : Int → δ → C ε) (y : Arr ε) (x : Arr δ) (n : Int) : W (Arr ε) :=
  forRangeT β 0 n y fun k y => do
    tick c
    W.lift (do
      let v ← rd x k
      let w ← f k v
      zset y k w)

/-- `slip_cast_array`: slip_cast_array.c lines 43-478. With a scale factor other than 1 an integer is converted to a
rational and divided first (lines 171-175, 260-264, 344-350, 430-434). -/
def slip_cast_arrayT (fp : Fp) (opt : Option Options) (Y X : Option Vals) (n : Int) (ys xs : ℚ) :
    W (Vals × ℚ) :=
  let prec := optPrec opt
  let rnd := optRound opt
  match Y, X with
  | some (.mpz y), some (.mpz x) => do
    let y ← castLoopT β α (fun _ v => pure v) y x n
    pure (.mpz y, xs)
  | some (.mpz y), some (.mpq x) => do
    let (y, s) ← slip_expand_mpq_arrayT α β γ y x n
    pure (.mpz y, s)
  | some (.mpz y), some (.mpfr x) => do
    let (y, s) ← slip_expand_mpfr_arrayT α β γ opt y x n
    pure (.mpz y, s)
  | some (.mpz y), some (.int64 x) => do
    let y ← castLoopT β α (fun _ v => pure v) y x n
    pure (.mpz y, 1)
  | some (.mpz y), some (.fp64 x) => do
    let (y, s) ← slip_expand_double_arrayT α β γ opt y x n
    pure (.mpz y, s)
  | some (.mpq y), some (.mpz x) => do
    let y ← castLoopT β (if xs = 1 then α else 2 * α) (fun _ v => unscaleZ xs v) y x n
    pure (.mpq y, ys)
  | some (.mpq y), some (.mpq x) => do
    let y ← castLoopT β α (fun _ v => pure v) y x n
    pure (.mpq y, ys)
  | some (.mpq y), some (.mpfr x) => do
    let y ← castLoopT β α (fun _ v => pure (mpfrGetQ v)) y x n
    pure (.mpq y, ys)
  | some (.mpq y), some (.int64 x) => do
    let y ← castLoopT β α (fun k (v : Int) => pure ((v : ℚ) / fp.addr k)) y x n
    pure (.mpq y, ys)
  | some (.mpq y), some (.fp64 x) => do
    let y ← castLoopT β α (fun _ v => mpqSetD v) y x n
    pure (.mpq y, ys)
  | some (.mpfr y), some (.mpz x) => do
    let y ← castLoopT β (if xs = 1 then α else 3 * α)
      (fun _ v => do let q ← unscaleZ xs v; pure (mpfrRnd prec rnd (.fin q))) y x n
    pure (.mpfr y, ys)
  | some (.mpfr y), some (.mpq x) => do
    let y ← castLoopT β α (fun _ v => pure (mpfrRnd prec rnd (.fin v))) y x n
    pure (.mpfr y, ys)
  | some (.mpfr y), some (.mpfr x) => do
    let y ← castLoopT β α (fun _ v => pure (mpfrRnd prec rnd v)) y x n
    pure (.mpfr y, ys)
  | some (.mpfr y), some (.int64 x) => do
    let y ← castLoopT β α (fun _ (v : Int) => pure (mpfrRnd prec rnd (.fin v))) y x n
    pure (.mpfr y, ys)
  | some (.mpfr y), some (.fp64 x) => do
    let y ← castLoopT β α (fun _ v => pure (mpfrRnd prec rnd v)) y x n
    pure (.mpfr y, ys)
  | some (.int64 y), some (.mpz x) => do
    let y ← castLoopT β (if xs = 1 then α else 3 * α) (fun _ v => if xs = 1 then pure (mpzGetSi v)
      else do let q ← unscaleZ xs v; slip_cast_double_to_int64 (fp.mpqGetD q)) y x n
    pure (.int64 y, ys)
  | some (.int64 y), some (.mpq x) => do
    let y ← castLoopT β α (fun _ v => slip_cast_double_to_int64 (fp.mpqGetD v)) y x n
    pure (.int64 y, ys)
  | some (.int64 y), some (.mpfr x) => do
    let y ← castLoopT β α (fun _ v => pure (mpfrGetSi rnd v)) y x n
    pure (.int64 y, ys)
  | some (.int64 y), some (.int64 x) => do
    let y ← castLoopT β 0 (fun _ v => pure v) y x n
    pure (.int64 y, ys)
  | some (.int64 y), some (.fp64 x) => do
    let y ← castLoopT β 0 (fun _ v => slip_cast_double_to_int64 v) y x n
    pure (.int64 y, ys)
  | some (.fp64 y), some (.mpz x) => do
    let y ← castLoopT β (if xs = 1 then α else 3 * α) (fun _ v => if xs = 1 then pure (fp.mpzGetD v)
      else do let q ← unscaleZ xs v; pure (fp.mpqGetD q)) y x n
    pure (.fp64 y, ys)
  | some (.fp64 y), some (.mpq x) => do
    let y ← castLoopT β α (fun _ v => pure (fp.mpqGetD v)) y x n
    pure (.fp64 y, ys)
  | some (.fp64 y), some (.mpfr x) => do
    let y ← castLoopT β α (fun _ v => pure (fp.mpfrGetD rnd v)) y x n
    pure (.fp64 y, ys)
  | some (.fp64 y), some (.int64 x) => do
    let y ← castLoopT β 0 (fun _ v => pure (fp.int64ToD v)) y x n
    pure (.fp64 y, ys)
  | some (.fp64 y), some (.fp64 x) => do
    let y ← castLoopT β 0 (fun _ v => pure v) y x n
    pure (.fp64 y, ys)
  | _, _ => W.lift (.error (.ret .incorrectInput))

/-- `slip_cast_matrix`: slip_cast_matrix.c lines 20-102. -/
def slip_cast_matrixT (fp : Fp) (opt : Option Options) (type : Ty) (A : Mat) : W (Option Vals × ℚ) := do
  let nz ← W.lift (SLIP_matrix_nnz true (some A))
  let Y ← allocateT β γ .dense type nz 1 nz (decide (type = A.type)) true
  if type = A.type then pure (A.x, Y.scale)
  else do
    let (v, s) ← slip_cast_arrayT α β γ fp opt Y.x A.x nz Y.scale A.scale
    pure (some v, s)

/-- The five `case`s of a `switch (C->type)`: SLIP_matrix_copy.c lines 138-200, 217-258, 266-363, 484-549, 561-617. `f` gets the
cost of one use of an entry. -/
def withValsT {δ : Type} (opt : Option Options) (c y : Option Vals)
    (f : {ε : Type} → ℕ → Elt ε → Arr ε → Arr ε → W (Arr ε × δ)) : W (Vals × δ) :=
  match c, y with
  | some (.mpz c), some (.mpz y) => do let (c, b) ← f α eltZ c y; pure (.mpz c, b)
  | some (.mpq c), some (.mpq y) => do let (c, b) ← f α eltQ c y; pure (.mpq c, b)
  | some (.mpfr c), some (.mpfr y) => do let (c, b) ← f α (eltR opt) c y; pure (.mpfr c, b)
  | some (.int64 c), some (.int64 y) => do let (c, b) ← f 0 eltZ c y; pure (.int64 c, b)
  | some (.fp64 c), some (.fp64 y) => do let (c, b) ← f 0 eltD c y; pure (.fp64 c, b)
  | _, _ => W.lift (.error .ub)

/-- `memcpy (dst, src, n * sizeof (int64_t))`: SLIP_matrix_copy.c lines 90-91, 394, 420-421. -/
def copyIntsT (dst src : Arr Int) (n : Int) : W (Arr Int) :=
  forRangeT β 0 n dst fun k dst => W.lift (do
    let v ← rd src k
    wr dst k v)

/-- A is CSC, C is CSC: SLIP_matrix_copy.c lines 86-97. -/
def copyCscCscT (fp : Fp) (opt : Option Options) (type : Ty) (A : Mat) (nz : Int) : W Mat := do
  let c ← allocateT β γ .csc type A.m A.n nz false true
  let p ← copyIntsT β (deref c.p) (deref A.p) (A.n + 1)
  let i ← copyIntsT β (deref c.i) (deref A.i) nz
  let (x, s) ← slip_cast_arrayT α β γ fp opt c.x A.x nz c.scale A.scale
  pure { c with p := some p, i := some i, x := some x, scale := s }

/-- The building loop: SLIP_matrix_copy.c lines 141-197. -/
def buildCscT {ε : Type} (a : ℕ) (e : Elt ε) (Ai Aj : Arr Int) (nz : Int) (W Ci : Arr Int)
    (Cx Yx : Arr ε) : Slip.W (Arr ε × Arr Int) := do
  let (_, Ci, Cx) ← forRangeT β 0 nz (W, Ci, Cx) fun k (W, Ci, Cx) => do
    tick a -- the assignment of the entry
    Slip.W.lift (do
      let j ← rd Aj k
      let p ← rd W j
      let W ← wr W j (p + 1)
      let i ← rd Ai k
      let Ci ← wr Ci p i
      let v ← rd Yx k
      let Cx ← zset Cx p (e.set v)
      pure (W, Ci, Cx))
  pure (Cx, Ci)

/-- A is triplet, C is CSC: SLIP_matrix_copy.c lines 104-202. -/
def copyTripletCscT (fp : Fp) (opt : Option Options) (type : Ty) (A : Mat) (nz : Int) : W Mat := do
  let (y, s) ← slip_cast_matrixT α β γ fp opt type A
  tick (γ * A.n.toNat)
  let W := calloc A.n
  let c ← allocateT β γ .csc type A.m A.n nz false true
  let W ← forRangeT β 0 nz W fun k W => Slip.W.lift (do
    let j ← rd (deref A.j) k
    let w ← rd W j
    wr W j (w + 1))
  let (p, W) ← slip_cumsumT β (deref c.p) W A.n
  let (x, i) ← withValsT α opt c.x y fun a e Cx Yx =>
    buildCscT β a e (deref A.i) (deref A.j) nz W (deref c.i) Cx Yx
  pure { c with p := some p, i := some i, x := some x, scale := s }

/-- Count the nonzeros: SLIP_matrix_copy.c lines 216-258. -/
def countNzT {ε : Type} (a : ℕ) (e : Elt ε) (nz : Int) (Yx : Arr ε) : W Int :=
  forRangeT β 0 nz 0 fun k actual => do
    tick a -- the test of the entry
    W.lift (do
      let v ← rd Yx k
      if e.isZero v then pure actual else pure (actual + 1))

/-- Construct C from a dense Y: SLIP_matrix_copy.c lines 266-363. -/
def buildFromDenseT {ε : Type} (a : ℕ) (e : Elt ε) (m n : Int) (Cp Ci : Arr Int) (Cx Yx : Arr ε) :
    W (Arr ε × Arr Int × Arr Int) := do
  let (nz, Cp, Ci, Cx) ← forRangeT β 0 n ((0 : Int), Cp, Ci, Cx) fun j (nz, Cp, Ci, Cx) => do
    let Cp ← W.lift (wr Cp j nz)
    let (nz, Ci, Cx) ← forRangeT β 0 m (nz, Ci, Cx) fun i (nz, Ci, Cx) => do
      tick a -- the test of the entry
      let v ← W.lift (rd Yx (i + j * m))
      if e.isZero v then pure (nz, Ci, Cx)
      else do
        let Ci ← W.lift (wr Ci nz i)
        tick a -- the assignment of the entry
        let Cx ← W.lift (zset Cx nz (e.set v))
        pure (nz + 1, Ci, Cx)
    pure (nz, Cp, Ci, Cx)
  let Cp ← W.lift (wr Cp n nz)
  pure (Cx, Cp, Ci)

/-- A is dense, C is CSC: SLIP_matrix_copy.c lines 209-365. -/
def copyDenseCscT (fp : Fp) (opt : Option Options) (type : Ty) (A : Mat) (nz : Int) : W Mat := do
  let (y, s) ← slip_cast_matrixT α β γ fp opt type A
  let (_, actual) ← withValsT α opt y y fun a e Y Yx => do
    let c ← countNzT β a e nz Yx
    pure (Y, c)
  let c ← allocateT β γ .csc type A.m A.n actual false true
  let (x, p, i) ← withValsT α opt c.x y fun a e Cx Yx =>
    buildFromDenseT β a e A.m A.n (deref c.p) (deref c.i) Cx Yx
  pure { c with p := some p, i := some i, x := some x, scale := s }

/-- A is CSC, C is triplet: SLIP_matrix_copy.c lines 386-406. -/
def copyCscTripletT (fp : Fp) (opt : Option Options) (type : Ty) (A : Mat) (nz : Int) : W Mat := do
  let c ← allocateT β γ .triplet type A.m A.n nz false true
  let (x, s) ← slip_cast_arrayT α β γ fp opt c.x A.x nz c.scale A.scale
  let i ← copyIntsT β (deref c.i) (deref A.i) nz
  let j ← forRangeT β 0 A.n (deref c.j) fun j Cj => do
    let a ← W.lift (rd (deref A.p) j)
    let b ← W.lift (rd (deref A.p) (j + 1))
    forRangeT β a b Cj fun p Cj => W.lift (wr Cj p j)
  pure { c with i := some i, j := some j, x := some x, scale := s, nz := nz }

/-- A is triplet, C is triplet: SLIP_matrix_copy.c lines 413-427. -/
def copyTripletTripletT (fp : Fp) (opt : Option Options) (type : Ty) (A : Mat) (nz : Int) : W Mat := do
  let c ← allocateT β γ .triplet type A.m A.n nz false true
  let j ← copyIntsT β (deref c.j) (deref A.j) nz
  let i ← copyIntsT β (deref c.i) (deref A.i) nz
  let (x, s) ← slip_cast_arrayT α β γ fp opt c.x A.x nz c.scale A.scale
  pure { c with i := some i, j := some j, x := some x, scale := s, nz := nz }

/-- A is dense, C is triplet: SLIP_matrix_copy.c lines 434-447. -/
def copyDenseTripletT (fp : Fp) (opt : Option Options) (type : Ty) (A : Mat) (nz : Int) : W Mat := do
  let t ← copyDenseCscT α β γ fp opt type A nz
  let tnz ← W.lift (SLIP_matrix_nnz true (some t))
  let c ← copyCscTripletT α β γ fp opt type t tnz
  pure { c with nz := nz }

/-- Scatter the entries of a CSC matrix: SLIP_matrix_copy.c lines 484-549. -/
def scatterCscT {ε : Type} (a : ℕ) (e : Elt ε) (m n : Int) (Ap Ai : Arr Int) (Cx Yx : Arr ε) : W (Arr ε) :=
  forRangeT β 0 n Cx fun j Cx => do
    let p0 ← W.lift (rd Ap j)
    let p1 ← W.lift (rd Ap (j + 1))
    forRangeT β p0 p1 Cx fun p Cx => do
      tick a -- the assignment of the entry
      W.lift (do
        let i ← rd Ai p
        let v ← rd Yx p
        zset Cx (i + j * m) (e.set v))

/-- A is CSC, C is dense: SLIP_matrix_copy.c lines 462-465 and 475-552. -/
def copyCscDenseT (fp : Fp) (opt : Option Options) (type : Ty) (A : Mat) (nz : Int) : W Mat := do
  let c ← allocateT β γ .dense type A.m A.n nz false true
  let (y, s) ← slip_cast_matrixT α β γ fp opt type A
  let (x, _) ← withValsT α opt c.x y fun a e Cx Yx => do
    let x ← scatterCscT β a e A.m A.n (deref A.p) (deref A.i) Cx Yx
    pure (x, ())
  pure { c with x := some x, scale := s }

/-- Scatter triplets: SLIP_matrix_copy.c lines 561-617. -/
def scatterTripletT {ε : Type} (a : ℕ) (e : Elt ε) (m nz : Int) (Ai Aj : Arr Int) (Cx Yx : Arr ε) : W (Arr ε) :=
  forRangeT β 0 nz Cx fun k Cx => do
    tick a -- the assignment of the entry
    W.lift (do
      let i ← rd Ai k
      let j ← rd Aj k
      let v ← rd Yx k
      zset Cx (i + j * m) (e.set v))

/-- A is triplet, C is dense: SLIP_matrix_copy.c lines 462-465 and 554-620. -/
def copyTripletDenseT (fp : Fp) (opt : Option Options) (type : Ty) (A : Mat) (nz : Int) : W Mat := do
  let c ← allocateT β γ .dense type A.m A.n nz false true
  let (y, s) ← slip_cast_matrixT α β γ fp opt type A
  let (x, _) ← withValsT α opt c.x y fun a e Cx Yx => do
    let x ← scatterTripletT β a e A.m nz (deref A.i) (deref A.j) Cx Yx
    pure (x, ())
  pure { c with x := some x, scale := s }

/-- A is dense, C is dense: SLIP_matrix_copy.c lines 462-465 and 626-632. -/
def copyDenseDenseT (fp : Fp) (opt : Option Options) (type : Ty) (A : Mat) (nz : Int) : W Mat := do
  let c ← allocateT β γ .dense type A.m A.n nz false true
  let (x, s) ← slip_cast_arrayT α β γ fp opt c.x A.x nz c.scale A.scale
  pure { c with x := some x, scale := s }

/-- The `switch`es on `C_kind` and `A->kind`: SLIP_matrix_copy.c lines 71-640. -/
def copyBodyT (fp : Fp) (opt : Option Options) (kind : Kind) (type : Ty) (A : Mat) (nz : Int) : W Mat :=
  match kind, A.kind with
  | .csc, .csc => copyCscCscT α β γ fp opt type A nz
  | .csc, .triplet => copyTripletCscT α β γ fp opt type A nz
  | .csc, .dense => copyDenseCscT α β γ fp opt type A nz
  | .triplet, .csc => copyCscTripletT α β γ fp opt type A nz
  | .triplet, .triplet => copyTripletTripletT α β γ fp opt type A nz
  | .triplet, .dense => copyDenseTripletT α β γ fp opt type A nz
  | .dense, .csc => copyCscDenseT α β γ fp opt type A nz
  | .dense, .triplet => copyTripletDenseT α β γ fp opt type A nz
  | .dense, .dense => copyDenseDenseT α β γ fp opt type A nz
  | _, _ => W.lift (.error .ub)

/-- The return paths do not change the counter: SLIP_matrix_copy.c lines 57 and 644-649. -/
def W.copyWrap (m : W Mat) : W (Info × Handle Mat) := fun w => (Slip.copyWrap (m w).1, (m w).2)

/-- `SLIP_matrix_copy`: SLIP_matrix_copy.c lines 31-650. -/
def SLIP_matrix_copyT (fp : Fp) (init : Bool) (Ch : Handle Mat) (kind : Kind) (type : Ty)
    (A : Option Mat) (opt : Option Options) : W (Info × Handle Mat) :=
  if !init then pure (.panic, Ch)
  else do
    let nz ← W.lift (SLIP_matrix_nnz init A)
    match A with
    | none => pure (.incorrectInput, Ch)
    | some A =>
      if Ch = none ∨ nz < 0 ∨ A.type.ok = false ∨ kind.ok = false ∨ type.ok = false then
        pure (.incorrectInput, Ch)
      else W.copyWrap (copyBodyT α β γ fp opt kind type A nz)

end Slip
