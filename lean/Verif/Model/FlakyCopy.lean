import Verif.Model.Flaky

/-!
# `SLIP_matrix_copy` and `SLIP_backslash` when memory is refused

The functions of `Verif/Model/Convert.lean` with their requests for memory, as in `Verif/Model/Flaky.lean`. Every wrapped GMP or MPFR
call counts as a request, except signs and comparisons.  One status is not looked at: that of `SLIP_mpq_set (C->scale, Y->scale)`,
SLIP_matrix_copy.c lines 127, 262, 476 and 560. When that request is refused the program goes on; what `C->scale` contains then is the
parameter `junk` (with GMP's `mpq_set` the old value 1, or the new numerator over 1).
-/

namespace Slip.Flaky

/-- `SLIP_matrix_allocate`: SLIP_matrix_allocate.c lines 47-195, as `Slip.allocate`. With `shallow`, only the header and the scale
are requested; the entries of MPZ, MPQ and MPFR arrays are initialised one by one if `init`. -/
def allocateF (kind : Kind) (type : Ty) (m n nzmax : Int) (shallow init : Bool) : F Mat :=
  if m < 0 ∨ n < 0 ∨ kind.ok = false ∨ type.ok = false then lift (.error (.ret .incorrectInput))
  else do
    if shallow then do
      need .outOfMemory
      gmp
      gmp
    else
      allocate (decide (kind ≠ .dense))
        (if init && (type == .mpz || type == .mpq || type == .mpfr) then
          (max (if kind = .dense then m * n else nzmax) 1).toNat else 0)
    lift (Slip.allocate kind type m n nzmax shallow init)

/-- `slip_expand_mpq_array`: slip_expand_mpq_array.c lines 23-76. -/
def slip_expand_mpq_arrayF (x_out : Arr Int) (x : Arr ℚ) (n : Int) : F (Arr Int × ℚ) := do
  gmp -- mpz_init (temp)
  allocate false (max n 1).toNat
  let x3 : Arr Int := List.replicate (max n 1).toNat (some 0)
  allocate false (max n 1).toNat
  let x4 : Arr ℚ := List.replicate (max n 1).toNat (some 0)
  let x3 ← forRangeF 0 n x3 fun i x3 => do
    let v ← lift (rd x i)
    zsetF x3 i (v.den : Int)
  let t ← lift (rd x3 0)
  gmp -- mpz_set (temp, x3 [0])
  let temp ← forRangeF 1 n t fun i temp => do
    let d ← lift (rd x3 i)
    gmp
    pure (Int.lcm d temp : Int)
  gmp -- mpq_set_z (scale, temp)
  let scale : ℚ := temp
  let (_, x_out) ← forRangeF 0 n (x4, x_out) fun i (x4, x_out) => do
    let v ← lift (rd x i)
    let x4 ← zsetF x4 i (v * scale)
    let w ← lift (rd x4 i)
    let x_out ← zsetF x_out i (roundInt 1 w)
    pure (x4, x_out)
  pure (x_out, scale)

/-- `gcdLoop`: slip_expand_double_array.c lines 79-104, slip_expand_mpfr_array.c lines 88-113. -/
def gcdLoopF (x : Arr Int) : Nat → Int → Option (Int × Int) → F (Option (Int × Int × Bool))
  | 0, _, s => pure (s.map fun (k, g) => (k, g, false))
  | c + 1, i, none => do
    let v ← lift (rd x i)
    if v ≠ 0 then do
      gmp
      gcdLoopF x c (i + 1) (some (i, v))
    else gcdLoopF x c (i + 1) none
  | c + 1, i, some (k, g) => do
    let v ← lift (rd x i)
    gmp
    let g : Int := Int.gcd g v
    if g = 1 then pure (some (k, g, true)) else gcdLoopF x c (i + 1) (some (k, g))

/-- `reduceGcd`: slip_expand_double_array.c lines 78-131, slip_expand_mpfr_array.c lines 86-140. Setting `scale` to a number of size 0
requests nothing. -/
def reduceGcdF (x_out : Arr Int) (scale : ℚ) (n : Int) : F (Arr Int × ℚ) := do
  gmp -- mpz_set_ui (one, 1)
  let r ← gcdLoopF x_out n.toNat 0 none
  match r with
  | none => pure (x_out, 0)
  | some (_, _, true) => pure (x_out, scale)
  | some (k, g, false) => do
    let x_out ← forRangeF k n x_out fun i x_out => do
      let v ← lift (rd x_out i)
      let d ← lift (divexact v g)
      zsetF x_out i d
    gmp -- mpq_set_z (temp, gcd)
    gmp -- mpq_div (scale, scale, temp)
    pure (x_out, scale / g)

/-- `slip_expand_double_array`: slip_expand_double_array.c lines 26-133. -/
def slip_expand_double_arrayF (opt : Option Options) (x_out : Arr Int) (x : Arr Dbl) (n : Int) :
    F (Arr Int × ℚ) := do
  gmp -- mpq_init (temp)
  gmp -- mpz_init (gcd)
  gmp -- mpz_init (one)
  allocate false (max n 1).toNat
  let x3 : Arr Dbl := List.replicate (max n 1).toNat (some .nan)
  gmp -- mpq_set_d (scale, expon)
  let rnd := mpfrRnd (optPrec opt) (optRound opt)
  let (_, x_out) ← forRangeF 0 n (x3, x_out) fun i (x3, x_out) => do
    let v ← lift (rd x i)
    let x3 ← zsetF x3 i (rnd v)
    let v ← lift (rd x3 i)
    let x3 ← zsetF x3 i (rnd (v.mulPos (10 ^ 17)))
    let v ← lift (rd x3 i)
    let x_out ← zsetF x_out i (mpfrGetZ (optRound opt) v)
    pure (x3, x_out)
  reduceGcdF x_out (10 ^ 17) n

/-- `slip_expand_mpfr_array`: slip_expand_mpfr_array.c lines 27-142. -/
def slip_expand_mpfr_arrayF (opt : Option Options) (x_out : Arr Int) (x : Arr Dbl) (n : Int) :
    F (Arr Int × ℚ) := do
  gmp -- mpq_init (temp)
  gmp -- mpfr_init2 (expon)
  gmp -- mpz_init (temp_expon)
  gmp -- mpz_init (gcd)
  gmp -- mpz_init (one)
  allocate false (max n 1).toNat
  let x3 : Arr Dbl := List.replicate (max n 1).toNat (some .nan)
  gmp -- mpfr_ui_pow_ui (expon, 2, prec)
  let expon : ℚ := 2 ^ (optPrec opt).toNat
  let (_, x_out) ← forRangeF 0 n (x3, x_out) fun i (x3, x_out) => do
    let v ← lift (rd x i)
    let x3 ← zsetF x3 i (mpfrRnd (optPrec opt) (optRound opt) (v.mulPos expon))
    let v ← lift (rd x3 i)
    let x_out ← zsetF x_out i (mpfrGetZ (optRound opt) v)
    pure (x3, x_out)
  gmp -- mpfr_get_z (temp_expon, expon)
  gmp -- mpq_set_z (scale, temp_expon)
  reduceGcdF x_out expon n

/-- `castLoop`, slip_cast_array.c, when the conversion requests memory and the result is stored without a request (`int64_t`,
`double`), or is stored by the last call of the conversion. -/
def castLoopF {α β : Type} (f : Int → α → F β) (y : Arr β) (x : Arr α) (n : Int) : F (Arr β) :=
  forRangeF 0 n y fun k y => do
    let v ← lift (rd x k)
    let w ← f k v
    lift (zset y k w)

/-- One wrapped call with result `c`. -/
def call {β : Type} (c : C β) : F β := do
  gmp
  lift c

/-- `mpq_set_z`, and unless the scale is 1 `mpq_div`: slip_cast_array.c lines 147-177. -/
def unscaleZF (xs : ℚ) (v : ℤ) : F ℚ := do
  gmp
  if xs = 1 then pure () else gmp
  lift (unscaleZ xs v)

/-- `mpq_init (temp)`, unless the scale is 1: slip_cast_array.c lines 260, 345, 427. -/
def tempF (xs : ℚ) : F Unit := if xs = 1 then pure () else gmp

/-- `slip_cast_array`: slip_cast_array.c lines 43-478. -/
def slip_cast_arrayF (fp : Fp) (opt : Option Options) (Y X : Option Vals) (n : Int) (ys xs : ℚ) :
    F (Vals × ℚ) :=
  let prec := optPrec opt
  let rnd := optRound opt
  match Y, X with
  | some (.mpz y), some (.mpz x) => do
    let y ← castLoopF (fun _ v => call (pure v)) y x n
    gmp -- mpq_set (y_scale, x_scale)
    pure (.mpz y, xs)
  | some (.mpz y), some (.mpq x) => do
    let (y, s) ← slip_expand_mpq_arrayF y x n
    pure (.mpz y, s)
  | some (.mpz y), some (.mpfr x) => do
    let (y, s) ← slip_expand_mpfr_arrayF opt y x n
    pure (.mpz y, s)
  | some (.mpz y), some (.int64 x) => do
    let y ← castLoopF (fun _ v => call (pure v)) y x n
    gmp -- mpq_set_ui (y_scale, 1, 1)
    pure (.mpz y, 1)
  | some (.mpz y), some (.fp64 x) => do
    let (y, s) ← slip_expand_double_arrayF opt y x n
    pure (.mpz y, s)
  | some (.mpq y), some (.mpz x) => do
    let y ← castLoopF (fun _ v => unscaleZF xs v) y x n
    pure (.mpq y, ys)
  | some (.mpq y), some (.mpq x) => do
    let y ← castLoopF (fun _ v => call (pure v)) y x n
    pure (.mpq y, ys)
  | some (.mpq y), some (.mpfr x) => do
    let y ← castLoopF (fun _ v => call (pure (mpfrGetQ v))) y x n
    pure (.mpq y, ys)
  | some (.mpq y), some (.int64 x) => do
    let y ← castLoopF (fun k (v : Int) => call (pure ((v : ℚ) / fp.addr k))) y x n
    pure (.mpq y, ys)
  | some (.mpq y), some (.fp64 x) => do
    let y ← castLoopF (fun _ v => call (mpqSetD v)) y x n
    pure (.mpq y, ys)
  | some (.mpfr y), some (.mpz x) => do
    tempF xs
    let y ← castLoopF (fun _ v => do
      let q ← unscaleZF xs v
      tempF xs -- mpfr_set_q; without a scale there is one call only, mpfr_set_z
      pure (mpfrRnd prec rnd (.fin q))) y x n
    pure (.mpfr y, ys)
  | some (.mpfr y), some (.mpq x) => do
    let y ← castLoopF (fun _ v => call (pure (mpfrRnd prec rnd (.fin v)))) y x n
    pure (.mpfr y, ys)
  | some (.mpfr y), some (.mpfr x) => do
    let y ← castLoopF (fun _ v => call (pure (mpfrRnd prec rnd v))) y x n
    pure (.mpfr y, ys)
  | some (.mpfr y), some (.int64 x) => do
    let y ← castLoopF (fun _ (v : Int) => call (pure (mpfrRnd prec rnd (.fin v)))) y x n
    pure (.mpfr y, ys)
  | some (.mpfr y), some (.fp64 x) => do
    let y ← castLoopF (fun _ v => call (pure (mpfrRnd prec rnd v))) y x n
    pure (.mpfr y, ys)
  | some (.int64 y), some (.mpz x) => do
    tempF xs
    let y ← castLoopF (fun _ v => if xs = 1 then call (pure (mpzGetSi v))
      else do
        let q ← unscaleZF xs v
        gmp
        lift (slip_cast_double_to_int64 (fp.mpqGetD q))) y x n
    pure (.int64 y, ys)
  | some (.int64 y), some (.mpq x) => do
    let y ← castLoopF (fun _ v => call (slip_cast_double_to_int64 (fp.mpqGetD v))) y x n
    pure (.int64 y, ys)
  | some (.int64 y), some (.mpfr x) => do
    let y ← castLoopF (fun _ v => call (pure (mpfrGetSi rnd v))) y x n
    pure (.int64 y, ys)
  | some (.int64 y), some (.int64 x) => do
    let y ← castLoopF (fun _ v => pure v) y x n
    pure (.int64 y, ys)
  | some (.int64 y), some (.fp64 x) => do
    let y ← castLoopF (fun _ v => lift (slip_cast_double_to_int64 v)) y x n
    pure (.int64 y, ys)
  | some (.fp64 y), some (.mpz x) => do
    tempF xs
    let y ← castLoopF (fun _ v => if xs = 1 then call (pure (fp.mpzGetD v))
      else do
        let q ← unscaleZF xs v
        gmp
        pure (fp.mpqGetD q)) y x n
    pure (.fp64 y, ys)
  | some (.fp64 y), some (.mpq x) => do
    let y ← castLoopF (fun _ v => call (pure (fp.mpqGetD v))) y x n
    pure (.fp64 y, ys)
  | some (.fp64 y), some (.mpfr x) => do
    let y ← castLoopF (fun _ v => call (pure (fp.mpfrGetD rnd v))) y x n
    pure (.fp64 y, ys)
  | some (.fp64 y), some (.int64 x) => do
    let y ← castLoopF (fun _ v => pure (fp.int64ToD v)) y x n
    pure (.fp64 y, ys)
  | some (.fp64 y), some (.fp64 x) => do
    let y ← castLoopF (fun _ v => pure v) y x n
    pure (.fp64 y, ys)
  | _, _ => lift (.error (.ret .incorrectInput))

/-- `slip_cast_matrix`: slip_cast_matrix.c lines 20-102. -/
def slip_cast_matrixF (fp : Fp) (opt : Option Options) (type : Ty) (A : Mat) : F (Option Vals × ℚ) := do
  let nz ← lift (SLIP_matrix_nnz true (some A))
  let Y ← allocateF .dense type nz 1 nz (decide (type = A.type)) true
  if type = A.type then pure (A.x, Y.scale)
  else do
    let (v, s) ← slip_cast_arrayF fp opt Y.x A.x nz Y.scale A.scale
    pure (some v, s)

/-- `withVals`; `true` for the types whose elements are stored by a wrapped call. -/
def withValsF {β : Type} (opt : Option Options) (c y : Option Vals)
    (f : {α : Type} → Bool → Elt α → Arr α → Arr α → F (Arr α × β)) : F (Vals × β) :=
  match c, y with
  | some (.mpz c), some (.mpz y) => do let (c, b) ← f true eltZ c y; pure (.mpz c, b)
  | some (.mpq c), some (.mpq y) => do let (c, b) ← f true eltQ c y; pure (.mpq c, b)
  | some (.mpfr c), some (.mpfr y) => do let (c, b) ← f true (eltR opt) c y; pure (.mpfr c, b)
  | some (.int64 c), some (.int64 y) => do let (c, b) ← f false eltZ c y; pure (.int64 c, b)
  | some (.fp64 c), some (.fp64 y) => do let (c, b) ← f false eltD c y; pure (.fp64 c, b)
  | _, _ => lift (.error .ub)

/-- Store an element, by a wrapped call or by assignment. -/
def storeF {α : Type} (wrapped : Bool) (a : Arr α) (i : Int) (v : α) : F (Arr α) :=
  if wrapped then zsetF a i v else lift (zset a i v)

/-- A is CSC, C is CSC: SLIP_matrix_copy.c lines 86-97. -/
def copyCscCscF (fp : Fp) (opt : Option Options) (type : Ty) (A : Mat) (nz : Int) : F Mat := do
  let c ← allocateF .csc type A.m A.n nz false true
  let p ← lift (copyInts (deref c.p) (deref A.p) (A.n + 1))
  let i ← lift (copyInts (deref c.i) (deref A.i) nz)
  let (x, s) ← slip_cast_arrayF fp opt c.x A.x nz c.scale A.scale
  pure { c with p := some p, i := some i, x := some x, scale := s }

/-- `buildCsc`: SLIP_matrix_copy.c lines 141-197. -/
def buildCscF {α : Type} (wrapped : Bool) (e : Elt α) (Ai Aj : Arr Int) (nz : Int) (W Ci : Arr Int)
    (Cx Yx : Arr α) : F (Arr α × Arr Int) := do
  let (_, Ci, Cx) ← forRangeF 0 nz (W, Ci, Cx) fun k (W, Ci, Cx) => do
    let j ← lift (rd Aj k)
    let p ← lift (rd W j)
    let W ← lift (wr W j (p + 1))
    let i ← lift (rd Ai k)
    let Ci ← lift (wr Ci p i)
    let v ← lift (rd Yx k)
    let Cx ← storeF wrapped Cx p (e.set v)
    pure (W, Ci, Cx)
  pure (Cx, Ci)

/-- A is triplet, C is CSC: SLIP_matrix_copy.c lines 104-202. The status of `SLIP_mpq_set (C->scale, Y->scale)` (line 127) is not
looked at. -/
def copyTripletCscF (junk : ℚ) (fp : Fp) (opt : Option Options) (type : Ty) (A : Mat) (nz : Int) : F Mat := do
  let (y, s) ← slip_cast_matrixF fp opt type A
  need .outOfMemory -- W
  let W := calloc A.n
  let c ← allocateF .csc type A.m A.n nz false true
  let granted ← request -- line 127
  let s := if granted then s else junk
  let W ← lift (forRange 0 nz W fun k W => do
    let j ← rd (deref A.j) k
    let w ← rd W j
    wr W j (w + 1))
  let (p, W) ← lift (slip_cumsum (deref c.p) W A.n)
  let (x, i) ← withValsF opt c.x y fun wrapped e Cx Yx =>
    buildCscF wrapped e (deref A.i) (deref A.j) nz W (deref c.i) Cx Yx
  pure { c with p := some p, i := some i, x := some x, scale := s }

/-- `buildFromDense`: SLIP_matrix_copy.c lines 266-363. -/
def buildFromDenseF {α : Type} (wrapped : Bool) (e : Elt α) (m n : Int) (Cp Ci : Arr Int) (Cx Yx : Arr α) :
    F (Arr α × Arr Int × Arr Int) := do
  let (nz, Cp, Ci, Cx) ← forRangeF 0 n ((0 : Int), Cp, Ci, Cx) fun j (nz, Cp, Ci, Cx) => do
    let Cp ← lift (wr Cp j nz)
    let (nz, Ci, Cx) ← forRangeF 0 m (nz, Ci, Cx) fun i (nz, Ci, Cx) => do
      let v ← lift (rd Yx (i + j * m))
      if e.isZero v then pure (nz, Ci, Cx)
      else do
        let Ci ← lift (wr Ci nz i)
        let Cx ← storeF wrapped Cx nz (e.set v)
        pure (nz + 1, Ci, Cx)
    pure (nz, Cp, Ci, Cx)
  let Cp ← lift (wr Cp n nz)
  pure (Cx, Cp, Ci)

/-- A is dense, C is CSC: SLIP_matrix_copy.c lines 209-365. The status of line 262 is not looked at. -/
def copyDenseCscF (junk : ℚ) (fp : Fp) (opt : Option Options) (type : Ty) (A : Mat) (nz : Int) : F Mat := do
  let (y, s) ← slip_cast_matrixF fp opt type A
  let (_, actual) ← lift (withVals opt y y fun e Y Yx => do
    let a ← countNz e nz Yx
    pure (Y, a))
  let c ← allocateF .csc type A.m A.n actual false true
  let granted ← request -- line 262
  let s := if granted then s else junk
  let (x, p, i) ← withValsF opt c.x y fun wrapped e Cx Yx =>
    buildFromDenseF wrapped e A.m A.n (deref c.p) (deref c.i) Cx Yx
  pure { c with p := some p, i := some i, x := some x, scale := s }

/-- A is CSC, C is triplet: SLIP_matrix_copy.c lines 386-406. -/
def copyCscTripletF (fp : Fp) (opt : Option Options) (type : Ty) (A : Mat) (nz : Int) : F Mat := do
  let c ← allocateF .triplet type A.m A.n nz false true
  let (x, s) ← slip_cast_arrayF fp opt c.x A.x nz c.scale A.scale
  let i ← lift (copyInts (deref c.i) (deref A.i) nz)
  let j ← lift (forRange 0 A.n (deref c.j) fun j Cj => do
    let a ← rd (deref A.p) j
    let b ← rd (deref A.p) (j + 1)
    forRange a b Cj fun p Cj => wr Cj p j)
  pure { c with i := some i, j := some j, x := some x, scale := s, nz := nz }

/-- A is triplet, C is triplet: SLIP_matrix_copy.c lines 413-427. -/
def copyTripletTripletF (fp : Fp) (opt : Option Options) (type : Ty) (A : Mat) (nz : Int) : F Mat := do
  let c ← allocateF .triplet type A.m A.n nz false true
  let j ← lift (copyInts (deref c.j) (deref A.j) nz)
  let i ← lift (copyInts (deref c.i) (deref A.i) nz)
  let (x, s) ← slip_cast_arrayF fp opt c.x A.x nz c.scale A.scale
  pure { c with i := some i, j := some j, x := some x, scale := s, nz := nz }

/-- A is dense, C is triplet: SLIP_matrix_copy.c lines 434-447. -/
def copyDenseTripletF (junk : ℚ) (fp : Fp) (opt : Option Options) (type : Ty) (A : Mat) (nz : Int) : F Mat := do
  let t ← copyDenseCscF junk fp opt type A nz
  let tnz ← lift (SLIP_matrix_nnz true (some t))
  let c ← copyCscTripletF fp opt type t tnz
  pure { c with nz := nz }

/-- `scatterCsc`: SLIP_matrix_copy.c lines 484-549. -/
def scatterCscF {α : Type} (wrapped : Bool) (e : Elt α) (m n : Int) (Ap Ai : Arr Int) (Cx Yx : Arr α) : F (Arr α) :=
  forRangeF 0 n Cx fun j Cx => do
    let a ← lift (rd Ap j)
    let b ← lift (rd Ap (j + 1))
    forRangeF a b Cx fun p Cx => do
      let i ← lift (rd Ai p)
      let v ← lift (rd Yx p)
      storeF wrapped Cx (i + j * m) (e.set v)

/-- A is CSC, C is dense: SLIP_matrix_copy.c lines 462-465 and 475-552. The status of line 476 is not looked at. -/
def copyCscDenseF (junk : ℚ) (fp : Fp) (opt : Option Options) (type : Ty) (A : Mat) (nz : Int) : F Mat := do
  let c ← allocateF .dense type A.m A.n nz false true
  let (y, s) ← slip_cast_matrixF fp opt type A
  let granted ← request -- line 476
  let s := if granted then s else junk
  let (x, _) ← withValsF opt c.x y fun wrapped e Cx Yx => do
    let x ← scatterCscF wrapped e A.m A.n (deref A.p) (deref A.i) Cx Yx
    pure (x, ())
  pure { c with x := some x, scale := s }

/-- `scatterTriplet`: SLIP_matrix_copy.c lines 561-617. -/
def scatterTripletF {α : Type} (wrapped : Bool) (e : Elt α) (m nz : Int) (Ai Aj : Arr Int) (Cx Yx : Arr α) : F (Arr α) :=
  forRangeF 0 nz Cx fun k Cx => do
    let i ← lift (rd Ai k)
    let j ← lift (rd Aj k)
    let v ← lift (rd Yx k)
    storeF wrapped Cx (i + j * m) (e.set v)

/-- A is triplet, C is dense: SLIP_matrix_copy.c lines 462-465 and 554-620. The status of line 560 is not looked at. -/
def copyTripletDenseF (junk : ℚ) (fp : Fp) (opt : Option Options) (type : Ty) (A : Mat) (nz : Int) : F Mat := do
  let c ← allocateF .dense type A.m A.n nz false true
  let (y, s) ← slip_cast_matrixF fp opt type A
  let granted ← request -- line 560
  let s := if granted then s else junk
  let (x, _) ← withValsF opt c.x y fun wrapped e Cx Yx => do
    let x ← scatterTripletF wrapped e A.m nz (deref A.i) (deref A.j) Cx Yx
    pure (x, ())
  pure { c with x := some x, scale := s }

/-- A is dense, C is dense: SLIP_matrix_copy.c lines 462-465 and 626-632. -/
def copyDenseDenseF (fp : Fp) (opt : Option Options) (type : Ty) (A : Mat) (nz : Int) : F Mat := do
  let c ← allocateF .dense type A.m A.n nz false true
  let (x, s) ← slip_cast_arrayF fp opt c.x A.x nz c.scale A.scale
  pure { c with x := some x, scale := s }

/-- The `switch`es on `C_kind` and `A->kind`: SLIP_matrix_copy.c lines 71-640. -/
def copyBodyF (junk : ℚ) (fp : Fp) (opt : Option Options) (kind : Kind) (type : Ty) (A : Mat) (nz : Int) : F Mat :=
  match kind, A.kind with
  | .csc, .csc => copyCscCscF fp opt type A nz
  | .csc, .triplet => copyTripletCscF junk fp opt type A nz
  | .csc, .dense => copyDenseCscF junk fp opt type A nz
  | .triplet, .csc => copyCscTripletF fp opt type A nz
  | .triplet, .triplet => copyTripletTripletF fp opt type A nz
  | .triplet, .dense => copyDenseTripletF junk fp opt type A nz
  | .dense, .csc => copyCscDenseF junk fp opt type A nz
  | .dense, .triplet => copyTripletDenseF junk fp opt type A nz
  | .dense, .dense => copyDenseDenseF fp opt type A nz
  | _, _ => lift (.error .ub)

/-- `SLIP_matrix_copy`: SLIP_matrix_copy.c lines 31-650. `junk` is the scale after a refused and ignored `SLIP_mpq_set`. -/
def SLIP_matrix_copyF (junk : ℚ) (fp : Fp) (init : Bool) (Ch : Handle Mat) (kind : Kind) (type : Ty)
    (A : Option Mat) (opt : Option Options) : F (Info × Handle Mat) :=
  if !init then pure (.panic, Ch)
  else do
    let nz ← lift (SLIP_matrix_nnz init A)
    match A with
    | none => pure (.incorrectInput, Ch)
    | some A =>
      if Ch = none ∨ nz < 0 ∨ A.type.ok = false ∨ kind.ok = false ∨ type.ok = false then
        pure (.incorrectInput, Ch)
      else wrap copyWrap (copyBodyF junk fp opt kind type A nz)

/-- `SLIP_backslash`: SLIP_backslash.c lines 46-135. `junk` as for
`SLIP_matrix_copy`. -/
def SLIP_backslashF (junk : ℚ) (fp : Fp) (O : Orderings) (nc : Int → Int → ℚ → Bool) (init : Bool)
    (X : Handle Mat) (type : Ty) (A b : Option Mat) (opt : Option Options) : F (Info × Handle Mat) :=
  if !init then pure (.panic, X)
  else if X = none then pure (.incorrectInput, X)
  else if type ≠ .mpq ∧ type ≠ .fp64 ∧ type ≠ .mpfr then pure (.incorrectInput, some none)
  else if requireFails A .csc .mpz then pure (.incorrectInput, some none)
  else if requireFails b .dense .mpz then pure (.incorrectInput, some none)
  else do
    let (info, S) ← SLIP_LU_analyzeF O init (some none) A opt
    if info ≠ .ok then pure (info, some none)
    else do
      let f ← SLIP_LU_factorizeF nc init (some none) (some none) (some none) (some none) A S.join opt
      if f.info ≠ .ok then pure (f.info, some none)
      else do
        let (info, x) ← SLIP_LU_solveF init (some none) b A f.L.join f.U.join f.rhos.join S.join f.pinv.join opt
        if info ≠ .ok then pure (info, some none)
        else if type = .mpq then pure (.ok, x)
        else do
          let (info, x2) ← SLIP_matrix_copyF junk fp init (some none) .dense type x.join opt
          if info ≠ .ok then pure (info, some none) else pure (.ok, x2)

end Slip.Flaky
