import Verif.Model.Convert

/-!
# `SLIP_matrix_copy` over a heap

In `Verif/Model/Convert.lean` an array is a value, so that the copy of a matrix cannot share an array with the original. C
passes pointers, and `slip_cast_matrix` does make an object that shares its values with `A`. This file transcribes
`SLIP_matrix_allocate`, `slip_cumsum`, the `slip_expand_*` functions, `slip_cast_array`, `slip_cast_matrix`,
`SLIP_matrix_copy` and `SLIP_matrix_free` once more, statement by statement, with all arrays in a heap.

Simplifications:
* the scalar fields of an object (among them `scale`) and the local variables are values; only the arrays are in the heap;
* an array knows the type of its elements (`Vals`), and `SLIP_X (A), A->type` is such an array; access with another
  type, to a freed array or through NULL is undefined behaviour;
* on an error return the model leaves the workspace in the heap (that nothing is lost is the subject of
  `Verif/Model/Memory.lean`); references are not reused.
-/

namespace Slip.Copy

/-- The memory: `a r` is the array that the pointer `r` points to, `none` if it has been freed or never existed. Pointers below
`next` have been handed out. -/
structure Heap where
  a : ℕ → Option Vals
  next : ℕ

/-- A C computation that works on the heap. The heap is there also when the computation fails. -/
def K (α : Type) := Heap → Except Fail α × Heap

instance : Monad K where
  pure a := fun h => (.ok a, h)
  bind m f := fun h =>
    match m h with
    | (.ok a, h) => f a h
    | (.error e, h) => (.error e, h)

/-- A computation that does not use the heap. -/
def lift {α : Type} (m : C α) : K α := fun h => (m, h)

/-- Store `v` under the pointer `r`. -/
def Heap.put (h : Heap) (r : ℕ) (v : Option Vals) : Heap :=
  { h with a := fun s => if s = r then v else h.a s }

/-- The element type of an array. -/
structure Acc (α : Type) where
  get : Vals → Option (Arr α)
  of : Arr α → Vals
  get_of : ∀ a, get (of a) = some a

/-- `mpz_t`. -/
def accZ : Acc Int := ⟨fun | .mpz a => some a | _ => none, .mpz, fun _ => rfl⟩
/-- `mpq_t`. -/
def accQ : Acc ℚ := ⟨fun | .mpq a => some a | _ => none, .mpq, fun _ => rfl⟩
/-- `mpfr_t`. -/
def accR : Acc Dbl := ⟨fun | .mpfr a => some a | _ => none, .mpfr, fun _ => rfl⟩
/-- `int64_t`. -/
def accI : Acc Int := ⟨fun | .int64 a => some a | _ => none, .int64, fun _ => rfl⟩
/-- `double`. -/
def accD : Acc Dbl := ⟨fun | .fp64 a => some a | _ => none, .fp64, fun _ => rfl⟩

variable {α β σ : Type}

/-- What is behind a pointer; nothing can be accessed through NULL, a dangling pointer or one of another type. -/
def arr (T : Acc α) (h : Heap) (p : Option ℕ) : Arr α := ((p.bind h.a).bind T.get).getD []

/-- `p [i]`. -/
def rdK (T : Acc α) (p : Option ℕ) (i : Int) : K α := fun h => (rd (arr T h p) i, h)

/-- An operation that changes the array behind `p`. -/
def modK (T : Acc α) (p : Option ℕ) (f : Arr α → C (Arr α)) : K Unit := fun h =>
  match p with
  | none => (.error .ub, h)
  | some r =>
    match (h.a r).bind T.get with
    | none => (.error .ub, h)
    | some a =>
      match f a with
      | .ok a => (.ok (), h.put r (some (T.of a)))
      | .error e => (.error e, h)

/-- `p [i] = v`. -/
def wrK (p : Option ℕ) (i v : Int) : K Unit := modK accI p fun a => wr a i v

/-- `p [i] = v` or a GMP or MPFR function that stores `v` in `p [i]`. -/
def zsetK (T : Acc α) (p : Option ℕ) (i : Int) (v : α) : K Unit := modK T p fun a => zset a i v

/-- A new array. -/
def newK (v : Vals) : K (Option ℕ) := fun h =>
  (.ok (some h.next), { h.put h.next (some v) with next := h.next + 1 })

/-- `SLIP_free`. A pointer to an array that does not exist must not be freed. -/
def freeK (p : Option ℕ) : K Unit := fun h =>
  match p with
  | none => (.ok (), h)
  | some r => if (h.a r).isSome then (.ok (), h.put r none) else (.error .ub, h)

/-- `for (i = lo ; i < lo + cnt ; i++)`; `s` are the scalar variables changed by the body. -/
def forCntK : Nat → Int → σ → (Int → σ → K σ) → K σ
  | 0, _, s, _ => pure s
  | m + 1, lo, s, f => do
    let s ← f lo s
    forCntK m (lo + 1) s f

/-- `for (i = lo ; i < hi ; i++)`. -/
def forK (lo hi : Int) (s : σ) (f : Int → σ → K σ) : K σ := forCntK (hi - lo).toNat lo s f

/-- `SLIP_matrix`: SLIP_LU.h lines 308-343, the arrays are pointers. -/
structure MatK where
  m : Int
  n : Int
  nzmax : Int
  nz : Int
  kind : Kind
  type : Ty
  p : Option ℕ
  pShallow : Bool
  i : Option ℕ
  iShallow : Bool
  j : Option ℕ
  jShallow : Bool
  x : Option ℕ
  xShallow : Bool
  scale : ℚ

/-- `SLIP_matrix_nnz`, SLIP_matrix_nnz.c lines 14-52. -/
def SLIP_matrix_nnzK (init : Bool) (A : Option MatK) : K Int :=
  if !init then pure (-1)
  else match A with
  | none => pure (-1)
  | some A =>
    match A.kind with
    | .csc => match A.p with
      | none => pure (-1)
      | some p => if A.n < 0 then pure (-1) else rdK accI (some p) A.n
    | .triplet => pure A.nz
    | .dense => if A.m < 0 ∨ A.n < 0 then pure (-1) else pure (A.m * A.n)
    | .bad _ => pure (-1)

/-- A new array, unless it is not needed: SLIP_matrix_allocate.c lines 119-142. -/
def newIf (b : Bool) (v : Vals) : K (Option ℕ) := if b then newK v else pure none

/-- The array of the values, SLIP_matrix_allocate.c lines 144-188. -/
def newX : Option Vals → K (Option ℕ)
  | none => pure none
  | some v => newK v

/-- `SLIP_matrix_allocate`, SLIP_matrix_allocate.c lines 24-198 (see `allocate`). -/
def allocateK (kind : Kind) (type : Ty) (m n nzmax : Int) (shallow init : Bool) : K MatK :=
  if m < 0 ∨ n < 0 ∨ kind.ok = false ∨ type.ok = false then lift (.error (.ret .incorrectInput))
  else
    let nzmax := max (if kind = .dense then m * n else nzmax) 1
    let A : MatK :=
      { m := m, n := n, nzmax := nzmax, nz := 0, kind := kind, type := type,
        p := none, pShallow := shallow, i := none, iShallow := shallow,
        j := none, jShallow := shallow, x := none, xShallow := shallow, scale := 1 }
    if shallow then pure A
    else do
      let p ← newIf (decide (kind = .csc)) (.int64 (calloc (n + 1)))
      let i ← newIf (!decide (kind = .dense)) (.int64 (calloc nzmax))
      let j ← newIf (decide (kind = .triplet)) (.int64 (calloc nzmax))
      let x ← newX (newVals type nzmax init)
      pure { A with p := p, i := i, j := j, x := x }

/-- `SLIP_FREE` of an array of an object, unless it is shallow. -/
def freeIfK (p : Option ℕ) (shallow : Bool) : K Unit := if shallow then pure () else freeK p

/-- `SLIP_matrix_free`, SLIP_matrix_free.c lines 21-111. -/
def SLIP_matrix_freeK (A : Option MatK) : K Unit :=
  match A with
  | none => pure ()
  | some A => do
    freeIfK A.x A.xShallow
    freeIfK A.p A.pShallow
    freeIfK A.i A.iShallow
    freeIfK A.j A.jShallow

/-- `slip_cumsum`, slip_cumsum.c lines 17-38. -/
def slip_cumsumK (p c : Option ℕ) (n : Int) : K Unit := do
  let nz ← forK 0 n (0 : Int) fun i nz => do
    wrK p i nz
    let ci ← rdK accI c i
    let pi ← rdK accI p i
    wrK c i pi
    pure (nz + ci)
  wrK p n nz

/-! ## slip_expand_mpq_array, slip_expand_double_array, slip_expand_mpfr_array -/

/-- `slip_expand_mpq_array`, slip_expand_mpq_array.c lines 23-76. Returns `scale`. -/
def slip_expand_mpq_arrayK (x_out x : Option ℕ) (n : Int) : K ℚ := do
  let x3 ← newK (.mpz (List.replicate (max n 1).toNat (some 0)))
  let x4 ← newK (.mpq (List.replicate (max n 1).toNat (some 0)))
  forK 0 n () fun i _ => do
    let v ← rdK accQ x i
    zsetK accZ x3 i v.den
  let t ← rdK accZ x3 0
  let temp ← forK 1 n t fun i temp => do
    let d ← rdK accZ x3 i
    pure (Int.lcm d temp : Int)
  let scale : ℚ := temp
  forK 0 n () fun i _ => do
    let v ← rdK accQ x i
    zsetK accQ x4 i (v * scale)
    let w ← rdK accQ x4 i
    zsetK accZ x_out i (roundInt 1 w)
  freeK x3
  freeK x4
  pure scale

/-- The first nonzero and the gcd, slip_expand_double_array.c lines 79-104, slip_expand_mpfr_array.c lines 88-113 (see
`gcdLoop`). -/
def gcdLoopK (x : Option ℕ) : Nat → Int → Option (Int × Int) → K (Option (Int × Int × Bool))
  | 0, _, s => pure (s.map fun (k, g) => (k, g, false))
  | c + 1, i, none => do
    let v ← rdK accZ x i
    if v ≠ 0 then gcdLoopK x c (i + 1) (some (i, v)) else gcdLoopK x c (i + 1) none
  | c + 1, i, some (k, g) => do
    let v ← rdK accZ x i
    let g : Int := Int.gcd g v
    if g = 1 then pure (some (k, g, true)) else gcdLoopK x c (i + 1) (some (k, g))

/-- The reduction by the gcd, slip_expand_double_array.c lines 78-131, slip_expand_mpfr_array.c lines 86-140 (see
`reduceGcd`). Returns `scale`. -/
def reduceGcdK (x_out : Option ℕ) (scale : ℚ) (n : Int) : K ℚ := do
  let r ← gcdLoopK x_out n.toNat 0 none
  match r with
  | none => pure 0
  | some (_, _, true) => pure scale
  | some (k, g, false) => do
    forK k n () fun i _ => do
      let v ← rdK accZ x_out i
      let d ← lift (divexact v g)
      zsetK accZ x_out i d
    pure (scale / g)

/-- `slip_expand_double_array`, slip_expand_double_array.c lines 26-133. Returns `scale`. -/
def slip_expand_double_arrayK (opt : Option Options) (x_out x : Option ℕ) (n : Int) : K ℚ := do
  let x3 ← newK (.mpfr (List.replicate (max n 1).toNat (some .nan)))
  let rnd := mpfrRnd (optPrec opt) (optRound opt)
  forK 0 n () fun i _ => do
    let v ← rdK accD x i
    zsetK accR x3 i (rnd v)
    let v ← rdK accR x3 i
    zsetK accR x3 i (rnd (v.mulPos (10 ^ 17)))
    let v ← rdK accR x3 i
    zsetK accZ x_out i (mpfrGetZ (optRound opt) v)
  let s ← reduceGcdK x_out (10 ^ 17) n
  freeK x3
  pure s

/-- `slip_expand_mpfr_array`, slip_expand_mpfr_array.c lines 27-142. Returns `scale`. -/
def slip_expand_mpfr_arrayK (opt : Option Options) (x_out x : Option ℕ) (n : Int) : K ℚ := do
  let x3 ← newK (.mpfr (List.replicate (max n 1).toNat (some .nan)))
  let expon : ℚ := 2 ^ (optPrec opt).toNat
  forK 0 n () fun i _ => do
    let v ← rdK accR x i
    zsetK accR x3 i (mpfrRnd (optPrec opt) (optRound opt) (v.mulPos expon))
    let v ← rdK accR x3 i
    zsetK accZ x_out i (mpfrGetZ (optRound opt) v)
  let s ← reduceGcdK x_out expon n
  freeK x3
  pure s

/-! ## slip_cast_array -/

/-- `for (k = 0 ; k < n ; k++) y [k] = f (x [k])`. -/
def castLoopK (Ty : Acc β) (Tx : Acc α) (f : Int → α → C β) (y x : Option ℕ) (n : Int) : K Unit :=
  forK 0 n () fun k _ => do
    let v ← rdK Tx x k
    let w ← lift (f k v)
    zsetK Ty y k w

/-- `SLIP_X (A), A->type`: the pointer may be NULL; a dangling pointer must not be used. -/
def valsK (p : Option ℕ) : K (Option Vals) := fun h =>
  match p with
  | none => (.ok none, h)
  | some r => match h.a r with
    | none => (.error .ub, h)
    | some v => (.ok (some v), h)

/-- The `switch`es on the two types, slip_cast_array.c lines 76-478 (see `slip_cast_array`); `yt`, `xt` are the types.
Returns `y_scale`. -/
def castSwitchK (fp : Fp) (opt : Option Options) (yt xt : Option Vals) (y x : Option ℕ) (n : Int) (ys xs : ℚ) : K ℚ :=
  let prec := optPrec opt
  let rnd := optRound opt
  match yt, xt with
  | some (.mpz _), some (.mpz _) => do
    castLoopK accZ accZ (fun _ v => pure v) y x n
    pure xs
  | some (.mpz _), some (.mpq _) => slip_expand_mpq_arrayK y x n
  | some (.mpz _), some (.mpfr _) => slip_expand_mpfr_arrayK opt y x n
  | some (.mpz _), some (.int64 _) => do
    castLoopK accZ accI (fun _ v => pure v) y x n
    pure 1
  | some (.mpz _), some (.fp64 _) => slip_expand_double_arrayK opt y x n
  | some (.mpq _), some (.mpz _) => do
    castLoopK accQ accZ (fun _ v => unscaleZ xs v) y x n
    pure ys
  | some (.mpq _), some (.mpq _) => do
    castLoopK accQ accQ (fun _ v => pure v) y x n
    pure ys
  | some (.mpq _), some (.mpfr _) => do
    castLoopK accQ accR (fun _ v => pure (mpfrGetQ v)) y x n
    pure ys
  | some (.mpq _), some (.int64 _) => do
    castLoopK accQ accI (fun k (v : Int) => pure ((v : ℚ) / fp.addr k)) y x n
    pure ys
  | some (.mpq _), some (.fp64 _) => do
    castLoopK accQ accD (fun _ v => mpqSetD v) y x n
    pure ys
  | some (.mpfr _), some (.mpz _) => do
    castLoopK accR accZ (fun _ v => do let q ← unscaleZ xs v; pure (mpfrRnd prec rnd (.fin q))) y x n
    pure ys
  | some (.mpfr _), some (.mpq _) => do
    castLoopK accR accQ (fun _ v => pure (mpfrRnd prec rnd (.fin v))) y x n
    pure ys
  | some (.mpfr _), some (.mpfr _) => do
    castLoopK accR accR (fun _ v => pure (mpfrRnd prec rnd v)) y x n
    pure ys
  | some (.mpfr _), some (.int64 _) => do
    castLoopK accR accI (fun _ (v : Int) => pure (mpfrRnd prec rnd (.fin v))) y x n
    pure ys
  | some (.mpfr _), some (.fp64 _) => do
    castLoopK accR accD (fun _ v => pure (mpfrRnd prec rnd v)) y x n
    pure ys
  | some (.int64 _), some (.mpz _) => do
    castLoopK accI accZ (fun _ v => if xs = 1 then pure (mpzGetSi v)
      else do let q ← unscaleZ xs v; slip_cast_double_to_int64 (fp.mpqGetD q)) y x n
    pure ys
  | some (.int64 _), some (.mpq _) => do
    castLoopK accI accQ (fun _ v => slip_cast_double_to_int64 (fp.mpqGetD v)) y x n
    pure ys
  | some (.int64 _), some (.mpfr _) => do
    castLoopK accI accR (fun _ v => pure (mpfrGetSi rnd v)) y x n
    pure ys
  | some (.int64 _), some (.int64 _) => do
    castLoopK accI accI (fun _ v => pure v) y x n
    pure ys
  | some (.int64 _), some (.fp64 _) => do
    castLoopK accI accD (fun _ v => slip_cast_double_to_int64 v) y x n
    pure ys
  | some (.fp64 _), some (.mpz _) => do
    castLoopK accD accZ (fun _ v => if xs = 1 then pure (fp.mpzGetD v)
      else do let q ← unscaleZ xs v; pure (fp.mpqGetD q)) y x n
    pure ys
  | some (.fp64 _), some (.mpq _) => do
    castLoopK accD accQ (fun _ v => pure (fp.mpqGetD v)) y x n
    pure ys
  | some (.fp64 _), some (.mpfr _) => do
    castLoopK accD accR (fun _ v => pure (fp.mpfrGetD rnd v)) y x n
    pure ys
  | some (.fp64 _), some (.int64 _) => do
    castLoopK accD accI (fun _ v => pure (fp.int64ToD v)) y x n
    pure ys
  | some (.fp64 _), some (.fp64 _) => do
    castLoopK accD accD (fun _ v => pure v) y x n
    pure ys
  | _, _ => lift (.error (.ret .incorrectInput))

/-- `slip_cast_array`, slip_cast_array.c lines 43-478. Returns `y_scale`. -/
def slip_cast_arrayK (fp : Fp) (opt : Option Options) (y x : Option ℕ) (n : Int) (ys xs : ℚ) : K ℚ := do
  let yt ← valsK y
  let xt ← valsK x
  castSwitchK fp opt yt xt y x n ys xs

/-- `slip_cast_matrix`, slip_cast_matrix.c lines 20-102. If the types agree, `Y` is shallow: its values are those of `A`. -/
def slip_cast_matrixK (fp : Fp) (opt : Option Options) (type : Ty) (A : MatK) : K MatK := do
  let nz ← SLIP_matrix_nnzK true (some A)
  let Y ← allocateK .dense type nz 1 nz (decide (type = A.type)) true
  if type = A.type then pure { Y with x := A.x }
  else do
    let s ← slip_cast_arrayK fp opt Y.x A.x nz Y.scale A.scale
    pure { Y with scale := s }

/-! ## SLIP_matrix_copy -/

/-- The five `case`s of a `switch (C->type)` whose bodies differ only in the element type, for the arrays `c` and `y` (see
`withVals`). -/
def withValsK (opt : Option Options) (c y : Option ℕ) (f : {α : Type} → Acc α → Elt α → K β) : K β := do
  let ct ← valsK c
  let yt ← valsK y
  match ct, yt with
  | some (.mpz _), some (.mpz _) => f accZ eltZ
  | some (.mpq _), some (.mpq _) => f accQ eltQ
  | some (.mpfr _), some (.mpfr _) => f accR (eltR opt)
  | some (.int64 _), some (.int64 _) => f accI eltZ
  | some (.fp64 _), some (.fp64 _) => f accD eltD
  | _, _ => lift (.error .ub)

/-- `memcpy (dst, src, n * sizeof (int64_t))`. -/
def copyIntsK (dst src : Option ℕ) (n : Int) : K Unit :=
  forK 0 n () fun k _ => do
    let v ← rdK accI src k
    wrK dst k v

/-- A is CSC, C is CSC: SLIP_matrix_copy.c lines 86-97. -/
def copyCscCscK (fp : Fp) (opt : Option Options) (type : Ty) (A : MatK) (nz : Int) : K MatK := do
  let c ← allocateK .csc type A.m A.n nz false true
  copyIntsK c.p A.p (A.n + 1)
  copyIntsK c.i A.i nz
  let s ← slip_cast_arrayK fp opt c.x A.x nz c.scale A.scale
  pure { c with scale := s }

/-- The building loop, SLIP_matrix_copy.c lines 141-197. -/
def buildCscK (T : Acc α) (e : Elt α) (Ai Aj : Option ℕ) (nz : Int) (W Ci Cx Yx : Option ℕ) : K Unit :=
  forK 0 nz () fun k _ => do
    let j ← rdK accI Aj k
    let p ← rdK accI W j
    wrK W j (p + 1)
    let i ← rdK accI Ai k
    wrK Ci p i
    let v ← rdK T Yx k
    zsetK T Cx p (e.set v)

/-- A is triplet, C is CSC: SLIP_matrix_copy.c lines 104-202, and `SLIP_FREE_WORK`. -/
def copyTripletCscK (fp : Fp) (opt : Option Options) (type : Ty) (A : MatK) (nz : Int) : K MatK := do
  let Y ← slip_cast_matrixK fp opt type A
  let W ← newK (.int64 (calloc A.n))
  let c ← allocateK .csc type A.m A.n nz false true
  forK 0 nz () fun k _ => do
    let j ← rdK accI A.j k
    let w ← rdK accI W j
    wrK W j (w + 1)
  slip_cumsumK c.p W A.n
  withValsK opt c.x Y.x fun T e => buildCscK T e A.i A.j nz W c.i c.x Y.x
  SLIP_matrix_freeK (some Y)
  freeK W
  pure { c with scale := Y.scale }

/-- Count the nonzeros, SLIP_matrix_copy.c lines 216-258. -/
def countNzK (T : Acc α) (e : Elt α) (nz : Int) (Yx : Option ℕ) : K Int :=
  forK 0 nz 0 fun k actual => do
    let v ← rdK T Yx k
    if e.isZero v then pure actual else pure (actual + 1)

/-- Construct C from a dense Y, SLIP_matrix_copy.c lines 266-363. -/
def buildFromDenseK (T : Acc α) (e : Elt α) (m n : Int) (Cp Ci Cx Yx : Option ℕ) : K Unit := do
  let nz ← forK 0 n (0 : Int) fun j nz => do
    wrK Cp j nz
    forK 0 m nz fun i nz => do
      let v ← rdK T Yx (i + j * m)
      if e.isZero v then pure nz
      else do
        wrK Ci nz i
        zsetK T Cx nz (e.set v)
        pure (nz + 1)
  wrK Cp n nz

/-- A is dense, C is CSC: SLIP_matrix_copy.c lines 209-365, and `SLIP_FREE_WORK`. -/
def copyDenseCscK (fp : Fp) (opt : Option Options) (type : Ty) (A : MatK) (nz : Int) : K MatK := do
  let Y ← slip_cast_matrixK fp opt type A
  let actual ← withValsK opt Y.x Y.x fun T e => countNzK T e nz Y.x
  let c ← allocateK .csc type A.m A.n actual false true
  withValsK opt c.x Y.x fun T e => buildFromDenseK T e A.m A.n c.p c.i c.x Y.x
  SLIP_matrix_freeK (some Y)
  pure { c with scale := Y.scale }

/-- A is CSC, C is triplet: SLIP_matrix_copy.c lines 386-406. -/
def copyCscTripletK (fp : Fp) (opt : Option Options) (type : Ty) (A : MatK) (nz : Int) : K MatK := do
  let c ← allocateK .triplet type A.m A.n nz false true
  let s ← slip_cast_arrayK fp opt c.x A.x nz c.scale A.scale
  copyIntsK c.i A.i nz
  forK 0 A.n () fun j _ => do
    let a ← rdK accI A.p j
    let b ← rdK accI A.p (j + 1)
    forK a b () fun p _ => wrK c.j p j
  pure { c with scale := s, nz := nz }

/-- A is triplet, C is triplet: SLIP_matrix_copy.c lines 413-427. -/
def copyTripletTripletK (fp : Fp) (opt : Option Options) (type : Ty) (A : MatK) (nz : Int) : K MatK := do
  let c ← allocateK .triplet type A.m A.n nz false true
  copyIntsK c.j A.j nz
  copyIntsK c.i A.i nz
  let s ← slip_cast_arrayK fp opt c.x A.x nz c.scale A.scale
  pure { c with scale := s, nz := nz }

/-- A is dense, C is triplet: SLIP_matrix_copy.c lines 434-447; the two calls of `SLIP_matrix_copy`, and T is freed. -/
def copyDenseTripletK (fp : Fp) (opt : Option Options) (type : Ty) (A : MatK) (nz : Int) : K MatK := do
  let t ← copyDenseCscK fp opt type A nz
  let tnz ← SLIP_matrix_nnzK true (some t)
  let c ← copyCscTripletK fp opt type t tnz
  SLIP_matrix_freeK (some t)
  pure { c with nz := nz }

/-- Scatter the entries of a CSC matrix, SLIP_matrix_copy.c lines 484-549. -/
def scatterCscK (T : Acc α) (e : Elt α) (m n : Int) (Ap Ai Cx Yx : Option ℕ) : K Unit :=
  forK 0 n () fun j _ => do
    let a ← rdK accI Ap j
    let b ← rdK accI Ap (j + 1)
    forK a b () fun p _ => do
      let i ← rdK accI Ai p
      let v ← rdK T Yx p
      zsetK T Cx (i + j * m) (e.set v)

/-- A is CSC, C is dense: SLIP_matrix_copy.c lines 462-465 and 475-552, and `SLIP_FREE_WORK`. -/
def copyCscDenseK (fp : Fp) (opt : Option Options) (type : Ty) (A : MatK) (nz : Int) : K MatK := do
  let c ← allocateK .dense type A.m A.n nz false true
  let Y ← slip_cast_matrixK fp opt type A
  withValsK opt c.x Y.x fun T e => scatterCscK T e A.m A.n A.p A.i c.x Y.x
  SLIP_matrix_freeK (some Y)
  pure { c with scale := Y.scale }

/-- Scatter triplets, SLIP_matrix_copy.c lines 561-617. -/
def scatterTripletK (T : Acc α) (e : Elt α) (m nz : Int) (Ai Aj Cx Yx : Option ℕ) : K Unit :=
  forK 0 nz () fun k _ => do
    let i ← rdK accI Ai k
    let j ← rdK accI Aj k
    let v ← rdK T Yx k
    zsetK T Cx (i + j * m) (e.set v)

/-- A is triplet, C is dense: SLIP_matrix_copy.c lines 462-465 and 554-620, and `SLIP_FREE_WORK`. -/
def copyTripletDenseK (fp : Fp) (opt : Option Options) (type : Ty) (A : MatK) (nz : Int) : K MatK := do
  let c ← allocateK .dense type A.m A.n nz false true
  let Y ← slip_cast_matrixK fp opt type A
  withValsK opt c.x Y.x fun T e => scatterTripletK T e A.m nz A.i A.j c.x Y.x
  SLIP_matrix_freeK (some Y)
  pure { c with scale := Y.scale }

/-- A is dense, C is dense: SLIP_matrix_copy.c lines 462-465 and 626-632. -/
def copyDenseDenseK (fp : Fp) (opt : Option Options) (type : Ty) (A : MatK) (nz : Int) : K MatK := do
  let c ← allocateK .dense type A.m A.n nz false true
  let s ← slip_cast_arrayK fp opt c.x A.x nz c.scale A.scale
  pure { c with scale := s }

/-- The `switch`es on `C_kind` and `A->kind`, SLIP_matrix_copy.c lines 71-640. -/
def copyBodyK (fp : Fp) (opt : Option Options) (kind : Kind) (type : Ty) (A : MatK) (nz : Int) : K MatK :=
  match kind, A.kind with
  | .csc, .csc => copyCscCscK fp opt type A nz
  | .csc, .triplet => copyTripletCscK fp opt type A nz
  | .csc, .dense => copyDenseCscK fp opt type A nz
  | .triplet, .csc => copyCscTripletK fp opt type A nz
  | .triplet, .triplet => copyTripletTripletK fp opt type A nz
  | .triplet, .dense => copyDenseTripletK fp opt type A nz
  | .dense, .csc => copyCscDenseK fp opt type A nz
  | .dense, .triplet => copyTripletDenseK fp opt type A nz
  | .dense, .dense => copyDenseDenseK fp opt type A nz
  | _, _ => lift (.error .ub)

/-- The return paths: SLIP_matrix_copy.c lines 57 and 644-649. -/
def copyWrapK (m : K MatK) : K (Info × Handle MatK) := fun h =>
  match m h with
  | (.ok M, h) => (.ok (.ok, some (some M)), h)
  | (.error (.ret e), h) => (.ok (e, some none), h)
  | (.error f, h) => (.error f, h)

/-- `SLIP_matrix_copy`, SLIP_matrix_copy.c lines 31-650. -/
def SLIP_matrix_copyK (fp : Fp) (init : Bool) (Ch : Handle MatK) (kind : Kind) (type : Ty)
    (A : Option MatK) (opt : Option Options) : K (Info × Handle MatK) :=
  if !init then pure (.panic, Ch)
  else do
    let nz ← SLIP_matrix_nnzK init A
    match A with
    | none => pure (.incorrectInput, Ch)
    | some A =>
      if Ch.isNone ∨ nz < 0 ∨ A.type.ok = false ∨ kind.ok = false ∨ type.ok = false then
        pure (.incorrectInput, Ch)
      else copyWrapK (copyBodyK fp opt kind type A nz)

/-! ## Specification -/

/-- The matrix as a value: every pointer replaced by the array it points to in `h`. -/
def MatK.view (h : Heap) (A : MatK) : Mat :=
  { m := A.m, n := A.n, nzmax := A.nzmax, nz := A.nz, kind := A.kind, type := A.type,
    p := A.p.map fun r => arr accI h (some r), pShallow := A.pShallow
    i := A.i.map fun r => arr accI h (some r), iShallow := A.iShallow
    j := A.j.map fun r => arr accI h (some r), jShallow := A.jShallow
    x := A.x.bind h.a, xShallow := A.xShallow, scale := A.scale }

/-- The pointers of an object. -/
def MatK.refs (A : MatK) : List ℕ := A.p.toList ++ A.i.toList ++ A.j.toList ++ A.x.toList

/-- No pointer of the object is dangling. -/
def MatK.Live (h : Heap) (A : MatK) : Prop := ∀ r ∈ A.refs, (h.a r).isSome

/-- A pointer that has not been handed out does not point to anything. -/
def Heap.Ok (h : Heap) : Prop := ∀ r, h.next ≤ r → h.a r = none

/-- Every array of `h` is unchanged in `h'`; new arrays may have been added. -/
def Keeps (h h' : Heap) : Prop := h.next ≤ h'.next ∧ ∀ r, r < h.next → h'.a r = h.a r

/-- `h'` is `h` with the arrays `rs` added, and nothing else: they are pairwise different, did not exist before, exist now, and every
other pointer points to what it pointed to before. -/
def Adds (h h' : Heap) (rs : List ℕ) : Prop :=
  h.next ≤ h'.next ∧ rs.Nodup ∧ (∀ r ∈ rs, h.next ≤ r ∧ r < h'.next ∧ (h'.a r).isSome) ∧ ∀ r, r ∉ rs → h'.a r = h.a r

/-- The result of `SLIP_matrix_copy` as a value. -/
def copyView (h : Heap) (r : Info × Handle MatK) : Info × Handle Mat := (r.1, r.2.map (Option.map (MatK.view h)))

end Slip.Copy
