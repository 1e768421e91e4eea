import Verif.Model.Gmp
import Verif.Model.Matrix

/-!
# Who allocates and frees what: the library's functions as users of memory

This file models every allocation, wrapped GMP call and deallocation of the functions behind
`SLIP_LU_analyze`, `SLIP_LU_factorize`, `SLIP_LU_solve`, `SLIP_backslash`, `SLIP_matrix_copy`,
`SLIP_matrix_allocate` and `SLIP_matrix_free`, in the order of the C code, with every return path.

The numerical values are not kept here (they are in `Verif/Model/Factor.lean`, `Solve.lean`,
`Convert.lean`). What depends on them - which branch is taken, how often a loop runs, which entry is
written - is chosen by the environment: each such choice takes the next number of the stream `Env.dec`.
All theorems hold for every environment, hence for the choices that the actual values make. A matrix
that a function only reads is not an argument of its model, unless its pointers are used.

What a GMP function does with memory is chosen by the environment, too (`Env.upd`, `Env.ini`).
-/

namespace Slip.Mem

/-- The pointers to limbs in an `mpz_t`, `mpfr_t` (one) or `mpq_t` (two). -/
abbrev Obj := List (Option Addr)

/-- What the model leaves open. -/
structure Env where
  /-- the memory operations of the `k`-th GMP call, for an object, when MPFR's cache is as given -/
  upd : ℕ → Obj → List Addr → Gmp
  /-- the same for `mpz_init`, `mpz_init2`, `mpq_init`, `mpfr_init2`: these do not look at the object,
  which has the given number of pointers -/
  ini : ℕ → ℕ → List Addr → Gmp
  /-- choices that depend on the values -/
  dec : ℕ → ℕ

/-- The state of a computation. -/
structure St where
  g : G
  env : Env
  /-- number of GMP calls so far -/
  calls : ℕ
  /-- number of choices so far -/
  draws : ℕ

/-- Computations that use memory. -/
abbrev M (α : Type) := StateT St C α

/-- Undefined behaviour: a NULL pointer is followed, or an array is accessed out of bounds. -/
def ub {α : Type} : M α := fun _ => .error .ub

/-- A choice that depends on the values. -/
def choose : M ℕ := fun st => .ok (st.env.dec st.draws, { st with draws := st.draws + 1 })

/-- `SLIP_malloc` or `SLIP_calloc`. -/
def mMalloc : M (Option Addr) := fun st =>
  .ok ((slipMalloc st.g).1, { st with g := (slipMalloc st.g).2 })

/-- `SLIP_FREE (p)`, SLIP_LU.h lines 483-487: the caller's variable becomes NULL. -/
def mFree (p : Option Addr) : M Unit := fun st =>
  match slipFree p st.g with
  | .ok _ g => .ok ((), { st with g := g })
  | _ => .error .ub

/-- `SLIP_realloc` to a larger size. -/
def mGrow (p : Option Addr) : M (Option Addr × Bool) := fun st =>
  match p with
  | none => .ok (((slipMalloc st.g).1, (slipMalloc st.g).1.isSome), { st with g := (slipMalloc st.g).2 })
  | some p =>
    match slipRealloc p st.g with
    | .ok (q, ok) g => .ok ((some q, ok), { st with g := g })
    | _ => .error .ub

/-- `SLIP_realloc` of a block `p` to a smaller size: SLIP_realloc.c lines 37-58,
SuiteSparse_config.c lines 270-290. If the C library refuses, `p` is kept, which is not an error
(and not counted as a refused request for memory). -/
def slipShrink (p : Addr) (g : G) : Out Addr :=
  if !g.init then .ok p g
  else if (g.live p).isNone then .ub
  else match g.ask g.tick with
  | none => .ok p { g with tick := g.tick + 1 }
  | some q =>
    if q ≠ p ∧ (g.live q).isSome then .ok p { g with tick := g.tick + 1 }
    else .ok q { g with
      tick := g.tick + 1, gen := g.gen + 1
      live := Function.update (Function.update g.live p none) q (some g.gen) }

/-- `SLIP_realloc (nnew, nold, ...)` for `nnew ≤ nold`. -/
def mShrink (nnew nold : ℕ) (p : Option Addr) : M (Option Addr) := fun st =>
  match p with
  | none => .ok ((slipMalloc st.g).1, { st with g := (slipMalloc st.g).2 })
  | some p =>
    if max nold 1 = max nnew 1 then .ok (some p, st)
    else match slipShrink p st.g with
    | .ok q g => .ok (some q, { st with g := g })
    | _ => .error .ub

/-! ## Statements that return a status -/

/-- A piece of code which works on the variables `σ` and ends with a status. -/
abbrev Step (σ : Type) := σ → M (Info × σ)

/-- A wrapped call that computes an object which is initialised already. -/
def call : Step Obj := fun x st =>
  match wrapped true x (st.env.upd st.calls x st.g.cache) st.g with
  | .ok (a, g) => .ok (a, { st with g := g, calls := st.calls + 1 })
  | .error e => .error e

/-- A wrapped call of `mpz_init`, `mpz_init2`, `mpq_init` or `mpfr_init2`. What the object held before
is overwritten without being looked at. -/
def init : Step Obj := fun x st =>
  match wrapped true (x.map fun _ => none) (st.env.ini st.calls x.length st.g.cache) st.g with
  | .ok (a, g) => .ok (a, { st with g := g, calls := st.calls + 1 })
  | .error e => .error e

/-- A wrapped call without an object: comparisons, signs, conversions to C types. (That the archive
pointers are NULL is the same as an archived object without pointers.) -/
def query {σ : Type} : Step σ := fun w st =>
  match wrapped true [] (st.env.upd st.calls [] st.g.cache) st.g with
  | .ok ((r, _), g) => .ok ((r, w), { st with g := g, calls := st.calls + 1 })
  | .error e => .error e

/-- `SLIP_MPZ_CLEAR`, `SLIP_MPQ_CLEAR`, `SLIP_MPFR_CLEAR`: slip_internal.h lines 291-319. The object's
pointers are NULL afterwards. (A GMP function called outside of a wrapper.) -/
def clear : Obj → M Unit
  | [] => pure ()
  | none :: x => clear x
  | some p :: x => do
    (fun st => match slip_gmp_free (some p) st.g with
      | .ok _ g => .ok ((), { st with g := g })
      | _ => .error .ub : M Unit)
    clear x

/-- `SLIP_CHECK (s1) ; SLIP_CHECK (s2) ; ...`, slip_internal.h lines 96-104, up to the first error.
What `SLIP_CHECK` does then (`SLIP_FREE_ALL ; return (info)`) is done by the function. -/
def seq {σ : Type} : List (Step σ) → Step σ
  | [], w => pure (.ok, w)
  | s :: l, w => do
    let (r, w) ← s w
    if r = .ok then seq l w else pure (r, w)

/-- `for (i = lo ; i < lo + cnt ; i++) SLIP_CHECK (s (i))`. -/
def forFrom {σ : Type} : ℕ → ℕ → (ℕ → Step σ) → Step σ
  | 0, _, _, w => pure (.ok, w)
  | c + 1, i, s, w => do
    let (r, w) ← s i w
    if r = .ok then forFrom c (i + 1) s w else pure (r, w)

/-- `for (i = 0 ; i < n ; i++) SLIP_CHECK (s (i))`. -/
def forN {σ : Type} (n : ℕ) (s : ℕ → Step σ) : Step σ := forFrom n 0 s

/-- A loop whose length depends on the values. -/
def anyTimes {σ : Type} (s : Step σ) : Step σ := fun w => do
  let c ← choose
  forN c (fun _ => s) w

/-- `if (...) s`, when the condition depends on the values. -/
def maybe {σ : Type} (s : Step σ) : Step σ := fun w => do
  let c ← choose
  if c = 0 then pure (.ok, w) else s w

/-- `if (...) s else t`, when the condition depends on the values. -/
def either {σ : Type} (s t : Step σ) : Step σ := fun w => do
  let c ← choose
  if c = 0 then s w else t w

/-- `if (c) s`. -/
def when {σ : Type} (c : σ → Bool) (s : Step σ) : Step σ := fun w =>
  if c w then s w else pure (.ok, w)

/-- `s`, but nobody looks at the status. -/
def unchecked {σ : Type} (s : Step σ) : Step σ := fun w => do
  let (_, w) ← s w
  pure (.ok, w)

/-- `s` works on one of the variables. -/
def on {σ α : Type} (get : σ → α) (set : σ → α → σ) (s : Step α) : Step σ := fun w => do
  let (r, a) ← s (get w)
  pure (r, set w a)

/-- `s` works on the variable with this name. -/
macro "at! " f:ident s:term:max : term =>
  `(on (fun w => w.$f:ident) (fun w a => { w with $f:ident := a }) $s)

/-! ## Matrices -/

/-- A `SLIP_matrix`, SLIP_LU.h lines 308-343, as far as memory is concerned: the pointers, and for
`mpz_t`, `mpq_t`, `mpfr_t` entries the pointers in them. Of the array `A->p` only the last entry
`A->p [n]` is kept, see `SLIP_matrix_nnz`. -/
structure HMat where
  /-- the matrix object itself -/
  hdr : Addr
  m : ℤ
  n : ℤ
  nzmax : ℕ
  nz : ℤ
  /-- `A->p [n]` -/
  pn : ℤ
  kind : Kind
  type : Ty
  p : Option Addr
  pShallow : Bool
  i : Option Addr
  iShallow : Bool
  j : Option Addr
  jShallow : Bool
  x : Option Addr
  xShallow : Bool
  /-- the entries of `A->x`, if they are GMP or MPFR numbers -/
  xs : List Obj
  scale : Obj
  /-- the value of `A->scale` as `SLIP_matrix_allocate` leaves it (not followed afterwards) -/
  sval : ℚ

/-- Number of pointers to limbs in an entry. -/
def width : Ty → ℕ
  | .mpz => 1
  | .mpq => 2
  | .mpfr => 1
  | _ => 0

/-- The entries are GMP or MPFR numbers. -/
def isMp : Ty → Bool
  | .mpz => true
  | .mpq => true
  | .mpfr => true
  | _ => false

/-- `SLIP_MPZ_SET_NULL`, `SLIP_MPQ_SET_NULL`, `SLIP_MPFR_SET_NULL`: slip_internal.h lines 261-281; also
an entry of an array from `calloc`. -/
def nulls (width : ℕ) : Obj := List.replicate width none

/-- `s` works on entry `i` of an array. -/
def item (i : ℕ) (s : Step Obj) : Step (List Obj) := fun xs =>
  match xs[i]? with
  | some o => do
    let (r, o) ← s o
    pure (r, xs.set i o)
  | none => ub

/-- `s` works on `A->x [i]`. -/
def entry (i : ℕ) (s : Step Obj) : Step HMat := fun A =>
  match A.x with
  | some _ => on (fun A => A.xs) (fun A xs => { A with xs := xs }) (item i s) A
  | none => ub

/-- `s` works on an entry of `A->x` with an index less than `n`. -/
def entryAny (n : ℕ) (s : Step Obj) : Step HMat := fun A => do
  let c ← choose
  entry (c % n) s A

/-- `s` works on `A->scale`. -/
def onScale (s : Step Obj) : Step HMat := on (fun A => A.scale) (fun A x => { A with scale := x }) s

/-- `s` works on the matrix a pointer points to. -/
def there (s : Step HMat) : Step (Option HMat) := fun A =>
  match A with
  | some A => do
    let (r, A) ← s A
    pure (r, some A)
  | none => ub

/-- The loops `for (j = 0 ; j < n ; j++) SLIP_MP*_CLEAR (x [j])`. -/
def clearArr : ℕ → List Obj → M Unit
  | 0, _ => pure ()
  | _ + 1, [] => ub
  | n + 1, o :: xs => do
    clear o
    clearArr n xs

/-- `slip_create_mpz_array`, `slip_create_mpq_array`: lines 17-52 of these files,
`slip_create_mpfr_array`: slip_create_mpfr_array.c lines 16-51. -/
def slip_create_array (width : ℕ) (n : ℕ) : M (Option Addr × List Obj) :=
  if n = 0 then pure (none, [])
  else do
    let x ← mMalloc
    if x.isNone then pure (none, [])
    else do
      let (r, xs) ← forN n (fun i xs => do
        let (r, xs) ← item i init xs
        if r = .ok then pure (r, xs)
        else pure (r, xs.set i (nulls width))) (List.replicate n (nulls width))
      if r = .ok then pure (x, xs)
      else do
        clearArr n xs
        mFree x
        pure (none, [])

/-- A value outside of the enum. -/
def _root_.Slip.Kind.isBad : Kind → Bool
  | .bad _ => true
  | _ => false

/-- A value outside of the enum. -/
def _root_.Slip.Ty.isBad : Ty → Bool
  | .bad _ => true
  | _ => false

/-- `if (!(A->..._shallow)) { ... }`, SLIP_matrix_free.c lines 36-56. -/
def unlessShallow (shallow : Bool) (s : M Unit) : M Unit := if shallow then pure () else s

/-- The body of `SLIP_matrix_free`, SLIP_matrix_free.c lines 29-110. -/
def matFree (A : Option HMat) : M Unit :=
  match A with
  | none => pure ()
  | some A => do
    unlessShallow A.pShallow (mFree A.p)
    unlessShallow A.iShallow (mFree A.i)
    unlessShallow A.jShallow (mFree A.j)
    unlessShallow (A.xShallow || A.type.isBad) (do
      clearArr (if isMp A.type && A.x.isSome then A.nzmax else 0) A.xs
      mFree A.x)
    clear A.scale
    mFree (some A.hdr)

/-- The integer arrays of a new matrix: SLIP_matrix_allocate.c lines 118-139. Returns `ok`. -/
def matPattern (A : HMat) : M (HMat × Bool) :=
  match A.kind with
  | .csc => do
    let p ← mMalloc
    let i ← mMalloc
    pure ({ A with p := p, i := i }, p.isSome && i.isSome)
  | .triplet => do
    let i ← mMalloc
    let j ← mMalloc
    pure ({ A with i := i, j := j }, i.isSome && j.isSome)
  | _ => pure (A, true)

/-- The array of values of a new matrix: SLIP_matrix_allocate.c lines 141-184. -/
def matValues (init : Bool) (A : HMat) : M HMat :=
  if isMp A.type && init then do
    let (x, xs) ← slip_create_array (width A.type) A.nzmax
    pure { A with x := x, xs := xs }
  else do
    let x ← mMalloc
    pure { A with
      x := x, xs := if isMp A.type && x.isSome then List.replicate A.nzmax (nulls (width A.type)) else [] }

/-- The body of `SLIP_matrix_allocate`, SLIP_matrix_allocate.c lines 55-198, after the check of the
handle. (The product `m*n` does not overflow in the model.) -/
def matAllocate (kind : Kind) (type : Ty) (m n nzmax : ℤ) (shallow init : Bool) :
    M (Info × Option HMat) :=
  if m < 0 ∨ n < 0 ∨ kind.isBad ∨ type.isBad then pure (.incorrectInput, none)
  else do
    let hdr ← mMalloc
    match hdr with
    | none => pure (.outOfMemory, none)
    | some hdr =>
      let A : HMat :=
        { hdr := hdr, m := m, n := n, nzmax := (max (if kind = .dense then m * n else nzmax) 1).toNat,
          nz := 0, pn := 0, kind := kind, type := type, p := none, pShallow := false, i := none,
          iShallow := false, j := none, jShallow := false, x := none, xShallow := false, xs := [],
          scale := nulls 2, sval := 0 }
      let (r, A) ← seq
        [onScale Mem.init, onScale call, fun A => pure (.ok, { A with sval := 1 })] A
      if r ≠ .ok then do
        matFree (some A)
        pure (r, none)
      else if shallow then
        pure (.ok, some { A with
          pShallow := true, iShallow := true, jShallow := true, xShallow := true })
      else do
        let (A, ok) ← matPattern A
        let A ← matValues init A
        if ok && A.x.isSome then pure (.ok, some A)
        else do
          matFree (some A)
          pure (.incorrectInput, none)

/-- `SLIP_matrix_allocate (&A, ...)` as a statement on a variable `A`. -/
def allocTo (kind : Kind) (type : Ty) (m n nzmax : ℤ) (shallow init : Bool) : Step (Option HMat) :=
  fun _ => matAllocate kind type m n nzmax shallow init

/-- `SLIP_malloc` into a variable, without a check. -/
def mallocTo : Step (Option Addr) := fun _ => do
  let p ← mMalloc
  pure (.ok, p)

/-- `SLIP_matrix_nnz`, SLIP_matrix_nnz.c lines 14-52, when initialised. -/
def HMat.nnz (A : HMat) : ℤ :=
  match A.kind with
  | .csc => if A.p.isNone ∨ A.n < 0 then -1 else A.pn
  | .triplet => A.nz
  | .dense => if A.m < 0 ∨ A.n < 0 then -1 else A.m * A.n
  | .bad _ => -1

/-! ## Analysis -/

/-- A `SLIP_LU_analysis`: the object and its array `q`. -/
structure HAna where
  hdr : Addr
  q : Option Addr
  lnz : ℤ
  unz : ℤ
  /-- the permutation has been written to `q`; otherwise `q` is as `SLIP_malloc` returned it -/
  filled : Bool

/-- The body of `SLIP_LU_analysis_free`, SLIP_LU_analysis_free.c lines 27-31. -/
def anaFree (S : Option HAna) : M Unit :=
  match S with
  | none => pure ()
  | some S => do
    mFree S.q
    mFree (some S.hdr)

/-- The end of `AMD_order`, amd_order.c lines 149-199: the work space `S`, the ordering itself (which
requests no memory), and what is freed. Left out: that the size of `S` overflows (lines 151-160). Returns
whether the order has been computed. -/
def amdFinish (Len Pinv Rp Ri : Option Addr) : M Bool := do
  let S ← mMalloc
  if S.isNone then do
    mFree Rp
    mFree Ri
    mFree Len
    mFree Pinv
    pure false
  else do
    mFree Rp
    mFree Ri
    mFree Len
    mFree Pinv
    mFree S
    pure true

/-- `AMD_order`, amd_order.c lines 51-199, for a valid matrix of dimension `n`: its requests for memory,
which go to `SuiteSparse_malloc`, the function that `SLIP_malloc` calls too. Returns whether the order has
been computed. -/
def amdOrder (n : ℕ) : M Bool :=
  if n = 0 then pure true
  else do
    let Len ← mMalloc
    let Pinv ← mMalloc
    if Len.isNone || Pinv.isNone then do
      mFree Len
      mFree Pinv
      pure false
    else do
      let jumbled ← choose
      if jumbled ≠ 0 then do
        let Rp ← mMalloc
        let Ri ← mMalloc
        if Rp.isNone || Ri.isNone then do
          mFree Rp
          mFree Ri
          mFree Len
          mFree Pinv
          pure false
        else amdFinish Len Pinv Rp Ri
      else amdFinish Len Pinv none none

/-- The body of `SLIP_LU_analyze`, SLIP_LU_analyze.c lines 44-187, for a matrix of dimension `n`. The
estimates are at least `n` (lines 169-178, see `clampNnz`). The status that AMD returns is ignored (line
97): if AMD does not compute an order, `q` is not written, and the estimate is `Info [AMD_LNZ] = -1`, to
which `n` is added in lines 171-178 (this is so for `n = 0` too). -/
def luAnalyze (order : ColOrder) (n : ℕ) : M (Info × Option HAna) := do
  let S ← mMalloc
  match S with
  | none => pure (.outOfMemory, none)
  | some S =>
    let q ← mMalloc
    if q.isNone then do
      mFree (some S)
      pure (.outOfMemory, none)
    else do
      let lnz ← choose
      let unz ← choose
      let S : HAna := { hdr := S, q := q, lnz := n + lnz, unz := n + unz, filled := true }
      match order with
      | .colamd => do
        let A2 ← mMalloc
        if A2.isNone then do
          anaFree (some S)
          pure (.outOfMemory, none)
        else do
          mFree A2
          pure (.ok, some S)
      | .amd => do
        let done ← amdOrder n
        if done && decide (0 < n) then pure (.ok, some S)
        else pure (.ok, some { S with lnz := n - 1, unz := n - 1, filled := done })
      | .none => pure (.ok, some S)

/-! ## Factorization -/

/-- `slip_sparse_realloc`, slip_sparse_realloc.c lines 19-59. -/
def slip_sparse_realloc : Step HMat := fun A => do
  let (x, okx) ← mGrow A.x
  let (i, oki) ← mGrow A.i
  let A := { A with x := x, i := i }
  if !oki || !okx then pure (.outOfMemory, A)
  else pure (.ok, { A with
    nzmax := 2 * A.nzmax, xs := A.xs ++ List.replicate A.nzmax (nulls (width A.type)) })

/-- `slip_sparse_collapse`, slip_sparse_collapse.c lines 20-50. The entries that are cut off are lost. -/
def slip_sparse_collapse (A : HMat) : M HMat := do
  let anz := A.nnz.toNat
  let i ← mShrink anz A.nzmax A.i
  let x ← mShrink anz A.nzmax A.x
  pure { A with i := i, x := x, xs := A.xs.take anz, nzmax := anz }

/-- `slip_ref_triangular_solve`, slip_ref_triangular_solve.c lines 87-329: a sequence of wrapped calls,
each under `SLIP_CHECK`; those which compute something compute an entry of `x`. No memory is
allocated or freed otherwise. -/
def slip_ref_triangular_solve (n : ℕ) : Step HMat :=
  anyTimes (seq [query, maybe (entryAny n call)])

/-- `slip_get_smallest_pivot`, slip_get_smallest_pivot.c lines 23-117. The variable is `small`. -/
def slip_get_smallest_pivot : M Info := do
  let (r, small) ← seq
    [init,
     anyTimes (seq [query, maybe call]),
     anyTimes (seq [query, maybe (seq [query, maybe call])])] (nulls 1)
  clear small
  if r ≠ .ok then pure r
  else do
    let c ← choose
    if c = 0 then pure .singular else pure .ok

/-- `slip_get_largest_pivot`, slip_get_largest_pivot.c lines 25-89. The variable is `big`. -/
def slip_get_largest_pivot : M Info := do
  let (r, big) ← seq [init, anyTimes (seq [query, maybe call])] (nulls 1)
  clear big
  if r ≠ .ok then pure r
  else do
    let c ← choose
    if c = 0 then pure .singular else pure .ok

/-- `slip_get_nonzero_pivot`, slip_get_nonzero_pivot.c lines 22-69. -/
def slip_get_nonzero_pivot : M Info := do
  let (r, _) ← anyTimes query ()
  if r ≠ .ok then pure r
  else do
    let c ← choose
    if c = 0 then pure .singular else pure .ok

/-- A function that has no output in memory, as a statement. -/
def just {σ : Type} (f : M Info) : Step σ := fun w => do
  let r ← f
  pure (r, w)

/-- The variables of `slip_get_pivot`. -/
structure PivotVars where
  tol : Obj
  ratio : Obj
  rhos : Option HMat

/-- `SLIP_mpz_abs (SLIP_MPQ_NUM (ratio), ...)` and the same for the denominator: the object is a part of
`ratio`. -/
def part (i : ℕ) (s : Step Obj) : Step Obj := fun x =>
  match x[i]? with
  | some f => do
    let (r, f') ← s [f]
    pure (r, x.set i (f'.headD f))
  | none => ub

/-- `slip_get_pivot`, slip_get_pivot.c lines 33-220; `rhos` is the only matrix that is changed. -/
def slip_get_pivot (order : Pivot) (k : ℕ) : Step (Option HMat) := fun rhos => do
  let (r, w) ← seq (σ := PivotVars)
    [match order with
     | .smallest => just slip_get_smallest_pivot
     | .diagonal => seq [query, maybe (just slip_get_smallest_pivot)]
     | .firstNonzero => just slip_get_nonzero_pivot
     | .tolLargest => seq
       [just slip_get_largest_pivot, query,
        maybe (seq
          [at! tol init, at! ratio init, at! tol call, at! ratio call, at! ratio call, at! ratio call,
           query])]
     | .largest => just slip_get_largest_pivot
     | .tolSmallest => seq
       [just slip_get_smallest_pivot, query,
        maybe (seq
          [at! tol init, at! ratio init, at! ratio (part 0 call), at! ratio (part 1 call), at! tol call,
           query])],
     query,
     at! rhos (there (entry k init)),
     at! rhos (there (entry k call))] ⟨nulls 2, nulls 2, rhos⟩
  clear w.tol
  clear w.ratio
  pure (r, w.rhos)

/-- The variables of `SLIP_LU_factorize`. -/
structure FactVars where
  pinv : Option Addr
  pivs : Option Addr
  h : Option Addr
  xi : Option Addr
  row_perm : Option Addr
  rhos : Option HMat
  L : Option HMat
  U : Option HMat
  x : Option HMat
  lnz : ℕ
  unz : ℕ

/-- `SLIP_FREE_WORK`: SLIP_LU_factorize.c lines 26-31. -/
def factFreeWork (w : FactVars) : M FactVars := do
  matFree w.x
  mFree w.xi
  mFree w.h
  mFree w.pivs
  mFree w.row_perm
  pure { w with x := none, xi := none, h := none, pivs := none, row_perm := none }

/-- `SLIP_FREE_ALL`: SLIP_LU_factorize.c lines 33-38. -/
def factFreeAll (w : FactVars) : M Unit := do
  let w ← factFreeWork w
  matFree w.L
  matFree w.U
  matFree w.rhos
  mFree w.pinv

/-- `L->nzmax`. -/
def nzmaxOf (A : Option HMat) : ℕ :=
  match A with
  | some A => A.nzmax
  | none => 0

/-- An entry is added to U: SLIP_LU_factorize.c lines 240-251. -/
def addU : Step FactVars := seq
  [query,
   fun w => (at! U (there (entry w.unz init))) w,
   fun w => (at! U (there (entry w.unz call))) w,
   fun w => pure (.ok, { w with unz := w.unz + 1 })]

/-- An entry is added to L: SLIP_LU_factorize.c lines 257-268. -/
def addL : Step FactVars := seq
  [query,
   fun w => (at! L (there (entry w.lnz init))) w,
   fun w => (at! L (there (entry w.lnz call))) w,
   fun w => pure (.ok, { w with lnz := w.lnz + 1 })]

/-- One iteration of the loop over the pattern, SLIP_LU_factorize.c lines 231-270: `loc < k`,
`loc == k` or `loc > k`. -/
def addEntry : Step FactVars := fun w => do
  let loc ← choose
  seq [when (fun _ => loc ≤ 1) addU, when (fun _ => 1 ≤ loc) addL] w

/-- One iteration of the main loop, SLIP_LU_factorize.c lines 189-271. -/
def factColumn (order : Pivot) (n k : ℕ) : Step FactVars := seq
  [when (fun w => w.lnz + n > nzmaxOf w.L) (at! L (there slip_sparse_realloc)),
   when (fun w => w.unz + n > nzmaxOf w.U) (at! U (there slip_sparse_realloc)),
   at! x (there (slip_ref_triangular_solve n)),
   at! rhos (slip_get_pivot order k),
   fun w => do
     let top ← choose
     forN (n - top) (fun _ => addEntry) w]

/-- The body of `SLIP_LU_factorize`, SLIP_LU_factorize.c lines 92-323. Returns the status and L, U,
rhos, pinv. -/
def luFactorize (order : Pivot) (n : ℕ) (lnz unz : ℤ) :
    M (Info × Option HMat × Option HMat × Option HMat × Option Addr) := do
  let (r, w) ← seq (σ := FactVars)
    [at! pinv mallocTo, at! pivs mallocTo, at! h mallocTo, at! xi mallocTo, at! row_perm mallocTo,
     fun w =>
       if w.pivs.isNone || w.h.isNone || w.xi.isNone || w.row_perm.isNone || w.pinv.isNone then
         pure (.outOfMemory, w)
       else pure (.ok, w),
     at! rhos (allocTo .dense .mpz n 1 n false false),
     at! L (allocTo .csc .mpz n n lnz false false),
     at! U (allocTo .csc .mpz n n unz false false),
     at! x (allocTo .dense .mpz n 1 n false false),
     forN n (fun i => at! x (there (entry i init))),
     forN n (factColumn order n)] ⟨none, none, none, none, none, none, none, none, none, 0, 0⟩
  if r ≠ .ok then do
    factFreeAll w
    pure (r, none, none, none, none)
  else do
    let w ← factFreeWork w
    match w.L, w.U with
    | some L, some U => do
      let L ← slip_sparse_collapse { L with pn := w.lnz }
      let U ← slip_sparse_collapse { U with pn := w.unz }
      pure (.ok, some L, some U, w.rhos, w.pinv)
    | _, _ => ub

/-! ## Solve -/

/-- Index `i*n + j` runs over all entries of an `m`-by-`n` matrix; the permutation of the rows only
permutes the entries. `slip_permute_b`, slip_permute_b.c lines 20-67 (`type` MPZ), and
`slip_permute_x`, slip_permute_x.c lines 20-68 (MPQ). -/
def slip_permute (type : Ty) (m n : ℕ) : M (Info × Option HMat) := do
  let (r, b) ← seq
    [allocTo .dense type m n 0 false true,
     forN (m * n) (fun _ => there (entryAny (m * n) call))] none
  if r ≠ .ok then do
    matFree b
    pure (r, none)
  else pure (.ok, b)

/-- The variables of `slip_forward_sub`. -/
structure FwdVars where
  h : Option HMat
  x : HMat

/-- `slip_forward_sub`, slip_forward_sub.c lines 27-181: `x` is changed by wrapped calls under
`SLIP_CHECK`, `h` is an `int64_t` matrix. (`h` is not initialised in line 43, but
`SLIP_matrix_allocate` always sets it when the library is initialised.) -/
def slip_forward_sub (m n : ℕ) : Step HMat := fun x => do
  let (r, w) ← seq (σ := FwdVars)
    [at! h (allocTo .dense .int64 m n (m * n) false true),
     forN (n * m) (fun _ => seq
       [query, maybe (seq
         [maybe (seq [at! x (entryAny (m * n) call), maybe (at! x (entryAny (m * n) call))]),
          anyTimes (seq [query, maybe (seq [query, anyTimes (at! x (entryAny (m * n) call))])])])])]
    ⟨none, x⟩
  matFree w.h
  pure (r, w.x)

/-- `slip_matrix_mul`, slip_matrix_mul.c lines 19-45, for a dense matrix. -/
def slip_matrix_mul (m n : ℕ) : Step HMat := forN (m * n) fun i => entry i call

/-- `slip_back_sub`, slip_back_sub.c lines 24-71. -/
def slip_back_sub (m n : ℕ) : Step HMat :=
  forN (n * m) fun _ => seq
    [query, maybe (seq
      [entryAny (m * n) call, anyTimes (seq [query, maybe (entryAny (m * n) call)])])]

/-- The variables of `slip_matrix_div`, and of `slip_check_solution` (`temp`, `b2`). -/
structure DivVars where
  scalar2 : Obj
  x2 : Option HMat

/-- `slip_matrix_div`, slip_matrix_div.c lines 28-82. -/
def slip_matrix_div (m n : ℕ) : M (Info × Option HMat) := do
  let (r, w) ← seq (σ := DivVars)
    [at! scalar2 init, at! scalar2 call, at! x2 (allocTo .dense .mpq m n 0 false true),
     forN (m * n) (fun i => seq [at! x2 (there (entry i call)), at! x2 (there (entry i call))])]
    ⟨nulls 2, none⟩
  clear w.scalar2
  if r ≠ .ok then do
    matFree w.x2
    pure (r, none)
  else pure (.ok, w.x2)

/-- `slip_check_solution`, slip_check_solution.c lines 21-120, for an `m`-by-`n` right-hand side. -/
def slip_check_solution (m n : ℕ) : M Info := do
  let (r, w) ← seq (σ := DivVars)
    [at! scalar2 init, at! x2 (allocTo .dense .mpq m n (m * n) false true),
     forN (n * m) (fun _ => anyTimes (seq
       [at! scalar2 call, at! scalar2 call, at! x2 (there (entryAny (m * n) call))])),
     anyTimes (seq [at! scalar2 call, query])] ⟨nulls 2, none⟩
  clear w.scalar2
  matFree w.x2
  if r ≠ .ok then pure r
  else do
    let c ← choose
    if c = 0 then pure .incorrect else pure .ok

/-- The variables of `SLIP_LU_solve`. -/
structure SolveVars where
  scale : Obj
  x : Option HMat
  x2 : Option HMat
  b2 : Option HMat

/-- `SLIP_FREE_WORK`: SLIP_LU_solve.c lines 42-45. -/
def solveFreeWork (w : SolveVars) : M Unit := do
  matFree w.b2
  matFree w.x2
  clear w.scale

/-- The body of `SLIP_LU_solve`, SLIP_LU_solve.c lines 93-175, for an `m`-by-`n` right-hand side with
`m > 0`. -/
def luSolve (check : Bool) (m n : ℕ) : M (Info × Option HMat) := do
  let (r, w) ← seq (σ := SolveVars)
    [at! b2 (fun _ => slip_permute .mpz m n),
     at! b2 (there (slip_forward_sub m n)),
     at! b2 (there (slip_matrix_mul m n)),
     at! b2 (there (slip_back_sub m n)),
     at! x2 (fun _ => slip_matrix_div m n),
     at! x (fun _ => slip_permute .mpq m n),
     at! x2 (fun x2 => do
       matFree x2
       pure (.ok, none)),
     when (fun _ => check) (just (slip_check_solution m n)),
     at! scale init, at! scale call, query,
     maybe (forN (m * n) (fun i => at! x (there (entry i call))))] ⟨nulls 2, none, none, none⟩
  if r ≠ .ok then do
    solveFreeWork w
    matFree w.x
    pure (r, none)
  else do
    solveFreeWork w
    pure (.ok, w.x)

/-! ## Conversions -/

/-- The variables of the three `slip_expand_*_array`: the temporary numbers, the temporary matrices,
and the matrix whose entries and scale are computed. -/
structure ExpandVars where
  expon : Obj
  temp_expon : Obj
  gcd : Obj
  one : Obj
  temp : Obj
  x3 : Option HMat
  x4 : Option HMat
  Y : HMat

/-- `SLIP_FREE_ALL`: slip_expand_double_array.c lines 18-22, slip_expand_mpfr_array.c lines 17-23,
slip_expand_mpq_array.c lines 16-19 (variables that a function does not have are NULL). -/
def expandFreeAll (w : ExpandVars) : M Unit := do
  clear w.expon
  clear w.temp_expon
  clear w.gcd
  clear w.one
  clear w.temp
  matFree w.x3
  matFree w.x4

/-- The common last part of slip_expand_double_array.c lines 67-130 and slip_expand_mpfr_array.c lines
78-137: the gcd, the case of an array of zeros, the division by the gcd. Note the unchecked call in the
case of zeros. -/
def expandFinish (n : ℕ) (r : Info) (w : ExpandVars) : M (Info × HMat) := do
  if r ≠ .ok then do
    expandFreeAll w
    pure (r, w.Y)
  else do
    let c ← choose
    if c = 0 then do
      expandFreeAll w
      unchecked (onScale call) w.Y
    else do
      let k ← choose
      let (r, w) ← maybe (seq (σ := ExpandVars)
        [forN (n - k) (fun i => at! Y (entry (k + i) call)), at! temp call, at! Y (onScale call)]) w
      expandFreeAll w
      pure (r, w.Y)

/-- `slip_expand_double_array`, slip_expand_double_array.c lines 26-131. -/
def slip_expand_double_array (n : ℕ) : Step HMat := fun Y => do
  let (r, w) ← seq (σ := ExpandVars)
    [at! temp init, at! gcd init, at! one init, at! x3 (allocTo .dense .mpfr n 1 n false true),
     at! Y (onScale call),
     forN n (fun i => seq
       [at! x3 (there (entry i call)), at! x3 (there (entry i call)), at! Y (entry i call)]),
     at! one call,
     anyTimes (seq [query, maybe (at! gcd call), query])]
    ⟨[], [], nulls 1, nulls 1, nulls 2, none, none, Y⟩
  expandFinish n r w

/-- `slip_expand_mpfr_array`, slip_expand_mpfr_array.c lines 27-138. -/
def slip_expand_mpfr_array (n : ℕ) : Step HMat := fun Y => do
  let (r, w) ← seq (σ := ExpandVars)
    [at! temp init, at! expon init, at! temp_expon init, at! gcd init, at! one init,
     at! x3 (allocTo .dense .mpfr n 1 n false true), at! expon call,
     forN n (fun i => seq [at! x3 (there (entry i call)), at! Y (entry i call)]),
     at! temp_expon call, at! Y (onScale call), at! one call,
     anyTimes (seq [query, maybe (at! gcd call), query])]
    ⟨nulls 1, nulls 1, nulls 1, nulls 1, nulls 2, none, none, Y⟩
  expandFinish n r w

/-- `slip_expand_mpq_array`, slip_expand_mpq_array.c lines 23-76. -/
def slip_expand_mpq_array (n : ℕ) : Step HMat := fun Y => do
  let (r, w) ← seq (σ := ExpandVars)
    [at! temp init, at! x3 (allocTo .dense .mpz n 1 n false true),
     at! x4 (allocTo .dense .mpq n 1 n false true),
     forN n (fun i => at! x3 (there (entry i call))),
     at! temp call, forN (n - 1) (fun _ => at! temp call), at! Y (onScale call),
     forN n (fun i => seq [at! x4 (there (entry i call)), at! Y (entry i call)])]
    ⟨[], [], [], [], nulls 1, none, none, Y⟩
  expandFreeAll w
  pure (r, w.Y)

/-- The variables of `slip_cast_array`. -/
structure CastVars where
  temp : Obj
  Y : HMat

/-- `slip_cast_array (SLIP_X (Y), Y->type, X, xtype, n, Y->scale, ...)`, slip_cast_array.c lines 43-483,
for an array `X` that is not NULL. -/
def slip_cast_array (xtype : Ty) (n : ℕ) : Step HMat := fun Y => do
  if Y.x.isNone then pure (.incorrectInput, Y)
  else do
    let (r, w) ← (match Y.type, xtype with
      | .mpz, .mpz => seq [forN n (fun k => at! Y (entry k call)), at! Y (onScale call)]
      | .mpz, .mpq => at! Y (slip_expand_mpq_array n)
      | .mpz, .mpfr => at! Y (slip_expand_mpfr_array n)
      | .mpz, .int64 => seq [forN n (fun k => at! Y (entry k call)), at! Y (onScale call)]
      | .mpz, .fp64 => at! Y (slip_expand_double_array n)
      | .mpq, .mpz => seq
        [query, either (forN n (fun k => at! Y (entry k call)))
          (forN n (fun k => seq [at! Y (entry k call), at! Y (entry k call)]))]
      | .mpq, _ => forN n (fun k => at! Y (entry k call))
      | .mpfr, .mpz => seq
        [query, either (forN n (fun k => at! Y (entry k call)))
          (seq
            [at! temp init,
             forN n (fun k => seq [at! temp call, at! temp call, at! Y (entry k call)])])]
      | .mpfr, _ => forN n (fun k => at! Y (entry k call))
      | _, .mpz => seq
        [query, either (forN n (fun _ => query))
          (seq [at! temp init, forN n (fun _ => seq [at! temp call, at! temp call, query])])]
      | _, .mpq => forN n (fun _ => query)
      | _, .mpfr => forN n (fun _ => query)
      | _, _ => fun w => pure (.ok, w) : Step CastVars) ⟨nulls 2, Y⟩
    clear w.temp
    pure (r, w.Y)

/-- `slip_cast_matrix`, slip_cast_matrix.c lines 20-103. If the types are the same, the entries are
those of `A`. -/
def slip_cast_matrix (type : Ty) (A : HMat) : M (Info × Option HMat) := do
  let (r, Y) ← seq
    [allocTo .dense type A.nnz 1 A.nnz (type = A.type) true,
     there (fun Y =>
       if type = A.type then pure (.ok, { Y with x := A.x, xs := A.xs })
       else if A.x.isNone then pure (.incorrectInput, Y)
       else slip_cast_array A.type A.nnz.toNat Y)] none
  if r ≠ .ok then do
    matFree Y
    pure (r, none)
  else pure (.ok, Y)

/-- The variables of `SLIP_matrix_copy`. -/
structure CopyVars where
  T : Option HMat
  Y : Option HMat
  W : Option Addr
  C : Option HMat

/-- The return paths of `SLIP_matrix_copy`: `SLIP_FREE_WORK` and `SLIP_FREE_ALL`, SLIP_matrix_copy.c
lines 19-26 and 646-649. -/
def copyReturn (r : Info) (w : CopyVars) : M (Info × Option HMat) := do
  matFree w.T
  matFree w.Y
  mFree w.W
  if r ≠ .ok then do
    matFree w.C
    pure (r, none)
  else pure (.ok, w.C)

/-- `slip_cast_array (SLIP_X (C), C->type, SLIP_X (A), A->type, nz, C->scale, A->scale, option)`. -/
def castTo (A : HMat) : Step HMat := fun C =>
  if A.x.isNone then pure (.incorrectInput, C) else slip_cast_array A.type A.nnz.toNat C

/-- Writing an entry of `C` of the given type: a wrapped call for `mpz_t`, `mpq_t`, `mpfr_t`, an
assignment otherwise. -/
def put (type : Ty) (s : Step Obj → Step HMat) : Step CopyVars :=
  if isMp type then at! C (there (s call)) else fun w => pure (.ok, w)

/-- `SLIP_matrix_copy` to a CSC matrix: SLIP_matrix_copy.c lines 78-371. -/
def copyToCsc (type : Ty) (A : HMat) : Step CopyVars :=
  match A.kind with
  | .csc => seq
    [at! C (allocTo .csc type A.m A.n A.nnz false true),
     at! C (there (fun C => pure (.ok, { C with pn := A.nnz }))),
     at! C (there (castTo A))]
  | .triplet => seq
    [at! Y (fun _ => slip_cast_matrix type A),
     at! W mallocTo,
     fun w => if w.W.isNone then pure (.outOfMemory, w) else pure (.ok, w),
     at! C (allocTo .csc type A.m A.n A.nnz false true),
     unchecked (at! C (there (onScale call))),
     at! C (there (fun C => pure (.ok, { C with pn := A.nnz }))),
     forN A.nnz.toNat (fun _ => put type (entryAny A.nnz.toNat))]
  | .dense => seq
    [at! Y (fun _ => slip_cast_matrix type A),
     when (fun _ => isMp type) (forN A.nnz.toNat (fun _ => query)),
     fun w => do
       let c ← choose
       let actual := c % (A.nnz.toNat + 1)
       seq
         [at! C (allocTo .csc type A.m A.n actual false true),
          unchecked (at! C (there (onScale call))),
          forN actual (fun nz => seq
            [when (fun _ => isMp type) (anyTimes query), put type (entry nz)]),
          when (fun _ => isMp type) (anyTimes query),
          at! C (there (fun C => pure (.ok, { C with pn := actual })))] w]
  | .bad _ => fun w => pure (.ok, w)

/-- `SLIP_matrix_copy` of a CSC or triplet matrix to a triplet matrix: SLIP_matrix_copy.c lines
386-428. -/
def copyToTriplet (type : Ty) (A : HMat) : Step CopyVars := seq
  [at! C (allocTo .triplet type A.m A.n A.nnz false true),
   at! C (there (castTo A)),
   at! C (there (fun C => pure (.ok, { C with nz := A.nnz })))]

/-- `SLIP_matrix_copy` to a dense matrix: SLIP_matrix_copy.c lines 456-640. -/
def copyToDense (type : Ty) (A : HMat) : Step CopyVars := seq
  [at! C (allocTo .dense type A.m A.n A.nnz false true),
   match A.kind with
   | .dense => at! C (there (castTo A))
   | _ => seq
     [at! Y (fun _ => slip_cast_matrix type A),
      unchecked (at! C (there (onScale call))),
      forN A.nnz.toNat (fun _ => put type (entryAny (A.m * A.n).toNat))]]

/-- The body of `SLIP_matrix_copy`, SLIP_matrix_copy.c lines 60-649, after the check of the inputs. -/
def matCopy (kind : Kind) (type : Ty) (A : HMat) : M (Info × Option HMat) :=
  match kind, A.kind with
  | .csc, _ => do
    let (r, w) ← copyToCsc type A ⟨none, none, none, none⟩
    copyReturn r w
  | .triplet, .dense => do
    let (r, w) ← seq (σ := CopyVars)
      [at! T (fun _ => do
        let (r, w) ← copyToCsc type A ⟨none, none, none, none⟩
        copyReturn r w),
       fun w => match w.T with
        | some T => (at! C (fun _ => do
            let (r, w) ← copyToTriplet type T ⟨none, none, none, none⟩
            copyReturn r w)) w
        | none => ub,
       at! T (fun T => do
         matFree T
         pure (.ok, none)),
       at! C (there (fun C => pure (.ok, { C with nz := A.nnz })))] ⟨none, none, none, none⟩
    copyReturn r w
  | .triplet, _ => do
    let (r, w) ← copyToTriplet type A ⟨none, none, none, none⟩
    copyReturn r w
  | _, _ => do
    let (r, w) ← copyToDense type A ⟨none, none, none, none⟩
    copyReturn r w

/-! ## SLIP_backslash -/

/-- The variables of `SLIP_backslash`. -/
structure BackVars where
  L : Option HMat
  U : Option HMat
  pinv : Option Addr
  rhos : Option HMat
  S : Option HAna
  x : Option HMat
  /-- `*X_handle` -/
  out : Option HMat

/-- `SLIP_FREE_WORK`: SLIP_backslash.c lines 34-39. -/
def backFreeWork (w : BackVars) : M Unit := do
  matFree w.L
  matFree w.U
  mFree w.pinv
  matFree w.rhos
  anaFree w.S

/-- The body of `SLIP_backslash`, SLIP_backslash.c lines 80-135, for a matrix of dimension `m > 0` and
an `m`-by-`n` right-hand side. If the order of the columns has not been written, the factorization is
undefined (the array is read in SLIP_LU_factorize.c line 215, in the first column; a failure before that,
for lack of memory, is not distinguished). -/
def backslash (order : ColOrder) (pivot : Pivot) (check : Bool) (type : Ty) (m n : ℕ) :
    M (Info × Option HMat) := do
  let (r, w) ← seq (σ := BackVars)
    [at! S (fun _ => luAnalyze order m),
     fun w => match w.S with
      | none => ub
      | some S =>
        if S.filled = false then ub
        else do
        let (r, L, U, rhos, pinv) ← luFactorize pivot m S.lnz S.unz
        pure (r, { w with L := L, U := U, rhos := rhos, pinv := pinv }),
     at! x (fun _ => luSolve check m n),
     fun w =>
      if type = .mpq then pure (.ok, { w with out := w.x, x := none })
      else match w.x with
      | none => ub
      | some x => do
        let (r, x2) ← matCopy .dense type x
        if r ≠ .ok then pure (r, w)
        else do
          matFree w.x
          pure (.ok, { w with out := x2, x := none })] ⟨none, none, none, none, none, none, none⟩
  if r ≠ .ok then do
    backFreeWork w
    matFree w.x
    pure (r, none)
  else do
    backFreeWork w
    pure (.ok, w.out)

end Slip.Mem
