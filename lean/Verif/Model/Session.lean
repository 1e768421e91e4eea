import Verif.Model.Memory

/-!
# A process that uses the library: initialisation, calls, finalisation

The state of the process is its memory, the library's global state, and the user's variables: pointers to
matrices, to analyses, and to other blocks (from `SLIP_malloc`, `SLIP_calloc`,
`SLIP_create_default_options`, and the permutation `pinv`). The functions are those of
`Verif/Model/Memory.lean` with their checks of the inputs in front.
-/

namespace Slip.Mem

/-- The user's variables. -/
structure Vars where
  mats : List (Option HMat)
  anas : List (Option HAna)
  ptrs : List (Option Addr)

/-- The process. -/
structure Proc where
  st : St
  /-- GMP uses `slip_gmp_allocate`, `slip_gmp_reallocate` and `slip_gmp_free` -/
  hooks : Bool
  /-- which functions are in `SuiteSparse_config.{malloc,calloc,realloc,free}_func`; 0 is the C library -/
  funcs : ℕ
  vars : Vars

/-- What a call returns. -/
inductive Reply
  | info (r : Info)
  /-- a pointer; `false` is NULL -/
  | pointer (ok : Bool)
  | count (z : ℤ)
  /-- the call is not made -/
  | notCalled
  deriving DecidableEq

/-- What a user may do. Numbers are the user's variables. -/
inductive Call
  | initialise
  | expert (funcs : ℕ)
  | finalize
  | allocate (v : ℕ) (kind : Kind) (type : Ty) (m n nzmax : ℤ) (shallow init : Bool)
  | free (v : ℕ)
  | copy (v : ℕ) (kind : Kind) (type : Ty) (a : ℕ)
  | nnz (a : ℕ)
  | check (a : ℕ)
  | analyze (s a : ℕ) (order : ColOrder)
  | anaFree (s : ℕ)
  | factorize (l u r p a s : ℕ) (pivot : Pivot)
  | solve (x b a l u r s p : ℕ) (check : Bool)
  | backslash (x : ℕ) (type : Ty) (a b : ℕ) (order : ColOrder) (pivot : Pivot) (check : Bool)
  /-- `SLIP_malloc`, `SLIP_calloc` or `SLIP_create_default_options` -/
  | malloc (v : ℕ)
  | freePtr (v : ℕ)
  /-- a wrapped GMP call which computes `A->x [i]` -/
  | set (a i : ℕ)
  /-- a wrapped GMP call which computes `A->scale` -/
  | setScale (a : ℕ)
  /-- the user writes `A->p [n]` or `A->nz` -/
  | fill (a : ℕ) (pn nz : ℤ)

/-- The matrix in variable `a`; NULL if there is no such variable. -/
def Vars.mat (v : Vars) (a : ℕ) : Option HMat := v.mats[a]?.join

/-- The analysis in variable `s`. -/
def Vars.ana (v : Vars) (s : ℕ) : Option HAna := v.anas[s]?.join

/-- The pointer in variable `p`. -/
def Vars.ptr (v : Vars) (p : ℕ) : Option Addr := v.ptrs[p]?.join

/-- The variable exists and is NULL: its address can be given to a function for a result, without
losing something. -/
def isFree {α : Type} (l : List (Option α)) (v : ℕ) : Bool :=
  match l[v]? with
  | some none => true
  | _ => false

/-- `SLIP_REQUIRE (A, kind, type)`, slip_internal.h lines 706-722. -/
def require (A : Option HMat) (kind : Kind) (type : Ty) : Bool :=
  match A with
  | some A => decide (A.kind = kind) && decide (A.type = type)
  | none => false

/-- `SLIP_matrix_check`, SLIP_matrix_check.c lines 72-522, without printing: after the first checks a
work space is allocated for a CSC or triplet matrix (lines 193, 389) and freed on every path. -/
def matCheck (A : Option HMat) : M Info :=
  match A with
  | none => pure .incorrectInput
  | some A =>
    if A.nnz < 0 ∨ A.m < 0 ∨ A.n < 0 ∨ A.type.isBad then pure .incorrectInput
    else do
      let c ← choose
      if c = 0 then pure .incorrectInput
      else if A.kind = .dense then pure .ok
      else do
        let work ← mMalloc
        if work.isNone then pure .outOfMemory
        else do
          let c ← choose
          mFree work
          if c = 0 then pure .incorrectInput else pure .ok

/-- The calls when the library is initialised. In each case the lines of the checks of the inputs are
given; for the rest see the function that is called. -/
def body (c : Call) (v : Vars) : M (Reply × Vars) :=
  match c with
  | .initialise | .expert _ | .finalize => pure (.notCalled, v)
  -- SLIP_matrix_allocate.c lines 54-58
  | .allocate k kind type m n nzmax shallow init =>
    if isFree v.mats k then do
      let (r, A) ← matAllocate kind type m n nzmax shallow init
      pure (.info r, { v with mats := v.mats.set k A })
    else pure (.notCalled, v)
  -- SLIP_matrix_free.c lines 28-33, 108
  | .free k => do
    matFree (v.mat k)
    pure (.info .ok, { v with mats := v.mats.set k none })
  -- SLIP_matrix_copy.c lines 48-59
  | .copy k kind type a =>
    if isFree v.mats k then
      match v.mat a with
      | none => pure (.info .incorrectInput, v)
      | some A =>
        if A.nnz < 0 ∨ A.type.isBad ∨ kind.isBad ∨ type.isBad then pure (.info .incorrectInput, v)
        else if 0 < A.nnz ∧ A.m * A.n ≤ 0 then pure (.notCalled, v)
        else do
          let (r, C) ← matCopy kind type A
          pure (.info r, { v with mats := v.mats.set k C })
    else pure (.notCalled, v)
  -- SLIP_matrix_nnz.c lines 27-30
  | .nnz a => pure (.count (match v.mat a with | some A => A.nnz | none => -1), v)
  | .check a => do
    let r ← matCheck (v.mat a)
    pure (.info r, v)
  -- SLIP_LU_analyze.c lines 44-51
  | .analyze s a order =>
    if isFree v.anas s then
      match v.mat a with
      | none => pure (.info .incorrectInput, v)
      | some A =>
        if A.kind ≠ .csc ∨ A.n ≠ A.m then pure (.info .incorrectInput, v)
        else do
          let (r, S) ← luAnalyze order A.n.toNat
          pure (.info r, { v with anas := v.anas.set s S })
    else pure (.notCalled, v)
  | .anaFree s => do
    anaFree (v.ana s)
    pure (.info .ok, { v with anas := v.anas.set s none })
  -- SLIP_LU_factorize.c lines 63-76; the analysis must be that of a matrix of this size. If its order has
  -- not been written, the call is undefined (the array is read in line 215, in the first column; a failure
  -- before that, for lack of memory, is not distinguished)
  | .factorize l u r p a s pivot =>
    if isFree v.mats l && isFree v.mats u && isFree v.mats r && isFree v.ptrs p && decide (l ≠ u) &&
        decide (u ≠ r) && decide (l ≠ r) then
      match v.mat a, v.ana s with
      | some A, some S =>
        if A.kind ≠ .csc ∨ A.type ≠ .mpz ∨ A.nnz < 0 then pure (.info .incorrectInput, v)
        else if S.filled = false then ub
        else if S.q.isNone ∨ (0 < A.n.toNat ∧ (S.lnz < A.n.toNat ∨ S.unz < A.n.toNat)) then
          pure (.notCalled, v)
        else do
          let (i, L, U, rhos, pinv) ← luFactorize pivot A.n.toNat S.lnz S.unz
          pure (.info i, { v with mats := ((v.mats.set l L).set u U).set r rhos, ptrs := v.ptrs.set p pinv })
      | _, _ => pure (.info .incorrectInput, v)
    else pure (.notCalled, v)
  -- SLIP_LU_solve.c lines 76-88; the dimension must not be 0
  | .solve x b a l u r s p check =>
    if isFree v.mats x then
      if !require (v.mat b) .dense .mpz || !require (v.mat a) .csc .mpz || !require (v.mat l) .csc .mpz ||
          !require (v.mat u) .csc .mpz || !require (v.mat r) .dense .mpz then
        pure (.info .incorrectInput, v)
      else
        match v.mat b, v.mat a, v.mat l, v.mat u, v.ana s, v.ptr p with
        | some b, some A, some L, some U, some _, some _ =>
          if L.m ≠ A.m ∨ L.n ≠ U.m ∨ U.n ≠ A.n ∨ A.n ≠ A.m ∨ A.m ≠ b.m then
            pure (.info .incorrectInput, v)
          else if A.m ≤ 0 then pure (.notCalled, v)
          else do
            let (i, X) ← luSolve check b.m.toNat b.n.toNat
            pure (.info i, { v with mats := v.mats.set x X })
        | _, _, _, _, _, _ => pure (.info .incorrectInput, v)
    else pure (.notCalled, v)
  -- SLIP_backslash.c lines 67-79, and the checks of `SLIP_LU_analyze` and `SLIP_LU_solve`
  | .backslash x type a b order pivot check =>
    if isFree v.mats x then
      if type ≠ .mpq ∧ type ≠ .fp64 ∧ type ≠ .mpfr then pure (.info .incorrectInput, v)
      else if !require (v.mat a) .csc .mpz || !require (v.mat b) .dense .mpz then
        pure (.info .incorrectInput, v)
      else
        match v.mat a, v.mat b with
        | some A, some b =>
          if A.n ≠ A.m ∨ A.m ≠ b.m ∨ A.nnz < 0 then pure (.notCalled, v)
          else if A.m ≤ 0 then pure (.notCalled, v)
          else do
            let (i, X) ← backslash order pivot check type b.m.toNat b.n.toNat
            pure (.info i, { v with mats := v.mats.set x X })
        | _, _ => pure (.info .incorrectInput, v)
    else pure (.notCalled, v)
  -- SLIP_malloc.c, SLIP_calloc.c, SLIP_create_default_options.c
  | .malloc k =>
    if isFree v.ptrs k then do
      let p ← mMalloc
      pure (.pointer p.isSome, { v with ptrs := v.ptrs.set k p })
    else pure (.notCalled, v)
  -- SLIP_FREE: SLIP_LU.h lines 483-487
  | .freePtr k => do
    mFree (v.ptr k)
    pure (.pointer false, { v with ptrs := v.ptrs.set k none })
  | .set a i =>
    match v.mat a with
    | none => pure (.notCalled, v)
    | some A =>
      if A.xShallow = false ∧ A.x.isSome ∧ i < A.xs.length then do
        let (r, A) ← entry i call A
        pure (.info r, { v with mats := v.mats.set a (some A) })
      else pure (.notCalled, v)
  | .setScale a =>
    match v.mat a with
    | none => pure (.notCalled, v)
    | some A => do
      let (r, A) ← onScale call A
      pure (.info r, { v with mats := v.mats.set a (some A) })
  | .fill a pn nz =>
    match v.mat a with
    | none => pure (.notCalled, v)
    | some A => pure (.notCalled, { v with mats := v.mats.set a (some { A with pn := pn, nz := nz }) })

/-- What the functions return when the library is not initialised: the first line of each,
`if (!slip_initialized ( )) return ...` (SLIP_matrix_copy.c 46, SLIP_LU_analyze.c 42, SLIP_LU_solve.c 74,
SLIP_LU_analysis_free.c 25, SLIP_create_default_options.c 20, SLIP_matrix_check.c 69,
SLIP_LU_factorize.c 61, SLIP_matrix_allocate.c 52, SLIP_malloc.c 20, SLIP_calloc.c 21,
SLIP_matrix_nnz.c 25, SLIP_matrix_free.c 26, SLIP_backslash.c 65). `SLIP_FREE` and the wrapped GMP
functions have no such check: a user must not call them, see `C27_gmp_unguarded_refuted` and
`C27_free_unguarded_refuted`. -/
def uninitialised (c : Call) : Reply :=
  match c with
  | .nnz _ => .count (-1)
  | .malloc _ => .pointer false
  | .freePtr _ | .set _ _ | .setScale _ | .fill _ _ _ => .notCalled
  | _ => .info .panic

/-- `SLIP_mpfr_free_cache`: SLIP_gmp.c lines 1703-1709. -/
def SLIP_mpfr_free_cache (g : G) : Out Unit :=
  (freeCache g.cache { g with arch := false, obj := [], used := [] }).bind fun _ g =>
    .ok () { g with arch := false, obj := [], used := [] }

/-- `SLIP_finalize`: SLIP_finalize.c lines 15-27. -/
def SLIP_finalize (g : G) : Out Info :=
  if !g.init then .ok .panic g
  else (SLIP_mpfr_free_cache g).bind fun _ g => (slip_gmp_finalize g).bind fun _ g =>
    .ok .ok { g with init := false }

/-- `SLIP_initialize`: SLIP_initialize.c lines 38-47. -/
def SLIP_initialize (P : Proc) : Info × Proc :=
  if P.st.g.init then (.panic, P)
  else (.ok, { P with hooks := true, st := { P.st with g := { P.st.g with init := true } } })

/-- `SLIP_initialize_expert`: SLIP_initialize_expert.c lines 26-53. -/
def SLIP_initialize_expert (funcs : ℕ) (P : Proc) : Info × Proc :=
  if P.st.g.init then (.panic, P)
  else SLIP_initialize { P with funcs := funcs }

/-- A call. -/
def step (c : Call) (P : Proc) : C (Reply × Proc) :=
  match c with
  | .initialise => .ok (.info (SLIP_initialize P).1, (SLIP_initialize P).2)
  | .expert f => .ok (.info (SLIP_initialize_expert f P).1, (SLIP_initialize_expert f P).2)
  | .finalize =>
    match SLIP_finalize P.st.g with
    | .ok r g => .ok (.info r, { P with st := { P.st with g := g } })
    | _ => .error .ub
  | c =>
    if !P.st.g.init then .ok (uninitialised c, P)
    else do
      let ((r, v), st) ← body c P.vars P.st
      .ok (r, { P with st := st, vars := v })

/-- A history of calls, and what they returned. -/
def run : List Call → Proc → C (List Reply × Proc)
  | [], P => .ok ([], P)
  | c :: cs, P => do
    let (r, P) ← step c P
    let (rs, P) ← run cs P
    .ok (r :: rs, P)

end Slip.Mem
