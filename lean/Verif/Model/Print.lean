import Verif.Model.MatCheck

/-!
# `SLIP_matrix_check` with its output

The function of `Verif/Model/MatCheck.lean` once more, now with everything it prints.  One call of the print function is
one element of the output.  What the texts look like is not modelled: an element says which `SLIP_PRINTF` it is and what is
printed.  `SuiteSparse_config.printf_func` is not NULL; if it is, nothing is printed and all else is the same.
-/

namespace Slip

/-- The error messages, SLIP_matrix_check.c lines 81, 91, 96, 101, 112, 166, 176, 188, 197, 213, 220, 305, 320, 393, 417,
439. -/
inductive Msg
  /-- "A is NULL or nz invalid", "m invalid", "n invalid", "nzmax invalid", "A has invalid type." -/
  | nz | m | n | nzmax | type
  /-- "p invalid", "i or x invalid", "i or j or x invalid", "x invalid" -/
  | p | ix | ijx | x
  /-- "out of memory" -/
  | memory
  /-- "index out of range: (i,j)" -/
  | range (i j : Int)
  /-- "duplicate index: (i,j)" -/
  | dup (i j : Int)
  /-- "invalid index" -/
  | index
  deriving DecidableEq

/-- A number as it is printed: `%Zd`, `%Qd`, `%Rf`, `%ld`, `%lf`. -/
inductive Num
  | mpz (v : Int) | mpq (v : ℚ) | mpfr (v : Dbl) | int64 (v : Int) | fp64 (v : Dbl)
  deriving DecidableEq

/-- What one call of the print function prints. -/
inductive Ev
  /-- an error message, printed at level 1 and above -/
  | err (e : Msg)
  /-- "SLIP_matrix: nrows: ..., ncols: ..., nz: ..., nzmax: ..., kind: ..., type: ...", lines 116-120 -/
  | header (m n nz nzmax : Int) (k : Kind) (t : Ty)
  /-- "scale factor: ", line 124 -/
  | scaleIs
  /-- the scale factor, line 128 -/
  | scale (q : ℚ)
  /-- "column j :", lines 205, 450 -/
  | column (j : Int)
  /-- "  row i : ", lines 227, 456 -/
  | row (i : Int)
  /-- "  i j : ", line 327 -/
  | pair (i j : Int)
  /-- the value of an entry -/
  | val (v : Num)
  /-- "    ...", line 21 -/
  | dots
  /-- " error: status", lines 278, 378, 506 -/
  | error (e : Info)
  deriving DecidableEq

/-- What the environment decides: whether the workspace can be allocated, and what the calls of `SLIP_mpfr_asprintf`
return (SLIP_gmp.c: SLIP_OK, SLIP_OUT_OF_MEMORY or SLIP_INCORRECT_INPUT). -/
structure PrEnv where
  mem : Bool
  asp : ℕ → Info

/-- The local variables that have to do with printing (SLIP_matrix_check.c lines 75-77, 141), the number of calls of
`SLIP_mpfr_asprintf` so far, and the output. -/
structure Pr where
  pr : Int
  lines : Int
  status : Info
  calls : ℕ
  out : List Ev

/-- A computation that prints; the output is kept when the function returns. -/
def Pm (α : Type) : Type := Pr → C α × Pr

/-- Sequencing. -/
def Pm.bind {α β : Type} (m : Pm α) (f : α → Pm β) : Pm β := fun s =>
  match m s with
  | (.ok a, s') => f a s'
  | (.error e, s') => (.error e, s')

instance : Monad Pm where
  pure a := fun s => (.ok a, s)
  bind := Pm.bind

/-- A part that does not print. -/
def Pm.lift {α : Type} (m : C α) : Pm α := fun s => (m, s)

/-- `SLIP_PRINTF`, slip_internal.h lines 116-122. -/
def printf (e : Ev) : Pm Unit := fun s => (.ok (), { s with out := s.out ++ [e] })

/-- `SLIP_PR1`, slip_internal.h line 124. -/
def pr1 (e : Ev) : Pm Unit := fun s => if s.pr ≥ 1 then printf e s else (.ok (), s)

/-- `SLIP_PR2`, slip_internal.h line 125. -/
def pr2 (e : Ev) : Pm Unit := fun s => if s.pr ≥ 2 then printf e s else (.ok (), s)

/-- An error message, and `return`: e.g. SLIP_matrix_check.c lines 81-82. -/
def complain {α : Type} (e : Msg) (code : Info) : Pm α := do
  pr1 (.err e)
  Pm.lift (.error (.ret code))

/-- `SLIP_PR_LIMIT`, SLIP_matrix_check.c lines 16-23. -/
def limit : Pm Unit := fun s =>
  let s := { s with lines := s.lines + 1 }
  if s.pr = 2 ∧ s.lines > 30 then (.ok (), { s with out := s.out ++ [.dots], pr := 1 }) else (.ok (), s)

/-- `status = SLIP_mpfr_asprintf (&buff, ...)`, and if it succeeds the string is printed at level 2: SLIP_matrix_check.c
lines 125-130, 233-239. -/
def format (E : PrEnv) (e : Ev) : Pm Unit := fun s =>
  let st := E.asp s.calls
  let s := { s with status := st, calls := s.calls + 1 }
  if st = .ok then pr2 e s else (.ok (), s)

/-- The value of entry `t` is printed: SLIP_matrix_check.c lines 229-274, 329-374, 458-503. -/
def showVal (E : PrEnv) (A : Mat) (t : Int) : Pm Unit :=
  match A.x with
  | none => Pm.lift (.error .ub)
  | some (.mpz a) => do let v ← Pm.lift (rd a t); format E (.val (.mpz v))
  | some (.mpq a) => do let v ← Pm.lift (rd a t); format E (.val (.mpq v))
  | some (.mpfr a) => do let v ← Pm.lift (rd a t); format E (.val (.mpfr v))
  | some (.int64 a) => do let v ← Pm.lift (rd a t); pr2 (.val (.int64 v))
  | some (.fp64 a) => do let v ← Pm.lift (rd a t); pr2 (.val (.fp64 v))

/-- `if (status < 0) ... return (status)`; in a CSC or triplet matrix the message is printed at all levels (lines 275-280,
375-380), in a dense one at level 2 (lines 504-508). -/
def stop (dense : Bool) : Pm Unit := fun s =>
  if s.status = .ok then (.ok (), s)
  else (do
    if dense then pr2 (.error s.status) else printf (.error s.status)
    Pm.lift (.error (.ret s.status))) s

/-- `if (pr >= 2) { ... }`: an entry is printed, e.g. SLIP_matrix_check.c lines 224-281. -/
def showEntry (E : PrEnv) (A : Mat) (e : Ev) (t : Int) (dense : Bool) : Pm Unit := fun s =>
  if s.pr ≥ 2 then (do
    limit
    pr2 e
    showVal E A t
    stop dense) s
  else (.ok (), s)

/-- `forCnt` (`Verif/Basic.lean`) with output. -/
def forCntP {σ : Type} : Nat → Int → σ → (Int → σ → Pm σ) → Pm σ
  | 0, _, s, _ => pure s
  | m + 1, lo, s, f => do
    let s ← f lo s
    forCntP m (lo + 1) s f

/-- `for (i = lo ; i < hi ; i++)` with output. -/
def forRangeP {σ : Type} (lo hi : Int) (s : σ) (f : Int → σ → Pm σ) : Pm σ :=
  forCntP (hi - lo).toNat lo s f

/-- The column pointers, SLIP_matrix_check.c lines 169-181. -/
def checkPtrP (p : Arr Int) (n nz : Int) : Pm Unit :=
  forRangeP 0 n () fun j _ => do
    let a ← Pm.lift (rd p j)
    let b ← Pm.lift (rd p (j + 1))
    if b < a ∨ b > nz then complain .p .incorrectInput else pure ()

/-- The allocation of the workspace, SLIP_matrix_check.c lines 192-200, 388-396. -/
def needMem (E : PrEnv) : Pm Unit :=
  if E.mem = false then complain .memory .outOfMemory else pure ()

/-- The row indices of a CSC matrix, SLIP_matrix_check.c lines 192-285. -/
def checkRowsP (E : PrEnv) (A : Mat) (p i : Arr Int) : Pm Unit := do
  needMem E
  let _ ← forRangeP 0 A.n (calloc A.m) fun j work => do
    limit
    pr2 (.column j)
    let a ← Pm.lift (rd p j)
    let b ← Pm.lift (rd p (j + 1))
    forRangeP a b work fun t work => do
      let r ← Pm.lift (rd i t)
      if r < 0 ∨ r ≥ A.m then complain (.range r j) .incorrectInput
      else do
        let w ← Pm.lift (rd work r)
        if w = j + 1 then complain (.dup r j) .incorrectInput
        else do
          showEntry E A (.row r) t false
          Pm.lift (wr work r (j + 1))
  pure ()

/-- The indices of a triplet matrix, SLIP_matrix_check.c lines 313-382. -/
def checkTripletsP (E : PrEnv) (A : Mat) (i j : Arr Int) (nz : Int) : Pm Unit :=
  forRangeP 0 nz () fun t _ => do
    let r ← Pm.lift (rd i t)
    let c ← Pm.lift (rd j t)
    if r < 0 ∨ r ≥ A.m ∨ c < 0 ∨ c ≥ A.n then complain .index .incorrectInput
    else showEntry E A (.pair r c) t false

/-- Duplicates in a triplet matrix, SLIP_matrix_check.c lines 388-421. -/
def checkDupP (E : PrEnv) (qs : List (Int × Int) → List (Int × Int)) (i j : Arr Int) (nz : Int) : Pm Unit := do
  needMem E
  let work ← Pm.lift (forRange 0 nz [] fun t (work : List (Int × Int)) => do
    let c ← rd j t
    let r ← rd i t
    pure (work ++ [(c, r)]))
  let work := (qs work).map some
  forRangeP 1 nz () fun t _ => do
    let this ← Pm.lift (rd work t)
    let last ← Pm.lift (rd work (t - 1))
    if this.1 = last.1 ∧ this.2 = last.2 then complain (.dup this.2 this.1) .incorrectInput else pure ()

/-- A dense matrix, SLIP_matrix_check.c lines 447-511. -/
def checkDenseP (E : PrEnv) (A : Mat) : Pm Unit :=
  forRangeP 0 A.n () fun j _ => do
    limit
    pr2 (.column j)
    forRangeP 0 A.m () fun i _ => showEntry E A (.row i) (i + j * A.m) true

/-- The `switch` on the kind, SLIP_matrix_check.c lines 147-513. -/
def checkKindP (E : PrEnv) (qs : List (Int × Int) → List (Int × Int)) (A : Mat) (nz : Int) : Pm Unit :=
  match A.kind with
  | .csc => do
    let p0 ← Pm.lift (if A.nzmax > 0 ∧ A.p ≠ none then rd (deref A.p) 0 else pure 0)
    if A.nzmax > 0 ∧ (A.p = none ∨ p0 ≠ 0) then complain .p .incorrectInput
    else do
      checkPtrP (deref A.p) A.n nz
      if A.nzmax > 0 ∧ (A.i = none ∨ A.x = none) then complain .ix .incorrectInput
      else checkRowsP E A (deref A.p) (deref A.i)
  | .triplet =>
    if A.nzmax > 0 ∧ (A.i = none ∨ A.j = none ∨ A.x = none) then complain .ijx .incorrectInput
    else do
      checkTripletsP E A (deref A.i) (deref A.j) nz
      checkDupP E qs (deref A.i) (deref A.j) nz
  | .dense =>
    if A.nzmax > 0 ∧ A.x = none then complain .x .incorrectInput
    else checkDenseP E A
  | .bad _ => pure ()

/-- The scale factor, SLIP_matrix_check.c lines 122-131. -/
def showScale (E : PrEnv) (A : Mat) : Pm Unit := fun s =>
  if s.pr ≥ 2 then (do
    pr2 .scaleIs
    format E (.scale A.scale) : Pm Unit) s
  else (.ok (), s)

/-- The header and the scale factor, SLIP_matrix_check.c lines 116-131. -/
def showHeader (E : PrEnv) (A : Mat) (nz : Int) : Pm Unit := do
  pr2 (.header A.m A.n nz A.nzmax A.kind A.type)
  showScale E A

/-- The body of `SLIP_matrix_check`, SLIP_matrix_check.c lines 68-521; a `return` of an error code is the failure `ret`. -/
def checkBody (E : PrEnv) (qs : List (Int × Int) → List (Int × Int)) (init : Bool) (A : Option Mat) : Pm Unit :=
  if !init then Pm.lift (.error (.ret .panic))
  else do
    let nz ← Pm.lift (SLIP_matrix_nnz init A)
    if nz < 0 then complain .nz .incorrectInput
    else match A with
    | none => Pm.lift (.error .ub)
    | some A =>
      if A.m < 0 then complain .m .incorrectInput
      else if A.n < 0 then complain .n .incorrectInput
      else if A.nzmax < 0 then complain .nzmax .incorrectInput
      else if !A.type.good then complain .type .incorrectInput
      else do
        showHeader E A nz
        checkKindP E qs A nz

/-- `SLIP_matrix_check`, SLIP_matrix_check.c lines 61-521: the status and what has been printed. -/
def SLIP_matrix_checkP (E : PrEnv) (qs : List (Int × Int) → List (Int × Int)) (init : Bool) (A : Option Mat)
    (opt : Option Options) : C Info × List Ev :=
  let r := checkBody E qs init A { pr := optPrint opt, lines := 0, status := .ok, calls := 0, out := [] }
  (codeOf r.1, r.2.out)

end Slip
