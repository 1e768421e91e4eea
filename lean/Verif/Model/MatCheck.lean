import Verif.Model.Convert

/-!
# `SLIP_matrix_check`

Printing is modelled only as far as it reads the values of the matrix (print level 2 and above);
`SLIP_mpfr_asprintf` is assumed to succeed. The workspace allocation is assumed to succeed here (its
failure is part of the memory model).
-/

namespace Slip

/-- `compar`, SLIP_matrix_check.c lines 27-51: compares two pairs, first components first. -/
def compar (a b : Int × Int) : Int :=
  if a.1 < b.1 then -1
  else if a.1 > b.1 then 1
  else if a.2 < b.2 then -1
  else if a.2 > b.2 then 1
  else 0

/-- Reading the value of entry `t` in order to print it: SLIP_matrix_check.c lines 229-280, 329-380,
458-508. -/
def printVal (A : Mat) (t : Int) : C Unit :=
  match A.x with
  | none => .error .ub
  | some (.mpz a) => do let _ ← rd a t; pure ()
  | some (.mpq a) => do let _ ← rd a t; pure ()
  | some (.mpfr a) => do let _ ← rd a t; pure ()
  | some (.int64 a) => do let _ ← rd a t; pure ()
  | some (.fp64 a) => do let _ ← rd a t; pure ()

/-- `SLIP_PR_LIMIT`, SLIP_matrix_check.c lines 16-23: at print level 2, printing stops after 30
lines. The state is `(pr, lines)`. -/
def prLimit (s : Int × Int) : Int × Int :=
  if s.1 = 2 ∧ s.2 + 1 > 30 then (1, s.2 + 1) else (s.1, s.2 + 1)

/-- The column pointers, SLIP_matrix_check.c lines 163-179. -/
def checkPtr (p : Arr Int) (n nz : Int) : C Unit :=
  forRange 0 n () fun j _ => do
    let a ← rd p j
    let b ← rd p (j + 1)
    if b < a ∨ b > nz then .error (.ret .incorrectInput) else pure ()

/-- The row indices of a CSC matrix, SLIP_matrix_check.c lines 193-286; `work` marks the rows seen in
the current column. -/
def checkRows (A : Mat) (p i : Arr Int) (pr : Int) : C Unit := do
  let _ ← forRange 0 A.n (calloc A.m, (pr, 0)) fun j (work, s) => do
    let s := prLimit s
    let a ← rd p j
    let b ← rd p (j + 1)
    forRange a b (work, s) fun t (work, s) => do
      let r ← rd i t
      if r < 0 ∨ r ≥ A.m then .error (.ret .incorrectInput)
      else do
        let w ← rd work r
        if w = j + 1 then .error (.ret .incorrectInput)
        else if s.1 ≥ 2 then do
          let s := prLimit s
          printVal A t
          let work ← wr work r (j + 1)
          pure (work, s)
        else do
          let work ← wr work r (j + 1)
          pure (work, s)
  pure ()

/-- The indices of a triplet matrix are in range, SLIP_matrix_check.c lines 313-387. -/
def checkTriplets (A : Mat) (i j : Arr Int) (nz pr : Int) : C Unit := do
  let _ ← forRange 0 nz (pr, (0 : Int)) fun t s => do
    let r ← rd i t
    let c ← rd j t
    if r < 0 ∨ r ≥ A.m ∨ c < 0 ∨ c ≥ A.n then .error (.ret .incorrectInput)
    else if s.1 ≥ 2 then do
      let s := prLimit s
      printVal A t
      pure s
    else pure s
  pure ()

/-- The pairs `(j,i)` are loaded, sorted and neighbours compared, SLIP_matrix_check.c lines 389-421;
`qs` is `qsort` with `compar`, on the list of pairs that `work` consists of. -/
def checkDup (qs : List (Int × Int) → List (Int × Int)) (i j : Arr Int) (nz : Int) : C Unit := do
  let work ← forRange 0 nz [] fun t (work : List (Int × Int)) => do
    let c ← rd j t
    let r ← rd i t
    pure (work ++ [(c, r)])
  let work := (qs work).map some
  forRange 1 nz () fun t _ => do
    let this ← rd work t
    let last ← rd work (t - 1)
    if this.1 = last.1 ∧ this.2 = last.2 then .error (.ret .incorrectInput) else pure ()

/-- Printing of a dense matrix, SLIP_matrix_check.c lines 447-511. -/
def checkDense (A : Mat) (pr : Int) : C Unit := do
  let _ ← forRange 0 A.n (pr, (0 : Int)) fun j s =>
    forRange 0 A.m (prLimit s) fun i s =>
      if s.1 ≥ 2 then do
        let s := prLimit s
        printVal A (i + j * A.m)
        pure s
      else pure s
  pure ()

/-- `A->type < SLIP_MPZ || A->type > SLIP_FP64`, SLIP_matrix_check.c line 108. -/
def Ty.good : Ty → Bool
  | .bad _ => false
  | _ => true

/-- The `switch` on the kind, SLIP_matrix_check.c lines 147-513. -/
def checkKind (qs : List (Int × Int) → List (Int × Int)) (A : Mat) (nz pr : Int) : C Unit :=
  match A.kind with
  | .csc => do
    let p0 ← if A.nzmax > 0 ∧ A.p ≠ none then rd (deref A.p) 0 else pure 0
    if A.nzmax > 0 ∧ (A.p = none ∨ p0 ≠ 0) then .error (.ret .incorrectInput)
    else do
      checkPtr (deref A.p) A.n nz
      if A.nzmax > 0 ∧ (A.i = none ∨ A.x = none) then .error (.ret .incorrectInput)
      else checkRows A (deref A.p) (deref A.i) pr
  | .triplet =>
    if A.nzmax > 0 ∧ (A.i = none ∨ A.j = none ∨ A.x = none) then .error (.ret .incorrectInput)
    else do
      checkTriplets A (deref A.i) (deref A.j) nz pr
      checkDup qs (deref A.i) (deref A.j) nz
  | .dense =>
    if A.nzmax > 0 ∧ A.x = none then .error (.ret .incorrectInput)
    else checkDense A pr
  | .bad _ => pure ()

/-- The `return` statements inside the `switch`, and the final `return (SLIP_OK)`,
SLIP_matrix_check.c line 520. -/
def codeOf : C Unit → C Info
  | .ok _ => pure .ok
  | .error (.ret e) => pure e
  | .error e => .error e

/-- `SLIP_matrix_check`, SLIP_matrix_check.c lines 61-521. -/
def SLIP_matrix_check (qs : List (Int × Int) → List (Int × Int)) (init : Bool) (A : Option Mat)
    (opt : Option Options) : C Info :=
  if !init then pure .panic
  else do
    let nz ← SLIP_matrix_nnz init A
    if nz < 0 then pure .incorrectInput
    else match A with
    | none => .error .ub
    | some A =>
      if A.m < 0 then pure .incorrectInput
      else if A.n < 0 then pure .incorrectInput
      else if A.nzmax < 0 then pure .incorrectInput
      else if !A.type.good then pure .incorrectInput
      else codeOf (checkKind qs A nz (optPrint opt))

end Slip
