import Verif.Model.Machine2
import Verif.Model.MatCheck

/-!
# SLIP_matrix_check in 64-bit arithmetic

As `Verif/Model/Machine.lean`: the code of `Verif/Model/MatCheck.lean` once more, with every operation on
`int64_t` indices, counts and line numbers checked. In `checkDup64` the array `work` is still a list of pairs, but all the index
arithmetic on it is done.
-/

namespace Slip

/-- `SLIP_PR_LIMIT`, SLIP_matrix_check.c lines 16-23. -/
def prLimit64 (s : Int × Int) : C (Int × Int) := do
  let lines ← i64 (s.2 + 1)
  pure (if s.1 = 2 ∧ lines > 30 then (1, lines) else (s.1, lines))

/-- The column pointers, SLIP_matrix_check.c lines 163-179. -/
def checkPtr64 (p : Arr Int) (n nz : Int) : C Unit :=
  forRange 0 n () fun j _ => do
    let a ← rd p j
    let j1 ← i64 (j + 1)
    let b ← rd p j1
    if b < a ∨ b > nz then .error (.ret .incorrectInput) else pure ()

/-- The row indices of a CSC matrix, SLIP_matrix_check.c lines 193-286. -/
def checkRows64 (A : Mat) (p i : Arr Int) (pr : Int) : C Unit := do
  let _ ← forRange 0 A.n (calloc A.m, (pr, 0)) fun j (work, s) => do
    let s ← prLimit64 s
    let marked ← i64 (j + 1)
    let a ← rd p j
    let b ← rd p marked
    forRange a b (work, s) fun t (work, s) => do
      let r ← rd i t
      if r < 0 ∨ r ≥ A.m then .error (.ret .incorrectInput)
      else do
        let w ← rd work r
        if w = marked then .error (.ret .incorrectInput)
        else if s.1 ≥ 2 then do
          let s ← prLimit64 s
          printVal A t
          let work ← wr work r marked
          pure (work, s)
        else do
          let work ← wr work r marked
          pure (work, s)
  pure ()

/-- The indices of a triplet matrix are in range, SLIP_matrix_check.c lines 313-387. -/
def checkTriplets64 (A : Mat) (i j : Arr Int) (nz pr : Int) : C Unit := do
  let _ ← forRange 0 nz (pr, (0 : Int)) fun t s => do
    let r ← rd i t
    let c ← rd j t
    if r < 0 ∨ r ≥ A.m ∨ c < 0 ∨ c ≥ A.n then .error (.ret .incorrectInput)
    else if s.1 ≥ 2 then do
      let s ← prLimit64 s
      printVal A t
      pure s
    else pure s
  pure ()

/-- The pairs `(j,i)` are loaded, sorted and neighbours compared, SLIP_matrix_check.c lines 389-421. -/
def checkDup64 (qs : List (Int × Int) → List (Int × Int)) (i j : Arr Int) (nz : Int) : C Unit := do
  let nz2 ← i64 (nz * 2)
  let _ ← malloc64 nz2
  let work ← forRange 0 nz [] fun t (work : List (Int × Int)) => do
    let c ← rd j t
    let t2 ← i64 (2 * t)
    let r ← rd i t
    let _ ← i64 (t2 + 1)
    pure (work ++ [(c, r)])
  let work := (qs work).map some
  forRange 1 nz () fun t _ => do
    let t2 ← i64 (2 * t)
    let _ ← i64 (t2 + 1)
    let this ← rd work t
    let t1 ← i64 (t - 1)
    let l2 ← i64 (2 * t1)
    let _ ← i64 (l2 + 1)
    let last ← rd work t1
    if this.1 = last.1 ∧ this.2 = last.2 then .error (.ret .incorrectInput) else pure ()

/-- Printing of a dense matrix, SLIP_matrix_check.c lines 447-511; the index is that of `SLIP_2D`, SLIP_LU.h line 425. -/
def checkDense64 (A : Mat) (pr : Int) : C Unit := do
  let _ ← forRange 0 A.n (pr, (0 : Int)) fun j s => do
    let s ← prLimit64 s
    forRange 0 A.m s fun i s =>
      if s.1 ≥ 2 then do
        let s ← prLimit64 s
        let jm ← i64 (j * A.m)
        let k ← i64 (i + jm)
        printVal A k
        pure s
      else pure s
  pure ()

/-- The `switch` on the kind, SLIP_matrix_check.c lines 147-513. -/
def checkKind64 (qs : List (Int × Int) → List (Int × Int)) (A : Mat) (nz pr : Int) : C Unit :=
  match A.kind with
  | .csc => do
    let p0 ← if A.nzmax > 0 ∧ A.p ≠ none then rd (deref A.p) 0 else pure 0
    if A.nzmax > 0 ∧ (A.p = none ∨ p0 ≠ 0) then .error (.ret .incorrectInput)
    else do
      checkPtr64 (deref A.p) A.n nz
      if A.nzmax > 0 ∧ (A.i = none ∨ A.x = none) then .error (.ret .incorrectInput)
      else checkRows64 A (deref A.p) (deref A.i) pr
  | .triplet =>
    if A.nzmax > 0 ∧ (A.i = none ∨ A.j = none ∨ A.x = none) then .error (.ret .incorrectInput)
    else do
      checkTriplets64 A (deref A.i) (deref A.j) nz pr
      checkDup64 qs (deref A.i) (deref A.j) nz
  | .dense =>
    if A.nzmax > 0 ∧ A.x = none then .error (.ret .incorrectInput)
    else checkDense64 A pr
  | .bad _ => pure ()

/-- `SLIP_matrix_check`, SLIP_matrix_check.c lines 61-521. -/
def SLIP_matrix_check64 (qs : List (Int × Int) → List (Int × Int)) (init : Bool) (A : Option Mat)
    (opt : Option Options) : C Info :=
  if !init then pure .panic
  else do
    let nz ← SLIP_matrix_nnz64 init A
    if nz < 0 then pure .incorrectInput
    else match A with
    | none => .error .ub
    | some A =>
      if A.m < 0 then pure .incorrectInput
      else if A.n < 0 then pure .incorrectInput
      else if A.nzmax < 0 then pure .incorrectInput
      else if !A.type.good then pure .incorrectInput
      else codeOf (checkKind64 qs A nz (optPrint opt))

end Slip
