import Verif.Model.Cost
import Verif.Model.MatCheck

/-!
# SLIP_matrix_check with a meter

`SLIP_matrix_check` (`Verif/Model/MatCheck.lean`) once more, with a counter for the work: `α` is added for every entry whose
value is read in order to print it, `β` for every execution of the body of a loop, `γ` for every element of the workspace
that is requested.  Not counted: what `qsort` does inside.
-/

namespace Slip

variable (α β γ : ℕ)

/-- The column pointers: SLIP_matrix_check.c lines 163-179. -/
def checkPtrT (p : Arr Int) (n nz : Int) : W Unit :=
  forRangeT β 0 n () fun j _ => W.lift (do
    let a ← rd p j
    let b ← rd p (j + 1)
    if b < a ∨ b > nz then .error (.ret .incorrectInput) else pure ())

/-- The row indices of a CSC matrix: SLIP_matrix_check.c lines 191-286. -/
def checkRowsT (A : Mat) (p i : Arr Int) (pr : Int) : W Unit := do
  tick (γ * A.m.toNat) -- SLIP_calloc (m, sizeof (int64_t))
  let _ ← forRangeT β 0 A.n (calloc A.m, (pr, 0)) fun j (work, s) => do
    let s := prLimit s
    let a ← W.lift (rd p j)
    let b ← W.lift (rd p (j + 1))
    forRangeT β a b (work, s) fun t (work, s) => do
      let r ← W.lift (rd i t)
      if r < 0 ∨ r ≥ A.m then W.lift (.error (.ret .incorrectInput))
      else do
        let w ← W.lift (rd work r)
        if w = j + 1 then W.lift (.error (.ret .incorrectInput))
        else if s.1 ≥ 2 then do
          let s := prLimit s
          tick α
          W.lift (printVal A t)
          let work ← W.lift (wr work r (j + 1))
          pure (work, s)
        else do
          let work ← W.lift (wr work r (j + 1))
          pure (work, s)
  pure ()

/-- The indices of a triplet matrix are in range: SLIP_matrix_check.c lines 313-387. -/
def checkTripletsT (A : Mat) (i j : Arr Int) (nz pr : Int) : W Unit := do
  let _ ← forRangeT β 0 nz (pr, (0 : Int)) fun t s => do
    let r ← W.lift (rd i t)
    let c ← W.lift (rd j t)
    if r < 0 ∨ r ≥ A.m ∨ c < 0 ∨ c ≥ A.n then W.lift (.error (.ret .incorrectInput))
    else if s.1 ≥ 2 then do
      let s := prLimit s
      tick α
      W.lift (printVal A t)
      pure s
    else pure s
  pure ()

/-- The pairs `(j,i)` are loaded, sorted and neighbours compared: SLIP_matrix_check.c lines 389-421. -/
def checkDupT (qs : List (Int × Int) → List (Int × Int)) (i j : Arr Int) (nz : Int) : W Unit := do
  tick (γ * (2 * nz).toNat) -- SLIP_malloc (nz * 2 * sizeof (int64_t))
  let work ← forRangeT β 0 nz [] fun t (work : List (Int × Int)) => W.lift (do
    let c ← rd j t
    let r ← rd i t
    pure (work ++ [(c, r)]))
  let work := (qs work).map some
  forRangeT β 1 nz () fun t _ => W.lift (do
    let this ← rd work t
    let last ← rd work (t - 1)
    if this.1 = last.1 ∧ this.2 = last.2 then .error (.ret .incorrectInput) else pure ())

/-- Printing of a dense matrix: SLIP_matrix_check.c lines 447-511. -/
def checkDenseT (A : Mat) (pr : Int) : W Unit := do
  let _ ← forRangeT β 0 A.n (pr, (0 : Int)) fun j s =>
    forRangeT β 0 A.m (prLimit s) fun i s =>
      if s.1 ≥ 2 then do
        let s := prLimit s
        tick α
        W.lift (printVal A (i + j * A.m))
        pure s
      else pure s
  pure ()

/-- The `switch` on the kind: SLIP_matrix_check.c lines 147-513. -/
def checkKindT (qs : List (Int × Int) → List (Int × Int)) (A : Mat) (nz pr : Int) : W Unit :=
  match A.kind with
  | .csc => do
    let p0 ← W.lift (if A.nzmax > 0 ∧ A.p ≠ none then rd (deref A.p) 0 else pure 0)
    if A.nzmax > 0 ∧ (A.p = none ∨ p0 ≠ 0) then W.lift (.error (.ret .incorrectInput))
    else do
      checkPtrT β (deref A.p) A.n nz
      if A.nzmax > 0 ∧ (A.i = none ∨ A.x = none) then W.lift (.error (.ret .incorrectInput))
      else checkRowsT α β γ A (deref A.p) (deref A.i) pr
  | .triplet =>
    if A.nzmax > 0 ∧ (A.i = none ∨ A.j = none ∨ A.x = none) then W.lift (.error (.ret .incorrectInput))
    else do
      checkTripletsT α β A (deref A.i) (deref A.j) nz pr
      checkDupT β γ qs (deref A.i) (deref A.j) nz
  | .dense =>
    if A.nzmax > 0 ∧ A.x = none then W.lift (.error (.ret .incorrectInput))
    else checkDenseT α β A pr
  | .bad _ => pure ()

/-- The `return` statements inside the `switch`: the work done before them counts. -/
def codeOfT (m : W Unit) : W Info := fun w => (codeOf (m w).1, (m w).2)

/-- `SLIP_matrix_check`: SLIP_matrix_check.c lines 61-521. -/
def SLIP_matrix_checkT (qs : List (Int × Int) → List (Int × Int)) (init : Bool) (A : Option Mat)
    (opt : Option Options) : W Info :=
  if !init then pure .panic
  else do
    let nz ← W.lift (SLIP_matrix_nnz init A)
    if nz < 0 then pure .incorrectInput
    else match A with
    | none => W.lift (.error .ub)
    | some A =>
      if A.m < 0 then pure .incorrectInput
      else if A.n < 0 then pure .incorrectInput
      else if A.nzmax < 0 then pure .incorrectInput
      else if !A.type.good then pure .incorrectInput
      else codeOfT (checkKindT α β γ qs A nz (optPrint opt))

end Slip
