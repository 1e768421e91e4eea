import Verif.Model.Cost
import Verif.Model.Api

/-!
# The user-callable functions with a meter

`SLIP_LU_factorize` and `SLIP_LU_solve` (`Verif/Model/Api.lean`) with the metered bodies of `Verif/Model/Cost.lean`.
The argument checks are not counted.
-/

namespace Slip

variable (α β γ : ℕ)

/-- The return paths of a function (`factWrap`: SLIP_LU_factorize.c lines 317-322; `solveWrap`: SLIP_LU_solve.c
lines 172-174): they do not change the counter. -/
def W.wrap {γ δ : Type} (f : C γ → C δ) (m : W γ) : W δ := fun w => (f (m w).1, (m w).2)

/-- `SLIP_LU_factorize`: SLIP_LU_factorize.c lines 42-326. -/
def SLIP_LU_factorizeT (nc : Int → Int → ℚ → Bool) (init : Bool) (L U rhos : Handle Mat)
    (pinv : Handle (Arr Int)) (A : Option Mat) (S : Option Analysis) (opt : Option Options) : W FactOut :=
  if !init then pure ⟨.panic, L, U, rhos, pinv⟩
  else match A with
  | none => pure ⟨.incorrectInput, L, U, rhos, pinv⟩
  | some A =>
    if A.kind ≠ .csc then pure ⟨.incorrectInput, L, U, rhos, pinv⟩
    else if A.type ≠ .mpz then pure ⟨.incorrectInput, L, U, rhos, pinv⟩
    else do
      let anz ← W.lift (SLIP_matrix_nnz init (some A))
      match S with
      | none => pure ⟨.incorrectInput, L, U, rhos, pinv⟩
      | some S =>
        if L = none ∨ U = none ∨ rhos = none ∨ pinv = none ∨ anz < 0 then
          pure ⟨.incorrectInput, L, U, rhos, pinv⟩
        else
          W.wrap (factWrap A.n) (factorizeT α β γ nc (optPivot opt) (optTol opt) A.toCsc S.q S.lnz S.unz)

/-- `SLIP_LU_solve`: SLIP_LU_solve.c lines 53-175. -/
def SLIP_LU_solveT (init : Bool) (x : Handle Mat) (b A L U rhos : Option Mat)
    (S : Option Analysis) (pinv : Option (Arr Int)) (opt : Option Options) : W (Info × Handle Mat) :=
  if !init then pure (.panic, x)
  else if requireFails b .dense .mpz then pure (.incorrectInput, x)
  else if requireFails A .csc .mpz then pure (.incorrectInput, x)
  else if requireFails L .csc .mpz then pure (.incorrectInput, x)
  else if requireFails U .csc .mpz then pure (.incorrectInput, x)
  else if requireFails rhos .dense .mpz then pure (.incorrectInput, x)
  else match b, A, L, U, rhos, S, pinv with
  | some b, some A, some L, some U, some rhos, some S, some pinv =>
    if x = none ∨ L.m ≠ A.m ∨ L.n ≠ U.m ∨ U.n ≠ A.n ∨ A.n ≠ A.m ∨ A.m ≠ b.m then
      pure (.incorrectInput, x)
    else
      W.wrap solveWrap (luSolveT α β A.toCsc A.scale b.toDense b.scale
        { L := L.toCsc, U := U.toCsc, rhos := rhos.xz, pinv := pinv } S.q (optCheck opt))
  | _, _, _, _, _, _, _ => pure (.incorrectInput, x)

end Slip
