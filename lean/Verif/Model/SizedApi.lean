import Verif.Model.Sized
import Verif.Model.Api

/-!
# `SLIP_LU_factorize` and `SLIP_LU_solve` with integers of limited size

The argument checks of `Verif/Model/Api.lean` around the bodies of `Verif/Model/Sized.lean`.
-/

namespace Slip

variable (fits : Int → Bool)

/-- `SLIP_LU_factorize` with the limit: SLIP_LU_factorize.c lines 42-322. -/
def SLIP_LU_factorizeB (nc : Int → Int → ℚ → Bool) (init : Bool) (L U rhos : Handle Mat)
    (pinv : Handle (Arr Int)) (A : Option Mat) (S : Option Analysis) (opt : Option Options) :
    C FactOut :=
  if !init then pure ⟨.panic, L, U, rhos, pinv⟩
  else match A with
  | none => pure ⟨.incorrectInput, L, U, rhos, pinv⟩
  | some A =>
    if A.kind ≠ .csc then pure ⟨.incorrectInput, L, U, rhos, pinv⟩
    else if A.type ≠ .mpz then pure ⟨.incorrectInput, L, U, rhos, pinv⟩
    else do
      let anz ← SLIP_matrix_nnz init (some A)
      match S with
      | none => pure ⟨.incorrectInput, L, U, rhos, pinv⟩
      | some S =>
        if L = none ∨ U = none ∨ rhos = none ∨ pinv = none ∨ anz < 0 then
          pure ⟨.incorrectInput, L, U, rhos, pinv⟩
        else
          factWrap A.n (factorizeB fits nc (optPivot opt) (optTol opt) A.toCsc S.q S.lnz S.unz)

/-- `SLIP_LU_solve` with the limit: SLIP_LU_solve.c lines 53-175. -/
def SLIP_LU_solveB (init : Bool) (x : Handle Mat) (b A L U rhos : Option Mat)
    (S : Option Analysis) (pinv : Option (Arr Int)) (opt : Option Options) :
    C (Info × Handle Mat) :=
  if !init then pure (.panic, x)
  else if requireFails b .dense .mpz then pure (.incorrectInput, x)
  else if requireFails A .csc .mpz then pure (.incorrectInput, x)
  else if requireFails L .csc .mpz then pure (.incorrectInput, x)
  else if requireFails U .csc .mpz then pure (.incorrectInput, x)
  else if requireFails rhos .dense .mpz then pure (.incorrectInput, x)
  else match b, A, L, U, rhos, S, pinv with
  | some b, some A, some L, some U, some rhos, some S, some pinv =>
    if x = none ∨ L.m ≠ A.m ∨ L.n ≠ U.m ∨ U.n ≠ A.n ∨ A.n ≠ A.m ∨ A.m ≠ b.m then
      pure (.incorrectInput, x)
    else
      solveWrap (luSolveB fits A.toCsc A.scale b.toDense b.scale
        { L := L.toCsc, U := U.toCsc, rhos := rhos.xz, pinv := pinv } S.q (optCheck opt))
  | _, _, _, _, _, _, _ => pure (.incorrectInput, x)

end Slip
