import Verif.Model.Matrix
import Verif.Model.Colamd
import Verif.Model.Amd

/-!
# The user-callable functions: analyze, factorize, solve

A pointer argument is an `Option` (`none` = NULL). An output handle is an `Option (Option α)`:
`none` is a NULL handle, `some v` is a handle whose target currently holds `v` (`v = none` is a
NULL pointer). A call returns its status code and the handles as it leaves them; undefined
behaviour inside the call is `Except.error`. Out-of-memory returns are modelled in
`Verif/Model/Memory.lean`.
-/

namespace Slip

/-- An output argument `T **handle`. -/
abbrev Handle (α : Type) := Option (Option α)

/-- `SLIP_LU_analysis`: SLIP_LU.h `SLIP_LU_analysis` (q, lnz, unz). -/
structure Analysis where
  q : Arr Int
  lnz : Int
  unz : Int
  deriving DecidableEq

/-- What is external to the model of SLIP_LU_analyze.c: whether AMD (lines 95-103) can allocate its
workspaces, and the parameters that AMD (amd_2.c lines 584-604) and COLAMD (lines 141-143; colamd.c
lines 1922-1948 for an `n`-by-`n` matrix) compute from their default settings in floating point. -/
structure Orderings where
  amdMem : (n : Int) → (p i : Arr Int) → Amd.Alloc
  amdKnobs : (n : Int) → Amd.Knobs
  knobs : (n : Int) → Colamd.Knobs

/-- The safety margin on the estimates, SLIP_LU_analyze.c lines 162-178
(`ceil (0.5*n*n)` is `(n*n+1)/2`; the comparison in `double` is modelled exactly). -/
def clampNnz (n lnz unz : Int) : Int × Int :=
  let (lnz, unz) := if lnz > n * n then ((n * n + 1) / 2, (n * n + 1) / 2) else (lnz, unz)
  (if lnz < n then lnz + n else lnz, if unz < n then unz + n else unz)

/-- The call of `amd_l_order`, SLIP_LU_analyze.c lines 95-103; returns `S->q` and `Info [AMD_LNZ]`. NULL
arrays are rejected (amd_order.c lines 53-57). The return code is ignored. -/
def analyzeAmd [ar : Arith] (O : Orderings) (A : Mat) (q : Arr Int) : C (Arr Int × Int) :=
  match A.p, A.i with
  | some p, some i => do
    let (_, q, lnz) ← Amd.amd_order A.n p i q (O.amdMem A.n p i) (O.amdKnobs A.n)
    pure (q, lnz)
  | _, _ => pure (q, -1)

/-- The body of `SLIP_LU_analyze`, SLIP_LU_analyze.c lines 52-187 (printing omitted). -/
def analyzeBody (O : Orderings) (A : Mat) (opt : Option Options) : C Analysis := do
  let n := A.n
  let anz ← SLIP_matrix_nnz true (some A)
  let q := malloc Int (n + 1)
  let (q, nz) ← (match optOrder opt with
    | .none => do
      let q ← forRange 0 (n + 1) q fun i q => wr q i i
      pure (q, 10 * anz)
    | .amd => analyzeAmd (ar := Arith.exact) O A q
    | .colamd => do
      let Alen := 2 * anz + 6 * (n + 1) + 6 * (n + 1) + n
      let A2 := malloc Int Alen
      let q ← forRange 0 (n + 1) q fun i q => do
        let v ← rd (deref A.p) i
        wr q i v
      let A2 ← forRange 0 anz A2 fun i A2 => do
        let v ← rd (deref A.i) i
        wr A2 i v
      let (_, q) ← Colamd.colamd (ar := Arith.exact) n n Alen A2 q (O.knobs n)
      pure (q, 10 * anz))
  let (lnz, unz) := clampNnz n nz nz
  pure { q := q, lnz := lnz, unz := unz }

/-- `SLIP_LU_analyze`, SLIP_LU_analyze.c lines 29-188. -/
def SLIP_LU_analyze (O : Orderings) (init : Bool) (S : Handle Analysis) (A : Option Mat)
    (opt : Option Options) : C (Info × Handle Analysis) :=
  if !init then pure (.panic, S)
  else match A with
  | none => pure (.incorrectInput, S)
  | some A =>
    if A.kind ≠ .csc then pure (.incorrectInput, S)
    else if S = none ∨ A.n ≠ A.m then pure (.incorrectInput, S)
    else do
      let r ← analyzeBody O A opt
      pure (.ok, some (some r))

/-- Status and output handles of `SLIP_LU_factorize`. -/
structure FactOut where
  info : Info
  L : Handle Mat
  U : Handle Mat
  rhos : Handle Mat
  pinv : Handle (Arr Int)
  deriving DecidableEq

/-- The return paths of `SLIP_LU_factorize`: SLIP_LU_factorize.c lines 317-322 (success) and
`SLIP_CHECK` (any error, after lines 74-77 have set the handles to NULL). -/
def factWrap (n : Int) : C Factors → C FactOut
  | .ok F => pure ⟨.ok, some (some (Mat.ofCsc F.L)), some (some (Mat.ofCsc F.U)),
      some (some (Mat.ofDenseZ n 1 (max n 1) F.rhos)), some (some F.pinv)⟩
  | .error (.ret e) => pure ⟨e, some none, some none, some none, some none⟩
  | .error f => .error f

/-- `SLIP_LU_factorize`, SLIP_LU_factorize.c lines 42-326: the argument checks (lines 62-77), then
`factorize`. On an error return the handles stay NULL (lines 74-77). -/
def SLIP_LU_factorize (nc : Int → Int → ℚ → Bool) (init : Bool) (L U rhos : Handle Mat)
    (pinv : Handle (Arr Int)) (A : Option Mat) (S : Option Analysis) (opt : Option Options) :
    C FactOut :=
  if !init then pure ⟨.panic, L, U, rhos, pinv⟩
  else match A with
  | none => pure ⟨.incorrectInput, L, U, rhos, pinv⟩
  | some A =>
    if A.kind ≠ .csc then pure ⟨.incorrectInput, L, U, rhos, pinv⟩
    else if A.type ≠ .mpz then pure ⟨.incorrectInput, L, U, rhos, pinv⟩
    else do
      let anz ← SLIP_matrix_nnz init (some A)
      match S with
      | none => pure ⟨.incorrectInput, L, U, rhos, pinv⟩
      | some S =>
        if L = none ∨ U = none ∨ rhos = none ∨ pinv = none ∨ anz < 0 then
          pure ⟨.incorrectInput, L, U, rhos, pinv⟩
        else
          factWrap A.n (factorize nc (optPivot opt) (optTol opt) A.toCsc S.q S.lnz S.unz)

/-- `A == NULL || A->kind != kind || A->type != type`: the macro `SLIP_REQUIRE`, slip_internal.h
lines 706-722. -/
def requireFails (A : Option Mat) (kind : Kind) (type : Ty) : Bool :=
  match A with
  | none => true
  | some A => decide (A.kind ≠ kind ∨ A.type ≠ type)

/-- The return paths of `SLIP_LU_solve`: SLIP_LU_solve.c lines 172-174 (success) and `SLIP_CHECK`
(any error, after line 91 has set the handle to NULL). -/
def solveWrap : C (Dense ℚ) → C (Info × Handle Mat)
  | .ok d => pure (.ok, some (some (Mat.ofDenseQ d)))
  | .error (.ret e) => pure (e, some none)
  | .error f => .error f

/-- `SLIP_LU_solve`, SLIP_LU_solve.c lines 53-175: the argument checks (lines 75-91), then
`luSolve`. -/
def SLIP_LU_solve (init : Bool) (x : Handle Mat) (b A L U rhos : Option Mat)
    (S : Option Analysis) (pinv : Option (Arr Int)) (opt : Option Options) :
    C (Info × Handle Mat) :=
  if !init then pure (.panic, x)
  else if requireFails b .dense .mpz then pure (.incorrectInput, x)
  else if requireFails A .csc .mpz then pure (.incorrectInput, x)
  else if requireFails L .csc .mpz then pure (.incorrectInput, x)
  else if requireFails U .csc .mpz then pure (.incorrectInput, x)
  else if requireFails rhos .dense .mpz then pure (.incorrectInput, x)
  else match b, A, L, U, rhos, S, pinv with
  | some b, some A, some L, some U, some rhos, some S, some pinv =>
    if x = none ∨ L.m ≠ A.m ∨ L.n ≠ U.m ∨ U.n ≠ A.n ∨ A.n ≠ A.m ∨ A.m ≠ b.m then
      pure (.incorrectInput, x)
    else
      solveWrap (luSolve A.toCsc A.scale b.toDense b.scale
        { L := L.toCsc, U := U.toCsc, rhos := rhos.xz, pinv := pinv } S.q (optCheck opt))
  | _, _, _, _, _, _, _ => pure (.incorrectInput, x)

end Slip
