import Verif.Model.Convert

/-!
# `SLIP_LU_analyze`, `SLIP_LU_solve` and `SLIP_backslash` with their output

The functions of `Verif/Model/Api.lean` and `Verif/Model/Convert.lean` once more, now with everything they print.  One
element of the output is what one of the statements named below prints; what the texts look like is not modelled, and of
the reports of AMD and COLAMD only the status and, for AMD, the number of nonzeros.  `SuiteSparse_config.printf_func` is
not NULL; if it is, nothing is printed and all else is the same.  (`SLIP_LU_factorize` and `SLIP_matrix_copy` do not print.)
-/

namespace Slip.Out

/-- What is printed. -/
inductive Line
  /-- "****Column Ordering Information****", SLIP_LU_analyze.c lines 106, 148 -/
  | heading
  /-- the control parameters of AMD, `amd_l_control`, SLIP_LU_analyze.c line 107 -/
  | amdControl
  /-- the results of AMD, `amd_l_info`, SLIP_LU_analyze.c line 108: its status and `Info [AMD_LNZ]` -/
  | amdInfo (st : Amd.Status) (lnz : Int)
  /-- the report of COLAMD, `colamd_l_report`, SLIP_LU_analyze.c line 149: "OK" or "ERROR" -/
  | colamd (ok : Bool)
  /-- "Estimated L and U nonzeros: ...", SLIP_LU_analyze.c line 150 -/
  | estimate (nz : Int)
  /-- "Solution is verified to be exact.", slip_check_solution.c line 105 -/
  | verified
  /-- "ERROR! Solution is wrong. ...", slip_check_solution.c lines 110-111 -/
  | wrong
  deriving DecidableEq

/-- A computation that prints: what has been printed so far goes in, what has been printed at the end comes out, also
when the function returns with an error. -/
def P (α : Type) : Type := List Line → C α × List Line

/-- Sequencing. -/
def P.bind {α β : Type} (m : P α) (f : α → P β) : P β := fun o =>
  match m o with
  | (.ok a, o') => f a o'
  | (.error e, o') => (.error e, o')

instance : Monad P where
  pure a := fun o => (.ok a, o)
  bind := P.bind

/-- A part that does not print. -/
def lift {α : Type} (m : C α) : P α := fun o => (m, o)

/-- `SLIP_PRINTF`, slip_internal.h lines 116-122. -/
def say (l : Line) : P Unit := fun o => (.ok (), o ++ [l])

/-- `SLIP_PR1`, slip_internal.h line 124. -/
def pr1 (pr : Int) (l : Line) : P Unit := if pr ≥ 1 then say l else pure ()

/-- The call of `amd_l_order`, SLIP_LU_analyze.c lines 95-103, returning also the status, which is `Info [AMD_STATUS]`
(amd_order.c lines 53-57 for NULL arrays). -/
def amd (O : Orderings) (A : Mat) (q : Arr Int) : C (Amd.Status × Arr Int × Int) :=
  match A.p, A.i with
  | some p, some i => Amd.amd_order (ar := Arith.exact) A.n p i q (O.amdMem A.n p i) (O.amdKnobs A.n)
  | _, _ => pure (.invalid, q, -1)

/-- The body of `SLIP_LU_analyze`, SLIP_LU_analyze.c lines 52-187. -/
def analyzeBody (O : Orderings) (A : Mat) (opt : Option Options) : P Analysis := do
  let n := A.n
  let anz ← lift (SLIP_matrix_nnz true (some A))
  let q := malloc Int (n + 1)
  let pr := optPrint opt
  let (q, nz) ← (match optOrder opt with
    | .none => do
      let q ← lift (forRange 0 (n + 1) q fun i q => wr q i i)
      pure (q, 10 * anz)
    | .amd => do
      let (st, q, lnz) ← lift (amd O A q)
      if pr > 0 then do
        say .heading
        say .amdControl
        say (.amdInfo st lnz)
      else pure ()
      pure (q, lnz)
    | .colamd => do
      let Alen := 2 * anz + 6 * (n + 1) + 6 * (n + 1) + n
      let A2 := malloc Int Alen
      let q ← lift (forRange 0 (n + 1) q fun i q => do
        let v ← rd (deref A.p) i
        wr q i v)
      let A2 ← lift (forRange 0 anz A2 fun i A2 => do
        let v ← rd (deref A.i) i
        wr A2 i v)
      let (ok, q) ← lift (Colamd.colamd (ar := Arith.exact) n n Alen A2 q (O.knobs n))
      let nz := 10 * anz
      if pr > 0 then do
        say .heading
        say (.colamd ok)
        say (.estimate nz)
      else pure ()
      pure (q, nz))
  let (lnz, unz) := clampNnz n nz nz
  pure { q := q, lnz := lnz, unz := unz }

/-- `SLIP_LU_analyze`, SLIP_LU_analyze.c lines 29-188. -/
def SLIP_LU_analyze (O : Orderings) (init : Bool) (S : Handle Analysis) (A : Option Mat)
    (opt : Option Options) : P (Info × Handle Analysis) :=
  if !init then pure (.panic, S)
  else match A with
  | none => pure (.incorrectInput, S)
  | some A =>
    if A.kind ≠ .csc then pure (.incorrectInput, S)
    else if S = none ∨ A.n ≠ A.m then pure (.incorrectInput, S)
    else do
      let r ← analyzeBody O A opt
      pure (.ok, some (some r))

/-- `slip_check_solution`, slip_check_solution.c lines 20-122. -/
def slip_check_solution (A : Csc) (x : Dense ℚ) (b : Dense Int) (opt : Option Options) : P Unit := do
  let b2 := allocDense ℚ b.m b.n
  let y ← lift (checkMul A x b.m b.n b2.x)
  let ok ← lift (checkCmp b y)
  let pr := optPrint opt
  if ok then pr1 pr .verified
  else do
    pr1 pr .wrong
    lift (.error (.ret .incorrect))

/-- The body of `SLIP_LU_solve` after the argument checks, SLIP_LU_solve.c lines 93-175. -/
def luSolve (A : Csc) (sA : ℚ) (b : Dense Int) (sb : ℚ) (F : Factors) (q : Arr Int) (opt : Option Options) :
    P (Dense ℚ) := do
  let n := F.L.n
  let b2 ← lift (slip_permute_b b F.pinv)
  let b2 ← lift (slip_forward_sub F.L b2 F.rhos)
  let det ← lift (rd F.rhos (n - 1))
  let b2 ← lift (slip_matrix_mul b2 det)
  let b2 ← lift (slip_back_sub F.U b2)
  let det ← lift (rd F.rhos (n - 1))
  let x2 ← lift (slip_matrix_div b2 det)
  let x ← lift (slip_permute_x x2 q)
  if optCheck opt then slip_check_solution A x b opt else pure ()
  lift (scaleSolution x sA sb)

/-- The return paths of `SLIP_LU_solve`: SLIP_LU_solve.c lines 172-174 and `SLIP_CHECK`. -/
def solveWrap (m : P (Dense ℚ)) : P (Info × Handle Mat) := fun o => (Slip.solveWrap (m o).1, (m o).2)

/-- `SLIP_LU_solve`, SLIP_LU_solve.c lines 53-175. -/
def SLIP_LU_solve (init : Bool) (x : Handle Mat) (b A L U rhos : Option Mat)
    (S : Option Analysis) (pinv : Option (Arr Int)) (opt : Option Options) :
    P (Info × Handle Mat) :=
  if !init then pure (.panic, x)
  else if requireFails b .dense .mpz then pure (.incorrectInput, x)
  else if requireFails A .csc .mpz then pure (.incorrectInput, x)
  else if requireFails L .csc .mpz then pure (.incorrectInput, x)
  else if requireFails U .csc .mpz then pure (.incorrectInput, x)
  else if requireFails rhos .dense .mpz then pure (.incorrectInput, x)
  else match b, A, L, U, rhos, S, pinv with
  | some b, some A, some L, some U, some rhos, some S, some pinv =>
    if x = none ∨ L.m ≠ A.m ∨ L.n ≠ U.m ∨ U.n ≠ A.n ∨ A.n ≠ A.m ∨ A.m ≠ b.m then
      pure (.incorrectInput, x)
    else
      solveWrap (luSolve A.toCsc A.scale b.toDense b.scale
        { L := L.toCsc, U := U.toCsc, rhos := rhos.xz, pinv := pinv } S.q opt)
  | _, _, _, _, _, _, _ => pure (.incorrectInput, x)

/-- `SLIP_backslash`, SLIP_backslash.c lines 46-135. -/
def SLIP_backslash (fp : Fp) (O : Orderings) (nc : Int → Int → ℚ → Bool) (init : Bool)
    (X : Handle Mat) (type : Ty) (A b : Option Mat) (opt : Option Options) :
    P (Info × Handle Mat) :=
  if !init then pure (.panic, X)
  else if X = none then pure (.incorrectInput, X)
  else if type ≠ .mpq ∧ type ≠ .fp64 ∧ type ≠ .mpfr then pure (.incorrectInput, some none)
  else if requireFails A .csc .mpz then pure (.incorrectInput, some none)
  else if requireFails b .dense .mpz then pure (.incorrectInput, some none)
  else do
    let (info, S) ← SLIP_LU_analyze O init (some none) A opt
    if info ≠ .ok then pure (info, some none)
    else do
      let f ← lift (SLIP_LU_factorize nc init (some none) (some none) (some none) (some none) A S.join opt)
      if f.info ≠ .ok then pure (f.info, some none)
      else do
        let (info, x) ← SLIP_LU_solve init (some none) b A f.L.join f.U.join f.rhos.join S.join
          f.pinv.join opt
        if info ≠ .ok then pure (info, some none)
        else if type = .mpq then pure (.ok, x)
        else do
          let (info, x2) ← lift (SLIP_matrix_copy fp init (some none) .dense type x.join opt)
          if info ≠ .ok then pure (info, some none) else pure (.ok, x2)

end Slip.Out
