import Verif.Model.MatlabRun

/-!
# The MATLAB function `SLIP_backslash.m`

The function a MATLAB user calls; it calls the MEX file `SLIP_mex_soln` (`Verif/Model/MatlabRun.lean`).  Arrays are sparse or full
arrays of doubles; arrays of the other numeric classes of MATLAB are not modelled.
-/

namespace Slip

/-- The entries that `sparse (A)` stores for column `j` of a full array: row and value of each entry that is not zero. -/
def MxFull.column (A : MxFull) (j : ℕ) : List (ℤ × Dbl) :=
  (List.range A.m.toNat).filterMap fun (i : ℕ) =>
    match get A.pr ((i : ℤ) + j * A.m) with
    | some d => if d = Dbl.fin 0 then none else some ((i : ℤ), d)
    | none => none

/-- The entries of the first `j` columns. -/
def MxFull.upTo (A : MxFull) (j : ℕ) : List (ℤ × Dbl) := (List.range j).flatMap A.column

/-- MATLAB's `sparse (A)` for a full array, used in SLIP_backslash.m lines 111-113: the nonzeros, column by column. -/
def MxFull.sparse (A : MxFull) : MxSparse :=
  { m := A.m
    n := A.n
    jc := (List.range (A.n.toNat + 1)).map fun j => some ((A.upTo j).length : ℤ)
    ir := (A.upTo A.n.toNat).map fun e => some e.1
    pr := (A.upTo A.n.toNat).map fun e => some e.2 }

/-- MATLAB's `isnumeric`, for the arrays considered. -/
def MxArg.isNumeric : MxArg → Bool
  | .other _ => false
  | _ => true

/-- `if (~issparse (A)) A = sparse (A) ; end`: SLIP_backslash.m lines 111-113. -/
def MxArg.toSparse : MxArg → MxArg
  | .full c A => .sparse c A.sparse
  | a => a

/-- What SLIP_backslash.m returns: the result of the MEX file, or a vpa array with the given number of digits (`none`: the
current setting of MATLAB), made of these rationals. -/
inductive MxResult
  | mex (r : MexResult)
  | vpa (m n : ℤ) (digits : Option ℚ) (x : Arr ℚ)

/-- MATLAB's `error`: the library is left as it is. -/
def MexS.matlabError (msg : String) : MexS α := fun s => .ok (.error msg, s)

/-- `vpa (x, option.digits)` or `vpa (x)`: SLIP_backslash.m lines 119-128. A number of digits that is not a number is rejected by
`vpa`; `vpa` of doubles is not used here. -/
def mexVpa (o : MxOptions) : MexResult → MexS MxResult
  | .cells m n x =>
    match o.digits with
    | none => pure (.vpa m n none x)
    | some (.num (.fin d)) => pure (.vpa m n (some d) x)
    | some _ => MexS.matlabError "invalid number of digits"
  | .double _ _ _ => MexS.matlabError "vpa of doubles"

/-- `SLIP_backslash (A, b, option)`, MATLAB/SLIP_backslash.m lines 101-128; `option` is `none` if there are two arguments only (line 102:
the empty array is used). -/
def SLIP_backslash_m (fp : Fp) (O : Orderings) (nc : Int → Int → ℚ → Bool) (qs : List (Int × Int) → List (Int × Int))
    (code : String → ℚ) (tenth : ℚ) (A b : MxArg) (option : Option MxArg) : MexS MxResult := do
  let option := option.getD (.full false ⟨0, 0, []⟩)
  if !A.isNumeric || !b.isNumeric then MexS.matlabError "inputs must be numeric"
  else do
    let x ← mexFunction64 fp O nc qs code tenth 1 [A.toSparse, b, option]
    match option.options with
    | none => pure (.mex x)
    | some o => if o.solution = some (.text "vpa") then mexVpa o x else pure (.mex x)

end Slip
