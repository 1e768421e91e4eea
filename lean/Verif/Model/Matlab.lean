import Verif.Model.Convert

/-!
# The MATLAB interface

`SLIP_mex_soln.c` and the functions in `MATLAB/Source`. A function that calls `slip_mex_error` does
not return (`mexErrMsgTxt` jumps out of the MEX file): the monad is `ExceptT String C`, an error is
the message shown to the user. Memory does not run out here; printing is omitted.
-/

namespace Slip

/-- Computations that may end with an error message. -/
abbrev Mex (α : Type) := ExceptT String C α

/-- `mexErrMsgTxt`. -/
def Mex.fail (msg : String) : Mex α := throw msg

/-- A computation of the library. -/
def Mex.lift (c : C α) : Mex α := ExceptT.lift c

/-- The message `slip_mex_error` shows for a status other than SLIP_OK:
MATLAB/Source/slip_mex_error.c lines 22-51. -/
def mexMessage : Info → String
  | .outOfMemory => "out of memory"
  | .singular => "input matrix is singular"
  | .incorrectInput => "invalid inputs"
  | .incorrect => "result invalid"
  | .panic => "panic"
  | _ => ""

/-- `SLIP_MEX_OK`: MATLAB/Source/SLIP_LU_mex.h; an error status ends the computation. -/
def mexOk (info : Info) : Mex Unit := if info = .ok then pure () else Mex.fail (mexMessage info)

/-! ## slip_mex_check_for_inf -/

/-- `slip_mex_check_for_inf`, MATLAB/Source/slip_mex_check_for_inf.c lines 16-57. `INT64_MAX` is
converted to `double`, i.e. to 2^63, in the comparison (line 42); the cast of line 48 is undefined if
the truncated value does not fit. -/
def slip_mex_check_for_inf (fp : Fp) (x : Arr Dbl) (n : ℤ) : Mex Bool :=
  (List.range n.toNat).foldlM (fun (isInt : Bool) (k : ℕ) => do
    let xk ← Mex.lift (rd x k)
    match xk with
    | .posInf | .negInf => Mex.fail "A must not have any Inf values"
    | .nan => Mex.fail "A must not have any NaN values"
    | .fin v =>
      if isInt then
        if v < -2 ^ 63 ∨ v > 2 ^ 63 then pure false
        else
          let xi := roundInt 1 v
          if ¬ (int64Min ≤ xi ∧ xi ≤ int64Max) then Mex.lift (.error .ub)
          else pure (decide (fp.int64ToD xi = .fin v))
      else pure false) true

/-! ## slip_mex_get_A_and_b -/

/-- A sparse `mxArray` of doubles: `mxGetM`, `mxGetN`, `mxGetJc`, `mxGetIr`, `mxGetDoubles`. -/
structure MxSparse where
  m : ℤ
  n : ℤ
  jc : Arr ℤ
  ir : Arr ℤ
  pr : Arr Dbl

/-- A full `mxArray` of doubles. -/
structure MxFull where
  m : ℤ
  n : ℤ
  pr : Arr Dbl

/-- The typecast loops, slip_mex_get_A_and_b.c lines 79-83 and 147-151: `(int64_t) x [k]`, undefined
if the truncated value does not fit. -/
def castInt64 (x : Arr Dbl) (n : ℤ) : C (Arr ℤ) :=
  forRange 0 n (malloc Int n) fun k y => do
    let v ← rd x k
    match v with
    | .fin v =>
      let t := roundInt 1 v
      if int64Min ≤ t ∧ t ≤ int64Max then wr y k t else .error .ub
    | _ => .error .ub

/-- The object in a handle after a successful call. -/
def mexGet (h : Handle Mat) : Mex Mat :=
  match h.join with
  | some M => pure M
  | none => Mex.lift (.error .ub)

/-- Reading A: slip_mex_get_A_and_b.c lines 45-112. -/
def mexGetA (fp : Fp) (opt : Option Options) (A : MxSparse) : Mex Mat := do
  let anz ← Mex.lift (rd A.jc A.n)
  if A.n ≠ A.m then Mex.fail "A must be square"
  else do
    let isInt ← slip_mex_check_for_inf fp A.pr anz
    let M ← if isInt then do
        let x ← Mex.lift (castInt64 A.pr anz)
        let M ← Mex.lift (allocate .csc .int64 A.m A.n anz true false)
        pure { M with x := some (.int64 x), xShallow := false }
      else do
        let M ← Mex.lift (allocate .csc .fp64 A.m A.n anz true false)
        pure { M with x := some (.fp64 A.pr) }
    let M := { M with p := some A.jc, i := some A.ir }
    let (info, C) ← Mex.lift (SLIP_matrix_copy fp true (some none) .csc .mpz (some M) opt)
    mexOk info
    mexGet C

/-- Reading b: slip_mex_get_A_and_b.c lines 118-171. -/
def mexGetB (fp : Fp) (opt : Option Options) (mA : ℤ) (b : MxFull) : Mex Mat := do
  if b.m ≠ mA then Mex.fail "dimension mismatch"
  else do
    let isInt ← slip_mex_check_for_inf fp b.pr (b.n * b.m)
    let M ← if isInt then do
        let M ← Mex.lift (allocate .dense .int64 b.m b.n (b.m * b.n) true false)
        let x ← Mex.lift (castInt64 b.pr (b.m * b.n))
        pure { M with x := some (.int64 x) }
      else do
        let M ← Mex.lift (allocate .dense .fp64 b.m b.n (b.m * b.n) true false)
        pure { M with x := some (.fp64 b.pr) }
    let (info, C) ← Mex.lift (SLIP_matrix_copy fp true (some none) .dense .mpz (some M) opt)
    mexOk info
    mexGet C

/-! ## slip_get_matlab_options -/

/-- A field of the options struct: text or a number. -/
inductive MxField
  | text (s : String) | num (d : Dbl)
  deriving DecidableEq

/-- The options struct of MATLAB: a field that is missing is `none`. -/
structure MxOptions where
  order : Option MxField
  pivot : Option MxField
  tol : Option MxField
  solution : Option MxField
  digits : Option MxField
  print : Option MxField
  deriving DecidableEq

/-- `SLIP_solution`: MATLAB/Source/SLIP_LU_mex.h. -/
inductive MexSolution
  | double | vpa | char
  deriving DecidableEq

/-- `slip_mex_options`: MATLAB/Source/SLIP_LU_mex.h. -/
structure MexOptions where
  solution : MexSolution
  digits : ℤ
  deriving DecidableEq

/-- `mxGetScalar`: for text, MATLAB gives the code of the first character (a parameter). -/
def mxScalar (code : String → ℚ) : MxField → Dbl
  | .num d => d
  | .text s => .fin (code s)

/-- The column ordering: slip_get_matlab_options.c lines 41-63. -/
def mexOrder : Option MxField → Mex ColOrder
  | none => pure .colamd
  | some (.num _) => Mex.fail "option.order must be a string"
  | some (.text s) =>
    if s = "none" then pure .none
    else if s = "colamd" then pure .colamd
    else if s = "amd" then pure .amd
    else Mex.fail "unknown option.order"

/-- The row pivoting scheme: slip_get_matlab_options.c lines 69-105. -/
def mexPivot : Option MxField → Mex Pivot
  | none => pure .tolSmallest
  | some (.num _) => Mex.fail "option.pivot must be a string"
  | some (.text s) =>
    if s = "smallest" then pure .smallest
    else if s = "diagonal" then pure .diagonal
    else if s = "first" then pure .firstNonzero
    else if s = "tol smallest" then pure .tolSmallest
    else if s = "tol largest" then pure .tolLargest
    else if s = "largest" then pure .largest
    else Mex.fail "unknown option.pivot"

/-- `x > 1 || x <= 0` for a `double`; both comparisons are false for a NaN. -/
def Dbl.outsideUnit : Dbl → Bool
  | .fin v => decide (v > 1) || decide (v ≤ 0)
  | .nan => false
  | .posInf | .negInf => true

/-- The tolerance: slip_get_matlab_options.c lines 111-124. `tenth` is the `double` 0.1. -/
def mexTol (code : String → ℚ) (tenth : ℚ) (pivot : Pivot) (field : Option MxField) : Mex Dbl :=
  if pivot = .tolSmallest ∨ pivot = .tolLargest then
    match field with
    | none => pure (.fin tenth)
    | some f =>
      let t := mxScalar code f
      if t.outsideUnit then Mex.fail "invalid option.tol, must be > 0 and <= 1" else pure t
  else pure (.fin tenth)

/-- The solution option: slip_get_matlab_options.c lines 130-151. `mxGetString` (line 134) leaves
`string` as it was (`prev`, `none` if not yet written) if the field is not text. -/
def mexSolution (prev : Option String) : Option MxField → Mex MexSolution
  | none => pure .double
  | some f => do
    let s ← match f with
      | .text s => pure s
      | .num _ => match prev with
        | some s => pure s
        | none => Mex.lift (.error .ub)
    if s = "vpa" then pure .vpa
    else if s = "char" then pure .char
    else if s = "double" then pure .double
    else Mex.fail "unknown option.solution"

/-- The digits option: slip_get_matlab_options.c lines 157-169. `d != trunc (d)` is true for a NaN;
the infinities fail the comparisons with the bounds. -/
def mexDigits (code : String → ℚ) : Option MxField → Mex ℤ
  | none => pure 100
  | some f =>
    match mxScalar code f with
    | .fin d =>
      if d ≠ roundInt 1 d ∨ d < 2 ∨ d > 2 ^ 29 then
        Mex.fail "options.digits must be an integer between 2 and 2^29"
      else pure (roundInt 1 d)
    | _ => Mex.fail "options.digits must be an integer between 2 and 2^29"

/-- The print level: slip_get_matlab_options.c lines 175-183. The cast to `int` (line 180) is undefined
if the truncated value does not fit. -/
def mexPrint (code : String → ℚ) : Option MxField → Mex ℤ
  | none => pure 0
  | some f =>
    match mxScalar code f with
    | .fin d =>
      if -2 ^ 31 ≤ roundInt 1 d ∧ roundInt 1 d < 2 ^ 31 then
        pure (max (min (roundInt 1 d) 3) 0)
      else Mex.lift (.error .ub)
    | _ => Mex.lift (.error .ub)

/-- What `string` holds after the order and the pivot have been read: lines 32, 46 and 74. -/
def mexString (order pivot : Option MxField) : Option String :=
  match pivot, order with
  | some (.text s), _ => some s
  | _, some (.text s) => some s
  | _, _ => none

/-- `slip_get_matlab_options`, MATLAB/Source/slip_get_matlab_options.c lines 20-184; `none` is an
input that is NULL, empty or not a struct (line 35). Text longer than 256 characters is cut by
`mxGetString`; that is not modelled (such text matches no name, cut or not). -/
def slip_get_matlab_options (code : String → ℚ) (tenth : ℚ) (option : Options)
    (input : Option MxOptions) : Mex (Options × MexOptions) := do
  let order ← mexOrder (input.bind (·.order))
  let pivot ← mexPivot (input.bind (·.pivot))
  let tol ← mexTol code tenth pivot (input.bind (·.tol))
  let solution ← mexSolution (mexString (input.bind (·.order)) (input.bind (·.pivot)))
    (input.bind (·.solution))
  let digits ← mexDigits code (input.bind (·.digits))
  let print ← mexPrint code (input.bind (·.print))
  pure ({ option with order := order, pivot := pivot, tol := tol, printLevel := print },
    ⟨solution, digits⟩)

/-! ## SLIP_mex_soln -/

/-- What is returned to MATLAB: a matrix of doubles, or a cell array of strings `numerator/denominator`
(modelled by the numbers they denote). -/
inductive MexResult
  | double (m n : ℤ) (x : Arr Dbl)
  | cells (m n : ℤ) (x : Arr ℚ)
  deriving DecidableEq

/-- `mexFunction` after the checks of the arguments, MATLAB/SLIP_mex_soln.c lines 63-176, in an
initialised library. `input` is the third argument; without it (`none`) the local
variable `mexoptions` is never set (lines 73-74) although it is read (line 117). -/
def mexSolve (fp : Fp) (O : Orderings) (nc : Int → Int → ℚ → Bool) (code : String → ℚ) (tenth : ℚ)
    (A : MxSparse) (b : MxFull) (input : Option (Option MxOptions)) : Mex MexResult := do
  let option ← match SLIP_create_default_options true with
    | some o => pure o
    | none => Mex.fail "out of memory"
  let (option, mexoptions) ← match input with
    | none => pure (option, none)
    | some input => do
      let (option, mexoptions) ← slip_get_matlab_options code tenth option input
      pure (option, some mexoptions)
  let opt := some option
  let A' ← mexGetA fp opt A
  let b' ← mexGetB fp opt A.m b
  let (info, x) ← Mex.lift (SLIP_backslash fp O nc true (some none) .mpq (some A') (some b') opt)
  mexOk info
  let x ← mexGet x
  let mexoptions ← match mexoptions with
    | some o => pure o
    | none => Mex.lift (.error .ub)
  if mexoptions.solution = .double then do
    let (info, t) ← Mex.lift (SLIP_matrix_copy fp true (some none) .dense .fp64 (some x) opt)
    mexOk info
    let t ← mexGet t
    pure (.double t.m t.n t.xf)
  else pure (.cells x.m x.n x.xq)

/-- An argument of the MEX function: a sparse or full array of doubles, or anything else, of which only
the options struct matters (`none` if it is not a nonempty struct). -/
inductive MxArg
  | sparse (complex : Bool) (A : MxSparse)
  | full (complex : Bool) (b : MxFull)
  | other (o : Option MxOptions)

/-- `mxIsComplex`. -/
def MxArg.isComplex : MxArg → Bool
  | .sparse c _ => c
  | .full c _ => c
  | .other _ => false

/-- The third argument seen as the options struct. -/
def MxArg.options : MxArg → Option MxOptions
  | .other o => o
  | _ => none

/-- `mexFunction`, MATLAB/SLIP_mex_soln.c lines 16-176: the checks of lines 35-57, then `mexSolve`.
Memory that is neither a sparse nor a full array of doubles is not read (`ub` if b is not numeric). -/
def mexFunction (fp : Fp) (O : Orderings) (nc : Int → Int → ℚ → Bool) (code : String → ℚ) (tenth : ℚ)
    (nargout : ℕ) (pargin : List MxArg) : Mex MexResult :=
  if nargout > 1 then Mex.fail "Usage: x = SLIP_mex_soln (A,b,option)"
  else
    match pargin with
    | a :: b :: rest =>
      if rest.length > 1 then Mex.fail "Usage: x = SLIP_mex_soln (A,b,option)"
      else if a.isComplex || b.isComplex then Mex.fail "inputs must be real"
      else
        match a, b with
        | .sparse _ _, .sparse _ _ => Mex.fail "second input must be full"
        | .sparse _ A, .full _ b => mexSolve fp O nc code tenth A b (rest.head?.map MxArg.options)
        | .sparse _ _, .other _ => Mex.lift (.error .ub)
        | _, _ => Mex.fail "first input must be sparse"
    | _ => Mex.fail "Usage: x = SLIP_mex_soln (A,b,option)"

end Slip
