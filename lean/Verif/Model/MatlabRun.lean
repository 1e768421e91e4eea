import Verif.Model.Matlab
import Verif.Model.Machine2
import Verif.Model.Machine3

/-!
# The MATLAB interface in 64-bit arithmetic, with the state of the library between calls

The functions of `Verif/Model/Matlab.lean` once more.  Here every operation on `int64_t` is checked (as in
`Verif/Model/Machine.lean`), the matrices are checked (and printed) if the print level asks for it, and the state of the
library, i.e. whether it is initialised, is carried from call to call: a MEX file stays loaded after an error.  Memory does
not run out; the functions without `int64_t` arithmetic are those of `Verif/Model/Matlab.lean`.
-/

namespace Slip
variable {α : Type}

/-- A computation of the MEX file: from the state of the library (initialised or not) to a value or an error message,
and the state afterwards. -/
abbrev MexS (α : Type) := ExceptT String (StateT Bool C) α

/-- `slip_mex_error` with a status other than SLIP_OK: MATLAB/Source/slip_mex_error.c lines 25-50. `SLIP_finalize` is called
(it has no effect on a library that is not initialised, SLIP_finalize.c line 20), then `mexErrMsgTxt` leaves the MEX file. -/
def MexS.fail (msg : String) : MexS α := fun _ => .ok (.error msg, false)

/-- A call of a function of the library, which looks at the state but does not change it. -/
def MexS.lib (f : Bool → C α) : MexS α := fun s => do
  let a ← f s
  pure (.ok a, s)

/-- A part of the MEX file that only computes or calls `slip_mex_error`. -/
def MexS.of (m : Mex α) : MexS α := fun s =>
  match m with
  | .ok (.ok a) => .ok (.ok a, s)
  | .ok (.error msg) => .ok (.error msg, false)
  | .error e => .error e

/-- `SLIP_MEX_OK`: MATLAB/Source/SLIP_LU_mex.h lines 17-24. -/
def MexS.check (info : Info) : MexS Unit := if info = .ok then pure () else MexS.fail (mexMessage info)

/-- Lines 30-34 of MATLAB/SLIP_mex_soln.c: `SLIP_initialize_expert` unless the library is initialised. -/
def MexS.start : MexS Unit := fun s => if s then .ok (.ok (), s) else .ok (.ok (), true)

/-- `SLIP_finalize`, SLIP_finalize.c lines 16-28. -/
def MexS.finalize : MexS Unit := fun _ => .ok (.ok (), false)

/-- `SLIP_matrix_allocate` as it is called in slip_mex_get_A_and_b.c lines 85, 97, 138, 153: the status is ignored, so a
failure leaves a null pointer that is dereferenced. -/
def MexS.alloc (kind : Kind) (type : Ty) (m n nzmax : Int) : MexS Mat := MexS.lib fun s =>
  if !s then .error .ub
  else
    match allocate64 kind type m n nzmax true false with
    | .ok M => .ok M
    | .error _ => .error .ub

/-- The object in a handle after a successful call. -/
def MexS.get (h : Handle Mat) : MexS Mat := MexS.of (mexGet h)

/-- Reading A: slip_mex_get_A_and_b.c lines 45-112. -/
def mexGetA64 (fp : Fp) (opt : Option Options) (A : MxSparse) : MexS Mat := do
  let anz ← MexS.lib fun _ => rd A.jc A.n
  if A.n ≠ A.m then MexS.fail "A must be square"
  else do
    let isInt ← MexS.of (slip_mex_check_for_inf fp A.pr anz)
    let M ← if isInt then do
        let x ← MexS.lib fun _ => castInt64 A.pr anz
        let M ← MexS.alloc .csc .int64 A.m A.n anz
        pure { M with x := some (.int64 x), xShallow := false }
      else do
        let M ← MexS.alloc .csc .fp64 A.m A.n anz
        pure { M with x := some (.fp64 A.pr) }
    let M := { M with p := some A.jc, i := some A.ir }
    let (info, C) ← MexS.lib fun s => SLIP_matrix_copy64 fp s (some none) .csc .mpz (some M) opt
    MexS.check info
    MexS.get C

/-- Reading b: slip_mex_get_A_and_b.c lines 118-171. -/
def mexGetB64 (fp : Fp) (opt : Option Options) (mA : ℤ) (b : MxFull) : MexS Mat := do
  if b.m ≠ mA then MexS.fail "dimension mismatch"
  else do
    let nm ← MexS.lib fun _ => i64 (b.n * b.m)
    let isInt ← MexS.of (slip_mex_check_for_inf fp b.pr nm)
    let M ← if isInt then do
        let mn ← MexS.lib fun _ => i64 (b.m * b.n)
        let M ← MexS.alloc .dense .int64 b.m b.n mn
        let x ← MexS.lib fun _ => castInt64 b.pr mn
        pure { M with x := some (.int64 x) }
      else do
        let mn ← MexS.lib fun _ => i64 (b.m * b.n)
        let M ← MexS.alloc .dense .fp64 b.m b.n mn
        pure { M with x := some (.fp64 b.pr) }
    let (info, C) ← MexS.lib fun s => SLIP_matrix_copy64 fp s (some none) .dense .mpz (some M) opt
    MexS.check info
    MexS.get C

/-- `if (option->print_level > 0) SLIP_matrix_check (...)`, MATLAB/SLIP_mex_soln.c lines 83-93, 107-111: the result is
ignored. -/
def MexS.show (qs : List (Int × Int) → List (Int × Int)) (opt : Options) (M : Mat) : MexS Unit :=
  if opt.printLevel > 0 then do
    let _ ← MexS.lib fun s => SLIP_matrix_check64 qs s (some M) (some opt)
    pure ()
  else pure ()

/-- `mexFunction` after the checks of the arguments, MATLAB/SLIP_mex_soln.c lines 63-176, as `mexSolve`. -/
def mexSolve64 (fp : Fp) (O : Orderings) (nc : Int → Int → ℚ → Bool) (qs : List (Int × Int) → List (Int × Int))
    (code : String → ℚ) (tenth : ℚ) (A : MxSparse) (b : MxFull) (input : Option (Option MxOptions)) :
    MexS MexResult := do
  let o ← MexS.lib fun s => pure (SLIP_create_default_options s)
  let option ← match o with
    | some o => pure o
    | none => MexS.fail "out of memory"
  let (option, mexoptions) ← match input with
    | none => pure (option, none)
    | some input => do
      let (option, mexoptions) ← MexS.of (slip_get_matlab_options code tenth option input)
      pure (option, some mexoptions)
  let opt := some option
  let A' ← mexGetA64 fp opt A
  let b' ← mexGetB64 fp opt A.m b
  MexS.show qs option A'
  MexS.show qs option b'
  let (info, x) ← MexS.lib fun s => SLIP_backslash64 fp O nc s (some none) .mpq (some A') (some b') opt
  MexS.check info
  let x ← MexS.get x
  MexS.show qs option x
  let mexoptions ← match mexoptions with
    | some o => pure o
    | none => MexS.lib fun _ => .error .ub
  if mexoptions.solution = .double then do
    let (info, t) ← MexS.lib fun s => SLIP_matrix_copy64 fp s (some none) .dense .fp64 (some x) opt
    MexS.check info
    let t ← MexS.get t
    MexS.finalize
    pure (.double t.m t.n t.xf)
  else do
    let _ ← MexS.lib fun _ => i64 (x.m * x.n)
    MexS.finalize
    pure (.cells x.m x.n x.xq)

/-- `mexFunction`, MATLAB/SLIP_mex_soln.c lines 16-176, as `Slip.mexFunction`. -/
def mexFunction64 (fp : Fp) (O : Orderings) (nc : Int → Int → ℚ → Bool) (qs : List (Int × Int) → List (Int × Int))
    (code : String → ℚ) (tenth : ℚ) (nargout : ℕ) (pargin : List MxArg) : MexS MexResult := do
  MexS.start
  if nargout > 1 then MexS.fail "Usage: x = SLIP_mex_soln (A,b,option)"
  else
    match pargin with
    | a :: b :: rest =>
      if rest.length > 1 then MexS.fail "Usage: x = SLIP_mex_soln (A,b,option)"
      else if a.isComplex || b.isComplex then MexS.fail "inputs must be real"
      else
        match a, b with
        | .sparse _ _, .sparse _ _ => MexS.fail "second input must be full"
        | .sparse _ A, .full _ b => mexSolve64 fp O nc qs code tenth A b (rest.head?.map MxArg.options)
        | .sparse _ _, .other _ => MexS.lib fun _ => .error .ub
        | _, _ => MexS.fail "first input must be sparse"
    | _ => MexS.fail "Usage: x = SLIP_mex_soln (A,b,option)"

/-- The calls of the MEX file during a MATLAB session, one after the other: a call with `nargout` results and these
arguments. The results or error messages of all calls, and the state of the library at the end. -/
def mexSession (call : ℕ × List MxArg → MexS MexResult) : List (ℕ × List MxArg) → Bool →
    C (List (Except String MexResult) × Bool)
  | [], s => pure ([], s)
  | c :: cs, s => do
    let (r, s) ← call c s
    let (rs, s) ← mexSession call cs s
    pure (r :: rs, s)

end Slip
