import Verif.Model.Machine
import Mathlib.Data.Rat.Floor

/-!
# SLIP_LU_analyze with its `double` arithmetic

`SLIP_LU_analyze64` (`Model/Machine.lean`) does the tests on the estimates exactly. Here they are done in
`double`, as in the C code: every operation is followed by a rounding, AMD's estimate is the rounded sum, and
the conversions from `double` to `int64_t` are checked.
-/

namespace Slip

/-- The `double` arithmetic that SLIP_LU_analyze.c and AMD use. `rnd x` is the `double` nearest to `x`;
`amdLnz A e` is the sum that amd_2.c lines 1523-1531 and 1562-1579 accumulate in `Info [AMD_LNZ]`, where `e`
is the sum without rounding (`EMPTY` = -1 if AMD gives up). -/
structure Doubles where
  rnd : ℚ → ℚ
  amdLnz : Mat → Int → ℚ

/-- The conversion of a `double` to `int64_t`: SLIP_LU_analyze.c lines 104 and 164; it truncates, and it is
undefined if the result does not fit. -/
def dblToInt64 (x : ℚ) : C Int :=
  i64 (if x < 0 then ⌈x⌉ else ⌊x⌋)

/-- SLIP_LU_analyze.c lines 52-156: ordering and estimate, in 64-bit arithmetic (as in `analyzeBody64`), with
`Info [AMD_LNZ]` a `double`. -/
def analyzeOrderFl (D : Doubles) (O : Orderings) (A : Mat) (opt : Option Options) : C (Arr Int × Int) := do
  let n := A.n
  let anz ← SLIP_matrix_nnz true (some A)
  let n1 ← i64 (n + 1)
  let q ← malloc64 n1
  match optOrder opt with
  | .none => do
    let q ← forRange 0 n1 q fun i q => wr q i i
    let e ← i64 (10 * anz)
    pure (q, e)
  | .amd => do
    let (q, e) ← analyzeAmd (ar := Arith.bits64) O A q
    let e ← dblToInt64 (D.amdLnz A e)
    pure (q, e)
  | .colamd => do
    let a ← i64 (2 * anz)
    let c ← i64 (6 * n1)
    let a ← i64 (a + c)
    let a ← i64 (a + c)
    let Alen ← i64 (a + n)
    let A2 ← malloc64 Alen
    let q ← forRange 0 n1 q fun i q => do
      let v ← rd (deref A.p) i
      wr q i v
    let A2 ← forRange 0 anz A2 fun i A2 => do
      let v ← rd (deref A.i) i
      wr A2 i v
    let (_, q) ← Colamd.colamd (ar := Arith.bits64) n n Alen A2 q (O.knobs n)
    let e ← i64 (10 * anz)
    pure (q, e)

/-- The safety margin on the estimates, SLIP_LU_analyze.c lines 162-178: in `S->lnz > (double) n*n` both
sides are `double`, `0.5*n*n` is `(0.5*n)*n`. -/
def clampFl (rnd : ℚ → ℚ) (n lnz unz : Int) : C (Int × Int) := do
  let (lnz, unz) ← (if rnd lnz > rnd (rnd n * rnd n) then do
      let nnz ← dblToInt64 ⌈rnd (rnd (1 / 2 * rnd n) * rnd n)⌉
      pure (nnz, nnz)
    else pure (lnz, unz))
  let lnz ← (if lnz < n then i64 (lnz + n) else pure lnz)
  let unz ← (if unz < n then i64 (unz + n) else pure unz)
  pure (lnz, unz)

/-- The body of `SLIP_LU_analyze`, SLIP_LU_analyze.c lines 52-187. -/
def analyzeBodyFl (D : Doubles) (O : Orderings) (A : Mat) (opt : Option Options) : C Analysis := do
  let (q, nz) ← analyzeOrderFl D O A opt
  let (lnz, unz) ← clampFl D.rnd A.n nz nz
  pure { q := q, lnz := lnz, unz := unz }

/-- `SLIP_LU_analyze`, SLIP_LU_analyze.c lines 29-188. -/
def SLIP_LU_analyzeFl (D : Doubles) (O : Orderings) (init : Bool) (S : Handle Analysis) (A : Option Mat)
    (opt : Option Options) : C (Info × Handle Analysis) :=
  if !init then pure (.panic, S)
  else match A with
  | none => pure (.incorrectInput, S)
  | some A =>
    if A.kind ≠ .csc then pure (.incorrectInput, S)
    else if S = none ∨ A.n ≠ A.m then pure (.incorrectInput, S)
    else do
      let r ← analyzeBodyFl D O A opt
      pure (.ok, some (some r))

end Slip
