import Verif.Model.Store
import Verif.Model.Convert

/-!
# The user-callable functions over a heap

`SLIP_LU_analyze`, `SLIP_LU_factorize`, `SLIP_LU_solve` and `SLIP_backslash` once more, with the arrays of
the objects in a heap (see `Verif/Model/Store.lean`). Conventions as in `Verif/Model/Api.lean`: a pointer to
an object is an `Option`, an output handle is a `Handle`. The reference 0 is NULL.
-/

namespace Slip.Store

/-- The union `A->x`: SLIP_LU.h lines 329-336. `mpfr_t` and `double` arrays are values (the functions of
this file do not access them). -/
inductive XRef
  | mpz (r : Ref) | mpq (r : Ref) | int64 (r : Ref) | mpfr (a : Arr Dbl) | fp64 (a : Arr Dbl)
  deriving DecidableEq

/-- `SLIP_matrix`: SLIP_LU.h lines 308-343. -/
structure MatH where
  m : Int
  n : Int
  nzmax : Int
  nz : Int
  kind : Kind
  type : Ty
  p : Option Ref
  pShallow : Bool
  i : Option Ref
  iShallow : Bool
  j : Option Ref
  jShallow : Bool
  x : Option XRef
  xShallow : Bool
  scale : ℚ
  deriving DecidableEq

/-- `SLIP_LU_analysis`: SLIP_LU.h `SLIP_LU_analysis` (q, lnz, unz). -/
structure AnalysisH where
  q : Ref
  lnz : Int
  unz : Int
  deriving DecidableEq

/-- `A->x.mpz`. -/
def MatH.xz (A : MatH) : Ref := match A.x with | some (.mpz r) => r | _ => 0

/-- The fields the factorization uses of a CSC MPZ matrix. -/
def MatH.toCsc (A : MatH) : CscH :=
  { m := A.m, n := A.n, nzmax := A.nzmax, p := A.p.getD 0, i := A.i.getD 0, x := A.xz }

/-- The fields the solve phase uses of a dense MPZ matrix. -/
def MatH.toDense (A : MatH) : DenseH := { m := A.m, n := A.n, nzmax := A.nzmax, x := A.xz }

/-- The matrix object holding a factor (see `Mat.ofCsc`): SLIP_matrix_allocate.c lines 77-98 and
119-143. -/
def MatH.ofCsc (L : CscH) : MatH :=
  { m := L.m, n := L.n, nzmax := L.nzmax, nz := 0, kind := .csc, type := .mpz,
    p := some L.p, pShallow := false, i := some L.i, iShallow := false,
    j := none, jShallow := false, x := some (.mpz L.x), xShallow := false, scale := 1 }

/-- The object `rhos` (see `Mat.ofDenseZ`): SLIP_matrix_allocate.c lines 77-98. -/
def MatH.ofDenseZ (m n nzmax : Int) (x : Ref) : MatH :=
  { m := m, n := n, nzmax := nzmax, nz := 0, kind := .dense, type := .mpz,
    p := none, pShallow := false, i := none, iShallow := false,
    j := none, jShallow := false, x := some (.mpz x), xShallow := false, scale := 1 }

/-- The solution (see `Mat.ofDenseQ`): SLIP_matrix_allocate.c lines 77-98. -/
def MatH.ofDenseQ (d : DenseH) : MatH :=
  { m := d.m, n := d.n, nzmax := d.nzmax, nz := 0, kind := .dense, type := .mpq,
    p := none, pShallow := false, i := none, iShallow := false,
    j := none, jShallow := false, x := some (.mpq d.x), xShallow := false, scale := 1 }

/-- `SLIP_matrix_nnz`, SLIP_matrix_nnz.c lines 14-52. -/
def SLIP_matrix_nnzH (init : Bool) (A : Option MatH) : H Int :=
  if !init then pure (-1)
  else match A with
  | none => pure (-1)
  | some A =>
    match A.kind with
    | .csc => match A.p with
      | none => pure (-1)
      | some p => if A.n < 0 then pure (-1) else rdH p A.n
    | .triplet => pure A.nz
    | .dense => if A.m < 0 ∨ A.n < 0 then pure (-1) else pure (A.m * A.n)
    | .bad _ => pure (-1)

/-- `SLIP_FREE` of an array, unless the pointer is NULL or shallow. -/
def freeIfH (r : Option Ref) (shallow : Bool) : H Unit :=
  match r with
  | none => pure ()
  | some r => if shallow then pure () else freeH r

/-- `SLIP_matrix_free`, SLIP_matrix_free.c lines 21-98. -/
def SLIP_matrix_freeH (A : Option MatH) : H Unit :=
  match A with
  | none => pure ()
  | some A => do
    freeIfH A.p A.pShallow
    freeIfH A.i A.iShallow
    freeIfH A.j A.jShallow
    match A.x with
    | some (.mpz r) => if A.xShallow then pure () else freeH r
    | some (.int64 r) => if A.xShallow then pure () else freeH r
    | some (.mpq r) => if A.xShallow then pure () else freeqH r
    | _ => pure ()

/-! ## SLIP_LU_analyze -/

/-- The call of `amd_l_order`, SLIP_LU_analyze.c lines 95-103: it writes `S->q` and returns
`Info [AMD_LNZ]`. -/
def analyzeAmdH (O : Orderings) (A : MatH) (q : Ref) : H Int :=
  match A.p, A.i with
  | some p, some i => fun h =>
    match Amd.amd_order (ar := Arith.exact) A.n (h.z p) (h.z i) (h.z q) (O.amdMem A.n (h.z p) (h.z i))
        (O.amdKnobs A.n) with
    | .ok (_, q', lnz) => (.ok lnz, h.put q q')
    | .error e => (.error e, h)
  | _, _ => pure (-1)

/-- The call of `colamd_l`, SLIP_LU_analyze.c lines 141-143: it writes `S->q` (`p`) and overwrites `A2`, its
workspace; what it leaves there is not modelled: the array is unreadable after the call. -/
def colamdH (O : Orderings) (n Alen : Int) (A2 q : Ref) : H Unit := fun h =>
  match Colamd.colamd (ar := Arith.exact) n n Alen (h.z A2) (h.z q) (O.knobs n) with
  | .ok (_, q') => (.ok (), (h.put A2 []).put q q')
  | .error e => (.error e, (h.put A2 []).put q [])

/-- The body of `SLIP_LU_analyze`, SLIP_LU_analyze.c lines 52-187 (printing omitted). -/
def analyzeBodyH (O : Orderings) (A : MatH) (opt : Option Options) : H AnalysisH := do
  let n := A.n
  let anz ← SLIP_matrix_nnzH true (some A)
  let q ← newH (malloc Int (n + 1))
  let nz ← (match optOrder opt with
    | .none => do
      forH 0 (n + 1) () fun i _ => wrH q i i
      pure (10 * anz)
    | .amd => analyzeAmdH O A q
    | .colamd => do
      let Alen := 2 * anz + 6 * (n + 1) + 6 * (n + 1) + n
      let A2 ← newH (malloc Int Alen)
      forH 0 (n + 1) () fun i _ => do
        let v ← rdH (A.p.getD 0) i
        wrH q i v
      forH 0 anz () fun i _ => do
        let v ← rdH (A.i.getD 0) i
        wrH A2 i v
      colamdH O n Alen A2 q
      freeH A2
      pure (10 * anz))
  let (lnz, unz) := clampNnz n nz nz
  pure { q := q, lnz := lnz, unz := unz }

/-- `SLIP_LU_analyze`, SLIP_LU_analyze.c lines 29-188. -/
def SLIP_LU_analyzeH (O : Orderings) (init : Bool) (S : Handle AnalysisH) (A : Option MatH)
    (opt : Option Options) : H (Info × Handle AnalysisH) :=
  if !init then pure (.panic, S)
  else match A with
  | none => pure (.incorrectInput, S)
  | some A =>
    if A.kind ≠ .csc then pure (.incorrectInput, S)
    else if S = none ∨ A.n ≠ A.m then pure (.incorrectInput, S)
    else do
      let r ← analyzeBodyH O A opt
      pure (.ok, some (some r))

/-! ## SLIP_LU_factorize -/

/-- Status and output handles of `SLIP_LU_factorize`. -/
structure FactOutH where
  info : Info
  L : Handle MatH
  U : Handle MatH
  rhos : Handle MatH
  pinv : Handle Ref

/-- The return paths of `SLIP_LU_factorize`: SLIP_LU_factorize.c lines 317-322 and `SLIP_CHECK`. -/
def factWrapH (n : Int) (m : H FactorsH) : H FactOutH := fun h =>
  match m h with
  | (.ok F, h) => (.ok ⟨.ok, some (some (MatH.ofCsc F.L)), some (some (MatH.ofCsc F.U)),
      some (some (MatH.ofDenseZ n 1 (max n 1) F.rhos)), some (some F.pinv)⟩, h)
  | (.error (.ret e), h) => (.ok ⟨e, some none, some none, some none, some none⟩, h)
  | (.error f, h) => (.error f, h)

/-- `SLIP_LU_factorize`, SLIP_LU_factorize.c lines 42-326. -/
def SLIP_LU_factorizeH (nc : Int → Int → ℚ → Bool) (init : Bool) (L U rhos : Handle MatH)
    (pinv : Handle Ref) (A : Option MatH) (S : Option AnalysisH) (opt : Option Options) :
    H FactOutH :=
  if !init then pure ⟨.panic, L, U, rhos, pinv⟩
  else match A with
  | none => pure ⟨.incorrectInput, L, U, rhos, pinv⟩
  | some A =>
    if A.kind ≠ .csc then pure ⟨.incorrectInput, L, U, rhos, pinv⟩
    else if A.type ≠ .mpz then pure ⟨.incorrectInput, L, U, rhos, pinv⟩
    else do
      let anz ← SLIP_matrix_nnzH init (some A)
      match S with
      | none => pure ⟨.incorrectInput, L, U, rhos, pinv⟩
      | some S =>
        if L = none ∨ U = none ∨ rhos = none ∨ pinv = none ∨ anz < 0 then
          pure ⟨.incorrectInput, L, U, rhos, pinv⟩
        else
          factWrapH A.n (factorizeH nc (optPivot opt) (optTol opt) A.toCsc S.q S.lnz S.unz)

/-! ## SLIP_LU_solve -/

/-- `A == NULL || A->kind != kind || A->type != type`: `SLIP_REQUIRE`, slip_internal.h lines 706-722. -/
def requireFailsH (A : Option MatH) (kind : Kind) (type : Ty) : Bool :=
  match A with
  | none => true
  | some A => decide (A.kind ≠ kind ∨ A.type ≠ type)

/-- The return paths of `SLIP_LU_solve`: SLIP_LU_solve.c lines 172-174 and `SLIP_CHECK`. -/
def solveWrapH (m : H DenseH) : H (Info × Handle MatH) := fun h =>
  match m h with
  | (.ok d, h) => (.ok (.ok, some (some (MatH.ofDenseQ d))), h)
  | (.error (.ret e), h) => (.ok (e, some none), h)
  | (.error f, h) => (.error f, h)

/-- `SLIP_LU_solve`, SLIP_LU_solve.c lines 53-175. -/
def SLIP_LU_solveH (init : Bool) (x : Handle MatH) (b A L U rhos : Option MatH)
    (S : Option AnalysisH) (pinv : Option Ref) (opt : Option Options) : H (Info × Handle MatH) :=
  if !init then pure (.panic, x)
  else if requireFailsH b .dense .mpz then pure (.incorrectInput, x)
  else if requireFailsH A .csc .mpz then pure (.incorrectInput, x)
  else if requireFailsH L .csc .mpz then pure (.incorrectInput, x)
  else if requireFailsH U .csc .mpz then pure (.incorrectInput, x)
  else if requireFailsH rhos .dense .mpz then pure (.incorrectInput, x)
  else match b, A, L, U, rhos, S, pinv with
  | some b, some A, some L, some U, some rhos, some S, some pinv =>
    if x = none ∨ L.m ≠ A.m ∨ L.n ≠ U.m ∨ U.n ≠ A.n ∨ A.n ≠ A.m ∨ A.m ≠ b.m then
      pure (.incorrectInput, x)
    else
      solveWrapH (luSolveH A.toCsc A.scale b.toDense b.scale
        { L := L.toCsc, U := U.toCsc, rhos := rhos.xz, pinv := pinv } S.q (optCheck opt))
  | _, _, _, _, _, _, _ => pure (.incorrectInput, x)

/-! ## SLIP_backslash -/

/-- `SLIP_FREE_WORK`, SLIP_backslash.c lines 34-39. -/
def backFreeH (L U rhos : Option MatH) (pinv : Option Ref) (S : Option AnalysisH) : H Unit := do
  SLIP_matrix_freeH L
  SLIP_matrix_freeH U
  freeIfH pinv false
  SLIP_matrix_freeH rhos
  freeIfH (S.map AnalysisH.q) false

/-! ## Specification: what is behind the references -/

/-- The values behind `A->x`. -/
def XRef.view (h : Heap) : XRef → Vals
  | .mpz r => .mpz (h.z r)
  | .mpq r => .mpq (h.q r)
  | .int64 r => .int64 (h.z r)
  | .mpfr a => .mpfr a
  | .fp64 a => .fp64 a

/-- The matrix as a value: every reference replaced by the array it points to in the heap `h`. -/
def MatH.view (h : Heap) (A : MatH) : Mat :=
  { m := A.m, n := A.n, nzmax := A.nzmax, nz := A.nz, kind := A.kind, type := A.type,
    p := A.p.map h.z, pShallow := A.pShallow, i := A.i.map h.z, iShallow := A.iShallow,
    j := A.j.map h.z, jShallow := A.jShallow, x := A.x.map (XRef.view h), xShallow := A.xShallow,
    scale := A.scale }

/-- The analysis as a value. -/
def AnalysisH.view (h : Heap) (S : AnalysisH) : Analysis := ⟨h.z S.q, S.lnz, S.unz⟩

/-- The output handles as values. -/
def FactOutH.view (h : Heap) (f : FactOutH) : FactOut :=
  ⟨f.info, f.L.map (Option.map (MatH.view h)), f.U.map (Option.map (MatH.view h)),
    f.rhos.map (Option.map (MatH.view h)), f.pinv.map (Option.map h.z)⟩

/-- The array references of a matrix (integer arrays). -/
def MatH.refs (A : MatH) : List Ref :=
  A.p.toList ++ A.i.toList ++ A.j.toList ++
    (match A.x with | some (.mpz r) => [r] | some (.int64 r) => [r] | _ => [])

/-- The array references of a matrix (rational arrays). -/
def MatH.refsq (A : MatH) : List Ref := match A.x with | some (.mpq r) => [r] | _ => []

/-- All arrays of `A` have been allocated in the heap `h`. -/
def MatH.In (h : Heap) (A : MatH) : Prop := (∀ r ∈ A.refs, r < h.nz) ∧ ∀ r ∈ A.refsq, r < h.nq

/-- The reference 0 is NULL: it is not an array that can be accessed. -/
def Heap.Ok (h : Heap) : Prop := 0 < h.nz ∧ h.z 0 = []

/-- `run` is what a call made in the heap `h` has returned and left behind. It agrees with the value `m` if
every array that existed before the call still has its contents, and the result, with every reference
replaced by what it points to after the call (`view`), is `m`. -/
def Agrees {α β : Type} (h : Heap) (view : Heap → β → α) (run : Except Fail β × Heap) (m : C α) : Prop :=
  Frame h run.2 ∧ run.1.map (view run.2) = m

/-- The references `rs` are pairwise different and were allocated by the call: none of them existed in
`h`, all of them exist in `h'`. -/
def Fresh (h h' : Heap) (rs : List Ref) : Prop := rs.Nodup ∧ ∀ r ∈ rs, h.nz ≤ r ∧ r < h'.nz

/-- The result of `SLIP_LU_analyze` as a value. -/
def anaView (h : Heap) (r : Info × Handle AnalysisH) : Info × Handle Analysis :=
  (r.1, r.2.map (Option.map (AnalysisH.view h)))

/-- The result of `SLIP_LU_solve` as a value. -/
def solView (h : Heap) (r : Info × Handle MatH) : Info × Handle Mat :=
  (r.1, r.2.map (Option.map (MatH.view h)))

/-! ## SLIP_backslash, continued -/

/-- The call of `SLIP_matrix_copy`, SLIP_backslash.c line 124, on the value of `x`. The new object is a
value. -/
def copyH (fp : Fp) (init : Bool) (type : Ty) (x : Option MatH) (opt : Option Options) :
    H (Info × Handle Mat) := fun h =>
  (SLIP_matrix_copy fp init (some none) .dense type (x.map (MatH.view h)) opt, h)

/-- The object that `SLIP_backslash` returns: the solution itself, or its copy (a value). -/
inductive XOut
  | own (x : MatH)
  | copy (x : Mat)

/-- The returned object as a value. -/
def XOut.view (h : Heap) : XOut → Mat
  | .own x => x.view h
  | .copy x => x

/-- The result of `SLIP_backslash` as a value. -/
def backView (h : Heap) (r : Info × Handle XOut) : Info × Handle Mat :=
  (r.1, r.2.map (Option.map (XOut.view h)))

/-- `SLIP_backslash`, SLIP_backslash.c lines 46-135, with the frees of `SLIP_FREE_WORK` and
`SLIP_FREE_ALL`. -/
def SLIP_backslashH (fp : Fp) (O : Orderings) (nc : Int → Int → ℚ → Bool) (init : Bool)
    (X : Handle XOut) (type : Ty) (A b : Option MatH) (opt : Option Options) :
    H (Info × Handle XOut) :=
  if !init then pure (.panic, X)
  else if X.isNone then pure (.incorrectInput, X)
  else if type ≠ .mpq ∧ type ≠ .fp64 ∧ type ≠ .mpfr then pure (.incorrectInput, some none)
  else if requireFailsH A .csc .mpz then pure (.incorrectInput, some none)
  else if requireFailsH b .dense .mpz then pure (.incorrectInput, some none)
  else do
    let (info, S) ← SLIP_LU_analyzeH O init (some none) A opt
    if info ≠ .ok then pure (info, some none)
    else do
      let f ← SLIP_LU_factorizeH nc init (some none) (some none) (some none) (some none) A S.join opt
      if f.info ≠ .ok then do
        backFreeH f.L.join f.U.join f.rhos.join f.pinv.join S.join
        pure (f.info, some none)
      else do
        let (info, x) ← SLIP_LU_solveH init (some none) b A f.L.join f.U.join f.rhos.join S.join
          f.pinv.join opt
        if info ≠ .ok then do
          backFreeH f.L.join f.U.join f.rhos.join f.pinv.join S.join
          pure (info, some none)
        else if type = .mpq then do
          backFreeH f.L.join f.U.join f.rhos.join f.pinv.join S.join
          pure (.ok, x.map (Option.map XOut.own))
        else do
          let (info, x2) ← copyH fp init type x.join opt
          if info ≠ .ok then do
            backFreeH f.L.join f.U.join f.rhos.join f.pinv.join S.join
            SLIP_matrix_freeH x.join
            pure (info, some none)
          else do
            SLIP_matrix_freeH x.join
            backFreeH f.L.join f.U.join f.rhos.join f.pinv.join S.join
            pure (.ok, x2.map (Option.map XOut.copy))

end Slip.Store
