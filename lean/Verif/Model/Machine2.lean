import Verif.Model.Machine
import Verif.Model.Convert

/-!
# SLIP_matrix_copy and SLIP_backslash in 64-bit arithmetic

As `Verif/Model/Machine.lean`: the code of `Verif/Model/Convert.lean` once more, with every operation on
`int64_t` indices and counts checked. The conversions of single entries have no index arithmetic; their
own rules (saturation, `mpz_get_si`) are in `Verif/Model/Convert.lean`. The sizes given to `calloc` are two
factors, whose product `calloc` checks itself.
-/

namespace Slip

/-- `SLIP_matrix_allocate`, SLIP_matrix_allocate.c lines 24-198, as `allocate`. -/
def allocate64 (kind : Kind) (type : Ty) (m n nzmax : Int) (shallow init : Bool) : C Mat :=
  if m < 0 ∨ n < 0 ∨ kind.ok = false ∨ type.ok = false then .error (.ret .incorrectInput)
  else do
    let nzmax ← (if kind = .dense then i64 (m * n) else pure nzmax)
    let nzmax := max nzmax 1
    let A : Mat :=
      { m := m, n := n, nzmax := nzmax, nz := 0, kind := kind, type := type,
        p := none, pShallow := shallow, i := none, iShallow := shallow,
        j := none, jShallow := shallow, x := none, xShallow := shallow, scale := 1 }
    if shallow then pure A
    else do
      let p ← (if kind = .csc then do
          let n1 ← i64 (n + 1)
          pure (some (calloc n1))
        else pure none)
      pure { A with
        p := p
        i := if kind = .dense then none else some (calloc nzmax)
        j := if kind = .triplet then some (calloc nzmax) else none
        x := newVals type nzmax init }

/-- `SLIP_matrix_nnz`, SLIP_matrix_nnz.c lines 14-52. -/
def SLIP_matrix_nnz64 (init : Bool) (A : Option Mat) : C Int :=
  if !init then pure (-1)
  else match A with
  | none => pure (-1)
  | some A =>
    match A.kind with
    | .csc => match A.p with
      | none => pure (-1)
      | some p => if A.n < 0 then pure (-1) else rd p A.n
    | .triplet => pure A.nz
    | .dense => if A.m < 0 ∨ A.n < 0 then pure (-1) else i64 (A.m * A.n)
    | .bad _ => pure (-1)

/-- `slip_cumsum`, slip_cumsum.c lines 17-38. -/
def slip_cumsum64 (p c : Arr Int) (n : Int) : C (Arr Int × Arr Int) := do
  let (p, c, nz) ← forRange 0 n (p, c, (0 : Int)) fun i (p, c, nz) => do
    let p ← wr p i nz
    let ci ← rd c i
    let nz' ← i64 (nz + ci)
    let pi ← rd p i
    let c ← wr c i pi
    pure (p, c, nz')
  let p ← wr p n nz
  pure (p, c)

/-- `slip_cast_matrix`, slip_cast_matrix.c lines 20-102. -/
def slip_cast_matrix64 (fp : Fp) (opt : Option Options) (type : Ty) (A : Mat) : C (Option Vals × ℚ) := do
  let nz ← SLIP_matrix_nnz64 true (some A)
  let Y ← allocate64 .dense type nz 1 nz (decide (type = A.type)) true
  if type = A.type then pure (A.x, Y.scale)
  else do
    let (v, s) ← slip_cast_array fp opt Y.x A.x nz Y.scale A.scale
    pure (some v, s)

/-- `memcpy (dst, src, n * sizeof (int64_t))`: the product is computed in `size_t`. -/
def copyInts64 (dst src : Arr Int) (n : Int) : C (Arr Int) :=
  if 0 ≤ n ∧ n * 8 < 2 ^ 64 then copyInts dst src n else .error .ub

/-- A is CSC, C is CSC: SLIP_matrix_copy.c lines 86-97. -/
def copyCscCsc64 (fp : Fp) (opt : Option Options) (type : Ty) (A : Mat) (nz : Int) : C Mat := do
  let c ← allocate64 .csc type A.m A.n nz false true
  let n1 ← i64 (A.n + 1)
  let p ← copyInts64 (deref c.p) (deref A.p) n1
  let i ← copyInts64 (deref c.i) (deref A.i) nz
  let (x, s) ← slip_cast_array fp opt c.x A.x nz c.scale A.scale
  pure { c with p := some p, i := some i, x := some x, scale := s }

/-- The building loop, SLIP_matrix_copy.c lines 141-197. -/
def buildCsc64 {α : Type} (e : Elt α) (Ai Aj : Arr Int) (nz : Int) (W Ci : Arr Int)
    (Cx Yx : Arr α) : C (Arr α × Arr Int) := do
  let (_, Ci, Cx) ← forRange 0 nz (W, Ci, Cx) fun k (W, Ci, Cx) => do
    let j ← rd Aj k
    let p ← rd W j
    let p1 ← i64 (p + 1)
    let W ← wr W j p1
    let i ← rd Ai k
    let Ci ← wr Ci p i
    let v ← rd Yx k
    let Cx ← zset Cx p (e.set v)
    pure (W, Ci, Cx)
  pure (Cx, Ci)

/-- A is triplet, C is CSC: SLIP_matrix_copy.c lines 104-202. -/
def copyTripletCsc64 (fp : Fp) (opt : Option Options) (type : Ty) (A : Mat) (nz : Int) : C Mat := do
  let (y, s) ← slip_cast_matrix64 fp opt type A
  let W := calloc A.n
  let c ← allocate64 .csc type A.m A.n nz false true
  let W ← forRange 0 nz W fun k W => do
    let j ← rd (deref A.j) k
    let w ← rd W j
    let w1 ← i64 (w + 1)
    wr W j w1
  let (p, W) ← slip_cumsum64 (deref c.p) W A.n
  let (x, i) ← withVals opt c.x y fun e Cx Yx =>
    buildCsc64 e (deref A.i) (deref A.j) nz W (deref c.i) Cx Yx
  pure { c with p := some p, i := some i, x := some x, scale := s }

/-- Count the nonzeros, SLIP_matrix_copy.c lines 216-258. -/
def countNz64 {α : Type} (e : Elt α) (nz : Int) (Yx : Arr α) : C Int :=
  forRange 0 nz 0 fun k actual => do
    let v ← rd Yx k
    if e.isZero v then pure actual else i64 (actual + 1)

/-- Construct C from a dense Y, SLIP_matrix_copy.c lines 266-363. -/
def buildFromDense64 {α : Type} (e : Elt α) (m n : Int) (Cp Ci : Arr Int) (Cx Yx : Arr α) :
    C (Arr α × Arr Int × Arr Int) := do
  let (nz, Cp, Ci, Cx) ← forRange 0 n ((0 : Int), Cp, Ci, Cx) fun j (nz, Cp, Ci, Cx) => do
    let Cp ← wr Cp j nz
    let (nz, Ci, Cx) ← forRange 0 m (nz, Ci, Cx) fun i (nz, Ci, Cx) => do
      let ij ← ix64 m i j
      let v ← rd Yx ij
      if e.isZero v then pure (nz, Ci, Cx)
      else do
        let Ci ← wr Ci nz i
        let Cx ← zset Cx nz (e.set v)
        let nz1 ← i64 (nz + 1)
        pure (nz1, Ci, Cx)
    pure (nz, Cp, Ci, Cx)
  let Cp ← wr Cp n nz
  pure (Cx, Cp, Ci)

/-- A is dense, C is CSC: SLIP_matrix_copy.c lines 209-365. -/
def copyDenseCsc64 (fp : Fp) (opt : Option Options) (type : Ty) (A : Mat) (nz : Int) : C Mat := do
  let (y, s) ← slip_cast_matrix64 fp opt type A
  let (_, actual) ← withVals opt y y fun e Y Yx => do
    let a ← countNz64 e nz Yx
    pure (Y, a)
  let c ← allocate64 .csc type A.m A.n actual false true
  let (x, p, i) ← withVals opt c.x y fun e Cx Yx =>
    buildFromDense64 e A.m A.n (deref c.p) (deref c.i) Cx Yx
  pure { c with p := some p, i := some i, x := some x, scale := s }

/-- A is CSC, C is triplet: SLIP_matrix_copy.c lines 386-406. -/
def copyCscTriplet64 (fp : Fp) (opt : Option Options) (type : Ty) (A : Mat) (nz : Int) : C Mat := do
  let c ← allocate64 .triplet type A.m A.n nz false true
  let (x, s) ← slip_cast_array fp opt c.x A.x nz c.scale A.scale
  let i ← copyInts64 (deref c.i) (deref A.i) nz
  let j ← forRange 0 A.n (deref c.j) fun j Cj => do
    let a ← rd (deref A.p) j
    let j1 ← i64 (j + 1)
    let b ← rd (deref A.p) j1
    forRange a b Cj fun p Cj => wr Cj p j
  pure { c with i := some i, j := some j, x := some x, scale := s, nz := nz }

/-- A is triplet, C is triplet: SLIP_matrix_copy.c lines 413-427. -/
def copyTripletTriplet64 (fp : Fp) (opt : Option Options) (type : Ty) (A : Mat) (nz : Int) : C Mat := do
  let c ← allocate64 .triplet type A.m A.n nz false true
  let j ← copyInts64 (deref c.j) (deref A.j) nz
  let i ← copyInts64 (deref c.i) (deref A.i) nz
  let (x, s) ← slip_cast_array fp opt c.x A.x nz c.scale A.scale
  pure { c with i := some i, j := some j, x := some x, scale := s, nz := nz }

/-- A is dense, C is triplet: SLIP_matrix_copy.c lines 434-447. -/
def copyDenseTriplet64 (fp : Fp) (opt : Option Options) (type : Ty) (A : Mat) (nz : Int) : C Mat := do
  let t ← copyDenseCsc64 fp opt type A nz
  let tnz ← SLIP_matrix_nnz64 true (some t)
  let c ← copyCscTriplet64 fp opt type t tnz
  pure { c with nz := nz }

/-- Scatter the entries of a CSC matrix, SLIP_matrix_copy.c lines 484-549. -/
def scatterCsc64 {α : Type} (e : Elt α) (m n : Int) (Ap Ai : Arr Int) (Cx Yx : Arr α) : C (Arr α) :=
  forRange 0 n Cx fun j Cx => do
    let a ← rd Ap j
    let j1 ← i64 (j + 1)
    let b ← rd Ap j1
    forRange a b Cx fun p Cx => do
      let i ← rd Ai p
      let v ← rd Yx p
      let ij ← ix64 m i j
      zset Cx ij (e.set v)

/-- A is CSC, C is dense: SLIP_matrix_copy.c lines 462-465 and 475-552. -/
def copyCscDense64 (fp : Fp) (opt : Option Options) (type : Ty) (A : Mat) (nz : Int) : C Mat := do
  let c ← allocate64 .dense type A.m A.n nz false true
  let (y, s) ← slip_cast_matrix64 fp opt type A
  let (x, _) ← withVals opt c.x y fun e Cx Yx => do
    let x ← scatterCsc64 e A.m A.n (deref A.p) (deref A.i) Cx Yx
    pure (x, ())
  pure { c with x := some x, scale := s }

/-- Scatter triplets, SLIP_matrix_copy.c lines 561-617. -/
def scatterTriplet64 {α : Type} (e : Elt α) (m nz : Int) (Ai Aj : Arr Int) (Cx Yx : Arr α) : C (Arr α) :=
  forRange 0 nz Cx fun k Cx => do
    let i ← rd Ai k
    let j ← rd Aj k
    let v ← rd Yx k
    let ij ← ix64 m i j
    zset Cx ij (e.set v)

/-- A is triplet, C is dense: SLIP_matrix_copy.c lines 462-465 and 554-620. -/
def copyTripletDense64 (fp : Fp) (opt : Option Options) (type : Ty) (A : Mat) (nz : Int) : C Mat := do
  let c ← allocate64 .dense type A.m A.n nz false true
  let (y, s) ← slip_cast_matrix64 fp opt type A
  let (x, _) ← withVals opt c.x y fun e Cx Yx => do
    let x ← scatterTriplet64 e A.m nz (deref A.i) (deref A.j) Cx Yx
    pure (x, ())
  pure { c with x := some x, scale := s }

/-- A is dense, C is dense: SLIP_matrix_copy.c lines 462-465 and 626-632. -/
def copyDenseDense64 (fp : Fp) (opt : Option Options) (type : Ty) (A : Mat) (nz : Int) : C Mat := do
  let c ← allocate64 .dense type A.m A.n nz false true
  let (x, s) ← slip_cast_array fp opt c.x A.x nz c.scale A.scale
  pure { c with x := some x, scale := s }

/-- The `switch`es on `C_kind` and `A->kind`, SLIP_matrix_copy.c lines 71-640. -/
def copyBody64 (fp : Fp) (opt : Option Options) (kind : Kind) (type : Ty) (A : Mat) (nz : Int) : C Mat :=
  match kind, A.kind with
  | .csc, .csc => copyCscCsc64 fp opt type A nz
  | .csc, .triplet => copyTripletCsc64 fp opt type A nz
  | .csc, .dense => copyDenseCsc64 fp opt type A nz
  | .triplet, .csc => copyCscTriplet64 fp opt type A nz
  | .triplet, .triplet => copyTripletTriplet64 fp opt type A nz
  | .triplet, .dense => copyDenseTriplet64 fp opt type A nz
  | .dense, .csc => copyCscDense64 fp opt type A nz
  | .dense, .triplet => copyTripletDense64 fp opt type A nz
  | .dense, .dense => copyDenseDense64 fp opt type A nz
  | _, _ => .error .ub

/-- `SLIP_matrix_copy`, SLIP_matrix_copy.c lines 31-650. -/
def SLIP_matrix_copy64 (fp : Fp) (init : Bool) (Ch : Handle Mat) (kind : Kind) (type : Ty)
    (A : Option Mat) (opt : Option Options) : C (Info × Handle Mat) :=
  if !init then pure (.panic, Ch)
  else do
    let nz ← SLIP_matrix_nnz64 init A
    match A with
    | none => pure (.incorrectInput, Ch)
    | some A =>
      if Ch = none ∨ nz < 0 ∨ A.type.ok = false ∨ kind.ok = false ∨ type.ok = false then
        pure (.incorrectInput, Ch)
      else copyWrap (copyBody64 fp opt kind type A nz)

/-- `SLIP_backslash`, SLIP_backslash.c lines 46-135. -/
def SLIP_backslash64 (fp : Fp) (O : Orderings) (nc : Int → Int → ℚ → Bool) (init : Bool)
    (X : Handle Mat) (type : Ty) (A b : Option Mat) (opt : Option Options) :
    C (Info × Handle Mat) :=
  if !init then pure (.panic, X)
  else if X = none then pure (.incorrectInput, X)
  else if type ≠ .mpq ∧ type ≠ .fp64 ∧ type ≠ .mpfr then pure (.incorrectInput, some none)
  else if requireFails A .csc .mpz then pure (.incorrectInput, some none)
  else if requireFails b .dense .mpz then pure (.incorrectInput, some none)
  else do
    let (info, S) ← SLIP_LU_analyze64 O init (some none) A opt
    if info ≠ .ok then pure (info, some none)
    else do
      let f ← SLIP_LU_factorize64 nc init (some none) (some none) (some none) (some none) A S.join opt
      if f.info ≠ .ok then pure (f.info, some none)
      else do
        let (info, x) ← SLIP_LU_solve64 init (some none) b A f.L.join f.U.join f.rhos.join S.join
          f.pinv.join opt
        if info ≠ .ok then pure (info, some none)
        else if type = .mpq then pure (.ok, x)
        else do
          let (info, x2) ← SLIP_matrix_copy64 fp init (some none) .dense type x.join opt
          if info ≠ .ok then pure (info, some none) else pure (.ok, x2)

end Slip
