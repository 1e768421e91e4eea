import Verif.Model.Convert

/-!
# Rationals as GMP stores them

The other models take an `mpq_t` to be a rational number. Here it is what GMP stores: a numerator and
a denominator, which need not be in lowest terms. GMP's arithmetic is defined only for operands in
canonical form (no common factor, positive denominator: GMP manual, "Rational Number Functions"), it
never checks this, and functions such as `mpq_set_num` or `mpq_set_si` can destroy it. This file
transcribes once more every function of the library that handles an `mpq_t`, with the individual GMP
calls in the order of the code: the division, permutation, check and scaling of the solution in
`SLIP_LU_solve`, the conversions, `SLIP_matrix_allocate`, `SLIP_matrix_copy` and `SLIP_backslash`.
(The remaining user of `mpq_t`, `slip_get_pivot`, does not hand one out; it is in
`Verif/Model/Factor.lean`.)
-/

namespace Slip.Raw

/-- An `mpq_t`: `_mp_num` and `_mp_den` (gmp.h `__mpq_struct`). -/
structure Q where
  num : ℤ
  den : ℤ
  deriving DecidableEq

/-- Canonical form, GMP manual "Rational Number Functions": the denominator is positive and there is no
common factor (so zero is `0/1`). -/
def Q.Canonical (a : Q) : Prop := 0 < a.den ∧ Int.gcd a.num a.den = 1

instance (a : Q) : Decidable a.Canonical := by unfold Q.Canonical; infer_instance

/-- The rational number an `mpq_t` stands for. -/
def Q.val (a : Q) : ℚ := (a.num : ℚ) / a.den

/-- The canonical representation of a rational number. -/
def Q.of (q : ℚ) : Q := ⟨q.num, q.den⟩

/-! ## The GMP functions used -/

/-- Reading an operand of `mpq_add`, `mpq_mul`, `mpq_div`, `mpq_cmp_ui`, `mpq_get_d`, `mpz_set_q`,
`mpfr_set_q`: it must be canonical. -/
def ask (a : Q) : C ℚ := if a.Canonical then .ok a.val else .error .ub

/-- `mpq_init`: 0/1. -/
def init : Q := ⟨0, 1⟩
/-- `mpq_set_num`: only the numerator changes. -/
def setNum (a : Q) (z : ℤ) : Q := ⟨z, a.den⟩
/-- `mpq_set_z`. -/
def setZ (z : ℤ) : Q := ⟨z, 1⟩
/-- `mpq_set_ui` and `mpq_set_si`: zero gets the denominator 1, everything else is stored as it is. -/
def setUi (n d : ℤ) : Q := if n = 0 then ⟨0, 1⟩ else ⟨n, d⟩
/-- `mpq_set_d`: the exact value of a finite double, in canonical form. -/
def setD (d : Dbl) : C Q := match d with
  | .fin v => .ok (Q.of v)
  | _ => .error .ub
/-- `mpfr_get_q`: the exact value, in canonical form; 0 for NaN and infinities. -/
def getQ (d : Dbl) : Q := match d with
  | .fin v => Q.of v
  | _ => ⟨0, 1⟩
/-- `mpq_mul`. -/
def mul (a b : Q) : C Q := do
  let x ← ask a
  let y ← ask b
  pure (Q.of (x * y))
/-- `mpq_add`. -/
def add (a b : Q) : C Q := do
  let x ← ask a
  let y ← ask b
  pure (Q.of (x + y))
/-- `mpq_div`: division by zero is undefined. -/
def div (a b : Q) : C Q := do
  let x ← ask a
  let y ← ask b
  if y = 0 then .error .ub else pure (Q.of (x / y))
/-- `mpq_cmp_ui (a, 1, 1) == 0`. -/
def isOne (a : Q) : C Bool := do
  let x ← ask a
  pure (decide (x = 1))
/-- `mpq_equal`: compares numerators and denominators. -/
def equal (a b : Q) : Bool := decide (a.num = b.num ∧ a.den = b.den)
/-- `mpz_set_q`: truncates. -/
def toZ (a : Q) : C ℤ := do
  let x ← ask a
  pure (roundInt 1 x)

/-! ## The solve phase -/

/-- `SLIP_matrix_allocate (&A, SLIP_DENSE, SLIP_MPQ, m, n, 0, false, true, option)`:
SLIP_matrix_allocate.c lines 77-81 and 143-182 with slip_create_mpq_array.c lines 22-45
(`mpq_init`). -/
def allocQ (m n : Int) : Dense Q :=
  let nzmax := max (m * n) 1
  { m := m, n := n, nzmax := nzmax, x := List.replicate nzmax.toNat (some init) }

/-- `slip_matrix_div`, slip_matrix_div.c lines 28-82: `mpq_set_num` into elements and a divisor that
`mpq_init` has just set to 0/1, then `mpq_div`. -/
def slip_matrix_div (x : Dense Int) (scalar : Int) : C (Dense Q) := do
  let scalar2 := setNum init scalar
  let x2 := allocQ x.m x.n
  let y ← forRange 0 (x.m * x.n) x2.x fun i y => do
    let v ← rd x.x i
    let a ← rd y i
    let y ← zset y i (setNum a v)
    let w ← rd y i
    let d ← div w scalar2
    zset y i d
  pure { x2 with x := y }

/-- `slip_permute_x`, slip_permute_x.c lines 22-72. -/
def slip_permute_x (x2 : Dense Q) (q : Arr Int) : C (Dense Q) := do
  let m := x2.m
  let n := x2.n
  let x := allocQ m n
  let y ← forRange 0 m x.x fun i y =>
    forRange 0 n y fun j y => do
      let p ← rd q i
      let v ← rd x2.x (ix2 m i j)
      zset y (ix2 m p j) v
  pure { x with x := y }

/-- The product `b2 = A*x`, slip_check_solution.c lines 55-75: `mpq_set_z`, `mpq_mul`, `mpq_add`. -/
def checkMul (A : Csc) (x : Dense Q) (m n : Int) (b2 : Arr Q) : C (Arr Q) :=
  forRange 0 n b2 fun j b2 =>
    forRange 0 m b2 fun i b2 => do
      let p0 ← rd A.p i
      let p1 ← rd A.p (i + 1)
      forRange p0 p1 b2 fun p b2 => do
        let a ← rd A.x p
        let xv ← rd x.x (ix2 x.m i j)
        let temp ← mul (setZ a) xv
        let r ← rd A.i p
        let w ← rd b2 (ix2 m r j)
        let s ← add w temp
        zset b2 (ix2 m r j) s

/-- The comparison `b == b2`, slip_check_solution.c lines 81-98: `mpq_set_z`, `mpq_equal`. -/
def checkCmp (b : Dense Int) (b2 : Arr Q) : C Bool :=
  forRange 0 b.n true fun j ok =>
    if !ok then pure false
    else forRange 0 b.m true fun i ok =>
      if !ok then pure false
      else do
        let v ← rd b.x (ix2 b.m i j)
        let w ← rd b2 (ix2 b.m i j)
        pure (equal (setZ v) w)

/-- `slip_check_solution`, slip_check_solution.c lines 20-122. -/
def slip_check_solution (A : Csc) (x : Dense Q) (b : Dense Int) : C Unit := do
  let b2 := allocQ b.m b.n
  let y ← checkMul A x b.m b.n b2.x
  let ok ← checkCmp b y
  if ok then pure () else .error (.ret .incorrect)

/-- The final scaling, SLIP_LU_solve.c lines 151-166: `mpq_div`, `mpq_cmp_ui`, `mpq_mul`. -/
def scaleSolution (x : Dense Q) (sA sb : Q) : C (Dense Q) := do
  let scale ← div sA sb
  let one ← isOne scale
  if one then pure x
  else do
    let y ← forRange 0 (x.m * x.n) x.x fun i y => do
      let v ← rd y i
      let w ← mul v scale
      zset y i w
    pure { x with x := y }

/-- The body of `SLIP_LU_solve`, SLIP_LU_solve.c lines 93-175. The steps up to the back substitution
are on integers. -/
def luSolve (A : Csc) (sA : Q) (b : Dense Int) (sb : Q) (F : Factors) (q : Arr Int)
    (check : Bool) : C (Dense Q) := do
  let n := F.L.n
  let b2 ← slip_permute_b b F.pinv
  let b2 ← slip_forward_sub F.L b2 F.rhos
  let det ← rd F.rhos (n - 1)
  let b2 ← slip_matrix_mul b2 det
  let b2 ← slip_back_sub F.U b2
  let det ← rd F.rhos (n - 1)
  let x2 ← slip_matrix_div b2 det
  let x ← slip_permute_x x2 q
  if check then slip_check_solution A x b else pure ()
  scaleSolution x sA sb

/-! ## Matrices -/

/-- The union `A->x`, SLIP_LU.h lines 329-336. -/
inductive Vals
  | mpz (a : Arr Int) | mpq (a : Arr Q) | mpfr (a : Arr Dbl) | int64 (a : Arr Int)
  | fp64 (a : Arr Dbl)
  deriving DecidableEq

/-- `SLIP_matrix`, SLIP_LU.h lines 308-343. -/
structure Mat where
  m : Int
  n : Int
  nzmax : Int
  nz : Int
  kind : Kind
  type : Ty
  p : Option (Arr Int)
  pShallow : Bool
  i : Option (Arr Int)
  iShallow : Bool
  j : Option (Arr Int)
  jShallow : Bool
  x : Option Vals
  xShallow : Bool
  scale : Q
  deriving DecidableEq

/-- Apply a function to every element of an array that has been written. -/
def amap {α β : Type} (g : α → β) (a : Arr α) : Arr β := a.map (Option.map g)

/-- The values a union stands for. -/
def Vals.val : Vals → Slip.Vals
  | .mpz a => .mpz a
  | .mpq a => .mpq (amap Q.val a)
  | .mpfr a => .mpfr a
  | .int64 a => .int64 a
  | .fp64 a => .fp64 a

/-- The matrix with its rationals read as numbers. (The parts of the library that handle no `mpq_t`
are taken from the other models, applied to this.) -/
def Mat.val (A : Mat) : Slip.Mat :=
  { m := A.m, n := A.n, nzmax := A.nzmax, nz := A.nz, kind := A.kind, type := A.type,
    p := A.p, pShallow := A.pShallow, i := A.i, iShallow := A.iShallow,
    j := A.j, jShallow := A.jShallow, x := A.x.map Vals.val, xShallow := A.xShallow,
    scale := A.scale.val }

/-- Canonical representation of an array of values. -/
def Vals.of : Slip.Vals → Vals
  | .mpz a => .mpz a
  | .mpq a => .mpq (amap Q.of a)
  | .mpfr a => .mpfr a
  | .int64 a => .int64 a
  | .fp64 a => .fp64 a

/-- Canonical representation of a matrix. -/
def Mat.of (A : Slip.Mat) : Mat :=
  { m := A.m, n := A.n, nzmax := A.nzmax, nz := A.nz, kind := A.kind, type := A.type,
    p := A.p, pShallow := A.pShallow, i := A.i, iShallow := A.iShallow,
    j := A.j, jShallow := A.jShallow, x := A.x.map Vals.of, xShallow := A.xShallow,
    scale := Q.of A.scale }

/-- The object for a dense MPQ matrix; its scale is set by `mpq_set_ui (scale, 1, 1)`:
SLIP_matrix_allocate.c lines 77-98. -/
def Mat.ofDenseQ (d : Dense Q) : Mat :=
  { m := d.m, n := d.n, nzmax := d.nzmax, nz := 0, kind := .dense, type := .mpq,
    p := none, pShallow := false, i := none, iShallow := false,
    j := none, jShallow := false, x := some (.mpq d.x), xShallow := false, scale := setUi 1 1 }

/-- The return paths of `SLIP_LU_solve`: SLIP_LU_solve.c lines 172-174 and `SLIP_CHECK`. -/
def solveWrap : C (Dense Q) → C (Info × Handle Mat)
  | .ok d => pure (.ok, some (some (Mat.ofDenseQ d)))
  | .error (.ret e) => pure (e, some none)
  | .error f => .error f

/-- `SLIP_LU_solve`, SLIP_LU_solve.c lines 53-175. -/
def SLIP_LU_solve (init : Bool) (x : Handle Mat) (b A L U rhos : Option Mat)
    (S : Option Analysis) (pinv : Option (Arr Int)) (opt : Option Options) :
    C (Info × Handle Mat) :=
  if !init then pure (.panic, x)
  else if requireFails (b.map Mat.val) .dense .mpz then pure (.incorrectInput, x)
  else if requireFails (A.map Mat.val) .csc .mpz then pure (.incorrectInput, x)
  else if requireFails (L.map Mat.val) .csc .mpz then pure (.incorrectInput, x)
  else if requireFails (U.map Mat.val) .csc .mpz then pure (.incorrectInput, x)
  else if requireFails (rhos.map Mat.val) .dense .mpz then pure (.incorrectInput, x)
  else match b, A, L, U, rhos, S, pinv with
  | some b, some A, some L, some U, some rhos, some S, some pinv =>
    if x = none ∨ L.m ≠ A.m ∨ L.n ≠ U.m ∨ U.n ≠ A.n ∨ A.n ≠ A.m ∨ A.m ≠ b.m then
      pure (.incorrectInput, x)
    else
      solveWrap (luSolve A.val.toCsc A.scale b.val.toDense b.scale
        { L := L.val.toCsc, U := U.val.toCsc, rhos := rhos.val.xz, pinv := pinv } S.q (optCheck opt))
  | _, _, _, _, _, _, _ => pure (.incorrectInput, x)

/-! ## Allocation and conversion -/

/-- The values array of a new matrix, SLIP_matrix_allocate.c lines 144-188 (`mpq_init`). -/
def newVals (type : Ty) (nzmax : Int) (ini : Bool) : Option Vals :=
  let N := nzmax.toNat
  match type with
  | .mpz => some (.mpz (List.replicate N (if ini then some 0 else none)))
  | .mpq => some (.mpq (List.replicate N (if ini then some init else none)))
  | .mpfr => some (.mpfr (List.replicate N (if ini then some .nan else none)))
  | .int64 => some (.int64 (List.replicate N (some 0)))
  | .fp64 => some (.fp64 (List.replicate N (some (.fin 0))))
  | .bad _ => none

/-- `SLIP_matrix_allocate`, SLIP_matrix_allocate.c lines 24-198: the scale is set by
`mpq_set_ui (scale, 1, 1)` (line 98). -/
def allocate (kind : Kind) (type : Ty) (m n nzmax : Int) (shallow ini : Bool) : C Mat :=
  if m < 0 ∨ n < 0 ∨ kind.ok = false ∨ type.ok = false then .error (.ret .incorrectInput)
  else
    let nzmax := if kind = .dense then m * n else nzmax
    let nzmax := max nzmax 1
    let A : Mat :=
      { m := m, n := n, nzmax := nzmax, nz := 0, kind := kind, type := type,
        p := none, pShallow := shallow, i := none, iShallow := shallow,
        j := none, jShallow := shallow, x := none, xShallow := shallow, scale := setUi 1 1 }
    if shallow then pure A
    else
      pure { A with
        p := if kind = .csc then some (calloc (n + 1)) else none
        i := if kind = .dense then none else some (calloc nzmax)
        j := if kind = .triplet then some (calloc nzmax) else none
        x := newVals type nzmax ini }

/-- `slip_expand_mpq_array`, slip_expand_mpq_array.c lines 23-76: `mpq_get_den` reads the
denominator field; `mpq_set_z`, `mpq_mul`, `mpz_set_q`. -/
def slip_expand_mpq_array (x_out : Arr Int) (x : Arr Q) (n : Int) : C (Arr Int × Q) := do
  let x3 : Arr Int := List.replicate (max n 1).toNat (some 0)
  let x4 : Arr Q := List.replicate (max n 1).toNat (some init)
  let x3 ← forRange 0 n x3 fun i x3 => do
    let v ← rd x i
    zset x3 i v.den
  let t ← rd x3 0
  let temp ← forRange 1 n t fun i temp => do
    let d ← rd x3 i
    pure (Int.lcm d temp : Int)
  let scale := setZ temp
  let (_, x_out) ← forRange 0 n (x4, x_out) fun i (x4, x_out) => do
    let v ← rd x i
    let w ← mul v scale
    let x4 ← zset x4 i w
    let w ← rd x4 i
    let z ← toZ w
    let x_out ← zset x_out i z
    pure (x4, x_out)
  pure (x_out, scale)

/-- The reduction by the gcd, slip_expand_double_array.c lines 78-131 and
slip_expand_mpfr_array.c lines 86-140: `mpq_set_z (temp, gcd)`, `mpq_div`; if all entries are zero,
`mpq_set_z (scale, one)` after `one` was cleared (its size is 0). -/
def reduceGcd (x_out : Arr Int) (scale : Q) (n : Int) : C (Arr Int × Q) := do
  let r ← gcdLoop x_out n.toNat 0 none
  match r with
  | none => pure (x_out, setZ 0)
  | some (_, _, true) => pure (x_out, scale)
  | some (k, g, false) => do
    let x_out ← forRange k n x_out fun i x_out => do
      let v ← rd x_out i
      let d ← divexact v g
      zset x_out i d
    let s ← div scale (setZ g)
    pure (x_out, s)

/-- `slip_expand_double_array`, slip_expand_double_array.c lines 26-133: `mpq_set_d (scale, expon)`. -/
def slip_expand_double_array (opt : Option Options) (x_out : Arr Int) (x : Arr Dbl) (n : Int) :
    C (Arr Int × Q) := do
  let x3 : Arr Dbl := List.replicate (max n 1).toNat (some .nan)
  let rnd := mpfrRnd (optPrec opt) (optRound opt)
  let scale ← setD (.fin (10 ^ 17))
  let (_, x_out) ← forRange 0 n (x3, x_out) fun i (x3, x_out) => do
    let v ← rd x i
    let x3 ← zset x3 i (rnd v)
    let v ← rd x3 i
    let x3 ← zset x3 i (rnd (v.mulPos (10 ^ 17)))
    let v ← rd x3 i
    let x_out ← zset x_out i (mpfrGetZ (optRound opt) v)
    pure (x3, x_out)
  reduceGcd x_out scale n

/-- `slip_expand_mpfr_array`, slip_expand_mpfr_array.c lines 27-142: `mpq_set_z (scale, 2^prec)`. -/
def slip_expand_mpfr_array (opt : Option Options) (x_out : Arr Int) (x : Arr Dbl) (n : Int) :
    C (Arr Int × Q) := do
  let x3 : Arr Dbl := List.replicate (max n 1).toNat (some .nan)
  let expon : ℚ := 2 ^ (optPrec opt).toNat
  let (_, x_out) ← forRange 0 n (x3, x_out) fun i (x3, x_out) => do
    let v ← rd x i
    let x3 ← zset x3 i (mpfrRnd (optPrec opt) (optRound opt) (v.mulPos expon))
    let v ← rd x3 i
    let x_out ← zset x_out i (mpfrGetZ (optRound opt) v)
    pure (x3, x_out)
  reduceGcd x_out (setZ (2 ^ (optPrec opt).toNat)) n

/-- `mpq_set_z` and, unless the scale is 1, `mpq_div`: slip_cast_array.c lines 147-177, 239-268,
323-353, 405-434. `one` is the result of `mpq_cmp_ui (x_scale, 1, 1)` before the loop. -/
def unscale (one : Bool) (xs : Q) (v : ℤ) : C Q :=
  if one then pure (setZ v) else div (setZ v) xs

/-- `slip_cast_array`, slip_cast_array.c lines 43-478. INT64 to MPQ (lines 198-206): `mpq_set_si`
stores the value and the address of the destination (SLIP_gmp.c line 1143) without reducing. -/
def slip_cast_array (fp : Fp) (opt : Option Options) (Y X : Option Vals) (n : Int) (ys xs : Q) :
    C (Vals × Q) :=
  let prec := optPrec opt
  let rnd := optRound opt
  match Y, X with
  | some (.mpz y), some (.mpz x) => do
    let y ← castLoop (fun _ v => pure v) y x n
    pure (.mpz y, xs)
  | some (.mpz y), some (.mpq x) => do
    let (y, s) ← slip_expand_mpq_array y x n
    pure (.mpz y, s)
  | some (.mpz y), some (.mpfr x) => do
    let (y, s) ← slip_expand_mpfr_array opt y x n
    pure (.mpz y, s)
  | some (.mpz y), some (.int64 x) => do
    let y ← castLoop (fun _ v => pure v) y x n
    pure (.mpz y, setUi 1 1)
  | some (.mpz y), some (.fp64 x) => do
    let (y, s) ← slip_expand_double_array opt y x n
    pure (.mpz y, s)
  | some (.mpq y), some (.mpz x) => do
    let one ← isOne xs
    let y ← castLoop (fun _ v => unscale one xs v) y x n
    pure (.mpq y, ys)
  | some (.mpq y), some (.mpq x) => do
    let y ← castLoop (fun _ v => pure v) y x n
    pure (.mpq y, ys)
  | some (.mpq y), some (.mpfr x) => do
    let y ← castLoop (fun _ v => pure (getQ v)) y x n
    pure (.mpq y, ys)
  | some (.mpq y), some (.int64 x) => do
    let y ← castLoop (fun k (v : Int) => pure (setUi v (fp.addr k))) y x n
    pure (.mpq y, ys)
  | some (.mpq y), some (.fp64 x) => do
    let y ← castLoop (fun _ v => setD v) y x n
    pure (.mpq y, ys)
  | some (.mpfr y), some (.mpz x) => do
    let one ← isOne xs
    let y ← castLoop (fun _ (v : Int) =>
      if one then pure (mpfrRnd prec rnd (.fin v))
      else do
        let t ← div (setZ v) xs
        let q ← ask t
        pure (mpfrRnd prec rnd (.fin q))) y x n
    pure (.mpfr y, ys)
  | some (.mpfr y), some (.mpq x) => do
    let y ← castLoop (fun _ v => do let q ← ask v; pure (mpfrRnd prec rnd (.fin q))) y x n
    pure (.mpfr y, ys)
  | some (.mpfr y), some (.mpfr x) => do
    let y ← castLoop (fun _ v => pure (mpfrRnd prec rnd v)) y x n
    pure (.mpfr y, ys)
  | some (.mpfr y), some (.int64 x) => do
    let y ← castLoop (fun _ (v : Int) => pure (mpfrRnd prec rnd (.fin v))) y x n
    pure (.mpfr y, ys)
  | some (.mpfr y), some (.fp64 x) => do
    let y ← castLoop (fun _ v => pure (mpfrRnd prec rnd v)) y x n
    pure (.mpfr y, ys)
  | some (.int64 y), some (.mpz x) => do
    let one ← isOne xs
    let y ← castLoop (fun _ (v : Int) =>
      if one then pure (mpzGetSi v)
      else do
        let t ← div (setZ v) xs
        let q ← ask t
        slip_cast_double_to_int64 (fp.mpqGetD q)) y x n
    pure (.int64 y, ys)
  | some (.int64 y), some (.mpq x) => do
    let y ← castLoop (fun _ v => do
      let q ← ask v
      slip_cast_double_to_int64 (fp.mpqGetD q)) y x n
    pure (.int64 y, ys)
  | some (.int64 y), some (.mpfr x) => do
    let y ← castLoop (fun _ v => pure (mpfrGetSi rnd v)) y x n
    pure (.int64 y, ys)
  | some (.int64 y), some (.int64 x) => do
    let y ← castLoop (fun _ v => pure v) y x n
    pure (.int64 y, ys)
  | some (.int64 y), some (.fp64 x) => do
    let y ← castLoop (fun _ v => slip_cast_double_to_int64 v) y x n
    pure (.int64 y, ys)
  | some (.fp64 y), some (.mpz x) => do
    let one ← isOne xs
    let y ← castLoop (fun _ (v : Int) =>
      if one then pure (fp.mpzGetD v)
      else do
        let t ← div (setZ v) xs
        let q ← ask t
        pure (fp.mpqGetD q)) y x n
    pure (.fp64 y, ys)
  | some (.fp64 y), some (.mpq x) => do
    let y ← castLoop (fun _ v => do let q ← ask v; pure (fp.mpqGetD q)) y x n
    pure (.fp64 y, ys)
  | some (.fp64 y), some (.mpfr x) => do
    let y ← castLoop (fun _ v => pure (fp.mpfrGetD rnd v)) y x n
    pure (.fp64 y, ys)
  | some (.fp64 y), some (.int64 x) => do
    let y ← castLoop (fun _ v => pure (fp.int64ToD v)) y x n
    pure (.fp64 y, ys)
  | some (.fp64 y), some (.fp64 x) => do
    let y ← castLoop (fun _ v => pure v) y x n
    pure (.fp64 y, ys)
  | _, _ => .error (.ret .incorrectInput)

/-- `slip_cast_matrix`, slip_cast_matrix.c lines 20-102. -/
def slip_cast_matrix (fp : Fp) (opt : Option Options) (type : Ty) (A : Mat) : C (Option Vals × Q) := do
  let nz ← SLIP_matrix_nnz true (some A.val)
  let Y ← allocate .dense type nz 1 nz (decide (type = A.type)) true
  if type = A.type then pure (A.x, Y.scale)
  else do
    let (v, s) ← slip_cast_array fp opt Y.x A.x nz Y.scale A.scale
    pure (some v, s)

/-! ## SLIP_matrix_copy -/

/-- `mpq_set` copies both fields; `mpq_sgn` is the sign of the numerator. -/
def eltQ : Elt Q := ⟨id, fun v => decide (v.num = 0)⟩

/-- The five `case`s of a `switch (C->type)`, as in `Verif/Model/Convert.lean`. -/
def withVals {β : Type} (opt : Option Options) (c y : Option Vals)
    (f : {α : Type} → Elt α → Arr α → Arr α → C (Arr α × β)) : C (Vals × β) :=
  match c, y with
  | some (.mpz c), some (.mpz y) => do let (c, b) ← f eltZ c y; pure (.mpz c, b)
  | some (.mpq c), some (.mpq y) => do let (c, b) ← f eltQ c y; pure (.mpq c, b)
  | some (.mpfr c), some (.mpfr y) => do let (c, b) ← f (eltR opt) c y; pure (.mpfr c, b)
  | some (.int64 c), some (.int64 y) => do let (c, b) ← f eltZ c y; pure (.int64 c, b)
  | some (.fp64 c), some (.fp64 y) => do let (c, b) ← f eltD c y; pure (.fp64 c, b)
  | _, _ => .error .ub

/-- A is CSC, C is CSC: SLIP_matrix_copy.c lines 86-97. -/
def copyCscCsc (fp : Fp) (opt : Option Options) (type : Ty) (A : Mat) (nz : Int) : C Mat := do
  let c ← allocate .csc type A.m A.n nz false true
  let p ← copyInts (deref c.p) (deref A.p) (A.n + 1)
  let i ← copyInts (deref c.i) (deref A.i) nz
  let (x, s) ← slip_cast_array fp opt c.x A.x nz c.scale A.scale
  pure { c with p := some p, i := some i, x := some x, scale := s }

/-- A is triplet, C is CSC: SLIP_matrix_copy.c lines 104-202. -/
def copyTripletCsc (fp : Fp) (opt : Option Options) (type : Ty) (A : Mat) (nz : Int) : C Mat := do
  let (y, s) ← slip_cast_matrix fp opt type A
  let W := calloc A.n
  let c ← allocate .csc type A.m A.n nz false true
  let W ← forRange 0 nz W fun k W => do
    let j ← rd (deref A.j) k
    let w ← rd W j
    wr W j (w + 1)
  let (p, W) ← slip_cumsum (deref c.p) W A.n
  let (x, i) ← withVals opt c.x y fun e Cx Yx =>
    buildCsc e (deref A.i) (deref A.j) nz W (deref c.i) Cx Yx
  pure { c with p := some p, i := some i, x := some x, scale := s }

/-- A is dense, C is CSC: SLIP_matrix_copy.c lines 209-365. -/
def copyDenseCsc (fp : Fp) (opt : Option Options) (type : Ty) (A : Mat) (nz : Int) : C Mat := do
  let (y, s) ← slip_cast_matrix fp opt type A
  let (_, actual) ← withVals opt y y fun e Y Yx => do
    let a ← countNz e nz Yx
    pure (Y, a)
  let c ← allocate .csc type A.m A.n actual false true
  let (x, p, i) ← withVals opt c.x y fun e Cx Yx =>
    buildFromDense e A.m A.n (deref c.p) (deref c.i) Cx Yx
  pure { c with p := some p, i := some i, x := some x, scale := s }

/-- A is CSC, C is triplet: SLIP_matrix_copy.c lines 386-406. -/
def copyCscTriplet (fp : Fp) (opt : Option Options) (type : Ty) (A : Mat) (nz : Int) : C Mat := do
  let c ← allocate .triplet type A.m A.n nz false true
  let (x, s) ← slip_cast_array fp opt c.x A.x nz c.scale A.scale
  let i ← copyInts (deref c.i) (deref A.i) nz
  let j ← forRange 0 A.n (deref c.j) fun j Cj => do
    let a ← rd (deref A.p) j
    let b ← rd (deref A.p) (j + 1)
    forRange a b Cj fun p Cj => wr Cj p j
  pure { c with i := some i, j := some j, x := some x, scale := s, nz := nz }

/-- A is triplet, C is triplet: SLIP_matrix_copy.c lines 413-427. -/
def copyTripletTriplet (fp : Fp) (opt : Option Options) (type : Ty) (A : Mat) (nz : Int) : C Mat := do
  let c ← allocate .triplet type A.m A.n nz false true
  let j ← copyInts (deref c.j) (deref A.j) nz
  let i ← copyInts (deref c.i) (deref A.i) nz
  let (x, s) ← slip_cast_array fp opt c.x A.x nz c.scale A.scale
  pure { c with i := some i, j := some j, x := some x, scale := s, nz := nz }

/-- A is dense, C is triplet: SLIP_matrix_copy.c lines 434-447. -/
def copyDenseTriplet (fp : Fp) (opt : Option Options) (type : Ty) (A : Mat) (nz : Int) : C Mat := do
  let t ← copyDenseCsc fp opt type A nz
  let tnz ← SLIP_matrix_nnz true (some t.val)
  let c ← copyCscTriplet fp opt type t tnz
  pure { c with nz := nz }

/-- A is CSC, C is dense: SLIP_matrix_copy.c lines 462-465 and 475-552. -/
def copyCscDense (fp : Fp) (opt : Option Options) (type : Ty) (A : Mat) (nz : Int) : C Mat := do
  let c ← allocate .dense type A.m A.n nz false true
  let (y, s) ← slip_cast_matrix fp opt type A
  let (x, _) ← withVals opt c.x y fun e Cx Yx => do
    let x ← scatterCsc e A.m A.n (deref A.p) (deref A.i) Cx Yx
    pure (x, ())
  pure { c with x := some x, scale := s }

/-- A is triplet, C is dense: SLIP_matrix_copy.c lines 462-465 and 554-620. -/
def copyTripletDense (fp : Fp) (opt : Option Options) (type : Ty) (A : Mat) (nz : Int) : C Mat := do
  let c ← allocate .dense type A.m A.n nz false true
  let (y, s) ← slip_cast_matrix fp opt type A
  let (x, _) ← withVals opt c.x y fun e Cx Yx => do
    let x ← scatterTriplet e A.m nz (deref A.i) (deref A.j) Cx Yx
    pure (x, ())
  pure { c with x := some x, scale := s }

/-- A is dense, C is dense: SLIP_matrix_copy.c lines 462-465 and 626-632. -/
def copyDenseDense (fp : Fp) (opt : Option Options) (type : Ty) (A : Mat) (nz : Int) : C Mat := do
  let c ← allocate .dense type A.m A.n nz false true
  let (x, s) ← slip_cast_array fp opt c.x A.x nz c.scale A.scale
  pure { c with x := some x, scale := s }

/-- The `switch`es on `C_kind` and `A->kind`, SLIP_matrix_copy.c lines 71-640. -/
def copyBody (fp : Fp) (opt : Option Options) (kind : Kind) (type : Ty) (A : Mat) (nz : Int) : C Mat :=
  match kind, A.kind with
  | .csc, .csc => copyCscCsc fp opt type A nz
  | .csc, .triplet => copyTripletCsc fp opt type A nz
  | .csc, .dense => copyDenseCsc fp opt type A nz
  | .triplet, .csc => copyCscTriplet fp opt type A nz
  | .triplet, .triplet => copyTripletTriplet fp opt type A nz
  | .triplet, .dense => copyDenseTriplet fp opt type A nz
  | .dense, .csc => copyCscDense fp opt type A nz
  | .dense, .triplet => copyTripletDense fp opt type A nz
  | .dense, .dense => copyDenseDense fp opt type A nz
  | _, _ => .error .ub

/-- The return paths of `SLIP_matrix_copy`, SLIP_matrix_copy.c lines 57 and 644-649. -/
def copyWrap : C Mat → C (Info × Handle Mat)
  | .ok M => pure (.ok, some (some M))
  | .error (.ret e) => pure (e, some none)
  | .error f => .error f

/-- `SLIP_matrix_copy`, SLIP_matrix_copy.c lines 31-650. -/
def SLIP_matrix_copy (fp : Fp) (init : Bool) (Ch : Handle Mat) (kind : Kind) (type : Ty)
    (A : Option Mat) (opt : Option Options) : C (Info × Handle Mat) :=
  if !init then pure (.panic, Ch)
  else do
    let nz ← SLIP_matrix_nnz init (A.map Mat.val)
    match A with
    | none => pure (.incorrectInput, Ch)
    | some A =>
      if Ch = none ∨ nz < 0 ∨ A.type.ok = false ∨ kind.ok = false ∨ type.ok = false then
        pure (.incorrectInput, Ch)
      else copyWrap (copyBody fp opt kind type A nz)

/-- `SLIP_backslash`, SLIP_backslash.c lines 46-135. The analysis and the factorization read only
integers of A; the scales of the factors are those of new matrices. -/
def SLIP_backslash (fp : Fp) (O : Orderings) (nc : Int → Int → ℚ → Bool) (init : Bool)
    (X : Handle Mat) (type : Ty) (A b : Option Mat) (opt : Option Options) :
    C (Info × Handle Mat) :=
  if !init then pure (.panic, X)
  else if X = none then pure (.incorrectInput, X)
  else if type ≠ .mpq ∧ type ≠ .fp64 ∧ type ≠ .mpfr then pure (.incorrectInput, some none)
  else if requireFails (A.map Mat.val) .csc .mpz then pure (.incorrectInput, some none)
  else if requireFails (b.map Mat.val) .dense .mpz then pure (.incorrectInput, some none)
  else do
    let (info, S) ← SLIP_LU_analyze O init (some none) (A.map Mat.val) opt
    if info ≠ .ok then pure (info, some none)
    else do
      let f ← SLIP_LU_factorize nc init (some none) (some none) (some none) (some none)
        (A.map Mat.val) S.join opt
      if f.info ≠ .ok then pure (f.info, some none)
      else do
        let (info, x) ← SLIP_LU_solve init (some none) b A (f.L.join.map Mat.of)
          (f.U.join.map Mat.of) (f.rhos.join.map Mat.of) S.join f.pinv.join opt
        if info ≠ .ok then pure (info, some none)
        else if type = .mpq then pure (.ok, x)
        else do
          let (info, x2) ← SLIP_matrix_copy fp init (some none) .dense type x.join opt
          if info ≠ .ok then pure (info, some none) else pure (.ok, x2)

end Slip.Raw
