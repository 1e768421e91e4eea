import Verif.Model.Machine2
import Verif.Model.Drivers

/-!
# The readers and the demo programs in 64-bit arithmetic

As `Verif/Model/Machine.lean`: the code of `Verif/Model/Drivers.lean` once more, with every operation on `int64_t` checked.
A number in a file that `%ld` cannot represent makes `fscanf` undefined (C11 7.21.6.2, paragraph 10). The numbers read with
`%Zd` are arbitrary.
-/

namespace Slip
variable {α : Type}

/-- `%ld` (`PRId64`) with its range. -/
def scanInt64 (s : Stream) : C (Option ℤ × Stream) :=
  match scan Word.asInt s with
  | (some v, s) => do
    let v ← i64 v
    pure (some v, s)
  | r => pure r

/-- `fscanf (file, "%ld %ld", &a, &b)`, demos.c line 453. -/
def scan2_64 (s : Stream) : C (ℤ × Option ℤ × Option ℤ × Stream) := do
  match ← scanInt64 s with
  | (none, s) => pure (scanCount 0 s, none, none, s)
  | (some a, s) =>
    match ← scanInt64 s with
    | (none, s) => pure (scanCount 1 s, some a, none, s)
    | (some b, s) => pure (2, some a, some b, s)

/-- `fscanf (file, "%ld %ld %X\n", &a, &b, &c)`, demos.c lines 287, 304, 383, 400, where the third conversion is `f`. -/
def scan3_64 (f : Word → Option α) (s : Stream) : C (ℤ × Option ℤ × Option ℤ × Option α × Stream) := do
  match ← scan2_64 s with
  | (k, some a, some b, s) =>
    match scan f s with
    | (none, s) => pure (scanCount k s, some a, some b, none, s)
    | (some c, s) => pure (3, some a, some b, some c, scanSpace s)
  | (k, a, b, s) => pure (k, a, b, none, s)

/-- Read entry `p` and convert its indices to base 0: demos.c lines 287-299 and 304-316, as `readEntry`. -/
def readEntry64 (f : Word → Option α) (good : ℤ → Bool) (last : Bool) (p : ℤ) (s : ReadSt α) :
    C (ReadSt α) := do
  let (k, a, b, c, file) ← scan3_64 f s.file
  let i ← storeOpt s.i p a
  let j ← storeOpt s.j p b
  let x ← storeOpt s.x p c
  if (file.eof && !last) || !good k then .error (.ret .incorrectInput)
  else do
    let u ← rd i p
    let u1 ← i64 (u - 1)
    let i ← wr i p u1
    let v ← rd j p
    let v1 ← i64 (v - 1)
    let j ← wr j p v1
    pure { i := i, j := j, x := x, file := file }

/-- The body of `SLIP_tripread`, demos.c lines 264-329; the third number of the header is read with `%ld` too. -/
def tripreadBody64 (fp : Fp) (init : Bool) (file : Stream) (opt : Option Options) :
    C (Info × Handle Mat × Stream) := do
  match ← scan3_64 Word.asInt file with
  | (s, some m, some n, some nz, file) => do
    let nz ← i64 nz
    if file.eof || decide (s < 3) then .error (.ret .incorrectInput)
    else if !init then .error (.ret .panic)
    else do
      let A ← allocate64 .triplet .mpz m n nz false true
      let st : ReadSt ℤ := { i := deref A.i, j := deref A.j, x := A.xz, file := file }
      let st ← readEntry64 Word.asInt (fun k => decide (0 ≤ k)) false 0 st
      let st ← forRange 1 nz st fun p st => do
        let l ← i64 (nz - 1)
        readEntry64 Word.asInt (fun k => decide (0 ≤ k)) (decide (p = l)) p st
      let A := { A with i := some st.i, j := some st.j, x := some (.mpz st.x), nz := nz }
      let (_, C) ← SLIP_matrix_copy64 fp init (some none) .csc .mpz (some A) opt
      pure (.ok, C, st.file)
  | (_, _, _, _, _) => .error (.ret .incorrectInput)

/-- `SLIP_tripread`, demos.c lines 249-330. -/
def SLIP_tripread64 (fp : Fp) (init : Bool) (Ah : Handle Mat) (file : Option Stream)
    (opt : Option Options) : C (Info × Handle Mat × Option Stream) :=
  match Ah, file with
  | some _, some f => readWrap file (tripreadBody64 fp init f opt)
  | _, _ => pure (.incorrectInput, Ah, file)

/-- The body of `SLIP_read_dense`, demos.c lines 449-488. -/
def readDenseBody64 (init : Bool) (file : Stream) : C (Info × Handle Mat × Stream) := do
  match ← scan2_64 file with
  | (s, some m, some n, file) =>
    if file.eof || decide (s < 2) then .error (.ret .incorrectInput)
    else do
      let mn ← i64 (m * n)
      if !init then .error (.ret .panic)
      else do
        let A ← allocate64 .dense .mpz m n mn false true
        let (x, file) ← forRange 0 m (A.xz, file) fun i (x, file) =>
          forRange 0 n (x, file) fun j (x, file) => do
            let k ← ix64 m i j
            let (v, file') := scan Word.asInt file
            if v = none ∧ file.words = [] then .error (.ret .incorrectInput)
            else do
              let x ← storeOpt x k v
              pure (x, file')
        pure (.ok, some (some { A with x := some (.mpz x) }), file)
  | (_, _, _, _) => .error (.ret .incorrectInput)

/-- `SLIP_read_dense`, demos.c lines 436-489. -/
def SLIP_read_dense64 (init : Bool) (bh : Handle Mat) (file : Option Stream) :
    C (Info × Handle Mat × Option Stream) :=
  match file with
  | none => pure (.incorrectInput, bh, file)
  | some f =>
    match readDenseBody64 init f with
    | .ok (e, h, s) => if bh = none then .error .ub else pure (e, h, some s)
    | .error (.ret e) => pure (e, bh, file)
    | .error f => .error f

/-- The random system of `example.c`, lines 81-91. -/
def exampleGen64 (rand : ℕ → ℤ) (n : ℤ) (s : GenSt) : C GenSt :=
  forRange 0 n s fun k s => do
    let b ← wr s.b k (.fin (rand s.cnt))
    forRange 0 n { s with b := b, cnt := s.cnt + 1 } fun p s => do
      let i ← wr s.i s.num k
      let j ← wr s.j s.num p
      let x ← wr s.x s.num (.fin (rand s.cnt))
      let num ← i64 (s.num + 1)
      pure { s with i := i, j := j, x := x, num := num, cnt := s.cnt + 1 }

/-- The main program of the demo `example.c`, lines 48-114 (in the program `n = 50`, `nz = 2500`). -/
def example1_64 (fp : Fp) (O : Orderings) (nc : Int → Int → ℚ → Bool) (rand : ℕ → ℤ) (n : ℤ) :
    C (Option Mat) := do
  let opt := SLIP_create_default_options true
  let nn ← i64 (n * n)
  let R ← allocate64 .triplet .fp64 n n nn false true
  let Rb ← allocate64 .dense .fp64 n 1 n false true
  let s ← exampleGen64 rand n
    { i := deref R.i, j := deref R.j, x := R.xf, b := Rb.xf, num := 0, cnt := 0 }
  let R := { R with i := some s.i, j := some s.j, x := some (.fp64 s.x), nz := nn }
  let Rb := { Rb with x := some (.fp64 s.b) }
  let (e, A) ← SLIP_matrix_copy64 fp true (some none) .csc .mpz (some R) opt
  if e ≠ .ok then pure none
  else do
    let (e, b) ← SLIP_matrix_copy64 fp true (some none) .dense .mpz (some Rb) opt
    if e ≠ .ok then pure none
    else do
      let opt := opt.map fun o => { o with check := true }
      let (e, x) ← SLIP_backslash64 fp O nc true (some none) .fp64 A.join b.join opt
      if e ≠ .ok then pure none else pure x.join

/-- The main program of the demo `example2.c`, lines 76-118, as `example2`. -/
def example2_64 (fp : Fp) (O : Orderings) (nc : Int → Int → ℚ → Bool) (matFile rhsFile : Stream) :
    C (Option Mat) := do
  let opt := SLIP_create_default_options true
  let (e, A, _) ← SLIP_tripread64 fp true (some none) (some matFile) opt
  if e ≠ .ok then pure none
  else do
    let (e, b, _) ← SLIP_read_dense64 true (some none) (some rhsFile)
    if e ≠ .ok then pure none
    else match A.join, b.join with
    | some A, some b =>
      if A.n ≠ b.m then pure none
      else do
        let opt := opt.map fun o => { o with check := true }
        let (e, x) ← SLIP_backslash64 fp O nc true (some none) .mpq (some A) (some b) opt
        if e ≠ .ok then pure none else pure x.join
    | _, _ => .error .ub

/-- The main program of the demo `SLIPLU.c`, lines 168-260, as `sliplu`. -/
def sliplu64 (fp : Fp) (O : Orderings) (nc : Int → Int → ℚ → Bool) (opt : Options)
    (matFile rhsFile : Stream) : C (Option Mat) := do
  let (e, A, _) ← SLIP_tripread64 fp true (some none) (some matFile) (some opt)
  if e ≠ .ok then pure none
  else do
    let (e, b, _) ← SLIP_read_dense64 true (some none) (some rhsFile)
    if e ≠ .ok then pure none
    else match A.join, b.join with
    | some A, some b =>
      if A.n ≠ b.m then pure none
      else do
        let (e, S) ← SLIP_LU_analyze64 O true (some none) (some A) (some opt)
        if e ≠ .ok then pure none
        else do
          let f ← SLIP_LU_factorize64 nc true (some none) (some none) (some none) (some none)
            (some A) S.join (some opt)
          if f.info ≠ .ok then pure none
          else do
            let opt := { opt with check := true }
            let (e, x) ← SLIP_LU_solve64 true (some none) (some b) (some A) f.L.join f.U.join
              f.rhos.join S.join f.pinv.join (some opt)
            if e ≠ .ok then pure none else pure x.join
    | _, _ => .error .ub

end Slip
