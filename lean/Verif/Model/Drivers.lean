import Verif.Model.Convert

/-!
# The demo drivers: reading matrices from files and parsing the command line

A text file is the list of its words. Simplifications: a word is read completely by a conversion or
not at all (`%ld` applied to `3.5` would read the 3); numbers are not limited to 64 bits; memory does
not run out (`Verif/Model/Memory.lean`); printing is omitted.
-/

namespace Slip

/-! ## `fscanf` -/

/-- A word of a text file: an integer, a floating-point number that is not an integer literal, or
something else. -/
inductive Word
  | int (v : ℤ) | real (v : ℚ) | junk
  deriving DecidableEq

/-- An open `FILE *`: the words not yet read, whether white space follows the last word, and the
end-of-file indicator `feof`. -/
structure Stream where
  words : List Word
  nl : Bool
  eof : Bool
  deriving DecidableEq

/-- `%ld` (`PRId64`) and `%Zd`. -/
def Word.asInt : Word → Option ℤ
  | .int v => some v
  | _ => none

/-- `%lf`; the conversion of a decimal fraction to a `double` is a parameter. -/
def Word.asDbl (strtod : ℚ → Dbl) : Word → Option Dbl
  | .int v => some (strtod v)
  | .real v => some (strtod v)
  | .junk => none

/-- One conversion of `fscanf`: skip white space, then read one word. At the end of the input the
end-of-file indicator is set; it is also set by reading the last word if nothing follows it. A word
that does not match stays in the input. -/
def scan (f : Word → Option α) (s : Stream) : Option α × Stream :=
  match s.words with
  | [] => (none, { s with eof := true })
  | w :: ws =>
    match f w with
    | none => (none, s)
    | some v => (some v, { s with words := ws, eof := s.eof || (ws.isEmpty && !s.nl) })

/-- The white space (`\n`) at the end of a format: skip white space, which sets the end-of-file
indicator if nothing is left. -/
def scanSpace (s : Stream) : Stream := { s with eof := s.eof || s.words.isEmpty }

/-- The value `fscanf` returns when a conversion fails after `k` successful ones: `k`, or `EOF`
(-1) if the input ended before the first. -/
def scanCount (k : ℤ) (s : Stream) : ℤ := if k = 0 ∧ s.words = [] then -1 else k

/-- `fscanf (file, "%ld %ld", &a, &b)`: the count, and the values read. -/
def scan2 (s : Stream) : ℤ × Option ℤ × Option ℤ × Stream :=
  match scan Word.asInt s with
  | (none, s) => (scanCount 0 s, none, none, s)
  | (some a, s) =>
    match scan Word.asInt s with
    | (none, s) => (scanCount 1 s, some a, none, s)
    | (some b, s) => (2, some a, some b, s)

/-- `fscanf (file, "%ld %ld %X\n", &a, &b, &c)`, where the third conversion is `f`. -/
def scan3 (f : Word → Option α) (s : Stream) : ℤ × Option ℤ × Option ℤ × Option α × Stream :=
  match scan2 s with
  | (k, some a, some b, s) =>
    match scan f s with
    | (none, s) => (scanCount k s, some a, some b, none, s)
    | (some c, s) => (3, some a, some b, some c, scanSpace s)
  | (k, a, b, s) => (k, a, b, none, s)

/-- Store a value if it was read. -/
def storeOpt (a : Arr α) (k : ℤ) : Option α → C (Arr α)
  | none => pure a
  | some v => wr a k v

/-! ## SLIP_tripread -/

/-- The arrays of the triplet matrix being read, and the file. -/
structure ReadSt (α : Type) where
  i : Arr ℤ
  j : Arr ℤ
  x : Arr α
  file : Stream

/-- Read entry `p` and convert its indices to base 0: demos.c lines 287-299 and 304-316 (integers),
383-395 and 400-411 (`double`). `good` tells which counts returned by `fscanf` are taken as success,
`last` whether the end of the file is accepted (it is for the last entry, except for entry 0). -/
def readEntry (f : Word → Option α) (good : ℤ → Bool) (last : Bool) (p : ℤ) (s : ReadSt α) :
    C (ReadSt α) := do
  let (k, a, b, c, file) := scan3 f s.file
  let i ← storeOpt s.i p a
  let j ← storeOpt s.j p b
  let x ← storeOpt s.x p c
  if (file.eof && !last) || !good k then .error (.ret .incorrectInput)
  else do
    let u ← rd i p
    let i ← wr i p (u - 1)
    let v ← rd j p
    let j ← wr j p (v - 1)
    pure { i := i, j := j, x := x, file := file }

/-- The return paths of the readers: an error code with the handle NULL. -/
def readWrap (file : Option Stream) :
    C (Info × Handle Mat × Stream) → C (Info × Handle Mat × Option Stream)
  | .ok (e, h, s) => pure (e, h, some s)
  | .error (.ret e) => pure (e, some none, file)
  | .error f => .error f

/-- The body of `SLIP_tripread`, demos.c lines 264-329. The status of `SLIP_matrix_copy` (line 324)
is ignored: the function returns the status of the last `SLIP_gmp_fscanf`, which is SLIP_OK. (For
`init = false`, `SLIP_matrix_allocate` returns SLIP_PANIC.) -/
def tripreadBody (fp : Fp) (init : Bool) (file : Stream) (opt : Option Options) :
    C (Info × Handle Mat × Stream) := do
  match scan3 Word.asInt file with
  | (s, some m, some n, some nz, file) =>
    if file.eof || decide (s < 3) then .error (.ret .incorrectInput)
    else if !init then .error (.ret .panic)
    else do
      let A ← allocate .triplet .mpz m n nz false true
      let st : ReadSt ℤ := { i := deref A.i, j := deref A.j, x := A.xz, file := file }
      let st ← readEntry Word.asInt (fun k => decide (0 ≤ k)) false 0 st
      let st ← forRange 1 nz st fun p st =>
        readEntry Word.asInt (fun k => decide (0 ≤ k)) (decide (p = nz - 1)) p st
      let A := { A with i := some st.i, j := some st.j, x := some (.mpz st.x), nz := nz }
      let (_, C) ← SLIP_matrix_copy fp init (some none) .csc .mpz (some A) opt
      pure (.ok, C, st.file)
  | (_, _, _, _, _) => .error (.ret .incorrectInput)

/-- `SLIP_tripread`, demos.c lines 249-330. -/
def SLIP_tripread (fp : Fp) (init : Bool) (Ah : Handle Mat) (file : Option Stream)
    (opt : Option Options) : C (Info × Handle Mat × Option Stream) :=
  match Ah, file with
  | some _, some f => readWrap file (tripreadBody fp init f opt)
  | _, _ => pure (.incorrectInput, Ah, file)

/-! ## SLIP_tripread_double -/

/-- The body of `SLIP_tripread_double`, demos.c lines 364-425. The count returned by `fscanf` for the
first entry is compared with `SLIP_OK` (0), lines 383-385; for the others it must be at least 3. The
value returned on success is that count. -/
def tripreadDoubleBody (fp : Fp) (strtod : ℚ → Dbl) (init : Bool) (file : Stream)
    (opt : Option Options) : C (Info × Handle Mat × Stream) := do
  match scan3 Word.asInt file with
  | (s, some m, some n, some nz, file) =>
    if file.eof || decide (s < 3) then .error (.ret .incorrectInput)
    else if !init then .error (.ret .panic)
    else do
      let A ← allocate .triplet .fp64 m n nz false true
      let st : ReadSt Dbl := { i := deref A.i, j := deref A.j, x := A.xf, file := file }
      let st ← readEntry (Word.asDbl strtod) (fun k => decide (k = 0)) false 0 st
      let st ← forRange 1 nz st fun p st =>
        readEntry (Word.asDbl strtod) (fun k => decide (3 ≤ k)) (decide (p = nz - 1)) p st
      let A := { A with i := some st.i, j := some st.j, x := some (.fp64 st.x), nz := nz }
      let (_, C) ← SLIP_matrix_copy fp init (some none) .csc .mpz (some A) opt
      pure (.ok, C, st.file)
  | (_, _, _, _, _) => .error (.ret .incorrectInput)

/-- `SLIP_tripread_double`, demos.c lines 347-426. -/
def SLIP_tripread_double (fp : Fp) (strtod : ℚ → Dbl) (init : Bool) (Ah : Handle Mat)
    (file : Option Stream) (opt : Option Options) : C (Info × Handle Mat × Option Stream) :=
  match Ah, file with
  | some _, some f => readWrap file (tripreadDoubleBody fp strtod init f opt)
  | _, _ => pure (.incorrectInput, Ah, file)

/-! ## SLIP_read_dense -/

/-- The body of `SLIP_read_dense`, demos.c lines 449-488: row by row, `SLIP_2D (A, i, j)` is element
`i + j*m` (SLIP_LU.h line 425). `SLIP_gmp_fscanf` fails only at the end of the input. -/
def readDenseBody (init : Bool) (file : Stream) : C (Info × Handle Mat × Stream) := do
  match scan2 file with
  | (s, some m, some n, file) =>
    if file.eof || decide (s < 2) then .error (.ret .incorrectInput)
    else if !init then .error (.ret .panic)
    else do
      let A ← allocate .dense .mpz m n (m * n) false true
      let (x, file) ← forRange 0 m (A.xz, file) fun i (x, file) =>
        forRange 0 n (x, file) fun j (x, file) => do
          let (v, file') := scan Word.asInt file
          if v = none ∧ file.words = [] then .error (.ret .incorrectInput)
          else do
            let x ← storeOpt x (i + j * m) v
            pure (x, file')
      pure (.ok, some (some { A with x := some (.mpz x) }), file)
  | (_, _, _, _) => .error (.ret .incorrectInput)

/-- `SLIP_read_dense`, demos.c lines 436-489. On an error the handle keeps its value (and the matrix
allocated at line 462 is leaked). A NULL handle is dereferenced at line 487. -/
def SLIP_read_dense (init : Bool) (bh : Handle Mat) (file : Option Stream) :
    C (Info × Handle Mat × Option Stream) :=
  match file with
  | none => pure (.incorrectInput, bh, file)
  | some f =>
    match readDenseBody init f with
    | .ok (e, h, s) => if bh = none then .error .ub else pure (e, h, some s)
    | .error (.ret e) => pure (e, bh, file)
    | .error f => .error f

/-! ## SLIP_process_command_line -/

/-- What the command line sets: `option`, `*mat_name`, `*rhs_name` and `*help`. -/
structure CmdSt where
  opt : Options
  mat : String
  rhs : String
  help : Bool
  deriving DecidableEq

/-- `SLIP_pivot` from its number: SLIP_LU.h lines 192-202; other numbers are replaced by
SLIP_SMALLEST, demos.c lines 126-132. -/
def pivotOf (v : ℤ) : Pivot :=
  if v = 1 then .diagonal else if v = 2 then .firstNonzero else if v = 3 then .tolSmallest
  else if v = 4 then .tolLargest else if v = 5 then .largest else .smallest

/-- `SLIP_col_order` from its number: SLIP_LU.h lines 210-216; other numbers are replaced by
SLIP_COLAMD, demos.c lines 142-148. -/
def orderOf (v : ℤ) : ColOrder :=
  if v = 0 then .none else if v = 2 then .amd else .colamd

/-- `option->tol < 0`; a comparison with NaN is false. -/
def Dbl.neg : Dbl → Bool
  | .fin v => decide (v < 0)
  | .negInf => true
  | _ => false

/-- The loop of `SLIP_process_command_line`, demos.c lines 110-210, over `argv [1..argc-1]`;
`argv [argc]` is NULL. `atoi` and `atof` are the C functions. Returns the status and the final
values (also on an error). -/
def cmdLoop (atoi : String → ℤ) (atof : String → Dbl) : List String → CmdSt → Info × CmdSt
  | [], s => (.ok, s)
  | arg :: rest, s =>
    if arg = "help" then cmdLoop atoi atof rest { s with help := true }
    else if arg = "p" ∨ arg = "piv" then
      match rest with
      | [] => (.incorrectInput, s)
      | v :: rest => cmdLoop atoi atof rest { s with opt := { s.opt with pivot := pivotOf (atoi v) } }
    else if arg = "q" ∨ arg = "col" then
      match rest with
      | [] => (.incorrectInput, s)
      | v :: rest => cmdLoop atoi atof rest { s with opt := { s.opt with order := orderOf (atoi v) } }
    else if arg = "t" ∨ arg = "tol" then
      match rest with
      | [] => (.incorrectInput, s)
      | v :: rest =>
        if atof v = .fin 0 then (.incorrectInput, s)
        else if (atof v).neg then (.incorrectInput, { s with opt := { s.opt with tol := atof v } })
        else cmdLoop atoi atof rest { s with opt := { s.opt with tol := atof v } }
    else if arg = "out" ∨ arg = "o" then
      match rest with
      | [] => (.incorrectInput, s)
      | v :: rest =>
        if atoi v = 0 then (.incorrectInput, s)
        else cmdLoop atoi atof rest { s with opt := { s.opt with printLevel := atoi v } }
    else if arg = "f" ∨ arg = "file" then
      match rest with
      | [] => (.incorrectInput, s)
      | [a] => (.incorrectInput, { s with mat := a })
      | a :: b :: rest => cmdLoop atoi atof rest { s with mat := a, rhs := b }
    else (.incorrectInput, s)

/-- `SLIP_process_command_line`, demos.c lines 95-213; `argv` does not include the program name
`argv [0]`. (`*rat` is always set to SLIP_MPZ, line 106.) -/
def SLIP_process_command_line (atoi : String → ℤ) (atof : String → Dbl) (argv : List String)
    (opt : Options) (mat rhs : String) : Info × CmdSt :=
  cmdLoop atoi atof argv { opt := opt, mat := mat, rhs := rhs, help := false }

/-! ## The demo programs -/

/-- What `example.c` fills: `R->i`, `R->j`, `R->x.fp64`, `Rb->x.fp64`, `num`, and how many times
`rand ()` has been called. -/
structure GenSt where
  i : Arr ℤ
  j : Arr ℤ
  x : Arr Dbl
  b : Arr Dbl
  num : ℤ
  cnt : ℕ

/-- The random system of `example.c`, lines 81-91; `rand k` is the value of call number `k` of
`rand ()`. The conversion of an `int` to a `double` is exact. -/
def exampleGen (rand : ℕ → ℤ) (n : ℤ) (s : GenSt) : C GenSt :=
  forRange 0 n s fun k s => do
    let b ← wr s.b k (.fin (rand s.cnt))
    forRange 0 n { s with b := b, cnt := s.cnt + 1 } fun p s => do
      let i ← wr s.i s.num k
      let j ← wr s.j s.num p
      let x ← wr s.x s.num (.fin (rand s.cnt))
      pure { s with i := i, j := j, x := x, num := s.num + 1, cnt := s.cnt + 1 }

/-- The main program of the demo `example.c`, lines 48-114: a random dense system (in the program
`n = 50`, `nz = 2500`) as a triplet and a dense matrix of type FP64, conversion to MPZ,
`SLIP_backslash` with output type FP64 and the built-in check switched on. `none`: the program stopped
with a message. -/
def example1 (fp : Fp) (O : Orderings) (nc : Int → Int → ℚ → Bool) (rand : ℕ → ℤ) (n : ℤ) :
    C (Option Mat) := do
  let opt := SLIP_create_default_options true
  let R ← allocate .triplet .fp64 n n (n * n) false true
  let Rb ← allocate .dense .fp64 n 1 n false true
  let s ← exampleGen rand n
    { i := deref R.i, j := deref R.j, x := R.xf, b := Rb.xf, num := 0, cnt := 0 }
  let R := { R with i := some s.i, j := some s.j, x := some (.fp64 s.x), nz := n * n }
  let Rb := { Rb with x := some (.fp64 s.b) }
  let (e, A) ← SLIP_matrix_copy fp true (some none) .csc .mpz (some R) opt
  if e ≠ .ok then pure none
  else do
    let (e, b) ← SLIP_matrix_copy fp true (some none) .dense .mpz (some Rb) opt
    if e ≠ .ok then pure none
    else do
      let opt := opt.map fun o => { o with check := true }
      let (e, x) ← SLIP_backslash fp O nc true (some none) .fp64 A.join b.join opt
      if e ≠ .ok then pure none else pure x.join

/-- The main program of the demo `example2.c`, lines 76-118, once the files are open: read A and b,
compare their sizes, `SLIP_backslash` with output type MPQ and the built-in check switched on.
`none`: the program stopped with a message. -/
def example2 (fp : Fp) (O : Orderings) (nc : Int → Int → ℚ → Bool) (matFile rhsFile : Stream) :
    C (Option Mat) := do
  let opt := SLIP_create_default_options true
  let (e, A, _) ← SLIP_tripread fp true (some none) (some matFile) opt
  if e ≠ .ok then pure none
  else do
    let (e, b, _) ← SLIP_read_dense true (some none) (some rhsFile)
    if e ≠ .ok then pure none
    else match A.join, b.join with
    | some A, some b =>
      if A.n ≠ b.m then pure none
      else do
        let opt := opt.map fun o => { o with check := true }
        let (e, x) ← SLIP_backslash fp O nc true (some none) .mpq (some A) (some b) opt
        if e ≠ .ok then pure none else pure x.join
    | _, _ => .error .ub

/-- The main program of the demo `SLIPLU.c`, lines 168-260, once the command line is processed and
the files are open: read A and b, compare their sizes, analyze, factorize and solve with the built-in
check switched on. `none`: the program stopped with a message. -/
def sliplu (fp : Fp) (O : Orderings) (nc : Int → Int → ℚ → Bool) (opt : Options)
    (matFile rhsFile : Stream) : C (Option Mat) := do
  let (e, A, _) ← SLIP_tripread fp true (some none) (some matFile) (some opt)
  if e ≠ .ok then pure none
  else do
    let (e, b, _) ← SLIP_read_dense true (some none) (some rhsFile)
    if e ≠ .ok then pure none
    else match A.join, b.join with
    | some A, some b =>
      if A.n ≠ b.m then pure none
      else do
        let (e, S) ← SLIP_LU_analyze O true (some none) (some A) (some opt)
        if e ≠ .ok then pure none
        else do
          let f ← SLIP_LU_factorize nc true (some none) (some none) (some none) (some none)
            (some A) S.join (some opt)
          if f.info ≠ .ok then pure none
          else do
            let opt := { opt with check := true }
            let (e, x) ← SLIP_LU_solve true (some none) (some b) (some A) f.L.join f.U.join
              f.rhos.join S.join f.pinv.join (some opt)
            if e ≠ .ok then pure none else pure x.join
    | _, _ => .error .ub

/-- `main` of SLIPLU.c, lines 81-280: default options, the command line, opening the files (`fs` is
the file system: what a name opens, if it does), then `sliplu`. `none`: the program stopped with a
message or the usage text. -/
def slipluMain (fp : Fp) (O : Orderings) (nc : Int → Int → ℚ → Bool) (atoi : String → ℤ)
    (atof : String → Dbl) (fs : String → Option Stream) (argv : List String) : C (Option Mat) :=
  match SLIP_create_default_options true with
  | none => pure none
  | some opt =>
    match SLIP_process_command_line atoi atof argv opt "../ExampleMats/10teams_mat.txt"
      "../ExampleMats/10teams_v.txt" with
    | (.ok, s) =>
      if s.help then pure none
      else match fs s.mat with
      | none => pure none
      | some f =>
        match fs s.rhs with
        | none => do
          let _ ← SLIP_tripread fp true (some none) (some f) (some s.opt)
          pure none
        | some g => sliplu fp O nc s.opt f g
    | _ => pure none

end Slip
