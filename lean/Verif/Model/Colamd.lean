import Verif.Model.Arith
import Mathlib.Logic.Function.Basic

/-!
# Model of COLAMD, the default column ordering

/repo/COLAMD/Source/colamd.c, called as `colamd_l` by SLIP_LU_analyze.c line 99.

* The memory of the C function is the array `A`, which is cut in three (lines 1541-1565): the index
  space, the `Col` array of `n_col+1` records and the `Row` array of `n_row+1` records. Here the
  three are separate arrays, and each member of a record is an array of its own (`Fld`), so an
  access outside the index space, or outside a record array, is undefined behaviour in the model
  even where the C program would stay inside the one block.
* Members that share a `union` (lines 689-745) share one array.
* The statistics (`stats`) are not modelled, except the flag "jumbled" which steers the program.
* Every addition, subtraction, negation and multiplication of integers goes through `ck`: the model
  is both one of the exact algorithm (`Arith.exact`) and of the program (`Arith.bits64`). Pointers
  (`cp`, `cp_end`, `new_cp`, `rp`, `psrc`, `pdest`) are offsets in `A`: a pointer that is
  dereferenced is checked by the access, its increments are not. Nor are the increments of `for`
  loops. `hash` is an unsigned 64-bit number.
-/

namespace Slip.Colamd

variable [ar : Arith]

/-- The arrays: the index space `A`, `p` (also called `head`), and the members of `Col` and `Row`.
colamd.c lines 689-745. -/
inductive Fld
  /-- the index space -/
  | A
  /-- `p`, `head` -/
  | p
  /-- `Col [c].start` -/
  | cs
  /-- `Col [c].length` -/
  | cl
  /-- `Col [c].shared1`: thickness, parent -/
  | c1
  /-- `Col [c].shared2`: score, order -/
  | c2
  /-- `Col [c].shared3`: headhash, hash, prev -/
  | c3
  /-- `Col [c].shared4`: degree_next, hash_next -/
  | c4
  /-- `Row [r].start` -/
  | rs
  /-- `Row [r].length` -/
  | rl
  /-- `Row [r].shared1`: degree, p -/
  | r1
  /-- `Row [r].shared2`: mark, first_column -/
  | r2
  deriving DecidableEq, Repr

/-- The memory of colamd (see the head of this file; colamd.c lines 1541-1565). -/
abbrev Mem := Fld → Arr Int

/-- Read an element (colamd.c, every access). -/
def Mem.rd (s : Mem) (f : Fld) (i : Int) : C Int := Slip.rd (s f) i

/-- Write an element (colamd.c, every access). -/
def Mem.wr (s : Mem) (f : Fld) (i v : Int) : C Mem := do
  let a ← Slip.wr (s f) i v
  pure (Function.update s f a)

/-- The parameters computed from `knobs` in floating point: `dense_row_count`, `dense_col_count`
(lines 1922-1948; arbitrary here) and `aggressive` (line 1537). -/
structure Knobs where
  denseRow : Int
  denseCol : Int
  aggressive : Bool

/-! ## init_rows_cols, colamd.c lines 1647-1872 -/

/-- lines 1672-1693: the column records; a negative length is an error. -/
def initCols (n : Int) (s : Mem) : C Mem :=
  forRange 0 n s fun col s => do
    let a ← s.rd .p col
    let c1 ← ck (col + 1)
    let b ← s.rd .p c1
    let s ← s.wr .cs col a
    let len ← ck (b - a)
    let s ← s.wr .cl col len
    if len < 0 then .error (.ret .incorrectInput) else do
    let s ← s.wr .c1 col 1
    let s ← s.wr .c2 col 0
    let s ← s.wr .c3 col (-1)
    s.wr .c4 col (-1)

/-- lines 1699-1703 -/
def initRows (m : Int) (s : Mem) : C Mem :=
  forRange 0 m s fun row s => do
    let s ← s.wr .rl row 0
    s.wr .r2 row (-1)

/-- The state of the scan over a column: memory, last row, jumbled?  lines 1707-1752. -/
structure Scan where
  s : Mem
  last : Int
  jumbled : Bool

/-- lines 1713-1751: one entry of column `col`. -/
def scanEntry (m col : Int) (i : Int) (z : Scan) : C Scan := do
  let row ← z.s.rd .A i
  if row < 0 ∨ row ≥ m then .error (.ret .incorrectInput) else do
  let mark ← z.s.rd .r2 row
  let j := z.jumbled || decide (row ≤ z.last ∨ mark = col)
  let s ← (if mark ≠ col then do
      let l ← z.s.rd .rl row
      let l ← ck (l + 1)
      z.s.wr .rl row l
    else do
      let l ← z.s.rd .cl col
      let l ← ck (l - 1)
      z.s.wr .cl col l)
  let s ← s.wr .r2 row col
  pure { s := s, last := row, jumbled := j }

/-- lines 1705-1754: count the entries of the rows, detect duplicate and unsorted indices. -/
def scanCols (n m : Int) (s : Mem) : C (Mem × Bool) :=
  forRange 0 n (s, false) fun col (s, j) => do
    let a ← s.rd .p col
    let c1 ← ck (col + 1)
    let b ← s.rd .p c1
    let z ← forRange a b { s := s, last := -1, jumbled := j } (scanEntry m col)
    pure (z.s, z.jumbled)

/-- lines 1756-1768: the row pointers. -/
def rowStarts (n m : Int) (s : Mem) : C Mem := do
  let v ← s.rd .p n
  let s ← s.wr .rs 0 v
  let s ← s.wr .r1 0 v
  let s ← s.wr .r2 0 (-1)
  forRange 1 m s fun row s => do
    let r1 ← ck (row - 1)
    let a ← s.rd .rs r1
    let l ← s.rd .rl r1
    let a ← ck (a + l)
    let s ← s.wr .rs row a
    let s ← s.wr .r1 row a
    s.wr .r2 row (-1)

/-- lines 1770-1802: the row form; duplicates are dropped if the matrix is jumbled. -/
def fillRows (n : Int) (jumbled : Bool) (s : Mem) : C Mem :=
  forRange 0 n s fun col s => do
    let a ← s.rd .p col
    let c1 ← ck (col + 1)
    let b ← s.rd .p c1
    forRange a b s fun i s => do
      let row ← s.rd .A i
      let put : C Mem := do
        let t ← s.rd .r1 row
        let s ← s.wr .A t col
        let t ← ck (t + 1)
        s.wr .r1 row t
      if jumbled then do
        let mark ← s.rd .r2 row
        if mark ≠ col then do
          let s ← put
          s.wr .r2 row col
        else pure s
      else put

/-- lines 1804-1810 -/
def resetRows (m : Int) (s : Mem) : C Mem :=
  forRange 0 m s fun row s => do
    let s ← s.wr .r2 row 0
    let l ← s.rd .rl row
    s.wr .r1 row l

/-- lines 1841-1866: the column form again, from the row form (jumbled matrices). -/
def rebuildCols (n m : Int) (s : Mem) : C Mem := do
  let s ← s.wr .cs 0 0
  let s ← s.wr .p 0 0
  let s ← forRange 1 n s fun col s => do
    let c1 ← ck (col - 1)
    let a ← s.rd .cs c1
    let l ← s.rd .cl c1
    let a ← ck (a + l)
    let s ← s.wr .cs col a
    s.wr .p col a
  forRange 0 m s fun row s => do
    let a ← s.rd .rs row
    let l ← s.rd .rl row
    forRange a (a + l) s fun i s => do
      let col ← s.rd .A i
      let t ← s.rd .p col
      let s ← s.wr .A t row
      let t ← ck (t + 1)
      s.wr .p col t

/-- `init_rows_cols`, lines 1647-1872; `return (FALSE)` is the failure `ret`. -/
def init_rows_cols (n m : Int) (s : Mem) : C Mem := do
  let s ← initCols n s
  let s ← initRows m s
  let (s, jumbled) ← scanCols n m s
  let s ← rowStarts n m s
  let s ← fillRows n jumbled s
  let s ← resetRows m s
  if jumbled then rebuildCols n m s else pure s

/-! ## init_scoring, colamd.c lines 1884-2147 -/

/-- lines 1954-1964: kill the empty columns. -/
def killEmpty (n : Int) (s : Mem) (n2 : Int) : C (Mem × Int) :=
  forDown 0 n (s, n2) fun c (s, n2) => do
    let deg ← s.rd .cl c
    if deg = 0 then do
      let n2 ← ck (n2 - 1)
      let s ← s.wr .c2 c n2
      let s ← s.wr .cs c (-1)
      pure (s, n2)
    else pure (s, n2)

/-- lines 1969-1991: kill the dense columns. -/
def killDense (n dc : Int) (s : Mem) (n2 : Int) : C (Mem × Int) :=
  forDown 0 n (s, n2) fun c (s, n2) => do
    let st ← s.rd .cs c
    if st < 0 then pure (s, n2) else do
    let deg ← s.rd .cl c
    if deg > dc then do
      let n2 ← ck (n2 - 1)
      let s ← s.wr .c2 c n2
      let s ← forRange st (st + deg) s fun i s => do
        let r ← s.rd .A i
        let d ← s.rd .r1 r
        let d ← ck (d - 1)
        s.wr .r1 r d
      let s ← s.wr .cs c (-1)
      pure (s, n2)
    else pure (s, n2)

/-- lines 1995-2011: kill the dense and empty rows; returns `max_deg`. -/
def killRows0 (m dr : Int) (s : Mem) : C (Mem × Int) :=
  forRange 0 m (s, 0) fun r (s, mx) => do
    let deg ← s.rd .r1 r
    if deg > dr ∨ deg = 0 then do
      let s ← s.wr .r2 r (-1)
      pure (s, mx)
    else pure (s, max mx deg)

/-- lines 2032-2046: prune the dead rows of a column (from `st`, `len` entries) and compute the
initial score; returns the end of the pruned column and the score. -/
def scoreCol (n st len : Int) (s : Mem) : C (Mem × Int × Int) :=
  forRange st (st + len) (s, st, 0) fun i (s, np, score) => do
    let row ← s.rd .A i
    let mark ← s.rd .r2 row
    if mark < 0 then pure (s, np, score) else do
    let s ← s.wr .A np row
    let d ← s.rd .r1 row
    let d ← ck (d - 1)
    let score ← ck (score + d)
    pure (s, np + 1, min score n)

/-- lines 2021-2071: the initial scores. -/
def scoreCols (n : Int) (s : Mem) (n2 : Int) : C (Mem × Int) :=
  forDown 0 n (s, n2) fun c (s, n2) => do
    let st ← s.rd .cs c
    if st < 0 then pure (s, n2) else do
    let len ← s.rd .cl c
    let (s, np, score) ← scoreCol n st len s
    if np - st = 0 then do
      let n2 ← ck (n2 - 1)
      let s ← s.wr .c2 c n2
      let s ← s.wr .cs c (-1)
      pure (s, n2)
    else do
      let s ← s.wr .cl c (np - st)
      let s ← s.wr .c2 c score
      pure (s, n2)

/-- Insert column `c` in the degree list of score `d`: lines 2113-2126 (initially) and lines
2663-2675 (in each step; there the two fields of `c` are written in the other order). -/
def insertDeg (c d : Int) (s : Mem) : C Mem := do
  let next ← s.rd .p d
  let s ← s.wr .c3 c (-1)
  let s ← s.wr .c4 c next
  let s ← (if next ≠ -1 then s.wr .c3 next c else pure s)
  s.wr .p d c

/-- lines 2086-2139: the degree lists. (`min_score` is not used afterwards.) -/
def initLists (n : Int) (s : Mem) : C Mem := do
  let s ← forRange 0 (n + 1) s fun c s => s.wr .p c (-1)
  forDown 0 n s fun c s => do
    let st ← s.rd .cs c
    if st ≥ 0 then do
      let score ← s.rd .c2 c
      insertDeg c score s
    else pure s

/-- `init_scoring`, lines 1884-2147; returns `n_col2` and `max_deg`. -/
def init_scoring (n m : Int) (K : Knobs) (s : Mem) : C (Mem × Int × Int) := do
  let (s, n2) ← killEmpty n s n
  let (s, n2) ← killDense n K.denseCol s n2
  let (s, mx) ← killRows0 m K.denseRow s
  let (s, n2) ← scoreCols n s n2
  let s ← initLists n s
  pure (s, n2, mx)

/-! ## garbage_collection and clear_mark -/

/-- `clear_mark`, lines 3114-3142. -/
def clear_mark (tag maxMark m : Int) (s : Mem) : C (Mem × Int) :=
  if tag ≤ 0 ∨ tag ≥ maxMark then do
    let s ← forRange 0 m s fun r s => do
      let mark ← s.rd .r2 r
      if mark ≥ 0 then s.wr .r2 r 0 else pure s
    pure (s, 1)
  else pure (s, tag)

/-- lines 3022-3032 and 3076-3084: copy the `len` entries from `src` on to `dst` on, those that are
alive according to the array `f`; returns the new `dst`. -/
def gcCopy (f : Fld) (src len dst : Int) (s : Mem) : C (Mem × Int) :=
  forRange src (src + len) (s, dst) fun i (s, d) => do
    let x ← s.rd .A i
    let mark ← s.rd f x
    if mark ≥ 0 then do
      let s ← s.wr .A d x
      pure (s, d + 1)
    else pure (s, d)

/-- lines 3014-3035: defragment the columns. -/
def gcCols (n : Int) (s : Mem) : C (Mem × Int) :=
  forRange 0 n (s, 0) fun c (s, d) => do
    let st ← s.rd .cs c
    if st ≥ 0 then do
      let s ← s.wr .cs c d
      let len ← s.rd .cl c
      let (s, d') ← gcCopy .r2 st len d s
      let s ← s.wr .cl c (d' - d)
      pure (s, d')
    else pure (s, d)

/-- lines 3039-3058: put a marker at the start of each row. -/
def gcMark (m : Int) (s : Mem) : C Mem :=
  forRange 0 m s fun r s => do
    let mark ← s.rd .r2 r
    let len ← s.rd .rl r
    if mark < 0 ∨ len = 0 then s.wr .r2 r (-1)
    else do
      let st ← s.rd .rs r
      let v ← s.rd .A st
      let s ← s.wr .r2 r v
      let t ← ck (-r)
      let t ← ck (t - 1)
      s.wr .A st t

/-- lines 3062-3096: defragment the rows; the scan goes over a marker and its row at once. -/
def gcRows : Nat → (src dst pfree : Int) → Mem → C (Mem × Int)
  | 0, _, _, _, _ => .error .fuel
  | fuel + 1, src, dst, pfree, s =>
    if src < pfree then do
      let v ← s.rd .A src
      if v < 0 then do
        let r ← ck (-v)
        let r ← ck (r - 1)
        let fc ← s.rd .r2 r
        let s ← s.wr .A src fc
        let s ← s.wr .rs r dst
        let len ← s.rd .rl r
        let (s, dst') ← gcCopy .cs src len dst s
        let s ← s.wr .rl r (dst' - dst)
        gcRows fuel (src + len) dst' pfree s
      else gcRows fuel (src + 1) dst pfree s
    else pure (s, dst)

/-- `garbage_collection`, lines 2982-3101; returns the new `pfree`. -/
def garbage_collection (n m : Int) (pfree : Int) (s : Mem) : C (Mem × Int) := do
  let (s, d) ← gcCols n s
  let s ← gcMark m s
  gcRows (pfree.toNat + 1) d d pfree s

/-! ## detect_super_cols, colamd.c lines 2825-2966 -/

/-- lines 2908-2922: compare the patterns of two columns of the same length. -/
def cmpCols (a b : Int) : Nat → Mem → C Bool
  | 0, _ => pure true
  | k + 1, s => do
    let x ← s.rd .A a
    let y ← s.rd .A b
    if x ≠ y then pure false else cmpCols (a + 1) (b + 1) k s

/-- lines 2888-2949: the columns after `super_c` in the bucket; those with the same pattern are
absorbed by it. -/
def superInner (sc : Int) : Nat → (prev c : Int) → Mem → C Mem
  | 0, _, _, _ => .error .fuel
  | fuel + 1, prev, c, s =>
    if c = -1 then pure s else do
    let length ← s.rd .cl sc
    let l ← s.rd .cl c
    let x ← s.rd .c2 c
    let y ← s.rd .c2 sc
    let next ← s.rd .c4 c
    if l ≠ length ∨ x ≠ y then superInner sc fuel c next s else do
    let a ← s.rd .cs sc
    let b ← s.rd .cs c
    let eq ← cmpCols a b length.toNat s
    if !eq then superInner sc fuel c next s else do
    let t ← s.rd .c1 sc
    let u ← s.rd .c1 c
    let t ← ck (t + u)
    let s ← s.wr .c1 sc t
    let s ← s.wr .c1 c sc
    let s ← s.wr .cs c (-2)
    let s ← s.wr .c2 c (-1)
    let s ← s.wr .c4 prev next
    superInner sc fuel prev next s

/-- lines 2878-2950: the columns of a bucket. -/
def superOuter (F : Nat) : Nat → (sc : Int) → Mem → C Mem
  | 0, _, _ => .error .fuel
  | fuel + 1, sc, s =>
    if sc = -1 then pure s else do
    let c ← s.rd .c4 sc
    let s ← superInner sc F sc c s
    let next ← s.rd .c4 sc
    superOuter F fuel next s

/-- lines 2855-2964: one column of the pivot row. -/
def superCol (n : Int) (i : Int) (s : Mem) : C Mem := do
  let col ← s.rd .A i
  let st ← s.rd .cs col
  if st < 0 then pure s else do
  let hash ← s.rd .c3 col
  let hc ← s.rd .p hash
  let first ← (if hc > -1 then s.rd .c3 hc else do
    let t ← ck (hc + 2)
    ck (-t))
  let s ← superOuter (n.toNat + 1) (n.toNat + 1) first s
  if hc > -1 then s.wr .c3 hc (-1) else s.wr .p hash (-1)

/-- `detect_super_cols`, lines 2825-2966. -/
def detect_super_cols (n start len : Int) (s : Mem) : C Mem :=
  forRange start (start + len) s (superCol n)

/-! ## find_ordering, colamd.c lines 2159-2703 -/

/-- lines 2254-2257: find the smallest nonempty degree list. -/
def scanMin (n : Int) : Nat → (ms : Int) → Mem → C Int
  | 0, _, _ => .error .fuel
  | fuel + 1, ms, s => do
    let h ← s.rd .p ms
    if h = -1 ∧ ms < n then do
      let ms ← ck (ms + 1)
      scanMin n fuel ms s
    else pure ms

/-- lines 2258-2283: take the pivot column off its list and give it the position `k`; returns the
pivot column, its score, its thickness. -/
def selectPivot (ms k : Int) (s : Mem) : C (Mem × Int × Int × Int) := do
  let piv ← s.rd .p ms
  let next ← s.rd .c4 piv
  let s ← s.wr .p ms next
  let s ← (if next ≠ -1 then s.wr .c3 next (-1) else pure s)
  let score ← s.rd .c2 piv
  let s ← s.wr .c2 piv k
  let th ← s.rd .c1 piv
  pure (s, piv, score, th)

/-- lines 2330-2344: add the columns of a row to the pivot row. -/
def rowUnion (st len : Int) (s : Mem) (pf deg : Int) : C (Mem × Int × Int) :=
  forRange st (st + len) (s, pf, deg) fun i (s, pf, deg) => do
    let col ← s.rd .A i
    let th ← s.rd .c1 col
    let cst ← s.rd .cs col
    if th > 0 ∧ cst ≥ 0 then do
      let t ← ck (-th)
      let s ← s.wr .c1 col t
      let s ← s.wr .A pf col
      let pf ← ck (pf + 1)
      let deg ← ck (deg + th)
      pure (s, pf, deg)
    else pure (s, pf, deg)

/-- lines 2302-2353: build the pivot row at the end of the index space; returns the new `pfree`
and the degree of the pivot row. -/
def buildRow (piv th pf : Int) (s : Mem) : C (Mem × Int × Int) := do
  let t ← ck (-th)
  let s ← s.wr .c1 piv t
  let st ← s.rd .cs piv
  let len ← s.rd .cl piv
  let (s, pf, deg) ← forRange st (st + len) (s, pf, 0) fun i (s, pf, deg) => do
    let row ← s.rd .A i
    let mark ← s.rd .r2 row
    if mark ≥ 0 then do
      let rst ← s.rd .rs row
      let rlen ← s.rd .rl row
      rowUnion rst rlen s pf deg
    else pure (s, pf, deg)
  let s ← s.wr .c1 piv th
  pure (s, pf, deg)

/-- lines 2355-2366: kill the rows of the pivot column. -/
def killPivotRows (piv : Int) (s : Mem) : C Mem := do
  let st ← s.rd .cs piv
  let len ← s.rd .cl piv
  forRange st (st + len) s fun i s => do
    let row ← s.rd .A i
    s.wr .r2 row (-1)

/-- lines 2368-2383: the index of the new row. -/
def pivotRow (piv len : Int) (s : Mem) : C Int :=
  if len > 0 then do
    let st ← s.rd .cs piv
    s.rd .A st
  else pure (-1)

/-- lines 2423-2445: restore the thickness of a column of the pivot row and take it off its degree
list; returns the thickness. -/
def removeDeg (col : Int) (s : Mem) : C (Mem × Int) := do
  let t ← s.rd .c1 col
  let th ← ck (-t)
  let s ← s.wr .c1 col th
  let score ← s.rd .c2 col
  let prev ← s.rd .c3 col
  let next ← s.rd .c4 col
  let s ← (if prev = -1 then s.wr .p score next else s.wr .c4 prev next)
  let s ← (if next ≠ -1 then s.wr .c3 next prev else pure s)
  pure (s, th)

/-- lines 2453-2482: the set difference for one row of the column. -/
def setDiffRow (tag th : Int) (aggressive : Bool) (i : Int) (s : Mem) : C Mem := do
  let row ← s.rd .A i
  let mark ← s.rd .r2 row
  if mark < 0 then pure s else do
  let d ← ck (mark - tag)
  let d ← (if d < 0 then s.rd .r1 row else pure d)
  let d ← ck (d - th)
  if d = 0 ∧ aggressive then s.wr .r2 row (-1)
  else do
    let d ← ck (d + tag)
    s.wr .r2 row d

/-- lines 2404-2484: the set differences. -/
def setDiff (tag start len : Int) (aggressive : Bool) (s : Mem) : C Mem :=
  forRange start (start + len) s fun i s => do
    let col ← s.rd .A i
    let (s, th) ← removeDeg col s
    let st ← s.rd .cs col
    let l ← s.rd .cl col
    forRange st (st + l) s (setDiffRow tag th aggressive)

/-- lines 2514-2533: prune the column, sum the set differences, form the hash. -/
def addDiffCol (n tag st len : Int) (s : Mem) : C (Mem × Int × Int × Int) :=
  forRange st (st + len) (s, st, 0, 0) fun i (s, np, hash, score) => do
    let row ← s.rd .A i
    let mark ← s.rd .r2 row
    if mark < 0 then pure (s, np, hash, score) else do
    let s ← s.wr .A np row
    let d ← ck (mark - tag)
    let score ← ck (score + d)
    pure (s, np + 1, (hash + row) % 18446744073709551616, min score n)

/-- lines 2560-2587: put the column in its hash bucket. -/
def pushHash (col hash : Int) (s : Mem) : C Mem := do
  let hc ← s.rd .p hash
  let (s, first) ← (if hc > -1 then do
      let f ← s.rd .c3 hc
      let s ← s.wr .c3 hc col
      pure (s, f)
    else do
      let f ← ck (hc + 2)
      let f ← ck (-f)
      let t ← ck (col + 2)
      let t ← ck (-t)
      let s ← s.wr .p hash t
      pure (s, f))
  let s ← s.wr .c4 col first
  s.wr .c3 col hash

/-- lines 2498-2588: one column of the pivot row; `k` and the degree of the pivot row change when
the column is eliminated along with the pivot column. -/
def addDiffOne (n tag : Int) (i : Int) (z : Mem × Int × Int) : C (Mem × Int × Int) := do
  let (s, k, deg) := z
  let col ← s.rd .A i
  let st ← s.rd .cs col
  let len ← s.rd .cl col
  let (s, np, hash, score) ← addDiffCol n tag st len s
  let s ← s.wr .cl col (np - st)
  if np - st = 0 then do
    let s ← s.wr .cs col (-1)
    let th ← s.rd .c1 col
    let deg ← ck (deg - th)
    let s ← s.wr .c2 col k
    let k ← ck (k + th)
    pure (s, k, deg)
  else do
    let s ← s.wr .c2 col score
    let n1 ← ck (n + 1)
    let s ← pushHash col (hash % n1) s
    pure (s, k, deg)

/-- lines 2490-2589: the new scores of the columns of the pivot row; returns `k` and the degree of
the pivot row. -/
def addDiff (n tag start len k deg : Int) (s : Mem) : C (Mem × Int × Int) :=
  forRange start (start + len) (s, k, deg) (addDiffOne n tag)

/-- lines 2622-2680: finalize the score of a column of the pivot row. -/
def finalizeOne (n k prow deg : Int) (i : Int) (z : Mem × Int × Int) : C (Mem × Int × Int) := do
  let (s, np, ms) := z
  let col ← s.rd .A i
  let st ← s.rd .cs col
  if st < 0 then pure (s, np, ms) else do
  let s ← s.wr .A np col
  let st ← s.rd .cs col
  let len ← s.rd .cl col
  let e ← ck (st + len)
  let s ← s.wr .A e prow
  let len ← ck (len + 1)
  let s ← s.wr .cl col len
  let sc ← s.rd .c2 col
  let cur ← ck (sc + deg)
  let th ← s.rd .c1 col
  let mxs ← ck (n - k)
  let mxs ← ck (mxs - th)
  let cur ← ck (cur - th)
  let score := min cur mxs
  let s ← s.wr .c2 col score
  let s ← insertDeg col score s
  pure (s, np + 1, min ms score)

/-- lines 2616-2681: finalize the scores; returns the end of the pivot row and `min_score`. -/
def finalize (n k prow deg start len ms : Int) (s : Mem) : C (Mem × Int × Int) :=
  forRange start (start + len) (s, start, ms) (finalizeOne n k prow deg)

/-- lines 2687-2698: the pivot row becomes a row of the matrix. -/
def resurrect (prow start stop deg : Int) (s : Mem) : C Mem :=
  if deg > 0 then do
    let s ← s.wr .rs prow start
    let s ← s.wr .rl prow (stop - start)
    let s ← s.wr .r1 prow deg
    s.wr .r2 prow 0
  else pure s

/-- The variables that live from one pivot to the next: lines 2178-2206. -/
structure Ord where
  s : Mem
  k : Int
  ms : Int
  tag : Int
  maxDeg : Int
  pfree : Int

/-- lines 2285-2300: collect the garbage if the pivot row may not fit. -/
def makeRoom (n m Alen maxMark need pf tag : Int) (s : Mem) : C (Mem × Int × Int) := do
  let e ← ck (pf + need)
  if e ≥ Alen then do
    let (s, pf) ← garbage_collection n m pf s
    let (s, tag) ← clear_mark 0 maxMark m s
    pure (s, pf, tag)
  else pure (s, pf, tag)

/-- lines 2225-2700: one pivot. -/
def pivotStep (n m Alen maxMark : Int) (aggressive : Bool) (z : Ord) : C Ord := do
  let ms ← scanMin n (n.toNat + 2) z.ms z.s
  let (s, piv, score, th) ← selectPivot ms z.k z.s
  let k ← ck (z.k + th)
  let d ← ck (n - k)
  let need := min score d
  let (s, pf0, tag) ← makeRoom n m Alen maxMark need z.pfree z.tag s
  let (s, pf, deg) ← buildRow piv th pf0 s
  let maxDeg := max z.maxDeg deg
  let s ← killPivotRows piv s
  let len ← ck (pf - pf0)
  let prow ← pivotRow piv len s
  let s ← setDiff tag pf0 len aggressive s
  let (s, k, deg) ← addDiff n tag pf0 len k deg s
  let s ← detect_super_cols n pf0 len s
  let s ← s.wr .cs piv (-1)
  let tag ← ck (tag + maxDeg)
  let tag ← ck (tag + 1)
  let (s, tag) ← clear_mark tag maxMark m s
  let (s, np, ms) ← finalize n k prow deg pf0 len ms s
  let s ← resurrect prow pf0 np deg s
  pure { s := s, k := k, ms := ms, tag := tag, maxDeg := maxDeg, pfree := pf }

/-- line 2225: `for (k = 0 ; k < n_col2 ; )`. -/
def pivotLoop (n m Alen maxMark n2 : Int) (aggressive : Bool) : Nat → Ord → C Ord
  | 0, _ => .error .fuel
  | fuel + 1, z =>
    if z.k < n2 then do
      let z ← pivotStep n m Alen maxMark aggressive z
      pivotLoop n m Alen maxMark n2 aggressive fuel z
    else pure z

/-- `find_ordering`, lines 2159-2703 (the number of garbage collections is not returned).
`max_mark = INT_MAX - n_col` (line 2215). -/
def find_ordering (n m Alen n2 maxDeg pfree : Int) (aggressive : Bool) (s : Mem) : C Mem := do
  let maxMark ← ck (2147483647 - n)
  let (s, tag) ← clear_mark 0 maxMark m s
  let z ← pivotLoop n m Alen maxMark n2 aggressive (n2.toNat + 1)
    { s := s, k := 0, ms := 0, tag := tag, maxDeg := maxDeg, pfree := pfree }
  pure z.s

/-! ## order_children, colamd.c lines 2724-2789 -/

/-- lines 2755-2759: the principal column that represents column `i`. -/
def findParent (s : Mem) : Nat → (x : Int) → C Int
  | 0, _ => .error .fuel
  | fuel + 1, x => do
    let y ← s.rd .c1 x
    let st ← s.rd .cs y
    if st = -1 then pure y else findParent s fuel y

/-- lines 2766-2777: give positions to the columns from `c` up to one that has a position. -/
def orderUp (parent : Int) : Nat → (c order : Int) → Mem → C (Mem × Int)
  | 0, _, _, _ => .error .fuel
  | fuel + 1, c, order, s => do
    let s ← s.wr .c2 c order
    let s ← s.wr .c1 c parent
    let c ← s.rd .c1 c
    let o ← s.rd .c2 c
    let order ← ck (order + 1)
    if o = -1 then orderUp parent fuel c order s else pure (s, order)

/-- `order_children`, lines 2724-2789. -/
def order_children (n : Int) (s : Mem) : C Mem := do
  let s ← forRange 0 n s fun i s => do
    let st ← s.rd .cs i
    let o ← s.rd .c2 i
    if st ≠ -1 ∧ o = -1 then do
      let parent ← findParent s (n.toNat + 1) i
      let order ← s.rd .c2 parent
      let (s, order) ← orderUp parent (n.toNat + 1) i order s
      s.wr .c2 parent order
    else pure s
  forRange 0 n s fun c s => do
    let o ← s.rd .c2 c
    s.wr .p o c

/-! ## colamd_l, colamd.c lines 1435-1597 -/

/-- The size of the `Col` array in integers: `COLAMD_C`, line 1025 (six integers per record). -/
def colSize (n : Int) : Int := 6 * (n + 1)

/-- The size of the `Row` array in integers: `COLAMD_R`, line 1028 (four integers per record). -/
def rowSize (m : Int) : Int := 4 * (m + 1)

/-- The memory of `colamd`: the first `Alen` elements of `A` are the index space, the records are
not initialised (lines 1541-1565). -/
def initMem (n m Alen : Int) (A p : Arr Int) : Mem
  | .A => A.take Alen.toNat
  | .p => p
  | .cs | .cl | .c1 | .c2 | .c3 | .c4 => malloc Int (n + 1)
  | .rs | .rl | .r1 | .r2 => malloc Int (m + 1)

/-- `colamd_l`, lines 1435-1597, for `A`, `p` and `stats` not NULL; returns the result (TRUE or
FALSE) and the contents of `p`. When `init_rows_cols` fails it has not changed `p`.

The sizes (lines 1541-1550) are computed in `size_t` with `t_add` and `t_mult`, which detect an
overflow; then, as when `need > Int_MAX`, `need` is greater than `Alen`, which is an `Int`, so that
the exact comparison used here gives the same answer. -/
def colamd (n m Alen : Int) (A p : Arr Int) (K : Knobs) : C (Bool × Arr Int) :=
  if m < 0 then pure (false, p) else
  if n < 0 then pure (false, p) else do
  let nnz ← Slip.rd p n
  if nnz < 0 then pure (false, p) else do
  let p0 ← Slip.rd p 0
  if p0 ≠ 0 then pure (false, p) else
  if 2 * nnz + n + colSize n + rowSize m > Alen then pure (false, p) else do
  let Alen := Alen - (colSize n + rowSize m)
  match init_rows_cols n m (initMem n m Alen A p) with
  | .error (.ret _) => pure (false, p)
  | .error e => .error e
  | .ok s => do
    let (s, n2, maxDeg) ← init_scoring n m K s
    let nnz2 ← ck (2 * nnz)
    let s ← find_ordering n m Alen n2 maxDeg nnz2 K.aggressive s
    let s ← order_children n s
    pure (true, s .p)

end Slip.Colamd
