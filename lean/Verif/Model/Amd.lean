import Verif.Model.Arith
import Mathlib.Logic.Function.Basic

/-!
# Model of AMD, the ordering of `A+A'`

/repo/AMD/Source/amd_order.c, amd_valid.c, amd_preprocess.c, amd_aat.c, amd_1.c, amd_2.c,
amd_postorder.c and amd_post_tree.c; `amd_l_order` is called by SLIP_LU_analyze.c line 101.

* The block `S` of `AMD_1` is cut in seven (amd_1.c lines 53-61). Here the seven are separate arrays,
  so an access outside one of them is undefined behaviour in the model even where the C program
  would stay inside the one block.
* Of `Info` only `AMD_STATUS` and `AMD_LNZ` are modelled; `AMD_LNZ` is computed in floating point by
  the program and exactly here. It is at most `n (n-1) / 2` (C43), so for `n ≤ 2^26` all numbers that
  occur in its computation are below 2^53 and the two are the same.
* Every addition, subtraction and negation of `Int`s (`SuiteSparse_long` in the program) goes through
  `ck`: the model is both one of the exact algorithm (`Arith.exact`) and of the program
  (`Arith.bits64`). The increments of `for` loops, and of the `while` loops of amd_aat.c and amd_1.c
  that run from one pointer of the matrix to the next, are not checked: they stop at a bound. Nor are
  the subscripts `j+1` and those that are formed to be used in an access, which checks them.
* `nzaat` and `slen` are `size_t`, whose overflow ends in AMD_OUT_OF_MEMORY like a failure of `malloc`
  (amd_order.c lines 76-81, 149-161), and is not told from it: both are inputs (`Alloc`). `hash` is an
  unsigned 64-bit number.
* `EMPTY` is -1 and `FLIP (i)` is `-i-2` (amd_internal.h lines 105-106).
* The `ASSERT`s and the code under `#ifndef NDEBUG` are not compiled in the library.
-/

namespace Slip.Amd

variable [ar : Arith]

/-- The return values of AMD_order and AMD_valid: AMD_OK, AMD_OK_BUT_JUMBLED, AMD_INVALID,
AMD_OUT_OF_MEMORY.  amd.h lines 359-362. -/
inductive Status
  | ok | jumbled | invalid | oom
  deriving DecidableEq, Repr

/-- `FLIP`, amd_internal.h line 106. -/
def flip (i : Int) : Int := -i - 2

/-! ## AMD_valid, amd_valid.c -/

/-- amd_valid.c lines 72-88: one entry of a column; the state is `ilast` and whether the matrix is
jumbled. -/
def validEntry (m : Int) (Ai : Arr Int) (p : Int) (z : Int × Bool) : C (Int × Bool) := do
  let i ← rd Ai p
  if i < 0 ∨ i ≥ m then .error (.ret .incorrectInput) else
  pure (i, z.2 || decide (i ≤ z.1))

/-- amd_valid.c lines 60-90: all columns; a bad pointer or index ends the function. -/
def validCols (m n : Int) (Ap Ai : Arr Int) : C Bool :=
  forRange 0 n false fun j b => do
    let p1 ← rd Ap j
    let p2 ← rd Ap (j + 1)
    if p1 > p2 then .error (.ret .incorrectInput) else do
    let (_, b) ← forRange p1 p2 (-1, b) (validEntry m Ai)
    pure b

/-- `AMD_valid`, amd_valid.c lines 38-92. -/
def amd_valid (m n : Int) (Ap Ai : Arr Int) : C Status :=
  if m < 0 ∨ n < 0 then pure .invalid else do
  let nz ← rd Ap n
  let p0 ← rd Ap 0
  if p0 ≠ 0 ∨ nz < 0 then pure .invalid else
  match validCols m n Ap Ai with
  | .error (.ret _) => pure .invalid
  | .error e => .error e
  | .ok b => pure (if b then .jumbled else .ok)

/-! ## AMD_preprocess, amd_preprocess.c -/

/-- amd_preprocess.c lines 56-60 -/
def preInit (n : Int) (W Flag : Arr Int) : C (Arr Int × Arr Int) :=
  forRange 0 n (W, Flag) fun i (W, Flag) => do
    let W ← wr W i 0
    let Flag ← wr Flag i (-1)
    pure (W, Flag)

/-- amd_preprocess.c lines 61-74: count the entries of the rows, without duplicates. -/
def preCount (n : Int) (Ap Ai W Flag : Arr Int) : C (Arr Int × Arr Int) :=
  forRange 0 n (W, Flag) fun j (W, Flag) => do
    let p2 ← rd Ap (j + 1)
    let p1 ← rd Ap j
    forRange p1 p2 (W, Flag) fun p (W, Flag) => do
      let i ← rd Ai p
      let f ← rd Flag i
      if f ≠ j then do
        let w ← rd W i
        let w ← ck (w + 1)
        let W ← wr W i w
        let Flag ← wr Flag i j
        pure (W, Flag)
      else pure (W, Flag)

/-- amd_preprocess.c lines 80-84: the row pointers. -/
def prePtr (n : Int) (Rp W : Arr Int) : C (Arr Int) := do
  let Rp ← wr Rp 0 0
  forRange 0 n Rp fun i Rp => do
    let r ← rd Rp i
    let w ← rd W i
    let r ← ck (r + w)
    wr Rp (i + 1) r

/-- amd_preprocess.c lines 85-89 -/
def preReset (n : Int) (Rp W Flag : Arr Int) : C (Arr Int × Arr Int) :=
  forRange 0 n (W, Flag) fun i (W, Flag) => do
    let r ← rd Rp i
    let W ← wr W i r
    let Flag ← wr Flag i (-1)
    pure (W, Flag)

/-- amd_preprocess.c lines 96-109: the row form. -/
def preFill (n : Int) (Ap Ai Ri W Flag : Arr Int) : C (Arr Int × Arr Int × Arr Int) :=
  forRange 0 n (Ri, W, Flag) fun j (Ri, W, Flag) => do
    let p2 ← rd Ap (j + 1)
    let p1 ← rd Ap j
    forRange p1 p2 (Ri, W, Flag) fun p (Ri, W, Flag) => do
      let i ← rd Ai p
      let f ← rd Flag i
      if f ≠ j then do
        let w ← rd W i
        let Ri ← wr Ri w j
        let w ← ck (w + 1)
        let W ← wr W i w
        let Flag ← wr Flag i j
        pure (Ri, W, Flag)
      else pure (Ri, W, Flag)

/-- `AMD_preprocess`, amd_preprocess.c lines 29-118; returns `Rp`, `Ri` and the workspaces. -/
def amd_preprocess (n : Int) (Ap Ai Rp Ri W Flag : Arr Int) :
    C (Arr Int × Arr Int × Arr Int × Arr Int) := do
  let (W, Flag) ← preInit n W Flag
  let (W, Flag) ← preCount n Ap Ai W Flag
  let Rp ← prePtr n Rp W
  let (W, Flag) ← preReset n Rp W Flag
  let (Ri, W, Flag) ← preFill n Ap Ai Ri W Flag
  pure (Rp, Ri, W, Flag)

/-! ## The entries of A+A': the loops common to AMD_aat and AMD_1

AMD_aat (amd_aat.c lines 59-142) and AMD_1 (amd_1.c lines 86-165) visit the entries of `A+A'` with the
same loops. They differ in what is done with a pair `(i,j)`: `Len [i]++ ; Len [j]++` in the one,
`Iw [Sp [i]++] = j ; Iw [Sp [j]++] = i` in the other. This is the parameter `add`. -/

section scan
variable {σ : Type}

/-- amd_aat.c lines 92-122, amd_1.c lines 118-147: scan the lower triangular part of column `j` until
row `k`; returns the new `pj`. -/
def lowScan (Ai : Arr Int) (add : Int → Int → σ → C σ) (k j pj2 : Int) :
    Nat → (pj : Int) → σ → C (σ × Int)
  | 0, _, _ => .error .fuel
  | fuel + 1, pj, s =>
    if pj < pj2 then do
      let i ← rd Ai pj
      if i < k then do
        let s ← add i j s
        lowScan Ai add k j pj2 fuel (pj + 1) s
      else if i = k then pure (s, pj + 1)
      else pure (s, pj)
    else pure (s, pj)

/-- amd_aat.c lines 66-124, amd_1.c lines 93-149: scan the upper triangular part of column `k`;
returns the new `p`. -/
def upScan (Ap Ai : Arr Int) (add : Int → Int → σ → C σ) (k p2 : Int) :
    Nat → (p : Int) → σ → Arr Int → C (σ × Arr Int × Int)
  | 0, _, _, _ => .error .fuel
  | fuel + 1, p, s, Tp =>
    if p < p2 then do
      let j ← rd Ai p
      if j < k then do
        let s ← add j k s
        let pj2 ← rd Ap (j + 1)
        let t ← rd Tp j
        let (s, pj) ← lowScan Ai add k j pj2 ((pj2 - t).toNat + 1) t s
        let Tp ← wr Tp j pj
        upScan Ap Ai add k p2 fuel (p + 1) s Tp
      else if j = k then pure (s, Tp, p + 1)
      else pure (s, Tp, p)
    else pure (s, Tp, p)

/-- amd_aat.c lines 59-127, amd_1.c lines 86-151. -/
def scanUpper (n : Int) (Ap Ai : Arr Int) (add : Int → Int → σ → C σ) (s : σ) (Tp : Arr Int) :
    C (σ × Arr Int) :=
  forRange 0 n (s, Tp) fun k (s, Tp) => do
    let p1 ← rd Ap k
    let p2 ← rd Ap (k + 1)
    let (s, Tp, p) ← upScan Ap Ai add k p2 ((p2 - p1).toNat + 1) p1 s Tp
    let Tp ← wr Tp k p
    pure (s, Tp)

/-- amd_aat.c lines 128-142, amd_1.c lines 152-165: the remaining entries below the diagonal. -/
def scanRest (n : Int) (Ap Ai : Arr Int) (add : Int → Int → σ → C σ) (s : σ) (Tp : Arr Int) : C σ :=
  forRange 0 n s fun j s => do
    let t ← rd Tp j
    let pj2 ← rd Ap (j + 1)
    forRange t pj2 s fun pj s => do
      let i ← rd Ai pj
      add i j s

/-- amd_aat.c lines 59-142, amd_1.c lines 86-165. -/
def scanAAT (n : Int) (Ap Ai : Arr Int) (add : Int → Int → σ → C σ) (s : σ) (Tp : Arr Int) :
    C (σ × Arr Int) := do
  let (s, Tp) ← scanUpper n Ap Ai add s Tp
  let s ← scanRest n Ap Ai add s Tp
  pure (s, Tp)

end scan

/-! ## AMD_aat, amd_aat.c -/

/-- amd_aat.c lines 74-75, 104-105, 137-138: count a pair. -/
def addLen (i j : Int) (Len : Arr Int) : C (Arr Int) := do
  let a ← rd Len i
  let a ← ck (a + 1)
  let Len ← wr Len i a
  let b ← rd Len j
  let b ← ck (b + 1)
  wr Len j b

/-- `AMD_aat`, amd_aat.c lines 20-184, without the statistics; returns `Len`, the workspace `Tp` and
the number of off-diagonal entries of A+A'. -/
def amd_aat (n : Int) (Ap Ai Len Tp : Arr Int) : C (Arr Int × Arr Int × Int) := do
  let Len ← forRange 0 n Len fun k Len => wr Len k 0
  let _ ← rd Ap n
  let (Len, Tp) ← scanAAT n Ap Ai addLen Len Tp
  let nzaat ← forRange 0 n 0 fun k z => do
    let l ← rd Len k
    pure (z + l)
  pure (Len, Tp, nzaat)

/-! ## AMD_2, amd_2.c -/

/-- The arrays of AMD_2: amd_2.c lines 43-63. -/
inductive Fld
  /-- `Iw` -/
  | iw
  /-- `Pe` -/
  | pe
  /-- `Len` -/
  | ln
  /-- `Nv` -/
  | nv
  /-- `Next`, the array `Pinv` of AMD_order -/
  | nx
  /-- `Last`, the array `P` of AMD_order -/
  | la
  /-- `Head` -/
  | hd
  /-- `Elen` -/
  | el
  /-- `Degree` -/
  | dg
  /-- `W` -/
  | w
  deriving DecidableEq, Repr

/-- The memory of AMD_2 (amd_2.c lines 43-63). -/
abbrev Mem := Fld → Arr Int

/-- Read an element (amd_2.c, every access). -/
def Mem.rd (s : Mem) (f : Fld) (i : Int) : C Int := Slip.rd (s f) i

/-- Write an element (amd_2.c, every access). -/
def Mem.wr (s : Mem) (f : Fld) (i v : Int) : C Mem := do
  let a ← Slip.wr (s f) i v
  pure (Function.update s f a)

/-- The parameters: `dense` as computed in floating point on lines 595-604 (arbitrary here), before it
is brought into the range 16..n on lines 605-606, and `aggressive` (lines 584-594). -/
structure Knobs where
  dense : Int
  aggressive : Bool

/-- `clear_flag`, amd_2.c lines 21-34. -/
def clear_flag (wflg wbig n : Int) (s : Mem) : C (Mem × Int) :=
  if wflg < 2 ∨ wflg ≥ wbig then do
    let s ← forRange 0 n s fun x s => do
      let w ← s.rd .w x
      if w ≠ 0 then s.wr .w x 1 else pure s
    pure (s, 2)
  else pure (s, wflg)

/-- amd_2.c lines 610-622: initialise the arrays. -/
def initArrays (n : Int) (s : Mem) : C Mem :=
  forRange 0 n s fun i s => do
    let s ← s.wr .la i (-1)
    let s ← s.wr .hd i (-1)
    let s ← s.wr .nx i (-1)
    let s ← s.wr .nv i 1
    let s ← s.wr .w i 1
    let s ← s.wr .el i 0
    let l ← s.rd .ln i
    s.wr .dg i l

/-- amd_2.c lines 683-687 and 1470-1475: put `i` at the head of the degree list `deg`; `Last [i]` is
EMPTY already the first time and set the second time (line 1474). -/
def insertDeg (i deg : Int) (s : Mem) : C Mem := do
  let inext ← s.rd .hd deg
  let s ← (if inext ≠ -1 then s.wr .la inext i else pure s)
  let s ← s.wr .nx i inext
  s.wr .hd deg i

/-- amd_2.c lines 638-690: the degree lists; empty rows are eliminated, dense rows put aside. Returns
`nel` and `ndense`. -/
def initLists (n dense : Int) (s : Mem) : C (Mem × Int × Int) :=
  forRange 0 n (s, 0, 0) fun i (s, nel, ndense) => do
    let deg ← s.rd .dg i
    if deg = 0 then do
      let s ← s.wr .el i (flip 1)
      let s ← s.wr .pe i (-1)
      let s ← s.wr .w i 0
      let nel ← ck (nel + 1)
      pure (s, nel, ndense)
    else if deg > dense then do
      let s ← s.wr .nv i 0
      let s ← s.wr .el i (-1)
      let s ← s.wr .pe i (-1)
      let nel ← ck (nel + 1)
      let ndense ← ck (ndense + 1)
      pure (s, nel, ndense)
    else do
      let s ← insertDeg i deg s
      pure (s, nel, ndense)

/-- amd_2.c lines 719-724: the pivot of minimum degree; returns `deg` and `me`. If all lists are empty
the result is `n` and EMPTY. -/
def scanMin (n : Int) : Nat → (deg : Int) → Mem → C (Int × Int)
  | 0, _, _ => .error .fuel
  | fuel + 1, deg, s =>
    if deg < n then do
      let me ← s.rd .hd deg
      if me ≠ -1 then pure (deg, me) else scanMin n fuel (deg + 1) s
    else pure (deg, -1)

/-- amd_2.c lines 732-760: take `me` off its list; returns `elenme` and `nvpiv`. -/
def selectPivot (deg me : Int) (s : Mem) : C (Mem × Int × Int) := do
  let inext ← s.rd .nx me
  let s ← (if inext ≠ -1 then s.wr .la inext (-1) else pure s)
  let s ← s.wr .hd deg inext
  let elenme ← s.rd .el me
  let nvpiv ← s.rd .nv me
  let nvneg ← ck (-nvpiv)
  let s ← s.wr .nv me nvneg
  pure (s, elenme, nvpiv)

/-- amd_2.c lines 796-809 and 955-968: take `i` off its degree list. -/
def removeDeg (i : Int) (s : Mem) : C Mem := do
  let ilast ← s.rd .la i
  let inext ← s.rd .nx i
  let s ← (if inext ≠ -1 then s.wr .la inext ilast else pure s)
  if ilast ≠ -1 then s.wr .nx ilast inext
  else do
    let d ← s.rd .dg i
    s.wr .hd d inext

/-- amd_2.c lines 764-812: construct the new element in place; returns `pme1`, `pme2+1` and `degme`. -/
def buildInPlace (me : Int) (s : Mem) : C (Mem × Int × Int × Int) := do
  let pme1 ← s.rd .pe me
  let len ← s.rd .ln me
  let pend ← ck (pme1 + len)
  let (s, q, degme) ← forRange pme1 pend (s, pme1, 0) fun p (s, q, degme) => do
    let i ← s.rd .iw p
    let nvi ← s.rd .nv i
    if nvi > 0 then do
      let degme ← ck (degme + nvi)
      let nvneg ← ck (-nvi)
      let s ← s.wr .nv i nvneg
      let q' ← ck (q + 1)
      let s ← s.wr .iw q i
      let s ← removeDeg i s
      pure (s, q', degme)
    else pure (s, q, degme)
  pure (s, pme1, q, degme)

/-- amd_2.c lines 891-902: store the first entry of each object in Pe, FLIP it in Iw. -/
def gcMark (n : Int) (s : Mem) : C Mem :=
  forRange 0 n s fun j s => do
    let pn ← s.rd .pe j
    if pn ≥ 0 then do
      let v ← s.rd .iw pn
      let s ← s.wr .pe j v
      let f ← ck (flip j)
      s.wr .iw pn f
    else pure s

/-- amd_2.c lines 904-925: move the objects; returns `pdst`. -/
def gcMove (pend : Int) : Nat → (psrc pdst : Int) → Mem → C (Mem × Int)
  | 0, _, _, _ => .error .fuel
  | fuel + 1, psrc, pdst, s =>
    if psrc ≤ pend then do
      let v ← s.rd .iw psrc
      let psrc ← ck (psrc + 1)
      let j ← ck (flip v)
      if j ≥ 0 then do
        let a ← s.rd .pe j
        let s ← s.wr .iw pdst a
        let s ← s.wr .pe j pdst
        let pdst ← ck (pdst + 1)
        let lenj ← s.rd .ln j
        let last ← ck (lenj - 2)
        let (s, psrc, pdst) ← forRange 0 (last + 1) (s, psrc, pdst) fun _ (s, psrc, pdst) => do
          let x ← s.rd .iw psrc
          let s ← s.wr .iw pdst x
          let psrc ← ck (psrc + 1)
          let pdst ← ck (pdst + 1)
          pure (s, psrc, pdst)
        gcMove pend fuel psrc pdst s
      else gcMove pend fuel psrc pdst s
    else pure (s, pdst)

/-- The pointers that the garbage collection moves: amd_2.c lines 821-937. -/
structure Ptrs where
  p : Int
  pj : Int
  pme1 : Int
  pfree : Int

/-- amd_2.c lines 870-938: compress Iw. -/
def garbage (n me e knt1 knt2 ln : Int) (z : Ptrs) (s : Mem) : C (Mem × Ptrs) := do
  let s ← s.wr .pe me z.p
  let l ← s.rd .ln me
  let l ← ck (l - knt1)
  let s ← s.wr .ln me l
  let l ← s.rd .ln me
  let s ← (if l = 0 then s.wr .pe me (-1) else pure s)
  let s ← s.wr .pe e z.pj
  let l ← ck (ln - knt2)
  let s ← s.wr .ln e l
  let l ← s.rd .ln e
  let s ← (if l = 0 then s.wr .pe e (-1) else pure s)
  let s ← gcMark n s
  let pend ← ck (z.pme1 - 1)
  let (s, pdst) ← gcMove pend (z.pme1.toNat + 1) 0 0 s
  let p1 := pdst
  let (s, pdst) ← forRange z.pme1 z.pfree (s, pdst) fun psrc (s, pdst) => do
    let x ← s.rd .iw psrc
    let s ← s.wr .iw pdst x
    let pdst ← ck (pdst + 1)
    pure (s, pdst)
  let pj ← s.rd .pe e
  let p ← s.rd .pe me
  pure (s, { p := p, pj := pj, pme1 := p1, pfree := pdst })

/-- amd_2.c lines 855-971: the search of one list. -/
def buildInner (n iwlen me e knt1 ln : Int) (z : Mem × Ptrs × Int) : C (Mem × Ptrs × Int) :=
  forRange 1 (ln + 1) z fun knt2 (s, z, degme) => do
    let i ← s.rd .iw z.pj
    let pj ← ck (z.pj + 1)
    let z := { z with pj := pj }
    let nvi ← s.rd .nv i
    if nvi > 0 then do
      let (s, z) ← (if z.pfree ≥ iwlen then garbage n me e knt1 knt2 ln z s else pure (s, z))
      let degme ← ck (degme + nvi)
      let nvneg ← ck (-nvi)
      let s ← s.wr .nv i nvneg
      let pfree ← ck (z.pfree + 1)
      let s ← s.wr .iw z.pfree i
      let s ← removeDeg i s
      pure (s, { z with pfree := pfree }, degme)
    else pure (s, z, degme)

/-- amd_2.c lines 813-984: construct the new element in empty space; returns `pme1`, `pfree` and
`degme`. -/
def buildNew (n iwlen me elenme pfree : Int) (s : Mem) : C (Mem × Int × Int × Int) := do
  let p ← s.rd .pe me
  let l ← s.rd .ln me
  let slenme ← ck (l - elenme)
  let kend ← ck (elenme + 1)
  let (s, z, degme) ← forRange 1 (kend + 1)
      (s, { p := p, pj := 0, pme1 := pfree, pfree := pfree : Ptrs }, 0) fun knt1 (s, z, degme) => do
    if knt1 > elenme then
      buildInner n iwlen me me knt1 slenme (s, { z with pj := z.p }, degme)
    else do
      let e ← s.rd .iw z.p
      let p ← ck (z.p + 1)
      let z := { z with p := p }
      let pj ← s.rd .pe e
      let ln ← s.rd .ln e
      let (s, z, degme) ← buildInner n iwlen me e knt1 ln (s, { z with pj := pj }, degme)
      if e ≠ me then do
        let f ← ck (flip me)
        let s ← s.wr .pe e f
        let s ← s.wr .w e 0
        pure (s, z, degme)
      else pure (s, z, degme)
  pure (s, z.pme1, z.pfree, degme)

/-- amd_2.c lines 1047-1065: scan 1 for the elements of one variable. -/
def scan1Elems (wflg nvi p eln : Int) (s : Mem) : C Mem := do
  let wnvi ← ck (wflg - nvi)
  let pend ← ck (p + eln)
  forRange p pend s fun p s => do
    let e ← s.rd .iw p
    let we ← s.rd .w e
    if we ≥ wflg then do
      let we ← ck (we - nvi)
      s.wr .w e we
    else if we ≠ 0 then do
      let d ← s.rd .dg e
      let we ← ck (d + wnvi)
      s.wr .w e we
    else s.wr .w e we

/-- amd_2.c lines 1035-1068: scan 1. -/
def scan1 (wflg pme1 pme2 : Int) (s : Mem) : C Mem :=
  forRange pme1 (pme2 + 1) s fun pme s => do
    let i ← s.rd .iw pme
    let eln ← s.rd .el i
    if eln > 0 then do
      let nv ← s.rd .nv i
      let nvi ← ck (-nv)
      let p ← s.rd .pe i
      scan1Elems wflg nvi p eln s
    else pure s

/-- amd_2.c lines 1099-1148: scan 2 for the elements of one variable; returns `pn`, `deg`, `hash`. -/
def scan2Elems (aggressive : Bool) (me wflg p1 p2 : Int) (s : Mem) : C (Mem × Int × Int × Int) :=
  forRange p1 (p2 + 1) (s, p1, 0, 0) fun p (s, pn, deg, hash) => do
    let e ← s.rd .iw p
    let we ← s.rd .w e
    if we ≠ 0 then do
      let dext ← ck (we - wflg)
      if aggressive && decide (¬ dext > 0) then do
        let f ← ck (flip me)
        let s ← s.wr .pe e f
        let s ← s.wr .w e 0
        pure (s, pn, deg, hash)
      else do
        let deg ← ck (deg + dext)
        let s ← s.wr .iw pn e
        let pn ← ck (pn + 1)
        pure (s, pn, deg, (hash + e) % 18446744073709551616)
    else pure (s, pn, deg, hash)

/-- amd_2.c lines 1162-1177: scan 2 for the variables of one variable; returns `pn`, `deg`, `hash`. -/
def scan2Vars (p p4 : Int) (z : Mem × Int × Int × Int) : C (Mem × Int × Int × Int) :=
  forRange p p4 z fun p (s, pn, deg, hash) => do
    let j ← s.rd .iw p
    let nvj ← s.rd .nv j
    if nvj > 0 then do
      let deg ← ck (deg + nvj)
      let s ← s.wr .iw pn j
      let pn ← ck (pn + 1)
      pure (s, pn, deg, (hash + j) % 18446744073709551616)
    else pure (s, pn, deg, hash)

/-- amd_2.c lines 1261-1282: put `i` in its hash bucket. -/
def pushHash (i hash : Int) (s : Mem) : C Mem := do
  let j ← s.rd .hd hash
  let s ← (if j ≤ -1 then do
      let f ← ck (flip j)
      let s ← s.wr .nx i f
      let f ← ck (flip i)
      s.wr .hd hash f
    else do
      let l ← s.rd .la j
      let s ← s.wr .nx i l
      s.wr .la j i)
  s.wr .la i hash

/-- The variables that scan 2 changes: amd_2.c lines 1084-1284. -/
structure Sc2 where
  s : Mem
  degme : Int
  nvpiv : Int
  nel : Int

/-- amd_2.c lines 1216-1223: mass elimination of `i`. -/
def massElim (me i : Int) (z : Sc2) : C Sc2 := do
  let f ← ck (flip me)
  let s ← z.s.wr .pe i f
  let nv ← s.rd .nv i
  let nvi ← ck (-nv)
  let degme ← ck (z.degme - nvi)
  let nvpiv ← ck (z.nvpiv + nvi)
  let nel ← ck (z.nel + nvi)
  let s ← s.wr .nv i 0
  let s ← s.wr .el i (-1)
  pure { s := s, degme := degme, nvpiv := nvpiv, nel := nel }

/-- amd_2.c lines 1235-1282: the new degree and list of `i`, which is put in its hash bucket. -/
def updateVar (n me i p1 p3 pn deg hash : Int) (s : Mem) : C Mem := do
  let d ← s.rd .dg i
  let s ← s.wr .dg i (min d deg)
  let x ← s.rd .iw p3
  let s ← s.wr .iw pn x
  let x ← s.rd .iw p1
  let s ← s.wr .iw p3 x
  let s ← s.wr .iw p1 me
  let l ← ck (pn - p1)
  let l ← ck (l + 1)
  let s ← s.wr .ln i l
  pushHash i (hash % n) s

/-- amd_2.c lines 1084-1284: scan 2 for one variable of the new element. -/
def scan2One (n : Int) (aggressive : Bool) (me wflg : Int) (pme : Int) (z : Sc2) : C Sc2 := do
  let i ← z.s.rd .iw pme
  let p1 ← z.s.rd .pe i
  let eln ← z.s.rd .el i
  let p2 ← ck (p1 + eln)
  let p2 ← ck (p2 - 1)
  let (s, pn, deg, hash) ← scan2Elems aggressive me wflg p1 p2 z.s
  let l ← ck (pn - p1)
  let l ← ck (l + 1)
  let s ← s.wr .el i l
  let p3 := pn
  let len ← s.rd .ln i
  let p4 ← ck (p1 + len)
  let (s, pn, deg, hash) ← scan2Vars (p2 + 1) p4 (s, pn, deg, hash)
  let eln ← s.rd .el i
  if eln = 1 ∧ p3 = pn then massElim me i { z with s := s }
  else do
    let s ← updateVar n me i p1 p3 pn deg hash s
    pure { z with s := s }

/-- amd_2.c lines 1084-1284: scan 2. -/
def scan2 (n : Int) (aggressive : Bool) (me wflg pme1 pme2 : Int) (z : Sc2) : C Sc2 :=
  forRange pme1 (pme2 + 1) z (scan2One n aggressive me wflg)

/-- amd_2.c lines 1364-1368: scatter `i` into W. -/
def scatter (wflg p ln : Int) (s : Mem) : C Mem := do
  let p1 ← ck (p + 1)
  let p2 ← ck (p + ln)
  forRange p1 p2 s fun p s => do
    let x ← s.rd .iw p
    s.wr .w x wflg

/-- amd_2.c lines 1390-1395: are all entries of `j` (but the first) flagged? -/
def compare (wflg : Int) (s : Mem) : Nat → (p : Int) → C Bool
  | 0, _ => pure true
  | m + 1, p => do
    let x ← s.rd .iw p
    let w ← s.rd .w x
    if w ≠ wflg then pure false else compare wflg s m (p + 1)

/-- amd_2.c lines 1374-1425: try to absorb the variables after `i` in the bucket into `i`. -/
def superInner (wflg i ln eln : Int) : Nat → (jlast j : Int) → Mem → C Mem
  | 0, _, _, _ => .error .fuel
  | fuel + 1, jlast, j, s =>
    if j ≠ -1 then do
      let lj ← s.rd .ln j
      let ej ← s.rd .el j
      let pj ← s.rd .pe j
      let p1 ← ck (pj + 1)
      let ok ← (if lj = ln ∧ ej = eln then do
          let p2 ← ck (pj + ln)
          compare wflg s (p2 - p1).toNat p1
        else pure false)
      if ok then do
        let f ← ck (flip i)
        let s ← s.wr .pe j f
        let a ← s.rd .nv i
        let b ← s.rd .nv j
        let a ← ck (a + b)
        let s ← s.wr .nv i a
        let s ← s.wr .nv j 0
        let s ← s.wr .el j (-1)
        let j ← s.rd .nx j
        let s ← s.wr .nx jlast j
        superInner wflg i ln eln fuel jlast j s
      else do
        let j' ← s.rd .nx j
        superInner wflg i ln eln fuel j j' s
    else pure s

/-- amd_2.c lines 1350-1435: the variables of one bucket; returns `wflg`. -/
def superOuter (ifuel : Nat) : Nat → (i wflg : Int) → Mem → C (Mem × Int)
  | 0, _, _, _ => .error .fuel
  | fuel + 1, i, wflg, s =>
    if i ≠ -1 then do
      let j ← s.rd .nx i
      if j ≠ -1 then do
        let ln ← s.rd .ln i
        let eln ← s.rd .el i
        let p ← s.rd .pe i
        let s ← scatter wflg p ln s
        let s ← superInner wflg i ln eln ifuel i j s
        let wflg ← ck (wflg + 1)
        let i ← s.rd .nx i
        superOuter ifuel fuel i wflg s
      else pure (s, wflg)
    else pure (s, wflg)

/-- amd_2.c lines 1322-1340: the head of the hash bucket, which is emptied. -/
def takeBucket (hash : Int) (s : Mem) : C (Mem × Int) := do
  let j ← s.rd .hd hash
  if j = -1 then pure (s, -1)
  else if j < -1 then do
    let i ← ck (flip j)
    let s ← s.wr .hd hash (-1)
    pure (s, i)
  else do
    let i ← s.rd .la j
    let s ← s.wr .la j (-1)
    pure (s, i)

/-- amd_2.c lines 1303-1437: supervariable detection for one variable of the new element. -/
def detectOne (n pme : Int) (z : Mem × Int) : C (Mem × Int) := do
  let (s, wflg) := z
  let i ← s.rd .iw pme
  let nv ← s.rd .nv i
  if nv < 0 then do
    let hash ← s.rd .la i
    let (s, i) ← takeBucket hash s
    superOuter (n.toNat + 1) (n.toNat + 1) i wflg s
  else pure (s, wflg)

/-- amd_2.c lines 1303-1437: supervariable detection; returns `wflg`. -/
def detect (n pme1 pme2 wflg : Int) (s : Mem) : C (Mem × Int) :=
  forRange pme1 (pme2 + 1) (s, wflg) (detectOne n)

/-- amd_2.c lines 1444-1490: restore the degree lists, compress the element; returns the end of the
element and `mindeg`. -/
def restore (n nel degme pme1 pme2 mindeg : Int) (s : Mem) : C (Mem × Int × Int) := do
  let nleft ← ck (n - nel)
  forRange pme1 (pme2 + 1) (s, pme1, mindeg) fun pme (s, p, mindeg) => do
    let i ← s.rd .iw pme
    let nv ← s.rd .nv i
    let nvi ← ck (-nv)
    if nvi > 0 then do
      let s ← s.wr .nv i nvi
      let d ← s.rd .dg i
      let d1 ← ck (d + degme)
      let d1 ← ck (d1 - nvi)
      let d2 ← ck (nleft - nvi)
      let deg := min d1 d2
      let s ← insertDeg i deg s
      let s ← s.wr .la i (-1)
      let s ← s.wr .dg i deg
      let p' ← ck (p + 1)
      let s ← s.wr .iw p i
      pure (s, p', min mindeg deg)
    else pure (s, p, mindeg)

/-- amd_2.c lines 1499-1514: finalize the new element; returns `pfree`. -/
def finalize (me nvpiv elenme pme1 p pfree : Int) (s : Mem) : C (Mem × Int) := do
  let s ← s.wr .nv me nvpiv
  let l ← ck (p - pme1)
  let s ← s.wr .ln me l
  let l ← s.rd .ln me
  let s ← (if l = 0 then do
      let s ← s.wr .pe me (-1)
      s.wr .w me 0
    else pure s)
  pure (s, if elenme ≠ 0 then p else pfree)

/-- The variables that live from one pivot to the next: amd_2.c lines 461-464. -/
structure Ord where
  s : Mem
  nel : Int
  mindeg : Int
  wflg : Int
  lemax : Int
  pfree : Int
  lnz : Int

/-- amd_2.c lines 764-984: construct the new element; returns `pme1`, `pme2+1`, `degme` and `pfree`. -/
def build (n iwlen me elenme pfree : Int) (s : Mem) : C (Mem × Int × Int × Int × Int) :=
  if elenme = 0 then do
    let (s, pme1, q, degme) ← buildInPlace me s
    pure (s, pme1, q, degme, pfree)
  else do
    let (s, pme1, pfree, degme) ← buildNew n iwlen me elenme pfree s
    pure (s, pme1, pfree, degme, pfree)

/-- amd_2.c lines 991-996: the new element. -/
def newElement (me pme1 q degme nvpiv : Int) (s : Mem) : C Mem := do
  let s ← s.wr .dg me degme
  let s ← s.wr .pe me pme1
  let l ← ck (q - pme1)
  let s ← s.wr .ln me l
  let d ← ck (nvpiv + degme)
  let f ← ck (flip d)
  s.wr .el me f

/-- amd_2.c lines 698-1553: one pivot. `q` is `pme2+1`. -/
def pivotStep (n iwlen wbig ndense : Int) (aggressive : Bool) (z : Ord) : C Ord := do
  let (deg, me) ← scanMin n (n.toNat + 2) z.mindeg z.s
  let (s, elenme, nvpiv) ← selectPivot deg me z.s
  let nel ← ck (z.nel + nvpiv)
  let (s, pme1, q, degme, pfree) ← build n iwlen me elenme z.pfree s
  let s ← newElement me pme1 q degme nvpiv s
  let pme2 ← ck (q - 1)
  let (s, wflg) ← clear_flag z.wflg wbig n s
  let s ← scan1 wflg pme1 pme2 s
  let y ← scan2 n aggressive me wflg pme1 pme2 { s := s, degme := degme, nvpiv := nvpiv, nel := nel }
  let s ← y.s.wr .dg me y.degme
  let lemax := max z.lemax y.degme
  let wflg ← ck (wflg + lemax)
  let (s, wflg) ← clear_flag wflg wbig n s
  let (s, wflg) ← detect n pme1 pme2 wflg s
  let (s, p, mindeg) ← restore n y.nel y.degme pme1 pme2 deg s
  let (s, pfree) ← finalize me y.nvpiv elenme pme1 p pfree s
  let f := y.nvpiv
  let r := y.degme + ndense
  pure { s := s, nel := y.nel, mindeg := mindeg, wflg := wflg, lemax := lemax, pfree := pfree,
         lnz := z.lnz + (f * r + (f - 1) * f / 2) }

/-- amd_2.c line 698: `while (nel < n)`. -/
def pivotLoop (n iwlen wbig ndense : Int) (aggressive : Bool) : Nat → Ord → C Ord
  | 0, _ => .error .fuel
  | fuel + 1, z =>
    if z.nel < n then do
      let z ← pivotStep n iwlen wbig ndense aggressive z
      pivotLoop n iwlen wbig ndense aggressive fuel z
    else pure z

/-- amd_2.c lines 1633-1643: restore Pe and Elen. -/
def unflip (n : Int) (s : Mem) : C Mem := do
  let s ← forRange 0 n s fun i s => do
    let v ← s.rd .pe i
    let f ← ck (flip v)
    s.wr .pe i f
  forRange 0 n s fun i s => do
    let v ← s.rd .el i
    let f ← ck (flip v)
    s.wr .el i f

/-- amd_2.c lines 1731-1740: the element that represents the variable `j`. -/
def findElem (s : Mem) : Nat → (j : Int) → C Int
  | 0, _ => .error .fuel
  | fuel + 1, j => do
    let nv ← s.rd .nv j
    if nv = 0 then do
      let j ← s.rd .pe j
      findElem s fuel j
    else pure j

/-- amd_2.c lines 1749-1758: all nodes of the path from `j` point to `e`. -/
def compress (e : Int) : Nat → (j : Int) → Mem → C Mem
  | 0, _, _ => .error .fuel
  | fuel + 1, j, s => do
    let nv ← s.rd .nv j
    if nv = 0 then do
      let jnext ← s.rd .pe j
      let s ← s.wr .pe j e
      compress e fuel jnext s
    else pure s

/-- amd_2.c lines 1708-1760: compress the paths of the variables. -/
def compressAll (n : Int) (s : Mem) : C Mem :=
  forRange 0 n s fun i s => do
    let nv ← s.rd .nv i
    if nv = 0 then do
      let j ← s.rd .pe i
      if j = -1 then pure s else do
      let e ← findElem s (n.toNat + 1) j
      compress e (n.toNat + 1) i s
    else pure s

/-! ## AMD_postorder and AMD_post_tree

Called with `Parent = Pe`, `Fsize = Elen`, `Order = W`, `Child = Head`, `Sibling = Next` and
`Stack = Last` (amd_2.c lines 1766-1768). -/

/-- amd_postorder.c lines 35-39 -/
def postInit (n : Int) (s : Mem) : C Mem :=
  forRange 0 n s fun j s => do
    let s ← s.wr .hd j (-1)
    s.wr .nx j (-1)

/-- amd_postorder.c lines 45-58: place the children in lists. -/
def postChildren (n : Int) (s : Mem) : C Mem :=
  forDown 0 n s fun j s => do
    let nv ← s.rd .nv j
    if nv > 0 then do
      let parent ← s.rd .pe j
      if parent ≠ -1 then do
        let c ← s.rd .hd parent
        let s ← s.wr .nx j c
        s.wr .hd parent j
      else pure s
    else pure s

/-- The variables of the search for the biggest child: amd_postorder.c lines 121-138. -/
structure Big where
  fprev : Int
  maxfr : Int
  bigfprev : Int
  bigf : Int

/-- amd_postorder.c lines 125-137: find the biggest child. -/
def findBig (s : Mem) : Nat → (f : Int) → Big → C Big
  | 0, _, _ => .error .fuel
  | fuel + 1, f, b =>
    if f ≠ -1 then do
      let fr ← s.rd .el f
      let b := if fr ≥ b.maxfr then { b with maxfr := fr, bigfprev := b.fprev, bigf := f } else b
      let b := { b with fprev := f }
      let f ← s.rd .nx f
      findBig s fuel f b
    else pure b

/-- amd_postorder.c lines 140-165: move the biggest child to the end. -/
def moveBig (i : Int) (b : Big) (s : Mem) : C Mem := do
  let fnext ← s.rd .nx b.bigf
  if fnext ≠ -1 then do
    let s ← (if b.bigfprev = -1 then s.wr .hd i fnext else s.wr .nx b.bigfprev fnext)
    let s ← s.wr .nx b.bigf (-1)
    s.wr .nx b.fprev b.bigf
  else pure s

/-- amd_postorder.c lines 100-181: the biggest child comes last in each list. -/
def postBig (n : Int) (s : Mem) : C Mem :=
  forRange 0 n s fun i s => do
    let nv ← s.rd .nv i
    if nv > 0 then do
      let c ← s.rd .hd i
      if c ≠ -1 then do
        let b ← findBig s (n.toNat + 1) c { fprev := -1, maxfr := -1, bigfprev := -1, bigf := -1 }
        moveBig i b s
      else pure s
    else pure s

/-- amd_post_tree.c lines 76-81: count the children. -/
def countChildren (s : Mem) : Nat → (f head : Int) → C Int
  | 0, _, _ => .error .fuel
  | fuel + 1, f, head =>
    if f ≠ -1 then do
      let head ← ck (head + 1)
      let f ← s.rd .nx f
      countChildren s fuel f head
    else pure head

/-- amd_post_tree.c lines 82-90: push the children. -/
def pushChildren : Nat → (f h : Int) → Mem → C Mem
  | 0, _, _, _ => .error .fuel
  | fuel + 1, f, h, s =>
    if f ≠ -1 then do
      let s ← s.wr .la h f
      let h ← ck (h - 1)
      let f ← s.rd .nx f
      pushChildren fuel f h s
    else pure s

/-- amd_post_tree.c lines 62-118: `while (head >= 0)`; returns `k`. -/
def postLoop (n : Int) : Nat → (head k : Int) → Mem → C (Mem × Int)
  | 0, _, _, _ => .error .fuel
  | fuel + 1, head, k, s =>
    if head ≥ 0 then do
      let i ← s.rd .la head
      let c ← s.rd .hd i
      if c ≠ -1 then do
        let head ← countChildren s (n.toNat + 1) c head
        let s ← pushChildren (n.toNat + 1) c head s
        let s ← s.wr .hd i (-1)
        postLoop n fuel head k s
      else do
        let head ← ck (head - 1)
        let k' ← ck (k + 1)
        let s ← s.wr .w i k
        postLoop n fuel head k' s
    else pure (s, k)

/-- `AMD_post_tree`, amd_post_tree.c lines 15-120. -/
def post_tree (n root k : Int) (s : Mem) : C (Mem × Int) := do
  let s ← s.wr .la 0 root
  postLoop n (2 * n.toNat + 2) 0 k s

/-- `AMD_postorder`, amd_postorder.c lines 15-206. -/
def postorder (n : Int) (s : Mem) : C Mem := do
  let s ← postInit n s
  let s ← postChildren n s
  let s ← postBig n s
  let s ← forRange 0 n s fun i s => s.wr .w i (-1)
  let (s, _) ← forRange 0 n (s, 0) fun i (s, k) => do
    let par ← s.rd .pe i
    let nv ← s.rd .nv i
    if par = -1 ∧ nv > 0 then post_tree n i k s else pure (s, k)
  pure s

/-! ## The output of AMD_2 -/

/-- amd_2.c lines 1778-1792: the inverse of the order of the elements. -/
def invOrder (n : Int) (s : Mem) : C Mem := do
  let s ← forRange 0 n s fun k s => do
    let s ← s.wr .hd k (-1)
    s.wr .nx k (-1)
  forRange 0 n s fun e s => do
    let k ← s.rd .w e
    if k ≠ -1 then s.wr .hd k e else pure s

/-- amd_2.c lines 1796-1804: the position of the elements; returns `nel`. -/
def placeElems (n : Int) : Nat → (k nel : Int) → Mem → C (Mem × Int)
  | 0, _, _, _ => .error .fuel
  | fuel + 1, k, nel, s =>
    if k < n then do
      let e ← s.rd .hd k
      if e = -1 then pure (s, nel) else do
      let s ← s.wr .nx e nel
      let nv ← s.rd .nv e
      let nel ← ck (nel + nv)
      placeElems n fuel (k + 1) nel s
    else pure (s, nel)

/-- amd_2.c lines 1807-1832: the position of the other variables. -/
def placeVars (n nel : Int) (s : Mem) : C (Mem × Int) :=
  forRange 0 n (s, nel) fun i (s, nel) => do
    let nv ← s.rd .nv i
    if nv = 0 then do
      let e ← s.rd .pe i
      if e ≠ -1 then do
        let v ← s.rd .nx e
        let s ← s.wr .nx i v
        let v ← s.rd .nx e
        let v ← ck (v + 1)
        let s ← s.wr .nx e v
        pure (s, nel)
      else do
        let s ← s.wr .nx i nel
        let nel ← ck (nel + 1)
        pure (s, nel)
    else pure (s, nel)

/-- amd_2.c lines 1835-1841: the permutation. -/
def output (n : Int) (s : Mem) : C Mem :=
  forRange 0 n s fun i s => do
    let k ← s.rd .nx i
    s.wr .la k i

/-- amd_2.c lines 1633-1842: everything after the selection of the pivots. -/
def finish (n : Int) (s : Mem) : C Mem := do
  let s ← unflip n s
  let s ← compressAll n s
  let s ← postorder n s
  let s ← invOrder n s
  let (s, nel) ← placeElems n (n.toNat + 1) 0 0 s
  let (s, _) ← placeVars n nel s
  output n s

/-- `AMD_2`, amd_2.c lines 41-1842; returns the memory and `Info [AMD_LNZ]`. `Int_MAX` is
`SuiteSparse_long_max` (amd_internal.h line 157). -/
def amd_2 (n iwlen pfree : Int) (K : Knobs) (s : Mem) : C (Mem × Int) := do
  let dense := min n (max 16 K.dense)
  let s ← initArrays n s
  let wbig ← ck (9223372036854775807 - n)
  let (s, wflg) ← clear_flag 0 wbig n s
  let (s, nel, ndense) ← initLists n dense s
  let z ← pivotLoop n iwlen wbig ndense K.aggressive (n.toNat + 1)
    { s := s, nel := nel, mindeg := 0, wflg := wflg, lemax := 0, pfree := pfree, lnz := 0 }
  let lnz := z.lnz + (ndense - 1) * ndense / 2
  let s ← finish n z.s
  pure (s, lnz)

/-! ## AMD_1, amd_1.c -/

/-- amd_1.c lines 66-74: the pointers of A+A'; returns `Pe`, `Sp` and `pfree`. -/
def aatPtr (n : Int) (Len : Arr Int) : C (Arr Int × Arr Int × Int) :=
  forRange 0 n (malloc Int n, malloc Int n, 0) fun j (Pe, Sp, pfree) => do
    let Pe ← wr Pe j pfree
    let Sp ← wr Sp j pfree
    let l ← rd Len j
    let pfree ← ck (pfree + l)
    pure (Pe, Sp, pfree)

/-- amd_1.c lines 102-103, 132-133, 162-163: store a pair; the state is `Iw` and `Sp`. -/
def addIw (i j : Int) (z : Arr Int × Arr Int) : C (Arr Int × Arr Int) := do
  let (Iw, Sp) := z
  let a ← rd Sp i
  let Iw ← wr Iw a j
  let a ← ck (a + 1)
  let Sp ← wr Sp i a
  let b ← rd Sp j
  let Iw ← wr Iw b i
  let b ← ck (b + 1)
  let Sp ← wr Sp j b
  pure (Iw, Sp)

/-- The memory of AMD_2 when it is called by AMD_1 (amd_1.c lines 53-67, 178-179): `Nv` and `W` were used as
workspaces `Sp`, `Tp`. -/
def initMem (n : Int) (Iw Pe Len Sp Tp Pinv P : Arr Int) : Mem
  | .iw => Iw
  | .pe => Pe
  | .ln => Len
  | .nv => Sp
  | .nx => Pinv
  | .la => P
  | .w => Tp
  | .hd | .el | .dg => malloc Int n

/-- `AMD_1`, amd_1.c lines 29-180; returns `P` and `Info [AMD_LNZ]`. -/
def amd_1 (n : Int) (Ap Ai P Pinv Len : Arr Int) (slen : Int) (K : Knobs) : C (Arr Int × Int) := do
  let n6 ← ck (6 * n)
  let iwlen ← ck (slen - n6)
  let (Pe, Sp, pfree) ← aatPtr n Len
  let ((Iw, Sp), Tp) ← scanAAT n Ap Ai addIw (malloc Int iwlen, Sp) (malloc Int n)
  let (s, lnz) ← amd_2 n iwlen pfree K (initMem n Iw Pe Len Sp Tp Pinv P)
  pure (s .la, lnz)

/-! ## AMD_order, amd_order.c -/

/-- Whether the allocations of AMD_order succeed: `Len` and `Pinv` (amd_order.c lines 91-103), `Rp` and
`Ri` (lines 109-122), `S` (lines 149-175). -/
structure Alloc where
  w : Bool
  r : Bool
  s : Bool
  deriving DecidableEq, Repr

/-- `AMD_order`, amd_order.c lines 21-199, for `Ap`, `Ai`, `P`, `Control` and `Info` not NULL; returns the
status, `P` and `Info [AMD_LNZ]` (EMPTY unless AMD_2 is called). -/
def amd_order (n : Int) (Ap Ai P : Arr Int) (M : Alloc) (K : Knobs) : C (Status × Arr Int × Int) :=
  if n < 0 then pure (.invalid, P, -1) else
  if n = 0 then pure (.ok, P, -1) else do
  let nz ← rd Ap n
  if nz < 0 then pure (.invalid, P, -1) else do
  let status ← amd_valid n n Ap Ai
  if status = .invalid then pure (.invalid, P, -1) else
  if !M.w then pure (.oom, P, -1) else
  if status = .jumbled ∧ !M.r then pure (.oom, P, -1) else do
  let Len := malloc Int n
  let Pinv := malloc Int n
  let (Cp, Ci, Len, Pinv) ← (if status = .jumbled then
      amd_preprocess n Ap Ai (malloc Int (n + 1)) (malloc Int nz) Len Pinv
    else pure (Ap, Ai, Len, Pinv))
  let (Len, P, nzaat) ← amd_aat n Cp Ci Len P
  let slen := nzaat + nzaat / 5 + 7 * n
  if !M.s then pure (.oom, P, -1) else do
  let (P, lnz) ← amd_1 n Cp Ci P Pinv Len slen K
  pure (status, P, lnz)

end Slip.Amd
