import Verif.Model.Api

/-!
# Factorization with explicit contents of uninitialised memory

`factorize` represents a `malloc`'ed element by `none` and treats reading it as undefined. Here the
same code is run on memory whose initial contents are arbitrary values: what the allocator happens
to return.
-/

namespace Slip

/-- The contents of the uninitialised memory obtained during a factorization. `none` is still
possible for an element (its value is then considered unreadable). -/
structure Work where
  h : Arr Int
  pivs : Arr Int
  pinv : Arr Int
  row_perm : Arr Int
  xi : Arr Int
  /-- new part of `L->i` when it is reallocated before column `k` -/
  tailL : Int → Arr Int
  /-- new part of `U->i` when it is reallocated before column `k` -/
  tailU : Int → Arr Int

/-- The `malloc`'ed arrays have the sizes requested: SLIP_LU_factorize.c lines 101-117 and
slip_sparse_realloc.c lines 44-47 (only the first `nzmax` elements of the tails are used). -/
structure Work.Sized (W : Work) (n : Int) : Prop where
  h : W.h.length = n.toNat
  pivs : W.pivs.length = n.toNat
  pinv : W.pinv.length = n.toNat
  row_perm : W.row_perm.length = n.toNat
  xi : W.xi.length = (2 * n).toNat

/-- Memory of `n` elements whose contents are the first elements of `g` (unreadable beyond). -/
def garbage (g : Arr Int) (n : Int) : Arr Int :=
  (List.range n.toNat).map fun t => (g[t]?).join

/-- `slip_sparse_realloc`, slip_sparse_realloc.c lines 19-58; the new part of `i` holds `g`. -/
def slip_sparse_reallocW (g : Arr Int) (A : Csc) : Csc :=
  { A with
    x := A.x ++ malloc Int A.nzmax
    i := A.i ++ garbage g A.nzmax
    nzmax := 2 * A.nzmax }

/-- One iteration of the main loop, SLIP_LU_factorize.c lines 191-270, as `factStep`. -/
def factStepW (W : Work) (nc : Int → Int → ℚ → Bool) (order : Pivot) (tol : Dbl) (A : Csc)
    (q : Arr Int) (k : Int) (s : FactSt) : C FactSt := do
  let n := A.n
  let Lp ← wr s.L.p k s.lnz
  let Up ← wr s.U.p k s.unz
  let L := { s.L with p := Lp }
  let U := { s.U with p := Up }
  let col ← rd q k
  let L := if s.lnz + n > L.nzmax then slip_sparse_reallocW (W.tailL k) L else L
  let U := if s.unz + n > U.nzmax then slip_sparse_reallocW (W.tailU k) U else U
  let t ← slip_ref_triangular_solve L A k s.xi q s.rhos s.pinv s.row_perm s.h s.x
  let L := { L with p := t.Lp }
  let g ← slip_get_pivot nc order tol t.x s.pivs n t.top t.xi col k s.rhos s.pinv s.row_perm
  let (lnz, unz, L, U) ← forRange t.top n (s.lnz, s.unz, L, U) fun j st =>
    popStep t.xi g.pinv t.x k j st
  pure { lnz := lnz, unz := unz, L := L, U := U, rhos := g.rhos, pinv := g.pinv,
         row_perm := g.row_perm, pivs := g.pivs, h := t.h, xi := t.xi, x := t.x }

/-- The initial state, SLIP_LU_factorize.c lines 96-183, as `factInit`. -/
def factInitW (W : Work) (n lnz unz : Int) : C FactSt := do
  let (h, pivs, pinv, row_perm) ← forRange 0 n (W.h, W.pivs, W.pinv, W.row_perm)
    fun i (h, pivs, pinv, row_perm) => do
      let h ← wr h i (-1)
      let pivs ← wr pivs i (-1)
      let pinv ← wr pinv i i
      let row_perm ← wr row_perm i i
      pure (h, pivs, pinv, row_perm)
  let x ← forRange 0 n (malloc Int (max n 1)) fun i x => zinit x i
  pure { lnz := 0, unz := 0, L := allocCsc n lnz, U := allocCsc n unz,
         rhos := malloc Int (max n 1), pinv := pinv, row_perm := row_perm, pivs := pivs,
         h := h, xi := W.xi, x := x }

/-- The body of `SLIP_LU_factorize`, SLIP_LU_factorize.c lines 76-322, as `factorize`. -/
def factorizeW (W : Work) (nc : Int → Int → ℚ → Bool) (order : Pivot) (tol : Dbl) (A : Csc)
    (q : Arr Int) (lnz unz : Int) : C Factors := do
  let n := A.n
  let s ← factInitW W n lnz unz
  let s ← forRange 0 n s fun k s => factStepW W nc order tol A q k s
  let Lp ← wr s.L.p n s.lnz
  let Up ← wr s.U.p n s.unz
  let L ← slip_sparse_collapse { s.L with p := Lp }
  let U ← slip_sparse_collapse { s.U with p := Up }
  let L ← permuteRows L s.pinv s.lnz
  let U ← permuteRows U s.pinv s.unz
  pure { L := L, U := U, rhos := s.rhos, pinv := s.pinv }

/-- `SLIP_LU_factorize`, SLIP_LU_factorize.c lines 42-326, with workspace contents `W`. -/
def SLIP_LU_factorizeW (W : Work) (nc : Int → Int → ℚ → Bool) (init : Bool) (L U rhos : Handle Mat)
    (pinv : Handle (Arr Int)) (A : Option Mat) (S : Option Analysis) (opt : Option Options) :
    C FactOut :=
  if !init then pure ⟨.panic, L, U, rhos, pinv⟩
  else match A with
  | none => pure ⟨.incorrectInput, L, U, rhos, pinv⟩
  | some A =>
    if A.kind ≠ .csc then pure ⟨.incorrectInput, L, U, rhos, pinv⟩
    else if A.type ≠ .mpz then pure ⟨.incorrectInput, L, U, rhos, pinv⟩
    else do
      let anz ← SLIP_matrix_nnz init (some A)
      match S with
      | none => pure ⟨.incorrectInput, L, U, rhos, pinv⟩
      | some S =>
        if L = none ∨ U = none ∨ rhos = none ∨ pinv = none ∨ anz < 0 then
          pure ⟨.incorrectInput, L, U, rhos, pinv⟩
        else
          factWrap A.n (factorizeW W nc (optPivot opt) (optTol opt) A.toCsc S.q S.lnz S.unz)

end Slip
