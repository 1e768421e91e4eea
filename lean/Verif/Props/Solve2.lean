import Verif.Props.Solve

/-!
# Right-hand sides, the solution check, and the permutations (C13, C14, C33)
-/

namespace Slip

open Finset

section
variable {nc : Int → Int → ℚ → Bool} {opt : Option Options} {n k : ℕ} {A b : Mat} {S : Analysis}
  {L U R : Mat} {pinv : Arr Int}

/-- C13: column `j` of the solution depends only on column `j` of the right-hand side. In
particular (`k' = 1`) solving with several right-hand sides at once gives, column by column, what
solving with one at a time gives. -/
theorem C13_columns_independent {k' : ℕ} {b' x x' : Mat} {o o' : Option Options} (hA : IsCsc n A)
    (hS : IsAnalysis n S) (ht : TolOk opt) (h : FactorizeOk nc opt A S L U R pinv) (hn : 0 < n)
    (hb : IsDenseZ n k b) (hb' : IsDenseZ n k' b') (hsb : b.scale ≠ 0) (hs : b'.scale = b.scale)
    (hx : SolveOk o b A L U R S pinv x) (hx' : SolveOk o' b' A L U R S pinv x')
    (j : Fin k) (j' : Fin k') (hj : ∀ i, b.denseZ n k i j = b'.denseZ n k' i j') :
    ∀ i, x.denseQ n k i j = x'.denseQ n k' i j' := by
  have h1 := (SolveOk.main hA hS ht h hn hb hsb hx).2
  have h2 := (SolveOk.main hA hS ht h hn hb' (by rw [hs]; exact hsb) hx').2
  have h3 : Matrix.of (fun i (_ : Fin 1) => x.denseQ n k i j) =
      Matrix.of (fun i (_ : Fin 1) => x'.denseQ n k' i j') := by
    refine unique_of_det (h.det_ne_zero hA hS ht) ?_
    ext i l
    have e1 := congrFun (congrFun h1 i) j
    have e2 := congrFun (congrFun h2 i) j'
    simp only [Matrix.mul_apply, Matrix.map_apply, Matrix.smul_apply, smul_eq_mul,
      Matrix.of_apply] at e1 e2 ⊢
    rw [e1, e2, hj i, hs]
  intro i
  exact congrFun (congrFun h3 i) 0

example := C13_columns_independent Ex.A_csc Ex.S_ok Ex.tol_ok Ex.factorize_ok (by decide)
  Ex.b_dense Ex.b_dense Ex.scale_ne.2 rfl Ex.solve_ok Ex.solve_ok 1 1 (fun _ => rfl)

/-- C13: solving with `k` right-hand sides at once succeeds iff each single column does, and gives
column by column the solutions of the single-column systems. `cols j` is the object holding column
`j` of `b`. -/
theorem C13_one_at_a_time {cols : Fin k → Mat} {o : Option Options} (hA : IsCsc n A)
    (hS : IsAnalysis n S) (ht : TolOk opt) (h : FactorizeOk nc opt A S L U R pinv) (hn : 0 < n)
    (hb : IsDenseZ n k b) (hsb : b.scale ≠ 0) (hc : ∀ j, IsDenseZ n 1 (cols j))
    (hs : ∀ j, (cols j).scale = b.scale)
    (hv : ∀ j i, (cols j).denseZ n 1 i 0 = b.denseZ n k i j) :
    ∃ (x : Mat) (xs : Fin k → Mat), SolveOk o b A L U R S pinv x ∧
      (∀ j, SolveOk o (cols j) A L U R S pinv (xs j)) ∧
      ∀ i j, x.denseQ n k i j = (xs j).denseQ n 1 i 0 := by
  obtain ⟨x, e, -⟩ := solve_main (opt' := o) hA hS ht h hn hb hsb none
  have h1 : ∀ j, ∃ y, SolveOk o (cols j) A L U R S pinv y := fun j => by
    obtain ⟨y, e, -⟩ := solve_main (opt' := o) hA hS ht h hn (hc j) (by rw [hs]; exact hsb) none
    exact ⟨y, e⟩
  choose xs hxs using h1
  exact ⟨x, xs, e, hxs, fun i j => C13_columns_independent hA hS ht h hn hb (hc j) hsb (hs j) e
    (hxs j) j 0 (fun i => (hv j i).symm) i⟩

example := C13_one_at_a_time (o := none) (cols := Ex.cols) Ex.A_csc Ex.S_ok Ex.tol_ok Ex.factorize_ok
  (by decide) Ex.b_dense Ex.scale_ne.2 Ex.cols_ok (fun _ => rfl) (by decide +kernel)

/-- C14: the check accepts `X` iff `A X = b` (without the scale factors, which the check does not
use), and reports SLIP_INCORRECT otherwise. -/
theorem C14_check_exact {x : Mat} (hA : IsCsc n A) (hx : IsDenseQ n k x) (hb : IsDenseZ n k b) :
    ((A.matrix n).map (Int.cast : ℤ → ℚ) * x.denseQ n k = (b.denseZ n k).map (Int.cast : ℤ → ℚ) →
      slip_check_solution A.toCsc ⟨x.m, x.n, x.nzmax, x.xq⟩ b.toDense = .ok ()) ∧
    ((A.matrix n).map (Int.cast : ℤ → ℚ) * x.denseQ n k ≠ (b.denseZ n k).map (Int.cast : ℤ → ℚ) →
      slip_check_solution A.toCsc ⟨x.m, x.n, x.nzmax, x.xq⟩ b.toDense =
        .error (.ret .incorrect)) := by
  obtain ⟨ap, hok, hnd⟩ := hA.aok
  have hX : IsMat n k x.xq (fun i j => (get x.xq ((i : ℤ) + j * n)).getD 0) := by
    intro i hi j hj
    obtain ⟨v, hv⟩ := hx.val i hi j hj
    unfold ix2; beta_reduce; rw [hv]; rfl
  have hs := slip_check_solution_spec (x := ⟨x.m, x.n, x.nzmax, x.xq⟩) (b := b.toDense) hok hnd
    hb.rows hb.cols hb.isMat hx.rows hX
  have key : (∀ i < n, ∀ j < k, ∑ l ∈ range n, (A.entry i l : ℚ) *
      (get x.xq ((l : ℤ) + j * n)).getD 0 = (((get b.xz ((i : ℤ) + j * n)).getD 0 : ℤ) : ℚ)) ↔
      (A.matrix n).map (Int.cast : ℤ → ℚ) * x.denseQ n k =
        (b.denseZ n k).map (Int.cast : ℤ → ℚ) := by
    constructor
    · intro h
      ext i j
      have := h i i.2 j j.2
      rw [Finset.sum_range] at this
      simpa [Matrix.mul_apply, Mat.matrix, Mat.denseQ, Mat.denseZ] using this
    · intro h i hi j hj
      have := congrFun (congrFun h ⟨i, hi⟩) ⟨j, hj⟩
      rw [Finset.sum_range]
      simpa [Matrix.mul_apply, Mat.matrix, Mat.denseQ, Mat.denseZ] using this
  rw [hs]
  constructor
  · intro h; rw [if_pos]; exact key.mpr h
  · intro h; rw [if_neg]; exact fun hc => h (key.mp hc)

/- `x` of the example is the scaled solution, so the check rejects it; the unscaled one is accepted. -/
example := (C14_check_exact Ex.A_csc Ex.x_dense Ex.b_dense).2 (by decide +kernel)
example := (C14_check_exact (k := 2) (x := Ex.x1) Ex.A_csc Ex.x1_dense Ex.b_dense).1 (by decide +kernel)

/-- C14: a solve, with checking switched on or off in the options `o`, never reports SLIP_INCORRECT
on valid input: it returns SLIP_OK. -/
theorem C14_solve_never_incorrect {o : Option Options} (hA : IsCsc n A)
    (hS : IsAnalysis n S) (ht : TolOk opt) (h : FactorizeOk nc opt A S L U R pinv) (hn : 0 < n)
    (hb : IsDenseZ n k b) (hsb : b.scale ≠ 0) (x0 : Option Mat) :
    ∃ x, SLIP_LU_solve true (some x0) (some b) (some A) (some L) (some U) (some R) (some S)
      (some pinv) o = .ok (.ok, some (some x)) := by
  obtain ⟨x, e, -⟩ := solve_main (opt' := o) hA hS ht h hn hb hsb x0
  exact ⟨x, e⟩

example := C14_solve_never_incorrect (o := Ex.optCheck) Ex.A_csc Ex.S_ok Ex.tol_ok Ex.factorize_ok
  (by decide) Ex.b_dense Ex.scale_ne.2 none

end

/-- C33: permuting the right-hand side. Row `i` of `b` becomes row `pinv[i]` of the result, which
has the same dimensions; nothing is lost or duplicated. -/
theorem C33_permute_b {m k : ℕ} {b : Mat} {pinv : Arr Int} {σ : Equiv.Perm (Fin m)}
    (hb : IsDenseZ m k b) (hp : Holds pinv σ) :
    ∃ y, slip_permute_b b.toDense pinv = .ok y ∧ y.m = m ∧ y.n = k ∧
      y.x.length = max (m * k) 1 ∧
      ∀ (i : Fin m) (j : Fin k),
        get y.x (((σ i : ℕ) : ℤ) + ((j : ℕ) : ℤ) * m) = some (b.denseZ m k i j) := by
  obtain ⟨c, ci, hc, hpp, hcτ⟩ := hp.isFn
  obtain ⟨y, e, h1, h2, -, h3, h4⟩ := slip_permute_b_spec (b := b.toDense) hb.rows hb.cols hb.isMat
    hpp.symm hc
  refine ⟨y, e, h1, h2, h3, fun i j => ?_⟩
  have := h4 (σ i) (σ i).2 j j.2
  beta_reduce at this
  rw [← hcτ i, hpp.pr i i.2] at this
  rw [← hcτ i]
  exact this

example := C33_permute_b Ex.b_dense Ex.pinv_holds

/-- C33: permuting the solution. Row `i` becomes row `q[i]` of the result. -/
theorem C33_permute_x {m k : ℕ} {x : Dense ℚ} {q : Arr Int} {τ : Equiv.Perm (Fin m)}
    {f : Fin m → Fin k → ℚ} (hm : x.m = m) (hk : x.n = k)
    (hx : ∀ (i : Fin m) (j : Fin k), get x.x (((i : ℕ) : ℤ) + ((j : ℕ) : ℤ) * m) = some (f i j))
    (hq : Holds q τ) :
    ∃ y, slip_permute_x x q = .ok y ∧ y.m = m ∧ y.n = k ∧ y.x.length = max (m * k) 1 ∧
      ∀ (i : Fin m) (j : Fin k),
        get y.x (((τ i : ℕ) : ℤ) + ((j : ℕ) : ℤ) * m) = some (f i j) := by
  obtain ⟨c, ci, hc, hpp, hcτ⟩ := hq.isFn
  have hX : IsMat m k x.x (fun i j => if h : i < m ∧ j < k then f ⟨i, h.1⟩ ⟨j, h.2⟩ else 0) := by
    intro i hi j hj
    beta_reduce
    rw [dif_pos ⟨hi, hj⟩]
    exact hx ⟨i, hi⟩ ⟨j, hj⟩
  obtain ⟨y, e, h1, h2, -, h3, h4⟩ := slip_permute_x_spec hm hk hX hpp.symm hc
  refine ⟨y, e, h1, h2, h3, fun i j => ?_⟩
  have := h4 (τ i) (τ i).2 j j.2
  beta_reduce at this
  rw [← hcτ i, hpp.pr i i.2] at this
  rw [← hcτ i]
  rw [dif_pos ⟨i.2, j.2⟩] at this
  exact this

example := C33_permute_x (x := ⟨3, 2, 6, Ex.x.xq⟩) (k := 2) rfl rfl
  (f := fun i j => Ex.x.denseQ 3 2 i j) (by decide +kernel) Ex.S_holds

end Slip
