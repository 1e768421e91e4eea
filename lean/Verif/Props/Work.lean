import Verif.Proof.CostSolve
import Verif.Proof.Main
import Verif.Model.CostApi
import Verif.Example
import Mathlib.Tactic.Ring

/-!
# C48: the time

The number of arithmetic operations on GMP integers, and the number of executions of loop bodies, of
`SLIP_LU_factorize` and of `SLIP_LU_solve`. `Verif/Model/CostApi.lean` has the two functions with a counter: with the weights
`1, 0, 0` it counts the arithmetic operations, with `0, 1, 0` the iterations of all loops, with `0, 0, 1` the entries of
`L` and `U` for which memory is requested.
-/

namespace Slip

open Finset

/-! ## Specification -/

/-- The number of entries stored in column `j`. -/
def Mat.colNz (M : Mat) (j : ℤ) : ℕ :=
  ((get (deref M.p) (j + 1)).getD 0 - (get (deref M.p) j).getD 0).toNat

/-- The number of entries stored in the matrix. -/
def Mat.stored (M : Mat) : ℕ := ((get (deref M.p) M.n).getD 0).toNat

/-- The number of multiplications of an elimination without any overhead: for every entry stored in `U`, in row
`i` say, the number of entries stored in column `i` of `L`. -/
def elimWork (L U : Mat) : ℕ := ∑ m ∈ range U.stored, L.colNz ((get (deref U.i) (m : ℤ)).getD 0)

/-- The number of arithmetic operations on GMP numbers that `SLIP_LU_factorize` does. -/
def factOps (nc : Int → Int → ℚ → Bool) (opt : Option Options) (A : Mat) (S : Analysis) : ℕ :=
  (SLIP_LU_factorizeT 1 0 0 nc true (some none) (some none) (some none) (some none) (some A) (some S) opt 0).2

/-- The number of loop iterations that `SLIP_LU_factorize` does. -/
def factIts (nc : Int → Int → ℚ → Bool) (opt : Option Options) (A : Mat) (S : Analysis) : ℕ :=
  (SLIP_LU_factorizeT 0 1 0 nc true (some none) (some none) (some none) (some none) (some A) (some S) opt 0).2

/-- The number of entries of `L` and `U` for which `SLIP_LU_factorize` requests memory. -/
def factStorage (nc : Int → Int → ℚ → Bool) (opt : Option Options) (A : Mat) (S : Analysis) : ℕ :=
  (SLIP_LU_factorizeT 0 0 1 nc true (some none) (some none) (some none) (some none) (some A) (some S) opt 0).2

/-- The number of arithmetic operations on GMP numbers that `SLIP_LU_solve` does. -/
def solveOps (opt : Option Options) (b A L U R : Mat) (S : Analysis) (pinv : Arr Int) : ℕ :=
  (SLIP_LU_solveT 1 0 true (some none) (some b) (some A) (some L) (some U) (some R) (some S) (some pinv) opt 0).2

/-- The number of loop iterations that `SLIP_LU_solve` does. -/
def solveIts (opt : Option Options) (b A L U R : Mat) (S : Analysis) (pinv : Arr Int) : ℕ :=
  (SLIP_LU_solveT 0 1 true (some none) (some b) (some A) (some L) (some U) (some R) (some S) (some pinv) opt 0).2

/-! ## The calls reduce to their bodies -/

variable {n k : ℕ} {nc : Int → Int → ℚ → Bool} {opt opt' : Option Options} {A b L U R : Mat} {S : Analysis}
  {pinv : Arr Int}

theorem choosePivotT_tol {β : ℕ} {order : Pivot} {tol tol' : Dbl} (h : ¬ Pivot.usesTol order) :
    choosePivotT β nc order tol = choosePivotT β nc order tol' := by
  funext x pivs n top xi col
  cases order <;> first | rfl | exact absurd trivial h | (exfalso; revert h; simp [Pivot.usesTol])

theorem factorizeT_tol {α β γ : ℕ} {order : Pivot} {tol tol' : Dbl} (h : ¬ Pivot.usesTol order) :
    factorizeT α β γ nc order tol = factorizeT α β γ nc order tol' := by
  have : factStepT α β γ nc order tol = factStepT α β γ nc order tol' := by
    funext A q k s
    unfold factStepT slip_get_pivotT
    rw [choosePivotT_tol h]
  funext A q lnz unz
  unfold factorizeT
  rw [this]

theorem exists_fin_tolT (h : TolOk opt) (nc) :
    ∃ t : ℚ, factorize nc (optPivot opt) (optTol opt) = factorize nc (optPivot opt) (.fin t) ∧
      ∀ α β γ, factorizeT α β γ nc (optPivot opt) (optTol opt) = factorizeT α β γ nc (optPivot opt) (.fin t) := by
  by_cases hu : (optPivot opt).usesTol
  · obtain ⟨t, ht⟩ := h hu
    exact ⟨t, by rw [ht], fun _ _ _ => by rw [ht]⟩
  · exact ⟨0, factorize_tol hu, fun _ _ _ => factorizeT_tol hu⟩

theorem SLIP_LU_factorizeT_eq {α β γ : ℕ} (hA : IsCsc n A) (l u rh : Option Mat) (pv : Option (Arr Int)) :
    SLIP_LU_factorizeT α β γ nc true (some l) (some u) (some rh) (some pv) (some A) (some S) opt =
      W.wrap (factWrap A.n) (factorizeT α β γ nc (optPivot opt) (optTol opt) A.toCsc S.q S.lnz S.unz) := by
  obtain ⟨z, hz, hz0, -⟩ := hA.nnz
  unfold SLIP_LU_factorizeT
  simp only [Bool.not_true, Bool.false_eq_true, if_false, hA.kind, hA.type, ne_eq,
    not_true_eq_false, hz, reduceCtorEq, false_or]
  rw [show (W.lift (Except.ok z) : W Int) = (pure z : W Int) from rfl]
  funext w
  show (if z < 0 then _ else _ : W FactOut) w = _
  rw [if_neg (by omega)]

theorem SLIP_LU_solveT_eq {α β : ℕ} {F : Factors}
    (hA : IsCsc n A) (hb : IsDenseZ n k b) (hL : F.L.m = n ∧ F.L.n = n)
    (hU : F.U.m = n ∧ F.U.n = n) (x : Option Mat) :
    SLIP_LU_solveT α β true (some x) (some b) (some A) (some (Mat.ofCsc F.L)) (some (Mat.ofCsc F.U))
      (some (Mat.ofDenseZ A.n 1 (max A.n 1) F.rhos)) (some S) (some F.pinv) opt =
    W.wrap solveWrap (luSolveT α β A.toCsc A.scale b.toDense b.scale F S.q (optCheck opt)) := by
  unfold SLIP_LU_solveT
  have e1 : requireFails (some b) .dense .mpz = false := by
    simp [requireFails, hb.kind, hb.type]
  have e2 : requireFails (some A) .csc .mpz = false := by
    simp [requireFails, hA.kind, hA.type]
  have e3 : ∀ M, requireFails (some (Mat.ofCsc M)) .csc .mpz = false := by
    simp [requireFails, Mat.ofCsc]
  have e4 : ∀ a b c d, requireFails (some (Mat.ofDenseZ a b c d)) .dense .mpz = false := by
    simp [requireFails, Mat.ofDenseZ]
  simp only [e1, e2, e3, e4, Bool.not_true, Bool.false_eq_true, if_false]
  rw [if_neg]
  · rfl
  · simp [Mat.ofCsc, hA.rows, hA.cols, hb.rows, hL, hU]

/-! ## Sums of column lengths -/

theorem sum_ptr {f : ℕ → ℤ} {m : ℕ} (h0 : f 0 = 0) (h : ∀ t < m, f t ≤ f (t + 1)) :
    ((∑ t ∈ range m, (f (t + 1) - f t).toNat : ℕ) : ℤ) = f m := by
  induction m with
  | zero => simp [h0]
  | succ m ih =>
    rw [sum_range_succ, Nat.cast_add, ih fun t ht => h t (by omega)]
    have := h m (by omega)
    omega

theorem sum_relabel {c ci : ℕ → ℕ} (hc : ∀ t < n, c t < n) (hci : ∀ t < n, ci t < n) (h1 : ∀ t < n, ci (c t) = t)
    (h2 : ∀ t < n, c (ci t) = t) (f : ℕ → ℕ) : ∑ t ∈ range n, f (c t) = ∑ t ∈ range n, f t :=
  sum_bij' (fun t _ => c t) (fun t _ => ci t) (fun t ht => mem_range.2 (hc t (mem_range.1 ht)))
    (fun t ht => mem_range.2 (hci t (mem_range.1 ht))) (fun t ht => h1 t (mem_range.1 ht))
    (fun t ht => h2 t (mem_range.1 ht)) fun _ _ => rfl

theorem triSum_two (m : ℕ) : ∀ j ≤ m, 2 * triSum m j + j * j = j * (2 * m + 1)
  | 0, _ => by simp [triSum]
  | j + 1, h => by
    have ih := triSum_two m j (by omega)
    obtain ⟨d, rfl⟩ := Nat.exists_eq_add_of_le h
    have e : triSum (j + 1 + d) (j + 1) = triSum (j + 1 + d) j + (1 + d) := by
      rw [triSum, sum_range_succ, ← triSum]; omega
    rw [e]
    nlinarith [ih]

theorem sum_triSum (m : ℕ) : 3 * ∑ t ∈ range m, triSum m t + m = m ^ 3 := by
  have key : ∀ j ≤ m, 6 * ((∑ t ∈ range j, triSum m t : ℕ) : ℤ) = j * (j - 1) * (3 * m + 2 - j) := by
    intro j
    induction j with
    | zero => simp
    | succ j ih =>
      intro h
      have e := triSum_two m j (by omega)
      have ih := ih (by omega)
      rw [sum_range_succ]
      zify at e
      push_cast at ih ⊢
      nlinarith [ih, e]
  have := key m (le_refl _)
  zify
  push_cast at this
  nlinarith [this]

theorem stored_eq {M : Mat} {f : ℕ → ℤ} (hn : M.n = n) (h0 : f 0 = 0) (hm : ∀ t < n, f t ≤ f (t + 1))
    (hp : get (deref M.p) (n : ℤ) = some (f n)) : ∑ t ∈ range n, (f (t + 1) - f t).toNat = M.stored := by
  have := sum_ptr h0 hm
  unfold Mat.stored
  rw [hn, hp, Option.getD_some]
  omega

/-- The bounds for the factorization, together. -/
theorem factorize_bounds (hA : IsCsc n A) (hS : IsAnalysis n S) (ht : TolOk opt) :
    ∃ ca cb cg, (∀ α β γ, Cnt (α * ca + β * cb + γ * cg)
        (SLIP_LU_factorizeT α β γ nc true (some none) (some none) (some none) (some none) (some A) (some S) opt)
        (SLIP_LU_factorize nc true (some none) (some none) (some none) (some none) (some A) (some S) opt)) ∧
      3 * ca + 5 * n ≤ 5 * n ^ 3 + 6 * n ^ 2 ∧
      3 * cb ≤ 6 * A.stored + 2 * n ^ 3 + 57 * n ^ 2 + 7 * n ∧
      cg ≤ max S.lnz.toNat 1 + max S.unz.toNat 1 + 8 * n ^ 2 ∧
      ∀ L U R pinv, FactorizeOk nc opt A S L U R pinv →
        ca + 2 * n + 3 * L.stored ≤ 5 * elimWork L U + 2 * U.stored ∧
        cb + 6 * n ≤ 2 * A.stored + 2 * elimWork L U + 14 * L.stored + 16 * U.stored ∧
        cg ≤ max S.lnz.toNat 1 + max S.unz.toNat 1 + 4 * L.stored + 4 * U.stored + 8 * n := by
  obtain ⟨τ, hτ⟩ := hS.perm
  obtain ⟨c, ci, hc, hp, -⟩ := hτ.isFn
  obtain ⟨ap, hok, -⟩ := hA.aok
  obtain ⟨t, e, e'⟩ := exists_fin_tolT ht nc
  obtain ⟨ca, cb, cg, hcnt, h1, h2, hg, h3⟩ := factorize_cost (nc := nc) (order := optPivot opt) (tol := t) hok hA.cols hc
    hp.rlt (fun t ht u hu e => by rw [← hp.pr t ht, ← hp.pr u hu, e]) hS.lnz hS.unz
  have h0 : ap 0 = 0 := by
    have h2 : get (deref A.p) ((0 : ℕ) : ℤ) = some (ap 0) := hok.ptr 0 (by omega)
    rw [Nat.cast_zero, hA.p0] at h2
    exact (Option.some.inj h2).symm
  have hsum : ∑ j ∈ range n, (ap (c j + 1) - ap (c j)).toNat = A.stored := by
    rw [sum_relabel hp.rlt hp.plt hp.pr hp.rp fun j => (ap (j + 1) - ap j).toNat]
    exact stored_eq hA.cols h0 hok.mono (hok.ptr n (le_refl _))
  have htri := sum_triSum n
  have hl : (max S.lnz 1).toNat = max S.lnz.toNat 1 := by omega
  have hu : (max S.unz 1).toNat = max S.unz.toNat 1 := by omega
  rw [hl, hu] at hg h3
  refine ⟨ca, cb, cg, fun α β γ w => ?_, ?_, ?_, by rw [pow_two]; exact hg, ?_⟩
  · rw [SLIP_LU_factorizeT_eq hA, SLIP_LU_factorize_eq hA, e, e']
    obtain ⟨w', ew, hw⟩ := hcnt α β γ w
    refine ⟨w', ?_, hw⟩
    unfold W.wrap
    rw [ew]
  · simp only [sum_add_distrib, ← mul_sum, sum_const, card_range, smul_eq_mul] at h1
    nlinarith [h1, htri]
  · simp only [sum_add_distrib, ← mul_sum, sum_const, card_range, smul_eq_mul] at h2
    rw [hsum] at h2
    nlinarith [h2, htri]
  · intro L U R pinv h
    unfold FactorizeOk at h
    rw [SLIP_LU_factorize_eq hA, e] at h
    cases hf : factorize nc (optPivot opt) (.fin t) A.toCsc S.q S.lnz S.unz with
    | error f =>
      rw [hf, wp_error] at h3
      rw [hf, h3.1] at h
      cases h
    | ok F =>
      rw [hf, wp_ok] at h3
      rw [hf] at h
      simp only [factWrap, pure, Except.pure, Except.ok.injEq, FactOut.mk.injEq, Option.some.injEq,
        true_and] at h
      obtain ⟨rfl, rfl, -, -⟩ := h
      have hs := factorize_spec (nc := nc) (order := optPivot opt) (tol := t) hok hA.cols hc hp.rlt
        (fun t ht u hu e => by rw [← hp.pr t ht, ← hp.pr u hu, e]) hS.lnz hS.unz
      rw [hf, wp_ok] at hs
      obtain ⟨r, pi, lp, up, hF⟩ := hs
      obtain ⟨nl, nu, w, g1, g2, hw, k1, k2, k3⟩ := h3
      have s1 : (Mat.ofCsc F.L).stored = nl := by
        unfold Mat.stored
        show ((get F.L.p F.L.n).getD 0).toNat = _
        rw [hF.L.nEq, g1]; rfl
      have s2 : (Mat.ofCsc F.U).stored = nu := by
        unfold Mat.stored
        show ((get F.U.p F.U.n).getD 0).toNat = _
        rw [hF.U.nEq, g2]; rfl
      have s3 : elimWork (Mat.ofCsc F.L) (Mat.ofCsc F.U) = w := by
        unfold elimWork
        rw [s2, hw]; rfl
      rw [s1, s2, s3]
      exact ⟨k1, by rw [hsum] at k2; exact k2, k3⟩

/-- The bounds for the solve, together. -/
theorem solve_bounds (hA : IsCsc n A) (hS : IsAnalysis n S) (ht : TolOk opt)
    (h : FactorizeOk nc opt A S L U R pinv) (hb : IsDenseZ n k b) (α β : ℕ) :
    Cnt (α * (5 * (k * L.stored) + k * U.stored + (if optCheck opt' then 2 * (k * A.stored) else 0) +
          5 * (n * k) + 1) +
        β * (k * L.stored + k * U.stored + (if optCheck opt' then k * A.stored + 2 * k + 2 * (n * k) else 0) +
          2 * n + 2 * k + 6 * (n * k) + max (n * k) 1))
      (SLIP_LU_solveT α β true (some none) (some b) (some A) (some L) (some U) (some R) (some S) (some pinv) opt')
      (SLIP_LU_solve true (some none) (some b) (some A) (some L) (some U) (some R) (some S) (some pinv) opt') := by
  obtain ⟨τ, hτ⟩ := hS.perm
  obtain ⟨F, tol, r, pi, c, ci, lp, up, hF, rfl, rfl, rfl, rfl, -⟩ := h.fact hA hτ hS.lnz hS.unz ht
  obtain ⟨ap, hok, -⟩ := hA.aok
  have h0 : ap 0 = 0 := by
    have h2 : get (deref A.p) ((0 : ℕ) : ℤ) = some (ap 0) := hok.ptr 0 (by omega)
    rw [Nat.cast_zero, hA.p0] at h2
    exact (Option.some.inj h2).symm
  have len : ∀ {f : ℕ → ℤ} {p : Arr Int}, (∀ t : ℕ, t ≤ n → get p (t : Int) = some (f t)) → ∀ t < n,
      ptrLen p (t : Int) = (f (t + 1) - f t).toNat := by
    intro f p hp t ht
    exact ptrLen_eq (hp t (by omega)) (by rw [show (t : Int) + 1 = ((t + 1 : ℕ) : Int) by omega, hp (t + 1) (by omega)])
  have sumEq : ∀ {f : ℕ → ℤ} {M : Mat}, M.n = n → f 0 = 0 → (∀ t < n, f t ≤ f (t + 1)) →
      (∀ t : ℕ, t ≤ n → get (deref M.p) (t : Int) = some (f t)) → ptrSum (deref M.p) n = M.stored := by
    intro f M h1 h2 h3 h4
    rw [← stored_eq h1 h2 h3 (h4 n (le_refl _)), ptrSum]
    exact sum_congr rfl fun t ht => len h4 t (mem_range.1 ht)
  have eA : ptrSum A.toCsc.p n = A.stored := sumEq hA.cols h0 hok.mono hok.ptr
  have eL : ptrSum F.L.p n = (Mat.ofCsc F.L).stored :=
    sumEq (M := Mat.ofCsc F.L) hF.ok.L.nEq hF.ok.L.cp0 hF.ok.L.mono hF.ok.L.ptr
  have eU : ptrSum F.U.p n = (Mat.ofCsc F.U).stored :=
    sumEq (M := Mat.ofCsc F.U) hF.ok.U.nEq hF.ok.U.cp0 hF.ok.U.mono hF.ok.U.ptr
  have hUne : ∀ j < n, 1 ≤ ptrLen F.U.p (j : Int) := by
    intro j hj
    have := (hF.ok.diag j hj).1
    rw [len hF.ok.U.ptr j hj]
    omega
  have key := luSolveT_cnt α β (A := A.toCsc) (b := b.toDense) (F := F) A.scale b.scale S.q (optCheck opt') hb.rows
    hb.cols hF.ok.U.nEq hUne
  rw [eA, eL, eU] at key
  intro w
  rw [SLIP_LU_solve_eq hA hb ⟨hF.ok.L.mEq, hF.ok.L.nEq⟩ ⟨hF.ok.U.mEq, hF.ok.U.nEq⟩,
    SLIP_LU_solveT_eq hA hb ⟨hF.ok.L.mEq, hF.ok.L.nEq⟩ ⟨hF.ok.U.mEq, hF.ok.U.nEq⟩]
  obtain ⟨w', ew, hw⟩ := key w
  refine ⟨w', ?_, hw⟩
  unfold W.wrap
  rw [ew]

/-! ## The theorems -/

/-- C48: counting does not change what the factorization does. -/
theorem C48_factorize_same (hA : IsCsc n A) (hS : IsAnalysis n S) (ht : TolOk opt) (α β γ : ℕ) :
    (SLIP_LU_factorizeT α β γ nc true (some none) (some none) (some none) (some none) (some A) (some S) opt 0).1 =
      SLIP_LU_factorize nc true (some none) (some none) (some none) (some none) (some A) (some S) opt := by
  obtain ⟨ca, cb, cg, h, -⟩ := factorize_bounds (nc := nc) hA hS ht
  obtain ⟨w, e, -⟩ := h α β γ 0
  rw [e]

theorem factOps_le {ca cb cg : ℕ} (h : ∀ α β γ, Cnt (α * ca + β * cb + γ * cg)
        (SLIP_LU_factorizeT α β γ nc true (some none) (some none) (some none) (some none) (some A) (some S) opt)
        (SLIP_LU_factorize nc true (some none) (some none) (some none) (some none) (some A) (some S) opt)) :
    factOps nc opt A S ≤ ca ∧ factIts nc opt A S ≤ cb ∧ factStorage nc opt A S ≤ cg := by
  obtain ⟨w, e, hw⟩ := h 1 0 0 0
  obtain ⟨w', e', hw'⟩ := h 0 1 0 0
  obtain ⟨w2, e2, hw2⟩ := h 0 0 1 0
  unfold factOps factIts factStorage
  rw [e, e', e2]
  exact ⟨by simpa using hw, by simpa using hw', by simpa using hw2⟩

/-- C48: the number of arithmetic operations of a factorization is at most five times the elimination work, plus
two for every entry of `U`. -/
theorem C48_factorize_ops (hA : IsCsc n A) (hS : IsAnalysis n S) (ht : TolOk opt)
    (h : FactorizeOk nc opt A S L U R pinv) :
    factOps nc opt A S + 2 * n + 3 * L.stored ≤ 5 * elimWork L U + 2 * U.stored := by
  obtain ⟨ca, cb, cg, hc, -, -, -, hb⟩ := factorize_bounds (nc := nc) hA hS ht
  have := (factOps_le hc).1
  have := (hb L U R pinv h).1
  omega

/-- C48: the number of loop iterations of a factorization, the search for the pattern and the pivot
and the initialization of new memory included, is at most twice the elimination work plus a multiple of the number of entries of `A`, `L` and `U`: there is no term
that only depends on the dimension. -/
theorem C48_factorize_iterations (hA : IsCsc n A) (hS : IsAnalysis n S) (ht : TolOk opt)
    (h : FactorizeOk nc opt A S L U R pinv) :
    factIts nc opt A S + 6 * n ≤ 2 * A.stored + 2 * elimWork L U + 14 * L.stored + 16 * U.stored := by
  obtain ⟨ca, cb, cg, hc, -, -, -, hb⟩ := factorize_bounds (nc := nc) hA hS ht
  have := (factOps_le hc).2.1
  have := (hb L U R pinv h).2.1
  omega

/-- C48: the number of entries of `L` and `U` for which memory is requested, over the whole factorization (the first
allocation, and the arrays that are doubled, old and new part), is at most the two estimates of the analysis, plus
`4 (nnz(L) + nnz(U) + 2 n)`. -/
theorem C48_factorize_storage (hA : IsCsc n A) (hS : IsAnalysis n S) (ht : TolOk opt)
    (h : FactorizeOk nc opt A S L U R pinv) :
    factStorage nc opt A S ≤ max S.lnz.toNat 1 + max S.unz.toNat 1 + 4 * L.stored + 4 * U.stored + 8 * n := by
  obtain ⟨ca, cb, cg, hc, -, -, -, hb⟩ := factorize_bounds (nc := nc) hA hS ht
  have := (factOps_le hc).2.2
  have := (hb L U R pinv h).2.2
  omega

/-- C48: in any case, also for a singular matrix, at most about `5/3 n³` arithmetic operations and
`2/3 n³` loop iterations, and memory for at most `8 n²` entries beyond the estimates. -/
theorem C48_factorize_cubic (hA : IsCsc n A) (hS : IsAnalysis n S) (ht : TolOk opt) :
    3 * factOps nc opt A S + 5 * n ≤ 5 * n ^ 3 + 6 * n ^ 2 ∧
    3 * factIts nc opt A S ≤ 6 * A.stored + 2 * n ^ 3 + 57 * n ^ 2 + 7 * n ∧
    factStorage nc opt A S ≤ max S.lnz.toNat 1 + max S.unz.toNat 1 + 8 * n ^ 2 := by
  obtain ⟨ca, cb, cg, hc, h1, h2, h3, -⟩ := factorize_bounds (nc := nc) hA hS ht
  have := factOps_le hc
  omega

/-- C48: counting does not change what the solve does. -/
theorem C48_solve_same (hA : IsCsc n A) (hS : IsAnalysis n S) (ht : TolOk opt)
    (h : FactorizeOk nc opt A S L U R pinv) (hb : IsDenseZ n k b) (α β : ℕ) :
    (SLIP_LU_solveT α β true (some none) (some b) (some A) (some L) (some U) (some R) (some S) (some pinv) opt' 0).1 =
      SLIP_LU_solve true (some none) (some b) (some A) (some L) (some U) (some R) (some S) (some pinv) opt' := by
  obtain ⟨w, e, -⟩ := solve_bounds (opt' := opt') hA hS ht h hb α β 0
  rw [e]

/-- C48: a solve with `k` right-hand sides takes, for each, at most five arithmetic operations for every entry of
`L`, one for every entry of `U`, two for every entry of `A` if the solution is checked, and five for every
component. -/
theorem C48_solve_ops (hA : IsCsc n A) (hS : IsAnalysis n S) (ht : TolOk opt)
    (h : FactorizeOk nc opt A S L U R pinv) (hb : IsDenseZ n k b) :
    solveOps opt' b A L U R S pinv ≤
      k * (5 * L.stored + U.stored + (if optCheck opt' then 2 * A.stored else 0) + 5 * n) + 1 := by
  obtain ⟨w, e, hw⟩ := solve_bounds (opt' := opt') hA hS ht h hb 1 0 0
  unfold solveOps
  rw [e]
  refine hw.trans (le_of_eq ?_)
  cases optCheck opt' <;> simp <;> ring

/-- C48: the number of loop iterations of a solve, in the same terms. -/
theorem C48_solve_iterations (hA : IsCsc n A) (hS : IsAnalysis n S) (ht : TolOk opt)
    (h : FactorizeOk nc opt A S L U R pinv) (hb : IsDenseZ n k b) :
    solveIts opt' b A L U R S pinv ≤
      k * (L.stored + U.stored + (if optCheck opt' then A.stored else 0) + 9 * n + 4) + 2 * n + 1 := by
  obtain ⟨w, e, hw⟩ := solve_bounds (opt' := opt') hA hS ht h hb 0 1 0
  unfold solveIts
  rw [e]
  refine hw.trans ?_
  have hm : max (n * k) 1 ≤ n * k + 1 := by omega
  cases optCheck opt' <;> simp only [Bool.false_eq_true, if_false, if_true] <;> nlinarith [hm]

/-! ## The example: all the theorems apply to it -/

example := C48_factorize_same (nc := Ex.nc) Ex.A_csc Ex.S_ok Ex.tol_ok 1 1 1
example := C48_factorize_ops Ex.A_csc Ex.S_ok Ex.tol_ok Ex.factorize_ok
example := C48_factorize_iterations Ex.A_csc Ex.S_ok Ex.tol_ok Ex.factorize_ok
example := C48_factorize_storage Ex.A_csc Ex.S_ok Ex.tol_ok Ex.factorize_ok
example := C48_factorize_cubic (nc := Ex.nc) Ex.A_csc Ex.S_ok Ex.tol_ok
example := C48_solve_same (opt' := none) Ex.A_csc Ex.S_ok Ex.tol_ok Ex.factorize_ok Ex.b_dense 1 1
example := C48_solve_ops (opt' := none) Ex.A_csc Ex.S_ok Ex.tol_ok Ex.factorize_ok Ex.b_dense
example := C48_solve_iterations (opt' := none) Ex.A_csc Ex.S_ok Ex.tol_ok Ex.factorize_ok Ex.b_dense

/-- The exact counts for the example: 4 operations, 121 iterations, memory for 30 entries. -/
example : factOps Ex.nc none Ex.A Ex.S = 4 ∧ factIts Ex.nc none Ex.A Ex.S = 121 ∧
    factStorage Ex.nc none Ex.A Ex.S = 30 := by decide +kernel

end Slip
