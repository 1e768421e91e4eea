import Verif.Proof.Machine5
import Verif.Props.Analyze

/-!
# C46: no 64-bit overflow

`SLIP_LU_analyze64`, `SLIP_LU_factorize64` and `SLIP_LU_solve64` are the three functions with every
operation on `int64_t` checked. For matrices with at most `2^29` rows and columns they return exactly what
the functions with unbounded integers return, so every other theorem about those also holds of these.
-/

namespace Slip
open M64

section
variable {nc : Int → Int → ℚ → Bool} {opt : Option Options} {n k : ℕ} {A b : Mat} {S : Analysis}
  {L U R : Mat} {pinv : Arr Int}

/-- C46: the analysis of a matrix with a valid pattern never overflows. -/
theorem C46_analyze {O : Orderings} (hO : AmdOk O opt n) (hn : (n : ℤ) ≤ 2 ^ 29)
    (hk : A.kind = .csc) (hm : A.m = n) (hc : A.n = n)
    (hp : IsPattern n (deref A.p) (deref A.i)) (hi : A.i ≠ none) (S0 : Option Analysis) :
    SLIP_LU_analyze64 O true (some S0) (some A) opt = SLIP_LU_analyze O true (some S0) (some A) opt ∧
      ∃ S, SLIP_LU_analyze64 O true (some S0) (some A) opt = .ok (.ok, some (some S)) := by
  have e : SLIP_LU_analyze64 O true (some S0) (some A) opt = SLIP_LU_analyze O true (some S0) (some A) opt := by
    unfold SLIP_LU_analyze64 SLIP_LU_analyze
    dsimp only
    rw [agree_analyze hO hn hk hc hp hi]
  obtain ⟨S, h, -⟩ := C17_analysis_usable hO hk hm hc hp hi S0
  exact ⟨e, S, by rw [e, h]⟩

example := C46_analyze (Ex.orderings_ok none) (A := Ex.A) (by norm_num) rfl rfl rfl Ex.A_csc.pattern Ex.A_csc.idx none

theorem smCol {q : Arr Int} {τ : Equiv.Perm (Fin n)} (hq : Holds q τ) (hn : (n : ℤ) ≤ 2 ^ 29) (m c : ℤ)
    (h0 : 0 ≤ m) (h1 : m < n) (h : get q m = some c) : Sm c := by
  obtain ⟨t, rfl⟩ := Int.eq_ofNat_of_zero_le h0
  have := hq ⟨t, by omega⟩
  rw [h] at this
  cases this
  exact sm_of_lt (by omega) (B := n) (by have := (τ ⟨t, by omega⟩).2; omega) (by omega)

/-- What the index arithmetic of the solve needs of the factors. -/
theorem factorize_agree (hA : IsCsc n A) (hS : IsAnalysis n S) (hn : (n : ℤ) ≤ 2 ^ 29)
    (hl : S.lnz ≤ 2 ^ 60) (hu : S.unz ≤ 2 ^ 60) :
    Agree (factorize64 nc (optPivot opt) (optTol opt) A.toCsc S.q S.lnz S.unz)
      (factorize nc (optPivot opt) (optTol opt) A.toCsc S.q S.lnz S.unz) (FOut n) := by
  obtain ⟨τ, hτ⟩ := hS.perm
  have hAn : A.toCsc.n = n := hA.cols
  have := agree_factorize (nc := nc) (order := optPivot opt) (tol := optTol opt) (A := A.toCsc) (q := S.q)
    (lnz := S.lnz) (unz := S.unz) (by rw [hAn]; omega)
    (fun m c h0 h1 h => smCol hτ hn m c h0 (by rw [hAn] at h1; exact h1) h) hl hu
  rwa [hAn] at this

/-- C46: the factorization never overflows. -/
theorem C46_factorize (hA : IsCsc n A) (hS : IsAnalysis n S) (ht : TolOk opt) (hn : (n : ℤ) ≤ 2 ^ 29)
    (hl : S.lnz ≤ 2 ^ 60) (hu : S.unz ≤ 2 ^ 60) (l u rh : Option Mat) (pv : Option (Arr Int)) :
    SLIP_LU_factorize64 nc true (some l) (some u) (some rh) (some pv) (some A) (some S) opt =
        SLIP_LU_factorize nc true (some l) (some u) (some rh) (some pv) (some A) (some S) opt ∧
      ∃ o, SLIP_LU_factorize64 nc true (some l) (some u) (some rh) (some pv) (some A) (some S) opt = .ok o := by
  obtain ⟨o, ho⟩ := C08_factorize_safe (nc := nc) hA hS ht l u rh pv
  have key : factorize64 nc (optPivot opt) (optTol opt) A.toCsc S.q S.lnz S.unz =
      factorize nc (optPivot opt) (optTol opt) A.toCsc S.q S.lnz S.unz := by
    refine (factorize_agree hA hS hn hl hu).eq fun h => ?_
    rw [SLIP_LU_factorize_eq hA, h] at ho
    cases ho
  have e : SLIP_LU_factorize64 nc true (some l) (some u) (some rh) (some pv) (some A) (some S) opt =
      SLIP_LU_factorize nc true (some l) (some u) (some rh) (some pv) (some A) (some S) opt := by
    unfold SLIP_LU_factorize64 SLIP_LU_factorize
    dsimp only
    rw [key]
  exact ⟨e, o, by rw [e, ho]⟩

example := C46_factorize (nc := Ex.nc) Ex.A_csc Ex.S_ok Ex.tol_ok (by norm_num) (by decide) (by decide)
  none none none none

theorem FactorizeOk.out (hA : IsCsc n A) (h : FactorizeOk nc opt A S L U R pinv) :
    ∃ F, factorize nc (optPivot opt) (optTol opt) A.toCsc S.q S.lnz S.unz = .ok F ∧
      L = Mat.ofCsc F.L ∧ U = Mat.ofCsc F.U ∧ R = Mat.ofDenseZ A.n 1 (max A.n 1) F.rhos ∧ pinv = F.pinv := by
  unfold FactorizeOk at h
  rw [SLIP_LU_factorize_eq hA] at h
  cases e : factorize nc (optPivot opt) (optTol opt) A.toCsc S.q S.lnz S.unz with
  | error f => rw [e] at h; cases f <;> cases h
  | ok F =>
    rw [e] at h
    cases h
    exact ⟨F, rfl, rfl, rfl, rfl, rfl⟩

/-- C46: the solve never overflows if the solution has at most `2^60` entries. -/
theorem C46_solve {opt' : Option Options} (hA : IsCsc n A) (hS : IsAnalysis n S) (ht : TolOk opt)
    (h : FactorizeOk nc opt A S L U R pinv) (hn0 : 0 < n) (hb : IsDenseZ n k b) (hsb : b.scale ≠ 0)
    (hn : (n : ℤ) ≤ 2 ^ 29) (hl : S.lnz ≤ 2 ^ 60) (hu : S.unz ≤ 2 ^ 60) (hnk : (n : ℤ) * k ≤ 2 ^ 60)
    (x0 : Option Mat) :
    SLIP_LU_solve64 true (some x0) (some b) (some A) (some L) (some U) (some R) (some S) (some pinv) opt' =
        SLIP_LU_solve true (some x0) (some b) (some A) (some L) (some U) (some R) (some S) (some pinv) opt' ∧
      ∃ o, SLIP_LU_solve64 true (some x0) (some b) (some A) (some L) (some U) (some R) (some S) (some pinv)
        opt' = .ok o := by
  obtain ⟨o, ho⟩ := C08_solve_safe (opt' := opt') hA hS ht h hn0 hb hsb x0
  obtain ⟨F, eF, rfl, rfl, rfl, rfl⟩ := FactorizeOk.out hA h
  have hF := (factorize_agree hA hS hn hl hu).post eF
  obtain ⟨τ, hτ⟩ := hS.perm
  have bm : b.toDense.m = n := hb.rows
  have bn : b.toDense.n = k := hb.cols
  have hrows : SmRows A.toCsc n := by
    intro j p0 p1 p r hj0 hj1 h0 h1 hp0 hp1 hr
    obtain ⟨t, rfl⟩ := Int.eq_ofNat_of_zero_le hj0
    obtain ⟨a, c, ha, hc, -, hcol, -⟩ := hA.col t (by omega)
    obtain rfl := Option.some.inj (h0.symm.trans ha)
    obtain rfl := Option.some.inj (h1.symm.trans hc)
    obtain ⟨⟨i, hi, e⟩, -⟩ := hcol p hp0 hp1
    have e' : get A.toCsc.i p = some (i : ℤ) := e
    rw [hr] at e'
    cases e'
    exact sm_of_lt (by omega) (B := n) (by omega) (by omega)
  have key : luSolve64 A.toCsc A.scale b.toDense b.scale
      { L := (Mat.ofCsc F.L).toCsc, U := (Mat.ofCsc F.U).toCsc,
        rhos := (Mat.ofDenseZ A.n 1 (max A.n 1) F.rhos).xz, pinv := F.pinv } S.q (optCheck opt') =
      luSolve A.toCsc A.scale b.toDense b.scale
      { L := (Mat.ofCsc F.L).toCsc, U := (Mat.ofCsc F.U).toCsc,
        rhos := (Mat.ofDenseZ A.n 1 (max A.n 1) F.rhos).xz, pinv := F.pinv } S.q (optCheck opt') := by
    refine (agree_luSolve ?_ ?_ ?_ ?_).eq fun hub => ?_
    · rw [bm, bn]; exact ⟨by omega, by omega, by omega, hnk⟩
    · rw [bm]; exact hF
    · rw [bm]; exact hrows
    · rw [bm]; exact fun m c h0 h1 h => smCol hτ hn m c h0 h1 h
    · obtain ⟨F', tol, r, pi, c, ci, lp, up, hF', e1, e2, -⟩ := h.fact hA hτ hS.lnz hS.unz ht
      have hub' : luSolve A.toCsc A.scale b.toDense b.scale F S.q (optCheck opt') = .error .ub := hub
      have lm : F.L.m = n := (congrArg Mat.m e1).trans hF'.ok.L.mEq
      have um : F.U.m = n := (congrArg Mat.m e2).trans hF'.ok.U.mEq
      rw [SLIP_LU_solve_eq hA hb ⟨lm, hF.Ln⟩ ⟨um, hF.Un⟩, hub'] at ho
      cases ho
  have e : SLIP_LU_solve64 true (some x0) (some b) (some A) (some (Mat.ofCsc F.L)) (some (Mat.ofCsc F.U))
      (some (Mat.ofDenseZ A.n 1 (max A.n 1) F.rhos)) (some S) (some F.pinv) opt' =
      SLIP_LU_solve true (some x0) (some b) (some A) (some (Mat.ofCsc F.L)) (some (Mat.ofCsc F.U))
      (some (Mat.ofDenseZ A.n 1 (max A.n 1) F.rhos)) (some S) (some F.pinv) opt' := by
    unfold SLIP_LU_solve64 SLIP_LU_solve
    dsimp only
    rw [key]
  exact ⟨e, o, by rw [e, ho]⟩

example := C46_solve (opt' := none) Ex.A_csc Ex.S_ok Ex.tol_ok Ex.factorize_ok (by decide)
  Ex.b_dense Ex.scale_ne.2 (by norm_num) (by decide) (by decide) (by norm_num) none

/-- C46, the whole pipeline: for a nonsingular matrix with at most `2^29` rows, and a right-hand side with
at most `2^60` entries, analyze, factorize and solve in 64-bit arithmetic all succeed, and the result is the
exact solution. -/
theorem C46_pipeline {O : Orderings} {o₁ o₂ o₃ : Option Options} (hO : AmdOk O o₁ n) (hA : IsCsc n A)
    (hb : IsDenseZ n k b) (hn0 : 0 < n) (hsA : A.scale ≠ 0) (hsb : b.scale ≠ 0) (ht : TolOk o₂)
    (hd : (A.matrix n).det ≠ 0) (hn : (n : ℤ) ≤ 2 ^ 29) (hnk : (n : ℤ) * k ≤ 2 ^ 60) :
    ∃ S L U R pinv x,
      SLIP_LU_analyze64 O true (some none) (some A) o₁ = .ok (.ok, some (some S)) ∧
      SLIP_LU_factorize64 nc true (some none) (some none) (some none) (some none) (some A) (some S) o₂ =
        .ok ⟨.ok, some (some L), some (some U), some (some R), some (some pinv)⟩ ∧
      SLIP_LU_solve64 true (some none) (some b) (some A) (some L) (some U) (some R) (some S) (some pinv) o₃ =
        .ok (.ok, some (some x)) ∧ IsDenseQ n k x ∧
      unscale (A.matrix n) A.scale * x.denseQ n k = unscale (b.denseZ n k) b.scale := by
  obtain ⟨S, L, U, R, pinv, x, h1, h2, h3, h4, h5⟩ :=
    C01_pipeline (nc := nc) (o₃ := o₃) hO hA hb hn0 hsA hsb ht hd
  obtain ⟨S', e, ⟨τ, hτ, -⟩, s1, s2, s3, s4⟩ :=
    C17_analysis_usable hO hA.kind hA.rows hA.cols hA.pattern hA.idx none
  rw [h1] at e
  cases e
  have hS : IsAnalysis n S := ⟨⟨τ, hτ⟩, s1, s2⟩
  have hnn : (n : ℤ) * n ≤ 2 ^ 60 := by nlinarith
  refine ⟨S, L, U, R, pinv, x, ?_, ?_, ?_, h4, h5⟩
  · rw [(C46_analyze hO hn hA.kind hA.rows hA.cols hA.pattern hA.idx none).1, h1]
  · rw [(C46_factorize hA hS ht hn (by omega) (by omega) none none none none).1]; exact h2
  · rw [(C46_solve hA hS ht h2 hn0 hb hsb hn (by omega) (by omega) hnk none).1]; exact h3

example := C46_pipeline (Ex.orderings_ok none) (nc := Ex.nc) (o₁ := none) (o₂ := none) (o₃ := none) Ex.A_csc
  Ex.b_dense (by decide) Ex.scale_ne.1 Ex.scale_ne.2 Ex.tol_ok (by rw [Ex.A_det]; decide) (by norm_num)
  (by norm_num)

/-- The size of a dense matrix is not guarded: `SLIP_matrix_allocate` accepts all `m, n ≥ 0` and computes
`m*n` in 64 bits. -/
theorem C46_dense_size_refuted :
    ¬ ∀ m n : ℤ, 0 ≤ m → 0 ≤ n → m < 2 ^ 63 → n < 2 ^ 63 → ∃ d, allocDense64 ℚ m n = .ok d := by
  intro h
  obtain ⟨d, hd⟩ := h (2 ^ 32) (2 ^ 32) (by norm_num) (by norm_num) (by norm_num) (by norm_num)
  unfold allocDense64 i64 at hd
  rw [if_neg (by norm_num)] at hd
  cases hd

end

end Slip
