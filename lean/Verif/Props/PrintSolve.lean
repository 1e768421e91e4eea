import Verif.Proof.PrintSolve3
import Verif.Props.Api

/-!
# C54: what the solver prints; C14: with checking, SLIP_OK means exact for any factors
-/

namespace Slip

open Out (Line)

section
variable {n k : ℕ} {A b : Mat}

/-- C14: whatever the factors, pivots and permutations handed to it - they need not come from a factorization, let alone
one of `A` - a solve with checking switched on that returns SLIP_OK has returned the exact solution. -/
theorem C14_checked_any_factors {opt : Option Options} {x0 : Option Mat} {L U R : Option Mat} {S : Option Analysis}
    {pinv : Option (Arr Int)} {h : Handle Mat} (hA : IsCsc n A) (hb : IsDenseZ n k b) (hsA : A.scale ≠ 0)
    (hsb : b.scale ≠ 0) (hc : optCheck opt = true)
    (hr : SLIP_LU_solve true (some x0) (some b) (some A) L U R S pinv opt = .ok (.ok, h)) :
    ∃ x, h = some (some x) ∧ IsDenseQ n k x ∧
      unscale (A.matrix n) A.scale * x.denseQ n k = unscale (b.denseZ n k) b.scale := by
  rcases Out.solve_cases true (some x0) (some b) (some A) L U R S pinv opt with
    ⟨e, he, -, h1⟩ | ⟨b', A', F, q, e1, e2, -, h1⟩
  · rw [h1] at hr
    cases hr
    rcases he with he | he <;> cases he
  · cases e1; cases e2
    rw [h1, hc] at hr
    cases hy : luSolve A.toCsc A.scale b.toDense b.scale F q true with
    | error e =>
      rw [hy] at hr
      rcases e with _ | _ | e
      · cases hr
      · cases hr
      · have h2 := (Out.luSolve_prints A.toCsc A.scale b.toDense b.scale F q opt)
        obtain ⟨c, out, hs, -, h3⟩ := h2
        obtain ⟨L', h4, -⟩ := Out.luSolve_lev (o := opt) (o' := opt) ⟨rfl, rfl, rfl, rfl, rfl, rfl⟩ A.toCsc A.scale
          b.toDense b.scale F q
        rw [hc, hy] at h4
        obtain ⟨rfl, -⟩ := hs.unique h4
        obtain ⟨rfl, -⟩ := h3 e rfl
        cases hr
    | ok y =>
      rw [hy] at hr
      cases hr
      obtain ⟨x, xm, xn, xz, ⟨xl, xf⟩, hck, hsc⟩ := Out.luSolve_checked A.toCsc A.scale b.toDense b.scale F q y hy
      have bm : b.toDense.m = n := hb.rows
      have bn : b.toDense.n = k := hb.cols
      rw [bm, bn] at xf xl xz
      rw [bm] at xm
      rw [bn] at xn
      obtain ⟨ap, hok, hnd⟩ := hA.aok
      have hlen : x.x.length = max (n * k) 1 := by rw [xl]; omega
      have hX : IsMat n k x.x (fun i j => (get x.x ((i : ℤ) + j * n)).getD 0) := by
        intro i hi j hj
        have hlt : (i : ℤ) + j * n < (max (n * k) 1 : ℕ) := by
          have : i + j * n < n * k := by nlinarith
          have h3 : n * k ≤ max (n * k) 1 := le_max_left _ _
          exact_mod_cast lt_of_lt_of_le this h3
        obtain ⟨v, hv⟩ := xf ((i : ℤ) + j * n) (by positivity) (by rw [← xl, hlen]; exact hlt)
        unfold ix2; beta_reduce; rw [hv]; rfl
      have hs := slip_check_solution_spec (x := x) (b := b.toDense) hok hnd hb.rows hb.cols hb.isMat xm hX
      rw [hs] at hck
      have hall : ∀ i < n, ∀ j < k, ∑ l ∈ Finset.range n, (A.entry i l : ℚ) * (get x.x ((l : ℤ) + j * n)).getD 0 =
          (((get b.xz ((i : ℤ) + j * n)).getD 0 : ℤ) : ℚ) := by
        by_contra hcon
        rw [if_neg hcon] at hck
        cases hck
      obtain ⟨z, ez, hzl, hz⟩ := scaleSolution_spec (sA := A.scale) xm xn hX hsb
      rw [ez] at hsc
      cases hsc
      refine ⟨_, rfl, ⟨rfl, rfl, xm, xn, ?_, ?_, ⟨rfl, rfl, rfl, rfl⟩, ⟨rfl, rfl, rfl⟩, rfl, fun i hi j hj =>
        ⟨_, hz i hi j hj⟩⟩, ?_⟩
      · exact xz
      · show z.length = _
        rw [hzl, hlen]
      · ext i j
        have hx : ∀ l : Fin n, (Mat.ofDenseQ { x with x := z }).denseQ n k l j =
            (get x.x ((l : ℕ) + ((j : ℕ) : ℤ) * n)).getD 0 * (A.scale / b.scale) := by
          intro l
          have := hz l l.2 j j.2
          unfold ix2 at this
          change (get z _).getD 0 = _
          rw [this]; rfl
        have h3 := hall i i.2 j j.2
        rw [Finset.sum_range] at h3
        simp only [Matrix.mul_apply, unscale, Matrix.of_apply, hx]
        have e : ∀ l : Fin n, (A.matrix n i l : ℚ) / A.scale *
            ((get x.x ((l : ℕ) + ((j : ℕ) : ℤ) * n)).getD 0 * (A.scale / b.scale)) =
            (A.entry i l : ℚ) * (get x.x ((l : ℕ) + ((j : ℕ) : ℤ) * n)).getD 0 / b.scale := fun l => by
          show (A.entry i l : ℚ) / A.scale * _ = _
          field_simp
        simp only [e]
        rw [← Finset.sum_div, h3]
        rfl

end

namespace Out

section
variable {n k : ℕ} {A b : Mat} {O : Orderings} {fp : Fp} {nc : Int → Int → ℚ → Bool} {opt o o' : Option Options}

theorem Lev.out {α : Type} {m m' : P α} {c : C α} (h : Lev (optPrint o) (optPrint o') m m' c) :
    (m []).1 = c ∧ (m' []).1 = c ∧ (optPrint o ≤ 0 → (m []).2 = []) ∧
      (1 ≤ optPrint o → 1 ≤ optPrint o' → (m []).2 = (m' []).2) := by
  obtain ⟨L, h1, h2⟩ := h
  rw [h1 [], h2 []]
  refine ⟨rfl, rfl, fun h => by rw [if_neg (by omega)]; rfl, fun h h' => ?_⟩
  rw [if_pos (show optPrint o ≥ 1 from h), if_pos (show optPrint o' ≥ 1 from h')]

/-- C54: the print level does not influence what `SLIP_LU_analyze` returns; at level 0 and below (and without options) it
prints nothing; all levels from 1 on print the same. For arguments of any kind. -/
theorem C54_analyze_levels (h : SameButLevel o o') (O : Orderings) (init : Bool) (S : Handle Analysis) (A : Option Mat) :
    (SLIP_LU_analyze O init S A o []).1 = Slip.SLIP_LU_analyze O init S A o ∧
    (SLIP_LU_analyze O init S A o' []).1 = Slip.SLIP_LU_analyze O init S A o ∧
    (optPrint o ≤ 0 → (SLIP_LU_analyze O init S A o []).2 = []) ∧
    (1 ≤ optPrint o → 1 ≤ optPrint o' →
      (SLIP_LU_analyze O init S A o []).2 = (SLIP_LU_analyze O init S A o' []).2) :=
  (analyze_lev h O init S A).out

/-- C54: the same for `SLIP_LU_solve`. -/
theorem C54_solve_levels (h : SameButLevel o o') (init : Bool) (x : Handle Mat) (b A L U rhos : Option Mat)
    (S : Option Analysis) (pinv : Option (Arr Int)) :
    (SLIP_LU_solve init x b A L U rhos S pinv o []).1 = Slip.SLIP_LU_solve init x b A L U rhos S pinv o ∧
    (SLIP_LU_solve init x b A L U rhos S pinv o' []).1 = Slip.SLIP_LU_solve init x b A L U rhos S pinv o ∧
    (optPrint o ≤ 0 → (SLIP_LU_solve init x b A L U rhos S pinv o []).2 = []) ∧
    (1 ≤ optPrint o → 1 ≤ optPrint o' →
      (SLIP_LU_solve init x b A L U rhos S pinv o []).2 = (SLIP_LU_solve init x b A L U rhos S pinv o' []).2) :=
  (solve_lev h init x b A L U rhos S pinv).out

/-- C54: the same for `SLIP_backslash`. -/
theorem C54_backslash_levels (h : SameButLevel o o') (fp : Fp) (O : Orderings) (nc : Int → Int → ℚ → Bool) (init : Bool)
    (X : Handle Mat) (t : Ty) (A b : Option Mat) :
    (SLIP_backslash fp O nc init X t A b o []).1 = Slip.SLIP_backslash fp O nc init X t A b o ∧
    (SLIP_backslash fp O nc init X t A b o' []).1 = Slip.SLIP_backslash fp O nc init X t A b o ∧
    (optPrint o ≤ 0 → (SLIP_backslash fp O nc init X t A b o []).2 = []) ∧
    (1 ≤ optPrint o → 1 ≤ optPrint o' →
      (SLIP_backslash fp O nc init X t A b o []).2 = (SLIP_backslash fp O nc init X t A b o' []).2) :=
  (backslash_lev h fp O nc init X t A b).out

/-- C54: what `SLIP_LU_analyze` prints for a valid square matrix (values of any type): with SLIP_NO_ORDERING nothing;
with AMD a heading and AMD's reports, whose status is "OK" if the row indices of each column increase and "OK, but
jumbled" otherwise; with COLAMD a heading, a report "OK", and ten times the number of entries of `A`. The number of nonzeros
that is printed is the estimate in the result except for the safety margin: see `OrderingReport`. -/
theorem C54_ordering (hO : AmdOk O opt n) (hk : A.kind = .csc) (hm : A.m = n) (hn : A.n = n)
    (hp : IsPattern n (deref A.p) (deref A.i)) (hi : A.i ≠ none) (S0 : Option Analysis) :
    ∃ S out, SLIP_LU_analyze O true (some S0) (some A) opt [] =
        (.ok (.ok, some (some S)), if optPrint opt ≥ 1 then out else []) ∧
      OrderingReport n (deref A.p) (deref A.i) S.lnz (optOrder opt) out := by
  obtain ⟨S, out, hs, hr⟩ := analyzeBody_says hO hk hn hp hi
  refine ⟨S, out, ?_, hr⟩
  unfold SLIP_LU_analyze
  simp only [Bool.not_true, Bool.false_eq_true, if_false, hk, ne_eq, not_true_eq_false, reduceCtorEq, false_or, hm, hn]
  rw [bind_run, hs []]
  rfl

/-- C54: what `SLIP_LU_solve` prints, for arguments of any kind: if it returns SLIP_OK, "Solution is verified to be exact."
if checking is on and the level is 1 or more; if it returns SLIP_INCORRECT, which it does only if checking is on, the error
message, from level 1 on; otherwise nothing. -/
theorem C54_solve_output (init : Bool) (x : Handle Mat) (b A L U rhos : Option Mat) (S : Option Analysis)
    (pinv : Option (Arr Int)) (opt : Option Options) {e : Info} {h : Handle Mat}
    (hr : (SLIP_LU_solve init x b A L U rhos S pinv opt []).1 = .ok (e, h)) :
    (e = .ok → (SLIP_LU_solve init x b A L U rhos S pinv opt []).2 =
      if optCheck opt = true ∧ optPrint opt ≥ 1 then [.verified] else []) ∧
    (e = .incorrect → optCheck opt = true ∧ (SLIP_LU_solve init x b A L U rhos S pinv opt []).2 =
      if optPrint opt ≥ 1 then [.wrong] else []) ∧
    (e ≠ .ok → e ≠ .incorrect → (SLIP_LU_solve init x b A L U rhos S pinv opt []).2 = []) := by
  obtain ⟨c, out, hs, h1, h2, h3⟩ := solve_says init x b A L U rhos S pinv opt
  rw [hs []] at hr ⊢
  simp only at hr
  subst hr
  refine ⟨?_, ?_, h3 e h rfl⟩
  · rintro rfl; exact h1 h rfl
  · rintro rfl; exact h2 h rfl

/-- C54: "Solution is verified to be exact." is true. Whatever factors, pivots and permutations `SLIP_LU_solve` is given:
if it prints that, it returns SLIP_OK and the exact solution. -/
theorem C54_verified_true {x0 : Option Mat} {L U R : Option Mat} {S : Option Analysis} {pinv : Option (Arr Int)}
    {e : Info} {h : Handle Mat} (hA : IsCsc n A) (hb : IsDenseZ n k b) (hsA : A.scale ≠ 0) (hsb : b.scale ≠ 0)
    (hr : (SLIP_LU_solve true (some x0) (some b) (some A) L U R S pinv opt []).1 = .ok (e, h))
    (hv : .verified ∈ (SLIP_LU_solve true (some x0) (some b) (some A) L U R S pinv opt []).2) :
    e = .ok ∧ ∃ x, h = some (some x) ∧ IsDenseQ n k x ∧
      unscale (A.matrix n) A.scale * x.denseQ n k = unscale (b.denseZ n k) b.scale := by
  obtain ⟨h1, h2, h3⟩ := C54_solve_output true (some x0) (some b) (some A) L U R S pinv opt hr
  by_cases he : e = .ok
  · subst he
    rw [h1 rfl] at hv
    split at hv
    · rename_i hc
      refine ⟨rfl, C14_checked_any_factors (x0 := x0) (L := L) (U := U) (R := R) (S := S) (pinv := pinv) hA hb hsA hsb hc.1 ?_⟩
      rw [← (C54_solve_levels (o := opt) (o' := opt) ⟨rfl, rfl, rfl, rfl, rfl, rfl⟩ ..).1]
      exact hr
    · cases hv
  · by_cases hi : e = .incorrect
    · rw [(h2 hi).2] at hv
      split at hv
      · simp at hv
      · cases hv
    · rw [h3 he hi] at hv
      cases hv

/-- C54: what `SLIP_backslash` prints for a valid nonsingular system: the report on the ordering, then, if checking is on,
"Solution is verified to be exact."; at level 0 and below nothing. The error message is never printed. -/
theorem C54_backslash_output (hO : AmdOk O opt n) (hA : IsCsc n A) (hb : IsDenseZ n k b) (hn : 0 < n)
    (hsA : A.scale ≠ 0) (hsb : b.scale ≠ 0) (ht : TolOk opt) (hd : (A.matrix n).det ≠ 0) {t : Ty}
    (hty : t = .mpq ∨ t = .fp64 ∨ t = .mpfr) (X : Option Mat) :
    ∃ lnz out, OrderingReport n (deref A.p) (deref A.i) lnz (optOrder opt) out ∧
      (SLIP_backslash fp O nc true (some X) t (some A) (some b) opt []).2 =
        if optPrint opt ≥ 1 then out ++ (if optCheck opt = true then [.verified] else []) else [] := by
  obtain ⟨S, L, U, R, pinv, x, e, hf, hx, -⟩ := C01_pipeline hO (nc := nc) (o₁ := opt) (o₂ := opt)
    (o₃ := opt) hA hb hn hsA hsb ht hd
  obtain ⟨S', out, es, hrep⟩ := C54_ordering hO hA.kind hA.rows hA.cols hA.pattern hA.idx none
  have hlv := (C54_analyze_levels (o := opt) (o' := opt) ⟨rfl, rfl, rfl, rfl, rfl, rfl⟩ O true (some none) (some A)).1
  rw [es, e] at hlv
  obtain rfl : S' = S := by cases hlv; rfl
  have hsv := (C54_solve_levels (o := opt) (o' := opt) ⟨rfl, rfl, rfl, rfl, rfl, rfl⟩ true (some none) (some b) (some A)
    (some L) (some U) (some R) (some S') (some pinv)).1
  rw [show Slip.SLIP_LU_solve true (some none) (some b) (some A) (some L) (some U) (some R) (some S') (some pinv) opt = _
    from hx] at hsv
  have hso := (C54_solve_output true (some none) (some b) (some A) (some L) (some U) (some R) (some S') (some pinv) opt hsv).1
    rfl
  obtain ⟨c, o2, hS2, -⟩ := solve_says true (some none) (some b) (some A) (some L) (some U) (some R) (some S') (some pinv) opt
  rw [hS2 []] at hsv hso
  simp only [List.nil_append] at hsv hso
  subst hsv
  subst hso
  refine ⟨S'.lnz, out, hrep, ?_⟩
  unfold SLIP_backslash
  simp only [Bool.not_true, Bool.false_eq_true, if_false, reduceCtorEq]
  rw [if_neg (by rcases hty with rfl | rfl | rfl <;> simp),
    if_neg (by simp [requireFails, hA.kind, hA.type]), if_neg (by simp [requireFails, hb.kind, hb.type])]
  unfold FactorizeOk at hf
  rw [bind_run, es]
  simp only [ne_eq, not_true_eq_false, if_false, Option.join, Option.bind_some, id, hf, lift_ok_bind]
  rw [bind_run, hS2]
  simp only [ne_eq, not_true_eq_false, if_false]
  have key : ∀ o, ((if t = .mpq then (Pure.pure (Info.ok, some (some x)) : P (Info × Handle Mat))
      else (do
        let r ← lift (SLIP_matrix_copy fp true (some none) .dense t ((some (some x)).bind id) opt)
        if r.1 ≠ .ok then Pure.pure (r.1, some none) else Pure.pure (.ok, r.2))) o).2 = o := by
    intro o
    by_cases h : t = .mpq
    · rw [if_pos h]; rfl
    · rw [if_neg h, bind_run]
      cases SLIP_matrix_copy fp true (some none) .dense t ((some (some x)).bind id) opt with
      | error e => rfl
      | ok r =>
        show ((if r.1 ≠ .ok then _ else _ : P _) o).2 = o
        by_cases h' : r.1 ≠ .ok
        · rw [if_pos h']; rfl
        · rw [if_neg h']; rfl
  refine (key _).trans ?_
  by_cases hp : optPrint opt ≥ 1 <;> by_cases hc : optCheck opt = true <;> simp [hp, hc]

/-- C54: for a singular matrix `SLIP_backslash` prints the report on the ordering and nothing else. -/
theorem C54_backslash_singular (hO : AmdOk O opt n) (hA : IsCsc n A) (hbk : b.kind = .dense)
    (hbt : b.type = .mpz) (ht : TolOk opt) (hd : (A.matrix n).det = 0) {t : Ty}
    (hty : t = .mpq ∨ t = .fp64 ∨ t = .mpfr) (X : Option Mat) :
    ∃ lnz out, OrderingReport n (deref A.p) (deref A.i) lnz (optOrder opt) out ∧
      SLIP_backslash fp O nc true (some X) t (some A) (some b) opt [] =
        (.ok (.singular, some none), if optPrint opt ≥ 1 then out else []) := by
  obtain ⟨S, e, ⟨τ, hτ, -⟩, h1, h2, -⟩ :=
    C17_analysis_usable hO hA.kind hA.rows hA.cols hA.pattern hA.idx none
  have hS : IsAnalysis n S := ⟨⟨τ, hτ⟩, h1, h2⟩
  obtain ⟨S', out, es, hrep⟩ := C54_ordering hO hA.kind hA.rows hA.cols hA.pattern hA.idx none
  have hlv := (C54_analyze_levels (o := opt) (o' := opt) ⟨rfl, rfl, rfl, rfl, rfl, rfl⟩ O true (some none) (some A)).1
  rw [es, e] at hlv
  obtain rfl : S' = S := by cases hlv; rfl
  refine ⟨S'.lnz, out, hrep, ?_⟩
  unfold SLIP_backslash
  simp only [Bool.not_true, Bool.false_eq_true, if_false, reduceCtorEq]
  rw [if_neg (by rcases hty with rfl | rfl | rfl <;> simp),
    if_neg (by simp [requireFails, hA.kind, hA.type]), if_neg (by simp [requireFails, hbk, hbt])]
  rw [bind_run, es]
  simp only [ne_eq, not_true_eq_false, if_false, Option.join, Option.bind_some, id]
  rw [(C02_singular_verdict_exact (nc := nc) hA hS ht none none none none).1 hd, lift_ok_bind]
  rfl

end

/-- Options: COLAMD or AMD, with checking, at this print level. -/
def exOpt (order : ColOrder) (L : Int) : Option Options :=
  some { pivot := .tolSmallest, order := order, tol := .fin 1, printLevel := L, prec := 128, round := 0, check := true }

theorem exOpt_same (order : ColOrder) (L L' : Int) : SameButLevel (exOpt order L) (exOpt order L') :=
  ⟨rfl, rfl, rfl, rfl, rfl, rfl⟩

example := C54_analyze_levels (exOpt_same .amd 0 2) Ex.orderings true (some none) (some Ex.A)
example := C54_solve_levels (exOpt_same .amd 0 2) true (some none) (some Ex.b) (some Ex.A) (some Ex.L) (some Ex.U)
  (some Ex.R) (some Ex.S) (some Ex.pinv)
example := C54_backslash_levels (exOpt_same .amd 0 2) Ex.fp Ex.orderings Ex.nc true (some none) .mpq (some Ex.A) (some Ex.b)
/-- No options are the default options, with print level 0. -/
example : SameButLevel none (some ⟨.tolSmallest, .colamd, .fin 1, 3, 128, 0, false⟩) := ⟨rfl, rfl, rfl, rfl, rfl, rfl⟩
example := C54_ordering (opt := exOpt .amd 1) (Ex.orderings_ok _) (A := Ex.A) rfl rfl rfl Ex.A_csc.pattern Ex.A_csc.idx none
example := C54_backslash_output (opt := exOpt .colamd 1) (fp := Ex.fp) (nc := Ex.nc) (Ex.orderings_ok _) Ex.A_csc
  Ex.b_dense (by decide) Ex.scale_ne.1 Ex.scale_ne.2 (fun _ => ⟨1, rfl⟩) (by rw [Ex.A_det]; decide) (t := .fp64) (by simp) none
example := C54_backslash_singular (opt := exOpt .colamd 1) (fp := Ex.fp) (nc := Ex.nc) (Ex.orderings_ok _) Ex.A0_csc
  (b := Ex.b) rfl rfl (fun _ => ⟨1, rfl⟩) Ex.A0_det (t := .fp64) (by simp) none

/-- The output of a solve with the right factors, at levels 1 and 0. -/
example : SLIP_LU_solve true (some none) (some Ex.b) (some Ex.A) (some Ex.L) (some Ex.U) (some Ex.R) (some Ex.S)
      (some Ex.pinv) (exOpt .colamd 1) [] = (.ok (.ok, some (some Ex.x)), [.verified]) ∧
    SLIP_LU_solve true (some none) (some Ex.b) (some Ex.A) (some Ex.L) (some Ex.U) (some Ex.R) (some Ex.S)
      (some Ex.pinv) (exOpt .colamd 0) [] = (.ok (.ok, some (some Ex.x)), []) :=
  ⟨by decide +kernel, by decide +kernel⟩

/-- A solve with factors of another matrix: the error is found and reported. -/
theorem C54_wrong_factors_reported : SLIP_LU_solve true (some none) (some Ex.b) (some Ex.A0) (some Ex.L) (some Ex.U)
      (some Ex.R) (some Ex.S) (some Ex.pinv) (exOpt .colamd 1) [] = (.ok (.incorrect, some none), [.wrong]) := by
  decide +kernel

example := C54_solve_output true (some none) (some Ex.b) (some Ex.A0) (some Ex.L) (some Ex.U) (some Ex.R) (some Ex.S)
  (some Ex.pinv) (exOpt .colamd 1) (congrArg Prod.fst C54_wrong_factors_reported)

/-- The message is printed for the right factors, and so the hypotheses of `C54_verified_true` can be met. -/
example := C54_verified_true (opt := exOpt .colamd 1) (x0 := none) (L := some Ex.L) (U := some Ex.U) (R := some Ex.R)
  (S := some Ex.S) (pinv := some Ex.pinv) (e := .ok) (h := some (some Ex.x)) Ex.A_csc Ex.b_dense Ex.scale_ne.1
  Ex.scale_ne.2 (by decide +kernel) (by decide +kernel)

/-- C54: the number printed as "Estimated L and U nonzeros" need not be the estimate that is returned (and used): for this
matrix of order 3 with six entries it is 60, and the estimate returned is at most 9. -/
theorem C54_estimate_refuted : ∃ S, SLIP_LU_analyze Ex.orderings true (some none) (some Ex.A) (exOpt .colamd 1) [] =
      (.ok (.ok, some (some S)), [.heading, .colamd true, .estimate 60]) ∧ S.lnz ≠ 60 := by
  obtain ⟨S, out, e, nz, h1, rfl, h3⟩ := C54_ordering (opt := exOpt .colamd 1) (Ex.orderings_ok _) (A := Ex.A) rfl rfl rfl
    Ex.A_csc.pattern Ex.A_csc.idx none
  have hz : nz = 6 := by
    have h2 : get (deref Ex.A.p) ((3 : ℕ) : ℤ) = some 6 := rfl
    exact Option.some.inj (h1.symm.trans h2)
  subst hz
  refine ⟨S, e, fun h => ?_⟩
  have := (h3.1 h).2
  norm_num at this

end Out

example := C14_checked_any_factors (opt := Ex.optCheck) (x0 := none) (L := some Ex.L) (U := some Ex.U) (R := some Ex.R)
  (S := some Ex.S) (pinv := some Ex.pinv) (h := some (some Ex.x)) Ex.A_csc Ex.b_dense Ex.scale_ne.1
  Ex.scale_ne.2 rfl (by decide +kernel)

end Slip
