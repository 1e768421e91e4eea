import Verif.Proof.Bridge

/-! The two outcomes of a factorization, and of a solve, at the level of the user-callable
functions. -/

namespace Slip

open Finset

/-- Everything known about a successful factorization. -/
structure Fact (opt : Option Options) (n : ℕ) (A : Mat) (τ : Equiv.Perm (Fin n)) (F : Factors)
    (tol : ℚ) (r pi c ci : ℕ → ℕ) (lp up : ℕ → ℤ) : Prop where
  ok : FOk (optPivot opt) tol A.entry c n r pi lp up F
  col : PermPair n ci c
  colEq : ∀ t : Fin n, c t = (τ t : ℕ)
  tolEq : (optPivot opt).usesTol → optTol opt = .fin tol

theorem factorize_main {nc} {opt : Option Options} {n : ℕ} {A : Mat} {S : Analysis}
    {τ : Equiv.Perm (Fin n)} (hA : IsCsc n A) (hq : Holds S.q τ) (hl : (n : ℤ) ≤ S.lnz)
    (hu : (n : ℤ) ≤ S.unz) (ht : TolOk opt) :
    ((A.matrix n).det = 0 ∧
      factorize nc (optPivot opt) (optTol opt) A.toCsc S.q S.lnz S.unz = .error (.ret .singular)) ∨
    ((A.matrix n).det ≠ 0 ∧ ∃ F tol r pi c ci lp up,
      factorize nc (optPivot opt) (optTol opt) A.toCsc S.q S.lnz S.unz = .ok F ∧
      Fact opt n A τ F tol r pi c ci lp up) := by
  obtain ⟨t, e, het⟩ := exists_fin_tol ht nc
  obtain ⟨ap, hok, -⟩ := hA.aok
  obtain ⟨c, ci, hc, hp, hcτ⟩ := hq.isFn
  have hs := factorize_spec (nc := nc) (order := optPivot opt) (tol := t) hok hA.cols hc hp.rlt
    (fun t ht u hu e => by rw [← hp.pr t ht, ← hp.pr u hu, e]) hl hu
  rw [e]
  cases hf : factorize nc (optPivot opt) (.fin t) A.toCsc S.q S.lnz S.unz with
  | error f =>
    rw [hf, wp_error] at hs
    exact Or.inl ⟨hs.2, by rw [hs.1]⟩
  | ok F =>
    rw [hf, wp_ok] at hs
    obtain ⟨r, pi, lp, up, hF⟩ := hs
    refine Or.inr ⟨?_, F, t, r, pi, c, ci, lp, up, rfl, hF, hp, hcτ, het⟩
    intro h0
    have h1 := piv_eq_sign_det A.entry r c n hF.perm.toPerm hp.toPerm (fun _ => rfl) (fun _ => rfl)
    rw [toMat_entry, h0, mul_zero] at h1
    exact hF.rho.ne n (le_refl _) h1

theorem IsCsc.nnz {n : ℕ} {A : Mat} (h : IsCsc n A) :
    ∃ z, SLIP_matrix_nnz true (some A) = .ok z ∧ 0 ≤ z ∧ get (deref A.p) n = some z := by
  obtain ⟨ap, hok, -⟩ := h.aok
  have h1 : get (deref A.p) (n : ℤ) = some (ap n) := hok.ptr n (le_refl _)
  have h0 : ap 0 = 0 := by
    have h2 : get (deref A.p) ((0 : ℕ) : ℤ) = some (ap 0) := hok.ptr 0 (by omega)
    rw [Nat.cast_zero, h.p0] at h2
    exact (Option.some.inj h2).symm
  have hmono : ∀ t, t ≤ n → 0 ≤ ap t := by
    intro t
    induction t with
    | zero => intro _; omega
    | succ t ih => intro ht; have := hok.mono t (by omega); have := ih (by omega); omega
  refine ⟨ap n, ?_, hmono n (le_refl _), h1⟩
  unfold SLIP_matrix_nnz
  simp only [Bool.not_true, Bool.false_eq_true, if_false, h.kind]
  cases hp : A.p with
  | none => rw [hp] at h1; simp [deref, Slip.get] at h1
  | some p =>
    rw [hp] at h1
    simp only [h.cols]
    rw [if_neg (by omega)]
    exact rd_eq h1

/-- The API call reduces to `factorize`. -/
theorem SLIP_LU_factorize_eq {nc} {opt : Option Options} {n : ℕ} {A : Mat} {S : Analysis}
    (hA : IsCsc n A) (l u rh : Option Mat) (pv : Option (Arr Int)) :
    SLIP_LU_factorize nc true (some l) (some u) (some rh) (some pv) (some A) (some S) opt =
      factWrap A.n (factorize nc (optPivot opt) (optTol opt) A.toCsc S.q S.lnz S.unz) := by
  obtain ⟨z, hz, hz0, -⟩ := hA.nnz
  unfold SLIP_LU_factorize
  simp only [Bool.not_true, Bool.false_eq_true, if_false, hA.kind, hA.type, ne_eq,
    not_true_eq_false, hz, ok_bind, reduceCtorEq, false_or]
  rw [if_neg (by omega)]

theorem SLIP_LU_solve_eq {opt : Option Options} {n k : ℕ} {A b : Mat} {S : Analysis} {F : Factors}
    (hA : IsCsc n A) (hb : IsDenseZ n k b) (hL : F.L.m = n ∧ F.L.n = n)
    (hU : F.U.m = n ∧ F.U.n = n) (x : Option Mat) :
    SLIP_LU_solve true (some x) (some b) (some A) (some (Mat.ofCsc F.L)) (some (Mat.ofCsc F.U))
      (some (Mat.ofDenseZ A.n 1 (max A.n 1) F.rhos)) (some S) (some F.pinv) opt =
    solveWrap (luSolve A.toCsc A.scale b.toDense b.scale F S.q (optCheck opt)) := by
  unfold SLIP_LU_solve
  have e1 : requireFails (some b) .dense .mpz = false := by
    simp [requireFails, hb.kind, hb.type]
  have e2 : requireFails (some A) .csc .mpz = false := by
    simp [requireFails, hA.kind, hA.type]
  have e3 : ∀ M, requireFails (some (Mat.ofCsc M)) .csc .mpz = false := by
    simp [requireFails, Mat.ofCsc]
  have e4 : ∀ a b c d, requireFails (some (Mat.ofDenseZ a b c d)) .dense .mpz = false := by
    simp [requireFails, Mat.ofDenseZ]
  simp only [e1, e2, e3, e4, Bool.not_true, Bool.false_eq_true, if_false]
  rw [if_neg]
  · rfl
  · simp [Mat.ofCsc, hA.rows, hA.cols, hb.rows, hL, hU]

end Slip

namespace Slip

open Finset

theorem FactorizeOk.fact {nc} {opt : Option Options} {n : ℕ} {A : Mat} {S : Analysis}
    {L U R : Mat} {pinv : Arr Int}
    {τ : Equiv.Perm (Fin n)} (h : FactorizeOk nc opt A S L U R pinv)
    (hA : IsCsc n A) (hq : Holds S.q τ) (hl : (n : ℤ) ≤ S.lnz)
    (hu : (n : ℤ) ≤ S.unz) (ht : TolOk opt) :
    ∃ F tol r pi c ci lp up, Fact opt n A τ F tol r pi c ci lp up ∧ L = Mat.ofCsc F.L ∧
      U = Mat.ofCsc F.U ∧ R = Mat.ofDenseZ A.n 1 (max A.n 1) F.rhos ∧ pinv = F.pinv ∧
      (A.matrix n).det ≠ 0 := by
  unfold FactorizeOk at h
  rw [SLIP_LU_factorize_eq hA] at h
  rcases factorize_main (nc := nc) hA hq hl hu ht with ⟨-, e⟩ | ⟨hd, F, tol, r, pi, c, ci, lp, up, e, hF⟩
  · rw [e] at h
    cases h
  · rw [e] at h
    simp only [factWrap, pure, Except.pure, Except.ok.injEq, FactOut.mk.injEq, Option.some.injEq,
      true_and] at h
    obtain ⟨h1, h2, h3, h4⟩ := h
    exact ⟨F, tol, r, pi, c, ci, lp, up, hF, h1.symm, h2.symm, h3.symm, h4.symm, hd⟩

section
variable {opt : Option Options} {n : ℕ} {A : Mat} {τ : Equiv.Perm (Fin n)} {F : Factors} {tol : ℚ}
  {r pi c ci : ℕ → ℕ} {lp up : ℕ → ℤ}

theorem Fact.Lentry (h : Fact opt n A τ F tol r pi c ci lp up) {s t : ℕ} (hs : s < n) (ht : t < n) :
    (Mat.ofCsc F.L).entry s t = lev A.entry r c t (fun i => A.entry i (c t)) (r s) :=
  h.ok.L.entry (fun t _ s _ hS => lev_row_eq_zero _ _ _ (by omega) _) hs ht

theorem Fact.Uentry (h : Fact opt n A τ F tol r pi c ci lp up) {s t : ℕ} (hs : s < n) (ht : t < n) :
    (Mat.ofCsc F.U).entry s t = lev A.entry r c s (fun i => A.entry i (c t)) (r s) :=
  h.ok.U.entry (fun t _ s _ hS => lev_col_eq_zero _ _ _ (by omega) _) hs ht

theorem Fact.rhoEq (h : Fact opt n A τ F tol r pi c ci lp up) {t : ℕ} (ht : t < n) :
    get (Mat.ofDenseZ A.n 1 (max A.n 1) F.rhos).xz (t : ℤ) = some (piv A.entry r c (t + 1)) :=
  h.ok.rho.val t ht

/-- The row permutation. -/
def Fact.σ (h : Fact opt n A τ F tol r pi c ci lp up) : Equiv.Perm (Fin n) := h.ok.perm.toPerm

theorem Fact.pinvHolds (h : Fact opt n A τ F tol r pi c ci lp up) : Holds F.pinv h.σ.symm :=
  fun i => h.ok.pinv i i.2

theorem Holds.unique {q : Arr Int} {σ σ' : Equiv.Perm (Fin n)} (h : Holds q σ) (h' : Holds q σ') :
    σ = σ' := by
  ext t
  have := (h t).symm.trans (h' t)
  have := Option.some.inj this
  omega

theorem Fact.pivDet (h : Fact opt n A τ F tol r pi c ci lp up) :
    piv A.entry r c n =
      (Equiv.Perm.sign h.σ : ℤ) * (Equiv.Perm.sign τ : ℤ) * (A.matrix n).det :=
  piv_eq_sign_det A.entry r c n h.σ τ (fun _ => rfl) (fun x => (h.colEq x).symm)

/-- Telescoped elimination: `A = L D⁻¹ U` entrywise. -/
theorem lev_telescope {A : ℕ → ℕ → ℤ} {r c : ℕ → ℕ} {n : ℕ} (hp : ∀ t ≤ n, piv A r c t ≠ 0)
    (v : ℕ → ℤ) (i : ℕ) : ∀ k, k ≤ n →
    (v i : ℚ) = (lev A r c k v i : ℚ) / piv A r c k +
      ∑ t ∈ range k, (lev A r c t (fun i => A i (c t)) i : ℚ) * (lev A r c t v (r t) : ℚ) /
        ((piv A r c t : ℚ) * piv A r c (t + 1))
  | 0, _ => by simp
  | k + 1, hk => by
    have h0 : (piv A r c k : ℚ) ≠ 0 := by exact_mod_cast hp k (by omega)
    have h1 : (piv A r c (k + 1) : ℚ) ≠ 0 := by exact_mod_cast hp (k + 1) hk
    have ih := lev_telescope hp v i k (by omega)
    have hs := lev_step A r c k (hp k (by omega)) v i
    have hs' : (piv A r c k : ℚ) * lev A r c (k + 1) v i =
      piv A r c (k + 1) * lev A r c k v i
        - lev A r c k (fun i => A i (c k)) i * lev A r c k v (r k) := by exact_mod_cast hs
    rw [sum_range_succ]
    have e : (lev A r c k v i : ℚ) / piv A r c k =
        (lev A r c (k + 1) v i : ℚ) / piv A r c (k + 1) +
        (lev A r c k (fun i => A i (c k)) i : ℚ) * (lev A r c k v (r k) : ℚ) /
        ((piv A r c k : ℚ) * piv A r c (k + 1)) := by
      field_simp
      linear_combination -hs'
    rw [ih, e]; ring

end

end Slip
