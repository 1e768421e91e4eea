import Verif.Proof.Main
import Verif.Example
import Mathlib.Data.Rat.Cast.CharZero
import Mathlib.Algebra.Group.Pi.Units
import Mathlib.LinearAlgebra.Matrix.AbsoluteValue
import Mathlib.Algebra.Order.AbsoluteValue.Basic

/-!
# Properties of the factorization (C02 - C08, C15)

`A` is any valid `n`-by-`n` integer CSC matrix (`IsCsc`), `S` any analysis whose `q` is a
permutation and whose estimates are at least `n` (`IsAnalysis`), `opt` any options (NULL included)
whose tolerance is finite if it is used, `nc` an arbitrary oracle for the unspecified GMP
comparison.
-/

namespace Slip

open Finset

section
variable {nc : Int → Int → ℚ → Bool} {opt : Option Options} {n : ℕ} {A : Mat} {S : Analysis}
  {L U R : Mat} {pinv : Arr Int}

/-- C02: SLIP_SINGULAR is returned iff the matrix is singular, otherwise SLIP_OK; whatever the
handles held before. -/
theorem C02_singular_verdict_exact (hA : IsCsc n A) (hS : IsAnalysis n S) (ht : TolOk opt)
    (l u rh : Option Mat) (pv : Option (Arr Int)) :
    ((A.matrix n).det = 0 →
      SLIP_LU_factorize nc true (some l) (some u) (some rh) (some pv) (some A) (some S) opt =
        .ok ⟨.singular, some none, some none, some none, some none⟩) ∧
    ((A.matrix n).det ≠ 0 → ∃ L U R pinv,
      SLIP_LU_factorize nc true (some l) (some u) (some rh) (some pv) (some A) (some S) opt =
        .ok ⟨.ok, some (some L), some (some U), some (some R), some (some pinv)⟩) := by
  obtain ⟨τ, hq⟩ := hS.perm
  rw [SLIP_LU_factorize_eq hA]
  rcases factorize_main (nc := nc) hA hq hS.lnz hS.unz ht with
    ⟨h0, e⟩ | ⟨hd, F, tol, r, pi, c, ci, lp, up, e, hF⟩
  · exact ⟨fun _ => by rw [e]; rfl, fun h => absurd h0 h⟩
  · exact ⟨fun h => absurd h hd, fun _ => ⟨_, _, _, _, by rw [e]; rfl⟩⟩

/- The nonsingular and the singular case both occur. -/
example := (C02_singular_verdict_exact (nc := Ex.nc) Ex.A_csc Ex.S_ok Ex.tol_ok none none none none).2
  (by rw [Ex.A_det]; decide)
example := (C02_singular_verdict_exact (nc := Ex.nc) (A := Ex.A0) Ex.A0_csc Ex.S_ok Ex.tol_ok none none none
  none).1 Ex.A0_det

/-- C02, as an equivalence on the status code. -/
theorem C02_singular_iff (hA : IsCsc n A) (hS : IsAnalysis n S) (ht : TolOk opt)
    (l u rh : Option Mat) (pv : Option (Arr Int)) :
    (∃ o, SLIP_LU_factorize nc true (some l) (some u) (some rh) (some pv) (some A) (some S) opt =
      .ok o ∧ o.info = .singular) ↔ (A.matrix n).det = 0 := by
  obtain ⟨h1, h2⟩ := C02_singular_verdict_exact (nc := nc) hA hS ht l u rh pv
  constructor
  · rintro ⟨o, e, hi⟩
    by_contra hd
    obtain ⟨L, U, R, pinv, e'⟩ := h2 hd
    rw [e'] at e
    cases e
    cases hi
  · intro hd; exact ⟨_, h1 hd, rfl⟩

example := C02_singular_iff (nc := Ex.nc) Ex.A_csc Ex.S_ok Ex.tol_ok none none none none

/-- C08 (factorization part): on valid input the call never executes undefined behaviour and always
terminates. In the model this covers: array bounds, reads of uninitialised elements, double
initialisation, inexact or zero `mpz_divexact`, and the fuel of the graph search. -/
theorem C08_factorize_safe (hA : IsCsc n A) (hS : IsAnalysis n S) (ht : TolOk opt)
    (l u rh : Option Mat) (pv : Option (Arr Int)) :
    ∃ o, SLIP_LU_factorize nc true (some l) (some u) (some rh) (some pv) (some A) (some S) opt =
      .ok o := by
  obtain ⟨h1, h2⟩ := C02_singular_verdict_exact (nc := nc) hA hS ht l u rh pv
  by_cases hd : (A.matrix n).det = 0
  · exact ⟨_, h1 hd⟩
  · obtain ⟨_, _, _, _, e⟩ := h2 hd; exact ⟨_, e⟩

example := C08_factorize_safe (nc := Ex.nc) Ex.A_csc Ex.S_ok Ex.tol_ok none none none none

/-- C07: the returned `pinv` holds a permutation, and has exactly `n` entries. -/
theorem C07_pinv_is_permutation (hA : IsCsc n A) (hS : IsAnalysis n S) (ht : TolOk opt)
    (h : FactorizeOk nc opt A S L U R pinv) :
    pinv.length = n ∧ ∃ σ : Equiv.Perm (Fin n), Holds pinv σ := by
  obtain ⟨τ, hq⟩ := hS.perm
  obtain ⟨F, tol, r, pi, c, ci, lp, up, hF, -, -, -, rfl, -⟩ := h.fact hA hq hS.lnz hS.unz ht
  exact ⟨hF.ok.pinvLen, _, hF.pinvHolds⟩

example := C07_pinv_is_permutation Ex.A_csc Ex.S_ok Ex.tol_ok Ex.factorize_ok

/-- C03: the last pivot is the determinant up to the signs of the two permutations. -/
theorem C03_last_pivot (hA : IsCsc n A) (hS : IsAnalysis n S) (ht : TolOk opt)
    (h : FactorizeOk nc opt A S L U R pinv) (hn : 0 < n) {σ τ : Equiv.Perm (Fin n)}
    (hσ : Holds pinv σ) (hτ : Holds S.q τ) :
    get R.xz ((n : ℤ) - 1) =
      some ((Equiv.Perm.sign σ : ℤ) * (Equiv.Perm.sign τ : ℤ) * (A.matrix n).det) := by
  obtain ⟨F, tol, r, pi, c, ci, lp, up, hF, -, -, rfl, rfl, -⟩ := h.fact hA hτ hS.lnz hS.unz ht
  have e : σ = hF.σ.symm := hσ.unique hF.pinvHolds
  have h1 := hF.rhoEq (t := n - 1) (by omega)
  rw [show ((n - 1 : ℕ) : ℤ) = (n : ℤ) - 1 by omega, show n - 1 + 1 = n by omega, hF.pivDet] at h1
  rw [h1, e, Equiv.Perm.sign_symm]

example := C03_last_pivot Ex.A_csc Ex.S_ok Ex.tol_ok Ex.factorize_ok (by decide) Ex.pinv_holds
  Ex.S_holds

/-- C03: its absolute value is `|det A|`. -/
theorem C03_last_pivot_abs (hA : IsCsc n A) (hS : IsAnalysis n S) (ht : TolOk opt)
    (h : FactorizeOk nc opt A S L U R pinv) (hn : 0 < n) :
    ∃ ρ, get R.xz ((n : ℤ) - 1) = some ρ ∧ |ρ| = |(A.matrix n).det| := by
  obtain ⟨τ, hq⟩ := hS.perm
  obtain ⟨-, σ, hσ⟩ := C07_pinv_is_permutation hA hS ht h
  refine ⟨_, C03_last_pivot hA hS ht h hn hσ hq, ?_⟩
  rcases Int.units_eq_one_or (Equiv.Perm.sign σ) with e1 | e1 <;>
    rcases Int.units_eq_one_or (Equiv.Perm.sign τ) with e2 | e2 <;> simp [e1, e2]

example := C03_last_pivot_abs Ex.A_csc Ex.S_ok Ex.tol_ok Ex.factorize_ok (by decide)

/-- `rhos[t-1]`, with the convention `rhos[-1] = 1`. -/
def prevPivot (R : Mat) (t : ℕ) : ℤ := if t = 0 then 1 else (get R.xz ((t : ℤ) - 1)).getD 0

/-- `rhos[t]`. -/
def pivotAt (R : Mat) (t : ℕ) : ℤ := (get R.xz (t : ℤ)).getD 0

/-- The diagonal matrix `D = diag (rhos[0], rhos[0]*rhos[1], ..., rhos[n-2]*rhos[n-1])`. -/
def dMatrix (R : Mat) (n : ℕ) : Matrix (Fin n) (Fin n) ℚ :=
  Matrix.diagonal fun t => (prevPivot R t : ℚ) * pivotAt R t

theorem Fact.pivotAt {τ : Equiv.Perm (Fin n)} {F : Factors} {tol : ℚ}
    {r pi c ci : ℕ → ℕ} {lp up : ℕ → ℤ} (h : Fact opt n A τ F tol r pi c ci lp up) {t : ℕ}
    (ht : t < n) : pivotAt (Mat.ofDenseZ A.n 1 (max A.n 1) F.rhos) t = piv A.entry r c (t + 1) := by
  unfold Slip.pivotAt; rw [h.rhoEq ht]; rfl

theorem Fact.prevPivot {τ : Equiv.Perm (Fin n)} {F : Factors} {tol : ℚ}
    {r pi c ci : ℕ → ℕ} {lp up : ℕ → ℤ} (h : Fact opt n A τ F tol r pi c ci lp up) {t : ℕ}
    (ht : t < n) : prevPivot (Mat.ofDenseZ A.n 1 (max A.n 1) F.rhos) t = piv A.entry r c t := by
  unfold Slip.prevPivot
  split
  · rename_i e; subst e; simp
  · have := h.rhoEq (t := t - 1) (by omega)
    rw [show ((t - 1 : ℕ) : ℤ) = (t : ℤ) - 1 by omega, show t - 1 + 1 = t by omega] at this
    rw [this]; rfl

/-- C04: `P A Q = L D⁻¹ U`, where row `i` of `A` is row `pinv[i]` of `P A`, and column `t` of `A Q`
is column `q[t]` of `A`. -/
theorem C04_factors_reproduce_matrix (hA : IsCsc n A) (hS : IsAnalysis n S) (ht : TolOk opt)
    (h : FactorizeOk nc opt A S L U R pinv) {σ τ : Equiv.Perm (Fin n)}
    (hσ : Holds pinv σ) (hτ : Holds S.q τ) :
    IsUnit (dMatrix R n) ∧
    ((A.matrix n).map (Int.cast : ℤ → ℚ)).submatrix σ.symm τ =
      (L.matrix n).map (Int.cast : ℤ → ℚ) * (dMatrix R n)⁻¹ * (U.matrix n).map (Int.cast : ℤ → ℚ) := by
  obtain ⟨F, tol, r, pi, c, ci, lp, up, hF, rfl, rfl, rfl, rfl, -⟩ := h.fact hA hτ hS.lnz hS.unz ht
  have hp : ∀ t ≤ n, piv A.entry r c t ≠ 0 := fun t ht => hF.ok.rho.ne t ht
  have e : σ.symm = hF.σ := by rw [hσ.unique hF.pinvHolds]; rfl
  have hD : dMatrix (Mat.ofDenseZ A.n 1 (max A.n 1) F.rhos) n = Matrix.diagonal fun t : Fin n =>
      ((piv A.entry r c t : ℚ) * piv A.entry r c (t + 1)) := by
    unfold dMatrix
    congr 1; ext t
    rw [hF.pivotAt t.2, hF.prevPivot t.2]
  have hne : ∀ t : Fin n, ((piv A.entry r c t : ℚ) * piv A.entry r c (t + 1)) ≠ 0 := by
    intro t
    refine mul_ne_zero ?_ ?_
    · exact_mod_cast hp t (by omega)
    · exact_mod_cast hp (t + 1) (by omega)
  have hinv : (dMatrix (Mat.ofDenseZ A.n 1 (max A.n 1) F.rhos) n)⁻¹ = Matrix.diagonal
      fun t : Fin n => ((piv A.entry r c t : ℚ) * piv A.entry r c (t + 1))⁻¹ := by
    rw [hD]
    refine Matrix.inv_eq_right_inv ?_
    rw [Matrix.diagonal_mul_diagonal, ← Matrix.diagonal_one]
    congr 1; ext t
    exact mul_inv_cancel₀ (hne t)
  refine ⟨?_, ?_⟩
  · rw [hD, Matrix.isUnit_diagonal]
    exact Pi.isUnit_iff.mpr fun t => isUnit_iff_ne_zero.mpr (hne t)
  ext i j
  have ht := lev_telescope hp (fun x => A.entry x (c j)) (r i) n (le_refl _)
  rw [lev_row_eq_zero _ _ _ i.2] at ht
  rw [hinv, Matrix.mul_apply]
  simp only [Matrix.submatrix_apply, Matrix.map_apply, Mat.matrix, Matrix.of_apply,
    Matrix.mul_diagonal]
  rw [e]
  have e1 : ((hF.σ i : Fin n) : ℕ) = r i := rfl
  rw [e1, ← hF.colEq j, ht, Int.cast_zero, zero_div, zero_add, Finset.sum_range]
  refine Finset.sum_congr rfl fun t _ => ?_
  rw [hF.Lentry i.2 t.2, hF.Uentry t.2 j.2, div_eq_mul_inv]
  ring

example := C04_factors_reproduce_matrix Ex.A_csc Ex.S_ok Ex.tol_ok Ex.factorize_ok Ex.pinv_holds
  Ex.S_holds

/-- C05: every entry of `L` is a minor of `A`: entry `(s,t)`, `t ≤ s`, is the determinant of the
rows pivotal at positions `0..t-1` and `s` and the columns `q[0..t]`. -/
theorem C05_L_entries_are_minors (hA : IsCsc n A) (hS : IsAnalysis n S) (ht : TolOk opt)
    (h : FactorizeOk nc opt A S L U R pinv) {σ τ : Equiv.Perm (Fin n)}
    (hσ : Holds pinv σ) (hτ : Holds S.q τ) (s t : Fin n) :
    L.entry s t = Matrix.det ((A.matrix n).submatrix
      (fun x : Fin ((t : ℕ) + 1) => σ.symm (if hx : (x : ℕ) < t then ⟨x, by omega⟩ else s))
      (fun y : Fin ((t : ℕ) + 1) => τ ⟨y, by omega⟩)) := by
  obtain ⟨F, tol, r, pi, c, ci, lp, up, hF, rfl, rfl, rfl, rfl, -⟩ := h.fact hA hτ hS.lnz hS.unz ht
  have e : σ.symm = hF.σ := by rw [hσ.unique hF.pinvHolds]; rfl
  rw [hF.Lentry s.2 t.2, e]
  unfold lev
  congr 1
  ext x y
  simp only [Matrix.of_apply, Matrix.submatrix_apply, Mat.matrix]
  have hr : (if (x : ℕ) < t then r x else r s) =
      ((hF.σ (if hx : (x : ℕ) < t then ⟨x, by omega⟩ else s) : Fin n) : ℕ) := by
    split
    · rename_i hx; rfl
    · rename_i hx; rfl
  rw [← hF.colEq ⟨y, by omega⟩, ← hr]
  by_cases hy : (y : ℕ) < t
  · rw [if_pos hy]
  · rw [if_neg hy, show (y : ℕ) = t by omega]

example := C05_L_entries_are_minors Ex.A_csc Ex.S_ok Ex.tol_ok Ex.factorize_ok Ex.pinv_holds
  Ex.S_holds 2 1

/-- C05: every entry of `U` is a minor of `A`: entry `(s,t)`, `s ≤ t`, is the determinant of the
rows pivotal at positions `0..s` and the columns `q[0..s-1]` and `q[t]`. -/
theorem C05_U_entries_are_minors (hA : IsCsc n A) (hS : IsAnalysis n S) (ht : TolOk opt)
    (h : FactorizeOk nc opt A S L U R pinv) {σ τ : Equiv.Perm (Fin n)}
    (hσ : Holds pinv σ) (hτ : Holds S.q τ) (s t : Fin n) :
    U.entry s t = Matrix.det ((A.matrix n).submatrix
      (fun x : Fin ((s : ℕ) + 1) => σ.symm ⟨x, by omega⟩)
      (fun y : Fin ((s : ℕ) + 1) => τ (if hy : (y : ℕ) < s then ⟨y, by omega⟩ else t))) := by
  obtain ⟨F, tol, r, pi, c, ci, lp, up, hF, rfl, rfl, rfl, rfl, -⟩ := h.fact hA hτ hS.lnz hS.unz ht
  have e : σ.symm = hF.σ := by rw [hσ.unique hF.pinvHolds]; rfl
  rw [hF.Uentry s.2 t.2, e]
  unfold lev
  congr 1
  ext x y
  simp only [Matrix.of_apply, Matrix.submatrix_apply, Mat.matrix]
  have hr : (if (x : ℕ) < s then r x else r s) =
      ((hF.σ ⟨x, by omega⟩ : Fin n) : ℕ) := by
    split
    · rename_i hx; rfl
    · rename_i hx
      have : (x : ℕ) = s := by omega
      simp only [this]; rfl
  rw [← hr]
  split
  · rename_i hy; rw [← hF.colEq ⟨y, by omega⟩]
  · rename_i hy; rw [← hF.colEq t]

example := C05_U_entries_are_minors Ex.A_csc Ex.S_ok Ex.tol_ok Ex.factorize_ok Ex.pinv_holds
  Ex.S_holds 1 2

/-- C05 (size bound): if every entry of `A` is at most `B` in absolute value, every entry of `L`
in column `t` is at most `(t+1)! * B^(t+1)`. -/
theorem C05_L_entry_bound (hA : IsCsc n A) (hS : IsAnalysis n S) (ht : TolOk opt)
    (h : FactorizeOk nc opt A S L U R pinv) {B : ℤ} (hB : ∀ i j : Fin n, |A.entry i j| ≤ B)
    (s t : Fin n) : |L.entry s t| ≤ ((t : ℕ) + 1).factorial * B ^ ((t : ℕ) + 1) := by
  obtain ⟨τ, hτ⟩ := hS.perm
  obtain ⟨-, σ, hσ⟩ := C07_pinv_is_permutation hA hS ht h
  rw [C05_L_entries_are_minors hA hS ht h hσ hτ s t]
  have := Matrix.det_le (abv := (AbsoluteValue.abs : AbsoluteValue ℤ ℤ)) (x := B)
    (A := (A.matrix n).submatrix
      (fun x : Fin ((t : ℕ) + 1) => σ.symm (if hx : (x : ℕ) < t then ⟨x, by omega⟩ else s))
      (fun y : Fin ((t : ℕ) + 1) => τ ⟨y, by omega⟩)) (fun i j => hB _ _)
  simpa [nsmul_eq_mul] using this

example := C05_L_entry_bound Ex.A_csc Ex.S_ok Ex.tol_ok Ex.factorize_ok (B := 6)
  (by decide +kernel) 2 1

/-- C05 (size bound) for `U`. -/
theorem C05_U_entry_bound (hA : IsCsc n A) (hS : IsAnalysis n S) (ht : TolOk opt)
    (h : FactorizeOk nc opt A S L U R pinv) {B : ℤ} (hB : ∀ i j : Fin n, |A.entry i j| ≤ B)
    (s t : Fin n) : |U.entry s t| ≤ ((s : ℕ) + 1).factorial * B ^ ((s : ℕ) + 1) := by
  obtain ⟨τ, hτ⟩ := hS.perm
  obtain ⟨-, σ, hσ⟩ := C07_pinv_is_permutation hA hS ht h
  rw [C05_U_entries_are_minors hA hS ht h hσ hτ s t]
  have := Matrix.det_le (abv := (AbsoluteValue.abs : AbsoluteValue ℤ ℤ)) (x := B)
    (A := (A.matrix n).submatrix
      (fun x : Fin ((s : ℕ) + 1) => σ.symm ⟨x, by omega⟩)
      (fun y : Fin ((s : ℕ) + 1) => τ (if hy : (y : ℕ) < s then ⟨y, by omega⟩ else t)))
    (fun i j => hB _ _)
  simpa [nsmul_eq_mul] using this

example := C05_U_entry_bound Ex.A_csc Ex.S_ok Ex.tol_ok Ex.factorize_ok (B := 6)
  (by decide +kernel) 1 2

/-- C06: `L` and `U` are valid CSC matrices with no slack space; stored entries of `L` are on or
below, those of `U` on or above the diagonal; the diagonals equal the pivots and are nonzero; the
last stored entry of each column of `U` is its diagonal entry. -/
theorem C06_factors_valid_triangular (hA : IsCsc n A) (hS : IsAnalysis n S) (ht : TolOk opt)
    (h : FactorizeOk nc opt A S L U R pinv) :
    IsCsc n L ∧ IsCsc n U ∧
    get (deref L.p) n = some L.nzmax ∧ get (deref U.p) n = some U.nzmax ∧
    (∀ k : ℕ, k < n → ∃ ρ, get R.xz k = some ρ ∧ ρ ≠ 0 ∧ L.entry k k = ρ ∧ U.entry k k = ρ) ∧
    (∀ (k : ℕ) (a b t i : ℤ), k < n → get (deref L.p) k = some a →
      get (deref L.p) ((k : ℤ) + 1) = some b → a ≤ t → t < b → get (deref L.i) t = some i → k ≤ i) ∧
    (∀ (k : ℕ) (a b t i : ℤ), k < n → get (deref U.p) k = some a →
      get (deref U.p) ((k : ℤ) + 1) = some b → a ≤ t → t < b → get (deref U.i) t = some i → i ≤ k) ∧
    (∀ (k : ℕ) (b : ℤ), k < n → get (deref U.p) ((k : ℤ) + 1) = some b →
      get (deref U.i) (b - 1) = some (k : ℤ) ∧ get U.xz (b - 1) = get R.xz k) := by
  obtain ⟨τ, hτ⟩ := hS.perm
  obtain ⟨F, tol, r, pi, c, ci, lp, up, hF, rfl, rfl, rfl, rfl, -⟩ := h.fact hA hτ hS.lnz hS.unz ht
  have hL := hF.ok.L
  have hU := hF.ok.U
  refine ⟨hL.isCsc, hU.isCsc, ?_, ?_, ?_, ?_, ?_, ?_⟩
  · rw [show (Mat.ofCsc F.L).nzmax = lp n from hL.nzmax]; exact hL.ptr n (le_refl _)
  · rw [show (Mat.ofCsc F.U).nzmax = up n from hU.nzmax]; exact hU.ptr n (le_refl _)
  · intro k hk
    refine ⟨_, hF.rhoEq hk, hF.ok.rho.ne _ hk, ?_, ?_⟩
    · rw [hF.Lentry hk hk, piv_succ]
    · rw [hF.Uentry hk hk, piv_succ]
  · intro k a b t i hk ha hb h1 h2 hi
    have ha' := hL.ptr k (by omega)
    have hb' := hL.ptr (k + 1) (by omega)
    push_cast at hb'
    obtain rfl := Option.some.inj (ha.symm.trans ha')
    obtain rfl := Option.some.inj (hb.symm.trans hb')
    obtain ⟨s, hs, hle, hi', -⟩ := hL.ent k hk t h1 h2
    obtain rfl := Option.some.inj (hi.symm.trans hi')
    exact_mod_cast hle
  · intro k a b t i hk ha hb h1 h2 hi
    have ha' := hU.ptr k (by omega)
    have hb' := hU.ptr (k + 1) (by omega)
    push_cast at hb'
    obtain rfl := Option.some.inj (ha.symm.trans ha')
    obtain rfl := Option.some.inj (hb.symm.trans hb')
    obtain ⟨s, hs, hle, hi', -⟩ := hU.ent k hk t h1 h2
    obtain rfl := Option.some.inj (hi.symm.trans hi')
    exact_mod_cast hle
  · intro k b hk hb
    have hb' := hU.ptr (k + 1) (by omega)
    push_cast at hb'
    obtain rfl := Option.some.inj (hb.symm.trans hb')
    obtain ⟨h1, h2⟩ := hF.ok.diag k hk
    refine ⟨h2, ?_⟩
    obtain ⟨s, hs, hle, hi', hx⟩ := hU.ent k hk (up (k + 1) - 1) (by omega) (by omega)
    have e : s = k := by
      have := Option.some.inj (h2.symm.trans hi'); omega
    subst e
    rw [hF.rhoEq hk, piv_succ]; exact hx

example := C06_factors_valid_triangular Ex.A_csc Ex.S_ok Ex.tol_ok Ex.factorize_ok

end

end Slip
