import Verif.Spec
import Verif.SpecGraph
import Mathlib.Tactic.IntervalCases
import Mathlib.Tactic.FinCases
import Mathlib.LinearAlgebra.Matrix.Notation
import Mathlib.LinearAlgebra.Matrix.Determinant.Basic

/-!
# A concrete system used to show that the hypotheses of the theorems can be met

    A = [0 2 0; 3 1 4; 5 0 6] / 3,   b = [1 2; 3 4; 5 -6] / 5,   column order 2, 0, 1.
-/

namespace Slip.Ex

/-- The matrix object. -/
def A : Mat :=
  { m := 3, n := 3, nzmax := 6, nz := 0, kind := .csc, type := .mpz,
    p := some [some 0, some 2, some 4, some 6], pShallow := false,
    i := some [some 1, some 2, some 0, some 1, some 1, some 2], iShallow := false,
    j := none, jShallow := false,
    x := some (.mpz [some 3, some 5, some 2, some 1, some 4, some 6]), xShallow := false, scale := 3 }

/-- The right-hand side. -/
def b : Mat :=
  { m := 3, n := 2, nzmax := 6, nz := 0, kind := .dense, type := .mpz,
    p := none, pShallow := false, i := none, iShallow := false, j := none, jShallow := false,
    x := some (.mpz [some 1, some 3, some 5, some 2, some 4, some (-6)]), xShallow := false,
    scale := 5 }

/-- The analysis. -/
def S : Analysis := { q := [some 2, some 0, some 1, some 3], lnz := 5, unz := 5 }

/-- The column permutation `0 ↦ 2, 1 ↦ 0, 2 ↦ 1`. -/
def τ : Equiv.Perm (Fin 3) := ⟨![2, 0, 1], ![1, 2, 0], by decide, by decide⟩

theorem A_csc : IsCsc 3 A := by
  refine ⟨rfl, rfl, rfl, rfl, rfl, ?_, by decide⟩
  intro j hj
  have h : ∀ a c : ℤ, ∀ k : ℕ, k < 3 → get (deref A.p) k = some a →
      get (deref A.p) ((k : ℤ) + 1) = some c → a ≤ c →
      (∀ t, a ≤ t → t < c → t = a ∨ t = a + 1) →
      (∃ i : ℕ, i < 3 ∧ get (deref A.i) a = some (i : ℤ)) →
      (∃ i : ℕ, i < 3 ∧ get (deref A.i) (a + 1) = some (i : ℤ)) →
      get (deref A.i) a ≠ get (deref A.i) (a + 1) →
      (∃ v, get A.xz a = some v) → (∃ v, get A.xz (a + 1) = some v) →
      ∃ a b : ℤ, get (deref A.p) k = some a ∧
    get (deref A.p) ((k : ℤ) + 1) = some b ∧ a ≤ b ∧
    (∀ t, a ≤ t → t < b → (∃ i : ℕ, i < 3 ∧ get (deref A.i) t = some (i : ℤ)) ∧
      ∃ v, get A.xz t = some v) ∧
    (∀ t t', a ≤ t → t < b → a ≤ t' → t' < b → get (deref A.i) t = get (deref A.i) t' → t = t') := by
    intro a c k hk h1 h2 h3 h4 h5 h6 h7 h8 h9
    refine ⟨a, c, h1, h2, h3, ?_, ?_⟩
    · intro t ht ht'
      rcases h4 t ht ht' with rfl | rfl
      · exact ⟨h5, h8⟩
      · exact ⟨h6, h9⟩
    · intro t t' h1 h2 h3 h10 h6
      rcases h4 t h1 h2 with rfl | rfl <;> rcases h4 t' h3 h10 with rfl | rfl
      · rfl
      · exact absurd h6 h7
      · exact absurd h6.symm h7
      · rfl
  interval_cases j
  · exact h 0 2 0 (by omega) rfl rfl (by omega) (by omega) ⟨1, by omega, rfl⟩ ⟨2, by omega, rfl⟩
      (by decide) ⟨_, rfl⟩ ⟨_, rfl⟩
  · exact h 2 4 1 (by omega) rfl rfl (by omega) (by omega) ⟨0, by omega, rfl⟩ ⟨1, by omega, rfl⟩
      (by decide) ⟨_, rfl⟩ ⟨_, rfl⟩
  · exact h 4 6 2 (by omega) rfl rfl (by omega) (by omega) ⟨1, by omega, rfl⟩ ⟨2, by omega, rfl⟩
      (by decide) ⟨_, rfl⟩ ⟨_, rfl⟩

theorem b_dense : IsDenseZ 3 2 b := by
  refine ⟨rfl, rfl, rfl, rfl, ?_⟩
  intro i hi j hj
  interval_cases i <;> interval_cases j <;> exact ⟨_, rfl⟩

theorem S_holds : Holds S.q τ := by
  intro t; fin_cases t <;> rfl

theorem S_ok : IsAnalysis 3 S := ⟨⟨τ, S_holds⟩, by decide, by decide⟩

theorem tol_ok : TolOk none := fun _ => ⟨1, rfl⟩

theorem A_matrix : A.matrix 3 = !![0, 2, 0; 3, 1, 4; 5, 0, 6] := by decide +kernel

theorem A_det : (A.matrix 3).det = 4 := by
  rw [A_matrix]; decide +kernel

/-- The answer of GMP for negative denominators, chosen arbitrarily. -/
def nc : Int → Int → ℚ → Bool := fun _ _ _ => true

/-- The factor `L` returned (default options). -/
def L : Mat := Mat.ofCsc
  { m := 3, n := 3, nzmax := 4, p := [some 0, some 2, some 3, some 4],
    i := [some 0, some 1, some 1, some 2], x := [some 4, some 6, some 2, some 4] }
/-- The factor `U` returned. -/
def U : Mat := Mat.ofCsc
  { m := 3, n := 3, nzmax := 6, p := [some 0, some 1, some 3, some 6],
    i := [some 0, some 0, some 1, some 0, some 1, some 2],
    x := [some 4, some 3, some 2, some 1, some (-6), some 4] }
/-- The pivots returned. -/
def R : Mat := Mat.ofDenseZ 3 1 3 [some 4, some 2, some 4]
/-- The inverse row permutation returned. -/
def pinv : Arr Int := [some 2, some 0, some 1]

/-- The model, run on the example. -/
theorem factorize_ok : FactorizeOk nc none A S L U R pinv := by
  unfold FactorizeOk; decide +kernel

/-- The solution returned. -/
def x : Mat := Mat.ofDenseQ
  { m := 3, n := 2, nzmax := 6, 
    x := [some (3 / 2), some (3 / 10), some (-3 / 4), some (-63 / 5), some (3 / 5), some (99 / 10)] }

/-- The model, run on the example. -/
theorem solve_ok : SolveOk none b A L U R S pinv x := by
  unfold SolveOk; decide +kernel

/-- The row permutation `0 ↦ 2, 1 ↦ 0, 2 ↦ 1` (position of each row). -/
def σ : Equiv.Perm (Fin 3) := ⟨![2, 0, 1], ![1, 2, 0], by decide, by decide⟩

theorem pinv_holds : Holds pinv σ := by
  intro t; fin_cases t <;> rfl

theorem scale_ne : A.scale ≠ 0 ∧ b.scale ≠ 0 := by decide +kernel

/-- A singular matrix with the same pattern: `[0 2 0; 3 1 6; 5 0 10]`. -/
def A0 : Mat := { A with x := some (.mpz [some 3, some 5, some 2, some 1, some 6, some 10]) }

theorem A0_csc : IsCsc 3 A0 := by
  refine ⟨rfl, rfl, rfl, rfl, rfl, fun j hj => ?_, by decide⟩
  obtain ⟨a, c, h1, h2, h3, h4, h5⟩ := A_csc.col j hj
  refine ⟨a, c, h1, h2, h3, fun t ht ht' => ⟨(h4 t ht ht').1, ?_⟩, h5⟩
  obtain ⟨v, hv⟩ := (h4 t ht ht').2
  have hb := get_bounds hv
  have h6 : t < 6 := hb.2
  have h7 : 0 ≤ t := hb.1
  interval_cases t <;> exact ⟨_, rfl⟩

theorem A0_det : (A0.matrix 3).det = 0 := by decide +kernel

/-- Another analysis: column order 1, 2, 0. -/
def S2 : Analysis := { q := [some 1, some 2, some 0, some 3], lnz := 3, unz := 4 }

theorem S2_ok : IsAnalysis 3 S2 :=
  ⟨⟨⟨![1, 2, 0], ![2, 0, 1], by decide, by decide⟩, by intro t; fin_cases t <;> rfl⟩, by decide,
    by decide⟩

/-- The factors returned with the other column order. -/
def L2 : Mat := Mat.ofCsc
  { m := 3, n := 3, nzmax := 5, p := [some 0, some 2, some 4, some 5],
    i := [some 2, some 0, some 2, some 1, some 2], x := [some 2, some 1, some (-8), some 6, some 4] }
/-- As `L2`. -/
def U2 : Mat := Mat.ofCsc
  { m := 3, n := 3, nzmax := 6, p := [some 0, some 1, some 3, some 6],
    i := [some 0, some 0, some 1, some 0, some 1, some 2],
    x := [some 1, some 4, some 6, some 3, some 5, some 4] }
/-- As `L2`. -/
def R2 : Mat := Mat.ofDenseZ 3 1 3 [some 1, some 6, some 4]

theorem factorize2_ok : FactorizeOk nc none A S2 L2 U2 R2 pinv := by
  unfold FactorizeOk; decide +kernel

theorem solve2_ok : SolveOk none b A L2 U2 R2 S2 pinv x := by
  unfold SolveOk; decide +kernel

/-- The columns of `b` as separate matrices. -/
def cols (j : Fin 2) : Mat :=
  { b with n := 1, nzmax := 3, x := some (.mpz ((![[1, 3, 5], [2, 4, -6]] j).map some)) }

theorem cols_ok (j : Fin 2) : IsDenseZ 3 1 (cols j) := by
  refine ⟨rfl, rfl, rfl, rfl, ?_⟩
  intro i hi k hk
  fin_cases j <;> interval_cases i <;> interval_cases k <;> exact ⟨_, rfl⟩

theorem x_dense : IsDenseQ 3 2 x := by
  refine ⟨rfl, rfl, rfl, rfl, rfl, rfl, ⟨rfl, rfl, rfl, rfl⟩, ⟨rfl, rfl, rfl⟩, rfl, ?_⟩
  intro i hi k hk
  interval_cases i <;> interval_cases k <;> exact ⟨_, rfl⟩

/-- The solution of the stored integer system (without the scale factors). -/
def x1 : Mat := { x with x := some (.mpq [some (5 / 2), some (1 / 2), some (-5 / 4), some (-21),
  some 1, some (33 / 2)]) }

theorem x1_dense : IsDenseQ 3 2 x1 := by
  refine ⟨rfl, rfl, rfl, rfl, rfl, rfl, ⟨rfl, rfl, rfl, rfl⟩, ⟨rfl, rfl, rfl⟩, rfl, ?_⟩
  intro i hi k hk
  interval_cases i <;> interval_cases k <;> exact ⟨_, rfl⟩

/-- Options with the solution check switched on. -/
def optCheck : Option Options :=
  some { pivot := .tolSmallest, order := .colamd, printLevel := 0, prec := 128, tol := .fin 1,
         round := 0, check := true }

/-- A search graph: one column of `L` (rows 0 and 2) is known. -/
theorem graph : Graph 3 [some 0, some 2, some 0, some 0] [some 0, some 2]
    [some 0, some 1, some 2] := by
  refine ⟨?_, ?_, ?_⟩
  · intro j h0 h1
    have : j < 3 := h1
    interval_cases j <;> exact ⟨_, rfl, by decide, by decide⟩
  · intro j h0 h1
    have : j ≤ 3 := h1
    interval_cases j <;> exact ⟨_, rfl, by decide⟩
  · intro w a b p h0 h1 ha hb h2 h3
    have : w < 3 := h1
    interval_cases w
    · cases ha; cases hb
      interval_cases p <;> exact ⟨_, rfl, by decide, by decide⟩
    · cases ha; cases hb; omega
    · cases ha; cases hb; omega

theorem A_col0 : ∀ p : ℤ, 0 ≤ p → p < 2 →
    ∃ i, get (deref A.i) p = some i ∧ 0 ≤ i ∧ i < ((3 : ℕ) : ℤ) := by
  intro p h0 h1
  interval_cases p <;> exact ⟨_, rfl, by decide, by decide⟩

/-- Enough memory for AMD, and the parameters of AMD and COLAMD for small matrices. -/
def orderings : Orderings :=
  { amdMem := fun _ _ _ => ⟨true, true, true⟩
    amdKnobs := fun _ => ⟨16, true⟩
    knobs := fun _ => ⟨16, 16, true⟩ }

theorem orderings_ok (opt : Option Options) : AmdOk orderings opt 3 := fun _ => ⟨by decide, fun _ _ => rfl⟩

end Slip.Ex
