import Verif.Proof.Stored
import Verif.Props.Solve

/-!
# C47: the factors do not depend on how the matrix is stored
-/

namespace Slip

/-- Row `i` is stored in column `j` of a CSC matrix (its value may be zero). -/
def Mat.Stores (A : Mat) (i j : ℕ) : Prop :=
  ∃ a b t : ℤ, get (deref A.p) j = some a ∧ get (deref A.p) ((j : ℤ) + 1) = some b ∧ a ≤ t ∧ t < b ∧
    get (deref A.i) t = some (i : ℤ)

/-- The two objects store the same rows in each column, with the same values, in any order. -/
structure SameEntries (n : ℕ) (A A' : Mat) : Prop where
  rows : ∀ i < n, ∀ j < n, A.Stores i j ↔ A'.Stores i j
  values : ∀ i < n, ∀ j < n, A.entry i j = A'.entry i j

theorem AOk.congr {n : ℕ} {a a' : ℕ → ℕ → ℤ} {ap : ℕ → ℤ} {M : Csc} (h : AOk n a ap M)
    (e : ∀ i < n, ∀ j < n, a i j = a' i j) : AOk n a' ap M := by
  refine ⟨h.ptr, h.mono, ?_, ?_⟩
  · intro j hj p h0 h1
    obtain ⟨i, hi, g1, g2⟩ := h.ent j hj p h0 h1
    exact ⟨i, hi, g1, by rw [g2, e i hi j hj]⟩
  · intro j hj i hi hne
    exact h.full j hj i hi (by rw [e i hi j hj]; exact hne)

theorem IsCsc.colRow {n : ℕ} {A A' : Mat} (hA : IsCsc n A)
    (h : ∀ i < n, ∀ j < n, A.Stores i j → A'.Stores i j) (j : ℕ) (hj : j < n) (i : Int)
    (hr : ColRow A.toCsc.p A.toCsc.i (j : Int) i) : ColRow A'.toCsc.p A'.toCsc.i (j : Int) i := by
  obtain ⟨a, b, t, g1, g2, g3, g4, g5⟩ := hr
  obtain ⟨a', b', e1, e2, -, hin, -⟩ := hA.col j hj
  have q1 : some a = some a' := g1.symm.trans e1
  have q2 : some b = some b' := g2.symm.trans e2
  cases q1; cases q2
  obtain ⟨⟨i', hi', e3⟩, -⟩ := hin t g3 g4
  have q3 : some i = some (i' : Int) := g5.symm.trans e3
  cases q3
  obtain ⟨a', b', t', k1, k2, k3, k4, k5⟩ := h i' hi' j hj ⟨a, b, t, g1, g2, g3, g4, g5⟩
  exact ⟨a', b', t', k1, k2, k3, k4, k5⟩

/-- C47: two matrices that store the same entries, in any order within each column, factorized with
the same column order and any admissible storage estimates, give the same status and identical L, U,
rhos and pinv (array for array). -/
theorem C47_factors_independent_of_storage {nc : Int → Int → ℚ → Bool} {opt : Option Options} {n : ℕ}
    {A A' : Mat} {S S' : Analysis} (hA : IsCsc n A) (hA' : IsCsc n A') (hAA : SameEntries n A A')
    (hS : IsAnalysis n S) (hS' : IsAnalysis n S') (hq : ∀ k : ℕ, k < n → get S.q k = get S'.q k)
    (ht : TolOk opt) (l u rh : Option Mat) (pv : Option (Arr Int)) :
    SLIP_LU_factorize nc true (some l) (some u) (some rh) (some pv) (some A) (some S) opt =
    SLIP_LU_factorize nc true (some l) (some u) (some rh) (some pv) (some A') (some S') opt := by
  obtain ⟨o, ho⟩ := C08_factorize_safe (nc := nc) hA hS ht l u rh pv
  obtain ⟨τ, hτ⟩ := hS.perm
  obtain ⟨c, ci, hc, hp, -⟩ := hτ.isFn
  have hc' : IsFn n S'.q c := fun t ht => by rw [← hq t ht]; exact hc t ht
  obtain ⟨ap, hok, -⟩ := hA.aok
  obtain ⟨ap', hok', -⟩ := hA'.aok
  obtain ⟨t, e, -⟩ := exists_fin_tol ht nc
  have hr := factorize_stored (nc := nc) (order := optPivot opt) (tol := t) hok
    (hok'.congr fun i hi j hj => (hAA.values i hi j hj).symm) hA.cols hA'.cols
    (fun j hj i => ⟨hA.colRow (fun i hi j hj => (hAA.rows i hi j hj).mp) j hj i,
      hA'.colRow (fun i hi j hj => (hAA.rows i hi j hj).mpr) j hj i⟩)
    hc hc' hp.rlt (fun t ht u hu e => by rw [← hp.pr t ht, ← hp.pr u hu, e]) hS.lnz hS.unz hS'.lnz hS'.unz
  rw [SLIP_LU_factorize_eq hA] at ho ⊢
  rw [SLIP_LU_factorize_eq hA', e, hA.cols, hA'.cols]
  rw [e] at ho
  cases hf : factorize nc (optPivot opt) (.fin t) A.toCsc S.q S.lnz S.unz with
  | ok F =>
    rw [hf] at hr
    obtain ⟨_, hb, rfl⟩ := hr
    rw [hb]
  | error f =>
    rw [hf] at hr ho
    cases f with
    | ub => cases ho
    | fuel => cases ho
    | ret f =>
      simp only [CRel] at hr
      rw [hr]

/-- C47: the solutions of two objects that represent the same matrix are equal; here the stored rows may
differ (entries stored as zero) and so may the column orders and options. -/
theorem C47_solution_independent_of_storage {nc nc' : Int → Int → ℚ → Bool}
    {opt₁ opt₂ o₁ o₂ : Option Options} {n k : ℕ} {A A' b : Mat} {S₁ S₂ : Analysis}
    {L₁ U₁ R₁ L₂ U₂ R₂ x₁ x₂ : Mat} {p₁ p₂ : Arr Int} (hA : IsCsc n A) (hA' : IsCsc n A')
    (he : A.matrix n = A'.matrix n) (hsc : A.scale = A'.scale)
    (hS₁ : IsAnalysis n S₁) (hS₂ : IsAnalysis n S₂) (ht₁ : TolOk opt₁) (ht₂ : TolOk opt₂)
    (h₁ : FactorizeOk nc opt₁ A S₁ L₁ U₁ R₁ p₁) (h₂ : FactorizeOk nc' opt₂ A' S₂ L₂ U₂ R₂ p₂)
    (hn : 0 < n) (hb : IsDenseZ n k b) (hsb : b.scale ≠ 0)
    (hx₁ : SolveOk o₁ b A L₁ U₁ R₁ S₁ p₁ x₁) (hx₂ : SolveOk o₂ b A' L₂ U₂ R₂ S₂ p₂ x₂) :
    x₁.denseQ n k = x₂.denseQ n k := by
  refine unique_of_det (h₁.det_ne_zero hA hS₁ ht₁) ?_
  have e2 := (SolveOk.main hA' hS₂ ht₂ h₂ hn hb hsb hx₂).2
  rw [(SolveOk.main hA hS₁ ht₁ h₁ hn hb hsb hx₁).2, he, e2, hsc]

/-! ## The hypotheses can be met -/

namespace Ex

/-- The matrix of `Ex.A` with the entries of every column in reverse order, and room to spare. -/
def Arev : Mat :=
  { A with
    nzmax := 8
    i := some [some 2, some 1, some 1, some 0, some 2, some 1, none, some 7]
    x := some (.mpz [some 5, some 3, some 1, some 2, some 6, some 4, none, none]) }

/-- The same column order with other estimates. -/
def Srev : Analysis := { q := [some 2, some 0, some 1, none], lnz := 3, unz := 100 }

theorem Srev_ok : IsAnalysis 3 Srev :=
  ⟨⟨τ, by intro t; fin_cases t <;> rfl⟩, by decide, by decide⟩

theorem Arev_csc : IsCsc 3 Arev := by
  refine ⟨rfl, rfl, rfl, rfl, rfl, ?_, by decide⟩
  intro j hj
  have h : ∀ k : ℕ, k < 3 → ∀ a : ℤ, get (deref Arev.p) k = some a →
      get (deref Arev.p) ((k : ℤ) + 1) = some (a + 2) →
      (∃ i : ℕ, i < 3 ∧ get (deref Arev.i) a = some (i : ℤ)) →
      (∃ i : ℕ, i < 3 ∧ get (deref Arev.i) (a + 1) = some (i : ℤ)) →
      get (deref Arev.i) a ≠ get (deref Arev.i) (a + 1) →
      (∃ v, get Arev.xz a = some v) → (∃ v, get Arev.xz (a + 1) = some v) →
      ∃ a b : ℤ, get (deref Arev.p) k = some a ∧
    get (deref Arev.p) ((k : ℤ) + 1) = some b ∧ a ≤ b ∧
    (∀ t, a ≤ t → t < b → (∃ i : ℕ, i < 3 ∧ get (deref Arev.i) t = some (i : ℤ)) ∧
      ∃ v, get Arev.xz t = some v) ∧
    (∀ t t', a ≤ t → t < b → a ≤ t' → t' < b → get (deref Arev.i) t = get (deref Arev.i) t' →
      t = t') := by
    intro k hk a h1 h2 h5 h6 h7 h8 h9
    have h4 : ∀ t, a ≤ t → t < a + 2 → t = a ∨ t = a + 1 := by omega
    refine ⟨a, a + 2, h1, h2, by omega, ?_, ?_⟩
    · intro t ht ht'
      rcases h4 t ht ht' with rfl | rfl
      · exact ⟨h5, h8⟩
      · exact ⟨h6, h9⟩
    · intro t t' h1 h2 h3 h10 h6
      rcases h4 t h1 h2 with rfl | rfl <;> rcases h4 t' h3 h10 with rfl | rfl
      · rfl
      · exact absurd h6 h7
      · exact absurd h6.symm h7
      · rfl
  interval_cases j
  · exact h 0 (by omega) 0 rfl rfl ⟨2, by omega, rfl⟩ ⟨1, by omega, rfl⟩ (by decide) ⟨_, rfl⟩ ⟨_, rfl⟩
  · exact h 1 (by omega) 2 rfl rfl ⟨1, by omega, rfl⟩ ⟨0, by omega, rfl⟩ (by decide) ⟨_, rfl⟩ ⟨_, rfl⟩
  · exact h 2 (by omega) 4 rfl rfl ⟨2, by omega, rfl⟩ ⟨1, by omega, rfl⟩ (by decide) ⟨_, rfl⟩ ⟨_, rfl⟩

theorem stores_iff {B : Mat} {i j : ℕ} {a : ℤ} (h1 : get (deref B.p) j = some a)
    (h2 : get (deref B.p) ((j : ℤ) + 1) = some (a + 2)) :
    B.Stores i j ↔ get (deref B.i) a = some (i : ℤ) ∨ get (deref B.i) (a + 1) = some (i : ℤ) := by
  constructor
  · rintro ⟨a', b', t, g1, g2, g3, g4, g5⟩
    rw [h1] at g1; rw [h2] at g2
    cases g1; cases g2
    have : t = a ∨ t = a + 1 := by omega
    rcases this with rfl | rfl
    · exact Or.inl g5
    · exact Or.inr g5
  · rintro (h | h)
    · exact ⟨a, a + 2, a, h1, h2, by omega, by omega, h⟩
    · exact ⟨a, a + 2, a + 1, h1, h2, by omega, by omega, h⟩

theorem Arev_matrix : Arev.matrix 3 = A.matrix 3 := by decide +kernel

theorem Arev_same : SameEntries 3 A Arev := by
  refine ⟨fun i hi j hj => ?_, fun i hi j hj => ?_⟩
  · have h : ∀ k : ℕ, k < 3 → ∀ a : ℤ, get (deref A.p) k = some a →
        get (deref A.p) ((k : ℤ) + 1) = some (a + 2) →
        get (deref A.i) a = get (deref Arev.i) (a + 1) → get (deref A.i) (a + 1) = get (deref Arev.i) a →
        (A.Stores i k ↔ Arev.Stores i k) := by
      intro k hk a h1 h2 h3 h4
      rw [stores_iff h1 h2, stores_iff (B := Arev) h1 h2, h3, h4, or_comm]
    interval_cases j
    · exact h 0 (by omega) 0 rfl rfl rfl rfl
    · exact h 1 (by omega) 2 rfl rfl rfl rfl
    · exact h 2 (by omega) 4 rfl rfl rfl rfl
  · have := congrFun (congrFun Arev_matrix ⟨i, hi⟩) ⟨j, hj⟩
    exact this.symm

theorem Srev_order : ∀ k : ℕ, k < 3 → get S.q k = get Srev.q k := by
  intro k hk
  interval_cases k <;> rfl

end Ex

example := C47_factors_independent_of_storage (nc := Ex.nc) Ex.A_csc Ex.Arev_csc Ex.Arev_same Ex.S_ok Ex.Srev_ok
  Ex.Srev_order Ex.tol_ok none none none none

/- So the factors of the reordered matrix are those of `Ex.A`. -/
theorem Ex.factorize_rev_ok : FactorizeOk Ex.nc none Ex.Arev Ex.Srev Ex.L Ex.U Ex.R Ex.pinv := by
  have := C47_factors_independent_of_storage (nc := Ex.nc) Ex.A_csc Ex.Arev_csc Ex.Arev_same Ex.S_ok Ex.Srev_ok
    Ex.Srev_order Ex.tol_ok none none none none
  exact this.symm.trans Ex.factorize_ok

theorem Ex.solve_rev_ok : SolveOk none Ex.b Ex.Arev Ex.L Ex.U Ex.R Ex.Srev Ex.pinv Ex.x := by
  unfold SolveOk; decide +kernel

example := C47_solution_independent_of_storage Ex.A_csc Ex.Arev_csc Ex.Arev_matrix.symm rfl Ex.S_ok Ex.Srev_ok
  Ex.tol_ok Ex.tol_ok Ex.factorize_ok Ex.factorize_rev_ok (by decide) Ex.b_dense Ex.scale_ne.2 Ex.solve_ok
  Ex.solve_rev_ok

end Slip
