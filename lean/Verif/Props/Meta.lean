import Verif.Props.Api

/-!
# C52: equivalent systems have the same answer

How two calls of `SLIP_backslash` on related systems are related. The systems may be stored differently,
scaled differently and solved with different options; `exactA`, `exactB` are the rational matrices they
stand for.
-/

namespace Slip

/-- A valid square system with `k` right-hand sides. -/
structure System (n k : ℕ) (A b : Mat) : Prop where
  csc : IsCsc n A
  rhs : IsDenseZ n k b
  scaleA : A.scale ≠ 0
  scaleB : b.scale ≠ 0

/-- The rational matrix that `A` stands for. -/
def Mat.exactA (A : Mat) (n : ℕ) : Matrix (Fin n) (Fin n) ℚ := unscale (A.matrix n) A.scale

/-- The rational right-hand sides that `b` stands for. -/
def Mat.exactB (b : Mat) (n k : ℕ) : Matrix (Fin n) (Fin k) ℚ := unscale (b.denseZ n k) b.scale

theorem exactA_smul (A : Mat) (n : ℕ) : A.exactA n = A.scale⁻¹ • (A.matrix n).map (Int.cast : ℤ → ℚ) := by
  ext i j
  simp [Mat.exactA, unscale, div_eq_inv_mul]

theorem exactA_det {A : Mat} {n : ℕ} (hs : A.scale ≠ 0) : (A.exactA n).det ≠ 0 ↔ (A.matrix n).det ≠ 0 := by
  have hd : ((A.matrix n).map (Int.cast : ℤ → ℚ)).det = ((A.matrix n).det : ℚ) :=
    ((Int.castRingHom ℚ).map_det (A.matrix n)).symm
  rw [exactA_smul, Matrix.det_smul, hd]
  simp [hs]

section
variable {n k : ℕ} {fp : Fp} {nc₁ nc₂ nc₃ : Int → Int → ℚ → Bool} {O₁ O₂ O₃ : Orderings} {o₁ o₂ o₃ : Option Options}
  {A₁ A₂ b₁ b₂ b₃ : Mat} {X₁ X₂ X₃ : Option Mat}

theorem cancel_left {A : Matrix (Fin n) (Fin n) ℚ} (h : A.det ≠ 0) {x y : Matrix (Fin n) (Fin k) ℚ}
    (e : A * x = A * y) : x = y := by
  have hu : IsUnit A.det := isUnit_iff_ne_zero.2 h
  have := congrArg (fun z => A⁻¹ * z) e
  simpa [← Matrix.mul_assoc, Matrix.nonsing_inv_mul _ hu] using this

/-- C52: two systems `A₁ x₁ = b₁` and `A₂ x₂ = b₂` with `A₂ = M A₁ N` and `b₂ = M b₁` for invertible `M`, `N`
(row operations, renumbering and scaling of equations and unknowns) are both found singular, or both are
solved and `x₁ = N x₂`, whatever the options, the storage and the scale factors are. -/
theorem C52_equivalent_systems (h₁ : System n k A₁ b₁) (h₂ : System n k A₂ b₂) (hn : 0 < n)
    (hO₁ : AmdOk O₁ o₁ n) (hO₂ : AmdOk O₂ o₂ n) (ht₁ : TolOk o₁) (ht₂ : TolOk o₂)
    {M N : Matrix (Fin n) (Fin n) ℚ} (hM : M.det ≠ 0) (hN : N.det ≠ 0)
    (hA : A₂.exactA n = M * A₁.exactA n * N) (hb : b₂.exactB n k = M * b₁.exactB n k) :
    (SLIP_backslash fp O₁ nc₁ true (some X₁) .mpq (some A₁) (some b₁) o₁ = .ok (.singular, some none) ∧
      SLIP_backslash fp O₂ nc₂ true (some X₂) .mpq (some A₂) (some b₂) o₂ = .ok (.singular, some none)) ∨
    ∃ x₁ x₂, SLIP_backslash fp O₁ nc₁ true (some X₁) .mpq (some A₁) (some b₁) o₁ = .ok (.ok, some (some x₁)) ∧
      SLIP_backslash fp O₂ nc₂ true (some X₂) .mpq (some A₂) (some b₂) o₂ = .ok (.ok, some (some x₂)) ∧
      IsDenseQ n k x₁ ∧ IsDenseQ n k x₂ ∧ x₁.denseQ n k = N * x₂.denseQ n k := by
  have hd : (A₁.exactA n).det ≠ 0 ↔ (A₂.exactA n).det ≠ 0 := by
    rw [hA, Matrix.det_mul, Matrix.det_mul]
    simp [hM, hN]
  by_cases d : (A₁.matrix n).det = 0
  · left
    have d₂ : (A₂.matrix n).det = 0 := by
      by_contra h
      exact (exactA_det h₁.scaleA).1 (hd.2 ((exactA_det h₂.scaleA).2 h)) d
    exact ⟨C35_backslash_singular hO₁ h₁.csc h₁.rhs.kind h₁.rhs.type ht₁ d (.inl rfl),
      C35_backslash_singular hO₂ h₂.csc h₂.rhs.kind h₂.rhs.type ht₂ d₂ (.inl rfl)⟩
  · right
    have d₁ := (exactA_det h₁.scaleA).2 d
    obtain ⟨x₁, e₁, q₁, s₁⟩ := C35_backslash_mpq (fp := fp) (nc := nc₁) (X := X₁) hO₁ h₁.csc h₁.rhs hn
      h₁.scaleA h₁.scaleB ht₁ d
    obtain ⟨x₂, e₂, q₂, s₂⟩ := C35_backslash_mpq (fp := fp) (nc := nc₂) (X := X₂) hO₂ h₂.csc h₂.rhs hn
      h₂.scaleA h₂.scaleB ht₂ ((exactA_det h₂.scaleA).1 (hd.1 d₁))
    refine ⟨x₁, x₂, e₁, e₂, q₁, q₂, cancel_left d₁ (cancel_left hM ?_)⟩
    change A₁.exactA n * _ = b₁.exactB n k at s₁
    change A₂.exactA n * _ = b₂.exactB n k at s₂
    rw [s₁, ← hb, ← s₂, hA]
    simp only [Matrix.mul_assoc]

/-- C52: renumbering equations (`σ`) and unknowns (`τ`) renumbers the answer, and nothing else. -/
theorem C52_renumbering (h₁ : System n k A₁ b₁) (h₂ : System n k A₂ b₂) (hn : 0 < n)
    (hO₁ : AmdOk O₁ o₁ n) (hO₂ : AmdOk O₂ o₂ n) (ht₁ : TolOk o₁) (ht₂ : TolOk o₂)
    (hd : (A₁.matrix n).det ≠ 0) (σ τ : Equiv.Perm (Fin n))
    (hA : ∀ i j, A₂.exactA n i j = A₁.exactA n (σ i) (τ j))
    (hb : ∀ i j, b₂.exactB n k i j = b₁.exactB n k (σ i) j) :
    ∃ x₁ x₂, SLIP_backslash fp O₁ nc₁ true (some X₁) .mpq (some A₁) (some b₁) o₁ = .ok (.ok, some (some x₁)) ∧
      SLIP_backslash fp O₂ nc₂ true (some X₂) .mpq (some A₂) (some b₂) o₂ = .ok (.ok, some (some x₂)) ∧
      ∀ i j, x₂.denseQ n k i j = x₁.denseQ n k (τ i) j := by
  have eA : A₂.exactA n = (A₁.exactA n).submatrix σ τ := by ext i j; exact hA i j
  have eb : b₂.exactB n k = (b₁.exactB n k).submatrix σ id := by ext i j; exact hb i j
  have d₁ := (exactA_det h₁.scaleA).2 hd
  have d₂ : (A₂.exactA n).det ≠ 0 := by
    have e3 : (A₁.exactA n).submatrix σ τ = ((A₁.exactA n).submatrix σ id).submatrix id τ := rfl
    rw [eA, e3, Matrix.det_permute', Matrix.det_permute]
    simp [d₁]
  obtain ⟨x₁, e₁, q₁, s₁⟩ := C35_backslash_mpq (fp := fp) (nc := nc₁) (X := X₁) hO₁ h₁.csc h₁.rhs hn
    h₁.scaleA h₁.scaleB ht₁ hd
  obtain ⟨x₂, e₂, q₂, s₂⟩ := C35_backslash_mpq (fp := fp) (nc := nc₂) (X := X₂) hO₂ h₂.csc h₂.rhs hn
    h₂.scaleA h₂.scaleB ht₂ ((exactA_det h₂.scaleA).1 d₂)
  change A₁.exactA n * _ = b₁.exactB n k at s₁
  change A₂.exactA n * _ = b₂.exactB n k at s₂
  refine ⟨x₁, x₂, e₁, e₂, fun i j => ?_⟩
  have : x₂.denseQ n k = (x₁.denseQ n k).submatrix τ id := by
    refine cancel_left d₂ ?_
    rw [s₂, eA, eb, ← s₁, Matrix.submatrix_mul_equiv]
  rw [this]; rfl

/-- C52: the answer is linear in the right-hand side, exactly. -/
theorem C52_linear (h₁ : System n k A₁ b₁) (h₂ : IsDenseZ n k b₂) (h₃ : IsDenseZ n k b₃) (hs₂ : b₂.scale ≠ 0)
    (hs₃ : b₃.scale ≠ 0) (hn : 0 < n) (hO₁ : AmdOk O₁ o₁ n) (hO₂ : AmdOk O₂ o₂ n) (hO₃ : AmdOk O₃ o₃ n)
    (ht₁ : TolOk o₁) (ht₂ : TolOk o₂) (ht₃ : TolOk o₃) (hd : (A₁.matrix n).det ≠ 0) (c₁ c₂ : ℚ)
    (hb : b₃.exactB n k = c₁ • b₁.exactB n k + c₂ • b₂.exactB n k) :
    ∃ x₁ x₂ x₃,
      SLIP_backslash fp O₁ nc₁ true (some X₁) .mpq (some A₁) (some b₁) o₁ = .ok (.ok, some (some x₁)) ∧
      SLIP_backslash fp O₂ nc₂ true (some X₂) .mpq (some A₁) (some b₂) o₂ = .ok (.ok, some (some x₂)) ∧
      SLIP_backslash fp O₃ nc₃ true (some X₃) .mpq (some A₁) (some b₃) o₃ = .ok (.ok, some (some x₃)) ∧
      x₃.denseQ n k = c₁ • x₁.denseQ n k + c₂ • x₂.denseQ n k := by
  obtain ⟨x₁, e₁, q₁, s₁⟩ := C35_backslash_mpq (fp := fp) (nc := nc₁) (X := X₁) hO₁ h₁.csc h₁.rhs hn
    h₁.scaleA h₁.scaleB ht₁ hd
  obtain ⟨x₂, e₂, q₂, s₂⟩ := C35_backslash_mpq (fp := fp) (nc := nc₂) (X := X₂) hO₂ h₁.csc h₂ hn
    h₁.scaleA hs₂ ht₂ hd
  obtain ⟨x₃, e₃, q₃, s₃⟩ := C35_backslash_mpq (fp := fp) (nc := nc₃) (X := X₃) hO₃ h₁.csc h₃ hn
    h₁.scaleA hs₃ ht₃ hd
  refine ⟨x₁, x₂, x₃, e₁, e₂, e₃, cancel_left ((exactA_det h₁.scaleA).2 hd) ?_⟩
  change A₁.exactA n * _ = b₁.exactB n k at s₁
  change A₁.exactA n * _ = b₂.exactB n k at s₂
  change A₁.exactA n * _ = b₃.exactB n k at s₃
  rw [s₃, hb, ← s₁, ← s₂, Matrix.mul_add, Matrix.mul_smul, Matrix.mul_smul]

/-- C52: a known solution is recovered: if the right-hand side is `A y`, the result is `y`. -/
theorem C52_recovers (h₁ : System n k A₁ b₁) (hn : 0 < n) (hO₁ : AmdOk O₁ o₁ n) (ht₁ : TolOk o₁)
    (hd : (A₁.matrix n).det ≠ 0) (y : Matrix (Fin n) (Fin k) ℚ) (hb : b₁.exactB n k = A₁.exactA n * y) :
    ∃ x, SLIP_backslash fp O₁ nc₁ true (some X₁) .mpq (some A₁) (some b₁) o₁ = .ok (.ok, some (some x)) ∧
      x.denseQ n k = y := by
  obtain ⟨x, e, q, s⟩ := C35_backslash_mpq (fp := fp) (nc := nc₁) (X := X₁) hO₁ h₁.csc h₁.rhs hn
    h₁.scaleA h₁.scaleB ht₁ hd
  change A₁.exactA n * _ = b₁.exactB n k at s
  exact ⟨x, e, cancel_left ((exactA_det h₁.scaleA).2 hd) (by rw [s, hb])⟩

/-- C52: with the identity as right-hand side the result is the exact inverse, on both sides. -/
theorem C52_inverse (h₁ : System n n A₁ b₁) (hn : 0 < n) (hO₁ : AmdOk O₁ o₁ n) (ht₁ : TolOk o₁)
    (hd : (A₁.matrix n).det ≠ 0) (hb : b₁.exactB n n = 1) :
    ∃ x, SLIP_backslash fp O₁ nc₁ true (some X₁) .mpq (some A₁) (some b₁) o₁ = .ok (.ok, some (some x)) ∧
      A₁.exactA n * x.denseQ n n = 1 ∧ x.denseQ n n * A₁.exactA n = 1 := by
  obtain ⟨x, e, q, s⟩ := C35_backslash_mpq (fp := fp) (nc := nc₁) (X := X₁) hO₁ h₁.csc h₁.rhs hn
    h₁.scaleA h₁.scaleB ht₁ hd
  change A₁.exactA n * _ = b₁.exactB n n at s
  rw [hb] at s
  exact ⟨x, e, s, mul_eq_one_comm.1 s⟩

/-- C52, rounded results: if `A₂ = M A₁` and `b₂ = M b₁` for an invertible `M`, the results of type FP64 are
equal, and so are those of type MPFR if the options agree on precision and rounding. -/
theorem C52_rounded (h₁ : System n k A₁ b₁) (h₂ : System n k A₂ b₂) (hn : 0 < n)
    (hO₁ : AmdOk O₁ o₁ n) (hO₂ : AmdOk O₂ o₂ n) (ht₁ : TolOk o₁) (ht₂ : TolOk o₂)
    (hd : (A₁.matrix n).det ≠ 0) {M : Matrix (Fin n) (Fin n) ℚ} (hM : M.det ≠ 0)
    (hA : A₂.exactA n = M * A₁.exactA n) (hb : b₂.exactB n k = M * b₁.exactB n k) :
    (∃ y₁ y₂, SLIP_backslash fp O₁ nc₁ true (some X₁) .fp64 (some A₁) (some b₁) o₁ = .ok (.ok, some (some y₁)) ∧
      SLIP_backslash fp O₂ nc₂ true (some X₂) .fp64 (some A₂) (some b₂) o₂ = .ok (.ok, some (some y₂)) ∧
      ∀ (i : Fin n) (j : Fin k), ∃ v, get y₁.xf ((i : ℕ) + (j : ℕ) * n : ℤ) = some v ∧
        get y₂.xf ((i : ℕ) + (j : ℕ) * n : ℤ) = some v) ∧
    (optPrec o₁ = optPrec o₂ → optRound o₁ = optRound o₂ →
      ∃ y₁ y₂, SLIP_backslash fp O₁ nc₁ true (some X₁) .mpfr (some A₁) (some b₁) o₁ = .ok (.ok, some (some y₁)) ∧
      SLIP_backslash fp O₂ nc₂ true (some X₂) .mpfr (some A₂) (some b₂) o₂ = .ok (.ok, some (some y₂)) ∧
      ∀ (i : Fin n) (j : Fin k), ∃ v, get y₁.xr ((i : ℕ) + (j : ℕ) * n : ℤ) = some v ∧
        get y₂.xr ((i : ℕ) + (j : ℕ) * n : ℤ) = some v) := by
  have d₁ := (exactA_det h₁.scaleA).2 hd
  have d₂ : (A₂.matrix n).det ≠ 0 := (exactA_det h₂.scaleA).1 (by rw [hA, Matrix.det_mul]; simp [hM, d₁])
  have eq : ∀ x y : Matrix (Fin n) (Fin k) ℚ, A₁.exactA n * x = b₁.exactB n k → A₂.exactA n * y = b₂.exactB n k →
      x = y := fun x y e₁ e₂ => cancel_left d₁ (cancel_left hM (by
    rw [e₁, ← hb, ← e₂, hA, Matrix.mul_assoc]))
  constructor
  · obtain ⟨x, y₁, s₁, e₁, -, -, -, -, -, g₁⟩ := C35_backslash_fp64 (fp := fp) (nc := nc₁) (X := X₁) hO₁ h₁.csc h₁.rhs
      hn h₁.scaleA h₁.scaleB ht₁ hd
    obtain ⟨y, y₂, s₂, e₂, -, -, -, -, -, g₂⟩ := C35_backslash_fp64 (fp := fp) (nc := nc₂) (X := X₂) hO₂ h₂.csc h₂.rhs
      hn h₂.scaleA h₂.scaleB ht₂ d₂
    obtain rfl := eq x y s₁ s₂
    exact ⟨y₁, y₂, e₁, e₂, fun i j => ⟨_, g₁ i j, g₂ i j⟩⟩
  · intro hp hr
    obtain ⟨x, y₁, s₁, e₁, -, -, -, -, -, g₁⟩ := C35_backslash_mpfr (fp := fp) (nc := nc₁) (X := X₁) hO₁ h₁.csc h₁.rhs
      hn h₁.scaleA h₁.scaleB ht₁ hd
    obtain ⟨y, y₂, s₂, e₂, -, -, -, -, -, g₂⟩ := C35_backslash_mpfr (fp := fp) (nc := nc₂) (X := X₂) hO₂ h₂.csc h₂.rhs
      hn h₂.scaleA h₂.scaleB ht₂ d₂
    obtain rfl := eq x y s₁ s₂
    refine ⟨y₁, y₂, e₁, e₂, fun i j => ⟨_, g₁ i j, ?_⟩⟩
    rw [hp, hr]; exact g₂ i j

end

/-- The example matrix with rows 0 and 1 exchanged and another scale: `[6 2 8; 0 4 0; 10 0 12] / 6`. -/
def Ex.A' : Mat :=
  { Ex.A with
    i := some [some 0, some 2, some 1, some 0, some 0, some 2],
    x := some (.mpz [some 6, some 10, some 4, some 2, some 8, some 12]), scale := 6 }

/-- The right-hand side with rows 0 and 1 exchanged and another scale. -/
def Ex.b' : Mat :=
  { Ex.b with x := some (.mpz [some (-3), some (-1), some (-5), some (-4), some (-2), some 6]), scale := -5 }

/-- The identity as right-hand side, `[2 0 0; 0 2 0; 0 0 2] / 2`. -/
def Ex.bI : Mat :=
  { Ex.b with
    n := 3, nzmax := 9,
    x := some (.mpz [some 2, some 0, some 0, some 0, some 2, some 0, some 0, some 0, some 2]), scale := 2 }

/-- The sum of the two right-hand sides. -/
def Ex.b3 : Mat := { Ex.b with x := some (.mpz [some 4, some 4, some 10, some 6, some 6, some (-12)]) }

theorem Ex.A'_csc : IsCsc 3 Ex.A' := by
  refine ⟨rfl, rfl, rfl, rfl, rfl, fun j hj => ?_, by decide⟩
  have key : ∀ a c : ℤ, get (deref Ex.A'.p) j = some a → get (deref Ex.A'.p) ((j : ℤ) + 1) = some c → a ≤ c →
      c ≤ 6 → 0 ≤ a → (∀ t t', a ≤ t → t < c → a ≤ t' → t' < c →
        get (deref Ex.A'.i) t = get (deref Ex.A'.i) t' → t = t') → ∃ a b : ℤ, get (deref Ex.A'.p) j = some a ∧
      get (deref Ex.A'.p) ((j : ℤ) + 1) = some b ∧ a ≤ b ∧
      (∀ t, a ≤ t → t < b → (∃ i : ℕ, i < 3 ∧ get (deref Ex.A'.i) t = some (i : ℤ)) ∧
        ∃ v, get Ex.A'.xz t = some v) ∧
      (∀ t t', a ≤ t → t < b → a ≤ t' → t' < b → get (deref Ex.A'.i) t = get (deref Ex.A'.i) t' → t = t') := by
    intro a c h1 h2 h3 h4 h5 h6
    refine ⟨a, c, h1, h2, h3, fun t ht ht' => ?_, h6⟩
    have h7 : 0 ≤ t := by omega
    have h8 : t < 6 := by omega
    interval_cases t
    · exact ⟨⟨0, by omega, rfl⟩, ⟨_, rfl⟩⟩
    · exact ⟨⟨2, by omega, rfl⟩, ⟨_, rfl⟩⟩
    · exact ⟨⟨1, by omega, rfl⟩, ⟨_, rfl⟩⟩
    · exact ⟨⟨0, by omega, rfl⟩, ⟨_, rfl⟩⟩
    · exact ⟨⟨0, by omega, rfl⟩, ⟨_, rfl⟩⟩
    · exact ⟨⟨2, by omega, rfl⟩, ⟨_, rfl⟩⟩
  interval_cases j
  · refine key 0 2 rfl rfl (by omega) (by omega) (by omega) fun t t' h1 h2 h3 h4 h => ?_
    interval_cases t <;> interval_cases t' <;> first | rfl | exact absurd h (by decide)
  · refine key 2 4 rfl rfl (by omega) (by omega) (by omega) fun t t' h1 h2 h3 h4 h => ?_
    interval_cases t <;> interval_cases t' <;> first | rfl | exact absurd h (by decide)
  · refine key 4 6 rfl rfl (by omega) (by omega) (by omega) fun t t' h1 h2 h3 h4 h => ?_
    interval_cases t <;> interval_cases t' <;> first | rfl | exact absurd h (by decide)

theorem Ex.sys : System 3 2 Ex.A Ex.b := ⟨Ex.A_csc, Ex.b_dense, Ex.scale_ne.1, Ex.scale_ne.2⟩

theorem Ex.sys' : System 3 2 Ex.A' Ex.b' where
  csc := Ex.A'_csc
  rhs := by
    refine ⟨rfl, rfl, rfl, rfl, ?_⟩
    intro i hi j hj
    interval_cases i <;> interval_cases j <;> exact ⟨_, rfl⟩
  scaleA := by decide +kernel
  scaleB := by decide +kernel

theorem Ex.sysI : System 3 3 Ex.A Ex.bI where
  csc := Ex.A_csc
  rhs := by
    refine ⟨rfl, rfl, rfl, rfl, ?_⟩
    intro i hi j hj
    interval_cases i <;> interval_cases j <;> exact ⟨_, rfl⟩
  scaleA := Ex.scale_ne.1
  scaleB := by decide +kernel

theorem Ex.b3_dense : IsDenseZ 3 2 Ex.b3 := by
  refine ⟨rfl, rfl, rfl, rfl, ?_⟩
  intro i hi j hj
  interval_cases i <;> interval_cases j <;> exact ⟨_, rfl⟩

/-- Exchange of rows 0 and 1. -/
def Ex.swapM : Matrix (Fin 3) (Fin 3) ℚ := !![0, 1, 0; 1, 0, 0; 0, 0, 1]

theorem Ex.swapM_det : Ex.swapM.det ≠ 0 := by
  rw [Ex.swapM, Matrix.det_fin_three]; decide +kernel

theorem Ex.A'_eq : Ex.A'.exactA 3 = Ex.swapM * Ex.A.exactA 3 := by decide +kernel

theorem Ex.b'_eq : Ex.b'.exactB 3 2 = Ex.swapM * Ex.b.exactB 3 2 := by decide +kernel

example := C52_equivalent_systems (fp := Ex.fp) (nc₁ := Ex.nc) (nc₂ := Ex.nc) (X₁ := none) (X₂ := none) (o₁ := none)
  (o₂ := none) Ex.sys Ex.sys' (by decide) (Ex.orderings_ok _) (Ex.orderings_ok _) Ex.tol_ok Ex.tol_ok
  Ex.swapM_det (N := 1) (by rw [Matrix.det_one]; decide) (by rw [Matrix.mul_one]; exact Ex.A'_eq) Ex.b'_eq

example := C52_renumbering (fp := Ex.fp) (nc₁ := Ex.nc) (nc₂ := Ex.nc) (X₁ := none) (X₂ := none) (o₁ := none)
  (o₂ := none) Ex.sys Ex.sys' (by decide) (Ex.orderings_ok _) (Ex.orderings_ok _) Ex.tol_ok Ex.tol_ok
  (by rw [Ex.A_det]; decide) (Equiv.swap 0 1) 1
  (by intro i j; fin_cases i <;> fin_cases j <;> decide +kernel)
  (by intro i j; fin_cases i <;> fin_cases j <;> decide +kernel)

example := C52_linear (fp := Ex.fp) (nc₁ := Ex.nc) (nc₂ := Ex.nc) (nc₃ := Ex.nc) (X₁ := none) (X₂ := none) (X₃ := none)
  (o₁ := none) (o₂ := none) (o₃ := none) Ex.sys Ex.sys'.rhs Ex.b3_dense Ex.sys'.scaleB (b₃ := Ex.b3)
  Ex.scale_ne.2 (by decide)
  (Ex.orderings_ok _) (Ex.orderings_ok _) (Ex.orderings_ok _) Ex.tol_ok Ex.tol_ok Ex.tol_ok
  (by rw [Ex.A_det]; decide) 1 1 (by decide +kernel)

theorem Ex.b_eq : Ex.b.exactB 3 2 = Ex.A.exactA 3 * Ex.x.denseQ 3 2 := by decide +kernel

example := C52_recovers (fp := Ex.fp) (nc₁ := Ex.nc) (X₁ := none) (o₁ := none) Ex.sys (by decide) (Ex.orderings_ok _)
  Ex.tol_ok (by rw [Ex.A_det]; decide) (Ex.x.denseQ 3 2) Ex.b_eq

example := C52_inverse (fp := Ex.fp) (nc₁ := Ex.nc) (X₁ := none) (o₁ := none) Ex.sysI (by decide) (Ex.orderings_ok _)
  Ex.tol_ok (by rw [Ex.A_det]; decide) (by decide +kernel)

example := C52_rounded (fp := Ex.fp) (nc₁ := Ex.nc) (nc₂ := Ex.nc) (X₁ := none) (X₂ := none) (o₁ := none)
  (o₂ := none) Ex.sys Ex.sys' (by decide) (Ex.orderings_ok _) (Ex.orderings_ok _) Ex.tol_ok Ex.tol_ok
  (by rw [Ex.A_det]; decide) Ex.swapM_det Ex.A'_eq Ex.b'_eq

end Slip
