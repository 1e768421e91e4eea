import Verif.Props.Analyze
import Verif.Props.Refuted
import Verif.Proof.Copy
import Verif.Proof.Convert

/-!
# Properties C32, C34, C35: options, argument checks, `SLIP_backslash`
-/

namespace Slip

/-! ## C32 -/

/-- C32: in an initialised library, every function behaves the same with NULL options and with the
options made by `SLIP_create_default_options`, for all other arguments. -/
theorem C32_null_options_are_defaults :
    (∀ O i S A, SLIP_LU_analyze O i S A none =
      SLIP_LU_analyze O i S A (SLIP_create_default_options true)) ∧
    (∀ nc i L U R P A S, SLIP_LU_factorize nc i L U R P A S none =
      SLIP_LU_factorize nc i L U R P A S (SLIP_create_default_options true)) ∧
    (∀ i x b A L U R S P, SLIP_LU_solve i x b A L U R S P none =
      SLIP_LU_solve i x b A L U R S P (SLIP_create_default_options true)) ∧
    (∀ fp i C k t A, SLIP_matrix_copy fp i C k t A none =
      SLIP_matrix_copy fp i C k t A (SLIP_create_default_options true)) ∧
    (∀ fp O nc i X t A b, SLIP_backslash fp O nc i X t A b none =
      SLIP_backslash fp O nc i X t A b (SLIP_create_default_options true)) := by
  have h1 : ∀ O i S A, SLIP_LU_analyze O i S A none =
      SLIP_LU_analyze O i S A (SLIP_create_default_options true) := fun _ _ _ _ => rfl
  have h2 : ∀ nc i L U R P A S, SLIP_LU_factorize nc i L U R P A S none =
      SLIP_LU_factorize nc i L U R P A S (SLIP_create_default_options true) :=
    fun _ _ _ _ _ _ _ _ => rfl
  have h3 : ∀ i x b A L U R S P, SLIP_LU_solve i x b A L U R S P none =
      SLIP_LU_solve i x b A L U R S P (SLIP_create_default_options true) :=
    fun _ _ _ _ _ _ _ _ _ => rfl
  have h4 : ∀ fp i C k t A, SLIP_matrix_copy fp i C k t A none =
      SLIP_matrix_copy fp i C k t A (SLIP_create_default_options true) := fun _ _ _ _ _ _ => rfl
  refine ⟨h1, h2, h3, h4, fun fp O nc i X t A b => ?_⟩
  unfold SLIP_backslash
  simp only [h1, h2, h3, h4]

/-! ## C34 -/

/-- C34, analyze: if the matrix is missing, not CSC or not square, or the handle is NULL, the result
is SLIP_INCORRECT_INPUT and the handle is not written. -/
theorem C34_analyze (O : Orderings) (S : Handle Analysis) (A : Option Mat) (opt : Option Options)
    (h : A = none ∨ S = none ∨ ∃ M, A = some M ∧ (M.kind ≠ .csc ∨ M.n ≠ M.m)) :
    SLIP_LU_analyze O true S A opt = .ok (.incorrectInput, S) := by
  unfold SLIP_LU_analyze
  cases A with
  | none => rfl
  | some M =>
    simp only [Bool.not_true, Bool.false_eq_true, if_false]
    split
    · rfl
    · rename_i hk
      rw [if_pos]
      · rfl
      · rcases h with h | h | ⟨M', h, h'⟩
        · cases h
        · exact Or.inl h
        · cases h
          exact Or.inr (h'.resolve_left hk)

/-- C34, factorize: if the matrix is missing, not CSC or not MPZ, a handle is NULL, the analysis is
missing or the column pointers are missing, the result is SLIP_INCORRECT_INPUT and no handle is
written. (`p[n]`, if there is one, is read before the handles are checked.) -/
theorem C34_factorize (nc) (L U R : Handle Mat) (P : Handle (Arr Int)) (A : Option Mat)
    (S : Option Analysis) (opt : Option Options)
    (hp : ∀ M p, A = some M → M.p = some p → 0 ≤ M.n → ∃ v, get p M.n = some v)
    (h : A = none ∨ S = none ∨ L = none ∨ U = none ∨ R = none ∨ P = none ∨
      ∃ M, A = some M ∧ (M.kind ≠ .csc ∨ M.type ≠ .mpz ∨ M.p = none ∨ M.n < 0)) :
    SLIP_LU_factorize nc true L U R P A S opt = .ok ⟨.incorrectInput, L, U, R, P⟩ := by
  unfold SLIP_LU_factorize
  cases A with
  | none => rfl
  | some M =>
    simp only [Bool.not_true, Bool.false_eq_true, if_false]
    split
    · rfl
    rename_i hk
    split
    · rfl
    rename_i ht
    have hk : M.kind = .csc := not_not.1 hk
    have ht : M.type = .mpz := not_not.1 ht
    have hz : ∃ z, SLIP_matrix_nnz true (some M) = .ok z ∧ (M.p = none ∨ M.n < 0 → z < 0) := by
      unfold SLIP_matrix_nnz
      simp only [Bool.not_true, Bool.false_eq_true, if_false, hk]
      cases hpp : M.p with
      | none => exact ⟨-1, rfl, fun _ => by decide⟩
      | some p =>
        by_cases hn : M.n < 0
        · exact ⟨-1, by simp [hn]; rfl, fun _ => by decide⟩
        · obtain ⟨v, hv⟩ := hp M p rfl hpp (by omega)
          exact ⟨v, by simp [hn, rd_eq hv], fun h => by rcases h with h | h; cases h; omega⟩
    obtain ⟨z, hz, hz'⟩ := hz
    rw [hz]
    simp only [ok_bind]
    cases S with
    | none => rfl
    | some S =>
      dsimp only
      rw [if_pos]
      · rfl
      · rcases h with h | h | h | h | h | h | ⟨M', h, h' | h' | h'⟩
        · cases h
        · cases h
        · exact Or.inl h
        · exact Or.inr (Or.inl h)
        · exact Or.inr (Or.inr (Or.inl h))
        · exact Or.inr (Or.inr (Or.inr (Or.inl h)))
        · cases h; exact absurd hk h'
        · cases h; exact absurd ht h'
        · cases h; exact Or.inr (Or.inr (Or.inr (Or.inr (hz' h'))))

/-- C34, solve: if an object is missing or of the wrong kind or type, the dimensions do not match, or
the handle is NULL, the result is SLIP_INCORRECT_INPUT and the handle is not written. -/
theorem C34_solve (x : Handle Mat) (b A L U R : Option Mat) (S : Option Analysis)
    (P : Option (Arr Int)) (opt : Option Options)
    (h : x = none ∨ S = none ∨ P = none ∨
      (∀ M, b = some M → ¬ (M.kind = .dense ∧ M.type = .mpz)) ∨
      (∀ M, A = some M → ¬ (M.kind = .csc ∧ M.type = .mpz)) ∨
      (∀ M, L = some M → ¬ (M.kind = .csc ∧ M.type = .mpz)) ∨
      (∀ M, U = some M → ¬ (M.kind = .csc ∧ M.type = .mpz)) ∨
      (∀ M, R = some M → ¬ (M.kind = .dense ∧ M.type = .mpz)) ∨
      ∃ b' A' L' U', b = some b' ∧ A = some A' ∧ L = some L' ∧ U = some U' ∧
        (L'.m ≠ A'.m ∨ L'.n ≠ U'.m ∨ U'.n ≠ A'.n ∨ A'.n ≠ A'.m ∨ A'.m ≠ b'.m)) :
    SLIP_LU_solve true x b A L U R S P opt = .ok (.incorrectInput, x) := by
  have hr : ∀ (M : Option Mat) k t, requireFails M k t = false →
      ∃ M', M = some M' ∧ M'.kind = k ∧ M'.type = t := by
    intro M k t hM
    cases M with
    | none => cases hM
    | some M =>
      simp only [requireFails, decide_eq_false_iff_not, not_or, not_not] at hM
      exact ⟨M, rfl, hM.1, hM.2⟩
  unfold SLIP_LU_solve
  simp only [Bool.not_true, Bool.false_eq_true, if_false]
  split
  · rfl
  rename_i h1
  split
  · rfl
  rename_i h2
  split
  · rfl
  rename_i h3
  split
  · rfl
  rename_i h4
  split
  · rfl
  rename_i h5
  obtain ⟨b', rfl, hb⟩ := hr _ _ _ (by simpa using h1)
  obtain ⟨A', rfl, hA⟩ := hr _ _ _ (by simpa using h2)
  obtain ⟨L', rfl, hL⟩ := hr _ _ _ (by simpa using h3)
  obtain ⟨U', rfl, hU⟩ := hr _ _ _ (by simpa using h4)
  obtain ⟨R', rfl, hR⟩ := hr _ _ _ (by simpa using h5)
  cases S with
  | none => rfl
  | some S =>
    cases P with
    | none => rfl
    | some P =>
      dsimp only
      rw [if_pos]
      · rfl
      · rcases h with h | h | h | h | h | h | h | h | ⟨_, _, _, _, h6, h7, h8, h9, h⟩
        · exact Or.inl h
        · cases h
        · cases h
        · exact absurd hb (h _ rfl)
        · exact absurd hA (h _ rfl)
        · exact absurd hL (h _ rfl)
        · exact absurd hU (h _ rfl)
        · exact absurd hR (h _ rfl)
        · cases h6; cases h7; cases h8; cases h9
          exact Or.inr h

/-- C34, backslash: a NULL handle gives SLIP_INCORRECT_INPUT; a wrong output type, a missing or wrong
matrix or right-hand side, or a matrix that is not square give SLIP_INCORRECT_INPUT and a NULL
result. -/
theorem C34_backslash (fp O nc) (X : Handle Mat) (t : Ty) (A b : Option Mat) (opt : Option Options)
    (h : X = none ∨ (t ≠ .mpq ∧ t ≠ .fp64 ∧ t ≠ .mpfr) ∨
      (∀ M, A = some M → ¬ (M.kind = .csc ∧ M.type = .mpz)) ∨
      (∀ M, b = some M → ¬ (M.kind = .dense ∧ M.type = .mpz)) ∨
      (∃ M, A = some M ∧ M.n ≠ M.m)) :
    SLIP_backslash fp O nc true X t A b opt = .ok (.incorrectInput, X.map fun _ => none) := by
  unfold SLIP_backslash
  simp only [Bool.not_true, Bool.false_eq_true, if_false]
  split
  · rename_i hX; subst hX; rfl
  rename_i hX
  have eX : X.map (fun _ => (none : Option Mat)) = some none := by
    cases X with
    | none => exact absurd rfl hX
    | some v => rfl
  rw [eX]
  split
  · rfl
  rename_i ht
  split
  · rfl
  rename_i hA
  split
  · rfl
  rename_i hb
  rcases h with h | h | h | h | ⟨M, h, hne⟩
  · exact absurd h hX
  · exact absurd h ht
  · exfalso; apply hA
    cases A with
    | none => rfl
    | some M =>
      have := h M rfl
      simp only [requireFails, decide_eq_true_eq]
      tauto
  · exfalso; apply hb
    cases b with
    | none => rfl
    | some M =>
      have := h M rfl
      simp only [requireFails, decide_eq_true_eq]
      tauto
  · rw [C34_analyze O (some none) A opt (Or.inr (Or.inr ⟨M, h, Or.inr hne⟩))]
    rfl

/-- C34, backslash: a right-hand side with the wrong number of rows is refused after the
factorization: the result is SLIP_INCORRECT_INPUT, or SLIP_SINGULAR if the matrix is, and NULL. -/
theorem C34_backslash_rows {fp : Fp} {O : Orderings} {opt : Option Options}
    {nc} {X : Option Mat} {t : Ty} {n : ℕ} {A b : Mat} (hO : AmdOk O opt n) (hA : IsCsc n A)
    (ht : TolOk opt) (hbk : b.kind = .dense)
    (hbt : b.type = .mpz) (hb : b.m ≠ n) (hty : t = .mpq ∨ t = .fp64 ∨ t = .mpfr) :
    SLIP_backslash fp O nc true (some X) t (some A) (some b) opt =
      .ok (if (A.matrix n).det = 0 then .singular else .incorrectInput, some none) := by
  obtain ⟨S, e, ⟨τ, hτ, -⟩, h1, h2, -⟩ :=
    C17_analysis_usable hO hA.kind hA.rows hA.cols hA.pattern hA.idx none
  have hS : IsAnalysis n S := ⟨⟨τ, hτ⟩, h1, h2⟩
  obtain ⟨f1, f2⟩ := C02_singular_verdict_exact (nc := nc) hA hS ht none none none none
  unfold SLIP_backslash
  simp only [Bool.not_true, Bool.false_eq_true, if_false, reduceCtorEq]
  rw [if_neg (by rcases hty with rfl | rfl | rfl <;> simp),
    if_neg (by simp [requireFails, hA.kind, hA.type]), if_neg (by simp [requireFails, hbk, hbt]), e]
  simp only [ok_bind, ne_eq, not_true_eq_false, if_false, Option.join, Option.bind_some, id]
  by_cases hd : (A.matrix n).det = 0
  · rw [f1 hd]
    simp [hd]
    rfl
  · obtain ⟨L, U, R, pinv, ef⟩ := f2 hd
    rw [ef, if_neg hd]
    simp only [ok_bind, ne_eq, not_true_eq_false, if_false]
    rw [C34_solve]
    · rfl
    · by_cases hreq : ∃ L' U', some L = some L' ∧ some U = some U'
      · refine Or.inr (Or.inr (Or.inr (Or.inr (Or.inr (Or.inr (Or.inr (Or.inr
          ⟨b, A, L, U, rfl, rfl, rfl, rfl, ?_⟩)))))))
        right; right; right; right
        rw [hA.rows]
        exact fun h => hb h.symm
      · exact absurd ⟨L, U, rfl, rfl⟩ hreq

/-- Nothing checks that the matrix given to factorize is square: with 2 rows and 1 column, the row
index 1 makes it access its workspace (of length `n`) out of bounds. -/
theorem C34_factorize_not_square_refuted (nc) :
    ∃ (A : Mat) (S : Analysis), A.kind = .csc ∧ A.type = .mpz ∧ A.m = 2 ∧ A.n = 1 ∧
      SLIP_LU_factorize nc true (some none) (some none) (some none) (some none) (some A) (some S) none =
        .error .ub :=
  ⟨{ mkCsc 1 [0, 1] [1] [5] with m := 2 }, natAnalysis 1, rfl, rfl, rfl, rfl, rfl⟩

example := C34_backslash_rows (fp := ⟨.fin, fun z => .fin z, fun _ d => d, fun z => .fin z, fun _ => 64⟩)
  (Ex.orderings_ok _) (nc := Ex.nc) (X := none) (t := .mpq) (b := { Ex.b with m := 2 }) Ex.A_csc Ex.tol_ok rfl rfl
  (by decide) (Or.inl rfl)

/-! ## C35 -/

section
variable {fp : Fp} {O : Orderings} {nc : Int → Int → ℚ → Bool} {opt : Option Options} {n k : ℕ}
  {A b : Mat} {X : Option Mat}

/-- The exact solution computed inside `SLIP_backslash`, and what is left to do. -/
theorem backslash_core (hO : AmdOk O opt n) (hA : IsCsc n A) (hb : IsDenseZ n k b)
    (hn : 0 < n) (hsA : A.scale ≠ 0) (hsb : b.scale ≠ 0) (ht : TolOk opt) (hd : (A.matrix n).det ≠ 0)
    {t : Ty} (hty : t = .mpq ∨ t = .fp64 ∨ t = .mpfr) :
    ∃ x, IsDenseQ n k x ∧
      unscale (A.matrix n) A.scale * x.denseQ n k = unscale (b.denseZ n k) b.scale ∧
      SLIP_backslash fp O nc true (some X) t (some A) (some b) opt =
        (if t = .mpq then .ok (.ok, some (some x)) else
          SLIP_matrix_copy fp true (some none) .dense t (some x) opt >>= fun r =>
            if r.1 ≠ .ok then pure (r.1, some none) else pure (.ok, r.2)) := by
  obtain ⟨S, L, U, R, pinv, x, e, hf, hx, h3, h4⟩ := C01_pipeline hO (nc := nc) (o₁ := opt) (o₂ := opt)
    (o₃ := opt) hA hb hn hsA hsb ht hd
  refine ⟨x, h3, h4, ?_⟩
  unfold SLIP_backslash
  simp only [Bool.not_true, Bool.false_eq_true, if_false, reduceCtorEq]
  rw [if_neg (by rcases hty with rfl | rfl | rfl <;> simp),
    if_neg (by simp [requireFails, hA.kind, hA.type]),
    if_neg (by simp [requireFails, hb.kind, hb.type]), e]
  unfold FactorizeOk at hf
  unfold SolveOk at hx
  simp only [ok_bind, ne_eq, not_true_eq_false, if_false, Option.join, Option.bind_some, id, hf, hx]
  split <;> rfl

/-- C35, C01: with output type MPQ the result is the exact solution. -/
theorem C35_backslash_mpq (hO : AmdOk O opt n) (hA : IsCsc n A) (hb : IsDenseZ n k b)
    (hn : 0 < n) (hsA : A.scale ≠ 0) (hsb : b.scale ≠ 0) (ht : TolOk opt) (hd : (A.matrix n).det ≠ 0) :
    ∃ x, SLIP_backslash fp O nc true (some X) .mpq (some A) (some b) opt = .ok (.ok, some (some x)) ∧
      IsDenseQ n k x ∧
      unscale (A.matrix n) A.scale * x.denseQ n k = unscale (b.denseZ n k) b.scale := by
  obtain ⟨x, h1, h2, e⟩ := backslash_core (fp := fp) (nc := nc) (X := X) hO hA hb hn hsA hsb ht hd
    (Or.inl rfl)
  exact ⟨x, e, h1, h2⟩

/-- Copying a dense MPQ matrix to dense FP64 or MPFR converts each entry. -/
theorem copy_denseQ {x : Mat} (hx : IsDenseQ n k x) :
    (∃ y, SLIP_matrix_copy fp true (some none) .dense .fp64 (some x) opt = .ok (.ok, some (some y)) ∧
      y.kind = .dense ∧ y.type = .fp64 ∧ y.m = n ∧ y.n = k ∧ Owns y ∧
      ∀ (i : Fin n) (j : Fin k), get y.xf ((i : ℕ) + (j : ℕ) * n : ℤ) =
        some (fp.mpqGetD (x.denseQ n k i j))) ∧
    (∃ y, SLIP_matrix_copy fp true (some none) .dense .mpfr (some x) opt = .ok (.ok, some (some y)) ∧
      y.kind = .dense ∧ y.type = .mpfr ∧ y.m = n ∧ y.n = k ∧ Owns y ∧
      ∀ (i : Fin n) (j : Fin k), get y.xr ((i : ℕ) + (j : ℕ) * n : ℤ) =
        some (.fin (roundPrec (optPrec opt) (optRound opt) (x.denseQ n k i j)))) := by
  have hv : ∀ t : ℕ, t < n * k → get x.xq t = some ((get x.xq t).getD 0) := fun t ht => by
    obtain ⟨i, hi, j, hj, rfl⟩ := ix2_surj ht
    obtain ⟨v, hv⟩ := hx.val i hi j hj
    push_cast
    rw [hv]; rfl
  have hnn : SLIP_matrix_nnz true (some x) = .ok ((n * k : ℕ) : ℤ) := by
    unfold SLIP_matrix_nnz
    simp only [Bool.not_true, Bool.false_eq_true, if_false, hx.kind, hx.rows, hx.cols]
    rw [if_neg (by omega)]
    push_cast
    rfl
  obtain ⟨xs, hxs⟩ : ∃ a, x.x = some (.mpq a) ∨ n * k = 0 := by
    by_cases h0 : n * k = 0
    · exact ⟨[], Or.inr h0⟩
    · have := hv 0 (by omega)
      unfold Mat.xq at this
      split at this
      · rename_i a ha; exact ⟨a, Or.inl ha⟩
      · cases this
  have hxq : x.x = some (.mpq x.xq) := by
    have hl := hx.len
    unfold Mat.xq at hl ⊢
    split at hl
    · rename_i a ha; simp [ha]
    · simp at hl; omega
  constructor
  · obtain ⟨c, a, e0, hCm, hCn, hCk, hCt, hCs, hO, hCx, hu⟩ :=
      allocate_dense (W := .d) (m := n) (n := k) (nz := ((n * k : ℕ) : ℤ))
    obtain ⟨y, ey, -, gy, -⟩ := castLoop_spec (f := fun _ v => (pure (fp.mpqGetD v) : C Dbl)) (y := a)
      (x := x.xq) (w := fun t => fp.mpqGetD ((get x.xq t).getD 0))
      (fun t ht => by obtain ⟨u, hu, -⟩ := hu 1 t ht; exact ⟨u, hu⟩) hv (fun _ _ => rfl)
    refine ⟨{ c with x := some (.fp64 y), scale := c.scale }, ?_, hCk, hCt, hCm, hCn,
      ⟨hO.notShallow, hO.p, hO.i, hO.j, rfl⟩, fun i j => ?_⟩
    · unfold SLIP_matrix_copy
      simp only [Bool.not_true, Bool.false_eq_true, if_false, hnn, ok_bind]
      rw [if_neg (by simp [hx.type, Ty.ok, Kind.ok]; positivity)]
      unfold copyBody copyDenseDense
      simp only [hx.kind, hx.rows, hx.cols]
      have e0' : allocate .dense .fp64 n k ((n * k : ℕ) : ℤ) false true = .ok c := e0
      rw [e0']
      simp only [ok_bind]
      rw [hCx, hxq]
      unfold slip_cast_array
      simp only [VC.mk]
      rw [ey]
      rfl
    · have := gy _ (ix2_lt i.2 j.2)
      push_cast at this
      exact this
  · obtain ⟨c, a, e0, hCm, hCn, hCk, hCt, hCs, hO, hCx, hu⟩ :=
      allocate_dense (W := .r) (m := n) (n := k) (nz := ((n * k : ℕ) : ℤ))
    obtain ⟨y, ey, -, gy, -⟩ := castLoop_spec
      (f := fun _ v => (pure (mpfrRnd (optPrec opt) (optRound opt) (.fin v)) : C Dbl)) (y := a)
      (x := x.xq) (w := fun t => mpfrRnd (optPrec opt) (optRound opt) (.fin ((get x.xq t).getD 0)))
      (fun t ht => by obtain ⟨u, hu, -⟩ := hu 1 t ht; exact ⟨u, hu⟩) hv (fun _ _ => rfl)
    refine ⟨{ c with x := some (.mpfr y), scale := c.scale }, ?_, hCk, hCt, hCm, hCn,
      ⟨hO.notShallow, hO.p, hO.i, hO.j, rfl⟩, fun i j => ?_⟩
    · unfold SLIP_matrix_copy
      simp only [Bool.not_true, Bool.false_eq_true, if_false, hnn, ok_bind]
      rw [if_neg (by simp [hx.type, Ty.ok, Kind.ok]; positivity)]
      unfold copyBody copyDenseDense
      simp only [hx.kind, hx.rows, hx.cols]
      have e0' : allocate .dense .mpfr n k ((n * k : ℕ) : ℤ) false true = .ok c := e0
      rw [e0']
      simp only [ok_bind]
      rw [hCx, hxq]
      unfold slip_cast_array
      simp only [VC.mk]
      rw [ey]
      rfl
    · have := gy _ (ix2_lt i.2 j.2)
      push_cast at this
      exact this

/-- C35: with output type FP64 each entry of the result is the `double` GMP makes of the entry of the
exact solution; nothing else is rounded. -/
theorem C35_backslash_fp64 (hO : AmdOk O opt n) (hA : IsCsc n A) (hb : IsDenseZ n k b)
    (hn : 0 < n) (hsA : A.scale ≠ 0) (hsb : b.scale ≠ 0) (ht : TolOk opt) (hd : (A.matrix n).det ≠ 0) :
    ∃ (x : Matrix (Fin n) (Fin k) ℚ) (y : Mat),
      unscale (A.matrix n) A.scale * x = unscale (b.denseZ n k) b.scale ∧
      SLIP_backslash fp O nc true (some X) .fp64 (some A) (some b) opt = .ok (.ok, some (some y)) ∧
      y.kind = .dense ∧ y.type = .fp64 ∧ y.m = n ∧ y.n = k ∧ Owns y ∧
      ∀ (i : Fin n) (j : Fin k), get y.xf ((i : ℕ) + (j : ℕ) * n : ℤ) = some (fp.mpqGetD (x i j)) := by
  obtain ⟨x, h1, h2, e⟩ := backslash_core (fp := fp) (nc := nc) (X := X) hO hA hb hn hsA hsb ht hd
    (t := .fp64) (by simp)
  obtain ⟨y, ey, hy⟩ := (copy_denseQ (fp := fp) (opt := opt) h1).1
  refine ⟨x.denseQ n k, y, h2, ?_, hy⟩
  rw [e, ey]
  rfl

/-- C35: with output type MPFR each entry of the result is the entry of the exact solution rounded
once, to the precision and in the direction given by the options. -/
theorem C35_backslash_mpfr (hO : AmdOk O opt n) (hA : IsCsc n A) (hb : IsDenseZ n k b)
    (hn : 0 < n) (hsA : A.scale ≠ 0) (hsb : b.scale ≠ 0) (ht : TolOk opt) (hd : (A.matrix n).det ≠ 0) :
    ∃ (x : Matrix (Fin n) (Fin k) ℚ) (y : Mat),
      unscale (A.matrix n) A.scale * x = unscale (b.denseZ n k) b.scale ∧
      SLIP_backslash fp O nc true (some X) .mpfr (some A) (some b) opt = .ok (.ok, some (some y)) ∧
      y.kind = .dense ∧ y.type = .mpfr ∧ y.m = n ∧ y.n = k ∧ Owns y ∧
      ∀ (i : Fin n) (j : Fin k), get y.xr ((i : ℕ) + (j : ℕ) * n : ℤ) =
        some (.fin (roundPrec (optPrec opt) (optRound opt) (x i j))) := by
  obtain ⟨x, h1, h2, e⟩ := backslash_core (fp := fp) (nc := nc) (X := X) hO hA hb hn hsA hsb ht hd
    (t := .mpfr) (by simp)
  obtain ⟨y, ey, hy⟩ := (copy_denseQ (fp := fp) (opt := opt) h1).2
  refine ⟨x.denseQ n k, y, h2, ?_, hy⟩
  rw [e, ey]
  rfl

/-- C35, C02: a singular matrix gives SLIP_SINGULAR and a NULL result, for every output type. -/
theorem C35_backslash_singular (hO : AmdOk O opt n) (hA : IsCsc n A) (hbk : b.kind = .dense)
    (hbt : b.type = .mpz) (ht : TolOk opt) (hd : (A.matrix n).det = 0) {t : Ty}
    (hty : t = .mpq ∨ t = .fp64 ∨ t = .mpfr) :
    SLIP_backslash fp O nc true (some X) t (some A) (some b) opt = .ok (.singular, some none) := by
  obtain ⟨S, e, ⟨τ, hτ, -⟩, h1, h2, -⟩ :=
    C17_analysis_usable hO hA.kind hA.rows hA.cols hA.pattern hA.idx none
  have hS : IsAnalysis n S := ⟨⟨τ, hτ⟩, h1, h2⟩
  unfold SLIP_backslash
  simp only [Bool.not_true, Bool.false_eq_true, if_false, reduceCtorEq]
  rw [if_neg (by rcases hty with rfl | rfl | rfl <;> simp),
    if_neg (by simp [requireFails, hA.kind, hA.type]), if_neg (by simp [requireFails, hbk, hbt]), e]
  simp only [ok_bind, ne_eq, not_true_eq_false, if_false, Option.join, Option.bind_some, id]
  rw [(C02_singular_verdict_exact (nc := nc) hA hS ht none none none none).1 hd]
  rfl

end

/-- Roundings used in the examples: identity. -/
def Ex.fp : Fp := ⟨.fin, fun z => .fin z, fun _ d => d, fun z => .fin z, fun _ => 64⟩

example := C35_backslash_mpq (fp := Ex.fp) (nc := Ex.nc) (X := none) (opt := none) (Ex.orderings_ok _)
  Ex.A_csc Ex.b_dense (by decide) Ex.scale_ne.1 Ex.scale_ne.2 Ex.tol_ok (by rw [Ex.A_det]; decide)
example := C35_backslash_fp64 (fp := Ex.fp) (nc := Ex.nc) (X := none) (opt := none) (Ex.orderings_ok _)
  Ex.A_csc Ex.b_dense (by decide) Ex.scale_ne.1 Ex.scale_ne.2 Ex.tol_ok (by rw [Ex.A_det]; decide)
example := C35_backslash_mpfr (fp := Ex.fp) (nc := Ex.nc) (X := none) (opt := none) (Ex.orderings_ok _)
  Ex.A_csc Ex.b_dense (by decide) Ex.scale_ne.1 Ex.scale_ne.2 Ex.tol_ok (by rw [Ex.A_det]; decide)
example := C35_backslash_singular (fp := Ex.fp) (nc := Ex.nc) (X := none) (opt := none) (Ex.orderings_ok _)
  Ex.A0_csc (b := Ex.b) rfl rfl Ex.tol_ok Ex.A0_det (t := .fp64) (by simp)

end Slip
