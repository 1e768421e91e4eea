import Verif.Props.FlakyCopy
import Verif.Props.Workflow

/-!
# C57, C36: converting and solving when memory is refused
-/

namespace Slip

open Flaky

/-- The calls a user makes, as `convertAndSolve` (Demo/example.c lines 100-102 and 114): the program stops with the status of the first
call that does not return SLIP_OK. -/
def convertAndSolveF (junk : ℚ) (fp : Fp) (O : Orderings) (nc : Int → Int → ℚ → Bool) (t : Ty) (A b : Mat)
    (opt : Option Options) : F (Info × Handle Mat) := do
  let (e, A') ← SLIP_matrix_copyF junk fp true (some none) .csc .mpz (some A) opt
  if e ≠ .ok then pure (e, some none)
  else do
    let (e, b') ← SLIP_matrix_copyF junk fp true (some none) .dense .mpz (some b) opt
    if e ≠ .ok then pure (e, some none)
    else SLIP_backslashF junk fp O nc true (some none) t A'.join b'.join opt

theorem SomeRefused.mono {ω : ℕ → Bool} {t t' u u' : ℕ} (h : SomeRefused ω t t') (h1 : u ≤ t) (h2 : t' ≤ u') :
    SomeRefused ω u u' := by
  obtain ⟨s, a, b, c⟩ := h
  exact ⟨s, by omega, by omega, c⟩

theorem NoneRefused.mono {ω : ℕ → Bool} {t t' u u' : ℕ} (h : NoneRefused ω u u') (h1 : u ≤ t) (h2 : t' ≤ u') :
    NoneRefused ω t t' := fun s a b => h s (by omega) (by omega)

theorem IsCsc.scaled {n : ℕ} {A : Mat} (h : IsCsc n A) (σ : ℚ) : IsCsc n { A with scale := σ } :=
  ⟨h.kind, h.type, h.rows, h.cols, h.p0, h.col, h.idx⟩

theorem IsDenseZ.scaled {n k : ℕ} {A : Mat} (h : IsDenseZ n k A) (σ : ℚ) : IsDenseZ n k { A with scale := σ } :=
  ⟨h.kind, h.type, h.rows, h.cols, h.val⟩

theorem unscale_eq {m n : ℕ} (A : Matrix (Fin m) (Fin n) ℤ) {s σ : ℚ} (hs : s ≠ 0) :
    unscale A σ = (s / σ) • unscale A s := by
  ext i j
  simp only [unscale, Matrix.of_apply, Matrix.smul_apply, smul_eq_mul]
  by_cases h : σ = 0
  · subst h; simp
  · field_simp

/-- What a copy that is known to succeed with unlimited memory does. -/
theorem copyF_known {junk : ℚ} (hj : junk ≠ 0) {fp : Fp} {kind : Kind} {A A' : Mat} {opt : Option Options}
    (hA : SLIP_matrix_copy fp true (some none) kind .mpz (some A) opt = .ok (.ok, some (some A'))) (hs : A'.scale ≠ 0)
    (ω : ℕ → Bool) (t : ℕ) :
    let r := SLIP_matrix_copyF junk fp true (some none) kind .mpz (some A) opt ω t
    t ≤ r.2 ∧ ((∃ e, (e = .outOfMemory ∨ e = .incorrectInput) ∧ r.1 = .ok (e, some none) ∧ SomeRefused ω t r.2) ∨
      ∃ σ, σ ≠ 0 ∧ r.1 = .ok (.ok, some (some { A' with scale := σ })) ∧ (NoneRefused ω t r.2 → σ = A'.scale) ∧
        (Checked kind A.kind → σ = A'.scale)) := by
  intro r
  obtain ⟨h0, h1, h2⟩ := C57_copy junk ω t fp true (some none) kind .mpz (some A) opt
  refine ⟨h0, ?_⟩
  rcases refused_or ω t r.2 with hr | hr
  · rcases h2 hr with h3 | h3 | ⟨h3, h4⟩ | ⟨M, σ, hσ, h3, h4⟩
    · exact Or.inl ⟨_, Or.inl rfl, h3, hr⟩
    · exact Or.inl ⟨_, Or.inr rfl, h3, hr⟩
    · rw [hA] at h3
      exact absurd h3 (h4 A')
    · rw [hA] at h3
      cases h3
      refine Or.inr ⟨σ, ?_, h4, fun hn => ?_, fun hc => ?_⟩
      · rcases hσ with rfl | rfl
        · exact hj
        · exact one_ne_zero
      · obtain ⟨s, a, b, c⟩ := hr
        rw [hn s a b] at c
        cases c
      · have := (C57_copy_checked junk ω t fp true (some none) kind .mpz (some A) opt
          (fun M h => by cases h; exact hc)).1 hr
        rw [h4] at this
        rcases this with h | h <;> cases h
  · rw [hA] at h1
    exact Or.inr ⟨A'.scale, hs, h1 hr, fun _ => rfl, fun _ => rfl⟩

section

variable {fp : Fp} {O : Orderings} {nc : Int → Int → ℚ → Bool} {opt : Option Options} {n k : ℕ} {A b : Mat} {junk : ℚ}

/-- C57, C36: let `A` (`n`-by-`n`, `n > 0`, nonsingular) and `b` be valid matrix objects of any kind and type that convert exactly to
integer objects. Whatever requests are refused, converting them and solving either reports SLIP_OUT_OF_MEMORY or SLIP_INCORRECT_INPUT,
and that only if a request was refused; or it returns SLIP_OK and a multiple of the exact solution. The factor is 1 if no request was
refused, and also if `A` is given as CSC and `b` as dense matrix. -/
theorem C57_convert_and_solve (hj : junk ≠ 0) (hO : AmdOk O opt n) (hn : 0 < n) (ht : TolOk opt)
    (hA : Valid n n A) (hEA : ExactConv n n opt A .mpz) (hKA : KindOk n n A .csc .mpz)
    (hb : Valid n k b) (hEb : ExactConv n k opt b .mpz) (hKb : KindOk n k b .dense .mpz)
    (hd : (A.toMatrix n n).det ≠ 0) (ω : ℕ → Bool) (t : ℕ) :
    let r := convertAndSolveF junk fp O nc .mpq A b opt ω t
    (∃ (x : Mat) (c : ℚ), r.1 = .ok (.ok, some (some x)) ∧ IsDenseQ n k x ∧ c ≠ 0 ∧
      A.toMatrix n n * x.denseQ n k = c • b.toMatrix n k ∧ (NoneRefused ω t r.2 → c = 1) ∧
      (A.kind = .csc → b.kind = .dense → c = 1)) ∨
    ((r.1 = .ok (.outOfMemory, some none) ∨ r.1 = .ok (.incorrectInput, some none)) ∧ SomeRefused ω t r.2) := by
  intro r
  obtain ⟨A', eA, hA', hsA, huA, hdA, -⟩ := copy_to_csc (fp := fp) hA hEA hKA
  obtain ⟨b', eb, hb', hsb, hub, -⟩ := copy_to_dense (fp := fp) hb hEb hKb
  have hr : r = convertAndSolveF junk fp O nc .mpq A b opt ω t := rfl
  clear_value r
  unfold convertAndSolveF at hr
  rw [bind_def] at hr
  obtain ⟨ht1, h1⟩ := copyF_known hj eA hsA ω t
  rcases hm : SLIP_matrix_copyF junk fp true (some none) .csc .mpz (some A) opt ω t with ⟨q, t1⟩
  rw [hm] at hr ht1 h1
  dsimp only at hr ht1 h1
  have bad : ∀ {e : Info}, (e = .outOfMemory ∨ e = .incorrectInput) → e ≠ .ok := by
    rintro e (rfl | rfl) <;> decide
  rcases h1 with ⟨e, he, rfl, hs⟩ | ⟨σ, hσ, rfl, hσ1, hσ2⟩
  · dsimp only at hr
    rw [if_pos (bad he)] at hr
    refine Or.inr ⟨?_, ?_⟩
    · rw [hr]
      rcases he with rfl | rfl
      · exact Or.inl rfl
      · exact Or.inr rfl
    · rw [hr]; exact hs
  · dsimp only at hr
    rw [if_neg (by decide), bind_def] at hr
    obtain ⟨ht2, h2⟩ := copyF_known hj eb hsb ω t1
    rcases hm2 : SLIP_matrix_copyF junk fp true (some none) .dense .mpz (some b) opt ω t1 with ⟨q, t2⟩
    rw [hm2] at hr ht2 h2
    dsimp only at hr ht2 h2
    rcases h2 with ⟨e, he, rfl, hs⟩ | ⟨τ, hτ, rfl, hτ1, hτ2⟩
    · dsimp only at hr
      rw [if_pos (bad he)] at hr
      refine Or.inr ⟨?_, ?_⟩
      · rw [hr]
        rcases he with rfl | rfl
        · exact Or.inl rfl
        · exact Or.inr rfl
      · rw [hr]; exact hs.mono ht1 (le_refl _)
    · dsimp only [Option.join_some] at hr
      rw [if_neg (by decide)] at hr
      have ht3 := (C56_backslash junk ω t2 fp O nc true (some none) .mpq (some { A' with scale := σ })
        (some { b' with scale := τ }) opt).1
      rcases C56_exact_or_nothing junk ω t2 (fp := fp) (nc := nc) (X := none) hO (hA'.scaled σ) (hb'.scaled τ) hn hσ hτ ht
        (hdA.1 hd) with ⟨x, e1, e2, e3⟩ | ⟨e1, e2⟩
      · refine Or.inl ⟨x, (σ / A'.scale) * (b'.scale / τ), ?_, e2, ?_, ?_, fun hno => ?_, fun h3 h4 => ?_⟩
        · rw [hr]; exact e1
        · exact mul_ne_zero (div_ne_zero hσ hsA) (div_ne_zero hsb hτ)
        · have e4 : unscale (A'.matrix n) σ * x.denseQ n k = unscale (b'.denseZ n k) τ := e3
          rw [unscale_eq (A'.matrix n) (σ := σ) hsA, unscale_eq (b'.denseZ n k) (σ := τ) hsb, huA, hub, Matrix.smul_mul] at e4
          have e5 := congrArg (fun M => (σ / A'.scale) • M) e4
          rw [smul_smul, smul_smul, show σ / A'.scale * (A'.scale / σ) = 1 by field_simp, one_smul] at e5
          exact e5
        · rw [hr] at hno
          rw [hσ1 (hno.mono (le_refl _) (ht2.trans ht3)), hτ1 (hno.mono ht1 ht3), div_self hsA, div_self hsb, one_mul]
        · rw [hσ2 (Or.inl ⟨h3, Or.inl rfl⟩), hτ2 (Or.inr (Or.inr ⟨h4, rfl⟩)), div_self hsA, div_self hsb, one_mul]
      · refine Or.inr ⟨?_, ?_⟩
        · rw [hr]; exact e1
        · rw [hr]; exact e2.mono (ht1.trans ht2) (le_refl _)

end

/-! ## Examples -/

/-- `R = [1/2 1; 0 3]` given as triplet matrix, `r = [5; 6]`: a multiple of `[6; 2]`, whatever is refused. -/
example (fp : Fp) (O : Orderings) (nc : Int → Int → ℚ → Bool) (ω : ℕ → Bool) (t : ℕ) :=
  C57_convert_and_solve (fp := fp) (nc := nc) (O := O) (opt := none) (junk := 1) one_ne_zero
    (fun h => absurd h (by decide)) (by omega) (fun _ => ⟨_, rfl⟩) WorkflowEx.R_valid
    (by show SLIP_matrix_nnz true (some WorkflowEx.R) ≠ .ok 0; decide)
    ⟨fun h => (by cases h), fun h => (by cases h), fun h => (by cases h)⟩ WorkflowEx.r_valid trivial
    ⟨fun h => (by cases h), fun h => (by cases h), fun _ h => (by cases h)⟩
    (by rw [WorkflowEx.R_det]; norm_num) ω t

end Slip
