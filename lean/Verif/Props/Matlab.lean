import Verif.Proof.Matlab
import Verif.Props.Api

/-!
# Properties C39 and C40: the MATLAB interface
-/

namespace Slip

/-! ## C40: the options struct -/

/-- A stage that reads one setting does what `P` says, or fails if nothing satisfies `P`. -/
def Stage (m : Mex α) (P : α → Prop) : Prop :=
  (∃ a, m = pure a ∧ P a ∧ ∀ a', P a' → a' = a) ∨ ((∃ msg, m = Mex.fail msg) ∧ ∀ a, ¬ P a)

theorem mexOrder_stage (f : Option MxField) : Stage (mexOrder f) (Named orderNames .colamd f) := by
  unfold mexOrder Named orderNames
  rcases f with _ | ⟨s⟩ | d
  · exact Or.inl ⟨_, rfl, by simp, by simp⟩
  · simp only [reduceCtorEq, false_and, false_or, Option.some.injEq, MxField.text.injEq,
      exists_eq_left', List.mem_cons, Prod.mk.injEq, List.not_mem_nil, or_false]
    by_cases h1 : s = "none"
    · subst h1; exact Or.inl ⟨_, rfl, by simp, by simp⟩
    by_cases h2 : s = "colamd"
    · subst h2; exact Or.inl ⟨_, rfl, by simp, by simp⟩
    by_cases h3 : s = "amd"
    · subst h3; exact Or.inl ⟨_, rfl, by simp, by simp⟩
    exact Or.inr ⟨⟨"unknown option.order", by simp [h1, h2, h3]⟩, by simp [h1, h2, h3]⟩
  · exact Or.inr ⟨⟨_, rfl⟩, by simp⟩

theorem mexPivot_stage (f : Option MxField) : Stage (mexPivot f) (Named pivotNames .tolSmallest f) := by
  unfold mexPivot Named pivotNames
  rcases f with _ | ⟨s⟩ | d
  · exact Or.inl ⟨_, rfl, by simp, by simp⟩
  · simp only [reduceCtorEq, false_and, false_or, Option.some.injEq, MxField.text.injEq,
      exists_eq_left', List.mem_cons, Prod.mk.injEq, List.not_mem_nil, or_false]
    by_cases h1 : s = "smallest"
    · subst h1; exact Or.inl ⟨_, rfl, by simp, by simp⟩
    by_cases h2 : s = "diagonal"
    · subst h2; exact Or.inl ⟨_, rfl, by simp, by simp⟩
    by_cases h3 : s = "first"
    · subst h3; exact Or.inl ⟨_, rfl, by simp, by simp⟩
    by_cases h4 : s = "tol smallest"
    · subst h4; exact Or.inl ⟨_, rfl, by simp, by simp⟩
    by_cases h5 : s = "tol largest"
    · subst h5; exact Or.inl ⟨_, rfl, by simp, by simp⟩
    by_cases h6 : s = "largest"
    · subst h6; exact Or.inl ⟨_, rfl, by simp, by simp⟩
    exact Or.inr ⟨⟨"unknown option.pivot", by simp [h1, h2, h3, h4, h5, h6]⟩,
      by simp [h1, h2, h3, h4, h5, h6]⟩
  · exact Or.inr ⟨⟨_, rfl⟩, by simp⟩

theorem mexSolution_stage (prev : Option String) (f : Option MxField) (hf : ∀ d, f ≠ some (.num d)) :
    Stage (mexSolution prev f) (Named solutionNames .double f) := by
  unfold mexSolution Named solutionNames
  rcases f with _ | ⟨s⟩ | d
  · exact Or.inl ⟨_, rfl, by simp, by simp⟩
  · simp only [reduceCtorEq, false_and, false_or, Option.some.injEq, MxField.text.injEq,
      exists_eq_left', List.mem_cons, Prod.mk.injEq, List.not_mem_nil, or_false, Mex.pure_bind']
    by_cases h1 : s = "vpa"
    · subst h1; exact Or.inl ⟨_, rfl, by simp, by simp⟩
    by_cases h2 : s = "char"
    · subst h2; exact Or.inl ⟨_, rfl, by simp, by simp⟩
    by_cases h3 : s = "double"
    · subst h3; exact Or.inl ⟨_, rfl, by simp, by simp⟩
    exact Or.inr ⟨⟨"unknown option.solution", by simp [h1, h2, h3]⟩, by simp [h1, h2, h3]⟩
  · exact absurd rfl (hf d)

theorem mexTol_stage (code : String → ℚ) (tenth : ℚ) (p : Pivot) (f : Option MxField)
    (hf : ∀ g, f = some g → mxScalar code g ≠ .nan) :
    Stage (mexTol code tenth p f) (fun t =>
      (∀ g, f = some g → p = .tolSmallest ∨ p = .tolLargest →
        ∃ v, mxScalar code g = .fin v ∧ 0 < v ∧ v ≤ 1 ∧ t = .fin v) ∧
      ((f = none ∨ ¬ (p = .tolSmallest ∨ p = .tolLargest)) → t = .fin tenth)) := by
  unfold mexTol
  by_cases hp : p = .tolSmallest ∨ p = .tolLargest
  · rw [if_pos hp]
    rcases f with _ | g
    · exact Or.inl ⟨_, rfl, by simp, by simp⟩
    · have hg := hf g rfl
      simp only
      cases hs : mxScalar code g with
      | nan => exact absurd hs hg
      | posInf => exact Or.inr ⟨⟨_, rfl⟩, fun a h => by
          obtain ⟨v, hv, -⟩ := h.1 g rfl hp; rw [hs] at hv; cases hv⟩
      | negInf => exact Or.inr ⟨⟨_, rfl⟩, fun a h => by
          obtain ⟨v, hv, -⟩ := h.1 g rfl hp; rw [hs] at hv; cases hv⟩
      | fin v =>
        by_cases hv : v > 1 ∨ v ≤ 0
        · refine Or.inr ⟨⟨_, if_pos (by simpa [Dbl.outsideUnit] using hv)⟩, fun a h => ?_⟩
          obtain ⟨w, hw, h1, h2, -⟩ := h.1 g rfl hp
          rw [hs] at hw
          cases hw
          rcases hv with hv | hv
          · exact absurd h2 (not_le.2 hv)
          · exact absurd h1 (not_lt.2 hv)
        · refine Or.inl ⟨.fin v, if_neg (by simpa [Dbl.outsideUnit] using hv), ⟨?_, ?_⟩, ?_⟩
          · rintro g' ⟨⟩ -
            rw [not_or, not_lt, not_le] at hv
            exact ⟨v, hs, hv.2, hv.1, rfl⟩
          · rintro (h | h)
            · cases h
            · exact absurd hp h
          · rintro a ⟨h, -⟩
            obtain ⟨w, hw, -, -, rfl⟩ := h g rfl hp
            rw [hs] at hw
            rw [hw]
  · rw [if_neg hp]
    exact Or.inl ⟨_, rfl, ⟨fun g _ h => absurd h hp, fun _ => rfl⟩, fun a h => h.2 (Or.inr hp)⟩

theorem mexDigits_stage (code : String → ℚ) (f : Option MxField) :
    Stage (mexDigits code f) (fun d =>
      (∀ g, f = some g → mxScalar code g = .fin d ∧ 2 ≤ d ∧ d ≤ 2 ^ 29) ∧ (f = none → d = 100)) := by
  unfold mexDigits
  rcases f with _ | g
  · exact Or.inl ⟨_, rfl, by simp, by simp⟩
  · simp only
    cases hs : mxScalar code g with
    | nan => exact Or.inr ⟨⟨_, rfl⟩, fun a h => by have := (h.1 g rfl).1; rw [hs] at this; cases this⟩
    | posInf => exact Or.inr ⟨⟨_, rfl⟩, fun a h => by have := (h.1 g rfl).1; rw [hs] at this; cases this⟩
    | negInf => exact Or.inr ⟨⟨_, rfl⟩, fun a h => by have := (h.1 g rfl).1; rw [hs] at this; cases this⟩
    | fin v =>
      by_cases hv : v ≠ roundInt 1 v ∨ v < 2 ∨ v > 2 ^ 29
      · refine Or.inr ⟨⟨_, if_pos hv⟩, fun a h => ?_⟩
        obtain ⟨e, h1, h2⟩ := h.1 g rfl
        rw [hs] at e
        have e : v = a := Dbl.fin.inj e
        subst e
        rw [roundInt_int] at hv
        rcases hv with hv | hv | hv
        · exact hv rfl
        · have : a < 2 := by exact_mod_cast hv
          omega
        · have : a > 2 ^ 29 := by exact_mod_cast hv
          omega
      · rw [not_or, not_or, ne_eq, not_not, not_lt, not_lt] at hv
        refine Or.inl ⟨_, if_neg (by simp only [not_or, ne_eq, not_not, not_lt]; exact hv), ⟨?_, by simp⟩, ?_⟩
        · rintro g' ⟨⟩
          rw [hs, ← hv.1]
          refine ⟨rfl, ?_, ?_⟩
          · have := hv.2.1; rw [hv.1] at this; exact_mod_cast this
          · have := hv.2.2; rw [hv.1] at this; exact_mod_cast this
        · rintro a ⟨h, -⟩
          have e := (h g rfl).1
          rw [hs] at e
          rw [Dbl.fin.inj e, roundInt_int]

theorem isTrunc_roundInt (v : ℚ) : IsTrunc v (roundInt 1 v) := by
  refine ⟨trunc_abs v, ?_, ?_⟩
  · unfold roundInt
    rw [if_pos rfl]
    split
    · have := Int.floor_le v
      have := Int.lt_floor_add_one v
      rw [abs_lt]; constructor <;> linarith
    · have := Int.le_ceil v
      have := Int.ceil_lt_add_one v
      rw [abs_lt]; constructor <;> linarith
  · unfold roundInt
    rw [if_pos rfl]
    split
    · rename_i h
      exact mul_nonneg h (by exact_mod_cast Int.floor_nonneg.2 h)
    · rename_i h
      have h : v ≤ 0 := (not_le.1 h).le
      exact mul_nonneg_of_nonpos_of_nonpos h (by exact_mod_cast Int.ceil_le.2 (by simpa using h))

theorem isTrunc_unique {v : ℚ} {a b : ℤ} (ha : IsTrunc v a) (hb : IsTrunc v b) : a = b := by
  wlog hv : 0 ≤ v generalizing v a b
  · have key : ∀ {z : ℤ}, IsTrunc v z → IsTrunc (-v) (-z) := by
      rintro z ⟨h1, h2, h3⟩
      refine ⟨by push_cast; rwa [abs_neg, abs_neg], ?_, by push_cast; linarith⟩
      push_cast
      rw [show -v - -(z : ℚ) = -(v - z) by ring, abs_neg]
      exact h2
    have := this (key ha) (key hb) (by linarith [not_le.1 hv])
    omega
  have key : ∀ {z : ℤ}, IsTrunc v z → z = ⌊v⌋ := by
    rintro z ⟨h1, h2, h3⟩
    symm
    rw [Int.floor_eq_iff]
    rw [abs_of_nonneg hv] at h1
    rw [abs_lt] at h2
    exact ⟨(le_abs_self _).trans h1, by linarith⟩
  rw [key ha, key hb]

theorem mexPrint_stage (code : String → ℚ) (f : Option MxField)
    (hf : ∀ g, f = some g → ∃ v, mxScalar code g = .fin v ∧ |v| < 2 ^ 31) :
    Stage (mexPrint code f) (fun p =>
      (∀ g, f = some g → ∃ v z, mxScalar code g = .fin v ∧ IsTrunc v z ∧ p = max 0 (min z 3)) ∧
      (f = none → p = 0)) := by
  unfold mexPrint
  rcases f with _ | g
  · exact Or.inl ⟨_, rfl, by simp, by simp⟩
  · obtain ⟨v, hs, hv⟩ := hf g rfl
    have ht := isTrunc_roundInt v
    simp only [hs]
    have hb : |(roundInt 1 v : ℚ)| < 2 ^ 31 := ht.1.trans_lt hv
    rw [abs_lt] at hb
    have h1 : -2 ^ 31 < roundInt 1 v := by exact_mod_cast hb.1
    have h2 : roundInt 1 v < 2 ^ 31 := by exact_mod_cast hb.2
    refine Or.inl ⟨_, if_pos ⟨h1.le, h2⟩, ⟨?_, by simp⟩, ?_⟩
    · rintro g' ⟨⟩
      exact ⟨v, _, hs, ht, by omega⟩
    · rintro a ⟨h, -⟩
      obtain ⟨w, z, hw, hz, rfl⟩ := h g rfl
      rw [hs] at hw
      cases hw
      rw [isTrunc_unique hz ht]
      omega

/-- C40: for a struct without the problems listed in `OptionsTyped` (a missing struct is one without
fields), the settings read from the struct are exactly those its fields mean; if the fields have no
meaning the call ends with an error message. -/
theorem C40_options (code : String → ℚ) (tenth : ℚ) (o₀ : Options) (input : Option MxOptions)
    (ht : OptionsTyped code (input.getD .empty)) :
    (∀ o mo, (slip_get_matlab_options code tenth o₀ input).Returns (o, mo) ↔
      OptionsMean code tenth o₀ (input.getD .empty) o mo) ∧
    ((¬ ∃ o mo, OptionsMean code tenth o₀ (input.getD .empty) o mo) →
      ∃ msg, (slip_get_matlab_options code tenth o₀ input).Fails msg) := by
  have hb : ∀ g : MxOptions → Option MxField, g .empty = none →
      input.bind g = g (input.getD .empty) := by
    intro g hg
    cases input with
    | none => exact hg.symm
    | some i => rfl
  unfold slip_get_matlab_options
  rw [hb (·.order) rfl, hb (·.pivot) rfl, hb (·.tol) rfl, hb (·.solution) rfl, hb (·.digits) rfl,
    hb (·.print) rfl]
  generalize hi : input.getD .empty = i at *
  have fin : ∀ {m : Mex (Options × MexOptions)}, (∃ msg, m = Mex.fail msg) →
      (¬ ∃ o mo, OptionsMean code tenth o₀ i o mo) →
      (∀ o mo, m.Returns (o, mo) ↔ OptionsMean code tenth o₀ i o mo) ∧
      ((¬ ∃ o mo, OptionsMean code tenth o₀ i o mo) → ∃ msg, m.Fails msg) := by
    rintro m ⟨msg, rfl⟩ h
    exact ⟨fun o mo => ⟨fun hr => (by cases hr), fun hm => absurd ⟨o, mo, hm⟩ h⟩, fun _ => ⟨msg, rfl⟩⟩
  rcases mexOrder_stage i.order with ⟨r1, e1, p1, u1⟩ | ⟨⟨msg, e1⟩, n1⟩
  swap
  · rw [e1]
    exact fin ⟨msg, rfl⟩ fun ⟨o, mo, h⟩ => n1 _ h.order
  rcases mexPivot_stage i.pivot with ⟨r2, e2, p2, u2⟩ | ⟨⟨msg, e2⟩, n2⟩
  swap
  · rw [e1, Mex.pure_bind', e2]
    exact fin ⟨msg, rfl⟩ fun ⟨o, mo, h⟩ => n2 _ h.pivot
  rcases mexTol_stage code tenth r2 i.tol ht.tol with ⟨r3, e3, p3, u3⟩ | ⟨⟨msg, e3⟩, n3⟩
  swap
  · rw [e1, Mex.pure_bind', e2, Mex.pure_bind', e3]
    refine fin ⟨msg, rfl⟩ fun ⟨o, mo, h⟩ => n3 o.tol ?_
    have := u2 _ h.pivot
    subst this
    exact ⟨h.tol, h.tolDefault⟩
  rcases mexSolution_stage (mexString i.order i.pivot) i.solution ht.solution with
    ⟨r4, e4, p4, u4⟩ | ⟨⟨msg, e4⟩, n4⟩
  swap
  · rw [e1, Mex.pure_bind', e2, Mex.pure_bind', e3, Mex.pure_bind', e4]
    exact fin ⟨msg, rfl⟩ fun ⟨o, mo, h⟩ => n4 _ h.solution
  rcases mexDigits_stage code i.digits with ⟨r5, e5, p5, u5⟩ | ⟨⟨msg, e5⟩, n5⟩
  swap
  · rw [e1, Mex.pure_bind', e2, Mex.pure_bind', e3, Mex.pure_bind', e4, Mex.pure_bind', e5]
    exact fin ⟨msg, rfl⟩ fun ⟨o, mo, h⟩ => n5 _ ⟨h.digits, h.digitsDefault⟩
  rcases mexPrint_stage code i.print ht.print with ⟨r6, e6, p6, u6⟩ | ⟨⟨msg, e6⟩, n6⟩
  swap
  · rw [e1, Mex.pure_bind', e2, Mex.pure_bind', e3, Mex.pure_bind', e4, Mex.pure_bind', e5,
      Mex.pure_bind', e6]
    exact fin ⟨msg, rfl⟩ fun ⟨o, mo, h⟩ => n6 _ ⟨h.print, h.printDefault⟩
  rw [e1, Mex.pure_bind', e2, Mex.pure_bind', e3, Mex.pure_bind', e4, Mex.pure_bind', e5,
      Mex.pure_bind', e6, Mex.pure_bind']
  have hm : OptionsMean code tenth o₀ i { o₀ with order := r1, pivot := r2, tol := r3, printLevel := r6 }
      ⟨r4, r5⟩ := ⟨p1, p2, p3.1, p3.2, p4, p5.1, p5.2, p6.1, p6.2, rfl, rfl, rfl⟩
  refine ⟨fun o mo => ⟨fun h => ?_, fun h => ?_⟩, fun h => absurd ⟨_, _, hm⟩ h⟩
  · cases h
    exact hm
  · obtain ⟨sol, dig⟩ := mo
    obtain ⟨piv, ord, tol, pr, prec, rnd, chk⟩ := o
    have h2 := u2 _ h.pivot
    simp only at h2
    subst h2
    have h1 := u1 _ h.order
    have h3 := u3 tol ⟨h.tol, h.tolDefault⟩
    have h4 := u4 _ h.solution
    have h5 := u5 dig ⟨h.digits, h.digitsDefault⟩
    have h6 := u6 pr ⟨h.print, h.printDefault⟩
    have h7 := h.prec
    have h8 := h.round
    have h9 := h.check
    simp only at h1 h4 h7 h8 h9
    subst h1 h3 h4 h5 h6 h7 h8 h9
    rfl

/-! ## C39: solving from MATLAB -/

section
variable {fp : Fp} {O : Orderings} {nc : Int → Int → ℚ → Bool} {code : String → ℚ} {tenth : ℚ}
  {n k : ℕ} {A : MxSparse} {b : MxFull} {i : MxArg} {o₀ o : Options} {mo : MexOptions}

theorem OptionsMean.tolOk {i : MxOptions} (h : OptionsMean code tenth o₀ i o mo) : TolOk (some o) := by
  intro hp
  have hp : o.pivot = .tolSmallest ∨ o.pivot = .tolLargest := hp
  cases hf : i.tol with
  | none => exact ⟨_, h.tolDefault (Or.inl hf)⟩
  | some f => obtain ⟨v, -, -, -, hv⟩ := h.tol f hf hp; exact ⟨v, hv⟩

theorem mexFunction_eq (opts : MxArg) :
    mexFunction fp O nc code tenth 1 [.sparse false A, .full false b, opts] =
      mexSolve fp O nc code tenth A b (some opts.options) := rfl

/-- C39: let `A` be a sparse `n`-by-`n` array of MATLAB, `n > 0`, and `b` a full `n`-by-`k` array, with
entries as described by `MxExact`; let the options struct mean the settings `o`, `mo`. If `A` is
nonsingular, `SLIP_mex_soln (A, b, option)` returns the exact solution of `A x = b`: as text that
denotes the exact rational entries, or as doubles each of which is made of the exact entry. -/
theorem C39_solution (hO : AmdOk O (some o) n) (hfp : Int64ToDExact fp) (hn : 0 < n) (hA : A.Ok n)
    (hb : b.Ok n k) (h0 : SLIP_create_default_options true = some o₀)
    (ht : OptionsTyped code (i.options.getD .empty))
    (hm : OptionsMean code tenth o₀ (i.options.getD .empty) o mo)
    (hd : (A.matrix n).det ≠ 0) :
    ∃ x : Matrix (Fin n) (Fin k) ℚ, A.matrix n * x = b.matrix n k ∧
      ∃ r, (mexFunction fp O nc code tenth 1 [.sparse false A, .full false b, i]).Returns r ∧
        r.Shows fp mo.solution n k x := by
  have ho : slip_get_matlab_options code tenth o₀ i.options = pure (o, mo) :=
    ((C40_options code tenth o₀ i.options ht).1 o mo).2 hm
  have hp : 93 ≤ optPrec (some o) := by
    show 93 ≤ o.prec
    rw [hm.prec]
    cases h0
    decide
  obtain ⟨A', eA, hA', hsA, huA, hdA⟩ := mexGetA_spec hfp hp hA
  obtain ⟨b', eb, hb', hsb, hub⟩ := mexGetB_spec hfp hp hb
  obtain ⟨x, ex, hx, he⟩ := C35_backslash_mpq (fp := fp) (nc := nc) (X := none) (opt := some o) hO hA' hb'
    hn hsA hsb hm.tolOk (hdA.1 hd)
  refine ⟨x.denseQ n k, by rw [← huA, ← hub, he], ?_⟩
  rw [mexFunction_eq]
  unfold mexSolve
  rw [h0]
  simp only [Mex.pure_bind', ho, eA, hA.rows, eb, ex, Mex.lift_ok, mexOk, if_true]
  unfold mexGet
  simp only [Option.join, Option.bind, Mex.pure_bind', id]
  by_cases hs : mo.solution = .double
  · rw [if_pos hs]
    obtain ⟨y, ey, h1, h2, h3, h4, h5, h6⟩ := (copy_denseQ (fp := fp) (opt := some o) hx).1
    simp only [ey, Mex.lift_ok, Mex.pure_bind', if_true]
    exact ⟨_, rfl, hs, h3, h4, h6⟩
  · rw [if_neg hs]
    refine ⟨_, rfl, hs, hx.rows, hx.cols, fun i j => ?_⟩
    obtain ⟨v, hv⟩ := hx.val i i.2 j j.2
    simp only [Mat.denseQ, Matrix.of_apply]
    rw [hv]; rfl

/-- C39: if `A` is singular the call ends with the message that says so. -/
theorem C39_singular (hO : AmdOk O (some o) n) (hfp : Int64ToDExact fp) (hA : A.Ok n)
    (hb : b.Ok n k) (h0 : SLIP_create_default_options true = some o₀)
    (ht : OptionsTyped code (i.options.getD .empty))
    (hm : OptionsMean code tenth o₀ (i.options.getD .empty) o mo)
    (hd : (A.matrix n).det = 0) :
    (mexFunction fp O nc code tenth 1 [.sparse false A, .full false b, i]).Fails
      "input matrix is singular" := by
  have ho : slip_get_matlab_options code tenth o₀ i.options = pure (o, mo) :=
    ((C40_options code tenth o₀ i.options ht).1 o mo).2 hm
  have hp : 93 ≤ optPrec (some o) := by
    show 93 ≤ o.prec
    rw [hm.prec]
    cases h0
    decide
  obtain ⟨A', eA, hA', hsA, huA, hdA⟩ := mexGetA_spec hfp hp hA
  obtain ⟨b', eb, hb', hsb, hub⟩ := mexGetB_spec hfp hp hb
  have ex := C35_backslash_singular (fp := fp) (nc := nc) (X := none) (opt := some o) (t := .mpq) hO hA'
    hb'.kind hb'.type hm.tolOk (by by_contra h; exact hdA.2 h hd) (by simp)
  rw [mexFunction_eq]
  unfold mexSolve
  rw [h0]
  simp only [Mex.pure_bind', ho, eA, hA.rows, eb, ex, Mex.lift_ok, mexOk]
  rfl

theorem mexSolve_opts (h0 : SLIP_create_default_options true = some o₀) {inp : Option MxOptions}
    (ho : slip_get_matlab_options code tenth o₀ inp = pure (o, mo)) :
    ∃ K : Mat → Mat → Mex MexResult, mexSolve fp O nc code tenth A b (some inp) =
      mexGetA fp (some o) A >>= fun A' => mexGetB fp (some o) A.m b >>= K A' := by
  unfold mexSolve
  rw [h0]
  simp only [Mex.pure_bind', ho]
  exact ⟨_, rfl⟩

/-- C39: a call with the wrong number of arguments, complex arguments, a full `A` or a sparse `b`, a
matrix that is not square, or a right-hand side of the wrong size, ends with a message that says so. -/
theorem C39_rejects (l : ℕ) (args : List MxArg) (a b' : MxArg) (rest : List MxArg)
    (h0 : SLIP_create_default_options true = some o₀)
    (ht : OptionsTyped code (i.options.getD .empty))
    (hm : OptionsMean code tenth o₀ (i.options.getD .empty) o mo) :
    (l > 1 ∨ args.length < 2 ∨ args.length > 3 →
      (mexFunction fp O nc code tenth l args).Fails "Usage: x = SLIP_mex_soln (A,b,option)") ∧
    (l ≤ 1 → rest.length ≤ 1 → a.isComplex ∨ b'.isComplex →
      (mexFunction fp O nc code tenth l (a :: b' :: rest)).Fails "inputs must be real") ∧
    (l ≤ 1 → rest.length ≤ 1 → b'.isComplex = false →
      (mexFunction fp O nc code tenth l (.full false b :: b' :: rest)).Fails
        "first input must be sparse") ∧
    (∀ B, l ≤ 1 → rest.length ≤ 1 →
      (mexFunction fp O nc code tenth l (.sparse false A :: .sparse false B :: rest)).Fails
        "second input must be full") ∧
    (l ≤ 1 → (∃ z, get A.jc A.n = some z) → A.m ≠ A.n →
      (mexFunction fp O nc code tenth l [.sparse false A, .full false b, i]).Fails "A must be square") ∧
    (l ≤ 1 → Int64ToDExact fp → A.Ok n → b.m ≠ n →
      (mexFunction fp O nc code tenth l [.sparse false A, .full false b, i]).Fails
        "dimension mismatch") := by
  have ho : slip_get_matlab_options code tenth o₀ i.options = pure (o, mo) :=
    ((C40_options code tenth o₀ i.options ht).1 o mo).2 hm
  have hp : 93 ≤ optPrec (some o) := by
    show 93 ≤ o.prec
    rw [hm.prec]
    cases h0
    decide
  refine ⟨fun h => ?_, fun h1 h2 h3 => ?_, fun h1 h2 h3 => ?_, fun B h1 h2 => ?_, fun h1 h2 h3 => ?_,
    fun h1 h2 h3 h4 => ?_⟩
  · unfold mexFunction
    by_cases hl : l > 1
    · rw [if_pos hl]; rfl
    rw [if_neg hl]
    rcases args with _ | ⟨a, _ | ⟨b, rest⟩⟩
    · rfl
    · rfl
    · simp only [List.length_cons] at h
      simp only
      rw [if_pos (by omega)]; rfl
  · unfold mexFunction
    rw [if_neg (by omega)]
    simp only
    rw [if_neg (by omega), if_pos (by simpa using h3)]
    rfl
  · unfold mexFunction
    rw [if_neg (by omega)]
    simp only
    rw [if_neg (by omega), if_neg (by rw [h3]; simp [MxArg.isComplex])]
    cases b' <;> rfl
  · unfold mexFunction
    rw [if_neg (by omega)]
    simp only
    rw [if_neg (by omega), if_neg (by simp [MxArg.isComplex])]
    rfl
  · obtain ⟨z, hz⟩ := h2
    obtain ⟨K, hK⟩ := mexSolve_opts (fp := fp) (O := O) (nc := nc) (A := A) (b := b) h0 ho
    unfold mexFunction
    rw [if_neg (by omega)]
    show mexSolve fp O nc code tenth A b (some i.options) = _
    rw [hK]
    unfold mexGetA
    rw [rd_eq hz, Mex.lift_ok, Mex.pure_bind', if_pos (Ne.symm h3)]
    rfl
  · obtain ⟨K, hK⟩ := mexSolve_opts (fp := fp) (O := O) (nc := nc) (A := A) (b := b) h0 ho
    unfold mexFunction
    rw [if_neg (by omega)]
    show mexSolve fp O nc code tenth A b (some i.options) = _
    obtain ⟨A', eA, -⟩ := mexGetA_spec (opt := some o) h2 hp h3
    rw [hK, eA]
    unfold mexGetB
    rw [if_pos (by rw [h3.rows]; exact h4)]
    rfl

/-! ### The documented interface in cases where it does not hold -/

/-- The options are optional (SLIP_mex_soln.c line 35 and its usage text), but without them a variable
that was never set decides what is returned. -/
theorem C39_no_options_refuted (hfp : Int64ToDExact fp) (hn : 0 < n) (hA : A.Ok n)
    (hb : b.Ok n k) (hd : (A.matrix n).det ≠ 0) :
    mexFunction fp O nc code tenth 1 [.sparse false A, .full false b] = Mex.lift (.error .ub) := by
  obtain ⟨o, ho⟩ : ∃ o, SLIP_create_default_options true = some o := ⟨_, rfl⟩
  have hp : 93 ≤ optPrec (some o) := by
    cases ho
    decide
  have hT : TolOk (some o) := fun _ => by cases ho; exact ⟨_, rfl⟩
  obtain ⟨A', eA, hA', hsA, huA, hdA⟩ := mexGetA_spec hfp hp hA
  obtain ⟨b', eb, hb', hsb, hub⟩ := mexGetB_spec hfp hp hb
  have hO : AmdOk O (some o) n := fun h => by cases ho; cases h
  obtain ⟨x, ex, hx, he⟩ := C35_backslash_mpq (fp := fp) (nc := nc) (X := none) (opt := some o) hO hA' hb'
    hn hsA hsb hT (hdA.1 hd)
  show mexSolve fp O nc code tenth A b none = _
  unfold mexSolve
  rw [ho]
  simp only [Mex.pure_bind', eA, hA.rows, eb, ex, Mex.lift_ok, mexOk, if_true]
  rfl

end

theorem mexGetA_ub {fp : Fp} {opt : Option Options} {A : MxSparse} {z : ℤ} (hz : get A.jc A.n = some z)
    (hs : A.n = A.m) (h : slip_mex_check_for_inf fp A.pr z = Mex.lift (.error .ub)) :
    mexGetA fp opt A = Mex.lift (.error .ub) := by
  unfold mexGetA
  rw [rd_eq hz, Mex.lift_ok, Mex.pure_bind', if_neg (by rw [hs]; simp), h]
  rfl

/-- An entry 2^63 (a finite `double`) makes the check for integers convert a number that does not
fit. -/
theorem C39_big_refuted (fp : Fp) (O : Orderings) (nc : Int → Int → ℚ → Bool) (code : String → ℚ)
    (tenth : ℚ) (b : MxFull) :
    mexFunction fp O nc code tenth 1
        [.sparse false ⟨1, 1, [some 0, some 1], [some 0], [some (.fin (2 ^ 63))]⟩, .full false b,
          .other none] = Mex.lift (.error .ub) := by
  have hr : roundInt 1 (2 ^ 63 : ℚ) = 2 ^ 63 := by decide +kernel
  have h : slip_mex_check_for_inf fp [some (.fin (2 ^ 63))] 1 = Mex.lift (.error .ub) := by
    show ((if (2 ^ 63 : ℚ) < -2 ^ 63 ∨ (2 ^ 63 : ℚ) > 2 ^ 63 then (pure false : Mex Bool) else
      if ¬ (int64Min ≤ roundInt 1 (2 ^ 63 : ℚ) ∧ roundInt 1 (2 ^ 63 : ℚ) ≤ int64Max) then
        (Mex.lift (.error .ub) : Mex Bool) else pure (decide (fp.int64ToD (roundInt 1 (2 ^ 63 : ℚ)) =
          .fin (2 ^ 63)))) >>= _) = _
    rw [if_neg (by norm_num), hr, if_pos (by decide)]
    rfl
  obtain ⟨K, hK⟩ := mexSolve_opts (fp := fp) (O := O) (nc := nc) (b := b) (code := code) (tenth := tenth)
    (A := ⟨1, 1, [some 0, some 1], [some 0], [some (.fin (2 ^ 63))]⟩) (inp := none) rfl rfl
  rw [mexFunction_eq]
  show mexSolve fp O nc code tenth _ b (some none) = _
  rw [hK, mexGetA_ub (z := 1) rfl rfl h]
  rfl

/-- Conversions that are exact on integers. -/
def fpExact : Fp := ⟨.fin, fun z => .fin z, fun _ d => d, fun z => .fin z, fun _ => 0⟩

/-- The object read from the 1-by-1 matrix 2^-60. -/
def tinyRead : Mat :=
  { m := 1, n := 1, nzmax := 1, nz := 0, kind := .csc, type := .mpz, p := some [some 0, some 1],
    pShallow := false, i := some [some 0], iShallow := false, j := none, jShallow := false,
    x := some (.mpz [some 0]), xShallow := false, scale := 0 }

/-- Doubles are not taken exactly: the 1-by-1 matrix 2^-60 is nonsingular, but is reported singular
(its entry is replaced by a multiple of 10^-17). -/
theorem C39_inexact_refuted (O : Orderings) (nc : Int → Int → ℚ → Bool) (code : String → ℚ) :
    ((⟨1, 1, [some 0, some 1], [some 0], [some (.fin (1 / 2 ^ 60))]⟩ : MxSparse).matrix 1).det ≠ 0 ∧
    (mexFunction fpExact O nc code (1 / 10) 1
        [.sparse false ⟨1, 1, [some 0, some 1], [some 0], [some (.fin (1 / 2 ^ 60))]⟩,
         .full false ⟨1, 1, [some (.fin 1)]⟩, .other none]).Fails "input matrix is singular" := by
  refine ⟨?_, ?_⟩
  · rw [Matrix.det_fin_one]
    decide +kernel
  · have hfp : Int64ToDExact fpExact := fun _ _ => rfl
    obtain ⟨o, ho⟩ : ∃ o : Options, o = ⟨.tolSmallest, .colamd, .fin (1 / 10), 0, 128, 0, false⟩ := ⟨_, rfl⟩
    have hp : optPrec (some o) = 128 ∧ TolOk (some o) := by subst ho; exact ⟨rfl, fun _ => ⟨_, rfl⟩⟩
    obtain ⟨b', eb, hb', -⟩ := mexGetB_spec (opt := some o) hfp (by rw [hp.1]; decide) (n := 1) (k := 1)
      (b := ⟨1, 1, [some (.fin 1)]⟩) ⟨rfl, rfl, fun i hi j hj => ⟨1, by
        interval_cases i; interval_cases j
        exact ⟨rfl, ⟨1, 0, by norm_num, by norm_num⟩, ⟨10 ^ 17, by norm_num⟩, by norm_num⟩⟩⟩
    have eA : mexGetA fpExact (some o) ⟨1, 1, [some 0, some 1], [some 0], [some (.fin (1 / 2 ^ 60))]⟩ =
        (.ok (.ok tinyRead) : C (Except String Mat)) := by
      have : (match mexGetA fpExact (some ⟨.tolSmallest, .colamd, .fin (1 / 10), 0, 128, 0, false⟩)
          ⟨1, 1, [some 0, some 1], [some 0], [some (.fin (1 / 2 ^ 60))]⟩ with
        | .ok (.ok M) => decide (M = tinyRead)
        | _ => false) = true := by decide +kernel
      subst ho
      split at this
      · rename_i M e
        rw [e, of_decide_eq_true this]
      · cases this
    have hX : IsCsc 1 tinyRead := by
      refine ⟨rfl, rfl, rfl, rfl, rfl, fun j hj => ?_, by simp [tinyRead]⟩
      interval_cases j
      refine ⟨0, 1, rfl, rfl, by norm_num, fun t h0 h1 => ?_, fun t t' h0 h1 h0' h1' _ => by omega⟩
      interval_cases t
      exact ⟨⟨0, by norm_num, rfl⟩, 0, rfl⟩
    have hO : AmdOk O (some o) 1 := fun h => by subst ho; cases h
    have ex := C35_backslash_singular (fp := fpExact) (nc := nc) (X := none) (opt := some o) (t := .mpq) hO
      hX hb'.kind hb'.type hp.2 (by rw [Matrix.det_fin_one]; decide +kernel) (by simp)
    have eo : slip_get_matlab_options code (1 / 10) ⟨.tolSmallest, .colamd, .fin 1, 0, 128, 0, false⟩ none =
        pure (o, ⟨.double, 100⟩) := by subst ho; rfl
    rw [mexFunction_eq]
    show mexSolve fpExact O nc code (1 / 10) _ _ (some none) = _
    unfold mexSolve
    rw [show SLIP_create_default_options true =
      some ⟨.tolSmallest, .colamd, .fin 1, 0, 128, 0, false⟩ from rfl]
    simp only [Mex.pure_bind', eo]
    erw [eA, Mex.pure_bind', eb, Mex.pure_bind', ex]
    rfl

/-- A numeric `option.solution` (or any other that is not text) compares a buffer that was never
written. -/
theorem C40_numeric_solution_refuted (code : String → ℚ) (tenth : ℚ) (o₀ : Options) (d : Dbl) :
    slip_get_matlab_options code tenth o₀ (some { MxOptions.empty with solution := some (.num d) }) =
      Mex.lift (.error .ub) := rfl

/-- A tolerance that is not a number is accepted. -/
theorem C40_nan_tol_refuted (code : String → ℚ) (tenth : ℚ) (o₀ : Options) :
    ∃ o mo, (slip_get_matlab_options code tenth o₀
      (some { MxOptions.empty with tol := some (.num .nan) })).Returns (o, mo) ∧ o.tol = .nan :=
  ⟨_, _, rfl, rfl⟩

/-! ### Concrete cases -/

namespace MatlabEx

/-- The sparse array `[1/2 2; 0 -3]`. -/
def A : MxSparse :=
  ⟨2, 2, [some 0, some 1, some 3], [some 0, some 0, some 1],
    [some (.fin (1 / 2)), some (.fin 2), some (.fin (-3))]⟩

/-- The full array `[1; 7]`. -/
def b : MxFull := ⟨2, 1, [some (.fin 1), some (.fin 7)]⟩

theorem exact_half : MxExact (some (.fin (1 / 2))) (1 / 2) :=
  ⟨rfl, ⟨1, -1, by norm_num, by norm_num⟩, ⟨50000000000000000, by norm_num⟩, by norm_num⟩

theorem exact_int (z : ℤ) (h : |z| < 2 ^ 53) : MxExact (some (.fin z)) z :=
  ⟨rfl, ⟨z, 0, h, by simp⟩, ⟨10 ^ 17 * z, by push_cast; ring⟩, fun e => by
    have : z = 2 ^ 63 := by exact_mod_cast e
    rw [this] at h; norm_num at h⟩

theorem A_ok : A.Ok 2 := by
  refine ⟨rfl, rfl, rfl, fun j hj => ?_⟩
  interval_cases j
  · refine ⟨0, 1, rfl, rfl, by norm_num, fun t h0 h1 => ?_, fun t t' h0 h1 h0' h1' _ => by omega⟩
    interval_cases t
    exact ⟨⟨0, by norm_num, rfl⟩, _, exact_half⟩
  · refine ⟨1, 3, rfl, rfl, by norm_num, fun t h0 h1 => ?_, fun t t' h0 h1 h0' h1' => ?_⟩
    · interval_cases t
      · exact ⟨⟨0, by norm_num, rfl⟩, _, exact_int 2 (by norm_num)⟩
      · exact ⟨⟨1, by norm_num, rfl⟩, _, exact_int (-3) (by norm_num)⟩
    · interval_cases t <;> interval_cases t' <;> simp [A, get]

theorem b_ok : b.Ok 2 1 := by
  refine ⟨rfl, rfl, fun i hi j hj => ?_⟩
  interval_cases i <;> interval_cases j
  · exact ⟨_, exact_int 1 (by norm_num)⟩
  · exact ⟨_, exact_int 7 (by norm_num)⟩

theorem A_det : (A.matrix 2).det = -3 / 2 := by
  rw [Matrix.det_fin_two]
  simp only [MxSparse.matrix, Matrix.of_apply]
  decide +kernel

/-- The options struct with `order = 'amd'`, `pivot = 'tol largest'`, `tol = 1/2`, `solution = 'char'`,
`digits = 50`, `print = 7.5`. -/
def opts : MxOptions :=
  ⟨some (.text "amd"), some (.text "tol largest"), some (.num (.fin (1 / 2))), some (.text "char"),
    some (.num (.fin 50)), some (.num (.fin (15 / 2)))⟩

theorem opts_typed (code : String → ℚ) : OptionsTyped code opts := by
  refine ⟨?_, ?_, ?_⟩
  · rintro f ⟨⟩; exact fun h => by cases h
  · rintro d ⟨⟩
  · rintro f ⟨⟩; exact ⟨15 / 2, rfl, by norm_num⟩

theorem opts_mean (code : String → ℚ) (tenth : ℚ) :
    OptionsMean code tenth ⟨.tolSmallest, .colamd, .fin 1, 0, 128, 0, false⟩ opts
      ⟨.tolLargest, .amd, .fin (1 / 2), 3, 128, 0, false⟩ ⟨.char, 50⟩ := by
  refine ⟨Or.inr ⟨_, rfl, by simp [orderNames]⟩, Or.inr ⟨_, rfl, by simp [pivotNames]⟩, ?_, ?_,
    Or.inr ⟨_, rfl, by simp [solutionNames]⟩, ?_, fun h => (by cases h), ?_, fun h => (by cases h),
    rfl, rfl, rfl⟩
  · rintro f ⟨⟩ -
    exact ⟨_, rfl, by norm_num, by norm_num, rfl⟩
  · rintro (h | h)
    · cases h
    · exact absurd (Or.inr rfl) h
  · rintro f ⟨⟩
    exact ⟨by simp [mxScalar], by norm_num, by norm_num⟩
  · rintro f ⟨⟩
    exact ⟨15 / 2, 7, rfl, ⟨by norm_num, by norm_num [abs_lt], by norm_num⟩, by decide⟩

/-- `C39_solution` and `C40_options` apply: the exact solution of the system is `[34/3; -7/3]`. -/
example (fp : Fp) (hfp : Int64ToDExact fp) (O : Orderings)
    (hO : ∀ opt, AmdOk O opt 2) (nc : Int → Int → ℚ → Bool) (code : String → ℚ) (tenth : ℚ) :
    ∃ x : Matrix (Fin 2) (Fin 1) ℚ, A.matrix 2 * x = b.matrix 2 1 ∧
      ∃ r, (mexFunction fp O nc code tenth 1 [.sparse false A, .full false b, .other (some opts)]).Returns r ∧
        r.Shows fp .char 2 1 x :=
  C39_solution (i := .other (some opts)) (hO _) hfp (by norm_num) A_ok b_ok rfl (opts_typed code)
    (opts_mean code tenth) (by rw [A_det]; norm_num)

/-- The assumption about the compiler is met, e.g. by the conversion that is exact on all integers. -/
example : Int64ToDExact ⟨.fin, fun z => .fin z, fun _ d => d, fun z => .fin z, fun _ => 0⟩ :=
  fun _ _ => rfl

end MatlabEx

end Slip
