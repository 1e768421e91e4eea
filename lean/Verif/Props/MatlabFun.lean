import Verif.Proof.MatlabFun
import Verif.Props.MatlabRun

/-!
# C58: the function of MATLAB users, `SLIP_backslash (A, b, option)`
-/

namespace Slip

/-! ## Specification -/

/-- The argument is a real `n`-by-`n` array of doubles, sparse or full, that stands for the matrix `M`. -/
def MxArg.IsSquare (a : MxArg) (n : ℕ) (M : Matrix (Fin n) (Fin n) ℚ) : Prop :=
  (∃ S : MxSparse, a = .sparse false S ∧ S.Ok n ∧ S.matrix n = M) ∨
  (∃ F : MxFull, a = .full false F ∧ F.Ok n n ∧ F.matrix n n = M)

/-- The result shows the rational matrix `x` in the way that was asked for: as doubles with one rounding per entry, as exact
rationals, or as exact rationals handed to `vpa` together with the number of digits. -/
def MxResult.Shows (fp : Fp) (s : MexSolution) (digits : Option ℚ) (m k : ℕ) (x : Matrix (Fin m) (Fin k) ℚ) : MxResult → Prop
  | .mex r => s ≠ .vpa ∧ r.Shows fp s m k x
  | .vpa m' k' d a => s = .vpa ∧ d = digits ∧ m' = m ∧ k' = k ∧
      ∀ (i : Fin m) (j : Fin k), get a ((i : ℕ) + (j : ℕ) * m : ℤ) = some (x i j)

/-- The settings in the third argument: none if it is left out or is not a struct. -/
def settings (option : Option MxArg) : MxOptions := (option.bind MxArg.options).getD .empty

/-! ## Theorems -/

section
variable {fp : Fp} {O : Orderings} {nc : Int → Int → ℚ → Bool} {qs : List (Int × Int) → List (Int × Int)}
  {code : String → ℚ} {tenth : ℚ} {n k : ℕ} {A : MxArg} {M : Matrix (Fin n) (Fin n) ℚ} {b : MxFull} {option : Option MxArg}
  {o₀ o : Options} {mo : MexOptions}

theorem MxArg.IsSquare.toSparse (h : A.IsSquare n M) :
    A.isNumeric = true ∧ ∃ S : MxSparse, A.toSparse = .sparse false S ∧ S.Ok n ∧ S.matrix n = M := by
  rcases h with ⟨S, rfl, h1, h2⟩ | ⟨F, rfl, h1, h2⟩
  · exact ⟨rfl, S, rfl, h1, h2⟩
  · exact ⟨rfl, F.sparse, rfl, F.sparse_ok h1, (F.sparse_matrix h1).trans h2⟩

theorem settings_eq (option : Option MxArg) :
    settings option = ((option.getD (.full false ⟨0, 0, []⟩)).options).getD .empty := by
  cases option <;> rfl

/-- What remains after the MEX file has returned. -/
def mfunTail (i : MxArg) (x : MexResult) : MexS MxResult :=
  match i.options with
  | none => pure (.mex x)
  | some o => if o.solution = some (.text "vpa") then mexVpa o x else pure (.mex x)

theorem mexVpa_state {o : MxOptions} {x : MexResult} {s s' : Bool} {r : Except String MxResult}
    (h : mexVpa o x s = .ok (r, s')) : s' = s := by
  cases x with
  | double m n x => cases h; rfl
  | cells m n x =>
    unfold mexVpa at h
    cases hd : o.digits with
    | none => simp only [hd] at h; cases h; rfl
    | some f =>
      simp only [hd] at h
      cases f with
      | text t => cases h; rfl
      | num d => cases d <;> (cases h; rfl)

theorem mfunTail_state {i : MxArg} {x : MexResult} {s s' : Bool} {r : Except String MxResult}
    (h : mfunTail i x s = .ok (r, s')) : s' = s := by
  unfold mfunTail at h
  cases ho : i.options with
  | none => simp only [ho] at h; cases h; rfl
  | some o =>
    simp only [ho] at h
    by_cases hs : o.solution = some (.text "vpa")
    · rw [if_pos hs] at h; exact mexVpa_state h
    · rw [if_neg hs] at h; cases h; rfl

theorem mfun_eq (hA : A.isNumeric = true) {b : MxArg} (hb : b.isNumeric = true) :
    SLIP_backslash_m fp O nc qs code tenth A b option =
      (mexFunction64 fp O nc qs code tenth 1 [A.toSparse, b, option.getD (.full false ⟨0, 0, []⟩)] >>=
        mfunTail (option.getD (.full false ⟨0, 0, []⟩)) : MexS MxResult) := by
  unfold SLIP_backslash_m
  rw [hA, hb]
  rfl

theorem vpa_iff (hm : OptionsMean code tenth o₀ (settings option) o mo) :
    mo.solution = .vpa ↔ (settings option).solution = some (.text "vpa") := by
  rcases hm.solution with ⟨h, e⟩ | ⟨s, h, e⟩
  · rw [h, e]; simp
  · rw [h]
    simp only [solutionNames, List.mem_cons, Prod.mk.injEq, List.not_mem_nil, or_false] at e
    rcases e with ⟨rfl, e⟩ | ⟨rfl, e⟩ | ⟨rfl, e⟩ <;> rw [e] <;> simp

/-- C58: a call with a nonsingular `A`, sparse or full, returns the exact solution of `A*x = b` in the way that the settings ask for,
from any state of the library; afterwards the library is finalized. -/
theorem C58_solution (hO : AmdOk O (some o) n) (hfp : Int64ToDExact fp) (hq : QsortOk qs) (hn0 : 0 < n)
    (hA : A.IsSquare n M) (hb : b.Ok n k) (h0 : SLIP_create_default_options true = some o₀)
    (ht : OptionsTyped code (settings option)) (hdig : ∀ t, (settings option).digits ≠ some (.text t))
    (hm : OptionsMean code tenth o₀ (settings option) o mo) (hn : (n : ℤ) ≤ 2 ^ 29) (hnk : (n : ℤ) * k ≤ 2 ^ 59)
    (hd : M.det ≠ 0) (s : Bool) :
    ∃ x : Matrix (Fin n) (Fin k) ℚ, M * x = b.matrix n k ∧
      ∃ r, SLIP_backslash_m fp O nc qs code tenth A (.full false b) option s = .ok (.ok r, false) ∧
        r.Shows fp mo.solution ((settings option).digits.map fun _ => mo.digits) n k x := by
  obtain ⟨hnum, S, eS, hS, rfl⟩ := hA.toSparse
  have hv := vpa_iff hm
  have hdg := hm.digits
  rw [settings_eq] at ht hm hdig hv hdg ⊢
  obtain ⟨x, hx, r, e, hr⟩ := C46_matlab_solution (nc := nc) hO hfp hq hn0 hS hb h0 ht hm hn hnk hd s
  refine ⟨x, hx, ?_⟩
  rw [mfun_eq hnum rfl, eS, MexS.bind_ok e]
  unfold mfunTail
  cases ho : (option.getD (.full false ⟨0, 0, []⟩)).options with
  | none =>
    rw [ho] at hv
    exact ⟨_, rfl, (fun h => by cases hv.1 h), hr⟩
  | some opt =>
    rw [ho] at hv hdig hdg
    simp only [Option.getD_some] at hv hdig hdg ⊢
    by_cases hs : mo.solution = .vpa
    · rw [if_pos (hv.1 hs)]
      cases r with
      | double m' k' a => exact absurd (hs.symm.trans hr.1) (by simp)
      | cells m' k' a =>
        obtain ⟨-, h1, h2, h3⟩ := hr
        unfold mexVpa
        cases hg : opt.digits with
        | none => exact ⟨_, rfl, hs, rfl, h1, h2, h3⟩
        | some f =>
          obtain ⟨h4, -⟩ := hdg f hg
          cases f with
          | text t => exact absurd hg (hdig t)
          | num d =>
            obtain rfl : d = .fin mo.digits := h4
            exact ⟨_, rfl, hs, rfl, h1, h2, h3⟩
    · rw [if_neg fun h => hs (hv.2 h)]
      exact ⟨_, rfl, hs, hr⟩

/-- C58: if the third argument is left out, the solution is returned as doubles, each entry rounded once from the exact value. (The
same call of the MEX file reads a variable that was never set, `C39_no_options_refuted`.) -/
theorem C58_two_arguments (hfp : Int64ToDExact fp) (hq : QsortOk qs) (hn0 : 0 < n) (hA : A.IsSquare n M) (hb : b.Ok n k)
    (hn : (n : ℤ) ≤ 2 ^ 29) (hnk : (n : ℤ) * k ≤ 2 ^ 59) (hd : M.det ≠ 0) (s : Bool) :
    ∃ x : Matrix (Fin n) (Fin k) ℚ, M * x = b.matrix n k ∧
      ∃ a, SLIP_backslash_m fp O nc qs code tenth A (.full false b) none s = .ok (.ok (.mex (.double n k a)), false) ∧
        ∀ (i : Fin n) (j : Fin k), get a ((i : ℕ) + (j : ℕ) * n : ℤ) = some (fp.mpqGetD (x i j)) := by
  obtain ⟨x, hx, r, e, hr⟩ := C58_solution (O := O) (nc := nc) (code := code) (tenth := tenth) (option := none)
    (o := ⟨.tolSmallest, .colamd, .fin tenth, 0, 128, 0, false⟩) (mo := ⟨.double, 100⟩)
    (fun h => by cases h) hfp hq hn0 hA hb rfl ⟨(fun _ h => by cases h), (fun _ h => by cases h), (fun _ h => by cases h)⟩
    (fun _ h => by cases h)
    ⟨Or.inl ⟨rfl, rfl⟩, Or.inl ⟨rfl, rfl⟩, (fun _ h => by cases h), (fun _ => rfl), Or.inl ⟨rfl, rfl⟩,
      (fun _ h => by cases h), (fun _ => rfl), (fun _ h => by cases h), (fun _ => rfl), rfl, rfl, rfl⟩ hn hnk hd s
  refine ⟨x, hx, ?_⟩
  cases r with
  | vpa m' k' d a => exact absurd hr.1 (by simp)
  | mex r =>
    cases r with
    | cells m' k' a => exact absurd rfl hr.2.1
    | double m' k' a =>
      obtain ⟨-, -, rfl, rfl, h⟩ := hr
      exact ⟨a, e, h⟩

/-- C58: with a singular `A`, sparse or full, the call ends with the message that says so, and the library is finalized. -/
theorem C58_singular (hO : AmdOk O (some o) n) (hfp : Int64ToDExact fp) (hq : QsortOk qs) (hn0 : 0 < n)
    (hA : A.IsSquare n M) (hb : b.Ok n k) (h0 : SLIP_create_default_options true = some o₀)
    (ht : OptionsTyped code (settings option)) (hm : OptionsMean code tenth o₀ (settings option) o mo)
    (hn : (n : ℤ) ≤ 2 ^ 29) (hnk : (n : ℤ) * k ≤ 2 ^ 59) (hd : M.det = 0) (s : Bool) :
    SLIP_backslash_m fp O nc qs code tenth A (.full false b) option s = .ok (.error "input matrix is singular", false) := by
  obtain ⟨hnum, S, eS, hS, rfl⟩ := hA.toSparse
  rw [settings_eq] at ht hm
  rw [mfun_eq hnum rfl, eS]
  exact MexS.bind_fail (C46_matlab_singular (nc := nc) hO hfp hq hn0 hS hb h0 ht hm hn hnk hd s)

/-- C58: arguments that are not numeric, complex ones, a sparse `b`, and an `A` that is not square are rejected with a message that
says so; the last three leave the library finalized, the first leaves it as it was. -/
theorem C58_rejects (h0 : SLIP_create_default_options true = some o₀) (ht : OptionsTyped code (settings option))
    (hm : OptionsMean code tenth o₀ (settings option) o mo) (B : MxArg) (s : Bool) :
    ((∃ t, A = .other t) ∨ (∃ t, B = .other t) →
      SLIP_backslash_m fp O nc qs code tenth A B option s = .ok (.error "inputs must be numeric", s)) ∧
    (A.isNumeric = true → B.isNumeric = true → A.isComplex ∨ B.isComplex →
      SLIP_backslash_m fp O nc qs code tenth A B option s = .ok (.error "inputs must be real", false)) ∧
    (∀ S, A.isNumeric = true → A.isComplex = false → B = .sparse false S →
      SLIP_backslash_m fp O nc qs code tenth A B option s = .ok (.error "second input must be full", false)) ∧
    (∀ F, A = .full false F → 0 ≤ F.n → F.m ≠ F.n →
      SLIP_backslash_m fp O nc qs code tenth A (.full false b) option s = .ok (.error "A must be square", false)) ∧
    (∀ S, A = .sparse false S → (∃ z, get S.jc S.n = some z) → S.m ≠ S.n →
      SLIP_backslash_m fp O nc qs code tenth A (.full false b) option s = .ok (.error "A must be square", false)) ∧
    (A.IsSquare n M → Int64ToDExact fp → (n : ℤ) ≤ 2 ^ 29 → b.m ≠ n →
      SLIP_backslash_m fp O nc qs code tenth A (.full false b) option s = .ok (.error "dimension mismatch", false)) := by
  rw [settings_eq] at ht hm
  refine ⟨?_, fun hA hB h => ?_, ?_, ?_, ?_, fun hA hfp hn hbm => ?_⟩
  · rintro (⟨t, rfl⟩ | ⟨t, rfl⟩)
    · rfl
    · unfold SLIP_backslash_m
      cases A <;> rfl
  · rw [mfun_eq hA hB]
    refine MexS.bind_fail ((C46_matlab_rejects (A := ⟨0, 0, [], [], []⟩) (b := b) (n := n) 1 [] A.toSparse B [_] h0 ht hm s).2.1
      (by omega) (by simp) ?_)
    rcases h with h | h
    · left
      cases A <;> exact h
    · exact Or.inr h
  · rintro S hA hc rfl
    rw [mfun_eq hA rfl]
    obtain ⟨T, hT⟩ : ∃ T, A.toSparse = .sparse false T := by
      cases A with
      | sparse c T => cases hc; exact ⟨_, rfl⟩
      | full c T => cases hc; exact ⟨_, rfl⟩
      | other t => cases hA
    rw [hT]
    exact MexS.bind_fail ((C46_matlab_rejects (A := T) (b := b) (n := n) 1 [] A A [_] h0 ht hm s).2.2.2.1 S
      (by omega) (by simp))
  · rintro F rfl hF hmn
    rw [mfun_eq rfl rfl]
    refine MexS.bind_fail ((C46_matlab_rejects (A := F.sparse) (b := b) (n := n) 1 [] (.full false F) B [] h0 ht hm s).2.2.2.2.1
      (by omega) ?_ hmn)
    obtain ⟨c, hc⟩ := Int.eq_ofNat_of_zero_le hF
    exact ⟨_, by rw [show F.sparse.n = F.n from rfl, hc]; exact MxFull.jc_get hc le_rfl⟩
  · rintro S rfl hz hmn
    rw [mfun_eq rfl rfl]
    exact MexS.bind_fail ((C46_matlab_rejects (A := S) (b := b) (n := n) 1 [] B B [] h0 ht hm s).2.2.2.2.1 (by omega) hz hmn)
  · obtain ⟨hnum, S, eS, hS, -⟩ := hA.toSparse
    rw [mfun_eq hnum rfl, eS]
    exact MexS.bind_fail ((C46_matlab_rejects (A := S) (b := b) (n := n) 1 [] A B [] h0 ht hm s).2.2.2.2.2
      (by omega) hfp hS hn hbm)

/-- C58: whatever the arguments, after a call that was made while the library was finalized it is finalized again. -/
theorem C58_finalized (b : MxArg) {s' : Bool} {r : Except String MxResult}
    (h : SLIP_backslash_m fp O nc qs code tenth A b option false = .ok (r, s')) : s' = false := by
  by_cases hn : A.isNumeric = true ∧ b.isNumeric = true
  · rw [mfun_eq hn.1 hn.2] at h
    cases e : mexFunction64 fp O nc qs code tenth 1 [A.toSparse, b, option.getD (.full false ⟨0, 0, []⟩)] false with
    | error err =>
      change (mexFunction64 fp O nc qs code tenth 1 [A.toSparse, b, option.getD (.full false ⟨0, 0, []⟩)] false >>= _ : C _) = _ at h
      rw [e] at h; cases h
    | ok q =>
      obtain ⟨q, t⟩ := q
      obtain rfl := C55_finalized _ _ _ _ _ _ _ _ e
      cases q with
      | error m => rw [MexS.bind_fail e] at h; cases h; rfl
      | ok x =>
        rw [MexS.bind_ok e] at h
        exact mfunTail_state h
  · unfold SLIP_backslash_m at h
    rw [if_pos (by
      rcases not_and_or.1 hn with h | h <;> simp [Bool.not_eq_true _ ▸ h])] at h
    cases h; rfl

end

/-! ### Concrete cases -/

namespace MatlabEx

/-- The full array `[1/2 2; 0 -3]`. -/
def F : MxFull := ⟨2, 2, [some (.fin (1 / 2)), some (.fin 0), some (.fin 2), some (.fin (-3))]⟩

/-- `sparse (F)` is the sparse array of the other examples. -/
example : F.sparse.jc = A.jc ∧ F.sparse.ir = A.ir ∧ F.sparse.pr = A.pr := by decide +kernel

theorem F_ok : F.Ok 2 2 := by
  refine ⟨rfl, rfl, fun i hi j hj => ?_⟩
  interval_cases i <;> interval_cases j
  · exact ⟨_, exact_half⟩
  · exact ⟨_, exact_int 2 (by norm_num)⟩
  · exact ⟨_, exact_int 0 (by norm_num)⟩
  · exact ⟨_, exact_int (-3) (by norm_num)⟩

theorem F_det : (F.matrix 2 2).det = -3 / 2 := by
  rw [Matrix.det_fin_two]
  simp only [MxFull.matrix, Matrix.of_apply]
  decide +kernel

/-- The options struct with `solution = 'vpa'`, `digits = 50`. -/
def vopts : MxOptions := { MxOptions.empty with solution := some (.text "vpa"), digits := some (.num (.fin 50)) }

theorem vopts_typed (code : String → ℚ) : OptionsTyped code vopts := by
  refine ⟨?_, ?_, ?_⟩
  · rintro f ⟨⟩
  · rintro d ⟨⟩
  · rintro f ⟨⟩

theorem vopts_mean (code : String → ℚ) (tenth : ℚ) :
    OptionsMean code tenth ⟨.tolSmallest, .colamd, .fin 1, 0, 128, 0, false⟩ vopts
      ⟨.tolSmallest, .colamd, .fin tenth, 0, 128, 0, false⟩ ⟨.vpa, 50⟩ := by
  refine ⟨Or.inl ⟨rfl, rfl⟩, Or.inl ⟨rfl, rfl⟩, ?_, fun _ => rfl,
    Or.inr ⟨_, rfl, by simp [solutionNames]⟩, ?_, fun h => (by cases h), ?_, fun _ => rfl, rfl, rfl, rfl⟩
  · rintro f ⟨⟩
  · rintro f ⟨⟩
    exact ⟨by simp [mxScalar], by norm_num, by norm_num⟩
  · rintro f ⟨⟩

/-- `C58_solution` applies to a full matrix with a `vpa` result of 50 digits. -/
example (fp : Fp) (hfp : Int64ToDExact fp) (O : Orderings) (nc : Int → Int → ℚ → Bool)
    (qs : List (Int × Int) → List (Int × Int)) (hq : QsortOk qs) (code : String → ℚ) (tenth : ℚ) (s : Bool) :
    ∃ x : Matrix (Fin 2) (Fin 1) ℚ, F.matrix 2 2 * x = b.matrix 2 1 ∧
      ∃ r, SLIP_backslash_m fp O nc qs code tenth (.full false F) (.full false b) (some (.other (some vopts))) s =
          .ok (.ok r, false) ∧ r.Shows fp .vpa (some 50) 2 1 x := by
  simpa [vopts, settings, MxArg.options] using C58_solution (O := O) (nc := nc) (option := some (.other (some vopts)))
    (fun h => by cases h) hfp hq (by norm_num) (Or.inr ⟨F, rfl, F_ok, rfl⟩) b_ok rfl (vopts_typed code) (fun _ h => by cases h)
    (vopts_mean code tenth) (by norm_num) (by norm_num) (by rw [F_det]; norm_num) s

/-- The full array `[1 2; 2 4]` is singular. -/
def G : MxFull := ⟨2, 2, [some (.fin 1), some (.fin 2), some (.fin 2), some (.fin 4)]⟩

example (fp : Fp) (hfp : Int64ToDExact fp) (O : Orderings) (nc : Int → Int → ℚ → Bool)
    (qs : List (Int × Int) → List (Int × Int)) (hq : QsortOk qs) (code : String → ℚ) (tenth : ℚ) (s : Bool) :
    SLIP_backslash_m fp O nc qs code tenth (.full false G) (.full false b) (some (.other (some vopts))) s =
      .ok (.error "input matrix is singular", false) := by
  refine C58_singular (option := some (.other (some vopts))) (fun h => by cases h) hfp hq (by norm_num) (Or.inr ⟨G, rfl, ?_, rfl⟩)
    b_ok rfl (vopts_typed code) (vopts_mean code tenth) (by norm_num) (by norm_num) ?_ s
  · refine ⟨rfl, rfl, fun i hi j hj => ?_⟩
    interval_cases i <;> interval_cases j
    · exact ⟨_, exact_int 1 (by norm_num)⟩
    · exact ⟨_, exact_int 2 (by norm_num)⟩
    · exact ⟨_, exact_int 2 (by norm_num)⟩
    · exact ⟨_, exact_int 4 (by norm_num)⟩
  · rw [Matrix.det_fin_two]
    simp only [MxFull.matrix, Matrix.of_apply]
    decide +kernel

end MatlabEx

end Slip
