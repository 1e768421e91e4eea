import Verif.Proof.MatlabRun
import Verif.Props.Matlab

/-!
# The MATLAB interface in 64-bit arithmetic, and sequences of calls
-/

namespace Slip

section
variable {fp : Fp} {O : Orderings} {nc : Int → Int → ℚ → Bool} {qs : List (Int × Int) → List (Int × Int)}
  {code : String → ℚ} {tenth : ℚ} {n k : ℕ} {A : MxSparse} {b : MxFull} {i : MxArg} {o₀ o : Options} {mo : MexOptions}

theorem matlab_nnz_dense {M : Mat} {m k : ℕ} (hk : M.kind = .dense) (hm : M.m = m) (hn : M.n = k) :
    SLIP_matrix_nnz true (some M) = .ok ((m : ℤ) * k) := by
  unfold SLIP_matrix_nnz
  simp only [Bool.not_true, Bool.false_eq_true, if_false, hk, hm, hn]
  rw [if_neg (by omega)]
  rfl

/-- A call with valid arguments up to the call of `SLIP_backslash`. -/
theorem mexSolve64_upto (hO : AmdOk O (some o) n) (hfp : Int64ToDExact fp) (hq : QsortOk qs) (hn0 : 0 < n) (hA : A.Ok n)
    (hb : b.Ok n k) (h0 : SLIP_create_default_options true = some o₀)
    (ht : OptionsTyped code (i.options.getD .empty))
    (hm : OptionsMean code tenth o₀ (i.options.getD .empty) o mo) (hn : (n : ℤ) ≤ 2 ^ 29) (hnk : (n : ℤ) * k ≤ 2 ^ 59)
    (s : Bool) :
    ∃ A' b', mexGetA fp (some o) A = pure A' ∧ mexGetB fp (some o) n b = pure b' ∧ IsCsc n A' ∧ IsDenseZ n k b' ∧
      A'.scale ≠ 0 ∧ b'.scale ≠ 0 ∧ unscale (A'.matrix n) A'.scale = A.matrix n ∧
      ((A.matrix n).det ≠ 0 ↔ (A'.matrix n).det ≠ 0) ∧ unscale (b'.denseZ n k) b'.scale = b.matrix n k ∧
      mexFunction64 fp O nc qs code tenth 1 [.sparse false A, .full false b, i] s =
        (do
          let (info, x) ← MexS.lib fun s => SLIP_backslash64 fp O nc s (some none) .mpq (some A') (some b') (some o)
          MexS.check info
          let x ← MexS.get x
          MexS.show qs o x
          let mexoptions ← match some mo with
            | some o => pure o
            | none => MexS.lib fun _ => .error .ub
          if mexoptions.solution = .double then do
            let (info, t) ← MexS.lib fun s => SLIP_matrix_copy64 fp s (some none) .dense .fp64 (some x) (some o)
            MexS.check info
            let t ← MexS.get t
            MexS.finalize
            pure (.double t.m t.n t.xf)
          else do
            let _ ← MexS.lib fun _ => i64 (x.m * x.n)
            MexS.finalize
            pure (.cells x.m x.n x.xq) : MexS MexResult) true := by
  have ho : slip_get_matlab_options code tenth o₀ i.options = pure (o, mo) :=
    ((C40_options code tenth o₀ i.options ht).1 o mo).2 hm
  have hp : 93 ≤ optPrec (some o) := by
    show 93 ≤ o.prec
    rw [hm.prec]
    cases h0
    decide
  have hnn : (n : ℤ) * n ≤ 2 ^ 58 := by nlinarith
  have hk : (k : ℤ) ≤ 2 ^ 60 := by
    have : (1 : ℤ) * k ≤ (n : ℤ) * k := mul_le_mul_of_nonneg_right (by omega) (by omega)
    omega
  obtain ⟨A', eA, hA', hsA, huA, hdA, vA, oA⟩ := mexGetA_full hfp hp hA
  obtain ⟨b', eb, hb', hsb, hub, vb, ob⟩ := mexGetB_full hfp hp hb
  obtain ⟨eA64, zA⟩ := mexGetA64_spec hfp hp hA hn eA
  obtain ⟨eb64, zb⟩ := mexGetB64_spec hfp hb (by omega) hk (by omega) eb
  obtain ⟨z, hz, -, hz1, -⟩ := M64.nnz_le hA'.kind hA'.cols hA'.pattern
  have sA := show_ok (o := o) hq (C45_valid vA oA zA) hz (by omega) (by rw [hA'.cols]; omega)
    (fun h => by rw [hA'.kind] at h; cases h)
  have sb := show_ok (o := o) hq (C45_valid vb ob zb) (matlab_nnz_dense hb'.kind hb'.rows hb'.cols) hnk
    (by rw [hb'.cols]; exact hk) (fun h => by rw [hb'.rows, hb'.cols]; omega)
  refine ⟨A', b', eA, eb, hA', hb', hsA, hsb, huA, hdA, hub, ?_⟩
  have e0 : mexFunction64 fp O nc qs code tenth 1 [.sparse false A, .full false b, i] s =
      mexSolve64 fp O nc qs code tenth A b (some i.options) true := by
    cases s <;> rfl
  rw [e0]
  unfold mexSolve64
  rw [MexS.bind_ok (MexS.lib_ok (a := SLIP_create_default_options true) (s := true) rfl), h0]
  dsimp only
  rw [pure_bind, ho, MexS.bind_ok (MexS.of_pure (o, mo) true)]
  dsimp only
  rw [pure_bind]
  dsimp only
  rw [MexS.bind_ok eA64, hA.rows, MexS.bind_ok eb64, MexS.bind_ok sA, MexS.bind_ok sb]

theorem denseQ_valid {x : Mat} (h : IsDenseQ n k x) : Valid n k x := by
  obtain ⟨z, hz⟩ : ∃ z, x.x = some (.mpq z) := by
    have := h.len
    unfold Mat.xq at this
    cases hx : x.x with
    | none => rw [hx] at this; change 0 = _ at this; omega
    | some y => cases y <;> rw [hx] at this <;> first | exact ⟨_, rfl⟩ | (change 0 = _ at this; omega)
  refine Or.inr (Or.inr ⟨⟨h.rows, h.cols, ⟨_, hz, h.type.symm⟩, by rw [h.scale]; exact one_ne_zero⟩, h.kind,
    fun i hi j hj => ?_⟩)
  obtain ⟨v, hv⟩ := h.val i hi j hj
  unfold Mat.xq at hv
  rw [hz] at hv
  exact ⟨v, by unfold Mat.val; rw [hz]; exact hv⟩

theorem check_pass : MexS.check .ok true = .ok (.ok (), true) := rfl

/-- C46: with the arithmetic of `int64_t` and the checks of the matrices that the print level asks for, a call with a
nonsingular `A` returns the exact solution, from any state of the library; afterwards the library is finalized. -/
theorem C46_matlab_solution (hO : AmdOk O (some o) n) (hfp : Int64ToDExact fp) (hq : QsortOk qs) (hn0 : 0 < n)
    (hA : A.Ok n) (hb : b.Ok n k) (h0 : SLIP_create_default_options true = some o₀)
    (ht : OptionsTyped code (i.options.getD .empty))
    (hm : OptionsMean code tenth o₀ (i.options.getD .empty) o mo) (hn : (n : ℤ) ≤ 2 ^ 29)
    (hnk : (n : ℤ) * k ≤ 2 ^ 59) (hd : (A.matrix n).det ≠ 0) (s : Bool) :
    ∃ x : Matrix (Fin n) (Fin k) ℚ, A.matrix n * x = b.matrix n k ∧
      ∃ r, mexFunction64 fp O nc qs code tenth 1 [.sparse false A, .full false b, i] s = .ok (.ok r, false) ∧
        r.Shows fp mo.solution n k x := by
  obtain ⟨A', b', -, -, hA', hb', hsA, hsb, huA, hdA, hub, e⟩ :=
    mexSolve64_upto (nc := nc) hO hfp hq hn0 hA hb h0 ht hm hn hnk s
  have hk : (k : ℤ) ≤ 2 ^ 59 := by
    have : (1 : ℤ) * k ≤ (n : ℤ) * k := mul_le_mul_of_nonneg_right (by omega) (by omega)
    omega
  obtain ⟨x, ex, hx, he⟩ := C35_backslash_mpq (fp := fp) (nc := nc) (X := none) (opt := some o) hO hA' hb'
    hn0 hsA hsb hm.tolOk (hdA.1 hd)
  have e64 := (C46_backslash (fp := fp) (nc := nc) (X := none) (type := .mpq) hO hA' hb' hn0 hsA hsb hm.tolOk hn
    (by omega)).1
  rw [ex] at e64
  have hnx := matlab_nnz_dense hx.kind hx.rows hx.cols
  have sx := show_ok (o := o) hq (denseQ_accepted hx) hnx hnk (by rw [hx.cols]; omega)
    (fun _ => by rw [hx.rows, hx.cols]; omega)
  refine ⟨x.denseQ n k, by rw [← huA, ← hub, he], ?_⟩
  rw [e, MexS.bind_ok (MexS.lib_ok (f := fun s => SLIP_backslash64 fp O nc s (some none) .mpq (some A') (some b')
    (some o)) e64)]
  dsimp only
  rw [MexS.bind_ok check_pass, MexS.bind_ok (get_ok x), MexS.bind_ok sx, pure_bind]
  by_cases hs : mo.solution = .double
  · rw [if_pos hs]
    obtain ⟨y, ey, h1, h2, h3, h4, h5, h6⟩ := (copy_denseQ (fp := fp) (opt := some o) hx).1
    have ey64 := (C46_copy (fp := fp) (opt := some o) (kind := .dense) (type := .fp64) (denseQ_valid hx) hnx (by omega)
      (by omega) (by omega) (fun _ => by omega) (some none) (by rw [ey]; simp)).trans ey
    rw [MexS.bind_ok (MexS.lib_ok (f := fun s => SLIP_matrix_copy64 fp s (some none) .dense .fp64 (some x)
      (some o)) ey64)]
    exact ⟨_, rfl, hs, h3, h4, h6⟩
  · rw [if_neg hs]
    have hi : i64 (x.m * x.n) = .ok ((n : ℤ) * k) := by
      rw [hx.rows, hx.cols]
      exact M64.i64_eq (by have : (0 : ℤ) ≤ (n : ℤ) * k := by positivity
                           omega) (by omega)
    rw [MexS.bind_ok (MexS.lib_ok (f := fun _ => i64 (x.m * x.n)) hi)]
    refine ⟨_, rfl, hs, hx.rows, hx.cols, fun i j => ?_⟩
    obtain ⟨v, hv⟩ := hx.val i i.2 j j.2
    simp only [Mat.denseQ, Matrix.of_apply]
    rw [hv]; rfl

/-- C46: with a singular `A` the call ends with the message that says so, and the library is finalized. -/
theorem C46_matlab_singular (hO : AmdOk O (some o) n) (hfp : Int64ToDExact fp) (hq : QsortOk qs) (hn0 : 0 < n)
    (hA : A.Ok n) (hb : b.Ok n k) (h0 : SLIP_create_default_options true = some o₀)
    (ht : OptionsTyped code (i.options.getD .empty))
    (hm : OptionsMean code tenth o₀ (i.options.getD .empty) o mo) (hn : (n : ℤ) ≤ 2 ^ 29)
    (hnk : (n : ℤ) * k ≤ 2 ^ 59) (hd : (A.matrix n).det = 0) (s : Bool) :
    mexFunction64 fp O nc qs code tenth 1 [.sparse false A, .full false b, i] s =
      .ok (.error "input matrix is singular", false) := by
  obtain ⟨A', b', -, -, hA', hb', hsA, hsb, huA, hdA, hub, e⟩ :=
    mexSolve64_upto (nc := nc) hO hfp hq hn0 hA hb h0 ht hm hn hnk s
  have ex := C35_backslash_singular (fp := fp) (nc := nc) (X := none) (opt := some o) (t := .mpq) hO hA'
    hb'.kind hb'.type hm.tolOk (by by_contra h; exact hdA.2 h hd) (by simp)
  have e64 := (C46_backslash (fp := fp) (nc := nc) (X := none) (type := .mpq) hO hA' hb' hn0 hsA hsb hm.tolOk hn
    (by omega)).1
  rw [ex] at e64
  rw [e, MexS.bind_ok (MexS.lib_ok (f := fun s => SLIP_backslash64 fp O nc s (some none) .mpq (some A') (some b')
    (some o)) e64)]
  rfl

theorem mexSolve64_opts (h0 : SLIP_create_default_options true = some o₀) {inp : Option MxOptions}
    (ho : slip_get_matlab_options code tenth o₀ inp = pure (o, mo)) :
    ∃ K : Mat → Mat → MexS MexResult, mexSolve64 fp O nc qs code tenth A b (some inp) true =
      (mexGetA64 fp (some o) A >>= fun A' => mexGetB64 fp (some o) A.m b >>= K A' : MexS MexResult) true := by
  unfold mexSolve64
  rw [MexS.bind_ok (MexS.lib_ok (a := SLIP_create_default_options true) (s := true) rfl), h0]
  dsimp only
  rw [pure_bind, ho, MexS.bind_ok (MexS.of_pure (o, mo) true)]
  dsimp only
  rw [pure_bind]
  exact ⟨_, rfl⟩

/-- C46: a call with the wrong number of arguments, complex arguments, a full `A` or a sparse `b`, a matrix that is not
square, or a right-hand side of the wrong size, ends with a message that says so, and the library is finalized. -/
theorem C46_matlab_rejects (l : ℕ) (args : List MxArg) (a b' : MxArg) (rest : List MxArg)
    (h0 : SLIP_create_default_options true = some o₀) (ht : OptionsTyped code (i.options.getD .empty))
    (hm : OptionsMean code tenth o₀ (i.options.getD .empty) o mo) (s : Bool) :
    (l > 1 ∨ args.length < 2 ∨ args.length > 3 →
      mexFunction64 fp O nc qs code tenth l args s = .ok (.error "Usage: x = SLIP_mex_soln (A,b,option)", false)) ∧
    (l ≤ 1 → rest.length ≤ 1 → a.isComplex ∨ b'.isComplex →
      mexFunction64 fp O nc qs code tenth l (a :: b' :: rest) s = .ok (.error "inputs must be real", false)) ∧
    (l ≤ 1 → rest.length ≤ 1 → b'.isComplex = false →
      mexFunction64 fp O nc qs code tenth l (.full false b :: b' :: rest) s =
        .ok (.error "first input must be sparse", false)) ∧
    (∀ B, l ≤ 1 → rest.length ≤ 1 →
      mexFunction64 fp O nc qs code tenth l (.sparse false A :: .sparse false B :: rest) s =
        .ok (.error "second input must be full", false)) ∧
    (l ≤ 1 → (∃ z, get A.jc A.n = some z) → A.m ≠ A.n →
      mexFunction64 fp O nc qs code tenth l [.sparse false A, .full false b, i] s =
        .ok (.error "A must be square", false)) ∧
    (l ≤ 1 → Int64ToDExact fp → A.Ok n → (n : ℤ) ≤ 2 ^ 29 → b.m ≠ n →
      mexFunction64 fp O nc qs code tenth l [.sparse false A, .full false b, i] s =
        .ok (.error "dimension mismatch", false)) := by
  have ho : slip_get_matlab_options code tenth o₀ i.options = pure (o, mo) :=
    ((C40_options code tenth o₀ i.options ht).1 o mo).2 hm
  have hp : 93 ≤ optPrec (some o) := by
    show 93 ≤ o.prec
    rw [hm.prec]
    cases h0
    decide
  have st : ∀ (m : MexS MexResult), (MexS.start >>= fun _ => m) s = m true := fun m => by cases s <;> rfl
  have go : ∀ l, l ≤ 1 → mexFunction64 fp O nc qs code tenth l [.sparse false A, .full false b, i] s =
      mexSolve64 fp O nc qs code tenth A b (some i.options) true := fun l h => by
    unfold mexFunction64
    rw [st, if_neg (by omega)]
    rfl
  refine ⟨fun h => ?_, fun h1 h2 h3 => ?_, fun h1 h2 h3 => ?_, fun B h1 h2 => ?_, fun h1 h2 h3 => ?_,
    fun h1 h2 h3 h4 h5 => ?_⟩
  · unfold mexFunction64
    rw [st]
    by_cases hl : l > 1
    · rw [if_pos hl]; rfl
    rw [if_neg hl]
    rcases args with _ | ⟨a, _ | ⟨b, rest⟩⟩
    · rfl
    · rfl
    · simp only [List.length_cons] at h
      simp only
      rw [if_pos (by omega)]; rfl
  · unfold mexFunction64
    rw [st, if_neg (by omega)]
    simp only
    rw [if_neg (by omega), if_pos (by simpa using h3)]
    rfl
  · unfold mexFunction64
    rw [st, if_neg (by omega)]
    simp only
    rw [if_neg (by omega), if_neg (by rw [h3]; simp [MxArg.isComplex])]
    cases b' <;> rfl
  · unfold mexFunction64
    rw [st, if_neg (by omega)]
    simp only
    rw [if_neg (by omega), if_neg (by simp [MxArg.isComplex])]
    rfl
  · obtain ⟨z, hz⟩ := h2
    obtain ⟨K, hK⟩ := mexSolve64_opts (fp := fp) (O := O) (nc := nc) (qs := qs) (A := A) (b := b) h0 ho
    rw [go l h1, hK]
    have e : mexGetA64 fp (some o) A true = .ok (.error "A must be square", false) := by
      unfold mexGetA64
      rw [MexS.bind_ok (MexS.lib_ok (rd_eq hz)), if_pos (Ne.symm h3)]
      rfl
    exact MexS.bind_fail e
  · obtain ⟨K, hK⟩ := mexSolve64_opts (fp := fp) (O := O) (nc := nc) (qs := qs) (A := A) (b := b) h0 ho
    obtain ⟨A', eA, -⟩ := mexGetA_spec (opt := some o) h2 hp h3
    have e : mexGetB64 fp (some o) A.m b true = .ok (.error "dimension mismatch", false) := by
      unfold mexGetB64
      rw [if_pos (by rw [h3.rows]; exact h5)]
      rfl
    rw [go l h1, hK, MexS.bind_ok (mexGetA64_spec h2 hp h3 h4 eA).1]
    exact MexS.bind_fail e

end

/-! ## C55: a MATLAB session -/

/-- After `m` the library is finalized, whatever happens. -/
def Ends (m : MexS α) : Prop := ∀ s r s', m s = .ok (r, s') → s' = false

/-- If `m` ends the call, the library is finalized; otherwise its state is as before. -/
def Keeps (m : MexS α) : Prop := ∀ s r s', m s = .ok (r, s') → (∃ a, r = .ok a ∧ s' = s) ∨ (∃ e, r = .error e ∧ s' = false)

theorem Keeps.pure (a : α) : Keeps (Pure.pure a) := fun _ _ _ h => by cases h; exact Or.inl ⟨_, rfl, rfl⟩

theorem Keeps.fail (msg : String) : Keeps (MexS.fail msg : MexS α) := fun _ _ _ h => by
  cases h; exact Or.inr ⟨_, rfl, rfl⟩

theorem Ends.fail (msg : String) : Ends (MexS.fail msg : MexS α) := fun _ _ _ h => by cases h; rfl

theorem Keeps.lib (f : Bool → C α) : Keeps (MexS.lib f) := fun s r s' h => by
  change (f s >>= fun a => Pure.pure (Except.ok a, s) : C _) = _ at h
  cases hf : f s with
  | error e => rw [hf] at h; cases h
  | ok a => rw [hf] at h; cases h; exact Or.inl ⟨_, rfl, rfl⟩

theorem Ends.ub : Ends (MexS.lib fun _ => .error .ub : MexS α) := fun _ _ _ h => by cases h

theorem Keeps.of (m : Mex α) : Keeps (MexS.of m) := fun s r s' h => by
  match m, h with
  | .ok (.ok a), h => cases h; exact Or.inl ⟨_, rfl, rfl⟩
  | .ok (.error msg), h => cases h; exact Or.inr ⟨_, rfl, rfl⟩
  | .error e, h => cases h

theorem Keeps.bind {β : Type} {m : MexS α} {f : α → MexS β} (hm : Keeps m) (hf : ∀ a, Keeps (f a)) :
    Keeps (m >>= f) := fun s r s' h => by
  cases e : m s with
  | error err =>
    change (m s >>= _ : C _) = _ at h
    rw [e] at h; cases h
  | ok q =>
    obtain ⟨q, t⟩ := q
    rcases hm s q t e with ⟨a, rfl, rfl⟩ | ⟨msg, rfl, rfl⟩
    · rw [MexS.bind_ok e] at h
      exact hf a _ _ _ h
    · rw [MexS.bind_fail e] at h
      cases h
      exact Or.inr ⟨_, rfl, rfl⟩

theorem Ends.bind {β : Type} {m : MexS α} {f : α → MexS β} (hm : Keeps m) (hf : ∀ a, Ends (f a)) :
    Ends (m >>= f) := fun s r s' h => by
  cases e : m s with
  | error err =>
    change (m s >>= _ : C _) = _ at h
    rw [e] at h; cases h
  | ok q =>
    obtain ⟨q, t⟩ := q
    rcases hm s q t e with ⟨a, rfl, rfl⟩ | ⟨msg, rfl, rfl⟩
    · rw [MexS.bind_ok e] at h
      exact hf a _ _ _ h
    · rw [MexS.bind_fail e] at h
      cases h
      rfl

theorem Ends.finalize (a : α) : Ends (do MexS.finalize; Pure.pure a) := fun _ _ _ h => by cases h; rfl

theorem Keeps.check (info : Info) : Keeps (MexS.check info) := by
  unfold MexS.check
  split
  · exact .pure _
  · exact .fail _

theorem Keeps.alloc (kind : Kind) (type : Ty) (m n z : Int) : Keeps (MexS.alloc kind type m n z) := .lib _

theorem Keeps.get (h : Handle Mat) : Keeps (MexS.get h) := .of _

theorem Keeps.show (qs : List (Int × Int) → List (Int × Int)) (o : Options) (M : Mat) : Keeps (MexS.show qs o M) := by
  unfold MexS.show
  split
  · exact .bind (.lib _) fun _ => .pure _
  · exact .pure _

/-- One step through a computation that keeps the state. -/
macro "keeps" : tactic => `(tactic| repeat' first
  | exact Keeps.pure _ | exact Keeps.fail _ | exact Keeps.lib _ | exact Keeps.of _ | exact Keeps.check _
  | exact Keeps.get _ | exact Keeps.alloc _ _ _ _ _ | (refine Keeps.bind ?_ fun _ => ?_) | split | dsimp only)

theorem Keeps.getA (fp : Fp) (opt : Option Options) (A : MxSparse) : Keeps (mexGetA64 fp opt A) := by
  unfold mexGetA64
  keeps

theorem Keeps.getB (fp : Fp) (opt : Option Options) (m : ℤ) (b : MxFull) : Keeps (mexGetB64 fp opt m b) := by
  unfold mexGetB64
  keeps

theorem mexSolve64_ends (fp : Fp) (O : Orderings) (nc : Int → Int → ℚ → Bool) (qs : List (Int × Int) → List (Int × Int))
    (code : String → ℚ) (tenth : ℚ) (A : MxSparse) (b : MxFull) (input : Option (Option MxOptions)) :
    Ends (mexSolve64 fp O nc qs code tenth A b input) := by
  unfold mexSolve64
  refine .bind (.lib _) fun o => ?_
  have tail : ∀ (option : Options) (mo : Option MexOptions), Ends (do
      let A' ← mexGetA64 fp (some option) A
      let b' ← mexGetB64 fp (some option) A.m b
      MexS.show qs option A'
      MexS.show qs option b'
      let (info, x) ← MexS.lib fun s => SLIP_backslash64 fp O nc s (some none) .mpq (some A') (some b') (some option)
      MexS.check info
      let x ← MexS.get x
      MexS.show qs option x
      let mexoptions ← match mo with
        | some o => pure o
        | none => MexS.lib fun _ => .error .ub
      if mexoptions.solution = .double then do
        let (info, t) ← MexS.lib fun s => SLIP_matrix_copy64 fp s (some none) .dense .fp64 (some x) (some option)
        MexS.check info
        let t ← MexS.get t
        MexS.finalize
        pure (.double t.m t.n t.xf)
      else do
        let _ ← MexS.lib fun _ => i64 (x.m * x.n)
        MexS.finalize
        pure (.cells x.m x.n x.xq) : MexS MexResult) := by
    intro option mo
    refine .bind (.getA _ _ _) fun A' => .bind (.getB _ _ _ _) fun b' => .bind (.show _ _ _) fun _ => .bind (.show _ _ _) fun _ =>
      .bind (.lib _) fun q => .bind (.check _) fun _ => .bind (.get _) fun x => .bind (.show _ _ _) fun _ => ?_
    have fin : ∀ mexoptions : MexOptions, Ends (if mexoptions.solution = .double then do
        let (info, t) ← MexS.lib fun s => SLIP_matrix_copy64 fp s (some none) .dense .fp64 (some x) (some option)
        MexS.check info
        let t ← MexS.get t
        MexS.finalize
        pure (.double t.m t.n t.xf)
      else do
        let _ ← MexS.lib fun _ => i64 (x.m * x.n)
        MexS.finalize
        pure (.cells x.m x.n x.xq) : MexS MexResult) := by
      intro mexoptions
      split
      · exact .bind (.lib _) fun q => .bind (.check _) fun _ => .bind (.get _) fun t => .finalize _
      · exact .bind (.lib _) fun q => .finalize _
    cases mo with
    | none => exact .bind (.lib _) fin
    | some mo => exact .bind (.pure mo) fin
  cases o with
  | none => exact fun s r s' h => by cases h; rfl
  | some o =>
    refine .bind (.pure o) fun o => ?_
    cases input with
    | none => exact .bind (.pure _) fun q => tail q.1 q.2
    | some input => exact .bind (.of _) fun q => .bind (.pure (q.1, some q.2)) fun q => tail q.1 q.2

/-- C55: whatever the arguments and the state of the library before the call, and whether it returns a result or ends with
an error message, after the call the library is finalized. -/
theorem C55_finalized (fp : Fp) (O : Orderings) (nc : Int → Int → ℚ → Bool)
    (qs : List (Int × Int) → List (Int × Int)) (code : String → ℚ) (tenth : ℚ) (nargout : ℕ) (args : List MxArg)
    {s s' : Bool} {r : Except String MexResult}
    (h : mexFunction64 fp O nc qs code tenth nargout args s = .ok (r, s')) : s' = false := by
  have key : Ends (if nargout > 1 then MexS.fail "Usage: x = SLIP_mex_soln (A,b,option)"
      else
        match args with
        | a :: b :: rest =>
          if rest.length > 1 then MexS.fail "Usage: x = SLIP_mex_soln (A,b,option)"
          else if a.isComplex || b.isComplex then MexS.fail "inputs must be real"
          else
            match a, b with
            | .sparse _ _, .sparse _ _ => MexS.fail "second input must be full"
            | .sparse _ A, .full _ b => mexSolve64 fp O nc qs code tenth A b (rest.head?.map MxArg.options)
            | .sparse _ _, .other _ => MexS.lib fun _ => .error .ub
            | _, _ => MexS.fail "first input must be sparse"
        | _ => MexS.fail "Usage: x = SLIP_mex_soln (A,b,option)") := by
    split
    · exact .fail _
    split
    · split
      · exact .fail _
      split
      · exact .fail _
      split
      · exact .fail _
      · exact mexSolve64_ends _ _ _ _ _ _ _ _ _
      · exact .ub
      · exact .fail _
    · exact .fail _
  cases s <;> exact key true r s' h

/-- C55: a call does the same whether or not the library happens to be initialised already. -/
theorem C55_state_irrelevant (fp : Fp) (O : Orderings) (nc : Int → Int → ℚ → Bool)
    (qs : List (Int × Int) → List (Int × Int)) (code : String → ℚ) (tenth : ℚ) (nargout : ℕ) (args : List MxArg)
    (s : Bool) :
    mexFunction64 fp O nc qs code tenth nargout args s = mexFunction64 fp O nc qs code tenth nargout args false := by
  cases s <;> rfl

/-- C55: in a session, each call has the result (or error message) that it has as the only call of a fresh session, whatever
calls precede it, and after the last the library is finalized. -/
theorem C55_history (fp : Fp) (O : Orderings) (nc : Int → Int → ℚ → Bool)
    (qs : List (Int × Int) → List (Int × Int)) (code : String → ℚ) (tenth : ℚ) (calls : List (ℕ × List MxArg))
    {s s' : Bool} {rs : List (Except String MexResult)}
    (h : mexSession (fun c => mexFunction64 fp O nc qs code tenth c.1 c.2) calls s = .ok (rs, s')) :
    List.Forall₂ (fun c r => mexFunction64 fp O nc qs code tenth c.1 c.2 false = .ok (r, false)) calls rs ∧
      (calls ≠ [] → s' = false) := by
  induction calls generalizing s rs with
  | nil => cases h; exact ⟨.nil, fun h => absurd rfl h⟩
  | cons c cs ih =>
    unfold mexSession at h
    cases e : mexFunction64 fp O nc qs code tenth c.1 c.2 s with
    | error err => rw [e] at h; cases h
    | ok q =>
      obtain ⟨r, t⟩ := q
      rw [e, ok_bind] at h
      dsimp only at h
      have ht := C55_finalized fp O nc qs code tenth c.1 c.2 e
      subst ht
      cases e' : mexSession (fun c => mexFunction64 fp O nc qs code tenth c.1 c.2) cs false with
      | error err => rw [e'] at h; cases h
      | ok q' =>
        obtain ⟨rs', t'⟩ := q'
        rw [e', ok_bind] at h
        cases h
        obtain ⟨h1, h2⟩ := ih e'
        refine ⟨.cons ((C55_state_irrelevant ..).symm.trans e) h1, fun _ => ?_⟩
        cases cs with
        | nil => cases e'; rfl
        | cons => exact h2 (by simp)

/-- C55: conversely, if each call of a list runs through on its own (it may end with an error message), so does the session
made of them. -/
theorem C55_session_runs (fp : Fp) (O : Orderings) (nc : Int → Int → ℚ → Bool)
    (qs : List (Int × Int) → List (Int × Int)) (code : String → ℚ) (tenth : ℚ) (calls : List (ℕ × List MxArg)) (s : Bool)
    (h : ∀ c ∈ calls, ∃ q, mexFunction64 fp O nc qs code tenth c.1 c.2 false = .ok q) :
    ∃ q, mexSession (fun c => mexFunction64 fp O nc qs code tenth c.1 c.2) calls s = .ok q := by
  induction calls generalizing s with
  | nil => exact ⟨_, rfl⟩
  | cons c cs ih =>
    obtain ⟨q, e⟩ := h c (by simp)
    rw [← C55_state_irrelevant (s := s)] at e
    obtain ⟨q', e'⟩ := ih q.2 fun c hc => h c (by simp [hc])
    unfold mexSession
    rw [e, ok_bind]
    dsimp only
    rw [e', ok_bind]
    exact ⟨_, rfl⟩

/-! ### Concrete cases -/

namespace MatlabEx

/-- `C46_matlab_solution` applies, with printing switched on. -/
example (fp : Fp) (hfp : Int64ToDExact fp) (O : Orderings) (hO : ∀ opt, AmdOk O opt 2) (nc : Int → Int → ℚ → Bool)
    (qs : List (Int × Int) → List (Int × Int)) (hq : QsortOk qs) (code : String → ℚ) (tenth : ℚ) (s : Bool) :
    ∃ x : Matrix (Fin 2) (Fin 1) ℚ, A.matrix 2 * x = b.matrix 2 1 ∧
      ∃ r, mexFunction64 fp O nc qs code tenth 1 [.sparse false A, .full false b, .other (some opts)] s =
          .ok (.ok r, false) ∧ r.Shows fp .char 2 1 x :=
  C46_matlab_solution (i := .other (some opts)) (hO _) hfp hq (by norm_num) A_ok b_ok rfl (opts_typed code)
    (opts_mean code tenth) (by norm_num) (by norm_num) (by rw [A_det]; norm_num) s

/-- A session: a call with complex arguments, one with too few arguments, a correct one, and one with swapped arguments. -/
example (fp : Fp) (hfp : Int64ToDExact fp) (O : Orderings) (hO : ∀ opt, AmdOk O opt 2) (nc : Int → Int → ℚ → Bool)
    (qs : List (Int × Int) → List (Int × Int)) (hq : QsortOk qs) (code : String → ℚ) (tenth : ℚ) (s : Bool) :
    ∃ r, mexSession (fun c => mexFunction64 fp O nc qs code tenth c.1 c.2)
      [(1, [.sparse true A, .full false b]), (1, [.sparse false A]),
       (1, [.sparse false A, .full false b, .other (some opts)]), (1, [.full false b, .sparse false A])] s =
      .ok ([.error "inputs must be real", .error "Usage: x = SLIP_mex_soln (A,b,option)", .ok r,
        .error "first input must be sparse"], false) := by
  obtain ⟨x, -, r, e, -⟩ := C46_matlab_solution (nc := nc) (i := .other (some opts)) (hO _) hfp hq (by norm_num) A_ok b_ok
    rfl (opts_typed code) (opts_mean code tenth) (by norm_num) (by norm_num) (by rw [A_det]; norm_num) false
  have e1 : mexFunction64 fp O nc qs code tenth 1 [.sparse true A, .full false b] s =
    .ok (.error "inputs must be real", false) := by cases s <;> rfl
  have e2 : mexFunction64 fp O nc qs code tenth 1 [.sparse false A] false =
    .ok (.error "Usage: x = SLIP_mex_soln (A,b,option)", false) := rfl
  have e3 : mexFunction64 fp O nc qs code tenth 1 [.full false b, .sparse false A] false =
    .ok (.error "first input must be sparse", false) := rfl
  refine ⟨r, ?_⟩
  simp only [mexSession, e1, e2, e, e3, ok_bind]
  rfl

end MatlabEx

end Slip
