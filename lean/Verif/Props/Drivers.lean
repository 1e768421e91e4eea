import Verif.Proof.Drivers

/-!
# Properties C37 and C38: the demo programs
-/

namespace Slip

/-! ## C37: reading files and solving -/

section
variable {fp : Fp} {O : Orderings} {nc : Int → Int → ℚ → Bool} {m n k l : ℕ}
  {es : List Triple} {M : ℕ → ℕ → ℤ} {rest rest' : List Word} {nl nl' : Bool}

/-- C37: reading a well-formed triplet file (at least two entries, or something follows the only one)
succeeds and gives the CSC matrix with these entries. -/
theorem C37_tripread {opt : Option Options} (hes : TriplesOk m n es)
    (hN : 2 ≤ es.length ∨ es.length = 1 ∧ rest ≠ []) :
    ∃ A s, SLIP_tripread fp true (some none) (some ⟨tripletFile m n es ++ rest, nl, false⟩) opt =
        .ok (.ok, some (some A), some s) ∧
      ValidCsc m n A ∧ A.type = .mpz ∧ Owns A ∧ A.toMatrix m n = tripletMatrix m n es ∧
      s.words = rest :=
  tripread_spec hes hN

/-- C37: reading a well-formed dense file succeeds and gives the dense matrix with these entries. -/
theorem C37_read_dense (hne : 0 < m * n ∨ rest ≠ [] ∨ nl = true) (bh : Option Mat) :
    ∃ b s, SLIP_read_dense true (some bh) (some ⟨denseFile m n M ++ rest, nl, false⟩) =
        .ok (.ok, some (some b), some s) ∧
      ValidDense m n b ∧ b.type = .mpz ∧ Owns b ∧ b.toMatrix m n = ratMatrix m n M ∧
      s.words = rest :=
  readDense_spec hne bh

/-- What the demo programs must deliver for the square system `A x = b`: the exact solution, or a
message if `A` is singular. -/
def DemoResult (n l : ℕ) (A : Matrix (Fin n) (Fin n) ℚ) (b : Matrix (Fin n) (Fin l) ℚ)
    (r : C (Option Mat)) : Prop :=
  (A.det = 0 → r = .ok none) ∧
  (A.det ≠ 0 → ∃ x, r = .ok (some x) ∧ IsDenseQ n l x ∧ A * x.denseQ n l = b)

/-- C37: if the matrix is not square or the right-hand side has the wrong number of rows, `example2`
stops with a message. -/
theorem C37_example2_dims (hes : TriplesOk m n es)
    (hN : 2 ≤ es.length ∨ es.length = 1 ∧ rest ≠ []) (hne : 0 < k * l ∨ rest' ≠ [] ∨ nl' = true)
    (h : n ≠ k ∨ m ≠ n) :
    example2 fp O nc ⟨tripletFile m n es ++ rest, nl, false⟩
      ⟨denseFile k l M ++ rest', nl', false⟩ = .ok none := by
  obtain ⟨A, s, eA, hA, hAt, -, hAm, -⟩ := tripread_spec (fp := fp)
    (opt := SLIP_create_default_options true) (nl := nl) hes hN
  obtain ⟨b, s', eb, hb, hbt, -, hbm, -⟩ := readDense_spec (M := M) hne none
  have hn0 : 0 < n := by
    cases es with
    | nil => simp at hN
    | cons e es => have := (hes.1 e (by simp)).2; omega
  have hrun : example2 fp O nc ⟨tripletFile m n es ++ rest, nl, false⟩
      ⟨denseFile k l M ++ rest', nl', false⟩ = (if A.n ≠ b.m then pure none
      else do
        let opt := (SLIP_create_default_options true).map fun o => { o with check := true }
        let (e, x) ← SLIP_backslash fp O nc true (some none) .mpq (some A) (some b) opt
        if e ≠ .ok then pure none else pure x.join) := by
    unfold example2
    simp only [eA, eb, ok_bind, ne_eq, not_true_eq_false, if_false]
    rfl
  rw [hrun, hA.cols, hb.rows]
  by_cases hnk : n = k
  · have hmn : m ≠ n := h.resolve_left (not_not.2 hnk)
    rw [if_neg (by simp [hnk])]
    unfold SLIP_backslash
    simp only [Bool.not_true, Bool.false_eq_true, if_false, reduceCtorEq]
    rw [if_neg (by simp), if_neg (by simp [requireFails, hA.kind, hAt]),
      if_neg (by simp [requireFails, hb.kind, hbt]), C34_analyze]
    · rfl
    · refine Or.inr (Or.inr ⟨A, rfl, Or.inr ?_⟩)
      rw [hA.rows, hA.cols]
      exact_mod_cast hmn.symm
  · rw [if_pos (by exact_mod_cast hnk)]
    rfl

/-- C37: for all well-formed files of a square system, the demo `example2` prints the exact solution,
or stops with a message if the matrix is singular. -/
theorem C37_example2 (hes : TriplesOk n n es)
    (hN : 2 ≤ es.length ∨ es.length = 1 ∧ rest ≠ []) (hne : 0 < n * l ∨ rest' ≠ [] ∨ nl' = true) :
    DemoResult n l (tripletMatrix n n es) (ratMatrix n l M)
      (example2 fp O nc ⟨tripletFile n n es ++ rest, nl, false⟩ ⟨denseFile n l M ++ rest', nl', false⟩) := by
  obtain ⟨A, s, eA, hA, hAt, -, hAm, -⟩ := tripread_spec (fp := fp)
    (opt := SLIP_create_default_options true) (nl := nl) hes hN
  obtain ⟨b, s', eb, hb, hbt, -, hbm, -⟩ := readDense_spec (M := M) hne none
  have hn0 : 0 < n := by
    cases es with
    | nil => simp at hN
    | cons e es => have := (hes.1 e (by simp)).2; omega
  have hrun : example2 fp O nc ⟨tripletFile n n es ++ rest, nl, false⟩
      ⟨denseFile n l M ++ rest', nl', false⟩ = (if A.n ≠ b.m then pure none
      else do
        let opt := (SLIP_create_default_options true).map fun o => { o with check := true }
        let (e, x) ← SLIP_backslash fp O nc true (some none) .mpq (some A) (some b) opt
        if e ≠ .ok then pure none else pure x.join) := by
    unfold example2
    simp only [eA, eb, ok_bind, ne_eq, not_true_eq_false, if_false]
    rfl
  rw [hrun, hA.cols, hb.rows]
  rw [if_neg (by simp)]
  have hT : TolOk ((SLIP_create_default_options true).map fun o => { o with check := true }) :=
    fun _ => ⟨_, rfl⟩
  have hO : AmdOk O ((SLIP_create_default_options true).map fun o => { o with check := true }) n :=
    fun h => by cases h
  rw [← hAm, ← hbm, ← hA.unscale hAt, ← hb.unscale hbt]
  have hd : (unscale (A.matrix n) A.scale).det = 0 ↔ (A.matrix n).det = 0 := by
    rw [det_unscale]; simp [hA.scale]
  constructor
  · intro h0
    dsimp only
    rw [C35_backslash_singular hO (hA.isCsc hAt) hb.kind hbt hT (hd.1 h0) (by simp)]
    rfl
  · intro h0
    obtain ⟨x, ex, hx, he⟩ := C35_backslash_mpq (fp := fp) (nc := nc) (X := none) hO (hA.isCsc hAt)
      (hb.isDenseZ hbt) hn0 hA.scale hb.scale hT (fun h => h0 (hd.2 h))
    refine ⟨x, ?_, hx, he⟩
    dsimp only
    rw [ex]
    rfl

/-- C37: if the matrix is not square or the right-hand side has the wrong number of rows, `SLIPLU`
stops with a message. -/
theorem C37_sliplu_dims {opt : Options} (hes : TriplesOk m n es)
    (hN : 2 ≤ es.length ∨ es.length = 1 ∧ rest ≠ []) (hne : 0 < k * l ∨ rest' ≠ [] ∨ nl' = true)
    (h : n ≠ k ∨ m ≠ n) :
    sliplu fp O nc opt ⟨tripletFile m n es ++ rest, nl, false⟩
      ⟨denseFile k l M ++ rest', nl', false⟩ = .ok none := by
  obtain ⟨A, s, eA, hA, hAt, -, hAm, -⟩ := tripread_spec (fp := fp)
    (opt := some opt) (nl := nl) hes hN
  obtain ⟨b, s', eb, hb, hbt, -, hbm, -⟩ := readDense_spec (M := M) hne none
  have hn0 : 0 < n := by
    cases es with
    | nil => simp at hN
    | cons e es => have := (hes.1 e (by simp)).2; omega
  have hrun : sliplu fp O nc opt ⟨tripletFile m n es ++ rest, nl, false⟩
      ⟨denseFile k l M ++ rest', nl', false⟩ = (if A.n ≠ b.m then pure none
      else do
        let (e, S) ← SLIP_LU_analyze O true (some none) (some A) (some opt)
        if e ≠ .ok then pure none
        else do
          let f ← SLIP_LU_factorize nc true (some none) (some none) (some none) (some none)
            (some A) S.join (some opt)
          if f.info ≠ .ok then pure none
          else do
            let opt := { opt with check := true }
            let (e, x) ← SLIP_LU_solve true (some none) (some b) (some A) f.L.join f.U.join
              f.rhos.join S.join f.pinv.join (some opt)
            if e ≠ .ok then pure none else pure x.join) := by
    unfold sliplu
    simp only [eA, eb, ok_bind, ne_eq, not_true_eq_false, if_false]
    rfl
  rw [hrun, hA.cols, hb.rows]
  by_cases hnk : n = k
  · have hmn : m ≠ n := h.resolve_left (not_not.2 hnk)
    rw [if_neg (by simp [hnk]), C34_analyze]
    · rfl
    · refine Or.inr (Or.inr ⟨A, rfl, Or.inr ?_⟩)
      rw [hA.rows, hA.cols]
      exact_mod_cast hmn.symm
  · rw [if_pos (by exact_mod_cast hnk)]
    rfl

/-- C37: for all well-formed files of a square system and all options whose tolerance is a number, the
demo `SLIPLU` prints the exact solution, or stops with a message if the matrix is singular. -/
theorem C37_sliplu {opt : Options} (hT : TolOk (some opt)) (hO : AmdOk O (some opt) n) (hes : TriplesOk n n es)
    (hN : 2 ≤ es.length ∨ es.length = 1 ∧ rest ≠ []) (hne : 0 < n * l ∨ rest' ≠ [] ∨ nl' = true) :
    DemoResult n l (tripletMatrix n n es) (ratMatrix n l M)
      (sliplu fp O nc opt ⟨tripletFile n n es ++ rest, nl, false⟩
        ⟨denseFile n l M ++ rest', nl', false⟩) := by
  obtain ⟨A, s, eA, hA, hAt, -, hAm, -⟩ := tripread_spec (fp := fp)
    (opt := some opt) (nl := nl) hes hN
  obtain ⟨b, s', eb, hb, hbt, -, hbm, -⟩ := readDense_spec (M := M) hne none
  have hn0 : 0 < n := by
    cases es with
    | nil => simp at hN
    | cons e es => have := (hes.1 e (by simp)).2; omega
  have hrun : sliplu fp O nc opt ⟨tripletFile n n es ++ rest, nl, false⟩
      ⟨denseFile n l M ++ rest', nl', false⟩ = (if A.n ≠ b.m then pure none
      else do
        let (e, S) ← SLIP_LU_analyze O true (some none) (some A) (some opt)
        if e ≠ .ok then pure none
        else do
          let f ← SLIP_LU_factorize nc true (some none) (some none) (some none) (some none)
            (some A) S.join (some opt)
          if f.info ≠ .ok then pure none
          else do
            let opt := { opt with check := true }
            let (e, x) ← SLIP_LU_solve true (some none) (some b) (some A) f.L.join f.U.join
              f.rhos.join S.join f.pinv.join (some opt)
            if e ≠ .ok then pure none else pure x.join) := by
    unfold sliplu
    simp only [eA, eb, ok_bind, ne_eq, not_true_eq_false, if_false]
    rfl
  rw [hrun, hA.cols, hb.rows]
  rw [if_neg (by simp)]
  rw [← hAm, ← hbm, ← hA.unscale hAt, ← hb.unscale hbt]
  have hd : (unscale (A.matrix n) A.scale).det = 0 ↔ (A.matrix n).det = 0 := by
    rw [det_unscale]; simp [hA.scale]
  have hAc := hA.isCsc hAt
  constructor
  · intro h0
    obtain ⟨S, e, ⟨τ, hτ, -⟩, h1, h2, -⟩ :=
      C17_analysis_usable hO hAc.kind hAc.rows hAc.cols hAc.pattern hAc.idx none
    have hS : IsAnalysis n S := ⟨⟨τ, hτ⟩, h1, h2⟩
    have f1 := (C02_singular_verdict_exact (nc := nc) hAc hS hT none none none none).1 (hd.1 h0)
    rw [e]
    simp only [ok_bind, ne_eq, not_true_eq_false, if_false, Option.join, Option.bind_some, id]
    rw [f1]
    rfl
  · intro h0
    obtain ⟨S, L, U, R, pinv, x, e, hf, hx, h3, h4⟩ := C01_pipeline hO (nc := nc) (o₁ := some opt)
      (o₂ := some opt) (o₃ := some { opt with check := true }) hAc (hb.isDenseZ hbt) hn0
      hA.scale hb.scale hT (fun h => h0 (hd.2 h))
    refine ⟨x, ?_, h3, h4⟩
    unfold FactorizeOk at hf
    unfold SolveOk at hx
    simp only [e, ok_bind, ne_eq, not_true_eq_false, if_false, Option.join, Option.bind_some, id, hf, hx]
    rfl

end

/-! ## C38: the command line -/

theorem lastOf_cons {α : Type} (f : CmdItem → Option α) (d : α) (i : CmdItem) (is : List CmdItem) :
    lastOf f d (i :: is) = lastOf f ((f i).getD d) is := by
  unfold lastOf
  rw [List.reverse_cons, List.findSome?_append]
  cases List.findSome? f is.reverse <;> simp

theorem pivotOf_eq (v : ℤ) : pivotOf v = pivotNumber v := by
  unfold pivotOf pivotNumber
  simp only [List.lookup]
  repeat' split
  all_goals first | rfl | simp_all

theorem orderOf_eq (v : ℤ) : orderOf v = orderNumber v := by
  unfold orderOf orderNumber
  simp only [List.lookup]
  repeat' split
  all_goals first | rfl | simp_all

theorem cmdLoop_complete {atoi : String → ℤ} {atof : String → Dbl} {argv : List String}
    {items : List CmdItem} (h : CmdLine atoi atof argv items) (s : CmdSt) :
    cmdLoop atoi atof argv s = (.ok, cmdResult atoi atof s items) := by
  induction h generalizing s with
  | nil => rfl
  | help _ ih =>
    rw [cmdLoop.eq_def]
    simp only [if_true]
    rw [ih]
    simp [cmdResult, lastOf_cons, CmdItem.pivot?, CmdItem.order?, CmdItem.tol?,
        CmdItem.print?, CmdItem.mat?, CmdItem.rhs?, CmdItem.help?]
  | pivot hk _ ih =>
    rcases hk with rfl | rfl <;>
    · simp only [cmdLoop, String.reduceEq, if_false, or_true, if_true, or_false]
      rw [ih]
      simp [cmdResult, lastOf_cons, CmdItem.pivot?, CmdItem.order?, CmdItem.tol?,
        CmdItem.print?, CmdItem.mat?, CmdItem.rhs?, CmdItem.help?, pivotOf_eq]
  | order hk _ ih =>
    rcases hk with rfl | rfl <;>
    · simp only [cmdLoop, String.reduceEq, if_false, or_true, if_true, or_false]
      rw [ih]
      simp [cmdResult, lastOf_cons, CmdItem.pivot?, CmdItem.order?, CmdItem.tol?,
        CmdItem.print?, CmdItem.mat?, CmdItem.rhs?, CmdItem.help?, orderOf_eq]
  | @tol k v r is hk hv _ ih =>
    have h1 : ¬ atof v = .fin 0 := by
      rcases hv with h | h | ⟨x, h, h'⟩ <;> rw [h] <;> simp
      exact h'.ne'
    have h2 : ¬ (atof v).neg = true := by
      rcases hv with h | h | ⟨x, h, h'⟩ <;> rw [h] <;> simp [Dbl.neg]
      exact h'.le
    rcases hk with rfl | rfl <;>
    · simp only [cmdLoop, String.reduceEq, if_false, or_true, if_true, or_false, h1, h2]
      simp only [Bool.false_eq_true, if_false]
      rw [ih]
      simp [cmdResult, lastOf_cons, CmdItem.pivot?, CmdItem.order?, CmdItem.tol?,
        CmdItem.print?, CmdItem.mat?, CmdItem.rhs?, CmdItem.help?]
  | print hk hv _ ih =>
    rcases hk with rfl | rfl <;>
    · simp only [cmdLoop, String.reduceEq, if_false, or_true, if_true, or_false, hv]
      rw [ih]
      simp [cmdResult, lastOf_cons, CmdItem.pivot?, CmdItem.order?, CmdItem.tol?,
        CmdItem.print?, CmdItem.mat?, CmdItem.rhs?, CmdItem.help?]
  | file hk _ ih =>
    rcases hk with rfl | rfl <;>
    · simp only [cmdLoop, String.reduceEq, if_false, or_true, if_true, or_false]
      rw [ih]
      simp [cmdResult, lastOf_cons, CmdItem.pivot?, CmdItem.order?, CmdItem.tol?,
        CmdItem.print?, CmdItem.mat?, CmdItem.rhs?, CmdItem.help?]

theorem cmdLoop_sound {atoi : String → ℤ} {atof : String → Dbl} (argv : List String) (s s' : CmdSt)
    (h : cmdLoop atoi atof argv s = (.ok, s')) : ∃ items, CmdLine atoi atof argv items := by
  fun_induction cmdLoop atoi atof argv s
  all_goals first | (cases h; done) | skip
  · exact ⟨[], .nil⟩
  · rename_i ih
    obtain ⟨is, h⟩ := ih h
    exact ⟨_, .help h⟩
  · rename_i hk _ _ ih
    obtain ⟨is, h⟩ := ih h
    exact ⟨_, .pivot hk h⟩
  · rename_i hk _ _ ih
    obtain ⟨is, h⟩ := ih h
    exact ⟨_, .order hk h⟩
  · rename_i hk v _ h0 hn ih
    obtain ⟨is, h⟩ := ih h
    refine ⟨_, .tol hk ?_ h⟩
    cases hv : atof v with
    | nan => simp
    | posInf => simp
    | negInf => simp [hv, Dbl.neg] at hn
    | fin x =>
      simp only [hv, Dbl.neg, decide_eq_true_eq, not_lt] at hn
      simp only [hv, Dbl.fin.injEq] at h0
      exact Or.inr (Or.inr ⟨x, rfl, lt_of_le_of_ne hn (Ne.symm h0)⟩)
  · rename_i hk _ _ h0 ih
    obtain ⟨is, h⟩ := ih h
    exact ⟨_, .print hk.symm h0 h⟩
  · rename_i hk _ _ _ ih
    obtain ⟨is, h⟩ := ih h
    exact ⟨_, .file hk h⟩

/-- C38: the command line is accepted exactly if it is a sequence of options; the last one of each
sort counts, the others keep their defaults; what is not accepted is SLIP_INCORRECT_INPUT. -/
theorem C38_command_line (atoi : String → ℤ) (atof : String → Dbl) (argv : List String) (opt : Options)
    (mat rhs : String) :
    (∀ s, SLIP_process_command_line atoi atof argv opt mat rhs = (.ok, s) ↔
      ∃ items, CmdLine atoi atof argv items ∧ s = cmdResult atoi atof ⟨opt, mat, rhs, false⟩ items) ∧
    ((¬ ∃ items, CmdLine atoi atof argv items) →
      (SLIP_process_command_line atoi atof argv opt mat rhs).1 = .incorrectInput) := by
  unfold SLIP_process_command_line
  refine ⟨fun s => ⟨fun h => ?_, ?_⟩, fun h => ?_⟩
  · obtain ⟨is, hi⟩ := cmdLoop_sound _ _ _ h
    rw [cmdLoop_complete hi] at h
    exact ⟨is, hi, (Prod.mk.inj h).2.symm⟩
  · rintro ⟨is, hi, rfl⟩
    exact cmdLoop_complete hi _
  · have key : ∀ (argv : List String) (s : CmdSt), (cmdLoop atoi atof argv s).1 = .ok ∨
        (cmdLoop atoi atof argv s).1 = .incorrectInput := by
      intro argv s
      fun_induction cmdLoop atoi atof argv s <;> first | exact Or.inl rfl | exact Or.inr rfl | assumption
    rcases key argv ⟨opt, mat, rhs, false⟩ with h' | h'
    · exact absurd (cmdLoop_sound argv _ (cmdLoop atoi atof argv ⟨opt, mat, rhs, false⟩).2
        (Prod.ext h' rfl)) h
    · exact h'

/-- C38, C37: `SLIPLU` with an accepted command line without `help`, whose last tolerance (if it is
needed) is a number, solves the system in the last files named. -/
theorem C38_main {fp : Fp} {O : Orderings} {nc : Int → Int → ℚ → Bool} {atoi : String → ℤ}
    {atof : String → Dbl} {fs : String → Option Stream} {argv : List String} {items : List CmdItem}
    {n l : ℕ} {es : List Triple} {M : ℕ → ℕ → ℤ} {rest rest' : List Word} {nl nl' : Bool}
    (hO : lastOf (CmdItem.order? atoi) .colamd items = .amd →
      0 < n ∧ ∀ p i, O.amdMem n p i = ⟨true, true, true⟩)
    (hi : CmdLine atoi atof argv items) (hh : CmdItem.help ∉ items)
    (ht : ∀ v, .tol v ∈ items → ∃ x, atof v = .fin x)
    (hA : fs (lastOf CmdItem.mat? "../ExampleMats/10teams_mat.txt" items) =
      some ⟨tripletFile n n es ++ rest, nl, false⟩)
    (hb : fs (lastOf CmdItem.rhs? "../ExampleMats/10teams_v.txt" items) =
      some ⟨denseFile n l M ++ rest', nl', false⟩)
    (hes : TriplesOk n n es) (hN : 2 ≤ es.length ∨ es.length = 1 ∧ rest ≠ [])
    (hne : 0 < n * l ∨ rest' ≠ [] ∨ nl' = true) :
    DemoResult n l (tripletMatrix n n es) (ratMatrix n l M)
      (slipluMain fp O nc atoi atof fs argv) := by
  have hfind : ∀ {α : Type} (f : CmdItem → Option α) (d : α),
      lastOf f d items = d ∨ ∃ i ∈ items, f i = some (lastOf f d items) := by
    intro α f d
    unfold lastOf
    cases h : items.reverse.findSome? f with
    | none => exact Or.inl rfl
    | some v =>
      obtain ⟨i, hi, hv⟩ := List.exists_of_findSome?_eq_some h
      exact Or.inr ⟨i, List.mem_reverse.1 hi, hv⟩
  unfold slipluMain
  cases ho : SLIP_create_default_options true with
  | none => cases ho
  | some opt =>
    simp only
    rw [((C38_command_line atoi atof argv opt _ _).1 _).2 ⟨items, hi, rfl⟩]
    simp only
    rw [if_neg]
    · simp only [cmdResult, hA, hb]
      refine C37_sliplu ?_ (fun h => hO (by cases ho; exact h)) hes hN hne
      intro _
      show ∃ t, lastOf _ opt.tol items = .fin t
      rcases hfind (CmdItem.tol? atof) opt.tol with h | ⟨i, hi, hv⟩
      · cases ho
        exact ⟨1, h⟩
      · cases i <;> simp [CmdItem.tol?, CmdItem.help?] at hv
        obtain ⟨x, hx⟩ := ht _ hi
        exact ⟨x, by rw [← hv, hx]⟩
    · rcases hfind CmdItem.help? false with h | ⟨i, hi, hv⟩
      · simpa [cmdResult] using h
      · cases i <;> simp [CmdItem.tol?, CmdItem.help?] at hv
        exact absurd hi hh

/-! ### Where the demo programs differ from their documentation -/

/-- A well-formed triplet file with exactly one entry and nothing after it is rejected. -/
theorem C37_single_entry_refuted (fp : Fp) (opt : Option Options) (m n : ℕ) (e : Triple) (nl : Bool) :
    SLIP_tripread fp true (some none) (some ⟨tripletFile m n [e], nl, false⟩) opt =
      .ok (.incorrectInput, some none, some ⟨tripletFile m n [e], nl, false⟩) := by
  obtain ⟨c, a, e0, -, -, -, -, -, -, hj, hi, hx, -⟩ :=
    allocate_triplet (W := .z) (m := m) (n := n) (nz := 1)
  have e0' : allocate .triplet .mpz m n 1 false true = .ok c := e0
  have hxl : c.xz.length = 1 := by
    unfold allocate at e0'
    rw [if_neg (by simp [Kind.ok, Ty.ok])] at e0'
    simp only [if_false, reduceCtorEq, Bool.false_eq_true, if_true] at e0'
    rw [← Except.ok.inj e0']
    rfl
  have hw : (⟨tripletFile m n [e], nl, false⟩ : Stream).words =
      .int m :: .int n :: .int 1 :: [.int (e.row + 1), .int (e.col + 1), .int e.val] := rfl
  have hw' : (⟨[.int (e.row + 1), .int (e.col + 1), .int e.val], nl, false⟩ : Stream).words =
      .int (e.row + 1) :: .int (e.col + 1) :: .int e.val :: [] := rfl
  unfold SLIP_tripread tripreadBody
  simp only [scan3_ints hw, List.isEmpty_cons, Bool.or_false, Bool.not_true, Bool.false_eq_true, if_false,
    Bool.false_or, decide_eq_true_eq, Int.lt_irrefl, e0', ok_bind, readEntry, scan3_ints hw', storeOpt]
  have h1 : (deref c.i).length = 1 := by simpa using hi
  have h2 : (deref c.j).length = 1 := by simpa using hj
  rw [wr_eq (by omega) (by rw [h1]; omega), ok_bind, wr_eq (by omega) (by rw [h2]; omega), ok_bind,
    wr_eq (by omega) (by rw [hxl]; omega), ok_bind]
  rfl

/-- A file in Matrix Market format starts with the word `%%MatrixMarket`: it is rejected. -/
theorem C37_matrix_market_refuted (fp : Fp) (opt : Option Options) (ws : List Word) (nl : Bool) :
    SLIP_tripread fp true (some none) (some ⟨.junk :: ws, nl, false⟩) opt =
      .ok (.incorrectInput, some none, some ⟨.junk :: ws, nl, false⟩) := rfl

/-- A negative number of entries is not rejected: SLIP_OK is returned together with a NULL matrix. -/
theorem C37_negative_nz_refuted (fp : Fp) :
    ∃ s, SLIP_tripread fp true (some none)
      (some ⟨[.int 2, .int 2, .int (-1), .int 1, .int 1, .int 5, .junk], true, false⟩) none =
      .ok (.ok, some none, some s) := ⟨_, rfl⟩

/-- A column index outside the matrix is not detected: memory is accessed out of bounds. -/
theorem C37_index_range_refuted (fp : Fp) :
    ¬ TriplesOk 2 2 [⟨0, 0, 3⟩, ⟨1, 2, 4⟩] ∧
    SLIP_tripread fp true (some none) (some ⟨tripletFile 2 2 [⟨0, 0, 3⟩, ⟨1, 2, 4⟩], true, false⟩) none =
      .error .ub := by
  refine ⟨fun h => ?_, rfl⟩
  have := (h.1 ⟨1, 2, 4⟩ (by simp)).2
  simp at this

theorem scan3_dbl {s : Stream} {strtod : ℚ → Dbl} {a b c : ℤ} {ws : List Word}
    (h : s.words = .int a :: .int b :: .int c :: ws) :
    scan3 (Word.asDbl strtod) s =
      (3, some a, some b, some (strtod c), ⟨ws, s.nl, s.eof || ws.isEmpty⟩) := by
  obtain ⟨w, nl, e⟩ := s
  simp only at h
  subst h
  cases ws <;> cases nl <;> cases e <;> simp [scan3, scan2, scan, Word.asInt, Word.asDbl, scanSpace]

/-- `SLIP_tripread_double` rejects every file whose first entry is well-formed: it takes the count 3
that `fscanf` returns for an error code. -/
theorem C37_tripread_double_refuted (fp : Fp) (strtod : ℚ → Dbl) (opt : Option Options) (m n : ℕ)
    (e : Triple) (es : List Triple) (rest : List Word) (nl : Bool) :
    SLIP_tripread_double fp strtod true (some none)
        (some ⟨tripletFile m n (e :: es) ++ rest, nl, false⟩) opt =
      .ok (.incorrectInput, some none, some ⟨tripletFile m n (e :: es) ++ rest, nl, false⟩) := by
  have hN : (1 : ℤ) ≤ ((e :: es).length : ℤ) := by simp
  generalize hNn : ((e :: es).length : ℤ) = N at hN
  obtain ⟨c, a, e0, -, -, -, -, -, -, hj, hi, hx, -⟩ :=
    allocate_triplet (W := .d) (m := m) (n := n) (nz := N)
  have e0' : allocate .triplet .fp64 m n N false true = .ok c := e0
  have hxl : c.xf.length = N.toNat := by
    unfold allocate at e0'
    rw [if_neg (by simp [Kind.ok, Ty.ok])] at e0'
    simp only [if_false, reduceCtorEq, Bool.false_eq_true, if_true] at e0'
    rw [← Except.ok.inj e0']
    simp [Mat.xf, newVals]
    omega
  have hw : (⟨tripletFile m n (e :: es) ++ rest, nl, false⟩ : Stream).words =
      .int m :: .int n :: .int N :: .int (e.row + 1) :: .int (e.col + 1) :: .int e.val ::
        (es.flatMap Triple.words ++ rest) := by rw [← hNn]; rfl
  have hw' : (⟨.int (e.row + 1) :: .int (e.col + 1) :: .int e.val ::
        (es.flatMap Triple.words ++ rest), nl, false⟩ : Stream).words =
      .int (e.row + 1) :: .int (e.col + 1) :: .int e.val :: (es.flatMap Triple.words ++ rest) := rfl
  unfold SLIP_tripread_double tripreadDoubleBody
  simp only [scan3_ints hw, List.isEmpty_cons, Bool.or_false, Bool.not_true, Bool.false_eq_true, if_false,
    Bool.false_or, decide_eq_true_eq, Int.lt_irrefl, e0', ok_bind, readEntry, scan3_dbl hw', storeOpt]
  have h1 : (deref c.i).length = N.toNat := by rw [hi, max_eq_left hN]
  have h2 : (deref c.j).length = N.toNat := by rw [hj, max_eq_left hN]
  rw [wr_eq (by omega) (by rw [h1]; omega), ok_bind, wr_eq (by omega) (by rw [h2]; omega), ok_bind,
    wr_eq (by omega) (by rw [hxl]; omega), ok_bind]
  rw [if_pos (by simp)]
  rfl

/-- The option `c` of the usage text, the print level 0 and the tolerance 0 are rejected; the
tolerance NaN is accepted. -/
theorem C38_documented_refuted (atoi : String → ℤ) (atof : String → Dbl) (opt : Options)
    (h0 : atoi "0" = 0) (h0' : atof "0" = .fin 0) (hn : atof "nan" = .nan) :
    (SLIP_process_command_line atoi atof ["c"] opt "" "").1 = .incorrectInput ∧
    (SLIP_process_command_line atoi atof ["o", "0"] opt "" "").1 = .incorrectInput ∧
    (SLIP_process_command_line atoi atof ["t", "0"] opt "" "").1 = .incorrectInput ∧
    SLIP_process_command_line atoi atof ["t", "nan"] opt "" "" =
      (.ok, ⟨{ opt with tol := .nan }, "", "", false⟩) := by
  simp [SLIP_process_command_line, cmdLoop, h0, h0', hn, Dbl.neg]

/-- The usage text in SLIPLU.c says that the smallest pivot is the default. -/
theorem C38_default_pivot_refuted (atoi : String → ℤ) (atof : String → Dbl) :
    ∃ opt, SLIP_create_default_options true = some opt ∧
      (SLIP_process_command_line atoi atof [] opt "" "").2.opt.pivot ≠ .smallest :=
  ⟨_, rfl, fun h => by cases h⟩

/-! ### Concrete cases -/

namespace DriversEx

/-- The file of the matrix `[2 1; 0 3]`. -/
def es : List Triple := [⟨0, 0, 2⟩, ⟨1, 1, 3⟩, ⟨0, 1, 1⟩]

theorem es_ok : TriplesOk 2 2 es := by
  refine ⟨fun e he => ?_, by decide⟩
  simp only [es, List.mem_cons, List.not_mem_nil, or_false] at he
  rcases he with rfl | rfl | rfl <;> decide

example : tripletFile 2 2 es = [.int 2, .int 2, .int 3, .int 1, .int 1, .int 2, .int 2, .int 2, .int 3,
    .int 1, .int 2, .int 1] := by decide

/-- A right-hand side with two columns. -/
def M : ℕ → ℕ → ℤ := fun i j => if i = 0 then 5 + j else 3

example : denseFile 2 2 M = [.int 2, .int 2, .int 5, .int 6, .int 3, .int 3] := by decide

theorem es_det : (tripletMatrix 2 2 es).det = 6 := by
  rw [Matrix.det_fin_two]
  decide +kernel

/-- `C37_example2` applies: the solution of this nonsingular system is printed. -/
example (fp : Fp) (O : Orderings) (nc : Int → Int → ℚ → Bool) :
    ∃ x, example2 fp O nc ⟨tripletFile 2 2 es, true, false⟩ ⟨denseFile 2 2 M, true, false⟩ =
      .ok (some x) ∧ IsDenseQ 2 2 x ∧ tripletMatrix 2 2 es * x.denseQ 2 2 = ratMatrix 2 2 M := by
  have := (C37_example2 (fp := fp) (O := O) (nc := nc) (M := M) (rest := []) (rest' := []) (nl := true)
    (nl' := true) (l := 2) es_ok (Or.inl (by decide)) (Or.inr (Or.inr rfl))).2
    (by rw [es_det]; norm_num)
  simpa using this

/-- `C38_main` applies to the command line `q 2 f A b t 0.5`. -/
example (atoi : String → ℤ) (atof : String → Dbl) (h : atof "0.5" = .fin (1 / 2)) :
    CmdLine atoi atof ["q", "2", "f", "A", "b", "t", "0.5"] [.order "2", .file "A" "b", .tol "0.5"] ∧
    (∀ v, .tol v ∈ [.order "2", .file "A" "b", CmdItem.tol "0.5"] → ∃ x, atof v = .fin x) ∧
    lastOf CmdItem.mat? "" [.order "2", .file "A" "b", .tol "0.5"] = "A" := by
  refine ⟨.order (Or.inl rfl) (.file (Or.inl rfl) (.tol (Or.inl rfl)
    (Or.inr (Or.inr ⟨_, h, by norm_num⟩)) .nil)), fun v hv => ?_, rfl⟩
  simp at hv
  subst hv
  exact ⟨_, h⟩

end DriversEx

end Slip
