import Verif.Proof.Machine4Dense
import Verif.Props.Drivers
import Verif.Props.Example

/-!
# C46, continued: the readers and the demo programs in 64-bit arithmetic
-/

namespace Slip
open Slip.M64

section
variable {fp : Fp} {O : Orderings} {nc : Int → Int → ℚ → Bool} {m n k l : ℕ} {es : List Triple} {M : ℕ → ℕ → ℤ}
  {rest rest' : List Word} {nl nl' : Bool}

/-- C46 (SLIP_tripread): reading the file of a matrix with at most 2^60 rows, columns and entries does not overflow: the
64-bit reader delivers the matrix in the file. The values of the entries are arbitrary integers. -/
theorem C46_tripread {opt : Option Options} (hes : TriplesOk m n es)
    (hN : 2 ≤ es.length ∨ es.length = 1 ∧ rest ≠ []) (hm : (m : ℤ) ≤ 2 ^ 60) (hn : (n : ℤ) ≤ 2 ^ 60)
    (hl : (es.length : ℤ) ≤ 2 ^ 60) :
    ∃ A s, SLIP_tripread64 fp true (some none) (some ⟨tripletFile m n es ++ rest, nl, false⟩) opt =
        .ok (.ok, some (some A), some s) ∧
      ValidCsc m n A ∧ A.type = .mpz ∧ Owns A ∧ A.toMatrix m n = tripletMatrix m n es ∧
      s.words = rest := by
  rw [tripread64_eq hes hN hm hn hl]
  exact C37_tripread hes hN

/-- C46 (SLIP_read_dense): on any file, well formed or not, whose first two numbers (as far as they are there) and their
product are at most 2^60 in absolute value, the reader does not overflow. -/
theorem C46_read_dense {s : Stream} (h : ∀ a ws, s.words = .int a :: ws → |a| ≤ 2 ^ 60 ∧
      ∀ b ws', ws = .int b :: ws' → |b| ≤ 2 ^ 60 ∧ |a * b| ≤ 2 ^ 60) (bh : Handle Mat)
    (hu : SLIP_read_dense true bh (some s) ≠ .error .ub) :
    SLIP_read_dense64 true bh (some s) = SLIP_read_dense true bh (some s) := by
  refine readDense64_eq (fun a ws e => ?_) bh hu
  obtain ⟨h1, h2⟩ := h a ws e
  rw [abs_le] at h1
  refine ⟨h1, fun b ws' e' => ?_⟩
  obtain ⟨h3, h4⟩ := h2 b ws' e'
  rw [abs_le] at h3 h4
  exact ⟨h3, h4⟩

theorem denseFile_dims (hm : (m : ℤ) ≤ 2 ^ 60) (hn : (n : ℤ) ≤ 2 ^ 60) (hmn : (m : ℤ) * n ≤ 2 ^ 60) :
    DimsOk (denseFile m n M ++ rest) := by
  intro a ws e
  obtain ⟨e1, e2⟩ := List.cons.inj e
  injection e1 with e1
  refine ⟨by omega, fun b ws' e' => ?_⟩
  rw [← e2] at e'
  obtain ⟨e3, e4⟩ := List.cons.inj e'
  injection e3 with e3
  have : (0 : ℤ) ≤ (m : ℤ) * n := by positivity
  rw [← e1, ← e3]
  omega

/-- C46: the size of the matrix in the file is not tested: the file `4294967296 4294967296 7` makes SLIP_read_dense overflow in
the product of the two numbers; computed exactly, the number of entries would be noticed to exceed those in the file. -/
theorem C46_read_dense_size_refuted (bh : Option Mat) :
    SLIP_read_dense64 true (some bh) (some ⟨[.int (2 ^ 32), .int (2 ^ 32), .int 7], true, false⟩) = .error .ub := by
  have h : i64 ((2 ^ 32 : ℤ) * 2 ^ 32) = .error .ub := by
    unfold i64
    rw [if_neg (by norm_num)]
  have h2 : scan2_64 ⟨[.int (2 ^ 32), .int (2 ^ 32), .int 7], true, false⟩ =
      .ok (2, some (2 ^ 32), some (2 ^ 32), ⟨[.int 7], true, false⟩) := by
    rw [scan2_64_ints rfl (by norm_num) (by norm_num) (by norm_num) (by norm_num), scan2_ints rfl]
    rfl
  have h3 : readDenseBody64 true ⟨[.int (2 ^ 32), .int (2 ^ 32), .int 7], true, false⟩ = .error .ub := by
    unfold readDenseBody64
    rw [h2, ok_bind]
    dsimp only
    rw [if_neg (by simp), h]
    rfl
  unfold SLIP_read_dense64
  dsimp only
  rw [h3]

theorem readers64 {opt : Option Options} (hes : TriplesOk n n es)
    (hN : 2 ≤ es.length ∨ es.length = 1 ∧ rest ≠ []) (hne : 0 < n * l ∨ rest' ≠ [] ∨ nl' = true)
    (hn : (n : ℤ) ≤ 2 ^ 29) (hnl : (n : ℤ) * l ≤ 2 ^ 60) (fp : Fp) :
    SLIP_tripread64 fp true (some none) (some ⟨tripletFile n n es ++ rest, nl, false⟩) opt =
      SLIP_tripread fp true (some none) (some ⟨tripletFile n n es ++ rest, nl, false⟩) opt ∧
    SLIP_read_dense64 true (some none) (some ⟨denseFile n l M ++ rest', nl', false⟩) =
      SLIP_read_dense true (some none) (some ⟨denseFile n l M ++ rest', nl', false⟩) := by
  have hn0 : 0 < n := by
    cases es with
    | nil => simp at hN
    | cons e es => have := (hes.1 e (by simp)).2; omega
  have hc : (es.length : ℤ) ≤ (n : ℤ) * n := by exact_mod_cast triples_card hes
  have hnn : (n : ℤ) * n ≤ 2 ^ 60 := by nlinarith
  have hl : (l : ℤ) ≤ 2 ^ 60 := by
    have : (1 : ℤ) * l ≤ (n : ℤ) * l := mul_le_mul_of_nonneg_right (by omega) (by omega)
    omega
  refine ⟨tripread64_eq hes hN (by omega) (by omega) (by omega), ?_⟩
  refine readDense64_eq (denseFile_dims (by omega) hl hnl) _ ?_
  obtain ⟨b, s', eb, -⟩ := readDense_spec (M := M) hne none
  rw [eb]
  simp

/-- C46 (example2.c): for all well-formed files of a square system with at most 2^29 rows and at most 2^60 numbers on the
right-hand side, the demo `example2`, run in 64-bit arithmetic, prints the exact solution, or stops with a message if the
matrix is singular. -/
theorem C46_example2 (hes : TriplesOk n n es)
    (hN : 2 ≤ es.length ∨ es.length = 1 ∧ rest ≠ []) (hne : 0 < n * l ∨ rest' ≠ [] ∨ nl' = true)
    (hn : (n : ℤ) ≤ 2 ^ 29) (hnl : (n : ℤ) * l ≤ 2 ^ 60) :
    DemoResult n l (tripletMatrix n n es) (ratMatrix n l M)
      (example2_64 fp O nc ⟨tripletFile n n es ++ rest, nl, false⟩ ⟨denseFile n l M ++ rest', nl', false⟩) := by
  have key : example2_64 fp O nc ⟨tripletFile n n es ++ rest, nl, false⟩ ⟨denseFile n l M ++ rest', nl', false⟩ =
      example2 fp O nc ⟨tripletFile n n es ++ rest, nl, false⟩ ⟨denseFile n l M ++ rest', nl', false⟩ := by
    obtain ⟨A, s, eA, hA, hAt, -, hAm, -⟩ := tripread_spec (fp := fp)
      (opt := SLIP_create_default_options true) (nl := nl) hes hN
    obtain ⟨b, s', eb, hb, hbt, -, hbm, -⟩ := readDense_spec (M := M) hne none
    obtain ⟨r1, r2⟩ := readers64 (M := M) (opt := SLIP_create_default_options true) (nl := nl) hes hN hne hn hnl fp
    have hn0 : 0 < n := by
      cases es with
      | nil => simp at hN
      | cons e es => have := (hes.1 e (by simp)).2; omega
    have hT : TolOk ((SLIP_create_default_options true).map fun o => { o with check := true }) :=
      fun _ => ⟨_, rfl⟩
    have hO : AmdOk O ((SLIP_create_default_options true).map fun o => { o with check := true }) n :=
      fun h => by cases h
    have hbs := (C46_backslash (fp := fp) (nc := nc) (X := none) (type := .mpq) hO (hA.isCsc hAt) (hb.isDenseZ hbt) hn0
      hA.scale hb.scale hT hn hnl).1
    unfold example2_64 example2
    simp only [r1, r2, eA, eb, ok_bind, ne_eq, not_true_eq_false, if_false]
    show ((if A.n ≠ b.m then pure none else do
        let (e, x) ← SLIP_backslash64 fp O nc true (some none) .mpq (some A) (some b) _
        if e ≠ .ok then pure none else pure x.join) : C (Option Mat)) = _
    rw [hbs]
    rfl
  rw [key]
  exact C37_example2 hes hN hne

/-- C46 (SLIPLU.c): the same for the demo `SLIPLU`, with all options whose tolerance is a number. -/
theorem C46_sliplu {opt : Options} (hT : TolOk (some opt)) (hO : AmdOk O (some opt) n) (hes : TriplesOk n n es)
    (hN : 2 ≤ es.length ∨ es.length = 1 ∧ rest ≠ []) (hne : 0 < n * l ∨ rest' ≠ [] ∨ nl' = true)
    (hn : (n : ℤ) ≤ 2 ^ 29) (hnl : (n : ℤ) * l ≤ 2 ^ 60) :
    DemoResult n l (tripletMatrix n n es) (ratMatrix n l M)
      (sliplu64 fp O nc opt ⟨tripletFile n n es ++ rest, nl, false⟩
        ⟨denseFile n l M ++ rest', nl', false⟩) := by
  have key : sliplu64 fp O nc opt ⟨tripletFile n n es ++ rest, nl, false⟩ ⟨denseFile n l M ++ rest', nl', false⟩ =
      sliplu fp O nc opt ⟨tripletFile n n es ++ rest, nl, false⟩ ⟨denseFile n l M ++ rest', nl', false⟩ := by
    obtain ⟨A, s, eA, hA, hAt, -, hAm, -⟩ := tripread_spec (fp := fp) (opt := some opt) (nl := nl) hes hN
    obtain ⟨b, s', eb, hb, hbt, -, hbm, -⟩ := readDense_spec (M := M) hne none
    obtain ⟨r1, r2⟩ := readers64 (M := M) (opt := some opt) (nl := nl) hes hN hne hn hnl fp
    have hn0 : 0 < n := by
      cases es with
      | nil => simp at hN
      | cons e es => have := (hes.1 e (by simp)).2; omega
    have hAc := hA.isCsc hAt
    have hnn : (n : ℤ) * n ≤ 2 ^ 60 := by nlinarith
    obtain ⟨S, e, ⟨τ, hτ, -⟩, s1, s2, s3, s4⟩ :=
      C17_analysis_usable hO hAc.kind hAc.rows hAc.cols hAc.pattern hAc.idx none
    have hS : IsAnalysis n S := ⟨⟨τ, hτ⟩, s1, s2⟩
    have ea := (C46_analyze hO hn hAc.kind hAc.rows hAc.cols hAc.pattern hAc.idx none).1
    have ef := (C46_factorize (nc := nc) hAc hS hT hn (by omega) (by omega) none none none none).1
    unfold sliplu64 sliplu
    simp only [r1, r2, eA, eb, ok_bind, ne_eq, not_true_eq_false, if_false]
    show ((if A.n ≠ b.m then pure none else do
        let (e, S) ← SLIP_LU_analyze64 O true (some none) (some A) (some opt)
        if e ≠ .ok then pure none
        else do
          let f ← SLIP_LU_factorize64 nc true (some none) (some none) (some none) (some none)
            (some A) S.join (some opt)
          if f.info ≠ .ok then pure none
          else do
            let opt := { opt with check := true }
            let (e, x) ← SLIP_LU_solve64 true (some none) (some b) (some A) f.L.join f.U.join
              f.rhos.join S.join f.pinv.join (some opt)
            if e ≠ .ok then pure none else pure x.join) : C (Option Mat)) =
      (if A.n ≠ b.m then pure none else do
        let (e, S) ← SLIP_LU_analyze O true (some none) (some A) (some opt)
        if e ≠ .ok then pure none
        else do
          let f ← SLIP_LU_factorize nc true (some none) (some none) (some none) (some none)
            (some A) S.join (some opt)
          if f.info ≠ .ok then pure none
          else do
            let opt := { opt with check := true }
            let (e, x) ← SLIP_LU_solve true (some none) (some b) (some A) f.L.join f.U.join
              f.rhos.join S.join f.pinv.join (some opt)
            if e ≠ .ok then pure none else pure x.join)
    rw [ea, e]
    simp only [ok_bind, ne_eq, not_true_eq_false, if_false, Option.join, Option.bind_some, id]
    rw [ef]
    by_cases hdet : (A.matrix n).det = 0
    · have f1 := (C02_singular_verdict_exact (nc := nc) hAc hS hT none none none none).1 hdet
      rw [f1]
      rfl
    · obtain ⟨S', L, U, R, pinv, x, e', hf, hx, -⟩ := C01_pipeline hO (nc := nc) (o₁ := some opt)
        (o₂ := some opt) (o₃ := some { opt with check := true }) hAc (hb.isDenseZ hbt) hn0
        hA.scale hb.scale hT hdet
      rw [e] at e'
      cases e'
      have es := (C46_solve (opt' := some { opt with check := true }) hAc hS hT hf hn0 (hb.isDenseZ hbt) hb.scale hn
        (by omega) (by omega) hnl none).1
      unfold FactorizeOk at hf
      rw [hf]
      simp only [ok_bind, not_true_eq_false, if_false, Option.bind_some, id]
      rw [es]
  rw [key]
  exact C37_sliplu hT hO hes hN hne

theorem exampleGen64_eq {rand : ℕ → ℤ} {s : GenSt} (hs : s.num = 0) (hn : (n : ℤ) ≤ 2 ^ 29)
    (hu : exampleGen rand n s ≠ .error .ub) : exampleGen64 rand n s = exampleGen rand n s := by
  refine Agree.eq (Q := fun _ => True) ?_ hu
  unfold exampleGen64 exampleGen
  refine (agree_forRange (fun k (s : GenSt) => s.num = k * n) (by rw [hs]; simp) ?_).mono fun _ _ => trivial
  intro k s hk0 hk1 hI
  have hkn : (k + 1) * n ≤ (n : ℤ) * n := mul_le_mul_of_nonneg_right (by omega) (by omega)
  have hnn : (n : ℤ) * n ≤ 2 ^ 58 := by nlinarith
  have e1 : (k + 1) * (n : ℤ) = k * n + n := by ring
  have e2 : 0 ≤ k * (n : ℤ) := mul_nonneg hk0 (by omega)
  refine agree_wr fun _ _ => ?_
  refine (agree_forRange (fun p (s : GenSt) => s.num = k * n + p) (by show s.num = _; rw [hI]; simp) ?_).mono ?_
  · intro p s hp0 hp1 hI
    refine agree_wr fun _ _ => agree_wr fun _ _ => agree_wr fun _ _ => ?_
    refine agree_i64 (by omega) (Agree.pure _ ?_)
    show s.num + 1 = _
    omega
  · intro s hI
    rw [hI, e1]
    omega

/-- C46 (example.c): the random system of the demo `example`, of any size up to 2^29: the program run in 64-bit arithmetic
does what C37 says. -/
theorem C46_example {rand : ℕ → ℤ} (hn : (n : ℤ) ≤ 2 ^ 29) (hr : ∀ k, 0 ≤ rand k ∧ rand k < 2 ^ 31)
    (hA : drawnMatrix n rand ≠ 0) (hb : drawnRhs n rand ≠ 0) :
    ((drawnMatrix n rand).det = 0 → example1_64 fp O nc rand n = .ok none) ∧
    ((drawnMatrix n rand).det ≠ 0 → ∃ (x : Matrix (Fin n) (Fin 1) ℚ) (y : Mat),
      drawnMatrix n rand * x = drawnRhs n rand ∧
      example1_64 fp O nc rand n = .ok (some y) ∧ y.kind = .dense ∧ y.type = .fp64 ∧ y.m = n ∧ y.n = 1 ∧
      ∀ i : Fin n, get y.xf (i : ℕ) = some (fp.mpqGetD (x i 0))) := by
  have key : example1_64 fp O nc rand n = example1 fp O nc rand n := by
    have hn0 : 0 < n := by
      rcases Nat.eq_zero_or_pos n with rfl | h
      · exact absurd (Subsingleton.elim _ _) hA
      · exact h
    have hnn : (n : ℤ) * n ≤ 2 ^ 60 := by nlinarith
    obtain ⟨R, Rb, s, R', Rb', A, b, e1, e2, e3, eR, eRb, vR, mR, vb, mb, eA, eb, iA, sA, uA, dA, ib, sb, ub⟩ :=
      example_copies hr hA hb fp
    set opt := SLIP_create_default_options true with hopt
    have hT : TolOk (opt.map fun o => { o with check := true }) := fun _ => ⟨_, rfl⟩
    have hO : AmdOk O (opt.map fun o => { o with check := true }) n := fun h => by cases h
    have f0 : i64 ((n : ℤ) * n) = .ok ((n : ℤ) * n) := i64_eq (by nlinarith) (by omega)
    have f1 : allocate64 .triplet .fp64 n n ((n : ℤ) * n) false true = .ok R := by
      rw [(agree_allocate (fun h => by cases h) (fun h => by cases h)).eq (by rw [e1]; simp), e1]
    have f2 : allocate64 .dense .fp64 n 1 n false true = .ok Rb := by
      rw [(agree_allocate (fun _ _ _ => by omega) (fun h => by cases h)).eq (by rw [e2]; simp), e2]
    have f3 := (exampleGen64_eq (n := n) (rand := rand)
      (s := { i := deref R.i, j := deref R.j, x := R.xf, b := Rb.xf, num := 0, cnt := 0 }) rfl hn (by rw [e3]; simp)).trans e3
    have nR : SLIP_matrix_nnz true (some R') = .ok ((n : ℤ) * n) := by
      have := vR.kind
      rw [eR] at this ⊢
      exact nnz_read this
    have nb : SLIP_matrix_nnz true (some Rb') = .ok (n : ℤ) := by
      unfold SLIP_matrix_nnz
      simp only [vb.kind, vb.rows, vb.cols, Bool.not_true, Bool.false_eq_true, if_false]
      rw [if_neg (by omega)]
      simp
      rfl
    have f4 := (C46_copy (fp := fp) (opt := opt) (kind := .csc) (type := .mpz) (Or.inr (Or.inl vR)) nR hnn (by omega) (by omega)
      (fun _ => hnn) (some none) (by rw [eA]; simp)).trans eA
    have f5 := (C46_copy (fp := fp) (opt := opt) (kind := .dense) (type := .mpz) (Or.inr (Or.inr vb)) nb (by omega) (by omega)
      (by norm_num) (fun _ => by push_cast; omega) (some none) (by rw [eb]; simp)).trans eb
    have f6 := (C46_backslash (fp := fp) (nc := nc) (X := none) (type := .fp64) hO iA ib hn0 sA sb hT hn (by push_cast; omega)).1
    unfold example1_64 example1
    simp only [f0, f1, f2, f3, ok_bind, e1, e2, e3, ← eR, ← eRb, ← hopt, f4, f5, eA, eb, ne_eq, not_true_eq_false, if_false]
    show ((do
        let (e, x) ← SLIP_backslash64 fp O nc true (some none) .fp64 (some A) (some b) _
        if e ≠ .ok then pure none else pure x.join) : C (Option Mat)) = _
    rw [f6]
    rfl
  rw [key]
  exact C37_example hr hA hb

end

/-! ### Concrete cases -/

namespace DriversEx

/-- The hypotheses are met by the files of `Props/Drivers.lean`. -/
example (fp : Fp) (O : Orderings) (nc : Int → Int → ℚ → Bool) :
    DemoResult 2 1 (tripletMatrix 2 2 es) (ratMatrix 2 1 fun i _ => if i = 0 then 5 else 9)
      (example2_64 fp O nc ⟨tripletFile 2 2 es ++ [], true, false⟩
        ⟨denseFile 2 1 (fun i _ => if i = 0 then 5 else 9) ++ [], true, false⟩) :=
  C46_example2 es_ok (Or.inl (by decide)) (Or.inl (by norm_num)) (by norm_num) (by norm_num)

/-- A file whose entry does not fit in 64 bits is read without overflow. -/
example (fp : Fp) := C46_tripread (fp := fp) (m := 2) (n := 2) (es := [⟨0, 0, 10 ^ 50⟩, ⟨1, 1, 3⟩]) (rest := []) (nl := true) (opt := none)
  ⟨by simp, by simp⟩ (Or.inl (by simp)) (by norm_num) (by norm_num) (by norm_num)

end DriversEx

end Slip
