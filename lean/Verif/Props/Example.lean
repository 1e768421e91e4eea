import Verif.Props.Drivers

/-!
# Property C37: the demo program `example.c`
-/

namespace Slip

/-- The matrix of `example.c`: the numbers are drawn row by row, first the one of the right-hand side,
then those of the matrix. -/
def drawnMatrix (n : ℕ) (rand : ℕ → ℤ) : Matrix (Fin n) (Fin n) ℚ :=
  Matrix.of fun i j => (rand (i * (n + 1) + 1 + j) : ℚ)

/-- The right-hand side of `example.c`. -/
def drawnRhs (n : ℕ) (rand : ℕ → ℤ) : Matrix (Fin n) (Fin 1) ℚ :=
  Matrix.of fun i _ => (rand (i * (n + 1)) : ℚ)

/-- The arrays after `p` numbers of row `k`. -/
structure GenInv (n : ℕ) (rand : ℕ → ℤ) (k p : ℕ) (s : GenSt) : Prop where
  li : s.i.length = max (n * n) 1
  lj : s.j.length = max (n * n) 1
  lx : s.x.length = max (n * n) 1
  lb : s.b.length = max n 1
  num : s.num = (p : ℤ) + k * n
  i : ∀ r c : ℕ, r < n → c < n → (r < k ∨ r = k ∧ c < p) →
    get s.i ((c : ℤ) + r * n) = some (r : ℤ) ∧ get s.j ((c : ℤ) + r * n) = some (c : ℤ) ∧
    get s.x ((c : ℤ) + r * n) = some (.fin (rand (r * (n + 1) + 1 + c)))

theorem exampleGen_spec {n : ℕ} {rand : ℕ → ℤ} {s : GenSt} (hi : s.i.length = max (n * n) 1)
    (hj : s.j.length = max (n * n) 1) (hx : s.x.length = max (n * n) 1) (hb : s.b.length = max n 1)
    (hn : s.num = 0) (hc : s.cnt = 0) :
    wp (exampleGen rand n s) (fun s => GenInv n rand n 0 s ∧
      ∀ r : ℕ, r < n → get s.b r = some (.fin (rand (r * (n + 1))))) noFail := by
  unfold exampleGen
  refine wp_post (wp_forRange (fun k s => GenInv n rand k.toNat 0 s ∧ s.cnt = k.toNat * (n + 1) ∧
      ∀ r : ℕ, r < n → (r : ℤ) < k → get s.b r = some (.fin (rand (r * (n + 1)))))
    (by omega) ⟨⟨hi, hj, hx, hb, by simp [hn], fun r c _ _ h => by
      rcases h with h | h
      · simp at h
      · omega⟩, by simp [hc], fun r _ h => by omega⟩ ?_) ?_
  · rintro k s h0 h1 ⟨hI, hcnt, hB⟩
    obtain ⟨k, rfl⟩ := Int.eq_ofNat_of_zero_le h0
    have hk : k < n := by omega
    simp only [Int.toNat_natCast] at hI hcnt
    have hkb : (k : ℤ) < (s.b.length : ℤ) := by rw [hI.lb]; omega
    rw [wr_eq (by omega) hkb, ok_bind]
    refine wp_post (wp_forRange (fun p s => GenInv n rand k p.toNat s ∧
        s.cnt = k * (n + 1) + 1 + p.toNat ∧
        ∀ r : ℕ, r < n → r < k + 1 → get s.b r = some (.fin (rand (r * (n + 1)))))
      (by omega) ⟨⟨hI.li, hI.lj, hI.lx, by simpa using hI.lb, by simpa using hI.num, hI.i⟩,
        by simp [hcnt], fun r hr h => ?_⟩ ?_) ?_
    · simp only
      by_cases e : r = k
      · subst e
        rw [get_upd_self (by omega) hkb, hcnt]
      · rw [get_upd_ne (by omega) hkb _ (by exact_mod_cast e)]
        exact hB r hr (by omega)
    · rintro p s hp0 hp1 ⟨hI, hcnt, hB⟩
      obtain ⟨p, rfl⟩ := Int.eq_ofNat_of_zero_le hp0
      have hp : p < n := by omega
      simp only [Int.toNat_natCast] at hI hcnt
      have hlt : p + k * n < max (n * n) 1 := lt_of_lt_of_le (ix2_lt hp hk) (le_max_left _ _)
      have hlt' : (p : ℤ) + k * n < ((max (n * n) 1 : ℕ) : ℤ) := by exact_mod_cast hlt
      have hnn : (0 : ℤ) ≤ (p : ℤ) + k * n := by positivity
      have hbi : (p : ℤ) + k * n < (s.i.length : ℤ) := by rw [hI.li]; exact hlt'
      have hbj : (p : ℤ) + k * n < (s.j.length : ℤ) := by rw [hI.lj]; exact hlt'
      have hbx : (p : ℤ) + k * n < (s.x.length : ℤ) := by rw [hI.lx]; exact hlt'
      rw [hI.num, wr_eq hnn hbi, ok_bind, wr_eq hnn hbj, ok_bind, wr_eq hnn hbx, ok_bind, wp_pure]
      have e : ((p : ℤ) + 1).toNat = p + 1 := by omega
      rw [e]
      refine ⟨⟨by simpa using hI.li, by simpa using hI.lj, by simpa using hI.lx, hI.lb,
        by push_cast; ring, fun r c hr hc h => ?_⟩, by simp only [hcnt]; ring, hB⟩
      simp only
      by_cases hrc : r = k ∧ c = p
      · obtain ⟨rfl, rfl⟩ := hrc
        rw [get_upd_self hnn hbi, get_upd_self hnn hbj, get_upd_self hnn hbx, hcnt]
        exact ⟨rfl, rfl, rfl⟩
      · have hne : (c : ℤ) + r * n ≠ (p : ℤ) + k * n := by
          intro he
          apply hrc
          have he' : c + r * n = p + k * n := by exact_mod_cast he
          have a := ix2_mod (m := n) (j := r) hc
          have b := ix2_mod (m := n) (j := k) hp
          rw [he'] at a
          exact ⟨a.2.symm.trans b.2, a.1.symm.trans b.1⟩
        rw [get_upd_ne hnn hbi _ hne, get_upd_ne hnn hbj _ hne, get_upd_ne hnn hbx _ hne]
        exact hI.i r c hr hc (by omega)
    · rintro s ⟨hI, hcnt, hB⟩
      simp only [Int.toNat_natCast] at hI hcnt
      have e : ((k : ℤ) + 1).toNat = k + 1 := by omega
      rw [e]
      refine ⟨⟨hI.li, hI.lj, hI.lx, hI.lb, by rw [hI.num]; push_cast; ring,
        fun r c hr hc h => hI.i r c hr hc (by omega)⟩, by rw [hcnt]; ring,
        fun r hr h => hB r hr (by omega)⟩
  · rintro s ⟨hI, -, hB⟩
    simp only [Int.toNat_natCast] at hI
    exact ⟨hI, fun r hr => hB r hr (by omega)⟩

/-- The two matrix objects `example.c` fills. -/
theorem example_objects {n : ℕ} {rand : ℕ → ℤ} :
    ∃ R Rb s R' Rb', allocate .triplet .fp64 n n ((n : ℤ) * n) false true = .ok R ∧
      allocate .dense .fp64 n 1 n false true = .ok Rb ∧
      exampleGen rand n { i := deref R.i, j := deref R.j, x := R.xf, b := Rb.xf, num := 0, cnt := 0 } =
        .ok s ∧
      R' = { R with i := some s.i, j := some s.j, x := some (.fp64 s.x), nz := (n : ℤ) * n } ∧
      Rb' = { Rb with x := some (.fp64 s.b) } ∧
      ValidTriplet n n R' ∧ R'.type = .fp64 ∧ R'.toMatrix n n = drawnMatrix n rand ∧
      ValidDense n 1 Rb' ∧ Rb'.type = .fp64 ∧ Rb'.toMatrix n 1 = drawnRhs n rand := by
  obtain ⟨c, a, e0, hm, hn, hk, hty, hs, -, hj, hi, hx, -⟩ :=
    allocate_triplet (W := .d) (m := n) (n := n) (nz := ((n : ℤ) * n))
  have e0' : allocate .triplet .fp64 n n ((n : ℤ) * n) false true = .ok c := e0
  obtain ⟨d, a', e1, dm, dn, dk, dty, ds, -, dx, -⟩ :=
    allocate_dense (W := .d) (m := n) (n := 1) (nz := (n : ℤ))
  have e1' : allocate .dense .fp64 n 1 (n : ℤ) false true = .ok d := by
    have := e1
    rw [Nat.cast_one] at this
    exact this
  have hsq : (max ((n : ℤ) * n) 1).toNat = max (n * n) 1 := by
    have : (max ((n : ℤ) * n) 1) = ((max (n * n) 1 : ℕ) : ℤ) := by push_cast; rfl
    rw [this, Int.toNat_natCast]
  have hcl : c.xf.length = max (n * n) 1 := by
    unfold allocate at e0'
    rw [if_neg (by simp [Kind.ok, Ty.ok])] at e0'
    simp only [if_false, reduceCtorEq, Bool.false_eq_true, if_true] at e0'
    rw [← Except.ok.inj e0', ← hsq]
    simp [Mat.xf, newVals]
  have hdl : d.xf.length = max n 1 := by
    unfold allocate at e1'
    rw [if_neg (by simp [Kind.ok, Ty.ok])] at e1'
    simp only [if_false, reduceCtorEq, Bool.false_eq_true, if_true] at e1'
    rw [← Except.ok.inj e1']
    simp [Mat.xf, newVals]
    omega
  obtain ⟨s, es, hI, hB⟩ := wp_noFail (exampleGen_spec (n := n) (rand := rand)
    (s := { i := deref c.i, j := deref c.j, x := c.xf, b := d.xf, num := 0, cnt := 0 })
    (by rw [← hsq]; exact hi) (by rw [← hsq]; exact hj) hcl hdl rfl rfl)
  refine ⟨c, d, s, _, _, e0', e1', es, rfl, rfl, ?_⟩
  set R : Mat := { c with i := some s.i, j := some s.j, x := some (.fp64 s.x), nz := (n : ℤ) * n } with hR
  set Rb : Mat := { d with x := some (.fp64 s.b) } with hRb
  have split : ∀ t : ℤ, 0 ≤ t → t < (n : ℤ) * n → ∃ r q : ℕ, r < n ∧ q < n ∧ t = (q : ℤ) + r * n := by
    intro t h0 h1
    obtain ⟨t, rfl⟩ := Int.eq_ofNat_of_zero_le h0
    have h1 : t < n * n := by exact_mod_cast h1
    have hn0 : 0 < n := by
      rcases Nat.eq_zero_or_pos n with h | h
      · rw [h] at h1; omega
      · exact h
    refine ⟨t / n, t % n, Nat.div_lt_of_lt_mul h1, Nat.mod_lt _ hn0, ?_⟩
    have := Nat.mod_add_div t n
    rw [Nat.mul_comm] at this
    exact_mod_cast this.symm
  have get3 : ∀ r q : ℕ, r < n → q < n → get (deref R.i) ((q : ℤ) + r * n) = some (r : ℤ) ∧
      get (deref R.j) ((q : ℤ) + r * n) = some (q : ℤ) ∧
      R.val ((q : ℤ) + r * n) = some (rand (r * (n + 1) + 1 + q) : ℚ) := by
    intro r q hr hq
    obtain ⟨g1, g2, g3⟩ := hI.i r q hr hq (Or.inl hr)
    refine ⟨g1, g2, ?_⟩
    have : R.val ((q : ℤ) + r * n) = Vals.val R.scale (.fp64 s.x) ((q : ℤ) + r * n) := rfl
    rw [this]
    simp [Vals.val, g3, Dbl.rat]
  have getb : ∀ r : ℕ, r < n → Rb.val (r : ℤ) = some (rand (r * (n + 1)) : ℚ) := by
    intro r hr
    have : Rb.val (r : ℤ) = Vals.val Rb.scale (.fp64 s.b) (r : ℤ) := rfl
    rw [this]
    simp [Vals.val, hB r hr, Dbl.rat]
  have hRv : ValidTriplet n n R := by
    refine ⟨⟨hm, hn, ⟨_, rfl, hty.symm⟩, by show c.scale ≠ 0; rw [hs]; norm_num⟩, hk,
      by show (0 : ℤ) ≤ (n : ℤ) * n; positivity, fun t h0 h1 => ?_, fun t t' h0 h1 h0' h1' hii hjj => ?_⟩
    · obtain ⟨r, q, hr, hq, rfl⟩ := split t h0 h1
      obtain ⟨g1, g2, g3⟩ := get3 r q hr hq
      exact ⟨⟨r, hr, g1⟩, ⟨q, hq, g2⟩, _, g3⟩
    · obtain ⟨r, q, hr, hq, rfl⟩ := split t h0 h1
      obtain ⟨r', q', hr', hq', rfl⟩ := split t' h0' h1'
      obtain ⟨g1, g2, -⟩ := get3 r q hr hq
      obtain ⟨g1', g2', -⟩ := get3 r' q' hr' hq'
      rw [g1, g1'] at hii
      rw [g2, g2'] at hjj
      rw [Option.some.inj hii, Option.some.inj hjj]
  refine ⟨hRv, hty, ?_, ⟨⟨dm, dn, ⟨_, rfl, dty.symm⟩, by show d.scale ≠ 0; rw [ds]; norm_num⟩, dk,
    fun i hi j hj => ?_⟩, dty, ?_⟩
  · ext i j
    show R.num i j = _
    unfold Mat.num
    rw [hRv.kind]
    show (∑ t ∈ Finset.Ico (0 : ℤ) ((n : ℤ) * n), _) = _
    have hmem : (((j : ℕ) : ℤ) + (i : ℕ) * n) ∈ Finset.Ico (0 : ℤ) ((n : ℤ) * n) := by
      rw [Finset.mem_Ico]
      refine ⟨by positivity, ?_⟩
      have := ix2_lt j.2 i.2
      exact_mod_cast this
    rw [Finset.sum_eq_single_of_mem _ hmem]
    · obtain ⟨g1, g2, g3⟩ := get3 i j i.2 j.2
      rw [g1, g2, g3]
      simp [drawnMatrix]
    · intro t ht hne
      rw [Finset.mem_Ico] at ht
      obtain ⟨r, q, hr, hq, rfl⟩ := split t ht.1 ht.2
      obtain ⟨g1, g2, -⟩ := get3 r q hr hq
      rw [g1, g2, if_neg]
      rintro ⟨h1, h2⟩
      apply hne
      rw [Option.some.inj h1, Option.some.inj h2]
  · obtain rfl : j = 0 := by omega
    exact ⟨_, by simpa using getb i hi⟩
  · ext i j
    show Rb.num i j = _
    unfold Mat.num
    rw [show Rb.kind = .dense from dk]
    have hj : (j : ℕ) = 0 := by omega
    simp only [hj, Nat.cast_zero, zero_mul, add_zero, getb i i.2, Option.getD_some, drawnRhs, Matrix.of_apply]

section
variable {fp : Fp} {O : Orderings} {nc : Int → Int → ℚ → Bool}

/-- The objects of `example.c`, up to the call of SLIP_backslash. -/
theorem example_copies {n : ℕ} {rand : ℕ → ℤ} (hr : ∀ k, 0 ≤ rand k ∧ rand k < 2 ^ 31)
    (hA : drawnMatrix n rand ≠ 0) (hb : drawnRhs n rand ≠ 0) (fp : Fp) :
    ∃ R Rb s R' Rb' A b, allocate .triplet .fp64 n n ((n : ℤ) * n) false true = .ok R ∧
      allocate .dense .fp64 n 1 n false true = .ok Rb ∧
      exampleGen rand n { i := deref R.i, j := deref R.j, x := R.xf, b := Rb.xf, num := 0, cnt := 0 } =
        .ok s ∧
      R' = { R with i := some s.i, j := some s.j, x := some (.fp64 s.x), nz := (n : ℤ) * n } ∧
      Rb' = { Rb with x := some (.fp64 s.b) } ∧
      ValidTriplet n n R' ∧ R'.toMatrix n n = drawnMatrix n rand ∧
      ValidDense n 1 Rb' ∧ Rb'.toMatrix n 1 = drawnRhs n rand ∧
      SLIP_matrix_copy fp true (some none) .csc .mpz (some R') (SLIP_create_default_options true) =
        .ok (.ok, some (some A)) ∧
      SLIP_matrix_copy fp true (some none) .dense .mpz (some Rb') (SLIP_create_default_options true) =
        .ok (.ok, some (some b)) ∧
      IsCsc n A ∧ A.scale ≠ 0 ∧ unscale (A.matrix n) A.scale = R'.toMatrix n n ∧
      ((R'.toMatrix n n).det ≠ 0 ↔ (A.matrix n).det ≠ 0) ∧
      IsDenseZ n 1 b ∧ b.scale ≠ 0 ∧ unscale (b.denseZ n 1) b.scale = Rb'.toMatrix n 1 := by
  obtain ⟨R, Rb, s, R', Rb', e1, e2, e3, eR, eRb, vR, tR, mR, vb, tb, mb⟩ :=
    example_objects (n := n) (rand := rand)
  set opt := SLIP_create_default_options true with hopt
  have hfl : ∀ k, IsFloat 53 (rand k : ℚ) ∧ ∃ z : ℤ, 10 ^ 17 * (rand k : ℚ) = z := by
    intro k
    obtain ⟨h0, h1⟩ := hr k
    refine ⟨⟨rand k, 0, ?_, by simp⟩, 10 ^ 17 * rand k, by push_cast; ring⟩
    rw [abs_of_nonneg h0]
    exact lt_of_lt_of_le h1 (by norm_num)
  have numA : ∀ (i j : ℕ) (hi : i < n) (hj : j < n), R'.num i j = (rand (i * (n + 1) + 1 + j) : ℚ) := by
    intro i j hi hj
    have := congrFun (congrFun mR ⟨i, hi⟩) ⟨j, hj⟩
    simpa [Mat.toMatrix, drawnMatrix] using this
  have numb : ∀ (i j : ℕ) (hi : i < n) (hj : j < 1), Rb'.num i j = (rand (i * (n + 1)) : ℚ) := by
    intro i j hi hj
    obtain rfl : j = 0 := by omega
    have := congrFun (congrFun mb ⟨i, hi⟩) 0
    simpa [Mat.toMatrix, drawnRhs] using this
  have exA : ExactConv n n opt R' .mpz := by
    unfold ExactConv
    rw [tR]
    refine ⟨by decide, fun i j hi hj => by rw [numA i j hi hj]; exact hfl _, ?_⟩
    by_contra h
    push Not at h
    apply hA
    rw [← mR]
    ext i j
    exact h i j i.2 j.2
  have exb : ExactConv n 1 opt Rb' .mpz := by
    unfold ExactConv
    rw [tb]
    refine ⟨by decide, fun i j hi hj => by rw [numb i j hi hj]; exact hfl _, ?_⟩
    by_contra h
    push Not at h
    apply hb
    rw [← mb]
    ext i j
    exact h i j i.2 j.2
  obtain ⟨A, eA, iA, sA, uA, dA, -⟩ := copy_to_csc (fp := fp) (opt := opt) (Or.inr (Or.inl vR)) exA
    ⟨fun h => (by rw [tR] at h; cases h), fun h => (by cases h), fun _ h => (by cases h)⟩
  obtain ⟨b, eb, ib, sb, ub, -⟩ := copy_to_dense (fp := fp) (opt := opt) (Or.inr (Or.inr vb)) exb
    ⟨fun h => (by rw [tb] at h; cases h), fun h => (by cases h), fun _ h => (by cases h)⟩
  exact ⟨R, Rb, s, R', Rb', A, b, e1, e2, e3, eR, eRb, vR, mR, vb, mb, eA, eb, iA, sA, uA, dA, ib, sb, ub⟩

/-- C37: whatever numbers `rand ()` returns (not all of the matrix zero, not all of the right-hand side
zero), and for every size of the system, the demo `example` stops with a message if the matrix drawn is
singular; otherwise each entry of its result is the `double` GMP makes of the entry of the exact
solution. -/
theorem C37_example {n : ℕ} {rand : ℕ → ℤ} (hr : ∀ k, 0 ≤ rand k ∧ rand k < 2 ^ 31)
    (hA : drawnMatrix n rand ≠ 0) (hb : drawnRhs n rand ≠ 0) :
    ((drawnMatrix n rand).det = 0 → example1 fp O nc rand n = .ok none) ∧
    ((drawnMatrix n rand).det ≠ 0 → ∃ (x : Matrix (Fin n) (Fin 1) ℚ) (y : Mat),
      drawnMatrix n rand * x = drawnRhs n rand ∧
      example1 fp O nc rand n = .ok (some y) ∧ y.kind = .dense ∧ y.type = .fp64 ∧ y.m = n ∧ y.n = 1 ∧
      ∀ i : Fin n, get y.xf (i : ℕ) = some (fp.mpqGetD (x i 0))) := by
  have hn : 0 < n := by
    rcases Nat.eq_zero_or_pos n with rfl | h
    · exact absurd (Subsingleton.elim _ _) hA
    · exact h
  obtain ⟨R, Rb, s, R', Rb', A, b, e1, e2, e3, eR, eRb, -, mR, -, mb, eA, eb, iA, sA, uA, dA, ib, sb, ub⟩ :=
    example_copies hr hA hb fp
  set opt := SLIP_create_default_options true with hopt
  have hT : TolOk (opt.map fun o => { o with check := true }) := fun _ => ⟨_, rfl⟩
  have hO : AmdOk O (opt.map fun o => { o with check := true }) n := fun h => by cases h
  have hrun : example1 fp O nc rand n = (do
      let (e, x) ← SLIP_backslash fp O nc true (some none) .fp64 (some A) (some b)
        (opt.map fun o => { o with check := true })
      if e ≠ .ok then pure none else pure x.join) := by
    unfold example1
    simp only [e1, ok_bind, e2, e3, ← eR, ← eRb, ← hopt, eA, eb, ne_eq, not_true_eq_false, if_false]
    rfl
  rw [hrun, ← mR, ← mb, ← uA, ← ub]
  rw [← uA] at dA
  constructor
  · intro h0
    rw [C35_backslash_singular hO iA ib.kind ib.type hT (by by_contra h; exact dA.2 h h0) (by simp)]
    rfl
  · intro h0
    obtain ⟨x, y, he, ex, h1, h2, h3, h4, -, h6⟩ := C35_backslash_fp64 (fp := fp) (nc := nc) (X := none)
      hO iA ib hn sA sb hT (dA.1 h0)
    refine ⟨x, y, he, ?_, h1, h2, h3, h4, fun i => by simpa using h6 i 0⟩
    rw [ex]
    rfl

end

/-! ### A concrete case -/

/-- `C37_example` applies: with the numbers 0, 1, 2, ... the system `[1 2; 4 5] x = [0; 3]` is
nonsingular. -/
example (fp : Fp) (O : Orderings) (nc : Int → Int → ℚ → Bool) :
    ∃ (x : Matrix (Fin 2) (Fin 1) ℚ) (y : Mat),
      drawnMatrix 2 (fun k => (k : ℤ) % 1000) * x = drawnRhs 2 (fun k => (k : ℤ) % 1000) ∧
      example1 fp O nc (fun k => (k : ℤ) % 1000) 2 = .ok (some y) := by
  have hd : (drawnMatrix 2 (fun k => (k : ℤ) % 1000)).det ≠ 0 := by
    rw [Matrix.det_fin_two]
    simp [drawnMatrix]
    norm_num
  obtain ⟨x, y, h1, h2, -⟩ := (C37_example (fp := fp) (O := O) (nc := nc) (n := 2)
    (rand := fun k => (k : ℤ) % 1000) (fun k => by omega)
    (fun h => hd (by rw [h]; simp))
    (fun h => by
      have := congrFun (congrFun h 1) 0
      simp [drawnRhs] at this)).2 hd
  exact ⟨x, y, h1, h2⟩

end Slip
