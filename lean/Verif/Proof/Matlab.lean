import Verif.SpecMatlab
import Verif.Proof.Workflow

/-!
# The MATLAB interface: reading the arguments
-/

namespace Slip

@[simp] theorem Mex.lift_ok (a : α) : Mex.lift (.ok a : C α) = (pure a : Mex α) := rfl

theorem Mex.pure_bind' (a : α) (f : α → Mex β) : ((pure a : Mex α) >>= f) = f a := rfl

theorem Mex.fail_bind (s : String) (f : α → Mex β) : ((Mex.fail s : Mex α) >>= f) = Mex.fail s := rfl

/-! ## Which doubles are int64 -/

/-- The number is an integer that fits into 64 bits. -/
def IsI64 (v : ℚ) : Prop := v = ((roundInt 1 v : ℤ) : ℚ) ∧ int64Min ≤ roundInt 1 v ∧ roundInt 1 v ≤ int64Max

instance (v : ℚ) : Decidable (IsI64 v) := by unfold IsI64; infer_instance

theorem trunc_abs (v : ℚ) : |((roundInt 1 v : ℤ) : ℚ)| ≤ |v| := by
  unfold roundInt
  rw [if_pos rfl]
  split
  · rename_i h
    rw [abs_of_nonneg h, abs_of_nonneg (by exact_mod_cast Int.floor_nonneg.2 h)]
    exact Int.floor_le v
  · rename_i h
    have h : v < 0 := not_le.1 h
    have h' : ⌈v⌉ ≤ 0 := Int.ceil_le.2 (by push_cast; exact h.le)
    rw [abs_of_neg h, abs_of_nonpos (by exact_mod_cast h')]
    linarith [Int.le_ceil v]

theorem isFloat_trunc {p : ℕ} {v : ℚ} (h : IsFloat p v) : IsFloat p ((roundInt 1 v : ℤ) : ℚ) := by
  obtain ⟨m, e, hm, rfl⟩ := h
  by_cases he : 0 ≤ e
  · obtain ⟨e, rfl⟩ := Int.eq_ofNat_of_zero_le he
    have : ((m : ℚ) * (2 : ℚ) ^ ((e : ℕ) : ℤ)) = ((m * 2 ^ e : ℤ) : ℚ) := by push_cast; rw [zpow_natCast]
    rw [this, roundInt_int]
    exact ⟨m, e, hm, by push_cast; rw [zpow_natCast]⟩
  · refine ⟨_, 0, ?_, by rw [zpow_zero, mul_one]⟩
    have h1 := trunc_abs ((m : ℚ) * (2 : ℚ) ^ e)
    have h2 : |(m : ℚ) * (2 : ℚ) ^ e| ≤ |(m : ℚ)| := by
      rw [abs_mul, abs_of_pos (show (0 : ℚ) < 2 ^ e from zpow_pos (by norm_num) e)]
      have : (2 : ℚ) ^ e ≤ 1 := zpow_le_one_of_nonpos₀ (by norm_num) (by omega)
      nlinarith [abs_nonneg (m : ℚ)]
    have h3 : ((|roundInt 1 ((m : ℚ) * (2 : ℚ) ^ e)| : ℤ) : ℚ) < ((2 ^ p : ℤ) : ℚ) := by
      rw [Int.cast_abs]
      refine lt_of_le_of_lt (h1.trans h2) ?_
      exact_mod_cast hm
    exact_mod_cast h3

theorem trunc_range {v : ℚ} (h1 : ¬ v < -2 ^ 63) (h2 : v < 2 ^ 63) :
    int64Min ≤ roundInt 1 v ∧ roundInt 1 v ≤ int64Max := by
  unfold roundInt int64Min int64Max
  rw [if_pos rfl]
  have h1 := not_lt.1 h1
  split
  · rename_i h
    have := Int.floor_nonneg.2 h
    refine ⟨by omega, ?_⟩
    have : ⌊v⌋ < 2 ^ 63 := Int.floor_lt.2 (by push_cast; exact h2)
    omega
  · rename_i h
    have hc : ⌈v⌉ ≤ 0 := Int.ceil_le.2 (by push_cast; exact (not_le.1 h).le)
    refine ⟨?_, by omega⟩
    have : ((-2 ^ 63 : ℤ) : ℚ) ≤ (⌈v⌉ : ℚ) := by push_cast; exact h1.trans (Int.le_ceil v)
    exact_mod_cast this

/-- One step of `slip_mex_check_for_inf`. -/
theorem checkStep {fp : Fp} (hfp : Int64ToDExact fp) {v : ℚ} (hf : IsFloat 53 v) (hv : v ≠ 2 ^ 63) :
    (if v < -2 ^ 63 ∨ v > 2 ^ 63 then (pure false : Mex Bool)
      else
        let xi := roundInt 1 v
        if ¬ (int64Min ≤ xi ∧ xi ≤ int64Max) then Mex.lift (.error .ub)
        else pure (decide (fp.int64ToD xi = .fin v))) = pure (decide (IsI64 v)) := by
  have key : ∀ z : ℤ, v = z → int64Min ≤ z → z ≤ int64Max → ¬ (v < -2 ^ 63 ∨ v > 2 ^ 63) := by
    rintro z rfl h1 h2
    unfold int64Min at h1
    unfold int64Max at h2
    have h1' : ((-2 ^ 63 : ℤ) : ℚ) ≤ (z : ℚ) := by exact_mod_cast h1
    have h2' : (z : ℚ) ≤ ((2 ^ 63 - 1 : ℤ) : ℚ) := by exact_mod_cast h2
    push_cast at h1' h2'
    rintro (h | h) <;> linarith
  split
  · rename_i h
    rw [decide_eq_false]
    rintro ⟨h1, h2, h3⟩
    exact key _ h1 h2 h3 h
  · rename_i h
    rw [not_or, not_lt, not_lt] at h
    have hlt : v < 2 ^ 63 := lt_of_le_of_ne h.2 hv
    have hr := trunc_range (not_lt.2 h.1) hlt
    simp only
    rw [if_neg (not_not.2 hr), hfp _ (isFloat_trunc hf)]
    congr 1
    rw [decide_eq_decide]
    constructor
    · intro e
      exact ⟨(Dbl.fin.inj e).symm, hr⟩
    · rintro ⟨e, -⟩
      rw [← e]

theorem check_for_inf_spec {fp : Fp} (hfp : Int64ToDExact fp) {x : Arr Dbl} {v : ℕ → ℚ} {N : ℕ}
    (h : ∀ k : ℕ, k < N → MxExact (get x k) (v k)) :
    slip_mex_check_for_inf fp x N = pure (decide (∀ k, k < N → IsI64 (v k))) := by
  have key : ∀ (l : List ℕ) (b : Bool), (∀ k ∈ l, k < N) →
      l.foldlM (fun (isInt : Bool) (k : ℕ) => do
        let xk ← Mex.lift (rd x k)
        match xk with
        | .posInf | .negInf => Mex.fail "A must not have any Inf values"
        | .nan => Mex.fail "A must not have any NaN values"
        | .fin v =>
          if isInt then
            if v < -2 ^ 63 ∨ v > 2 ^ 63 then pure false
            else
              let xi := roundInt 1 v
              if ¬ (int64Min ≤ xi ∧ xi ≤ int64Max) then Mex.lift (.error .ub)
              else pure (decide (fp.int64ToD xi = .fin v))
          else pure false) b = (pure (b && decide (∀ k ∈ l, IsI64 (v k))) : Mex Bool) := by
    intro l
    induction l with
    | nil => intro b _; simp
    | cons k l ih =>
      intro b hl
      obtain ⟨g1, g2, -, g4⟩ := h k (hl k (by simp))
      rw [List.foldlM_cons, rd_eq g1, Mex.lift_ok, Mex.pure_bind']
      simp only
      cases b with
      | false =>
        simp only [Bool.false_eq_true, if_false]
        rw [Mex.pure_bind', ih _ fun k hk => hl k (by simp [hk])]
        simp
      | true =>
        simp only [if_true]
        have := checkStep hfp g2 g4
        simp only at this
        rw [this, Mex.pure_bind', ih _ fun k hk => hl k (by simp [hk])]
        simp
  unfold slip_mex_check_for_inf
  rw [Int.toNat_natCast]
  refine (key (List.range N) true (fun k hk => List.mem_range.1 hk)).trans ?_
  simp

theorem castInt64_spec {x : Arr Dbl} {v : ℕ → ℚ} {N : ℕ}
    (h : ∀ k : ℕ, k < N → get x k = some (.fin (v k))) (hi : ∀ k, k < N → IsI64 (v k)) :
    ∃ y, castInt64 x N = .ok y ∧ ∀ k : ℕ, k < N → get y k = some (roundInt 1 (v k)) := by
  have := wp_forRange (f := fun k y => do
      let v ← rd x k
      match v with
      | .fin v =>
        let t := roundInt 1 v
        if int64Min ≤ t ∧ t ≤ int64Max then wr y k t else .error .ub
      | _ => .error .ub) (E := noFail)
    (fun p (y : Arr ℤ) => y.length = N ∧ ∀ k : ℕ, (k : ℤ) < p → get y k = some (roundInt 1 (v k)))
    (lo := 0) (hi := (N : ℤ)) (s := malloc Int N) (by omega)
    ⟨by simp [malloc], fun k hk => by omega⟩ (fun p y h0 h1 hI => by
      obtain ⟨p, rfl⟩ := Int.eq_ofNat_of_zero_le h0
      have hp : p < N := by omega
      obtain ⟨hl, hd⟩ := hI
      have hb : (p : ℤ) < (y.length : ℤ) := by rw [hl]; exact h1
      rw [rd_eq (h p hp), ok_bind]
      simp only
      rw [if_pos (hi p hp).2, wr_eq (by omega) hb, wp_ok]
      refine ⟨by simpa using hl, fun k hk => ?_⟩
      by_cases e : k = p
      · subst e
        rw [get_upd_self (by omega) hb]
      · rw [get_upd_ne (by omega) hb _ (by exact_mod_cast e)]
        exact hd k (by omega))
  obtain ⟨y, ey, -, hy⟩ := wp_noFail this
  exact ⟨y, ey, fun k hk => hy k (by exact_mod_cast hk)⟩

/-! ## A -/

/-- The number of a `double`. -/
abbrev dnum (d : Option Dbl) : Option ℚ := d.bind Dbl.rat

theorem MxExact.num {d : Option Dbl} {v : ℚ} (h : MxExact d v) : dnum d = some v := by
  rw [h.1]; rfl

/-- The object made of a sparse array of MATLAB, whatever the type of its values. -/
theorem mxSparse_valid {n : ℕ} {A : MxSparse} (h : A.Ok n) :
    ∃ N : ℕ, get A.jc n = some (N : ℤ) ∧ (∀ k : ℕ, k < N → ∃ v, MxExact (get A.pr k) v) ∧
      ∀ M : Mat, Header n n M → M.kind = .csc → M.p = some A.jc → M.i = some A.ir →
        (∀ k : ℕ, k < N → M.val k = dnum (get A.pr k)) →
        ValidCsc n n M ∧ M.toMatrix n n = A.matrix n ∧ SLIP_matrix_nnz true (some M) = .ok (N : ℤ) := by
  -- an object with the doubles as values
  let D : Mat := ⟨A.m, A.n, 0, 0, .csc, .fp64, some A.jc, true, some A.ir, true, none, true,
    some (.fp64 A.pr), true, 1⟩
  have hDval : ∀ t, D.val t = dnum (get A.pr t) := fun t => rfl
  have hD : ValidCsc n n D := by
    refine ⟨⟨h.rows, h.cols, ⟨_, rfl, rfl⟩, by norm_num [D]⟩, rfl, h.p0, fun j hj => ?_, by simp [D]⟩
    obtain ⟨a, b, ha, hb, hab, he, hd⟩ := h.col j hj
    refine ⟨a, b, ha, hb, hab, fun t h1 h2 => ⟨(he t h1 h2).1, ?_⟩, hd⟩
    obtain ⟨v, hv⟩ := (he t h1 h2).2
    exact ⟨v, by rw [hDval, hv.num]⟩
  obtain ⟨N, r, c, v, hC, -, hN⟩ := hD.coo
  obtain ⟨-, -, hp⟩ := hC.shape.resolve_right (fun h => by cases h.1)
  have hbnd : ∀ j : ℕ, j < n → ∀ a b : ℤ, get A.jc j = some a → get A.jc ((j : ℤ) + 1) = some b →
      0 ≤ a ∧ b ≤ N := by
    intro j hj a b ha hb
    have e1 : get A.jc (j : ℤ) = some (colPtr N c j : ℤ) := hp j (by omega)
    have e2 : get A.jc ((j + 1 : ℕ) : ℤ) = some (colPtr N c (j + 1) : ℤ) := hp (j + 1) (by omega)
    push_cast at e2
    rw [e1] at ha
    rw [e2] at hb
    obtain rfl := Option.some.inj ha
    obtain rfl := Option.some.inj hb
    have := colPtr_le N c (j + 1)
    exact ⟨by omega, by exact_mod_cast this⟩
  refine ⟨N, hN, fun k hk => ?_, fun M hH hk hp' hi hv => ?_⟩
  · -- the column of entry k
    have hck := (hC.idx k hk).2.1
    obtain ⟨a, b, ha, hb, hab, he, -⟩ := h.col (c k) hck
    have hm := (hC.shape.resolve_right (fun h => by cases h.1)).2.1
    have e1 : get A.jc (c k : ℤ) = some (colPtr N c (c k) : ℤ) := hp (c k) (by omega)
    have e2 : get A.jc ((c k + 1 : ℕ) : ℤ) = some (colPtr N c (c k + 1) : ℤ) := hp (c k + 1) (by omega)
    push_cast at e2
    rw [e1] at ha
    rw [e2] at hb
    obtain rfl := Option.some.inj ha
    obtain rfl := Option.some.inj hb
    refine (he k ?_ ?_).2
    · have : ¬ k < colPtr N c (c k) := fun hh => by
        have := (colPtr_lt hm hk).2 hh
        omega
      exact_mod_cast not_lt.1 this
    · have := (colPtr_lt hm hk (j := c k + 1)).1 (by omega)
      exact_mod_cast this
  · have hval : ∀ j : ℕ, j < n → ∀ a b : ℤ, get A.jc j = some a → get A.jc ((j : ℤ) + 1) = some b →
        ∀ t, a ≤ t → t < b → M.val t = dnum (get A.pr t) := by
      intro j hj a b ha hb t h1 h2
      obtain ⟨h3, h4⟩ := hbnd j hj a b ha hb
      obtain ⟨t, rfl⟩ := Int.eq_ofNat_of_zero_le (h3.trans h1)
      exact hv t (by omega)
    refine ⟨⟨hH, hk, by rw [hp']; exact h.p0, fun j hj => ?_, by simp [hi]⟩, ?_, ?_⟩
    · obtain ⟨a, b, ha, hb, hab, he, hd⟩ := h.col j hj
      rw [hp', hi]
      refine ⟨a, b, ha, hb, hab, fun t h1 h2 => ⟨(he t h1 h2).1, ?_⟩, hd⟩
      obtain ⟨v, hv⟩ := (he t h1 h2).2
      exact ⟨v, by rw [hval j hj a b ha hb t h1 h2, hv.num]⟩
    · ext i j
      obtain ⟨a, b, ha, hb, -⟩ := h.col j j.2
      simp only [Mat.toMatrix, MxSparse.matrix, Matrix.of_apply, Mat.num, hk, hp', hi, deref]
      simp only [Option.getD_some, ha, hb]
      refine Finset.sum_congr rfl fun t ht => ?_
      rw [Finset.mem_Ico] at ht
      rw [hval j j.2 a b ha hb t ht.1 ht.2]
    · unfold SLIP_matrix_nnz
      simp only [Bool.not_true, Bool.false_eq_true, if_false, hk, hp', hH.cols]
      rw [if_neg (by omega)]
      exact rd_eq hN

theorem isFloat_zero (p : ℕ) : IsFloat p 0 := ⟨0, 0, by simp, by simp⟩

theorem isI64_zero : IsI64 0 := by
  refine ⟨?_, ?_⟩ <;> rw [roundInt_zero] <;> simp [int64Min, int64Max]

theorem copy_ok_csc {fp : Fp} {opt : Option Options} {n : ℕ} {A : MxSparse} {M : Mat}
    (hV : Valid n n M) (hm : M.toMatrix n n = A.matrix n)
    (hE : ExactConv n n opt M .mpz) (hK : KindOk n n M .csc .mpz) :
    ∃ A', (Mex.lift (SLIP_matrix_copy fp true (some none) .csc .mpz (some M) opt) >>= fun r => do
        mexOk r.1
        mexGet r.2 : Mex Mat) = pure A' ∧ IsCsc n A' ∧ A'.scale ≠ 0 ∧
      unscale (A'.matrix n) A'.scale = A.matrix n ∧ ((A.matrix n).det ≠ 0 ↔ (A'.matrix n).det ≠ 0) ∧
      Valid n n A' ∧ Owns A' := by
  obtain ⟨A', e, h1, h2, h3, h4, -⟩ := copy_to_csc (fp := fp) hV hE hK
  obtain ⟨A'', e2, -, -, hv, ho, -⟩ := C19_copy_exact (fp := fp) (Ch := some none) (by simp) (kind := .csc) hV rfl hE hK
  cases e.symm.trans e2
  refine ⟨A', ?_, h1, h2, by rw [h3, hm], by rw [← hm]; exact h4, hv, ho⟩
  rw [e]
  rfl

theorem mexGetA_full {fp : Fp} (hfp : Int64ToDExact fp) {opt : Option Options} (hopt : 93 ≤ optPrec opt)
    {n : ℕ} {A : MxSparse} (hA : A.Ok n) :
    ∃ A', mexGetA fp opt A = pure A' ∧ IsCsc n A' ∧ A'.scale ≠ 0 ∧
      unscale (A'.matrix n) A'.scale = A.matrix n ∧ ((A.matrix n).det ≠ 0 ↔ (A'.matrix n).det ≠ 0) ∧
      Valid n n A' ∧ Owns A' := by
  obtain ⟨N, hN, hx, hM⟩ := mxSparse_valid hA
  choose! v hv using hx
  have hchk := check_for_inf_spec hfp hv
  unfold mexGetA
  rw [hA.cols, hA.rows, rd_eq hN, Mex.lift_ok, Mex.pure_bind', if_neg (by simp), hchk, Mex.pure_bind']
  by_cases hI : ∀ k, k < N → IsI64 (v k)
  · rw [decide_eq_true hI]
    simp only [if_true]
    obtain ⟨y, ey, hy⟩ := castInt64_spec (fun k hk => (hv k hk).1) hI
    rw [ey, Mex.lift_ok, Mex.pure_bind']
    have ea : allocate .csc .int64 n n N true false = .ok
      ⟨n, n, max (N : ℤ) 1, 0, .csc, .int64, none, true, none, true, none, true, none, true, 1⟩ := rfl
    rw [ea, Mex.lift_ok, Mex.pure_bind', Mex.pure_bind']
    simp only
    obtain ⟨hV, hm, -⟩ := hM ⟨n, n, max (N : ℤ) 1, 0, .csc, .int64, some A.jc, true, some A.ir, true, none,
      true, some (.int64 y), false, 1⟩ ⟨rfl, rfl, ⟨_, rfl, rfl⟩, by norm_num⟩ rfl rfl rfl (fun k hk => by
        rw [(hv k hk).num]
        show (get y k).map _ = _
        rw [hy k hk]
        simp only [Option.map_some]
        rw [← (hI k hk).1])
    exact copy_ok_csc (Or.inl hV) hm trivial
      ⟨fun h => (by cases h), fun h => (by cases h), fun h => (by cases h)⟩
  · rw [decide_eq_false hI]
    simp only [Bool.false_eq_true, if_false]
    have ea : allocate .csc .fp64 n n N true false = .ok
      ⟨n, n, max (N : ℤ) 1, 0, .csc, .fp64, none, true, none, true, none, true, none, true, 1⟩ := rfl
    rw [ea, Mex.lift_ok, Mex.pure_bind', Mex.pure_bind']
    simp only
    generalize hMd : (⟨n, n, max (N : ℤ) 1, 0, .csc, .fp64, some A.jc, true, some A.ir, true, none,
      true, some (.fp64 A.pr), true, 1⟩ : Mat) = M
    obtain ⟨hV, hm, -⟩ := hM M (by subst hMd; exact ⟨rfl, rfl, ⟨_, rfl, rfl⟩, by norm_num⟩)
      (by subst hMd; rfl) (by subst hMd; rfl) (by subst hMd; rfl) (fun k hk => by subst hMd; rfl)
    refine copy_ok_csc (Or.inl hV) hm ?_ ⟨fun h => (by subst hMd; cases h), fun h => (by cases h),
      fun h => (by subst hMd; cases h)⟩
    have hE : 93 ≤ optPrec opt ∧
      (∀ i j, i < n → j < n → IsFloat 53 (M.num i j) ∧ ∃ z : ℤ, 10 ^ 17 * M.num i j = z) ∧
      ∃ i j, i < n ∧ j < n ∧ M.num i j ≠ 0 := by
      obtain ⟨N', r, c, w, hC, hR, hN'⟩ := hV.coo
      have hNN : N' = N := by
        have : get A.jc n = some (N' : ℤ) := by subst hMd; exact hN'
        rw [hN] at this
        exact_mod_cast (Option.some.inj this).symm
      subst hNN
      have hw : ∀ k, k < N' → w k = v k := by
        intro k hk
        have h1 := (hC.idx k hk).2.2.2
        have h2 : M.val k = dnum (get A.pr k) := by subst hMd; rfl
        rw [h2, (hv k hk).num] at h1
        exact (Option.some.inj h1).symm
      refine ⟨hopt, fun i j _ hj => ?_, ?_⟩
      · rw [hC.num i j hj]
        by_cases hk : ∃ k, k < N' ∧ r k = i ∧ c k = j
        · obtain ⟨k, hk, rfl, rfl⟩ := hk
          rw [cooNum_at hR hk, hw k hk]
          exact ⟨(hv k hk).2.1, (hv k hk).2.2.1⟩
        · rw [cooNum_none fun k hk' h => hk ⟨k, hk', h⟩]
          exact ⟨isFloat_zero _, 0, by simp⟩
      · push Not at hI
        obtain ⟨k, hk, hnI⟩ := hI
        refine ⟨r k, c k, (hC.idx k hk).1, (hC.idx k hk).2.1, ?_⟩
        rw [hC.num _ _ (hC.idx k hk).2.1, cooNum_at hR hk, hw k hk]
        intro h0
        rw [h0] at hnI
        exact hnI isI64_zero
    subst hMd
    exact hE

theorem mexGetA_spec {fp : Fp} (hfp : Int64ToDExact fp) {opt : Option Options} (hopt : 93 ≤ optPrec opt)
    {n : ℕ} {A : MxSparse} (hA : A.Ok n) :
    ∃ A', mexGetA fp opt A = pure A' ∧ IsCsc n A' ∧ A'.scale ≠ 0 ∧
      unscale (A'.matrix n) A'.scale = A.matrix n ∧ ((A.matrix n).det ≠ 0 ↔ (A'.matrix n).det ≠ 0) := by
  obtain ⟨A', h1, h2, h3, h4, h5, -⟩ := mexGetA_full hfp hopt hA
  exact ⟨A', h1, h2, h3, h4, h5⟩

/-! ## b -/

theorem copy_ok_dense {fp : Fp} {opt : Option Options} {n k : ℕ} {B : Matrix (Fin n) (Fin k) ℚ} {M : Mat}
    (hV : Valid n k M) (hm : M.toMatrix n k = B)
    (hE : ExactConv n k opt M .mpz) (hK : KindOk n k M .dense .mpz) :
    ∃ b', (Mex.lift (SLIP_matrix_copy fp true (some none) .dense .mpz (some M) opt) >>= fun r => do
        mexOk r.1
        mexGet r.2 : Mex Mat) = pure b' ∧ IsDenseZ n k b' ∧ b'.scale ≠ 0 ∧
      unscale (b'.denseZ n k) b'.scale = B ∧ Valid n k b' ∧ Owns b' := by
  obtain ⟨A', e, h1, h2, h3, -⟩ := copy_to_dense (fp := fp) hV hE hK
  obtain ⟨A'', e2, -, -, hv, ho, -⟩ := C19_copy_exact (fp := fp) (Ch := some none) (by simp) (kind := .dense) hV rfl hE hK
  cases e.symm.trans e2
  refine ⟨A', ?_, h1, h2, by rw [h3, hm], hv, ho⟩
  rw [e]
  rfl

theorem mexGetB_full {fp : Fp} (hfp : Int64ToDExact fp) {opt : Option Options} (hopt : 93 ≤ optPrec opt)
    {n k : ℕ} {b : MxFull} (hb : b.Ok n k) :
    ∃ b', mexGetB fp opt n b = pure b' ∧ IsDenseZ n k b' ∧ b'.scale ≠ 0 ∧
      unscale (b'.denseZ n k) b'.scale = b.matrix n k ∧ Valid n k b' ∧ Owns b' := by
  have hx : ∀ t : ℕ, t < n * k → ∃ v, MxExact (get b.pr t) v := by
    intro t ht
    obtain ⟨i, hi, j, hj, rfl⟩ := ix2_surj ht
    push_cast
    exact hb.entry i hi j hj
  choose! v hv using hx
  have hchk := check_for_inf_spec hfp hv
  have hcast : ((n * k : ℕ) : ℤ) = (k : ℤ) * n := by push_cast; ring
  have hcast' : ((n * k : ℕ) : ℤ) = (n : ℤ) * k := by push_cast; ring
  have hmat : ∀ M : Mat, M.kind = .dense → M.m = n → (∀ t : ℕ, t < n * k → M.val t = dnum (get b.pr t)) →
      M.toMatrix n k = b.matrix n k := by
    intro M hk hr hval
    ext i j
    simp only [Mat.toMatrix, MxFull.matrix, Matrix.of_apply, Mat.num, hk, hr]
    have := hval _ (ix2_lt i.2 j.2)
    push_cast at this
    rw [this]
  have hval' : ∀ M : Mat, Header n k M → M.kind = .dense →
      (∀ t : ℕ, t < n * k → M.val t = dnum (get b.pr t)) → Valid n k M := by
    intro M hH hk hval
    refine Or.inr (Or.inr ⟨hH, hk, fun i hi j hj => ?_⟩)
    have := hval _ (ix2_lt hi hj)
    rw [(hv _ (ix2_lt hi hj)).num] at this
    push_cast at this
    exact ⟨_, this⟩
  unfold mexGetB
  rw [hb.rows, hb.cols, if_neg (by simp), ← hcast, hchk, Mex.pure_bind']
  by_cases hI : ∀ t, t < n * k → IsI64 (v t)
  · rw [decide_eq_true hI]
    simp only [if_true]
    obtain ⟨y, ey, hy⟩ := castInt64_spec (fun k hk => (hv k hk).1) hI
    have ea : allocate .dense .int64 n k ((n : ℤ) * k) true false = .ok
      ⟨n, k, max ((n : ℤ) * k) 1, 0, .dense, .int64, none, true, none, true, none, true, none, true, 1⟩ := rfl
    rw [ea, Mex.lift_ok, Mex.pure_bind', ← hcast', ey, Mex.lift_ok, Mex.pure_bind', Mex.pure_bind']
    simp only
    have hv' : ∀ t : ℕ, t < n * k → (⟨n, k, max ((n : ℤ) * k) 1, 0, .dense, .int64, none, true, none, true,
      none, true, some (.int64 y), true, 1⟩ : Mat).val t = dnum (get b.pr t) := fun t ht => by
        rw [(hv t ht).num]
        show (get y t).map _ = _
        rw [hy t ht]
        simp only [Option.map_some]
        rw [← (hI t ht).1]
    rw [hcast']
    exact copy_ok_dense (hval' _ ⟨rfl, rfl, ⟨_, rfl, rfl⟩, by norm_num⟩ rfl hv') (hmat _ rfl rfl hv') trivial
      ⟨fun h => (by cases h), fun h => (by cases h), fun _ h => (by cases h)⟩
  · rw [decide_eq_false hI]
    simp only [Bool.false_eq_true, if_false]
    have ea : allocate .dense .fp64 n k ((n : ℤ) * k) true false = .ok
      ⟨n, k, max ((n : ℤ) * k) 1, 0, .dense, .fp64, none, true, none, true, none, true, none, true, 1⟩ := rfl
    rw [ea, Mex.lift_ok, Mex.pure_bind', Mex.pure_bind']
    simp only
    generalize hMd : (⟨n, k, max ((n : ℤ) * k) 1, 0, .dense, .fp64, none, true, none, true, none,
      true, some (.fp64 b.pr), true, 1⟩ : Mat) = M
    have hMv : ∀ t : ℕ, t < n * k → M.val t = dnum (get b.pr t) := fun t _ => by subst hMd; rfl
    have hMk : M.kind = .dense := by subst hMd; rfl
    have hMm : M.m = n := by subst hMd; rfl
    have hnum : ∀ i j, i < n → j < k → M.num i j = v (i + j * n) := by
      intro i j hi hj
      unfold Mat.num
      simp only [hMk, hMm]
      have := hMv _ (ix2_lt hi hj)
      rw [(hv _ (ix2_lt hi hj)).num] at this
      push_cast at this
      rw [this]
      rfl
    refine copy_ok_dense (hval' M (by subst hMd; exact ⟨rfl, rfl, ⟨_, rfl, rfl⟩, by norm_num⟩) hMk hMv)
      (hmat M hMk hMm hMv) ?_
      ⟨fun h => (by subst hMd; cases h), fun h => (by cases h), fun _ h => (by cases h)⟩
    have hE : 93 ≤ optPrec opt ∧
      (∀ i j, i < n → j < k → IsFloat 53 (M.num i j) ∧ ∃ z : ℤ, 10 ^ 17 * M.num i j = z) ∧
      ∃ i j, i < n ∧ j < k ∧ M.num i j ≠ 0 := by
      refine ⟨hopt, fun i j hi hj => ?_, ?_⟩
      · rw [hnum i j hi hj]
        have := hv _ (ix2_lt hi hj)
        exact ⟨this.2.1, this.2.2.1⟩
      · push Not at hI
        obtain ⟨t, ht, hnI⟩ := hI
        obtain ⟨i, hi, j, hj, rfl⟩ := ix2_surj ht
        refine ⟨i, j, hi, hj, ?_⟩
        rw [hnum i j hi hj]
        intro h0
        rw [h0] at hnI
        exact hnI isI64_zero
    subst hMd
    exact hE

theorem mexGetB_spec {fp : Fp} (hfp : Int64ToDExact fp) {opt : Option Options} (hopt : 93 ≤ optPrec opt)
    {n k : ℕ} {b : MxFull} (hb : b.Ok n k) :
    ∃ b', mexGetB fp opt n b = pure b' ∧ IsDenseZ n k b' ∧ b'.scale ≠ 0 ∧
      unscale (b'.denseZ n k) b'.scale = b.matrix n k := by
  obtain ⟨b', h1, h2, h3, h4, -⟩ := mexGetB_full hfp hopt hb
  exact ⟨b', h1, h2, h3, h4⟩

end Slip
