import Verif.Proof.Cast

/-!
# `SLIP_matrix_copy`, the nine combinations of kinds
-/

namespace Slip

variable {fp : Fp} {opt : Option Options} {m n N : ℕ} {r c : ℕ → ℕ} {v : ℕ → ℚ} {A : Mat} {W : VC}

theorem Coo.x (h : Coo m n N r c v A) : ∃ x, A.x = some x ∧ x.ty = A.type ∧
    ∀ k : ℕ, k < N → x.val A.scale k = some (v k) := by
  obtain ⟨x, hx, ht⟩ := h.typed
  refine ⟨x, hx, ht, fun k hk => ?_⟩
  have := (h.idx k hk).2.2.2
  unfold Mat.val at this
  rw [hx] at this
  exact this

theorem Coo.nnz (h : Coo m n N r c v A) : SLIP_matrix_nnz true (some A) = .ok (N : ℤ) := by
  unfold SLIP_matrix_nnz
  rcases h.shape with ⟨hk, hm, hp⟩ | ⟨hk, hz, -⟩
  · have e := hp n le_rfl
    rw [colPtr_all fun k hk => (h.idx k hk).2.1] at e
    simp only [Bool.not_true, Bool.false_eq_true, if_false, hk]
    cases hpp : A.p with
    | none =>
      rw [hpp] at e
      simp only [deref, Option.getD_none] at e
      have := get_bounds e
      simp at this
      omega
    | some p =>
      rw [hpp] at e
      simp only [h.cols]
      rw [if_neg (by omega)]
      exact rd_eq e
  · simp [hk, hz]; rfl

/-- The values of a matrix object with a given values array. -/
theorem val_of {C : Mat} {x : Vals} (h : C.x = some x) (k : ℤ) : C.val k = x.val C.scale k := by
  unfold Mat.val; rw [h]; rfl

/-! ## to CSC -/

theorem copyCscCsc_spec (h : Coo m n N r c v A) (hk : A.kind = .csc) (hE : CastOk opt A.type W.ty N v) :
    ∃ C, copyCscCsc fp opt W.ty A N = .ok C ∧ Coo m n N r c v C ∧ C.kind = .csc ∧ C.type = W.ty ∧
      Owns C := by
  obtain ⟨x, hAx, hty, hx⟩ := h.x
  obtain ⟨-, hm, hp⟩ : _ ∧ _ ∧ _ := h.shape.resolve_right (by rw [hk]; simp)
  obtain ⟨C0, a, e0, hCm, hCn, hCk, hCt, hCs, hO, hlp, hli, hCx, hu⟩ :=
    allocate_csc (W := W) (m := m) (n := n) (nz := (N : ℤ))
  obtain ⟨p', ep, -, gp⟩ := copyInts_spec (N := n + 1) (dst := deref C0.p) (src := deref A.p)
    (v := fun j => (colPtr N c j : ℤ)) (by omega) (fun k hk => hp k (by omega))
  obtain ⟨i', ei, -, gi⟩ := copyInts_spec (N := N) (dst := deref C0.i) (src := deref A.i)
    (v := fun k => (r k : ℤ)) (by omega) (fun k hk => (h.idx k hk).2.2.1)
  obtain ⟨y, s', ey, hyt, hs', gy⟩ := cast_exact (fp := fp) (opt := opt) (W := W) (y0 := a) h.scale hx
    (fun k hk => by obtain ⟨u, hu, -⟩ := hu 1 k (by omega); exact ⟨u, hu⟩) (by rw [hty]; exact hE)
  refine ⟨{ C0 with p := some p', i := some i', x := some y, scale := s' }, ?_, ?_, hCk, hCt, ?_⟩
  · unfold copyCscCsc
    rw [h.rows, h.cols, e0]
    simp only [ok_bind]
    rw [show ((n : ℤ) + 1) = ((n + 1 : ℕ) : ℤ) by push_cast; rfl, ep]
    simp only [ok_bind, ei]
    rw [hCx, hAx, hCs, ey]
    rfl
  · refine ⟨⟨hCm, hCn, ⟨y, rfl, by rw [hyt]; exact hCt.symm⟩, hs'⟩, fun k hk => ?_, Or.inl ⟨hCk, hm, ?_⟩, fun _ => by simp⟩
    · obtain ⟨h1, h2, -, -⟩ := h.idx k hk
      exact ⟨h1, h2, gi k hk, gy k hk⟩
    · intro j hj
      exact gp j (by omega)
  · exact ⟨hO.notShallow, by simp [hCk], by simp [hCk], hO.j, rfl⟩

theorem copyTripletCsc_spec (h : Coo m n N r c v A) (hk : A.kind = .triplet)
    (hE : CastOk opt A.type W.ty N v) (hz : A.type = .mpz → W.ty = .mpz → A.scale = 1)
    (hR : W.ty = .mpfr → ∀ k, k < N → roundPrec (optPrec opt) (optRound opt) (v k) = v k) :
    ∃ C, copyTripletCsc fp opt W.ty A N = .ok C ∧
      (∃ r' c' v', Coo m n N r' c' v' C ∧
        ∀ k, k < N → r' (cscPos N c k) = r k ∧ c' (cscPos N c k) = c k ∧ v' (cscPos N c k) = v k) ∧
      C.kind = .csc ∧ C.type = W.ty ∧ Owns C := by
  obtain ⟨x, hAx, hty, hx⟩ := h.x
  obtain ⟨-, hnz, hj⟩ : _ ∧ _ ∧ _ := h.shape.resolve_left (by rw [hk]; simp)
  have hcn : ∀ k, k < N → c k < n := fun k hk => (h.idx k hk).2.1
  obtain ⟨Y, s', eY, hs', gY⟩ := castMatrix_exact (fp := fp) (opt := opt) (W := W) h.nnz hAx hty h.scale
    (fun k hk => (h.idx k hk).2.2.2) hE hz
  obtain ⟨C0, a, e0, hCm, hCn, hCk, hCt, hCs, hO, hlp, hli, hCx, hu⟩ :=
    allocate_csc (W := W) (m := m) (n := n) (nz := (N : ℤ))
  obtain ⟨Wk, eW, -, gW⟩ := countLoop_spec hcn hj
  obtain ⟨p', W', ep, -, -, gp, gW', -⟩ := slip_cumsum_spec (p := deref C0.p) (c := Wk)
    (cnt := fun j => (((Finset.range N).filter fun k => c k = j).card : ℤ)) (by omega) gW
  obtain ⟨y, hy⟩ := VC.elems gY
  obtain ⟨Cx', Ci', eb, gi, gx⟩ := buildCsc_spec (W.e opt) (W := W') (Ci := deref C0.i) (Cx := a) hcn
    (fun k hk => (h.idx k hk).2.2.1) hj (fun k hk => (hy k hk).1)
    (fun j hj => by rw [gW' j hj, sum_col_counts]) (by omega)
    (fun k hk => by obtain ⟨u, hu, -⟩ := hu 1 k (by omega); exact ⟨u, hu⟩)
  refine ⟨{ C0 with p := some p', i := some Ci', x := some (W.mk Cx'), scale := s' }, ?_, ?_, hCk, hCt, ?_⟩
  · unfold copyTripletCsc
    rw [eY]
    simp only [ok_bind, h.rows, h.cols, e0, eW, ep]
    rw [hCx, VC.withVals_eq, eb]
    rfl
  · obtain ⟨g, hg1, hg2⟩ := cscPos_surj (N := N) c
    refine ⟨fun t => r (g t), fun t => c (g t), fun t => v (g t),
      ⟨⟨hCm, hCn, ⟨_, rfl, by rw [VC.ty_mk]; exact hCt.symm⟩, hs'⟩, fun t ht => ?_, Or.inl ⟨hCk, ?_, ?_⟩, fun _ => by simp⟩,
      fun k hk => by dsimp only; rw [hg2 k hk]; exact ⟨rfl, rfl, rfl⟩⟩
    · obtain ⟨h1, h2⟩ := hg1 t ht
      obtain ⟨h3, h4, -, -⟩ := h.idx _ h1
      refine ⟨h3, h4, ?_, ?_⟩
      · have := gi _ h1
        rwa [h2] at this
      · show (W.mk Cx').val s' t = _
        have := gx _ h1
        rw [h2] at this
        rw [VC.val_mk, this]
        exact VC.set_dec W (hy _ h1).2 fun hm => hR hm _ h1
    · intro t t' htt ht'
      by_contra hlt
      obtain ⟨h1, h2⟩ := hg1 t (by omega)
      obtain ⟨h1', h2'⟩ := hg1 t' ht'
      have := cscPos_col (c := c) h1' h1 (by omega)
      omega
    · intro j hj
      show get p' j = _
      rw [gp j hj, sum_col_counts]
      congr 2
      unfold colPtr
      refine Finset.card_bij (fun k _ => cscPos N c k) ?_ ?_ ?_
      · intro k hk
        simp only [Finset.mem_filter, Finset.mem_range] at *
        rw [hg2 k hk.1]
        exact ⟨cscPos_lt hk.1, hk.2⟩
      · intro k hk k' hk' e
        simp only [Finset.mem_filter, Finset.mem_range] at *
        exact cscPos_inj hk.1 hk'.1 e
      · intro t ht
        simp only [Finset.mem_filter, Finset.mem_range] at ht
        obtain ⟨h1, h2⟩ := hg1 t ht.1
        exact ⟨g t, by simp only [Finset.mem_filter, Finset.mem_range]; exact ⟨h1, ht.2⟩, h2⟩
  · exact ⟨hO.notShallow, by simp [hCk], by simp [hCk], hO.j, rfl⟩

/-! ## to triplet -/

theorem copyCscTriplet_spec (h : Coo m n N r c v A) (hk : A.kind = .csc)
    (hE : CastOk opt A.type W.ty N v) :
    ∃ C, copyCscTriplet fp opt W.ty A N = .ok C ∧ Coo m n N r c v C ∧ C.kind = .triplet ∧
      C.type = W.ty ∧ Owns C := by
  obtain ⟨x, hAx, hty, hx⟩ := h.x
  obtain ⟨-, hm, hp⟩ : _ ∧ _ ∧ _ := h.shape.resolve_right (by rw [hk]; simp)
  obtain ⟨C0, a, e0, hCm, hCn, hCk, hCt, hCs, hO, hlj, hli, hCx, hu⟩ :=
    allocate_triplet (W := W) (m := m) (n := n) (nz := (N : ℤ))
  obtain ⟨i', ei, -, gi⟩ := copyInts_spec (N := N) (dst := deref C0.i) (src := deref A.i)
    (v := fun k => (r k : ℤ)) (by omega) (fun k hk => (h.idx k hk).2.2.1)
  obtain ⟨y, s', ey, hyt, hs', gy⟩ := cast_exact (fp := fp) (opt := opt) (W := W) (y0 := a) h.scale hx
    (fun k hk => by obtain ⟨u, hu, -⟩ := hu 1 k (by omega); exact ⟨u, hu⟩) (by rw [hty]; exact hE)
  obtain ⟨j', ej, gj⟩ := colIndexLoop_spec (Cj := deref C0.j) (fun k hk => (h.idx k hk).2.1) hm hp
    (by omega)
  refine ⟨{ C0 with i := some i', j := some j', x := some y, scale := s', nz := N }, ?_, ?_, hCk, hCt, ?_⟩
  · unfold copyCscTriplet
    rw [h.rows, h.cols, e0]
    simp only [ok_bind]
    rw [hCx, hAx, hCs, ey]
    simp only [ok_bind, ei, ej]
    rfl
  · refine ⟨⟨hCm, hCn, ⟨y, rfl, by rw [hyt]; exact hCt.symm⟩, hs'⟩, fun k hk => ?_, Or.inr ⟨hCk, rfl, ?_⟩,
      fun h => (by rw [show _ = Kind.triplet from hCk] at h; cases h)⟩
    · obtain ⟨h1, h2, -, -⟩ := h.idx k hk
      exact ⟨h1, h2, gi k hk, gy k hk⟩
    · intro k hk
      exact gj k hk
  · exact ⟨hO.notShallow, hO.p, by simp [hCk], by simp [hCk], rfl⟩

theorem copyTripletTriplet_spec (h : Coo m n N r c v A) (hk : A.kind = .triplet)
    (hE : CastOk opt A.type W.ty N v) :
    ∃ C, copyTripletTriplet fp opt W.ty A N = .ok C ∧ Coo m n N r c v C ∧ C.kind = .triplet ∧
      C.type = W.ty ∧ Owns C := by
  obtain ⟨x, hAx, hty, hx⟩ := h.x
  obtain ⟨-, hnz, hj⟩ : _ ∧ _ ∧ _ := h.shape.resolve_left (by rw [hk]; simp)
  obtain ⟨C0, a, e0, hCm, hCn, hCk, hCt, hCs, hO, hlj, hli, hCx, hu⟩ :=
    allocate_triplet (W := W) (m := m) (n := n) (nz := (N : ℤ))
  obtain ⟨i', ei, -, gi⟩ := copyInts_spec (N := N) (dst := deref C0.i) (src := deref A.i)
    (v := fun k => (r k : ℤ)) (by omega) (fun k hk => (h.idx k hk).2.2.1)
  obtain ⟨j', ej, -, gj⟩ := copyInts_spec (N := N) (dst := deref C0.j) (src := deref A.j)
    (v := fun k => (c k : ℤ)) (by omega) hj
  obtain ⟨y, s', ey, hyt, hs', gy⟩ := cast_exact (fp := fp) (opt := opt) (W := W) (y0 := a) h.scale hx
    (fun k hk => by obtain ⟨u, hu, -⟩ := hu 1 k (by omega); exact ⟨u, hu⟩) (by rw [hty]; exact hE)
  refine ⟨{ C0 with i := some i', j := some j', x := some y, scale := s', nz := N }, ?_, ?_, hCk, hCt, ?_⟩
  · unfold copyTripletTriplet
    rw [h.rows, h.cols, e0]
    simp only [ok_bind, ej, ei]
    rw [hCx, hAx, hCs, ey]
    rfl
  · refine ⟨⟨hCm, hCn, ⟨y, rfl, by rw [hyt]; exact hCt.symm⟩, hs'⟩, fun k hk => ?_, Or.inr ⟨hCk, rfl, ?_⟩,
      fun h => (by rw [show _ = Kind.triplet from hCk] at h; cases h)⟩
    · obtain ⟨h1, h2, -, -⟩ := h.idx k hk
      exact ⟨h1, h2, gi k hk, gy k hk⟩
    · intro k hk
      exact gj k hk
  · exact ⟨hO.notShallow, hO.p, by simp [hCk], by simp [hCk], rfl⟩

/-! ## dense -/

/-- `A` is the dense matrix `d`. -/
structure Dns (m n : ℕ) (d : ℕ → ℕ → ℚ) (A : Mat) : Prop extends Header m n A where
  kind : A.kind = .dense
  val : ∀ i j, i < m → j < n → A.val ((i + j * m : ℕ) : ℤ) = some (d i j)

variable {d : ℕ → ℕ → ℚ}

theorem ValidDense.dns (h : ValidDense m n A) : Dns m n A.num A := by
  refine ⟨h.toHeader, h.kind, fun i j hi hj => ?_⟩
  obtain ⟨x, hx⟩ := h.entry i hi j hj
  unfold Mat.num
  rw [h.kind]
  dsimp only
  rw [h.rows, hx]
  push_cast
  rw [hx]
  rfl

theorem Dns.num (h : Dns m n d A) {i j : ℕ} (hi : i < m) (hj : j < n) : A.num i j = d i j := by
  have := h.val i j hi hj
  unfold Mat.num
  rw [h.kind]
  dsimp only
  push_cast at this
  rw [h.rows, this]
  rfl

theorem Dns.valid (h : Dns m n d A) : ValidDense m n A := by
  refine ⟨h.toHeader, h.kind, fun i hi j hj => ⟨d i j, ?_⟩⟩
  have := h.val i j hi hj
  push_cast at this
  exact this

theorem Dns.nnz (h : Dns m n d A) : SLIP_matrix_nnz true (some A) = .ok ((m * n : ℕ) : ℤ) := by
  unfold SLIP_matrix_nnz
  simp only [Bool.not_true, Bool.false_eq_true, if_false, h.kind, h.rows, h.cols]
  rw [if_neg (by omega)]
  push_cast
  rfl

/-- The numbers of a dense matrix by linear index. -/
theorem Dns.lin (h : Dns m n d A) : ∀ t : ℕ, t < m * n → A.val t = some (d (t % m) (t / m)) := by
  intro t ht
  obtain ⟨i, hi, j, hj, rfl⟩ := ix2_surj ht
  rw [h.val i j hi hj, Nat.add_mul_mod_self_right, Nat.mod_eq_of_lt hi,
    Nat.add_mul_div_right _ _ (by omega), Nat.div_eq_of_lt hi, Nat.zero_add]

theorem ix2_mod {m i j : ℕ} (hi : i < m) : (i + j * m) % m = i ∧ (i + j * m) / m = j := by
  rw [Nat.add_mul_mod_self_right, Nat.mod_eq_of_lt hi,
    Nat.add_mul_div_right _ _ (by omega), Nat.div_eq_of_lt hi, Nat.zero_add]
  exact ⟨rfl, rfl⟩

theorem copyDenseDense_spec (h : Dns m n d A)
    (hE : CastOk opt A.type W.ty (m * n) fun t => d (t % m) (t / m)) :
    ∃ C, copyDenseDense fp opt W.ty A ((m * n : ℕ) : ℤ) = .ok C ∧ Dns m n d C ∧ C.type = W.ty ∧ Owns C := by
  obtain ⟨x, hAx, hty⟩ := h.typed
  have hx : ∀ k : ℕ, k < m * n → x.val A.scale k = some (d (k % m) (k / m)) := fun k hk => by
    rw [← val_of hAx]; exact h.lin k hk
  obtain ⟨C0, a, e0, hCm, hCn, hCk, hCt, hCs, hO, hCx, hu⟩ :=
    allocate_dense (W := W) (m := m) (n := n) (nz := ((m * n : ℕ) : ℤ))
  obtain ⟨y, s', ey, hyt, hs', gy⟩ := cast_exact (fp := fp) (opt := opt) (W := W) (y0 := a) h.scale hx
    (fun k hk => by obtain ⟨u, hu, -⟩ := hu 1 k hk; exact ⟨u, hu⟩) (by rw [hty]; exact hE)
  refine ⟨{ C0 with x := some y, scale := s' }, ?_, ?_, hCt, ?_⟩
  · unfold copyDenseDense
    rw [h.rows, h.cols, e0]
    simp only [ok_bind]
    rw [hCx, hAx, hCs, ey]
    rfl
  · refine ⟨⟨hCm, hCn, ⟨y, rfl, by rw [hyt]; exact hCt.symm⟩, hs'⟩, hCk, fun i j hi hj => ?_⟩
    have := gy _ (ix2_lt hi hj)
    rw [(ix2_mod hi).1, (ix2_mod hi).2] at this
    exact this
  · exact ⟨hO.notShallow, hO.p, hO.i, hO.j, rfl⟩

/-- A filled dense array. -/
theorem scat_dns {y : ℕ → W.El} {a C0x : Arr W.El} {s' : ℚ} {C0 : Mat}
    (hb : ∀ t, t < N → r t < m ∧ c t < n) (hd : NoRep N r c)
    (hS : Scat m r c (fun k => (W.e opt).set (y k)) C0x N a)
    (hy : ∀ k : ℕ, k < N → W.dec s' (y k) = some (v k))
    (hu : ∀ (s : ℚ) (k : ℕ), k < m * n → ∃ u, get C0x k = some u ∧
      (W.ty ≠ .mpfr → W.dec s u = some 0)) (hM : W.ty ≠ .mpfr) (hs' : s' ≠ 0)
    (hCm : C0.m = m) (hCn : C0.n = n) (hCk : C0.kind = .dense) (hCt : C0.type = W.ty) :
    Dns m n (cooNum N r c v) { C0 with x := some (W.mk a), scale := s' } := by
  refine ⟨⟨hCm, hCn, ⟨_, rfl, by rw [VC.ty_mk]; exact hCt.symm⟩, hs'⟩, hCk, fun i j hi hj => ?_⟩
  show (W.mk a).val s' _ = _
  rw [VC.val_mk]
  by_cases hex : ∃ k, k < N ∧ r k = i ∧ c k = j
  · obtain ⟨k, hk, rfl, rfl⟩ := hex
    rw [hS.2.1 k hk, cooNum_at hd hk]
    exact VC.set_dec W (hy k hk) fun h => absurd h hM
  · push Not at hex
    rw [cooNum_none fun k hk hh => hex k hk hh.1 hh.2, hS.2.2]
    · obtain ⟨u, hu1, hu2⟩ := hu s' _ (ix2_lt hi hj)
      rw [hu1]
      exact hu2 hM
    · intro t ht e
      obtain ⟨h1, h2⟩ := ix2_inj hi (hb t ht).1 (by exact_mod_cast e)
      exact hex t ht h1.symm h2.symm

theorem copyCscDense_spec (h : Coo m n N r c v A) (hd : NoRep N r c) (hk : A.kind = .csc)
    (hE : CastOk opt A.type W.ty N v) (hz : A.type = .mpz → W.ty = .mpz → A.scale = 1)
    (hM : W.ty ≠ .mpfr) :
    ∃ C, copyCscDense fp opt W.ty A N = .ok C ∧ Dns m n (cooNum N r c v) C ∧ C.type = W.ty ∧ Owns C := by
  obtain ⟨x, hAx, hty, hx⟩ := h.x
  obtain ⟨-, hm, hp⟩ : _ ∧ _ ∧ _ := h.shape.resolve_right (by rw [hk]; simp)
  obtain ⟨Y, s', eY, hs', gY⟩ := castMatrix_exact (fp := fp) (opt := opt) (W := W) h.nnz hAx hty h.scale
    (fun k hk => (h.idx k hk).2.2.2) hE hz
  obtain ⟨C0, a, e0, hCm, hCn, hCk, hCt, hCs, hO, hCx, hu⟩ :=
    allocate_dense (W := W) (m := m) (n := n) (nz := (N : ℤ))
  obtain ⟨y, hy⟩ := VC.elems gY
  obtain ⟨a', ea, hS⟩ := scatterCsc_spec (W.e opt) (Cx := a)
    (fun t ht => ⟨(h.idx t ht).1, (h.idx t ht).2.1⟩) hd hm hp
    (fun k hk => (h.idx k hk).2.2.1) (fun k hk => (hy k hk).1)
    (fun p hp => by obtain ⟨u, hu, -⟩ := hu 1 p hp; exact ⟨u, hu⟩)
  refine ⟨{ C0 with x := some (W.mk a'), scale := s' }, ?_, ?_, hCt, ?_⟩
  · unfold copyCscDense
    simp only [h.rows, h.cols, e0, ok_bind, eY]
    rw [hCx, VC.withVals_eq, ea]
    rfl
  · exact scat_dns (fun t ht => ⟨(h.idx t ht).1, (h.idx t ht).2.1⟩) hd hS (fun k hk => (hy k hk).2) hu hM
      hs' hCm hCn hCk hCt
  · exact ⟨hO.notShallow, hO.p, hO.i, hO.j, rfl⟩

theorem copyTripletDense_spec (h : Coo m n N r c v A) (hd : NoRep N r c) (hk : A.kind = .triplet)
    (hE : CastOk opt A.type W.ty N v) (hz : A.type = .mpz → W.ty = .mpz → A.scale = 1)
    (hM : W.ty ≠ .mpfr) :
    ∃ C, copyTripletDense fp opt W.ty A N = .ok C ∧ Dns m n (cooNum N r c v) C ∧ C.type = W.ty ∧
      Owns C := by
  obtain ⟨x, hAx, hty, hx⟩ := h.x
  obtain ⟨-, hnz, hj⟩ : _ ∧ _ ∧ _ := h.shape.resolve_left (by rw [hk]; simp)
  obtain ⟨Y, s', eY, hs', gY⟩ := castMatrix_exact (fp := fp) (opt := opt) (W := W) h.nnz hAx hty h.scale
    (fun k hk => (h.idx k hk).2.2.2) hE hz
  obtain ⟨C0, a, e0, hCm, hCn, hCk, hCt, hCs, hO, hCx, hu⟩ :=
    allocate_dense (W := W) (m := m) (n := n) (nz := (N : ℤ))
  obtain ⟨y, hy⟩ := VC.elems gY
  obtain ⟨a', ea, hS⟩ := scatterTriplet_spec (W.e opt) (Cx := a)
    (fun t ht => ⟨(h.idx t ht).1, (h.idx t ht).2.1⟩) hd
    (fun k hk => (h.idx k hk).2.2.1) hj (fun k hk => (hy k hk).1)
    (fun p hp => by obtain ⟨u, hu, -⟩ := hu 1 p hp; exact ⟨u, hu⟩)
  refine ⟨{ C0 with x := some (W.mk a'), scale := s' }, ?_, ?_, hCt, ?_⟩
  · unfold copyTripletDense
    simp only [h.rows, h.cols, e0, ok_bind, eY]
    rw [hCx, VC.withVals_eq, ea]
    rfl
  · exact scat_dns (fun t ht => ⟨(h.idx t ht).1, (h.idx t ht).2.1⟩) hd hS (fun k hk => (hy k hk).2) hu hM
      hs' hCm hCn hCk hCt
  · exact ⟨hO.notShallow, hO.p, hO.i, hO.j, rfl⟩

/-- Dense to CSC: the nonzeros, in column order. -/
theorem copyDenseCsc_spec (h : Dns m n d A)
    (hE : CastOk opt A.type W.ty (m * n) fun t => d (t % m) (t / m))
    (hz : A.type = .mpz → W.ty = .mpz → A.scale = 1)
    (hR : W.ty = .mpfr → ∀ t, t < m * n →
      roundPrec (optPrec opt) (optRound opt) (d (t % m) (t / m)) = d (t % m) (t / m)) :
    ∃ C N r c v, copyDenseCsc fp opt W.ty A ((m * n : ℕ) : ℤ) = .ok C ∧ Coo m n N r c v C ∧
      NoRep N r c ∧ (∀ k, k < N → v k ≠ 0) ∧ (∀ i j, i < m → j < n → cooNum N r c v i j = d i j) ∧
      N = ((Finset.range (m * n)).filter fun t => d (t % m) (t / m) ≠ 0).card ∧
      C.kind = .csc ∧ C.type = W.ty ∧ Owns C := by
  classical
  obtain ⟨x, hAx, hty⟩ := h.typed
  obtain ⟨Y, s', eY, hs', gY⟩ := castMatrix_exact (fp := fp) (opt := opt) (W := W) h.nnz hAx hty h.scale
    h.lin hE hz
  obtain ⟨y, hy⟩ := VC.elems gY
  let q : ℕ → Prop := fun t => t < m * n ∧ d (t % m) (t / m) ≠ 0
  have hq : ∀ t, t < m * n → (q t ↔ (W.e opt).isZero (y t) = false) := by
    intro t ht
    have := VC.zero_iff (opt := opt) W hs' (hy t ht).2
    simp only [q, ht, true_and, Ne]
    rw [← this]
    simp
  set N := Nat.count q (m * n) with hN
  obtain ⟨C0, a, e0, hCm, hCn, hCk, hCt, hCs, hO, hlp, hli, hCx, hu⟩ :=
    allocate_csc (W := W) (m := m) (n := n) (nz := (N : ℤ))
  obtain ⟨Cx', Cp', Ci', eb, gp, gix⟩ := buildFromDense_spec (W.e opt) (Cp := deref C0.p) (Ci := deref C0.i)
    (Cx := a) hq (fun k hk => (hy k hk).1) (by omega) (by omega)
    (fun k hk => by obtain ⟨u, hu, -⟩ := hu 1 k (by omega); exact ⟨u, hu⟩)
  have hqN : ∀ t, q t → Nat.count q t < N := fun t ht => Nat.count_strict_mono ht ht.1
  -- the linear index of entry `k`
  have hnth : ∀ k, k < N → q (Nat.nth q k) ∧ Nat.count q (Nat.nth q k) = k := by
    intro k hk
    have hlt : ∀ hf : (Set.ofPred q).Finite, k < hf.toFinset.card := by
      intro hf
      refine lt_of_lt_of_le hk ?_
      rw [hN, Nat.count_eq_card_filter_range]
      refine Finset.card_le_card fun t ht => ?_
      simp only [Finset.mem_filter] at ht
      exact hf.mem_toFinset.2 ht.2
    exact ⟨Nat.nth_mem k hlt, Nat.count_nth hlt⟩
  have hmpos : ∀ t, q t → 0 < m := fun t ht => by
    rcases Nat.eq_zero_or_pos m with h0 | h0
    · have := ht.1; rw [h0] at this; simp at this
    · exact h0
  have hdiv : ∀ t, q t → t % m < m ∧ t / m < n ∧ t % m + t / m * m = t := fun t ht => by
    refine ⟨Nat.mod_lt _ (hmpos t ht), (Nat.div_lt_iff_lt_mul (hmpos t ht)).2 (by rw [Nat.mul_comm]; exact ht.1), ?_⟩
    rw [Nat.mul_comm]; exact Nat.mod_add_div t m
  have hinj : ∀ k k', k < N → k' < N → Nat.nth q k = Nat.nth q k' → k = k' := by
    intro k k' hk hk' e
    rw [← (hnth k hk).2, ← (hnth k' hk').2, e]
  have hnd : NoRep N (fun k => Nat.nth q k % m) (fun k => Nat.nth q k / m) := by
    intro k k' hk hk' e1 e2
    apply hinj k k' hk hk'
    rw [← (hdiv _ (hnth k hk).1).2.2, ← (hdiv _ (hnth k' hk').1).2.2]
    dsimp only at e1 e2
    rw [e1, e2]
  refine ⟨{ C0 with p := some Cp', i := some Ci', x := some (W.mk Cx'), scale := s' }, N,
    fun k => Nat.nth q k % m, fun k => Nat.nth q k / m,
    fun k => d (Nat.nth q k % m) (Nat.nth q k / m), ?_, ?_, hnd, ?_, ?_, ?_, hCk, hCt, ?_⟩
  · unfold copyDenseCsc
    rw [eY]
    simp only [ok_bind]
    rw [VC.withVals_eq, countNz_spec (W.e opt) hq fun k hk => (hy k hk).1]
    simp only [ok_bind, pure_bind', h.rows, h.cols]
    rw [← hN, e0]
    simp only [ok_bind]
    rw [hCx, VC.withVals_eq, eb]
    rfl
  · refine ⟨⟨hCm, hCn, ⟨_, rfl, by rw [VC.ty_mk]; exact hCt.symm⟩, hs'⟩, fun k hk => ?_, Or.inl ⟨hCk, ?_, ?_⟩, fun _ => by simp⟩
    · obtain ⟨hqk, hck⟩ := hnth k hk
      obtain ⟨h1, h2, h3⟩ := hdiv _ hqk
      obtain ⟨g1, g2⟩ := gix _ _ h1 h2 (by rw [h3]; exact hqk)
      rw [h3, hck] at g1 g2
      refine ⟨h1, h2, g1, ?_⟩
      show (W.mk Cx').val s' k = _
      rw [VC.val_mk, g2]
      exact VC.set_dec W (hy _ hqk.1).2 fun hm => hR hm _ hqk.1
    · intro k k' hkk hk'
      refine Nat.div_le_div_right ?_
      by_contra hlt
      have := Nat.count_monotone q (le_of_lt (not_le.1 hlt))
      rw [(hnth k (by omega)).2, (hnth k' hk').2] at this
      have : k = k' := by omega
      subst this
      omega
    · intro j hj
      show get Cp' j = _
      rw [gp j hj]
      congr 2
      have : ∀ k, k < N → (Nat.nth q k / m < j ↔ k < Nat.count q (j * m)) := by
        intro k hk
        obtain ⟨hqk, hck⟩ := hnth k hk
        rw [Nat.div_lt_iff_lt_mul (hmpos _ hqk)]
        constructor
        · intro hlt
          have := Nat.count_strict_mono hqk hlt
          omega
        · intro hlt
          by_contra hge
          have := Nat.count_monotone q (not_lt.1 hge)
          omega
      unfold colPtr
      rw [Finset.filter_congr (q := fun k => k < Nat.count q (j * m))]
      · have hle : Nat.count q (j * m) ≤ N := Nat.count_monotone q (by rw [Nat.mul_comm m n]; exact Nat.mul_le_mul_right m hj)
        have e : (Finset.range N).filter (fun k => k < Nat.count q (j * m)) =
            Finset.range (Nat.count q (j * m)) := by
          ext k; simp only [Finset.mem_filter, Finset.mem_range]; omega
        rw [e, Finset.card_range]
      · intro k hk
        exact this k (Finset.mem_range.1 hk)
  · intro k hk
    exact (hnth k hk).1.2
  · intro i j hi hj
    by_cases h0 : d i j = 0
    · rw [h0]
      refine cooNum_none fun k hk => ?_
      rintro ⟨h1, h2⟩
      have := (hnth k hk).1.2
      rw [h1, h2] at this
      exact this h0
    · have hqt : q (i + j * m) := ⟨ix2_lt hi hj, by rw [(ix2_mod hi).1, (ix2_mod hi).2]; exact h0⟩
      have hk := hqN _ hqt
      have en : Nat.nth q (Nat.count q (i + j * m)) = i + j * m := Nat.nth_count hqt
      have := cooNum_at (v := fun k => d (Nat.nth q k % m) (Nat.nth q k / m)) hnd hk
      rw [en, (ix2_mod hi).1, (ix2_mod hi).2] at this
      exact this
  · rw [hN, Nat.count_eq_card_filter_range]
    congr 1
    ext t
    simp only [Finset.mem_filter, Finset.mem_range, q]
    tauto
  · exact ⟨hO.notShallow, by simp [hCk], by simp [hCk], hO.j, rfl⟩

/-- Dense to triplet: `C->nz` is overwritten by `m*n`, so the result is the matrix only if `A` has no
zero entry. -/
theorem copyDenseTriplet_spec (h : Dns m n d A)
    (hE : CastOk opt A.type W.ty (m * n) fun t => d (t % m) (t / m))
    (hz : A.type = .mpz → W.ty = .mpz → A.scale = 1)
    (hR : W.ty = .mpfr → ∀ t, t < m * n →
      roundPrec (optPrec opt) (optRound opt) (d (t % m) (t / m)) = d (t % m) (t / m)) :
    ∃ C N r c v, copyDenseTriplet fp opt W.ty A ((m * n : ℕ) : ℤ) = .ok { C with nz := ((m * n : ℕ) : ℤ) } ∧
      Coo m n N r c v C ∧ NoRep N r c ∧ (∀ i j, i < m → j < n → cooNum N r c v i j = d i j) ∧
      N = ((Finset.range (m * n)).filter fun t => d (t % m) (t / m) ≠ 0).card ∧
      C.kind = .triplet ∧ C.type = W.ty ∧ Owns C := by
  obtain ⟨T, N, r, c, v, eT, hT, hnd, -, hnum, hN, hk, ht, -⟩ :=
    copyDenseCsc_spec (fp := fp) (opt := opt) (W := W) h hE hz hR
  have hE2 : CastOk opt T.type W.ty N v := by
    rw [ht]
    cases W <;> simp only [VC.ty, CastOk]
    intro k hk
    obtain ⟨h1, h2, -, -⟩ := hT.idx k hk
    have := hnum _ _ h1 h2
    rw [cooNum_at hnd hk] at this
    rw [this]
    have := hR rfl _ (ix2_lt h1 h2)
    rwa [(ix2_mod h1).1, (ix2_mod h1).2] at this
  obtain ⟨C, eC, hC, hk', ht', hO⟩ := copyCscTriplet_spec (fp := fp) hT hk hE2
  refine ⟨C, N, r, c, v, ?_, hC, hnd, hnum, hN, hk', ht', hO⟩
  unfold copyDenseTriplet
  rw [eT]
  simp only [ok_bind, hT.nnz, eC]
  rfl

end Slip
