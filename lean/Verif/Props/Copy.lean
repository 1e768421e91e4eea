import Verif.Proof.Copy
import Mathlib.Tactic.IntervalCases

/-!
# Properties C19 and C20: `SLIP_matrix_copy`
-/

namespace Slip

variable {fp : Fp} {opt : Option Options} {m n : ℕ} {A : Mat}

theorem isFloat_round {p : ℤ} {mode : ℤ} (hp : 0 ≤ p) {q : ℚ} (h : IsFloat p.toNat q) :
    roundPrec p mode q = q := by
  obtain ⟨a, e, ha, hq⟩ := h
  have := roundPrec_exact (mode := mode) ha hq
  rwa [Int.toNat_of_nonneg hp] at this

/-- The conversion condition for a list of entries. -/
theorem castOk_coo {N : ℕ} {r c : ℕ → ℕ} {v : ℕ → ℚ} {type : Ty} (h : Coo m n N r c v A)
    (hd : NoRep N r c) (hE : ExactConv m n opt A type) :
    CastOk opt A.type type N v ∧
      (type = .mpfr → ∀ k, k < N → roundPrec (optPrec opt) (optRound opt) (v k) = v k) := by
  have hv : ∀ k, k < N → r k < m ∧ c k < n ∧ A.num (r k) (c k) = v k := fun k hk => by
    obtain ⟨h1, h2, -, -⟩ := h.idx k hk
    exact ⟨h1, h2, by rw [h.num _ _ h2, cooNum_at hd hk]⟩
  have hex : ∀ i j, j < n → A.num i j ≠ 0 → ∃ k, k < N ∧ v k ≠ 0 := by
    intro i j hj hne
    rw [h.num _ _ hj] at hne
    obtain ⟨k, hk, hk2⟩ := Finset.exists_ne_zero_of_sum_ne_zero hne
    refine ⟨k, Finset.mem_range.1 hk, fun h0 => hk2 ?_⟩
    rw [h0]; simp
  have hnn := h.nnz
  unfold ExactConv at hE
  unfold CastOk
  cases ht : A.type <;> cases type <;> simp only [ht] at hE <;> simp only [reduceCtorEq, false_implies, and_true, forall_const]
  case mpq.mpz =>
    rw [hnn] at hE
    by_contra h0
    exact hE (by rw [show N = 0 by omega]; rfl)
  case fp64.mpz =>
    obtain ⟨h1, h2, i, j, hi, hj, h3⟩ := hE
    refine ⟨h1, fun k hk => ?_, hex i j hj h3⟩
    obtain ⟨a, b, e⟩ := hv k hk
    rw [← e]
    exact h2 _ _ a b
  case mpfr.mpz =>
    obtain ⟨h1, h2, i, j, hi, hj, h3⟩ := hE
    refine ⟨h1, fun k hk => ?_, hex i j hj h3⟩
    obtain ⟨a, b, e⟩ := hv k hk
    rw [← e]
    exact h2 _ _ a b
  all_goals
    obtain ⟨h1, h2⟩ := hE
    rw [and_self]
    intro k hk
    obtain ⟨a, b, e⟩ := hv k hk
    rw [← e]
    exact isFloat_round h1 (h2 _ _ a b)

/-- The conversion condition for a dense matrix. -/
theorem castOk_dns {type : Ty} (h : Dns m n A.num A) (hE : ExactConv m n opt A type) :
    CastOk opt A.type type (m * n) (fun t => A.num (t % m) (t / m)) ∧
      (type = .mpfr → ∀ t, t < m * n →
        roundPrec (optPrec opt) (optRound opt) (A.num (t % m) (t / m)) = A.num (t % m) (t / m)) := by
  have hv : ∀ t, t < m * n → t % m < m ∧ t / m < n := fun t ht => by
    obtain ⟨i, hi, j, hj, rfl⟩ := ix2_surj ht
    rw [(ix2_mod hi).1, (ix2_mod hi).2]
    exact ⟨hi, hj⟩
  have hex : ∀ i j, i < m → j < n → A.num i j ≠ 0 → ∃ k, k < m * n ∧ A.num (k % m) (k / m) ≠ 0 := by
    intro i j hi hj hne
    exact ⟨i + j * m, ix2_lt hi hj, by rwa [(ix2_mod hi).1, (ix2_mod hi).2]⟩
  have hnn := h.nnz
  unfold ExactConv at hE
  unfold CastOk
  cases ht : A.type <;> cases type <;> simp only [ht] at hE <;> simp only [reduceCtorEq, false_implies, and_true, forall_const]
  case mpq.mpz =>
    rw [hnn] at hE
    by_contra h0
    exact hE (by rw [show m * n = 0 by omega]; rfl)
  case fp64.mpz =>
    obtain ⟨h1, h2, i, j, hi, hj, h3⟩ := hE
    exact ⟨h1, fun k hk => h2 _ _ (hv k hk).1 (hv k hk).2, hex i j hi hj h3⟩
  case mpfr.mpz =>
    obtain ⟨h1, h2, i, j, hi, hj, h3⟩ := hE
    exact ⟨h1, fun k hk => h2 _ _ (hv k hk).1 (hv k hk).2, hex i j hi hj h3⟩
  all_goals
    obtain ⟨h1, h2⟩ := hE
    rw [and_self]
    intro k hk
    exact isFloat_round h1 (h2 _ _ (hv k hk).1 (hv k hk).2)

theorem exactConv_ok {type : Ty} (h : ExactConv m n opt A type) : A.type.ok = true ∧ type.ok = true := by
  unfold ExactConv at h
  cases ht : A.type <;> cases type <;> simp only [ht] at h <;> exact ⟨rfl, rfl⟩

/-- What a successful copy delivers. -/
def CopyOf (m n : ℕ) (kind : Kind) (type : Ty) (A C : Mat) : Prop :=
  C.kind = kind ∧ C.type = type ∧ Valid m n C ∧ Owns C ∧
    ∀ i j, i < m → j < n → C.num i j = A.num i j

theorem copyBody_exact {kind : Kind} {type : Ty} (hA : Valid m n A)
    (hk : kind.ok = true) (hE : ExactConv m n opt A type) (hK : KindOk m n A kind type) :
    ∃ (N : ℕ) (C : Mat), SLIP_matrix_nnz true (some A) = .ok (N : ℤ) ∧
      copyBody fp opt kind type A N = .ok C ∧ CopyOf m n kind type A C := by
  obtain ⟨W, hW⟩ := Ty.ok_vc (exactConv_ok hE).2
  have sparse : (∃ N r c v, Coo m n N r c v A ∧ NoRep N r c ) → 
      ∃ (N : ℕ) (C : Mat), SLIP_matrix_nnz true (some A) = .ok (N : ℤ) ∧
      copyBody fp opt kind type A N = .ok C ∧ CopyOf m n kind type A C := by
    rintro ⟨N, r, c, v, h, hd⟩
    obtain ⟨hc, hR⟩ := castOk_coo h hd hE
    rw [← hW] at hc hR
    refine ⟨N, ?_⟩
    have done : ∀ {C : Mat}, Coo m n N r c v C → C.kind = kind → C.type = W.ty → Owns C →
        CopyOf m n kind type A C := fun {C} hC h1 h2 h3 =>
      ⟨h1, h2.trans hW, hC.valid hd, h3, fun i j hi hj => by rw [hC.num _ _ hj, h.num _ _ hj]⟩
    have doneD : ∀ {C : Mat}, Dns m n (cooNum N r c v) C → kind = .dense → C.type = W.ty → Owns C →
        CopyOf m n kind type A C := fun {C} hC h1 h2 h3 =>
      ⟨hC.kind.trans h1.symm, h2.trans hW, Or.inr (Or.inr hC.valid), h3,
        fun i j hi hj => by rw [hC.num hi hj, h.num _ _ hj]⟩
    unfold copyBody
    rcases h.shape with ⟨hAk, -⟩ | ⟨hAk, -⟩ <;> cases kind <;> simp only [hAk, ← hW]
    · obtain ⟨C, e, hC, h1, h2, h3⟩ := copyCscCsc_spec (fp := fp) h hAk hc
      exact ⟨C, h.nnz, e, hW ▸ done hC h1 h2 h3⟩
    · obtain ⟨C, e, hC, h1, h2, h3⟩ := copyCscTriplet_spec (fp := fp) h hAk hc
      exact ⟨C, h.nnz, e, hW ▸ done hC h1 h2 h3⟩
    · obtain ⟨C, e, hC, h2, h3⟩ := copyCscDense_spec (fp := fp) h hd hAk hc
        (fun h1 h2 => by
          rcases hK.scale h1 (hW ▸ h2) with h3 | ⟨-, h3⟩ | h3
          · rw [hAk] at h3; cases h3
          · cases h3
          · exact h3)
        (fun h1 => by have := hK.mpfr (hW ▸ h1) rfl; rw [hAk] at this; cases this)
      exact ⟨C, h.nnz, e, hW ▸ doneD hC rfl h2 h3⟩
    · simp [Kind.ok] at hk
    · obtain ⟨C, e, ⟨r', c', v', hC, hp⟩, h1, h2, h3⟩ := copyTripletCsc_spec (fp := fp) h hAk hc
        (fun h1 h2 => by
          rcases hK.scale h1 (hW ▸ h2) with h3 | ⟨h3, -⟩ | h3
          · rw [hAk] at h3; cases h3
          · rw [hAk] at h3; cases h3
          · exact h3) hR
      obtain ⟨g, hg1, hg2⟩ := cscPos_surj (N := N) c
      have hd' : NoRep N r' c' := by
        intro t t' ht ht' e1 e2
        obtain ⟨a1, a2⟩ := hg1 t ht
        obtain ⟨b1, b2⟩ := hg1 t' ht'
        rw [← a2, ← b2] at e1 e2 ⊢
        rw [(hp _ a1).1, (hp _ b1).1] at e1
        rw [(hp _ a1).2.1, (hp _ b1).2.1] at e2
        rw [hd _ _ a1 b1 e1 e2]
      refine ⟨C, h.nnz, e, h1, h2, hC.valid hd', h3, fun i j hi hj => ?_⟩
      rw [hC.num _ _ hj, h.num _ _ hj]
      exact cooNum_perm (fun k hk => cscPos_lt hk) (fun k k' hk hk' e => cscPos_inj hk hk' e) hp i j
    · obtain ⟨C, e, hC, h1, h2, h3⟩ := copyTripletTriplet_spec (fp := fp) h hAk hc
      exact ⟨C, h.nnz, e, hW ▸ done hC h1 h2 h3⟩
    · obtain ⟨C, e, hC, h2, h3⟩ := copyTripletDense_spec (fp := fp) h hd hAk hc
        (fun h1 h2 => by
          rcases hK.scale h1 (hW ▸ h2) with h3 | ⟨-, h3⟩ | h3
          · rw [hAk] at h3; cases h3
          · cases h3
          · exact h3)
        (fun h1 => by have := hK.mpfr (hW ▸ h1) rfl; rw [hAk] at this; cases this)
      exact ⟨C, h.nnz, e, hW ▸ doneD hC rfl h2 h3⟩
    · simp [Kind.ok] at hk
  rcases hA with hA | hA | hA
  · obtain ⟨N, r, c, v, h, hd, -⟩ := hA.coo
    exact sparse ⟨N, r, c, v, h, hd⟩
  · obtain ⟨N, r, c, v, h, hd, -⟩ := hA.coo
    exact sparse ⟨N, r, c, v, h, hd⟩
  · have h := hA.dns
    obtain ⟨hc, hR⟩ := castOk_dns h hE
    rw [← hW] at hc hR
    refine ⟨m * n, ?_⟩
    have hAk := hA.kind
    unfold copyBody
    cases kind <;> simp only [hAk, ← hW]
    · obtain ⟨C, N, r, c, v, e, hC, hd, -, hnum, -, h1, h2, h3⟩ := copyDenseCsc_spec (fp := fp) h hc
        (fun h1 h2 => by
          rcases hK.scale h1 (hW ▸ h2) with h3 | ⟨h3, -⟩ | h3
          · rw [hAk] at h3; cases h3
          · rw [hAk] at h3; cases h3
          · exact h3) hR
      exact ⟨C, h.nnz, e, h1, h2, hC.valid hd, h3, fun i j hi hj => by rw [hC.num _ _ hj, hnum i j hi hj]⟩
    · obtain ⟨C, N, r, c, v, e, hC, hd, hnum, hN, h1, h2, h3⟩ := copyDenseTriplet_spec (fp := fp) h hc
        (fun h1 h2 => by
          rcases hK.scale h1 (hW ▸ h2) with h3 | ⟨h3, -⟩ | h3
          · rw [hAk] at h3; cases h3
          · rw [hAk] at h3; cases h3
          · exact h3) hR
      have hfull : N = m * n := by
        rw [hN, Finset.filter_true_of_mem, Finset.card_range]
        intro t ht
        obtain ⟨i, hi, j, hj, rfl⟩ := ix2_surj (Finset.mem_range.1 ht)
        rw [(ix2_mod hi).1, (ix2_mod hi).2]
        exact hK.full hAk rfl i j hi hj
      have hnz : C.nz = ((m * n : ℕ) : ℤ) := by
        rcases hC.shape with ⟨h4, -⟩ | ⟨-, h4, -⟩
        · rw [h1] at h4; cases h4
        · rw [h4, hfull]
      have eC : { C with nz := ((m * n : ℕ) : ℤ) } = C := by rw [← hnz]
      rw [eC] at e
      exact ⟨C, h.nnz, e, h1, h2, hC.valid hd, h3, fun i j hi hj => by rw [hC.num _ _ hj, hnum i j hi hj]⟩
    · obtain ⟨C, e, hC, h2, h3⟩ := copyDenseDense_spec (fp := fp) h hc
      exact ⟨C, h.nnz, e, hC.kind, h2, Or.inr (Or.inr hC.valid), h3, fun i j hi hj => hC.num hi hj⟩
    · simp [Kind.ok] at hk

/-- C19: copying a valid matrix of any kind and type to any kind and type to which its entries convert
exactly (`ExactConv`, `KindOk`) succeeds and returns a valid matrix of the requested kind and type,
with its own arrays, that represents the same rational matrix. -/
theorem C19_copy_exact {Ch : Handle Mat} (hCh : Ch ≠ none) {kind : Kind} {type : Ty}
    (hA : Valid m n A) (hk : kind.ok = true) (hE : ExactConv m n opt A type)
    (hK : KindOk m n A kind type) :
    ∃ C, SLIP_matrix_copy fp true Ch kind type (some A) opt = .ok (.ok, some (some C)) ∧
      C.kind = kind ∧ C.type = type ∧ Valid m n C ∧ Owns C ∧
      ∀ i j, i < m → j < n → C.num i j = A.num i j := by
  obtain ⟨N, C, e1, e2, h⟩ := copyBody_exact (fp := fp) hA hk hE hK
  refine ⟨C, ?_, h⟩
  obtain ⟨h1, h2⟩ := exactConv_ok hE
  unfold SLIP_matrix_copy
  simp only [Bool.not_true, Bool.false_eq_true, if_false, e1, ok_bind]
  rw [if_neg]
  · rw [e2]; rfl
  · simp [hCh, h1, h2, hk]


/-! ## C20 -/

/-- Values can be copied without change of type: scaled MPZ excluded, MPFR numbers have at most `prec`
bits. -/
structure Plain (opt : Option Options) (N : ℕ) (A : Mat) : Prop where
  scale : A.type = .mpz → A.scale = 1
  mpfr : A.type = .mpfr → 0 ≤ optPrec opt ∧
    ∀ k : ℕ, k < N → ∀ v, A.val k = some v → IsFloat (optPrec opt).toNat v

theorem Header.vc (h : Header m n A) : ∃ W : VC, W.ty = A.type := by
  obtain ⟨x, -, hx⟩ := h.typed
  obtain ⟨W, a, -, hW⟩ := VC.exists_mk x
  exact ⟨W, hW.trans hx⟩

theorem vc_ok (W : VC) : W.ty.ok = true := by cases W <;> rfl

theorem plain_cast {N : ℕ} {r c : ℕ → ℕ} {v : ℕ → ℚ} {W : VC} (h : Coo m n N r c v A)
    (hW : W.ty = A.type) (hP : Plain opt N A) : CastOk opt A.type W.ty N v ∧
      (W.ty = .mpfr → ∀ k, k < N → roundPrec (optPrec opt) (optRound opt) (v k) = v k) := by
  have hR : W.ty = .mpfr → ∀ k, k < N → roundPrec (optPrec opt) (optRound opt) (v k) = v k :=
    fun hm k hk => isFloat_round (hP.mpfr (hW ▸ hm)).1 ((hP.mpfr (hW ▸ hm)).2 k hk _ (h.idx k hk).2.2.2)
  refine ⟨?_, hR⟩
  rw [← hW]
  cases W <;> simp only [VC.ty, CastOk]
  exact hR rfl

theorem TripletIn.coo {N : ℕ} (h : TripletIn m n N A) : ∃ r c v, Coo m n N r c v A := by
  have hex : ∀ k : ℕ, k < N → ∃ i j v, i < m ∧ j < n ∧ get (deref A.i) k = some (i : ℤ) ∧
      get (deref A.j) k = some (j : ℤ) ∧ A.val k = some v := by
    intro k hk
    obtain ⟨⟨i, hi, gi⟩, ⟨j, hj, gj⟩, v, gv⟩ := h.entry k hk
    exact ⟨i, j, v, hi, hj, gi, gj, gv⟩
  choose! r c v h1 h2 h3 h4 h5 using hex
  exact ⟨r, c, v, ⟨h.toHeader, fun k hk => ⟨h1 k hk, h2 k hk, h3 k hk, h5 k hk⟩,
    Or.inr ⟨h.kind, h.nz, h4⟩, fun hk => (by rw [h.kind] at hk; cases hk)⟩⟩

theorem copy_call {Ch : Handle Mat} (hCh : Ch ≠ none) {kind : Kind} {N : ℕ} {W : VC} {C : Mat}
    (hk : kind.ok = true) (hW : W.ty = A.type)
    (hn : SLIP_matrix_nnz true (some A) = .ok (N : ℤ)) (e : copyBody fp opt kind W.ty A N = .ok C) :
    SLIP_matrix_copy fp true Ch kind A.type (some A) opt = .ok (.ok, some (some C)) := by
  unfold SLIP_matrix_copy
  simp only [Bool.not_true, Bool.false_eq_true, if_false, hn, ok_bind]
  rw [if_neg, ← hW, e]
  · rfl
  · have := vc_ok W
    rw [hW] at this
    simp [hCh, this, hk]

/-- Where the entries of a triplet matrix go: a permutation of `0..N-1`. -/
noncomputable def posPerm (N : ℕ) (c : ℕ → ℕ) : Equiv.Perm (Fin N) :=
  Equiv.ofBijective (fun k : Fin N => (⟨cscPos N c k, cscPos_lt k.2⟩ : Fin N))
    ((Finite.injective_iff_bijective).1 fun a b h => by
      have := cscPos_inj a.2 b.2 (by simpa using h)
      exact Fin.ext this)

/-- C20: converting a triplet matrix to CSC moves entry `k` to position `pos k`, for a permutation
`pos` of `0..N-1`: it keeps its row and value, and the position lies in its column; entries of the
same column keep their order. Positions may be repeated in the triplet matrix. -/
theorem C20_triplet_to_csc {Ch : Handle Mat} (hCh : Ch ≠ none) {N : ℕ} (hA : TripletIn m n N A)
    (hP : Plain opt N A) :
    ∃ (C : Mat) (pos : Equiv.Perm (Fin N)),
      SLIP_matrix_copy fp true Ch .csc A.type (some A) opt = .ok (.ok, some (some C)) ∧
      Header m n C ∧ C.kind = .csc ∧ C.type = A.type ∧ Owns C ∧
      get (deref C.p) 0 = some 0 ∧ get (deref C.p) n = some (N : ℤ) ∧
      (∀ j : ℕ, j < n → ∃ a b : ℤ, get (deref C.p) j = some a ∧
        get (deref C.p) ((j + 1 : ℕ) : ℤ) = some b ∧ a ≤ b) ∧
      (∀ k : Fin N, get (deref C.i) (pos k : ℕ) = get (deref A.i) (k : ℕ) ∧
        C.val (pos k : ℕ) = A.val (k : ℕ) ∧
        ∀ j : ℕ, get (deref A.j) (k : ℕ) = some (j : ℤ) → ∃ a b : ℤ, get (deref C.p) j = some a ∧
          get (deref C.p) ((j + 1 : ℕ) : ℤ) = some b ∧ a ≤ (pos k : ℕ) ∧ ((pos k : ℕ) : ℤ) < b) ∧
      ∀ k k' : Fin N, get (deref A.j) (k : ℕ) = get (deref A.j) (k' : ℕ) → k < k' → pos k < pos k' := by
  obtain ⟨r, c, v, h⟩ := hA.coo
  obtain ⟨W, hW⟩ := hA.toHeader.vc
  obtain ⟨hc, hR⟩ := plain_cast h hW hP
  obtain ⟨C, e, ⟨r', c', v', hC, hp⟩, h1, h2, h3⟩ := copyTripletCsc_spec (fp := fp) h hA.kind hc
    (fun h1 _ => hP.scale h1) hR
  obtain ⟨-, -, hj⟩ : _ ∧ _ ∧ _ := h.shape.resolve_left (by rw [hA.kind]; simp)
  obtain ⟨-, hm', hp'⟩ : _ ∧ _ ∧ _ := hC.shape.resolve_right (by rw [h1]; simp)
  have hpos : ∀ k : Fin N, ((posPerm N c k : Fin N) : ℕ) = cscPos N c k := fun k => rfl
  refine ⟨C, posPerm N c, copy_call hCh rfl hW h.nnz (by unfold copyBody; simp only [hA.kind]; exact e),
    hC.toHeader, h1, h2.trans hW, h3, ?_, ?_, ?_, ?_, ?_⟩
  · have := hp' 0 (by omega); rwa [colPtr_zero] at this
  · have := hp' n le_rfl; rwa [colPtr_all fun k hk => (hC.idx k hk).2.1] at this
  · intro j hj
    exact ⟨_, _, hp' j (by omega), hp' (j + 1) (by omega), by exact_mod_cast colPtr_mono (by omega)⟩
  · intro k
    rw [hpos]
    have hlt := cscPos_lt (N := N) (c := c) k.2
    obtain ⟨e1, e2, e3⟩ := hp k k.2
    have i1 := hC.idx _ hlt
    have i2 := h.idx _ k.2
    refine ⟨by rw [i1.2.2.1, i2.2.2.1, e1], by rw [i1.2.2.2, i2.2.2.2, e3], ?_⟩
    intro j hjk
    have hjc : j = c k := by
      rw [hj k k.2] at hjk
      have := Option.some.inj hjk
      exact_mod_cast this.symm
    subst hjc
    refine ⟨_, _, hp' (c k) (by omega), hp' (c k + 1) (by omega), ?_, ?_⟩
    · have : ¬ cscPos N c k < colPtr N c' (c k) := fun hh => by
        have := (colPtr_lt hm' hlt).2 hh
        omega
      exact_mod_cast not_lt.1 this
    · have := (colPtr_lt hm' hlt (j := c k + 1)).1 (by omega)
      exact_mod_cast this
  · intro k k' hkk hlt
    rw [hj k k.2, hj k' k'.2] at hkk
    have hcc : c k = c k' := by exact_mod_cast Option.some.inj hkk
    exact cscPos_strict hlt hcc

/-- C20: converting CSC to triplet keeps the entries in order and adds the column of each entry. -/
theorem C20_csc_to_triplet {Ch : Handle Mat} (hCh : Ch ≠ none) {N : ℕ} (hA : ValidCsc m n A)
    (hN : get (deref A.p) n = some (N : ℤ))
    (hP : A.type = .mpfr → 0 ≤ optPrec opt ∧
      ∀ k : ℕ, k < N → ∀ v, A.val k = some v → IsFloat (optPrec opt).toNat v) :
    ∃ C, SLIP_matrix_copy fp true Ch .triplet A.type (some A) opt = .ok (.ok, some (some C)) ∧
      C.kind = .triplet ∧ C.type = A.type ∧ ValidTriplet m n C ∧ Owns C ∧ C.nz = N ∧
      (∀ k : ℕ, k < N → get (deref C.i) k = get (deref A.i) k ∧ C.val k = A.val k) ∧
      ∀ (j k : ℕ) (a b : ℤ), j < n → get (deref A.p) j = some a →
        get (deref A.p) ((j : ℤ) + 1) = some b → a ≤ k → (k : ℤ) < b →
        get (deref C.j) k = some (j : ℤ) := by
  obtain ⟨N', r, c, v, h, hd, hN'⟩ := hA.coo
  obtain rfl : N = N' := by rw [hN] at hN'; exact_mod_cast Option.some.inj hN'
  obtain ⟨W, hW⟩ := hA.toHeader.vc
  have hR : W.ty = .mpfr → ∀ k, k < N → roundPrec (optPrec opt) (optRound opt) (v k) = v k :=
    fun hm k hk => isFloat_round (hP (hW ▸ hm)).1 ((hP (hW ▸ hm)).2 k hk _ (h.idx k hk).2.2.2)
  have hc : CastOk opt A.type W.ty N v := by
    rw [← hW]
    cases W <;> simp only [VC.ty, CastOk]
    exact hR rfl
  obtain ⟨C, e, hC, h1, h2, h3⟩ := copyCscTriplet_spec (fp := fp) h hA.kind hc
  obtain ⟨-, hnz, hj⟩ : _ ∧ _ ∧ _ := hC.shape.resolve_left (by rw [h1]; simp)
  obtain ⟨-, hm, hp⟩ : _ ∧ _ ∧ _ := h.shape.resolve_right (by rw [hA.kind]; simp)
  refine ⟨C, copy_call hCh rfl hW h.nnz (by unfold copyBody; simp only [hA.kind]; exact e), h1,
    h2.trans hW, ?_, h3, hnz, ?_, ?_⟩
  · rcases hC.valid hd with hv | hv | hv
    · have := hv.kind; rw [h1] at this; cases this
    · exact hv
    · have := hv.kind; rw [h1] at this; cases this
  · intro k hk
    obtain ⟨-, -, a1, a2⟩ := hC.idx k hk
    obtain ⟨-, -, b1, b2⟩ := h.idx k hk
    exact ⟨a1.trans b1.symm, a2.trans b2.symm⟩
  · intro j k a b hjn ha hb h4 h5
    rw [hp j (by omega)] at ha
    rw [show (j : ℤ) + 1 = ((j + 1 : ℕ) : ℤ) by push_cast; rfl, hp (j + 1) (by omega)] at hb
    obtain rfl := Option.some.inj ha
    obtain rfl := Option.some.inj hb
    have hkN : k < N := by
      have := colPtr_le N c (j + 1); omega
    rw [hj k hkN]
    have h6 := (colPtr_lt hm hkN (j := j + 1)).2 (by omega)
    have h7 : ¬ c k < j := fun hh => by have := (colPtr_lt hm hkN).1 hh; omega
    rw [show c k = j by omega]

/-- Sorting sorted entries changes nothing. -/
theorem cscPos_sorted {N : ℕ} {c : ℕ → ℕ} (hm : ∀ k k', k ≤ k' → k' < N → c k ≤ c k') {k : ℕ}
    (hk : k < N) : cscPos N c k = k := by
  unfold cscPos colPtr
  have h1 : (Finset.range N).filter (fun t => c t < c k) = (Finset.range k).filter fun t => c t < c k := by
    ext t
    simp only [Finset.mem_filter, Finset.mem_range]
    constructor
    · rintro ⟨a, b⟩
      refine ⟨?_, b⟩
      by_contra hh
      have := hm k t (by omega) a
      omega
    · rintro ⟨a, b⟩
      exact ⟨by omega, b⟩
  rw [h1, ← Finset.card_union_of_disjoint]
  · have : (Finset.range k).filter (fun t => c t < c k) ∪ (Finset.range k).filter (fun t => c t = c k) =
        Finset.range k := by
      ext t
      simp only [Finset.mem_union, Finset.mem_filter, Finset.mem_range]
      constructor
      · tauto
      · intro ht
        have := hm t k (by omega) hk
        omega
    rw [this, Finset.card_range]
  · rw [Finset.disjoint_filter]
    intro t _ h2 h3
    omega

theorem bind_okc {α β : Type} {a : C α} {f : α → C β} {b : β} (h : (a >>= f) = .ok b) :
    ∃ x, f x = .ok b := by
  cases a with
  | error e => cases h
  | ok x => exact ⟨x, h⟩

/-- C20: CSC to triplet and back gives the same column pointers, row indices and values. -/
theorem C20_roundtrip {Ch Ch' : Handle Mat} (hCh : Ch ≠ none) (hCh' : Ch' ≠ none) {N : ℕ}
    (hA : ValidCsc m n A) (hN : get (deref A.p) n = some (N : ℤ)) (hP : Plain opt N A) :
    ∃ T C, SLIP_matrix_copy fp true Ch .triplet A.type (some A) opt = .ok (.ok, some (some T)) ∧
      SLIP_matrix_copy fp true Ch' .csc A.type (some T) opt = .ok (.ok, some (some C)) ∧
      C.m = A.m ∧ C.n = A.n ∧ C.kind = .csc ∧ C.type = A.type ∧
      (∀ j : ℕ, j ≤ n → get (deref C.p) j = get (deref A.p) j) ∧
      ∀ k : ℕ, k < N → get (deref C.i) k = get (deref A.i) k ∧ C.val k = A.val k := by
  obtain ⟨N', r, c, v, h, hd, hN'⟩ := hA.coo
  obtain rfl : N = N' := by rw [hN] at hN'; exact_mod_cast Option.some.inj hN'
  obtain ⟨W, hW⟩ := hA.toHeader.vc
  obtain ⟨hc, hR⟩ := plain_cast h hW hP
  obtain ⟨-, hm, hp⟩ : _ ∧ _ ∧ _ := h.shape.resolve_right (by rw [hA.kind]; simp)
  obtain ⟨T, eT, hT, h1, h2, -⟩ := copyCscTriplet_spec (fp := fp) h hA.kind hc
  have hTs : T.type = .mpz → W.ty = .mpz → T.scale = 1 := by
    intro _ hz
    -- MPZ to MPZ keeps the scale factor
    have hz' : A.type = .mpz := hW ▸ hz
    have := hP.scale hz'
    unfold copyCscTriplet at eT
    cases W <;> simp only [VC.ty] at hz <;> try cases hz
    obtain ⟨x, hx, hxt⟩ := hA.typed
    rw [hz'] at hxt
    obtain ⟨a, rfl⟩ := VC.exists_mk_ty x .z hxt
    obtain ⟨C0, a0, e0, -, -, -, -, -, -, -, -, hCx, -⟩ := allocate_triplet (W := .z) (m := m) (n := n) (nz := (N : ℤ))
    rw [h.rows, h.cols, e0] at eT
    simp only [ok_bind, hCx, hx, VC.mk, slip_cast_array] at eT
    cases hcl : castLoop (fun _ (v : Int) => (pure v : C Int)) a0 a N with
    | error f => rw [hcl] at eT; cases eT
    | ok y =>
      rw [hcl] at eT
      simp only [ok_bind, pure_bind'] at eT
      cases hci : copyInts (deref C0.i) (deref A.i) N with
      | error f => rw [hci] at eT; cases eT
      | ok i' =>
        rw [hci] at eT
        simp only [ok_bind] at eT
        rcases bind_okc eT with ⟨j', hj'⟩
        cases hj'
        exact this
  obtain ⟨C, eC, ⟨r', c', v', hC, hpm⟩, h1', h2', -⟩ := copyTripletCsc_spec (fp := fp) (W := W) hT h1
    (by rw [h2, hW]; rw [hW] at hc; exact hc) hTs hR
  obtain ⟨-, hm', hp'⟩ : _ ∧ _ ∧ _ := hC.shape.resolve_right (by rw [h1']; simp)
  have hid : ∀ k, k < N → r' k = r k ∧ c' k = c k ∧ v' k = v k := fun k hk => by
    have := hpm k hk
    rwa [cscPos_sorted hm hk] at this
  refine ⟨T, C, copy_call hCh rfl hW h.nnz (by unfold copyBody; simp only [hA.kind]; exact eT), ?_,
    by rw [hC.rows, h.rows], by rw [hC.cols, h.cols], h1', h2'.trans hW, ?_, ?_⟩
  · rw [← h2.trans hW]
    exact copy_call hCh' rfl h2.symm hT.nnz (by unfold copyBody; simp only [h1]; exact eC)
  · intro j hj
    rw [hp' j hj, hp j hj]
    congr 2
    unfold colPtr
    congr 1
    refine Finset.filter_congr fun k hk => ?_
    rw [(hid k (Finset.mem_range.1 hk)).2.1]
  · intro k hk
    obtain ⟨-, -, a1, a2⟩ := hC.idx k hk
    obtain ⟨-, -, b1, b2⟩ := h.idx k hk
    obtain ⟨e1, -, e3⟩ := hid k hk
    exact ⟨by rw [a1, b1, e1], by rw [a2, b2, e3]⟩


/-! ## Concrete cases -/

namespace CopyEx

/-- A matrix object without arrays. -/
def base (m n nz : Int) (kind : Kind) (type : Ty) (x : Vals) (scale : ℚ) : Mat :=
  { m := m, n := n, nzmax := 4, nz := nz, kind := kind, type := type,
    p := none, pShallow := false, i := none, iShallow := false, j := none, jShallow := false,
    x := some x, xShallow := false, scale := scale }

/-- The 3-by-2 triplet matrix `[0 1/2; 5 0; 0 -7]`, with an explicit zero, not sorted by columns. -/
def T : Mat :=
  { base 3 2 4 .triplet .mpq (.mpq [some (-7), some 5, some (1/2), some 0]) 1 with
    i := some [some 2, some 1, some 0, some 0], j := some [some 1, some 0, some 1, some 0] }

theorem T_in : TripletIn 3 2 4 T := by
  refine ⟨⟨rfl, rfl, ⟨_, rfl, rfl⟩, by norm_num [T, base]⟩, rfl, rfl, fun k hk => ?_⟩
  interval_cases k
  · exact ⟨⟨2, by omega, rfl⟩, ⟨1, by omega, rfl⟩, _, rfl⟩
  · exact ⟨⟨1, by omega, rfl⟩, ⟨0, by omega, rfl⟩, _, rfl⟩
  · exact ⟨⟨0, by omega, rfl⟩, ⟨1, by omega, rfl⟩, _, rfl⟩
  · exact ⟨⟨0, by omega, rfl⟩, ⟨0, by omega, rfl⟩, _, rfl⟩

theorem T_valid : Valid 3 2 T := by
  refine Or.inr (Or.inl ⟨T_in.toHeader, rfl, by decide, fun t h0 h1 => ?_, fun t t' h0 h1 h0' h1' => ?_⟩)
  · obtain ⟨t, rfl⟩ := Int.eq_ofNat_of_zero_le h0
    exact T_in.entry t (by simp only [T, base] at h1; omega)
  · simp only [T, base] at h1 h1'
    interval_cases t <;> interval_cases t' <;> decide

/-- `C19_copy_exact` applies to `T`, for every kind, with the type MPQ or MPZ. -/
example (fp : Fp) (kind : Kind) (hk : kind.ok = true) (type : Ty) (ht : type = .mpq ∨ type = .mpz) :
    ∃ C, SLIP_matrix_copy fp true (some none) kind type (some T) none = .ok (.ok, some (some C)) ∧
      C.kind = kind ∧ C.type = type ∧ Valid 3 2 C ∧ Owns C ∧
      ∀ i j, i < 3 → j < 2 → C.num i j = T.num i j := by
  refine C19_copy_exact (by simp) T_valid hk ?_ ⟨fun h => (by cases h), ?_, fun h => (by cases h)⟩
  · rcases ht with rfl | rfl
    · trivial
    · show SLIP_matrix_nnz true (some T) ≠ .ok 0
      decide
  · rcases ht with rfl | rfl <;> intro h <;> cases h

example : T.num 0 1 = 1 / 2 ∧ T.num 1 0 = 5 ∧ T.num 2 1 = -7 ∧ T.num 0 0 = 0 := by decide +kernel

/-- The CSC form: entries 1 and 3, then 0 and 2. -/
example (fp : Fp) : ∃ C, SLIP_matrix_copy fp true (some none) .csc .mpq (some T) none =
      .ok (.ok, some (some C)) ∧ C.p = some [some 0, some 2, some 4] ∧
      C.i = some [some 1, some 0, some 2, some 0] ∧
      C.x = some (.mpq [some 5, some 0, some (-7), some (1/2)]) :=
  ⟨_, rfl, rfl, rfl, rfl⟩

/-- `C20_triplet_to_csc` applies to `T`. -/
example : Plain none 4 T := ⟨fun h => (by cases h), fun h => (by cases h)⟩

/-- The 2-by-2 CSC matrix `[0 1; 2 3]`, the second column not sorted. -/
def S : Mat :=
  { base 2 2 0 .csc .mpz (.mpz [some 2, some 3, some 1]) 1 with
    p := some [some 0, some 1, some 3], i := some [some 1, some 1, some 0] }

/-- `C20_csc_to_triplet` and `C20_roundtrip` apply to `S`. -/
theorem S_valid : ValidCsc 2 2 S := by
  refine ⟨⟨rfl, rfl, ⟨_, rfl, rfl⟩, by norm_num [S, base]⟩, rfl, rfl, fun j hj => ?_, by simp [S]⟩
  interval_cases j
  · refine ⟨0, 1, rfl, rfl, by omega, fun t h1 h2 => ?_, fun t t' h1 h2 h3 h4 _ => by omega⟩
    obtain rfl : t = 0 := by omega
    exact ⟨⟨1, by omega, rfl⟩, _, rfl⟩
  · refine ⟨1, 3, rfl, rfl, by omega, fun t h1 h2 => ?_, fun t t' h1 h2 h3 h4 => ?_⟩
    · interval_cases t
      · exact ⟨⟨1, by omega, rfl⟩, _, rfl⟩
      · exact ⟨⟨0, by omega, rfl⟩, _, rfl⟩
    · interval_cases t <;> interval_cases t' <;> decide

example : get (deref S.p) 2 = some 3 ∧ Plain none 3 S :=
  ⟨rfl, fun _ => rfl, fun h => (by cases h)⟩

end CopyEx

/-! ## Where the code does not preserve the matrix -/

open CopyEx in
/-- C19 fails for dense to triplet: for `[1 0; 0 2]` the result claims 4 entries but has only room
for 2 (SLIP_matrix_copy.c line 443 stores the `nz` of the dense matrix). -/
theorem C19_dense_to_triplet_refuted (fp : Fp) :
    let A := base 2 2 0 .dense .mpz (.mpz [some 1, some 0, some 0, some 2]) 1
    Valid 2 2 A ∧ ∃ C, SLIP_matrix_copy fp true (some none) .triplet .mpz (some A) none =
      .ok (.ok, some (some C)) ∧ C.nz = 4 ∧ (deref C.i).length = 2 ∧ (deref C.j).length = 2 ∧
      ¬ Valid 2 2 C := by
  refine ⟨Or.inr (Or.inr ⟨⟨rfl, rfl, ⟨_, rfl, rfl⟩, by norm_num [base]⟩, rfl, fun i hi j hj => ?_⟩),
    _, rfl, rfl, rfl, rfl, ?_⟩
  · interval_cases i <;> interval_cases j <;> exact ⟨_, rfl⟩
  · rintro (h | h | h)
    · cases h.kind
    · obtain ⟨⟨i, -, hi⟩, -⟩ := h.entry 2 (by decide) (by decide)
      cases hi
    · cases h.kind

open CopyEx in
/-- C19 fails for MPZ to MPZ with a change of kind: the scale factor is lost. The dense matrix
`[1 2; 3 4] / 10` becomes the CSC matrix `[1 2; 3 4]`. -/
theorem C19_scale_lost_refuted (fp : Fp) :
    let A := base 2 2 0 .dense .mpz (.mpz [some 1, some 3, some 2, some 4]) 10
    Valid 2 2 A ∧ ∃ C, SLIP_matrix_copy fp true (some none) .csc .mpz (some A) none =
      .ok (.ok, some (some C)) ∧ C.scale = 1 ∧ A.num 0 0 = 1 / 10 ∧ C.num 0 0 = 1 := by
  refine ⟨Or.inr (Or.inr ⟨⟨rfl, rfl, ⟨_, rfl, rfl⟩, by norm_num [base]⟩, rfl, fun i hi j hj => ?_⟩),
    _, rfl, rfl, by decide +kernel, by decide +kernel⟩
  interval_cases i <;> interval_cases j <;> exact ⟨_, rfl⟩

open CopyEx in
/-- C19 fails for INT64 to MPQ: the denominator is the address of the output entry. If that address
is `a > 1`, the matrix `[1]` becomes `[1/a]`. -/
theorem C19_int64_to_mpq_refuted (fp : Fp) (ha : 1 < fp.addr 0) :
    let A := base 1 1 0 .dense .int64 (.int64 [some 1]) 1
    Valid 1 1 A ∧ ∃ C, SLIP_matrix_copy fp true (some none) .dense .mpq (some A) none =
      .ok (.ok, some (some C)) ∧ A.num 0 0 = 1 ∧ C.num 0 0 ≠ 1 := by
  refine ⟨Or.inr (Or.inr ⟨⟨rfl, rfl, ⟨_, rfl, rfl⟩, by norm_num [base]⟩, rfl, fun i hi j hj => ?_⟩),
    _, rfl, by decide +kernel, ?_⟩
  · interval_cases i; interval_cases j; exact ⟨_, rfl⟩
  · show ((1 : ℤ) : ℚ) / (fp.addr 0 : ℚ) ≠ 1
    have h : (1 : ℚ) < fp.addr 0 := by exact_mod_cast ha
    rw [Ne, div_eq_one_iff_eq (by linarith)]
    push_cast
    linarith

open CopyEx in
/-- C19 fails for sparse to dense with type MPFR: the entries not in the pattern are NaN. -/
theorem C19_mpfr_dense_refuted (fp : Fp) :
    let A := { base 2 1 0 .csc .mpfr (.mpfr [some (.fin 0)]) 1 with
      p := some [some 0, some 1], i := some [some 1] }
    Valid 2 1 A ∧ ∃ C, SLIP_matrix_copy fp true (some none) .dense .mpfr (some A) none =
      .ok (.ok, some (some C)) ∧ C.x = some (.mpfr [some .nan, some (.fin 0)]) ∧ ¬ Valid 2 1 C := by
  refine ⟨Or.inl ⟨⟨rfl, rfl, ⟨_, rfl, rfl⟩, by norm_num [base]⟩, rfl, rfl, fun j hj => ?_, by simp⟩,
    _, rfl, ?_, ?_⟩
  · interval_cases j
    refine ⟨0, 1, rfl, rfl, by omega, fun t h1 h2 => ?_, fun t t' h1 h2 h3 h4 _ => by omega⟩
    obtain rfl : t = 0 := by omega
    exact ⟨⟨1, by omega, rfl⟩, _, rfl⟩
  · simp [roundPrec, mpfrRnd, VC.mk]
    rfl
  · rintro (h | h | h)
    · cases h.kind
    · cases h.kind
    · obtain ⟨v, hv⟩ := h.entry 0 (by omega) 0 (by omega)
      cases hv

open CopyEx in
/-- C19 fails for an MPQ matrix without entries: converted to MPZ it gets the scale factor 0. -/
theorem C19_empty_scale_refuted (fp : Fp) :
    let A := { base 1 1 0 .csc .mpq (.mpq [some 0]) 1 with p := some [some 0, some 0], i := some [some 0] }
    Valid 1 1 A ∧ ∃ C, SLIP_matrix_copy fp true (some none) .csc .mpz (some A) none =
      .ok (.ok, some (some C)) ∧ C.scale = 0 := by
  refine ⟨Or.inl ⟨⟨rfl, rfl, ⟨_, rfl, rfl⟩, by norm_num [base]⟩, rfl, rfl, fun j hj => ?_, by simp⟩,
    _, rfl, rfl⟩
  interval_cases j
  exact ⟨0, 0, rfl, rfl, by omega, fun t h1 h2 => by omega, fun t t' h1 h2 h3 h4 _ => by omega⟩

end Slip
