import Verif.Proof.Machine2
import Mathlib.Tactic.NormNum

/-!
# 64-bit arithmetic: the main loop of the factorization
-/

namespace Slip.M64
variable {α β σ : Type}

/-- The part of `L` or `U` that matters for index arithmetic. -/
structure MInv (n : Int) (l : ℕ) (M : Csc) : Prop where
  p : SmA M.p
  i : SmA M.i
  len : M.p.length = l
  ilen : (M.i.length : Int) = M.nzmax
  max : M.nzmax ≤ 2 ^ 60
  n : M.n = n

theorem agree_push {M : Csc} {nz row v n : Int} {l : ℕ} {f' f : Csc → C β} {Q : β → Prop} (h : MInv n l M)
    (hr : Sm row) (hf : ∀ M', MInv n l M' → Agree (f' M') (f M') Q) :
    Agree (pushEntry M nz row v >>= f') (pushEntry M nz row v >>= f) Q := by
  unfold pushEntry
  simp only [bind_assoc]
  refine agree_wr fun h0 h1 => ?_
  refine agree_same fun x => agree_same fun x => ?_
  simp only [pure_bind]
  exact hf _ ⟨h.p, h.i.upd h0 h1 hr, h.len, by simpa using h.ilen, h.max, h.n⟩

/-- The state of the loop that populates `L` and `U`: the counts are at most `B`. -/
structure PInv (n : Int) (l : ℕ) (B : Int) (s : Int × Int × Csc × Csc) : Prop where
  l0 : 0 ≤ s.1
  l1 : s.1 ≤ B
  u0 : 0 ≤ s.2.1
  u1 : s.2.1 ≤ B
  L : MInv n l s.2.2.1
  U : MInv n l s.2.2.2

theorem agree_pop {xi pinv x : Arr Int} {k j n B : Int} {l : ℕ} {s : Int × Int × Csc × Csc}
    (hx : SmA xi) (hB : B ≤ 2 ^ 60) (h : PInv n l B s) :
    Agree (popStep64 xi pinv x k j s) (popStep xi pinv x k j s) (PInv n l (B + 1)) := by
  obtain ⟨lnz, unz, L, U⟩ := s
  obtain ⟨h1, h2, h3, h4, hL, hU⟩ := h
  dsimp only at h1 h2 h3 h4 hL hU
  unfold popStep64 popStep
  dsimp only
  refine agree_rd fun jnew hj _ _ => ?_
  refine agree_same fun loc => ?_
  refine Agree.bind (P := fun s : Int × Csc => 0 ≤ s.1 ∧ s.1 ≤ B + 1 ∧ MInv n l s.2) ?_ ?_
  · refine Agree.ite (fun _ => ?_) fun _ => Agree.pure _ ⟨h3, by dsimp only; omega, hU⟩
    refine agree_same fun v => ?_
    refine agree_push hU (hx _ _ hj) fun U' hU' => ?_
    refine agree_i64 (by omega) ?_
    exact Agree.pure _ ⟨by dsimp only; omega, by dsimp only; omega, hU'⟩
  rintro ⟨unz', U'⟩ ⟨u0, u1, hU'⟩
  refine Agree.bind (P := fun s : Int × Csc => 0 ≤ s.1 ∧ s.1 ≤ B + 1 ∧ MInv n l s.2) ?_ ?_
  · refine Agree.ite (fun _ => ?_) fun _ => Agree.pure _ ⟨h1, by dsimp only; omega, hL⟩
    refine agree_same fun v => ?_
    refine agree_push hL (hx _ _ hj) fun U' hU' => ?_
    refine agree_i64 (by omega) ?_
    exact Agree.pure _ ⟨by dsimp only; omega, by dsimp only; omega, hU'⟩
  rintro ⟨lnz', L'⟩ ⟨l0, l1, hL'⟩
  exact Agree.pure _ ⟨l0, l1, u0, u1, hL', hU'⟩

/-- The state of the main loop before column `k`. -/
structure FInv (n : Int) (l : ℕ) (k : Int) (s : FactSt) : Prop where
  l0 : 0 ≤ s.lnz
  l1 : s.lnz ≤ k * n
  u0 : 0 ≤ s.unz
  u1 : s.unz ≤ k * n
  L : MInv n l s.L
  U : MInv n l s.U
  pinv : SmA s.pinv
  rp : SmA s.row_perm
  xi : SmA s.xi
  xl : (s.xi.length : Int) ≤ 2 ^ 60
  pl : (s.pinv.length : Int) = n

theorem agree_realloc {M : Csc} {n nz B : Int} {l : ℕ} (h : MInv n l M) (hB : B ≤ 2 ^ 59) (hz : nz ≤ B) :
    Agree (if nz > M.nzmax then slip_sparse_realloc64 M else pure M)
      (pure (if nz > M.nzmax then slip_sparse_realloc M else M)) (MInv n l) := by
  by_cases hc : nz > M.nzmax
  · rw [if_pos hc, if_pos hc]
    unfold slip_sparse_realloc64 slip_sparse_realloc
    have hlen := h.ilen
    refine agree_i64 (by omega) ?_
    refine Agree.pure _ ⟨h.p, h.i.append (smA_malloc _), h.len, ?_, ?_, h.n⟩
    · simp only [List.length_append, length_malloc]; omega
    · simp only; omega
  · rw [if_neg hc, if_neg hc]
    exact Agree.pure _ h

/-- Sequence a step that only the checked code performs monadically. -/
theorem agree_pureBind {m' : C α} {a : α} {f' : α → C β} {m : C β} {P : α → Prop} {Q : β → Prop}
    (h : Agree m' (pure a) P) (hf : P a → Agree (f' a) m Q) : Agree (m' >>= f') m Q := by
  obtain ⟨h1, h2⟩ := h
  rw [h1]
  exact hf h2

theorem agree_factStep {nc : Int → Int → ℚ → Bool} {order : Pivot} {tol : Dbl} {A : Csc} {q : Arr Int}
    {k : Int} {l : ℕ} {s : FactSt} (hn : 0 ≤ A.n ∧ A.n ≤ 2 ^ 29) (hk : 0 ≤ k) (hkn : k < A.n)
    (hl : (l : Int) ≤ 2 ^ 60) (hq : ∀ c, get q k = some c → Sm c) (h : FInv A.n l k s) :
    Agree (factStep64 nc order tol A q k s) (factStep nc order tol A q k s) (FInv A.n l (k + 1)) := by
  have hkk : k * A.n + A.n ≤ 2 ^ 58 := by nlinarith
  have hk0 : 0 ≤ k * A.n := mul_nonneg hk hn.1
  have h1 := h.l0
  have h2 := h.l1
  have h3 := h.u0
  have h4 := h.u1
  have hks : Sm k := sm_of_lt hk hkn (by omega)
  have hls : Sm s.lnz := by unfold Sm; omega
  have hus : Sm s.unz := by unfold Sm; omega
  unfold factStep64 factStep
  dsimp only
  refine agree_wr fun h0 h1 => ?_
  refine agree_wr fun h0' h1' => ?_
  refine agree_same fun col => ?_
  refine agree_i64 (by omega) ?_
  have hL : MInv A.n l { s.L with p := upd s.L.p k s.lnz } :=
    ⟨h.L.p.upd h0 h1 hls, h.L.i, by simpa using h.L.len, h.L.ilen, h.L.max, h.L.n⟩
  have hU : MInv A.n l { s.U with p := upd s.U.p k s.unz } :=
    ⟨h.U.p.upd h0' h1' hus, h.U.i, by simpa using h.U.len, h.U.ilen, h.U.max, h.U.n⟩
  refine agree_pureBind (agree_realloc hL (B := 2 ^ 58) (by norm_num) (by omega)) fun hL => ?_
  refine agree_i64 (by omega) ?_
  refine agree_pureBind (agree_realloc hU (B := 2 ^ 58) (by norm_num) (by omega)) fun hU => ?_
  generalize (if s.lnz + A.n > ({ s.L with p := upd s.L.p k s.lnz } : Csc).nzmax then
    slip_sparse_realloc { s.L with p := upd s.L.p k s.lnz } else { s.L with p := upd s.L.p k s.lnz }) = L at hL ⊢
  generalize (if s.unz + A.n > ({ s.U with p := upd s.U.p k s.unz } : Csc).nzmax then
    slip_sparse_realloc { s.U with p := upd s.U.p k s.unz } else { s.U with p := upd s.U.p k s.unz }) = U at hU ⊢
  refine Agree.bind (agree_tri (l := l) (xn := s.xi.length) ⟨hn.1, by omega⟩ hL.n hl h.xl hq hL.i
    (by rw [hL.ilen]; exact hL.max) h.pinv h.rp hks hL.p h.xi hL.len rfl) fun t ht => ?_
  have hxl := h.xl
  have hpl := h.pl
  refine Agree.bind (agree_pivot (by rw [ht.lenX]; exact hxl) h.pinv h.rp (by omega) hks) ?_
  rintro g ⟨hg1, hg2, hg3⟩
  have ht0 := ht.top0
  have ht1 := ht.top1
  refine Agree.bind (P := PInv A.n l (k * A.n + A.n)) ?_ ?_
  · refine Agree.mono (agree_forRange (fun j => PInv A.n l (k * A.n + (j - t.top))) ?_ ?_) ?_
    · exact ⟨h.l0, by dsimp only; omega, h.u0, by dsimp only; omega,
        ⟨ht.Lp, hL.i, ht.lenL, hL.ilen, hL.max, hL.n⟩, hU⟩
    · intro j st hj0 hj1 hst
      have := agree_pop (xi := t.xi) (pinv := g.pinv) (x := t.x) (k := k) (j := j) ht.xi
        (by omega) hst
      have e : k * A.n + (j - t.top) + 1 = k * A.n + (j + 1 - t.top) := by ring
      rwa [e] at this
    · intro st hst
      have e : max t.top A.n = A.n := by omega
      rw [e] at hst
      obtain ⟨a1, a2, a3, a4, a5, a6⟩ := hst
      exact ⟨a1, by omega, a3, by omega, a5, a6⟩
  · rintro ⟨lnz, unz, L', U'⟩ ⟨a1, a2, a3, a4, a5, a6⟩
    have e : k * A.n + A.n = (k + 1) * A.n := by ring
    rw [e] at a2 a4
    refine Agree.pure _ ⟨a1, a2, a3, a4, a5, a6, hg1, hg2, ht.xi, ?_, ?_⟩
    · show ((t.xi.length : ℕ) : Int) ≤ _
      rw [ht.lenX]; exact hxl
    · show ((g.pinv.length : ℕ) : Int) = _
      rw [hg3]; exact hpl

theorem agree_factInit {n lnz unz : Int} (hn : 0 ≤ n ∧ n ≤ 2 ^ 29) (hl : lnz ≤ 2 ^ 60) (hu : unz ≤ 2 ^ 60) :
    Agree (factInit64 n lnz unz) (factInit n lnz unz) (FInv n (n + 1).toNat 0) := by
  unfold factInit64 factInit
  refine agree_malloc64 (by omega) ?_
  refine agree_malloc64 (by omega) ?_
  refine agree_malloc64 (by omega) ?_
  refine agree_i64 (by omega) ?_
  refine agree_malloc64 (by omega) ?_
  refine agree_malloc64 (by omega) ?_
  refine Agree.bind (P := fun s : Arr Int × Arr Int × Arr Int × Arr Int =>
    SmA s.2.2.1 ∧ SmA s.2.2.2 ∧ (s.2.2.1.length : Int) = n) ?_ ?_
  · refine agree_loop (σ := Arr Int × Arr Int × Arr Int × Arr Int)
      (fun s => SmA s.2.2.1 ∧ SmA s.2.2.2 ∧ (s.2.2.1.length : Int) = n)
      ⟨smA_malloc _, smA_malloc _, by simp only [length_malloc]; omega⟩ ?_
    rintro i ⟨h, pivs, pinv, rp⟩ hi0 hi1 ⟨h1, h2, h3⟩
    have hi : Sm i := sm_of_lt hi0 hi1 (by omega)
    refine agree_same fun h => agree_same fun pivs => ?_
    refine agree_wr fun w0 w1 => ?_
    refine agree_wr fun w2 w3 => ?_
    exact Agree.pure _ ⟨h1.upd w0 w1 hi, h2.upd w2 w3 hi, by simpa using h3⟩
  rintro ⟨h, pivs, pinv, rp⟩ ⟨h1, h2, h3⟩
  dsimp only at h1 h2 h3 ⊢
  unfold allocCsc64
  dsimp only
  refine agree_i64 (by omega) ?_
  simp only [bind_assoc]
  refine agree_i64 (by omega) ?_
  simp only [pure_bind]
  refine agree_i64 (by omega) ?_
  refine agree_i64 (by omega) ?_
  rw [mul_one]
  refine agree_same fun x => ?_
  refine Agree.pure _ ⟨le_refl _, by simp, le_refl _, by simp, ?_, ?_, h1, h2, smA_malloc _, ?_, h3⟩
  · refine ⟨smA_calloc _, smA_calloc _, by simp [allocCsc], ?_, ?_, rfl⟩
    · simp only [allocCsc, length_calloc]; omega
    · simp only [allocCsc]; omega
  · refine ⟨smA_calloc _, smA_calloc _, by simp [allocCsc], ?_, ?_, rfl⟩
    · simp only [allocCsc, length_calloc]; omega
    · simp only [allocCsc]; omega
  · simp only [length_malloc]; omega

/-- The part of the factors that matters for index arithmetic in the solve. -/
structure FOut (n : Int) (F : Factors) : Prop where
  Lp : SmA F.L.p
  Li : SmA F.L.i
  Up : SmA F.U.p
  Ui : SmA F.U.i
  pinv : SmA F.pinv
  Ln : F.L.n = n
  Un : F.U.n = n

theorem agree_permuteRows {M : Csc} {pinv : Arr Int} {nz : Int} (hM : SmA M.i) (hpi : SmA pinv) :
    Agree (permuteRows M pinv nz) (permuteRows M pinv nz) (fun M' => SmA M'.i ∧ M'.p = M.p ∧ M'.n = M.n) := by
  unfold permuteRows
  refine Agree.bind (P := SmA) ?_ fun i hi => Agree.pure _ ⟨hi, rfl, rfl⟩
  refine agree_loop SmA hM ?_
  intro p Mi _ _ h
  refine agree_same fun v => ?_
  refine agree_rd fun w hw _ _ => ?_
  refine Agree.of_wp fun a h' => ?_
  obtain ⟨h0, h1, rfl⟩ := wr_ok h'
  exact h.upd h0 h1 (hpi _ _ hw)

theorem agree_collapse {M : Csc} (hM : SmA M.i) :
    Agree (slip_sparse_collapse M) (slip_sparse_collapse M) (fun M' => SmA M'.i ∧ M'.p = M.p ∧ M'.n = M.n) := by
  unfold slip_sparse_collapse
  refine agree_same fun a => Agree.pure _ ⟨hM.take _, rfl, rfl⟩

theorem agree_factorize {nc : Int → Int → ℚ → Bool} {order : Pivot} {tol : Dbl} {A : Csc} {q : Arr Int}
    {lnz unz : Int} (hn : 0 ≤ A.n ∧ A.n ≤ 2 ^ 29) 
    (hq : ∀ k c, 0 ≤ k → k < A.n → get q k = some c → Sm c)
    (hl : lnz ≤ 2 ^ 60) (hu : unz ≤ 2 ^ 60) :
    Agree (factorize64 nc order tol A q lnz unz) (factorize nc order tol A q lnz unz) (FOut A.n) := by
  unfold factorize64 factorize
  refine Agree.bind (agree_factInit hn hl hu) fun s hs => ?_
  refine Agree.bind (P := FInv A.n (A.n + 1).toNat A.n) ?_ ?_
  · refine Agree.mono (agree_forRange (FInv A.n (A.n + 1).toNat) hs fun k s h0 h1 h =>
      agree_factStep hn h0 h1 (by omega) (fun c => hq k c h0 h1) h) fun s h => ?_
    have e : max 0 A.n = A.n := by omega
    rwa [e] at h
  intro s h
  have hnn : A.n * A.n ≤ 2 ^ 58 := by nlinarith
  have h1 := h.l0
  have h2 := h.l1
  have h3 := h.u0
  have h4 := h.u1
  refine agree_wr fun w0 w1 => ?_
  refine agree_wr fun w2 w3 => ?_
  refine Agree.bind (agree_collapse h.L.i) ?_
  rintro L ⟨hL1, hL2, hL3⟩
  refine Agree.bind (agree_collapse h.U.i) ?_
  rintro U ⟨hU1, hU2, hU3⟩
  refine Agree.bind (agree_permuteRows hL1 h.pinv) ?_
  rintro L' ⟨hL4, hL5, hL6⟩
  refine Agree.bind (agree_permuteRows hU1 h.pinv) ?_
  rintro U' ⟨hU4, hU5, hU6⟩
  refine Agree.pure _ ⟨?_, hL4, ?_, hU4, h.pinv, ?_, ?_⟩
  · show SmA L'.p
    rw [hL5, hL2]
    exact h.L.p.upd w0 w1 (by unfold Sm; omega)
  · show SmA U'.p
    rw [hU5, hU2]
    exact h.U.p.upd w2 w3 (by unfold Sm; omega)
  · show L'.n = _
    rw [hL6, hL3]; exact h.L.n
  · show U'.n = _
    rw [hU6, hU3]; exact h.U.n

end Slip.M64
