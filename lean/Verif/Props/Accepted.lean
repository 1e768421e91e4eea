import Verif.Props.MatCheck
import Verif.Props.CopyRound
import Verif.Props.Factor

/-!
# Property C45: every matrix the library makes passes `SLIP_matrix_check`
-/

namespace Slip

/-! ## Specification -/

/-- `SLIP_matrix_check` returns SLIP_OK, for all options (that is, at any print level), whatever
algorithm `qsort` uses. -/
def Accepted (A : Mat) : Prop :=
  ∀ qs, QsortOk qs → ∀ opt, SLIP_matrix_check qs true (some A) opt = .ok .ok

/-! ## Proofs -/

theorem Readable.mono {pr : ℤ} {A : Mat} (h : Readable 2 A) : Readable pr A :=
  ⟨h.p, h.i, h.j, fun _ => h.x le_rfl⟩

theorem WellFormed.accepted {A : Mat} (h : WellFormed A) (hr : Readable 2 A) (hz : A.nzmax ≠ 0) :
    Accepted A := fun qs hq opt => by
  rcases C23_check_exact hq opt A hr.mono hz with h1 | h1
  · exact h1.1
  · exact absurd h h1.2

theorem Vals.set_of_dval {s : ℚ} {x : Vals} {k : ℤ} {d : Dbl} (h : x.dval s k = some d) : x.Set k := by
  cases x <;> simp only [Vals.dval, Option.map_eq_some_iff] at h <;> simp only [Vals.Set]
  all_goals first
    | (obtain ⟨v, hv, -⟩ := h; rw [hv]; rfl)
    | (rw [h]; rfl)

theorem Vals.set_of_val {s : ℚ} {x : Vals} {k : ℤ} {d : ℚ} (h : x.val s k = some d) : x.Set k := by
  cases x <;> simp only [Vals.val, Option.map_eq_some_iff, Option.bind_eq_some_iff] at h <;>
    simp only [Vals.Set]
  all_goals first
    | (obtain ⟨v, hv, -⟩ := h; rw [hv]; rfl)
    | (rw [h]; rfl)

/-- An empty CSC matrix without columns, and without room. -/
theorem accepted_empty {A : Mat} (hk : A.kind = .csc) (hm : 0 ≤ A.m) (hn : A.n = 0) (hz : A.nzmax = 0)
    (ht : A.type.good = true) (hp : ∃ p, A.p = some p) (h0 : get (deref A.p) 0 = some 0) : Accepted A := by
  intro qs _ opt
  obtain ⟨p, hp⟩ := hp
  rw [hp] at h0
  change get p 0 = _ at h0
  unfold SLIP_matrix_check SLIP_matrix_nnz
  simp only [Bool.not_true, Bool.false_eq_true, if_false, hk, hp, hn, lt_irrefl, rd_eq h0, ok_bind, hz,
    ht, if_neg (not_lt.2 hm)]
  unfold checkKind
  simp only [hk, hn, hz, gt_iff_lt, lt_irrefl, false_and, if_false, checkPtr, checkRows]
  rw [forRange_empty le_rfl, forRange_empty le_rfl]
  rfl

/-- A matrix whose entries can be read, and whose indices are as they should be. -/
theorem Entries.accepted {m n N : ℕ} {A : Mat} (h : Entries m n N A) (W : WellFormed A)
    (hz : A.nzmax ≠ 0) : Accepted A := by
  refine W.accepted ⟨fun hk _ j h0 h1 => ?_, fun M hM hk _ t h0 h1 => ?_, fun hk _ t h0 h1 => ?_,
    fun _ M hM x hx t h0 h1 => ?_⟩ hz
  · have hs := h.shape
    simp only [hk] at hs
    obtain ⟨a, ha, -⟩ := hs.2.2.1 j.toNat (by have := h.cols; omega)
    rw [Int.toNat_of_nonneg h0] at ha
    rw [ha]; rfl
  · rw [h.nnz] at hM
    cases hM
    have hs := h.shape
    cases hk' : A.kind with
    | csc =>
      simp only [hk'] at hs
      obtain ⟨i, hi⟩ := hs.2.2.2 t.toNat (by omega)
      rw [Int.toNat_of_nonneg h0] at hi
      rw [hi]; rfl
    | triplet =>
      simp only [hk'] at hs
      obtain ⟨⟨i, hi⟩, -⟩ := hs.2 t.toNat (by omega)
      rw [Int.toNat_of_nonneg h0] at hi
      rw [hi]; rfl
    | dense => exact absurd hk' hk
    | bad v => simp only [hk'] at hs
  · have hs := h.shape
    simp only [hk] at hs
    obtain ⟨-, j, hj⟩ := hs.2 t.toNat (by omega)
    rw [Int.toNat_of_nonneg h0] at hj
    rw [hj]; rfl
  · rw [h.nnz] at hM
    cases hM
    obtain ⟨d, hd⟩ := h.vals t.toNat (by omega)
    rw [Int.toNat_of_nonneg h0] at hd
    unfold Mat.dval at hd
    rw [hx] at hd
    exact Vals.set_of_dval hd

theorem dval_of_val {A : Mat} {k : ℤ} {v : ℚ} (h : A.val k = some v) : ∃ d, A.dval k = some d := by
  unfold Mat.val at h
  unfold Mat.dval
  cases hx : A.x with
  | none => rw [hx] at h; cases h
  | some x =>
    rw [hx] at h
    simp only [Option.bind_some] at h ⊢
    cases x <;> simp only [Vals.val, Option.map_eq_some_iff, Option.bind_eq_some_iff] at h <;>
      simp only [Vals.dval]
    all_goals first
      | (obtain ⟨w, hw, -⟩ := h; rw [hw]; exact ⟨_, rfl⟩)
      | (rw [h]; exact ⟨_, rfl⟩)

theorem Valid.entries {m n : ℕ} {A : Mat} (h : Valid m n A) (ho : Owns A) : ∃ N, Entries m n N A := by
  have coo : ∀ {N r c v}, Coo m n N r c v A → ∃ N, Entries m n N A := by
    intro N r c v h
    refine ⟨N, h.toHeader, ?_, fun k hk => dval_of_val (h.idx k hk).2.2.2⟩
    rcases h.shape with ⟨hk, -, hp⟩ | ⟨hk, hz, hj⟩
    · simp only [hk]
      have hN := colPtr_all fun k hk => (h.idx k hk).2.1
      refine ⟨ho.p.2 hk, by rw [hp n le_rfl, hN], fun j hj => ⟨_, hp j hj, by omega, ?_⟩,
        fun k hk => ⟨_, (h.idx k hk).2.2.1⟩⟩
      have := colPtr_mono (N := N) (c := c) hj
      rw [hN] at this
      exact_mod_cast this
    · simp only [hk]
      exact ⟨hz, fun k hk => ⟨⟨_, (h.idx k hk).2.2.1⟩, _, hj k hk⟩⟩
  rcases h with h | h | h
  · obtain ⟨N, r, c, v, hc, -⟩ := h.coo
    exact coo hc
  · obtain ⟨N, r, c, v, hc, -⟩ := h.coo
    exact coo hc
  · refine ⟨m * n, h.toHeader, by simp only [h.kind], fun k hk => ?_⟩
    obtain ⟨i, hi, j, hj, rfl⟩ := ix2_surj hk
    obtain ⟨v, hv⟩ := h.entry i hi j hj
    exact dval_of_val (by push_cast; exact hv)

theorem Valid.wellFormed {m n : ℕ} {A : Mat} (h : Valid m n A) (ho : Owns A) (hz : 0 ≤ A.nzmax) :
    WellFormed A := by
  have H : Header m n A := by
    rcases h with h | h | h
    · exact h.toHeader
    · exact h.toHeader
    · exact h.toHeader
  have ht : ∀ v, A.type ≠ .bad v := by
    obtain ⟨x, -, hx⟩ := H.typed
    intro v e
    rw [e] at hx
    cases x <;> cases hx
  have hm := H.rows
  have hn := H.cols
  rcases h with h | h | h
  · refine ⟨by omega, by omega, hz, ht, fun v => by rw [h.kind]; simp, ho.x, fun _ => ?_,
      fun hk => (by rw [h.kind] at hk; cases hk)⟩
    refine ⟨ho.p.2 h.kind, ho.i.2 (by rw [h.kind]; simp), h.p0, fun j h0 h1 => ?_⟩
    obtain ⟨a, b, ha, hb, hab, r1, r2⟩ := h.col j.toNat (by omega)
    rw [Int.toNat_of_nonneg h0] at ha hb
    refine ⟨a, b, ha, hb, hab, fun t h3 h4 => ?_, r2⟩
    obtain ⟨⟨i, hi, g⟩, -⟩ := r1 t h3 h4
    exact ⟨i, g, by omega, by omega⟩
  · refine ⟨by omega, by omega, hz, ht, fun v => by rw [h.kind]; simp, ho.x,
      fun hk => (by rw [h.kind] at hk; cases hk), fun _ => ?_⟩
    refine ⟨ho.i.2 (by rw [h.kind]; simp), ho.j.2 h.kind, h.nz, fun t h0 h1 => ?_, h.nodup⟩
    obtain ⟨⟨i, hi, gi⟩, ⟨j, hj, gj⟩, -⟩ := h.entry t h0 h1
    exact ⟨i, j, gi, gj, by omega, by omega⟩
  · exact ⟨by omega, by omega, hz, ht, fun v => by rw [h.kind]; simp, ho.x,
      fun hk => (by rw [h.kind] at hk; cases hk), fun hk => (by rw [h.kind] at hk; cases hk)⟩

/-- C45: every valid matrix with its own arrays is accepted. -/
theorem C45_valid {m n : ℕ} {A : Mat} (h : Valid m n A) (ho : Owns A) (hz : 0 < A.nzmax) :
    Accepted A := by
  obtain ⟨N, hN⟩ := h.entries ho
  exact hN.accepted (h.wellFormed ho hz.le) (by omega)

/-! ### Room -/

/-- A post-condition of the successful runs. -/
theorem wp_skip {α β : Type} {m : C α} {f : α → C β} {Q : β → Prop}
    (h : ∀ a, wp (f a) Q fun _ => True) : wp (m >>= f) Q fun _ => True := by
  cases m with
  | error e => trivial
  | ok a => exact h a

theorem allocate_room (kind : Kind) (type : Ty) (m n nz : Int) (sh i : Bool) :
    wp (allocate kind type m n nz sh i) (fun c => 0 < c.nzmax) fun _ => True := by
  unfold allocate
  by_cases h : m < 0 ∨ n < 0 ∨ kind.ok = false ∨ type.ok = false
  · rw [if_pos h]; trivial
  · rw [if_neg h]
    cases sh
    · exact lt_of_lt_of_le one_pos (le_max_right _ _)
    · exact lt_of_lt_of_le one_pos (le_max_right _ _)

theorem wp_allocate {β : Type} {kind : Kind} {type : Ty} {m n nz : Int} {sh i : Bool} {f : Mat → C β}
    {Q : β → Prop} (h : ∀ c, 0 < c.nzmax → wp (f c) Q fun _ => True) :
    wp (allocate kind type m n nz sh i >>= f) Q fun _ => True := by
  have := allocate_room kind type m n nz sh i
  cases hc : allocate kind type m n nz sh i with
  | error e => trivial
  | ok c => rw [hc] at this; exact h c this

theorem copyCscTriplet_room {fp : Fp} {opt : Option Options} {type : Ty} {A : Mat} {nz : Int} :
    wp (copyCscTriplet fp opt type A nz) (fun c => 0 < c.nzmax) fun _ => True := by
  unfold copyCscTriplet
  refine wp_allocate fun c hc => ?_
  repeat' refine wp_skip fun _ => ?_
  exact hc

theorem copyDenseCsc_room {fp : Fp} {opt : Option Options} {type : Ty} {A : Mat} {nz : Int} :
    wp (copyDenseCsc fp opt type A nz) (fun c => 0 < c.nzmax) fun _ => True := by
  unfold copyDenseCsc
  refine wp_skip fun _ => wp_skip fun _ => wp_allocate fun c hc => wp_skip fun _ => ?_
  exact hc

theorem copyBody_room {fp : Fp} {opt : Option Options} {kind : Kind} {type : Ty} {A : Mat} {nz : Int} :
    wp (copyBody fp opt kind type A nz) (fun c => 0 < c.nzmax) fun _ => True := by
  unfold copyBody
  split
  · unfold copyCscCsc
    refine wp_allocate fun c hc => ?_
    repeat' refine wp_skip fun _ => ?_
    exact hc
  · unfold copyTripletCsc
    refine wp_skip fun _ => wp_allocate fun c hc => ?_
    repeat' refine wp_skip fun _ => ?_
    exact hc
  · exact copyDenseCsc_room
  · exact copyCscTriplet_room
  · unfold copyTripletTriplet
    refine wp_allocate fun c hc => ?_
    repeat' refine wp_skip fun _ => ?_
    exact hc
  · unfold copyDenseTriplet
    refine wp_skip fun t => wp_skip fun tnz => ?_
    rw [wp_bind]
    exact wp_post copyCscTriplet_room fun c hc => hc
  · unfold copyCscDense
    refine wp_allocate fun c hc => ?_
    repeat' refine wp_skip fun _ => ?_
    exact hc
  · unfold copyTripletDense
    refine wp_allocate fun c hc => ?_
    repeat' refine wp_skip fun _ => ?_
    exact hc
  · unfold copyDenseDense
    refine wp_allocate fun c hc => ?_
    repeat' refine wp_skip fun _ => ?_
    exact hc
  · trivial

theorem copy_room {fp : Fp} {Ch : Handle Mat} {kind : Kind} {type : Ty} {A C : Mat} {opt : Option Options}
    (h : SLIP_matrix_copy fp true Ch kind type (some A) opt = .ok (.ok, some (some C))) : 0 < C.nzmax := by
  unfold SLIP_matrix_copy at h
  simp only [Bool.not_true, Bool.false_eq_true, if_false] at h
  cases hz : SLIP_matrix_nnz true (some A) with
  | error e => rw [hz] at h; cases h
  | ok z =>
    rw [hz] at h
    simp only [ok_bind] at h
    split at h
    · cases h
    · have := copyBody_room (fp := fp) (opt := opt) (kind := kind) (type := type) (A := A) (nz := z)
      cases hc : copyBody fp opt kind type A z with
      | error f => rw [hc] at h; cases f <;> cases h
      | ok c => rw [hc] at h this; cases h; exact this

/-! ## C45 -/

/-- C45: a new matrix of any kind, type and size, whose values have been initialised, is accepted. -/
theorem C45_allocated {kind : Kind} {type : Ty} {m n nzmax : ℤ} {A : Mat}
    (h : allocate kind type m n nzmax false true = .ok A) : Accepted A := by
  unfold allocate at h
  by_cases h0 : m < 0 ∨ n < 0 ∨ kind.ok = false ∨ type.ok = false
  · rw [if_pos h0] at h; cases h
  rw [if_neg h0] at h
  have hN : 1 ≤ max (if kind = .dense then m * n else nzmax) 1 := le_max_right _ _
  have hle : (if kind = .dense then m * n else nzmax) ≤ max (if kind = .dense then m * n else nzmax) 1 :=
    le_max_left _ _
  simp only [Bool.false_eq_true, if_false] at h
  cases h
  generalize (max (if kind = .dense then m * n else nzmax) 1) = M at hN hle ⊢
  push Not at h0
  obtain ⟨hm, hn, hk, ht⟩ := h0
  have hx : ∃ x, newVals type M true = some x ∧ ∀ t, 0 ≤ t → t < M → x.Set t := by
    have g : ∀ {α : Type} {v : α} {t : ℤ}, 0 ≤ t → t < M →
        (get (List.replicate M.toNat (some v)) t).isSome = true := fun {α v t} h0 h1 => by
      obtain ⟨t, rfl⟩ := Int.eq_ofNat_of_zero_le h0
      rw [get_replicate_some (by omega)]; rfl
    cases type with
    | bad v => simp [Ty.ok] at ht
    | mpz => exact ⟨_, rfl, fun t h0 h1 => g h0 h1⟩
    | mpq => exact ⟨_, rfl, fun t h0 h1 => g h0 h1⟩
    | mpfr => exact ⟨_, rfl, fun t h0 h1 => g h0 h1⟩
    | int64 => exact ⟨_, rfl, fun t h0 h1 => g h0 h1⟩
    | fp64 => exact ⟨_, rfl, fun t h0 h1 => g h0 h1⟩
  obtain ⟨x, hx, hs⟩ := hx
  have hty : ∀ v, type ≠ .bad v := fun v e => by rw [e] at ht; exact ht rfl
  have hp : ∀ j, 0 ≤ j → j ≤ n → get (calloc (n + 1)) j = some 0 := fun j h0 h1 => get_calloc h0 (by omega)
  rw [hx]
  cases kind with
  | bad v => simp [Kind.ok] at hk
  | csc =>
    have hnn : ∀ N, SLIP_matrix_nnz true (some
        { m := m, n := n, nzmax := M, nz := 0, kind := .csc, type := type, p := some (calloc (n + 1)),
          pShallow := false, i := some (calloc M), iShallow := false, j := none, jShallow := false,
          x := some x, xShallow := false, scale := 1 }) = .ok N → N = 0 := by
      intro N hN
      unfold SLIP_matrix_nnz at hN
      simp only [Bool.not_true, Bool.false_eq_true, if_false] at hN
      rw [if_neg (by omega), rd_eq (hp n (by omega) le_rfl)] at hN
      cases hN; rfl
    refine WellFormed.accepted ⟨hm, hn, by change 0 ≤ M; omega, hty, by simp, rfl, fun _ =>
        ⟨rfl, rfl, hp 0 le_rfl hn, fun j h0 h1 => ⟨0, 0, hp j h0 (by change j < n at h1; omega),
          hp (j + 1) (by omega) (by change j < n at h1; omega), le_rfl, fun t h2 h3 => by omega, fun t t' h2 h3 => by omega⟩⟩, by simp⟩
      ⟨fun _ _ j h0 h1 => Option.isSome_iff_exists.2 ⟨0, hp j h0 h1⟩,
        fun N h _ _ t h0 h1 => by have := hnn N h; omega, by simp,
        fun _ N h _ _ t h0 h1 => by have := hnn N h; omega⟩ (by change M ≠ 0; omega)
  | triplet =>
    refine WellFormed.accepted ⟨hm, hn, by change 0 ≤ M; omega, hty, by simp, rfl, by simp, fun _ =>
        ⟨rfl, rfl, le_rfl, fun t h2 h3 => absurd h3 (not_lt.2 h2), fun t t' h2 h3 => absurd h3 (not_lt.2 h2)⟩⟩
      ⟨by simp, fun N h _ _ t h0 h1 => ?_, fun _ _ t h0 h1 => absurd h1 (not_lt.2 h0),
        fun _ N h _ _ t h0 h1 => ?_⟩ (by change M ≠ 0; omega)
    · cases h; exact absurd h1 (not_lt.2 h0)
    · cases h; exact absurd h1 (not_lt.2 h0)
  | dense =>
    refine WellFormed.accepted ⟨hm, hn, by change 0 ≤ M; omega, hty, by simp, rfl, by simp, by simp⟩
      ⟨by simp, by simp, by simp, fun _ N h y hy t h0 h1 => ?_⟩ (by change M ≠ 0; omega)
    cases hy
    refine hs t h0 (lt_of_lt_of_le h1 ?_)
    unfold SLIP_matrix_nnz at h
    simp only [Bool.not_true, Bool.false_eq_true, if_false] at h
    rw [if_neg (by omega)] at h
    cases h
    exact hle

/-- C45: the copy of a valid matrix is accepted, for every conversion that is exact. -/
theorem C45_copy {fp : Fp} {opt : Option Options} {m n : ℕ} {A C : Mat} {Ch : Handle Mat}
    {kind : Kind} {type : Ty} (hA : Valid m n A) (hE : ExactConv m n opt A type)
    (hK : KindOk m n A kind type)
    (h : SLIP_matrix_copy fp true Ch kind type (some A) opt = .ok (.ok, some (some C))) :
    Accepted C := by
  have hCh : Ch ≠ none ∧ kind.ok = true := by
    unfold SLIP_matrix_copy at h
    simp only [Bool.not_true, Bool.false_eq_true, if_false] at h
    cases hz : SLIP_matrix_nnz true (some A) with
    | error e => rw [hz] at h; cases h
    | ok z =>
      rw [hz] at h
      simp only [ok_bind] at h
      split at h
      · cases h
      · rename_i hh
        push Not at hh
        exact ⟨hh.1, by simpa using hh.2.2.2.1⟩
  obtain ⟨C', e, -, -, hv, ho, -⟩ := C19_copy_exact (fp := fp) hCh.1 hA hCh.2 hE hK
  rw [e] at h
  cases h
  exact C45_valid hv ho (copy_room e)

/-- C45: converting the values of an accepted matrix to MPFR, FP64 or INT64 gives an accepted matrix. -/
theorem C45_copy_rounded {fp : Fp} {R : ToDouble} {opt : Option Options} {m n N : ℕ} {A C : Mat}
    {Ch : Handle Mat} {type : Ty} (hCh : Ch ≠ none) (hR : fp.Rounds R) (hA : Entries m n N A)
    (W : WellFormed A) (ht : type = .mpfr ∨ type = .fp64 ∨ type = .int64)
    (hC : ∀ (k : ℕ) d, k < N → A.dval k = some d → Converts R opt (A.scale = 1) A.type type d)
    (h : SLIP_matrix_copy fp true Ch A.kind type (some A) opt = .ok (.ok, some (some C))) :
    Accepted C := by
  obtain ⟨B, e, hty, hp, hB, ho, -⟩ := C42_entries_rounded hCh hR hA ht hC
  rw [e] at h
  cases h
  have hz := copy_room e
  have em := hA.rows
  have en := hA.cols
  have hm : C.m = A.m := hp.rows.trans em.symm
  have hn : C.n = A.n := hp.cols.trans en.symm
  refine hB.accepted ⟨by rw [hm]; exact W.rows, by rw [hn]; exact W.cols, hz.le, ?_, ?_, ho.x, ?_, ?_⟩
    (by omega)
  · intro v; rw [hty]; rcases ht with rfl | rfl | rfl <;> simp
  · intro v; rw [hp.kind]; exact W.kind v
  · intro hk
    rw [hp.kind] at hk
    obtain ⟨-, -, w0, wc⟩ := W.csc hk
    have hs := hA.shape
    simp only [hk] at hs
    have ep : ∀ j, 0 ≤ j → j ≤ A.n → get (deref C.p) j = get (deref A.p) j := fun j h0 h1 => by
      have := hp.p hk j.toNat (by omega)
      rwa [Int.toNat_of_nonneg h0] at this
    refine ⟨ho.p.2 (hp.kind.trans hk), ho.i.2 (by rw [hp.kind, hk]; simp), by rw [ep 0 le_rfl W.cols]; exact w0,
      fun j h0 h1 => ?_⟩
    rw [hn] at h1
    obtain ⟨a, b, ha, hb, hab, r1, r2⟩ := wc j h0 h1
    have bnd : ∀ t, a ≤ t → t < b → 0 ≤ t ∧ t < N := by
      intro t h2 h3
      obtain ⟨a', ga, ha0, -⟩ := hs.2.2.1 j.toNat (by omega)
      obtain ⟨b', gb, -, hb1⟩ := hs.2.2.1 (j + 1).toNat (by omega)
      rw [Int.toNat_of_nonneg h0, ha] at ga
      rw [Int.toNat_of_nonneg (by omega), hb] at gb
      cases ga; cases gb
      omega
    have ei : ∀ t, a ≤ t → t < b → get (deref C.i) t = get (deref A.i) t := fun t h2 h3 => by
      obtain ⟨b0, b1⟩ := bnd t h2 h3
      have := hp.i (by rw [hk]; simp) t.toNat (by omega)
      rwa [Int.toNat_of_nonneg b0] at this
    refine ⟨a, b, by rw [ep j h0 h1.le]; exact ha, by rw [ep _ (by omega) (by omega)]; exact hb, hab,
      fun t h2 h3 => ?_, fun t t' h2 h3 h4 h5 => ?_⟩
    · rw [ei t h2 h3, hm]; exact r1 t h2 h3
    · rw [ei t h2 h3, ei t' h4 h5]; exact r2 t t' h2 h3 h4 h5
  · intro hk
    rw [hp.kind] at hk
    obtain ⟨-, -, w0, wc, wd⟩ := W.triplet hk
    have hs := hA.shape
    simp only [hk] at hs
    have ei : ∀ t, 0 ≤ t → t < A.nz → get (deref C.i) t = get (deref A.i) t := fun t h2 h3 => by
      have := hp.i (by rw [hk]; simp) t.toNat (by omega)
      rwa [Int.toNat_of_nonneg h2] at this
    have ej : ∀ t, 0 ≤ t → t < A.nz → get (deref C.j) t = get (deref A.j) t := fun t h2 h3 => by
      have := hp.j hk t.toNat (by omega)
      rwa [Int.toNat_of_nonneg h2] at this
    rw [hp.nz hk, hm, hn]
    refine ⟨ho.i.2 (by rw [hp.kind, hk]; simp), ho.j.2 (hp.kind.trans hk), w0, fun t h2 h3 => ?_,
      fun t t' h2 h3 h4 h5 => ?_⟩
    · rw [ei t h2 h3, ej t h2 h3]; exact wc t h2 h3
    · rw [ei t h2 h3, ei t' h4 h5, ej t h2 h3, ej t' h4 h5]; exact wd t t' h2 h3 h4 h5

section
variable {nc : Int → Int → ℚ → Bool} {opt : Option Options} {n : ℕ} {A : Mat} {S : Analysis}
  {L U R : Mat} {pinv : Arr Int}

theorem csc_valid {L : Mat} (h : IsCsc n L) (hs : L.scale ≠ 0) {z : Arr Int} (hx : L.x = some (.mpz z)) :
    Valid n n L := by
  refine Or.inl ⟨⟨h.rows, h.cols, ⟨_, hx, h.type.symm⟩, hs⟩, h.kind, h.p0, fun j hj => ?_, h.idx⟩
  obtain ⟨a, b, ha, hb, hab, r1, r2⟩ := h.col j hj
  refine ⟨a, b, ha, hb, hab, fun t h1 h2 => ⟨(r1 t h1 h2).1, ?_⟩, r2⟩
  obtain ⟨v, hv⟩ := (r1 t h1 h2).2
  unfold Mat.xz at hv
  rw [hx] at hv
  change get z t = some v at hv
  exact ⟨(v : ℚ) / L.scale, by unfold Mat.val; rw [hx]; simp [Vals.val, hv]⟩

/-- C45: the factors L and U and the vector of pivots are accepted. -/
theorem C45_factors (hA : IsCsc n A) (hS : IsAnalysis n S) (ht : TolOk opt)
    (h : FactorizeOk nc opt A S L U R pinv) : Accepted L ∧ Accepted U ∧ Accepted R := by
  obtain ⟨cL, cU, pL, pU, dg, -⟩ := C06_factors_valid_triangular hA hS ht h
  obtain ⟨τ, hτ⟩ := hS.perm
  obtain ⟨F, tol, r, pi, c, ci, lp, up, hF, rfl, rfl, rfl, rfl, -⟩ := h.fact hA hτ hS.lnz hS.unz ht
  have room : ∀ M : Csc, IsCsc n (Mat.ofCsc M) → get M.p n = some M.nzmax →
      (∀ k : ℕ, k < n → (Mat.ofCsc M).entry k k ≠ 0) → Accepted (Mat.ofCsc M) := by
    intro M hM hp hd
    rcases Nat.eq_zero_or_pos n with rfl | hn
    · have h0 := hM.p0
      change get M.p 0 = some 0 at h0
      rw [Nat.cast_zero, h0] at hp
      exact accepted_empty rfl (by rw [hM.rows]; exact le_rfl) hM.cols (Option.some.inj hp).symm rfl
        ⟨_, rfl⟩ h0
    · refine C45_valid (csc_valid hM one_ne_zero rfl)
        ⟨⟨rfl, rfl, rfl, rfl⟩, by simp [Mat.ofCsc], by simp [Mat.ofCsc], by simp [Mat.ofCsc], rfl⟩ ?_
      by_contra hneg
      -- all column pointers are zero
      have hz : ∀ j : ℕ, j ≤ n → ∃ v, get M.p j = some v ∧ 0 ≤ v := by
        intro j
        induction j with
        | zero => intro _; exact ⟨0, hM.p0, le_rfl⟩
        | succ j ih =>
          intro hj
          obtain ⟨v, hv, h1⟩ := ih (by omega)
          obtain ⟨a, b, ha, hb, hab, -⟩ := hM.col j (by omega)
          change get M.p j = _ at ha
          change get M.p (j + 1) = _ at hb
          rw [ha] at hv; cases hv
          exact ⟨b, by push_cast; exact hb, by omega⟩
      obtain ⟨a, b, ha, hb, hab, -⟩ := hM.col (n - 1) (by omega)
      change get M.p _ = _ at ha hb
      obtain ⟨a', ga, ha0⟩ := hz (n - 1) (by omega)
      rw [ha] at ga; cases ga
      rw [show ((n - 1 : ℕ) : ℤ) + 1 = n by omega, hp] at hb
      cases hb
      refine hd (n - 1) (by omega) ?_
      unfold Mat.entry
      change (match get M.p _, get M.p _ with | some a, some b => _ | _, _ => _) = _
      rw [ha, show ((n - 1 : ℕ) : ℤ) + 1 = n by omega, hp]
      change ¬ 0 < M.nzmax at hneg
      dsimp only
      rw [Finset.Ico_eq_empty (by omega)]
      rfl
  refine ⟨room _ cL pL fun k hk => ?_, room _ cU pU fun k hk => ?_, ?_⟩
  · obtain ⟨ρ, -, h1, h2, -⟩ := dg k hk
    rw [h2]; exact h1
  · obtain ⟨ρ, -, h1, -, h2⟩ := dg k hk
    rw [h2]; exact h1
  · refine C45_valid (m := n) (n := 1) (Or.inr (Or.inr ⟨⟨hA.cols, rfl, ⟨_, rfl, rfl⟩, one_ne_zero⟩, rfl,
      fun i hi j hj => ?_⟩)) ⟨⟨rfl, rfl, rfl, rfl⟩, by simp [Mat.ofDenseZ], by simp [Mat.ofDenseZ],
        by simp [Mat.ofDenseZ], rfl⟩ (lt_of_lt_of_le one_pos (le_max_right _ _))
    obtain ⟨ρ, h1, -⟩ := dg i hi
    obtain rfl : j = 0 := by omega
    refine ⟨(ρ : ℚ) / 1, ?_⟩
    change (get F.rhos _).map _ = _
    change get F.rhos _ = _ at h1
    rw [show (i : ℤ) + ((0 : ℕ) : ℤ) * n = i by push_cast; ring, h1]
    rfl

theorem denseQ_accepted {k : ℕ} {x : Mat} (h : IsDenseQ n k x) : Accepted x := by
  obtain ⟨z, hz⟩ : ∃ z, x.x = some (.mpq z) := by
    have := h.len
    unfold Mat.xq at this
    cases hx : x.x with
    | none => rw [hx] at this; change 0 = _ at this; omega
    | some y => cases y <;> rw [hx] at this <;> first | exact ⟨_, rfl⟩ | (change 0 = _ at this; omega)
  refine C45_valid (m := n) (n := k) (Or.inr (Or.inr ⟨⟨h.rows, h.cols, ⟨_, hz, h.type.symm⟩,
    by rw [h.scale]; exact one_ne_zero⟩, h.kind, fun i hi j hj => ?_⟩)) ⟨h.owned, ?_, ?_, ?_, ?_⟩ ?_
  · obtain ⟨v, hv⟩ := h.val i hi j hj
    unfold Mat.xq at hv
    rw [hz] at hv
    exact ⟨v, by unfold Mat.val; rw [hz]; exact hv⟩
  · rw [h.noPattern.1, h.kind]; simp
  · rw [h.noPattern.2.1, h.kind]; simp
  · rw [h.noPattern.2.2, h.kind]; simp
  · rw [hz]; rfl
  · rw [h.nzmax]; exact lt_of_lt_of_le one_pos (le_max_right _ _)

/-- C45: the solution computed by `SLIP_LU_solve` is accepted. -/
theorem C45_solution {k : ℕ} {b x : Mat} {opt' : Option Options} (hA : IsCsc n A) (hS : IsAnalysis n S)
    (ht : TolOk opt) (h : FactorizeOk nc opt A S L U R pinv) (hn : 0 < n) (hb : IsDenseZ n k b)
    (hsA : A.scale ≠ 0) (hsb : b.scale ≠ 0) (hx : SolveOk opt' b A L U R S pinv x) : Accepted x :=
  denseQ_accepted (C01_solution_exact hA hS ht h hn hb hsA hsb hx).1

/-- C45: what `SLIP_backslash` returns is accepted, for each of the three types of result. -/
theorem C45_backslash {fp : Fp} {O : Orderings} {k : ℕ} {b y : Mat} {X : Handle Mat} {t : Ty}
    (hO : AmdOk O opt n) (hA : IsCsc n A) (hb : IsDenseZ n k b) (hn : 0 < n) (hsA : A.scale ≠ 0)
    (hsb : b.scale ≠ 0) (ht : TolOk opt)
    (h : SLIP_backslash fp O nc true X t (some A) (some b) opt = .ok (.ok, some (some y))) :
    Accepted y := by
  obtain ⟨X, rfl⟩ : ∃ X', X = some X' := by
    cases X with
    | none => cases h
    | some X => exact ⟨X, rfl⟩
  have hty : t = .mpq ∨ t = .fp64 ∨ t = .mpfr := by
    by_contra hno
    push Not at hno
    unfold SLIP_backslash at h
    simp only [Bool.not_true, Bool.false_eq_true, if_false, reduceCtorEq] at h
    rw [if_pos hno] at h
    cases h
  by_cases hd : (A.matrix n).det = 0
  · rw [C35_backslash_singular hO hA hb.kind hb.type ht hd hty] at h
    cases h
  obtain ⟨x, hx, -, e⟩ := backslash_core (fp := fp) (nc := nc) (X := X) hO hA hb hn hsA hsb ht hd hty
  rw [e] at h
  by_cases hq : t = .mpq
  · rw [if_pos hq] at h
    cases h
    exact denseQ_accepted hx
  rw [if_neg hq] at h
  have fin : ∀ y, SLIP_matrix_copy fp true (some none) .dense t (some x) opt = .ok (.ok, some (some y)) →
      y.kind = .dense → y.type = t → y.m = n → y.n = k → Owns y →
      (∀ x', y.x = some x' → ∀ (i : Fin n) (j : Fin k), x'.Set ((i : ℕ) + (j : ℕ) * n : ℤ)) →
      Accepted y := by
    intro y ey hk hyt hm hn' ho hv
    have hz := copy_room ey
    obtain ⟨x', hx'⟩ := Option.isSome_iff_exists.1 ho.x
    refine WellFormed.accepted ⟨by omega, by omega, hz.le, ?_, by rw [hk]; simp, ho.x, by rw [hk]; simp,
      by rw [hk]; simp⟩ ⟨by rw [hk]; simp, fun _ _ h => absurd hk h, by rw [hk]; simp, ?_⟩ (by omega)
    · rw [hyt]; rcases hty with rfl | rfl | rfl <;> simp
    · intro _ N hN x'' hx'' s h0 h1
      unfold SLIP_matrix_nnz at hN
      simp only [Bool.not_true, Bool.false_eq_true, if_false, hk] at hN
      rw [if_neg (by omega)] at hN
      cases hN
      rw [hm, hn'] at h1
      obtain ⟨i, hi, j, hj, e⟩ := ix2_surj (m := n) (n := k) (t := s.toNat) (by
        have : ((n * k : ℕ) : ℤ) = (n : ℤ) * k := by push_cast; rfl
        omega)
      have := hv x'' hx'' ⟨i, hi⟩ ⟨j, hj⟩
      dsimp only at this
      rwa [show ((i : ℕ) : ℤ) + (j : ℕ) * n = s by
        have : ((i + j * n : ℕ) : ℤ) = (i : ℤ) + j * n := by push_cast; rfl
        omega] at this
  obtain ⟨⟨y1, e1, h1⟩, y2, e2, h2⟩ := copy_denseQ (fp := fp) (opt := opt) hx
  rcases hty with rfl | rfl | rfl
  · exact absurd rfl hq
  · rw [e1] at h
    cases h
    refine fin y e1 h1.1 h1.2.1 h1.2.2.1 h1.2.2.2.1 h1.2.2.2.2.1 fun x' hx' i j => ?_
    have := h1.2.2.2.2.2 i j
    unfold Mat.xf at this
    rw [hx'] at this
    cases x' <;> first | (change get _ _ = _ at this; simp only [Vals.Set, this]; rfl) | (simp [get] at this)
  · rw [e2] at h
    cases h
    refine fin y e2 h2.1 h2.2.1 h2.2.2.1 h2.2.2.2.1 h2.2.2.2.2.1 fun x' hx' i j => ?_
    have := h2.2.2.2.2.2 i j
    unfold Mat.xr at this
    rw [hx'] at this
    cases x' <;> first | (change get _ _ = _ at this; simp only [Vals.Set, this]; rfl) | (simp [get] at this)

end

open CopyEx in
/-- C45 is false for the conversion of a dense matrix with zeros to triplet form: the call succeeds, and
checking the result reads beyond the end of its arrays. -/
theorem C45_dense_to_triplet_refuted (fp : Fp) :
    let A := base 2 2 0 .dense .mpz (.mpz [some 1, some 0, some 0, some 2]) 1
    Valid 2 2 A ∧ ∃ C, SLIP_matrix_copy fp true (some none) .triplet .mpz (some A) none =
      .ok (.ok, some (some C)) ∧ ∀ qs, SLIP_matrix_check qs true (some C) none = .error .ub :=
  ⟨(C19_dense_to_triplet_refuted fp).1, _, rfl, fun _ => rfl⟩

/-! ### Concrete cases -/

example := C45_allocated (kind := .triplet) (type := .mpfr) (m := 3) (n := 0) (nzmax := -5) rfl
example := C45_allocated (kind := .dense) (type := .mpq) (m := 3) (n := 2) (nzmax := 0) rfl
example := C45_factors Ex.A_csc Ex.S_ok Ex.tol_ok Ex.factorize_ok
example := C45_solution Ex.A_csc Ex.S_ok Ex.tol_ok Ex.factorize_ok (by decide) Ex.b_dense Ex.scale_ne.1
  Ex.scale_ne.2 Ex.solve_ok
example (t : Ty) (y : Mat) := C45_backslash (fp := Ex.fp) (nc := Ex.nc) (X := some none) (opt := none) (t := t)
  (y := y) (Ex.orderings_ok _) Ex.A_csc Ex.b_dense (by decide) Ex.scale_ne.1 Ex.scale_ne.2 Ex.tol_ok
example := C45_copy (fp := Ex.fp) (opt := none) (kind := .triplet) (type := .mpq) (Ch := some none)
  (Or.inl CopyEx.S_valid) trivial ⟨(fun _ h => by cases h), (fun h => by cases h), (fun h => by cases h)⟩ rfl

theorem RoundEx.F_ok : WellFormed RoundEx.F := by
  refine ⟨by decide, by decide, by decide, (fun v h => by cases h), (fun v h => by cases h), rfl, fun _ =>
    ⟨rfl, rfl, rfl, fun j h0 h1 => ?_⟩, (fun h => by cases h)⟩
  change j < 2 at h1
  obtain rfl | rfl : j = 0 ∨ j = 1 := by omega
  · refine ⟨0, 2, rfl, rfl, by decide, fun t h2 h3 => ?_, fun t t' h2 h3 h4 h5 => ?_⟩
    · obtain rfl | rfl : t = 0 ∨ t = 1 := by omega
      · exact ⟨0, rfl, by decide, by decide⟩
      · exact ⟨1, rfl, by decide, by decide⟩
    · obtain rfl | rfl : t = 0 ∨ t = 1 := by omega
      all_goals obtain rfl | rfl : t' = 0 ∨ t' = 1 := by omega
      all_goals decide
  · refine ⟨2, 3, rfl, rfl, by decide, fun t h2 h3 => ?_, fun t t' h2 h3 h4 h5 _ => by omega⟩
    obtain rfl : t = 2 := by omega
    exact ⟨1, rfl, by decide, by decide⟩

example := C45_copy_rounded (type := .int64) (opt := RoundEx.up) (Ch := some none) (by simp) RoundEx.fp_rounds
  RoundEx.F_entries RoundEx.F_ok (by simp) (fun k d _ _ _ => trivial) rfl

end Slip
