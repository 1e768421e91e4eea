import Verif.SpecFile
import Verif.Proof.Workflow

/-!
# Reading files
-/

namespace Slip

theorem scan3_ints {s : Stream} {a b c : ℤ} {ws : List Word}
    (h : s.words = .int a :: .int b :: .int c :: ws) :
    scan3 Word.asInt s = (3, some a, some b, some c, ⟨ws, s.nl, s.eof || ws.isEmpty⟩) := by
  obtain ⟨w, nl, e⟩ := s
  simp only at h
  subst h
  cases ws <;> cases nl <;> cases e <;> simp [scan3, scan2, scan, Word.asInt, scanSpace]

/-- What has been read after `p` entries. -/
structure ReadInv (es : List Triple) (rest : List Word) (p : ℕ) (s : ReadSt ℤ) : Prop where
  li : s.i.length = (max (es.length : ℤ) 1).toNat
  lj : s.j.length = (max (es.length : ℤ) 1).toNat
  lx : s.x.length = (max (es.length : ℤ) 1).toNat
  words : s.file.words = (es.drop p).flatMap Triple.words ++ rest
  eof : s.file.words ≠ [] → s.file.eof = false
  done : ∀ t (ht : t < es.length), t < p → get s.i t = some (es[t].row : ℤ) ∧
    get s.j t = some (es[t].col : ℤ) ∧ get s.x t = some es[t].val

theorem readEntry_spec {es : List Triple} {rest : List Word} {p : ℕ} {s : ReadSt ℤ} {last : Bool}
    (h : ReadInv es rest p s) (hp : p < es.length)
    (hl : last = true ∨ p + 1 < es.length ∨ rest ≠ []) :
    wp (readEntry Word.asInt (fun k => decide (0 ≤ k)) last p s) (ReadInv es rest (p + 1)) noFail := by
  have hlen : (p : ℤ) < ((max (es.length : ℤ) 1).toNat : ℤ) := by omega
  have hw : s.file.words = .int (es[p].row + 1) :: .int (es[p].col + 1) :: .int es[p].val ::
      ((es.drop (p + 1)).flatMap Triple.words ++ rest) := by
    rw [h.words, List.drop_eq_getElem_cons hp, List.flatMap_cons]
    rfl
  have he : s.file.eof = false := h.eof (by rw [hw]; simp)
  have hi := h.li; have hj := h.lj; have hx := h.lx
  unfold readEntry
  simp only [scan3_ints hw, storeOpt, he, Bool.false_or]
  rw [wr_eq (by omega) (by rw [hi]; exact hlen), ok_bind, wr_eq (by omega) (by rw [hj]; exact hlen),
    ok_bind, wr_eq (by omega) (by rw [hx]; exact hlen), ok_bind]
  rw [if_neg]
  · rw [rd_eq (get_upd_self (by omega) (by rw [hi]; exact hlen) _), ok_bind,
      wr_eq (by omega) (by rw [length_upd, hi]; exact hlen), ok_bind,
      rd_eq (get_upd_self (by omega) (by rw [hj]; exact hlen) _), ok_bind,
      wr_eq (by omega) (by rw [length_upd, hj]; exact hlen), ok_bind, wp_pure]
    refine ⟨by simp [hi], by simp [hj], by simp [hx], rfl, ?_, ?_⟩
    · intro hne
      simpa using hne
    · intro t ht htp
      have hb : (p : ℤ) < (s.i.length : ℤ) := by rw [hi]; exact hlen
      have hb' : (p : ℤ) < (s.j.length : ℤ) := by rw [hj]; exact hlen
      have hb'' : (p : ℤ) < (s.x.length : ℤ) := by rw [hx]; exact hlen
      by_cases e : t = p
      · subst e
        rw [get_upd_self (by omega) (by rw [length_upd]; exact hb),
          get_upd_self (by omega) (by rw [length_upd]; exact hb'),
          get_upd_self (by omega) hb'']
        simp
      · have hne : (t : ℤ) ≠ p := by exact_mod_cast e
        rw [get_upd_ne (by omega) (by rw [length_upd]; exact hb) _ hne, get_upd_ne (by omega) hb _ hne,
          get_upd_ne (by omega) (by rw [length_upd]; exact hb') _ hne, get_upd_ne (by omega) hb' _ hne,
          get_upd_ne (by omega) hb'' _ hne]
        exact h.done t ht (by omega)
  · rcases hl with hl | hl | hl
    · simp [hl]
    · have : (List.drop (p + 1) es) ≠ [] := by simp; omega
      obtain ⟨e, es', h'⟩ := List.exists_cons_of_ne_nil this
      simp [h', Triple.words]
    · simp [hl]

theorem readLoop_spec {es : List Triple} {rest : List Word} {s : ReadSt ℤ}
    (h : ReadInv es rest 0 s) (hN : 2 ≤ es.length ∨ es.length = 1 ∧ rest ≠ []) :
    wp (readEntry Word.asInt (fun k => decide (0 ≤ k)) false 0 s >>= fun st =>
      forRange 1 es.length st fun p st =>
        readEntry Word.asInt (fun k => decide (0 ≤ k)) (decide (p = (es.length : ℤ) - 1)) p st)
      (ReadInv es rest es.length) noFail := by
  have h0 : wp (readEntry Word.asInt (fun k => decide (0 ≤ k)) false 0 s) (ReadInv es rest 1) noFail := by
    have := readEntry_spec (last := false) h (by omega) (by rcases hN with h | h; exact Or.inr (Or.inl h); exact Or.inr (Or.inr h.2))
    exact_mod_cast this
  refine wp_bind_ok h0 fun st hst => ?_
  have := wp_forRange (f := fun p st =>
      readEntry Word.asInt (fun k => decide (0 ≤ k)) (decide (p = (es.length : ℤ) - 1)) p st)
    (E := noFail) (fun p st => ReadInv es rest p.toNat st) (lo := 1) (hi := es.length) (s := st)
    (by omega) (by simpa using hst) (fun p st h1 h2 hI => by
      obtain ⟨p, rfl⟩ := Int.eq_ofNat_of_zero_le (by omega : 0 ≤ p)
      simp only [Int.toNat_natCast] at hI
      have := readEntry_spec (last := decide ((p : ℤ) = (es.length : ℤ) - 1)) hI (by omega) (by
        by_cases e : (p : ℤ) = (es.length : ℤ) - 1
        · left; simp [e]
        · right; left; omega)
      have e : ((p : ℤ) + 1).toNat = p + 1 := by omega
      rw [e]
      exact this)
  simpa using this

/-- The triplet matrix that has been read. -/
theorem readInv_valid {m n : ℕ} {es : List Triple} {rest : List Word} {st : ReadSt ℤ} {c : Mat} (hes : TriplesOk m n es)
    (hst : ReadInv es rest es.length st) (hm : c.m = m) (hn : c.n = n) (hk : c.kind = .triplet) (hty : c.type = .mpz)
    (hs : c.scale = 1) :
    (∀ t (ht : t < es.length),
      ({ c with i := some st.i, j := some st.j, x := some (.mpz st.x), nz := es.length } : Mat).val t =
        some (es[t].val : ℚ)) ∧
    ValidTriplet m n { c with i := some st.i, j := some st.j, x := some (.mpz st.x), nz := es.length } := by
  set A : Mat := { c with i := some st.i, j := some st.j, x := some (.mpz st.x), nz := es.length } with hA
  have hval : ∀ t (ht : t < es.length), A.val t = some (es[t].val : ℚ) := by
    intro t ht
    have : A.val t = (get st.x t).map fun v : ℤ => (v : ℚ) / A.scale := rfl
    rw [this, (hst.done t ht ht).2.2]
    simp [hA, hs]
  refine ⟨hval, ?_⟩
  · refine ⟨⟨hm, hn, ⟨_, rfl, hty.symm⟩, by show c.scale ≠ 0; rw [hs]; norm_num⟩, hk, by simp [hA],
      fun t h0 h1 => ?_, fun t t' h0 h1 h0' h1' hii hjj => ?_⟩
    · obtain ⟨t, rfl⟩ := Int.eq_ofNat_of_zero_le h0
      have ht : t < es.length := by simpa [hA] using h1
      obtain ⟨d1, d2, d3⟩ := hst.done t ht ht
      obtain ⟨r1, r2⟩ := hes.1 _ (List.getElem_mem ht)
      exact ⟨⟨_, r1, d1⟩, ⟨_, r2, d2⟩, _, hval t ht⟩
    · obtain ⟨t, rfl⟩ := Int.eq_ofNat_of_zero_le h0
      obtain ⟨t', rfl⟩ := Int.eq_ofNat_of_zero_le h0'
      have ht : t < es.length := by simpa [hA] using h1
      have ht' : t' < es.length := by simpa [hA] using h1'
      obtain ⟨d1, d2, -⟩ := hst.done t ht ht
      obtain ⟨d1', d2', -⟩ := hst.done t' ht' ht'
      have hii' : get st.i t = get st.i t' := hii
      have hjj' : get st.j t = get st.j t' := hjj
      rw [d1, d1'] at hii'
      rw [d2, d2'] at hjj'
      have h1 : es[t].row = es[t'].row := by exact_mod_cast Option.some.inj hii'
      have h2 : es[t].col = es[t'].col := by exact_mod_cast Option.some.inj hjj'
      rcases Nat.lt_trichotomy t t' with h | h | h
      · exact absurd ⟨h1, h2⟩ (List.pairwise_iff_getElem.1 hes.2 t t' ht ht' h)
      · rw [h]
      · exact absurd ⟨h1.symm, h2.symm⟩ (List.pairwise_iff_getElem.1 hes.2 t' t ht' ht h)

/-- Reading a well-formed triplet file. -/
theorem tripread_spec {fp : Fp} {opt : Option Options} {m n : ℕ} {es : List Triple} {rest : List Word}
    {nl : Bool} (hes : TriplesOk m n es) (hN : 2 ≤ es.length ∨ es.length = 1 ∧ rest ≠ []) :
    ∃ C s, SLIP_tripread fp true (some none) (some ⟨tripletFile m n es ++ rest, nl, false⟩) opt =
        .ok (.ok, some (some C), some s) ∧
      ValidCsc m n C ∧ C.type = .mpz ∧ Owns C ∧ C.toMatrix m n = tripletMatrix m n es ∧
      s.words = rest := by
  obtain ⟨c, a, e0, hm, hn, hk, hty, hs, -, hj, hi, hx, hu⟩ :=
    allocate_triplet (W := .z) (m := m) (n := n) (nz := (es.length : ℤ))
  have e0' : allocate .triplet .mpz m n (es.length : ℤ) false true = .ok c := e0
  have hxz : c.xz = a := by unfold Mat.xz; rw [hx]; rfl
  have hla : a.length = (max (es.length : ℤ) 1).toNat := by
    unfold allocate at e0'
    rw [if_neg (by simp [Kind.ok, Ty.ok])] at e0'
    simp only [if_false, reduceCtorEq, Bool.false_eq_true, if_true] at e0'
    have hc := Except.ok.inj e0'
    rw [← hxz, ← hc]
    simp [Mat.xz, newVals]
  have hwords : (⟨tripletFile m n es ++ rest, nl, false⟩ : Stream).words =
      .int m :: .int n :: .int es.length :: (es.flatMap Triple.words ++ rest) := rfl
  have hne : (es.flatMap Triple.words ++ rest).isEmpty = false := by
    cases es with
    | nil => simp at hN
    | cons e es => simp [Triple.words]
  have h0 : ReadInv es rest 0 ⟨deref c.i, deref c.j, c.xz,
      ⟨es.flatMap Triple.words ++ rest, nl, false⟩⟩ :=
    ⟨hi, hj, by rw [hxz]; exact hla, by simp, fun _ => rfl, fun t _ h => by omega⟩
  obtain ⟨st, est, hst⟩ := wp_noFail (readLoop_spec h0 hN)
  set A : Mat := { c with i := some st.i, j := some st.j, x := some (.mpz st.x), nz := es.length } with hA
  have hval : ∀ t (ht : t < es.length), A.val t = some (es[t].val : ℚ) := (readInv_valid hes hst hm hn hk hty hs).1
  have hAv : ValidTriplet m n A := (readInv_valid hes hst hm hn hk hty hs).2
  obtain ⟨C, eC, hCk, hCt, hCv, hCo, hCn⟩ := C19_copy_exact (fp := fp) (opt := opt) (Ch := some none)
    (by simp) (kind := .csc) (type := .mpz) (Or.inr (Or.inl hAv)) rfl
    (by unfold ExactConv; rw [show A.type = Ty.mpz from hty]; trivial)
    ⟨fun _ _ => Or.inr (Or.inr hs), fun h => (by cases h), fun h => by rw [hAv.kind] at h; cases h⟩
  refine ⟨C, st.file, ?_, hCv.csc hCk, hCt, hCo, ?_, by rw [hst.words]; simp⟩
  · unfold SLIP_tripread tripreadBody
    simp only [scan3_ints hwords, hne, Bool.or_false, Bool.not_true, Bool.false_eq_true, if_false,
      Bool.false_or, decide_eq_true_eq, Int.lt_irrefl, e0', ok_bind]
    simp only [← bind_assoc]
    rw [est]
    simp only [ok_bind]
    rw [eC]
    rfl
  · ext i j
    show C.num i j = _
    rw [hCn i j i.2 j.2]
    unfold Mat.num
    rw [hAv.kind]
    show (∑ t ∈ Finset.Ico (0 : ℤ) ((es.length : ℕ) : ℤ), _) = _
    have := sum_Ico_int 0 es.length (fun t => if get (deref A.i) t = some ((i : ℕ) : ℤ) ∧
      get (deref A.j) t = some ((j : ℕ) : ℤ) then (A.val t).getD 0 else 0)
    rw [Nat.cast_zero] at this
    rw [this]
    rw [← Finset.range_eq_Ico, Finset.sum_range]
    refine Finset.sum_congr rfl fun k _ => ?_
    obtain ⟨d1, d2, -⟩ := hst.done k k.2 k.2
    have e1 : get (deref A.i) (k : ℕ) = some (es[k].row : ℤ) := d1
    have e2 : get (deref A.j) (k : ℕ) = some (es[k].col : ℤ) := d2
    rw [e1, e2, hval k k.2]
    simp

/-! ## Dense files -/

theorem scan_int {s : Stream} {v : ℤ} {ws : List Word} (h : s.words = .int v :: ws) :
    scan Word.asInt s = (some v, ⟨ws, s.nl, s.eof || (ws.isEmpty && !s.nl)⟩) := by
  obtain ⟨w, nl, e⟩ := s
  simp only at h
  subst h
  rfl

theorem scan2_ints {s : Stream} {a b : ℤ} {ws : List Word} (h : s.words = .int a :: .int b :: ws) :
    scan2 s = (2, some a, some b, ⟨ws, s.nl, s.eof || (ws.isEmpty && !s.nl)⟩) := by
  obtain ⟨w, nl, e⟩ := s
  simp only at h
  subst h
  cases ws <;> cases nl <;> cases e <;> simp [scan2, scan, Word.asInt]

/-- The words of row `i` from column `j` on. -/
def rowFrom (n : ℕ) (M : ℕ → ℕ → ℤ) (i j : ℕ) : List Word :=
  (List.range' j (n - j)).map fun j => .int (M i j)

/-- The words of the rows from `i` on. -/
def rowsFrom (m n : ℕ) (M : ℕ → ℕ → ℤ) (i : ℕ) : List Word :=
  (List.range' i (m - i)).flatMap fun i => rowFrom n M i 0

theorem rowFrom_cons {n : ℕ} {M : ℕ → ℕ → ℤ} {i j : ℕ} (h : j < n) :
    rowFrom n M i j = .int (M i j) :: rowFrom n M i (j + 1) := by
  unfold rowFrom
  obtain ⟨d, hd⟩ : ∃ d, n - j = d + 1 := ⟨n - j - 1, by omega⟩
  rw [hd, List.range'_succ, List.map_cons, show n - (j + 1) = d by omega]

theorem rowFrom_nil {n : ℕ} {M : ℕ → ℕ → ℤ} {i : ℕ} : rowFrom n M i n = [] := by
  simp [rowFrom]

theorem rowsFrom_cons {m n : ℕ} {M : ℕ → ℕ → ℤ} {i : ℕ} (h : i < m) :
    rowsFrom m n M i = rowFrom n M i 0 ++ rowsFrom m n M (i + 1) := by
  unfold rowsFrom
  obtain ⟨d, hd⟩ : ∃ d, m - i = d + 1 := ⟨m - i - 1, by omega⟩
  rw [hd, List.range'_succ, List.flatMap_cons, show m - (i + 1) = d by omega]

theorem rowsFrom_nil {m n : ℕ} {M : ℕ → ℕ → ℤ} : rowsFrom m n M m = [] := by
  simp [rowsFrom]

theorem denseFile_eq (m n : ℕ) (M : ℕ → ℕ → ℤ) :
    denseFile m n M = .int m :: .int n :: rowsFrom m n M 0 := by
  simp [denseFile, rowsFrom, rowFrom, List.range_eq_range']

/-- What has been read before element `(i,j)`. -/
structure DenseInv (m n : ℕ) (M : ℕ → ℕ → ℤ) (rest : List Word) (i j : ℕ)
    (s : Arr ℤ × Stream) : Prop where
  len : s.1.length = max (m * n) 1
  words : s.2.words = rowFrom n M i j ++ (rowsFrom m n M (i + 1) ++ rest)
  done : ∀ i' j', i' < m → j' < n → i' < i ∨ i' = i ∧ j' < j →
    get s.1 ((i' : ℤ) + j' * m) = some (M i' j')

theorem readDense_loop {m n : ℕ} {M : ℕ → ℕ → ℤ} {rest : List Word} {s : Arr ℤ × Stream}
    (hl : s.1.length = max (m * n) 1) (hw : s.2.words = rowsFrom m n M 0 ++ rest) :
    wp (forRange 0 m s fun i (x, file) =>
        forRange 0 n (x, file) fun j (x, file) => do
          let (v, file') := scan Word.asInt file
          if v = none ∧ file.words = [] then .error (.ret .incorrectInput)
          else do
            let x ← storeOpt x (i + j * m) v
            pure (x, file'))
      (fun s => s.1.length = max (m * n) 1 ∧ s.2.words = rest ∧
        ∀ i j, i < m → j < n → get s.1 ((i : ℤ) + j * m) = some (M i j)) noFail := by
  refine wp_post (wp_forRange (fun i s => s.1.length = max (m * n) 1 ∧
      s.2.words = rowsFrom m n M i.toNat ++ rest ∧
      ∀ i' j', i' < m → j' < n → (i' : ℤ) < i → get s.1 ((i' : ℤ) + j' * m) = some (M i' j'))
    (by omega) ⟨hl, by simpa using hw, fun i' j' _ _ h => by omega⟩ ?_) ?_
  · rintro i ⟨x, file⟩ h0 h1 ⟨hl, hw, hd⟩
    obtain ⟨i, rfl⟩ := Int.eq_ofNat_of_zero_le h0
    have him : i < m := by omega
    simp only [Int.toNat_natCast] at hw hl hd
    have hstart : DenseInv m n M rest i 0 (x, file) :=
      ⟨hl, by rw [hw, rowsFrom_cons him, List.append_assoc], fun i' j' hi' hj' h => by
        rcases h with h | ⟨-, h⟩
        · exact hd i' j' hi' hj' (by omega)
        · omega⟩
    refine wp_post (wp_forRange (fun j s => DenseInv m n M rest i j.toNat s) (by omega) hstart ?_) ?_
    · rintro j ⟨x, file⟩ hj0 hj1 hI
      obtain ⟨j, rfl⟩ := Int.eq_ofNat_of_zero_le hj0
      have hjn : j < n := by omega
      simp only [Int.toNat_natCast] at hI
      have hw := hI.words
      rw [rowFrom_cons hjn] at hw
      have hlt : i + j * m < m * n := ix2_lt him hjn
      have hb : ((i : ℤ) + j * m) < (x.length : ℤ) := by
        have := hI.len
        simp only at this
        rw [this]
        have : ((i + j * m : ℕ) : ℤ) < ((max (m * n) 1 : ℕ) : ℤ) := by
          have : i + j * m < max (m * n) 1 := lt_of_lt_of_le hlt (le_max_left _ _)
          exact_mod_cast this
        push_cast at this ⊢
        exact this
      have hnn : (0 : ℤ) ≤ (i : ℤ) + j * m := by positivity
      have hw' : file.words = .int (M i j) ::
          (rowFrom n M i (j + 1) ++ (rowsFrom m n M (i + 1) ++ rest)) := hw
      simp only [scan_int hw', reduceCtorEq, false_and, if_false, storeOpt]
      rw [wr_eq hnn hb, ok_bind, wp_pure]
      have e : ((j : ℤ) + 1).toNat = j + 1 := by omega
      rw [e]
      refine ⟨by simpa using hI.len, rfl, fun i' j' hi' hj' h => ?_⟩
      simp only
      by_cases hij : i' = i ∧ j' = j
      · obtain ⟨rfl, rfl⟩ := hij
        rw [get_upd_self hnn hb]
      · rw [get_upd_ne hnn hb]
        · exact hI.done i' j' hi' hj' (by omega)
        · intro he
          apply hij
          have he' : i' + j' * m = i + j * m := by exact_mod_cast he
          have a := ix2_mod (m := m) (j := j') hi'
          have b := ix2_mod (m := m) (j := j) him
          rw [he'] at a
          exact ⟨a.1.symm.trans b.1, a.2.symm.trans b.2⟩
    · rintro ⟨x, file⟩ hI
      simp only [Int.toNat_natCast] at hI
      have e : ((i : ℤ) + 1).toNat = i + 1 := by omega
      refine ⟨hI.len, ?_, fun i' j' hi' hj' h => hI.done i' j' hi' hj' (by omega)⟩
      rw [e]
      simpa [rowFrom_nil] using hI.words
  · rintro ⟨x, file⟩ ⟨h1, h2, h3⟩
    refine ⟨h1, ?_, fun i j hi hj => h3 i j hi hj (by exact_mod_cast hi)⟩
    simpa [rowsFrom_nil] using h2

/-- Reading a well-formed dense file. -/
theorem readDense_spec {m n : ℕ} {M : ℕ → ℕ → ℤ} {rest : List Word} {nl : Bool}
    (hne : 0 < m * n ∨ rest ≠ [] ∨ nl = true) (bh : Option Mat) :
    ∃ b s, SLIP_read_dense true (some bh) (some ⟨denseFile m n M ++ rest, nl, false⟩) =
        .ok (.ok, some (some b), some s) ∧
      ValidDense m n b ∧ b.type = .mpz ∧ Owns b ∧ b.toMatrix m n = ratMatrix m n M ∧
      s.words = rest := by
  obtain ⟨c, a, e0, hm, hn, hk, hty, hs, ho, hx, hu⟩ :=
    allocate_dense (W := .z) (m := m) (n := n) (nz := ((m : ℤ) * n))
  have e0' : allocate .dense .mpz m n ((m : ℤ) * n) false true = .ok c := e0
  have hxz : c.xz = a := by unfold Mat.xz; rw [hx]; rfl
  have hla : a.length = max (m * n) 1 := by
    unfold allocate at e0'
    rw [if_neg (by simp [Kind.ok, Ty.ok])] at e0'
    simp only [if_false, reduceCtorEq, Bool.false_eq_true, if_true] at e0'
    have hc := Except.ok.inj e0'
    rw [← hxz, ← hc]
    simp [Mat.xz, newVals]
    omega
  have hwords : (⟨denseFile m n M ++ rest, nl, false⟩ : Stream).words =
      .int m :: .int n :: (rowsFrom m n M 0 ++ rest) := by rw [denseFile_eq]; rfl
  have hnl : ((rowsFrom m n M 0 ++ rest).isEmpty && !nl) = false := by
    rcases hne with h | h | h
    · have hm0 : 0 < m := Nat.pos_of_mul_pos_right h
      have hn0 : 0 < n := Nat.pos_of_mul_pos_left h
      rw [rowsFrom_cons hm0, rowFrom_cons hn0]
      simp
    · simp [h]
    · simp [h]
  obtain ⟨⟨x, file⟩, est, hl, hw, hd⟩ := wp_noFail (readDense_loop (m := m) (n := n) (M := M) (rest := rest)
    (s := (c.xz, ⟨rowsFrom m n M 0 ++ rest, nl, false⟩)) (by rw [hxz]; exact hla) rfl)
  set b : Mat := { c with x := some (.mpz x) } with hb
  have hval : ∀ i j, i < m → j < n → b.val ((i : ℤ) + j * m) = some (M i j : ℚ) := by
    intro i j hi hj
    have : b.val ((i : ℤ) + j * m) = (get x ((i : ℤ) + j * m)).map fun v : ℤ => (v : ℚ) / b.scale := rfl
    rw [this, hd i j hi hj]
    simp [hb, hs]
  refine ⟨b, file, ?_, ⟨⟨hm, hn, ⟨_, rfl, hty.symm⟩, by show c.scale ≠ 0; rw [hs]; norm_num⟩, hk,
    fun i hi j hj => ⟨_, hval i j hi hj⟩⟩, hty, ⟨ho.notShallow, ho.p, ho.i, ho.j, rfl⟩, ?_, hw⟩
  · unfold SLIP_read_dense readDenseBody
    simp only [scan2_ints hwords, hnl, Bool.or_false, Bool.not_true, Bool.false_eq_true, if_false,
      Bool.false_or, decide_eq_true_eq, Int.lt_irrefl, e0', ok_bind]
    rw [est]
    rfl
  · ext i j
    show b.num i j = _
    unfold Mat.num
    rw [show b.kind = .dense from hk, show b.m = m from hm]
    simp only [hval i j i.2 j.2, Option.getD_some, ratMatrix, Matrix.of_apply]

end Slip
