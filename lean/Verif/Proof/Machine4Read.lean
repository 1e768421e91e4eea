import Verif.Model.Machine4
import Verif.Proof.Drivers
import Verif.Props.Machine2

/-!
# 64-bit arithmetic: reading well-formed files
-/

namespace Slip.M64
variable {α : Type}

theorem agree_of_eq {m' m : C α} {Q : α → Prop} (h : m' = m) (hw : wp m Q noFail) : Agree m' m Q := by
  subst h
  cases m'
  · exact hw.elim
  · exact ⟨rfl, hw⟩

theorem scanInt64_ints {s : Stream} {v : ℤ} {ws : List Word} (h : s.words = .int v :: ws) (h0 : -2 ^ 60 ≤ v) (h1 : v ≤ 2 ^ 60 + 1) :
    scanInt64 s = .ok (scan Word.asInt s) := by
  unfold scanInt64
  rw [scan_int h]
  dsimp only
  rw [i64_eq (by omega) (by omega)]
  rfl

theorem scan2_64_ints {s : Stream} {a b : ℤ} {ws : List Word} (h : s.words = .int a :: .int b :: ws)
    (ha0 : 0 ≤ a) (ha : a ≤ 2 ^ 60 + 1) (hb0 : 0 ≤ b) (hb : b ≤ 2 ^ 60 + 1) : scan2_64 s = .ok (scan2 s) := by
  unfold scan2_64 scan2
  rw [scanInt64_ints h (by omega) ha, ok_bind, scan_int h]
  dsimp only
  rw [scanInt64_ints rfl (by omega) hb, ok_bind, scan_int rfl]
  rfl

theorem scan3_64_ints {s : Stream} {a b c : ℤ} {ws : List Word} (h : s.words = .int a :: .int b :: .int c :: ws)
    (ha0 : 0 ≤ a) (ha : a ≤ 2 ^ 60 + 1) (hb0 : 0 ≤ b) (hb : b ≤ 2 ^ 60 + 1) :
    scan3_64 Word.asInt s = .ok (scan3 Word.asInt s) := by
  unfold scan3_64 scan3
  rw [scan2_64_ints h ha0 ha hb0 hb, ok_bind, scan2_ints h]
  dsimp only
  rw [scan_int rfl]
  rfl

theorem readEntry64_eq {es : List Triple} {rest : List Word} {p : ℕ} {s : ReadSt ℤ} {last : Bool} {good : ℤ → Bool}
    (h : ReadInv es rest p s) (hp : p < es.length) (hr : ∀ e ∈ es, (e.row : ℤ) ≤ 2 ^ 60 ∧ (e.col : ℤ) ≤ 2 ^ 60) :
    readEntry64 Word.asInt good last p s = readEntry Word.asInt good last p s := by
  have hlen : (p : ℤ) < ((max (es.length : ℤ) 1).toNat : ℤ) := by omega
  have hw : s.file.words = .int (es[p].row + 1) :: .int (es[p].col + 1) :: .int es[p].val ::
      ((es.drop (p + 1)).flatMap Triple.words ++ rest) := by
    rw [h.words, List.drop_eq_getElem_cons hp, List.flatMap_cons]
    rfl
  obtain ⟨r1, r2⟩ := hr es[p] (List.getElem_mem hp)
  have hi := h.li; have hj := h.lj; have hx := h.lx
  unfold readEntry64 readEntry
  rw [scan3_64_ints hw (by omega) (by omega) (by omega) (by omega), ok_bind, scan3_ints hw]
  simp only [storeOpt]
  rw [wr_eq (by omega) (by rw [hi]; exact hlen), ok_bind, ok_bind, wr_eq (by omega) (by rw [hj]; exact hlen),
    ok_bind, ok_bind, wr_eq (by omega) (by rw [hx]; exact hlen), ok_bind, ok_bind]
  by_cases c : (((s.file.eof || ((es.drop (p + 1)).flatMap Triple.words ++ rest).isEmpty) && !last) || !good 3) = true
  · rw [if_pos c, if_pos c]
  · rw [if_neg c, if_neg c]
    rw [rd_eq (get_upd_self (by omega) (by rw [hi]; exact hlen) _), ok_bind, ok_bind, i64_eq (by omega) (by omega), ok_bind,
      wr_eq (by omega) (by rw [length_upd, hi]; exact hlen), ok_bind, ok_bind,
      rd_eq (get_upd_self (by omega) (by rw [hj]; exact hlen) _), ok_bind, ok_bind, i64_eq (by omega) (by omega), ok_bind]

theorem readLoop64_eq {es : List Triple} {rest : List Word} {s : ReadSt ℤ} (hl : (es.length : ℤ) ≤ 2 ^ 60)
    (hr : ∀ e ∈ es, (e.row : ℤ) ≤ 2 ^ 60 ∧ (e.col : ℤ) ≤ 2 ^ 60)
    (h : ReadInv es rest 0 s) (hN : 2 ≤ es.length ∨ es.length = 1 ∧ rest ≠ []) :
    (readEntry64 Word.asInt (fun k => decide (0 ≤ k)) false 0 s >>= fun st =>
      forRange 1 es.length st fun p st => do
        let l ← i64 ((es.length : ℤ) - 1)
        readEntry64 Word.asInt (fun k => decide (0 ≤ k)) (decide (p = l)) p st) =
    (readEntry Word.asInt (fun k => decide (0 ≤ k)) false 0 s >>= fun st =>
      forRange 1 es.length st fun p st =>
        readEntry Word.asInt (fun k => decide (0 ≤ k)) (decide (p = (es.length : ℤ) - 1)) p st) := by
  refine Agree.eq (Q := fun _ => True) (Agree.bind (P := ReadInv es rest 1) (agree_of_eq ?_ ?_) fun st hst => ?_) ?_
  · exact_mod_cast readEntry64_eq (p := 0) h (by omega) hr
  · have := readEntry_spec (last := false) h (by omega) (by rcases hN with h | h; exact Or.inr (Or.inl h); exact Or.inr (Or.inr h.2))
    exact_mod_cast this
  · refine (agree_forRange (fun p st => ReadInv es rest p.toNat st) (by simpa using hst) ?_).mono fun _ _ => trivial
    intro p st h1 h2 hI
    obtain ⟨p, rfl⟩ := Int.eq_ofNat_of_zero_le (by omega : 0 ≤ p)
    simp only [Int.toNat_natCast] at hI
    have e : ((p : ℤ) + 1).toNat = p + 1 := by omega
    rw [e]
    refine agree_i64 (by omega) ?_
    refine agree_of_eq (readEntry64_eq hI (by omega) hr) (readEntry_spec hI (by omega) ?_)
    by_cases e : (p : ℤ) = (es.length : ℤ) - 1
    · left; simp [e]
    · right; left; omega
  · obtain ⟨st, e, -⟩ := wp_noFail (readLoop_spec h hN)
    rw [e]
    simp

/-- The number of entries is bounded by the number of positions. -/
theorem triples_card {m n : ℕ} {es : List Triple} (hes : TriplesOk m n es) : es.length ≤ m * n := by
  have hnd : (es.map fun e => (e.row, e.col)).Nodup := by
    rw [List.Nodup, List.pairwise_map]
    exact hes.2.imp fun h e => h ⟨congrArg Prod.fst e, congrArg Prod.snd e⟩
  have := Finset.card_le_card (s := (es.map fun e => (e.row, e.col)).toFinset) (t := Finset.range m ×ˢ Finset.range n) (by
    intro x hx
    simp only [List.mem_toFinset, List.mem_map] at hx
    obtain ⟨e, he, rfl⟩ := hx
    simpa using hes.1 e he)
  rw [List.toFinset_card_of_nodup hnd] at this
  simpa using this

theorem nnz_read {c : Mat} {i j : Option (Arr Int)} {x : Option Vals} {nz : ℤ} (hk : c.kind = .triplet) :
    SLIP_matrix_nnz true (some { c with i := i, j := j, x := x, nz := nz }) = .ok nz := by
  unfold SLIP_matrix_nnz
  simp only [hk]
  rfl

theorem copy_dims {A : Mat} {m n : ℕ} (hk : A.kind = .triplet) :
    A.kind = .dense ∨ Kind.csc = .dense → (m : ℤ) * n ≤ 2 ^ 60 := by
  rintro (h | h)
  · rw [hk] at h; cases h
  · cases h

theorem alloc64_triplet {m n nz : ℤ} {c : Mat} (h : allocate .triplet .mpz m n nz false true = .ok c) :
    allocate64 .triplet .mpz m n nz false true = .ok c := by
  have := (agree_allocate (kind := .triplet) (type := .mpz) (m := m) (n := n) (nzmax := nz) (shallow := false)
    (init := true) (fun h => by cases h) (fun h => by cases h)).eq (by rw [h]; simp)
  rw [this, h]

theorem tripread64_eq {fp : Fp} {opt : Option Options} {m n : ℕ} {es : List Triple} {rest : List Word}
    {nl : Bool} (hes : TriplesOk m n es) (hN : 2 ≤ es.length ∨ es.length = 1 ∧ rest ≠ [])
    (hm60 : (m : ℤ) ≤ 2 ^ 60) (hn60 : (n : ℤ) ≤ 2 ^ 60) (hl : (es.length : ℤ) ≤ 2 ^ 60) :
    SLIP_tripread64 fp true (some none) (some ⟨tripletFile m n es ++ rest, nl, false⟩) opt =
      SLIP_tripread fp true (some none) (some ⟨tripletFile m n es ++ rest, nl, false⟩) opt := by
  obtain ⟨C, s, hrun, -⟩ := tripread_spec (fp := fp) (opt := opt) (nl := nl) hes hN
  obtain ⟨c, a, e0, hm, hn, hk, hty, hs, -, hj, hi, hx, hu⟩ :=
    allocate_triplet (W := .z) (m := m) (n := n) (nz := (es.length : ℤ))
  have e0' : allocate .triplet .mpz m n (es.length : ℤ) false true = .ok c := e0
  have e64 := alloc64_triplet e0'
  have hxz : c.xz = a := by unfold Mat.xz; rw [hx]; rfl
  have hla : a.length = (max (es.length : ℤ) 1).toNat := by
    unfold allocate at e0'
    rw [if_neg (by simp [Kind.ok, Ty.ok])] at e0'
    simp only [if_false, reduceCtorEq, Bool.false_eq_true, if_true] at e0'
    have hc := Except.ok.inj e0'
    rw [← hxz, ← hc]
    simp [Mat.xz, newVals]
  have hwords : (⟨tripletFile m n es ++ rest, nl, false⟩ : Stream).words =
      .int m :: .int n :: .int es.length :: (es.flatMap Triple.words ++ rest) := rfl
  have hne : (es.flatMap Triple.words ++ rest).isEmpty = false := by
    cases es with
    | nil => simp at hN
    | cons e es => simp [Triple.words]
  have h0 : ReadInv es rest 0 ⟨deref c.i, deref c.j, c.xz,
      ⟨es.flatMap Triple.words ++ rest, nl, false⟩⟩ :=
    ⟨hi, hj, by rw [hxz]; exact hla, by simp, fun _ => rfl, fun t _ h => by omega⟩
  have hr : ∀ e ∈ es, (e.row : ℤ) ≤ 2 ^ 60 ∧ (e.col : ℤ) ≤ 2 ^ 60 := fun e he => by
    have := hes.1 e he
    omega
  obtain ⟨st, est, hst⟩ := wp_noFail (readLoop_spec h0 hN)
  have est64 := (readLoop64_eq hl hr h0 hN).trans est
  obtain ⟨-, hAv⟩ := readInv_valid hes hst hm hn hk hty hs
  have hcp : SLIP_matrix_copy fp true (some none) .csc .mpz
        (some { c with i := some st.i, j := some st.j, x := some (.mpz st.x), nz := es.length }) opt ≠ .error .ub →
      SLIP_matrix_copy64 fp true (some none) .csc .mpz
        (some { c with i := some st.i, j := some st.j, x := some (.mpz st.x), nz := es.length }) opt =
      SLIP_matrix_copy fp true (some none) .csc .mpz
        (some { c with i := some st.i, j := some st.j, x := some (.mpz st.x), nz := es.length }) opt :=
    fun hu => C46_copy (Or.inr (Or.inl hAv)) (nnz_read hk) hl hm60 hn60 (copy_dims hAv.kind) _ hu
  have es64 : scan3_64 Word.asInt ⟨tripletFile m n es ++ rest, nl, false⟩ =
      .ok (3, some (m : ℤ), some (n : ℤ), some (es.length : ℤ), ⟨es.flatMap Triple.words ++ rest, nl, false⟩) := by
    rw [scan3_64_ints hwords (by omega) (by omega) (by omega) (by omega), scan3_ints hwords, hne]
    rfl
  have ei : i64 (es.length : ℤ) = .ok (es.length : ℤ) := i64_eq (by omega) (by omega)
  unfold SLIP_tripread tripreadBody at hrun
  unfold SLIP_tripread64 tripreadBody64 SLIP_tripread tripreadBody
  dsimp only
  rw [es64, ok_bind]
  dsimp only
  rw [ei, ok_bind]
  simp only [scan3_ints hwords, hne, Bool.or_false, Bool.not_true, Bool.false_eq_true, if_false,
    Bool.false_or, decide_eq_true_eq, Int.lt_irrefl, e0', ok_bind] at hrun ⊢
  simp only [ok_bind, e64]
  simp only [← bind_assoc] at hrun ⊢
  rw [est] at hrun
  rw [est, est64]
  simp only [ok_bind] at hrun ⊢
  rw [hcp]
  intro e
  rw [e] at hrun
  cases hrun

end Slip.M64
