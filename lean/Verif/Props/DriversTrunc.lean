import Verif.Props.Drivers

/-!
# Property C37, continued: the readers reject missing arguments and incomplete files
-/

namespace Slip

/-- C37: a reader that is given no file, or no place for the result, rejects the call and changes
nothing. -/
theorem C37_readers_null (fp : Fp) (strtod : ℚ → Dbl) (init : Bool) (opt : Option Options)
    (h : Handle Mat) (f : Option Stream) (hn : h = none ∨ f = none) :
    SLIP_tripread fp init h f opt = .ok (.incorrectInput, h, f) ∧
    SLIP_tripread_double fp strtod init h f opt = .ok (.incorrectInput, h, f) ∧
    (f = none → SLIP_read_dense init h f = .ok (.incorrectInput, h, f)) := by
  rcases hn with rfl | rfl
  · exact ⟨rfl, rfl, by rintro rfl; rfl⟩
  · cases h <;> exact ⟨rfl, rfl, fun _ => rfl⟩

example (fp : Fp) : SLIP_tripread fp true none (some ⟨[.int 1], true, false⟩) none =
    .ok (.incorrectInput, none, some ⟨[.int 1], true, false⟩) :=
  (C37_readers_null fp (fun _ => .nan) true none _ _ (.inl rfl)).1

/-- The failure "incorrect input". -/
abbrev isRejected : Fail → Prop := fun e => e = .ret .incorrectInput

theorem scan3_short {s : Stream} {vs : List ℤ} (h : s.words = vs.map Word.int) (hl : vs.length ≤ 2) :
    ∃ k a b, scan3 Word.asInt s = (k, a, b, none, ⟨[], s.nl, true⟩) := by
  obtain ⟨w, nl, e⟩ := s
  simp only at h
  subst h
  match vs, hl with
  | [], _ => exact ⟨_, _, _, rfl⟩
  | [a], _ => exact ⟨_, _, _, rfl⟩
  | [a, b], _ => exact ⟨_, _, _, rfl⟩

/-- What holds before entry `p` of an incomplete file is read. -/
structure TruncInv (N : ℤ) (vs : List ℤ) (p : ℤ) (s : ReadSt ℤ) : Prop where
  li : s.i.length = (max N 1).toNat
  lj : s.j.length = (max N 1).toNat
  lx : s.x.length = (max N 1).toNat
  words : s.file.words = (vs.drop (3 * p.toNat)).map Word.int
  eof : s.file.eof = false
  more : 3 * p < vs.length

theorem wr_ok' {α : Type} {a : Arr α} {k : ℤ} {o : Option α} (h0 : 0 ≤ k) (h1 : k < a.length) :
    ∃ b, storeOpt a k o = .ok b ∧ b.length = a.length := by
  cases o with
  | none => exact ⟨_, rfl, rfl⟩
  | some v => exact ⟨_, wr_eq h0 h1, by simp⟩

theorem readEntry_trunc {N : ℤ} {vs : List ℤ} {p : ℤ} {s : ReadSt ℤ} {last : Bool}
    (h : TruncInv N vs p s) (hp0 : 0 ≤ p) (hp : p < max N 1) (hl : last = true → N ≤ p + 1 ∧ 1 ≤ p)
    (hv : (vs.length : ℤ) ≤ 3 * (N - 1)) :
    wp (readEntry Word.asInt (fun k => decide (0 ≤ k)) last p s) (TruncInv N vs (p + 1)) isRejected := by
  have hi := h.li; have hj := h.lj; have hx := h.lx
  have hm := h.more
  have hlast : last = false := by
    cases last with
    | false => rfl
    | true => have := hl rfl; omega
  subst hlast
  unfold readEntry
  by_cases h3 : 3 * (p + 1) ≤ vs.length
  · obtain ⟨a, b, c, ws, hd⟩ : ∃ a b c ws, vs.drop (3 * p.toNat) = a :: b :: c :: ws := by
      have hlen : 3 ≤ (vs.drop (3 * p.toNat)).length := by rw [List.length_drop]; omega
      match hq : vs.drop (3 * p.toNat), hlen with
      | a :: b :: c :: ws, _ => exact ⟨a, b, c, ws, rfl⟩
      | [a, b], h => simp at h
      | [a], h => simp at h
      | [], h => simp at h
    have hws : ws = vs.drop (3 * (p + 1).toNat) := by
      have : 3 * (p + 1).toNat = 3 * p.toNat + 3 := by omega
      rw [this, ← List.drop_drop, hd]
      rfl
    have hw : s.file.words = .int a :: .int b :: .int c :: ws.map Word.int := by rw [h.words, hd]; rfl
    simp only [scan3_ints hw, storeOpt, h.eof, Bool.false_or]
    rw [wr_eq (by omega) (by omega), ok_bind, wr_eq (by omega) (by omega),
      ok_bind, wr_eq (by omega) (by omega), ok_bind]
    by_cases hE : ws = []
    · rw [if_pos (by simp [hE])]
      exact rfl
    · rw [if_neg (by simp [hE])]
      rw [rd_eq (get_upd_self (by omega) (by omega) _), ok_bind,
        wr_eq (by omega) (by rw [length_upd]; omega), ok_bind,
        rd_eq (get_upd_self (by omega) (by omega) _), ok_bind,
        wr_eq (by omega) (by rw [length_upd]; omega), ok_bind, wp_pure]
      refine ⟨by simp [hi], by simp [hj], by simp [hx], by rw [← hws], by simp [hE], ?_⟩
      by_contra hc
      apply hE
      rw [hws, List.drop_eq_nil_iff]
      omega
  · have hlen : (vs.drop (3 * p.toNat)).length ≤ 2 := by rw [List.length_drop]; omega
    obtain ⟨k, a, b, e⟩ := scan3_short h.words hlen
    simp only [e]
    obtain ⟨i', e1, -⟩ := wr_ok' (a := s.i) (k := p) (o := a) (by omega) (by omega)
    obtain ⟨j', e2, -⟩ := wr_ok' (a := s.j) (k := p) (o := b) (by omega) (by omega)
    rw [e1, ok_bind, e2, ok_bind]
    exact rfl

/-- The words of a triplet file as integers. -/
def tripletInts (m n : ℕ) (es : List Triple) : List ℤ :=
  (m : ℤ) :: (n : ℤ) :: (es.length : ℤ) :: es.flatMap fun e => [(e.row + 1 : ℤ), (e.col + 1 : ℤ), e.val]

theorem tripletFile_ints (m n : ℕ) (es : List Triple) :
    tripletFile m n es = (tripletInts m n es).map Word.int := by
  unfold tripletFile tripletInts
  simp only [List.map_cons, List.map_flatMap]
  congr

/-- C37: a triplet file that ends before its last entry begins is rejected, with a NULL result. -/
theorem C37_tripread_truncated (fp : Fp) (opt : Option Options) (m n : ℕ) (es : List Triple)
    (ws : List Word) (nl : Bool) (hpre : ws <+: tripletFile m n es)
    (hlen : ws.length < 3 ∨ ws.length ≤ 3 * es.length) (h : Option Mat) :
    SLIP_tripread fp true (some h) (some ⟨ws, nl, false⟩) opt =
      .ok (.incorrectInput, some none, some ⟨ws, nl, false⟩) := by
  obtain ⟨vs, hvs, rfl⟩ : ∃ vs, vs <+: tripletInts m n es ∧ ws = vs.map Word.int := by
    rw [tripletFile_ints] at hpre
    exact (List.prefix_map_iff).1 hpre |>.imp fun _ h => h
  simp only [List.length_map] at hlen
  have key : tripreadBody fp true ⟨vs.map Word.int, nl, false⟩ opt = .error (.ret .incorrectInput) := by
    by_cases hs : vs.length < 3
    · obtain ⟨k, a, b, e⟩ := scan3_short (s := ⟨vs.map Word.int, nl, false⟩) rfl (by omega)
      unfold tripreadBody
      rw [e]
      cases a <;> cases b <;> rfl
    · obtain ⟨vs', rfl⟩ : ∃ vs', vs = (m : ℤ) :: (n : ℤ) :: (es.length : ℤ) :: vs' := by
        unfold tripletInts at hvs
        match vs, hs, hvs with
        | a :: b :: c :: vs', _, h =>
          simp only [List.cons_prefix_cons] at h
          obtain ⟨rfl, rfl, rfl, -⟩ := h
          exact ⟨_, rfl⟩
        | [], h, _ => simp at h
        | [_], h, _ => simp at h
        | [_, _], h, _ => simp at h
      have hw : (⟨((m : ℤ) :: (n : ℤ) :: (es.length : ℤ) :: vs').map Word.int, nl, false⟩ : Stream).words =
        .int m :: .int n :: .int es.length :: vs'.map Word.int := rfl
      have hlen' : (vs'.length : ℤ) ≤ 3 * ((es.length : ℤ) - 1) := by
        simp only [List.length_cons] at hlen
        omega
      unfold tripreadBody
      rw [scan3_ints hw]
      simp only [Bool.false_or]
      by_cases hE : vs' = []
      · simp [hE]
      rw [if_neg (by simp [hE]), if_neg (by simp)]
      obtain ⟨c, a, e0, -, -, -, -, -, -, hj, hi, hx, -⟩ :=
        allocate_triplet (W := .z) (m := m) (n := n) (nz := (es.length : ℤ))
      have e0' : allocate .triplet .mpz m n (es.length : ℤ) false true = .ok c := e0
      have hxl : c.xz.length = (max (es.length : ℤ) 1).toNat := by
        unfold allocate at e0'
        rw [if_neg (by simp [Kind.ok, Ty.ok])] at e0'
        simp only [if_false, reduceCtorEq, Bool.false_eq_true, if_true] at e0'
        rw [← Except.ok.inj e0']
        simp [Mat.xz, newVals]
      rw [e0', ok_bind]
      have hpos : 0 < vs'.length := List.length_pos_iff.2 hE
      have h0 : TruncInv es.length vs' 0 ⟨deref c.i, deref c.j, c.xz,
          ⟨vs'.map Word.int, nl, vs'.map Word.int |>.isEmpty⟩⟩ :=
        ⟨hi, hj, hxl, by simp, by simp [hE], by omega⟩
      have h1 := readEntry_trunc (last := false) h0 le_rfl (by omega) (by simp) hlen'
      have hloop : ∀ st, TruncInv es.length vs' (0 + 1) st → wp (forRange 1 (es.length : ℤ) st fun p st =>
          readEntry Word.asInt (fun k => decide (0 ≤ k)) (decide (p = (es.length : ℤ) - 1)) p st)
          (TruncInv es.length vs' es.length) isRejected := by
        intro st hst
        exact wp_forRange (σ := ReadSt ℤ) (fun p st => TruncInv es.length vs' p st) (by omega) hst
          fun p st hp1 hp2 hI => readEntry_trunc hI (by omega) (by omega)
            (fun h => by simp only [decide_eq_true_eq] at h; omega) hlen'
      generalize hr : readEntry Word.asInt (fun k => decide (0 ≤ k)) false 0 _ = r at h1 ⊢
      cases r with
      | error e => rw [show e = .ret .incorrectInput from h1]; rfl
      | ok st =>
        rw [ok_bind]
        have h2 := hloop st h1
        generalize hr2 : (forRange 1 (es.length : ℤ) st fun p st =>
          readEntry Word.asInt (fun k => decide (0 ≤ k)) (decide (p = (es.length : ℤ) - 1)) p st) = r2 at h2 ⊢
        cases r2 with
        | error e => rw [show e = .ret .incorrectInput from h2]; rfl
        | ok st2 =>
          have := TruncInv.more h2
          omega
  unfold SLIP_tripread
  simp only [key]
  rfl

/-- The file of the next three statements: two entries. -/
def cutEx : List Triple := [⟨0, 0, 3⟩, ⟨1, 1, 4⟩]

example (fp : Fp) : SLIP_tripread fp true (some none)
    (some ⟨[.int 2, .int 2, .int 2, .int 1, .int 1, .int 3], true, false⟩) none =
    .ok (.incorrectInput, some none, some ⟨[.int 2, .int 2, .int 2, .int 1, .int 1, .int 3], true, false⟩) :=
  C37_tripread_truncated fp none 2 2 cutEx _ true ⟨[.int 2, .int 2, .int 4], rfl⟩ (by decide) none

/-- But a file that ends inside its last entry is not rejected: a missing value is taken for 0, and if
the column is missing too, memory is accessed out of bounds. -/
theorem C37_truncated_refuted (fp : Fp) :
    (∃ A s, SLIP_tripread fp true (some none)
        (some ⟨(tripletFile 2 2 cutEx).take 8, true, false⟩) none = .ok (.ok, some (some A), some s) ∧
      A.val 1 = some 0) ∧
    SLIP_tripread fp true (some none)
        (some ⟨(tripletFile 2 2 cutEx).take 7, true, false⟩) none = .error .ub := by
  refine ⟨⟨_, _, rfl, ?_⟩, rfl⟩
  show (some ((((0 : ℤ) : ℚ)) / 1 : ℚ)) = some 0
  norm_num

theorem scan2_short {s : Stream} {vs : List ℤ} (h : s.words = vs.map Word.int) (hl : vs.length ≤ 1) :
    ∃ k a, scan2 s = (k, a, none, ⟨[], s.nl, true⟩) := by
  obtain ⟨w, nl, e⟩ := s
  simp only at h
  subst h
  match vs, hl with
  | [], _ => exact ⟨_, _, rfl⟩
  | [a], _ => exact ⟨_, _, rfl⟩

/-- The words of a dense file as integers. -/
def denseInts (m n : ℕ) (M : ℕ → ℕ → ℤ) : List ℤ :=
  (m : ℤ) :: (n : ℤ) :: (List.range m).flatMap fun i => (List.range n).map fun j => M i j

theorem denseFile_ints (m n : ℕ) (M : ℕ → ℕ → ℤ) :
    denseFile m n M = (denseInts m n M).map Word.int := by
  unfold denseFile denseInts
  simp only [List.map_cons, List.map_flatMap, List.map_map]
  rfl

theorem denseInts_length (m n : ℕ) (M : ℕ → ℕ → ℤ) : (denseInts m n M).length = m * n + 2 := by
  simp [denseInts, List.length_flatMap]

/-- C37: a dense file from which anything is missing at the end is rejected and the caller's handle is
left alone. -/
theorem C37_read_dense_truncated (m n : ℕ) (M : ℕ → ℕ → ℤ) (ws : List Word) (nl : Bool)
    (hpre : ws <+: denseFile m n M) (hne : ws ≠ denseFile m n M) (h : Option Mat) :
    SLIP_read_dense true (some h) (some ⟨ws, nl, false⟩) =
      .ok (.incorrectInput, some h, some ⟨ws, nl, false⟩) := by
  have hlen : ws.length < (denseFile m n M).length := by
    rcases Nat.lt_or_ge ws.length (denseFile m n M).length with h | h
    · exact h
    · exact absurd (hpre.eq_of_length_le h) hne
  obtain ⟨vs, hvs, rfl⟩ : ∃ vs, vs <+: denseInts m n M ∧ ws = vs.map Word.int := by
    rw [denseFile_ints] at hpre
    exact (List.prefix_map_iff).1 hpre
  rw [denseFile_ints, List.length_map, List.length_map, denseInts_length] at hlen
  have key : readDenseBody true ⟨vs.map Word.int, nl, false⟩ = .error (.ret .incorrectInput) := by
    by_cases hs : vs.length < 2
    · obtain ⟨k, a, e⟩ := scan2_short (s := ⟨vs.map Word.int, nl, false⟩) rfl (by omega)
      unfold readDenseBody
      rw [e]
      cases a <;> rfl
    · obtain ⟨vs', rfl⟩ : ∃ vs', vs = (m : ℤ) :: (n : ℤ) :: vs' := by
        unfold denseInts at hvs
        match vs, hs, hvs with
        | a :: b :: vs', _, h =>
          simp only [List.cons_prefix_cons] at h
          obtain ⟨rfl, rfl, -⟩ := h
          exact ⟨_, rfl⟩
        | [], h, _ => simp at h
        | [_], h, _ => simp at h
      have hw : (⟨((m : ℤ) :: (n : ℤ) :: vs').map Word.int, nl, false⟩ : Stream).words =
        .int m :: .int n :: vs'.map Word.int := rfl
      have hlen' : vs'.length < m * n := by
        simp only [List.length_cons] at hlen
        omega
      unfold readDenseBody
      rw [scan2_ints hw]
      simp only [Bool.false_or]
      by_cases hE : (vs'.isEmpty && !nl) = true
      · have : ((List.map Word.int vs').isEmpty && !nl) = true := by simpa using hE
        rw [this]
        rfl
      have hE' : ((List.map Word.int vs').isEmpty && !nl) = false := by simpa using hE
      rw [if_neg (by rw [hE']; simp), if_neg (by simp)]
      obtain ⟨c, a, e0, -, -, -, -, -, -, hx, -⟩ :=
        allocate_dense (W := .z) (m := m) (n := n) (nz := ((m : ℤ) * n))
      have e0' : allocate .dense .mpz m n ((m : ℤ) * n) false true = .ok c := e0
      have hxl : c.xz.length = max (m * n) 1 := by
        unfold allocate at e0'
        rw [if_neg (by simp [Kind.ok, Ty.ok])] at e0'
        simp only [if_false, reduceCtorEq, Bool.false_eq_true, if_true] at e0'
        rw [← Except.ok.inj e0']
        simp [Mat.xz, newVals]
        omega
      rw [e0', ok_bind]
      -- before element `(i, j)` is read, `i*n + j` words have been
      let Inv : ℤ → ℤ → Arr ℤ × Stream → Prop := fun i j s =>
        s.1.length = max (m * n) 1 ∧ i * n + j ≤ vs'.length ∧
          s.2.words = (vs'.drop (i * n + j).toNat).map Word.int
      have hloop : wp (forRange 0 (m : ℤ) ((c.xz, ⟨vs'.map Word.int, nl, (vs'.map Word.int).isEmpty && !nl⟩) :
          Arr ℤ × Stream) fun i (s : Arr ℤ × Stream) =>
          forRange 0 (n : ℤ) (s.1, s.2) fun j (s : Arr ℤ × Stream) => do
            let (v, file') := scan Word.asInt s.2
            if v = none ∧ s.2.words = [] then .error (.ret .incorrectInput)
            else do
              let x ← storeOpt s.1 (i + j * m) v
              pure (x, file')) (Inv m 0) isRejected := by
        refine wp_forRange (σ := Arr ℤ × Stream) (fun i s => Inv i 0 s) (by omega)
          ⟨hxl, by simp, by simp⟩ fun i s hi0 hi1 hI => ?_
        have := wp_forRange (σ := Arr ℤ × Stream) (E := isRejected) (fun j s => Inv i j s) (lo := 0) (hi := (n : ℤ))
          (s := (s.1, s.2)) (by omega) hI (f := fun j (s : Arr ℤ × Stream) => do
            let (v, file') := scan Word.asInt s.2
            if v = none ∧ s.2.words = [] then .error (.ret .incorrectInput)
            else do
              let x ← storeOpt s.1 (i + j * m) v
              pure (x, file')) fun j s hj0 hj1 hI => ?_
        · refine wp_post this fun s hs => ?_
          have e : i * (n : ℤ) + n = (i + 1) * n + 0 := by ring
          simpa only [Inv, e] using hs
        · obtain ⟨h1, h2, h3⟩ := hI
          have hpos : (0 : ℤ) ≤ i * n := by positivity
          cases hd : vs'.drop (i * n + j).toNat with
          | nil =>
            rw [hd] at h3
            have e : ∃ file', scan Word.asInt s.2 = (none, file') := by
              unfold scan
              rw [h3]
              exact ⟨_, rfl⟩
            obtain ⟨file', e⟩ := e
            simp only [e]
            rw [if_pos ⟨trivial, h3⟩]
            exact rfl
          | cons v vs'' =>
            rw [hd] at h3
            have hvs'' : vs'' = vs'.drop (i * n + (j + 1)).toNat := by
              have : (i * n + (j + 1)).toNat = (i * n + j).toNat + 1 := by omega
              rw [this, ← List.drop_drop, hd]
              rfl
            have hlt : (i * n + j).toNat < vs'.length := by
              by_contra hc
              rw [List.drop_eq_nil_iff.2 (by omega)] at hd
              cases hd
            have e : ∃ file', scan Word.asInt s.2 = (some v, file') ∧ file'.words = vs''.map Word.int := by
              unfold scan
              rw [h3]
              exact ⟨_, rfl, rfl⟩
            obtain ⟨file', e, hf⟩ := e
            simp only [e]
            rw [if_neg (by simp)]
            have hb : i + j * m < m * n := by
              have h5 : j * m ≤ (n - 1 : ℤ) * m := by
                apply mul_le_mul_of_nonneg_right <;> omega
              nlinarith
            have hb0 : 0 ≤ j * (m : ℤ) := by positivity
            have hmx : ((max (m * n) 1 : ℕ) : ℤ) ≥ m * n := by push_cast; omega
            rw [storeOpt, wr_eq (by omega) (by rw [h1]; omega), ok_bind, wp_pure]
            exact ⟨by simp [h1], by omega, by rw [hf, hvs'']⟩
      generalize hr : (forRange 0 (m : ℤ) (c.xz, _) _ : C (Arr ℤ × Stream)) = r
      have hr' : r = _ := hr.symm.trans rfl
      rw [← hr'] at hloop
      cases r with
      | error e => rw [show e = .ret .incorrectInput from hloop]; rfl
      | ok st =>
        have h2 := hloop.2.1
        have h3 : ((m * n : ℕ) : ℤ) = (m : ℤ) * n := by push_cast; rfl
        omega
  unfold SLIP_read_dense
  simp only [key]
  rfl

example : SLIP_read_dense true (some none) (some ⟨[.int 2, .int 1, .int 5], true, false⟩) =
    .ok (.incorrectInput, some none, some ⟨[.int 2, .int 1, .int 5], true, false⟩) :=
  C37_read_dense_truncated 2 1 (fun _ _ => 5) _ true ⟨[.int 5], rfl⟩ (by decide) none

end Slip
