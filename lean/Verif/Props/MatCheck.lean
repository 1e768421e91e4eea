import Verif.Proof.MatCheck
import Verif.Proof.Copy
import Verif.Example
import Mathlib.Data.List.Sort

/-!
# Properties C23 and C24: the matrix checker and counting
-/

namespace Slip

/-! ## Specification -/

/-- What `SLIP_matrix_check` documents: a matrix with all its parts, in-range indices and no
duplicates. The values themselves are not examined. -/
structure WellFormed (A : Mat) : Prop where
  rows : 0 ≤ A.m
  cols : 0 ≤ A.n
  room : 0 ≤ A.nzmax
  type : ∀ v, A.type ≠ .bad v
  kind : ∀ v, A.kind ≠ .bad v
  x : A.x.isSome = true
  /-- column pointers start at 0, do not decrease; rows are in range, not repeated in a column -/
  csc : A.kind = .csc → A.p.isSome = true ∧ A.i.isSome = true ∧ get (deref A.p) 0 = some 0 ∧
    ∀ j, 0 ≤ j → j < A.n → ∃ a b, get (deref A.p) j = some a ∧ get (deref A.p) (j + 1) = some b ∧
      a ≤ b ∧ (∀ t, a ≤ t → t < b → ∃ r, get (deref A.i) t = some r ∧ 0 ≤ r ∧ r < A.m) ∧
      ∀ t t', a ≤ t → t < b → a ≤ t' → t' < b → get (deref A.i) t = get (deref A.i) t' → t = t'
  /-- rows and columns are in range, no pair is repeated -/
  triplet : A.kind = .triplet → A.i.isSome = true ∧ A.j.isSome = true ∧ 0 ≤ A.nz ∧
    (∀ t, 0 ≤ t → t < A.nz → ∃ r c, get (deref A.i) t = some r ∧ get (deref A.j) t = some c ∧
      (0 ≤ r ∧ r < A.m) ∧ 0 ≤ c ∧ c < A.n) ∧
    ∀ t t', 0 ≤ t → t < A.nz → 0 ≤ t' → t' < A.nz → get (deref A.i) t = get (deref A.i) t' →
      get (deref A.j) t = get (deref A.j) t' → t = t'

/-- Entry `t` of a values array has been written. -/
def Vals.Set (x : Vals) (t : ℤ) : Prop :=
  match x with
  | .mpz a => (get a t).isSome = true
  | .mpq a => (get a t).isSome = true
  | .mpfr a => (get a t).isSome = true
  | .int64 a => (get a t).isSome = true
  | .fp64 a => (get a t).isSome = true

/-- The arrays that are present have the sizes that the header and the column pointers call for, and
have been written: a checker cannot find out the size of a C array. The values matter only if they
are to be printed. -/
structure Readable (pr : ℤ) (A : Mat) : Prop where
  p : A.kind = .csc → A.p.isSome = true → ∀ j, 0 ≤ j → j ≤ A.n → (get (deref A.p) j).isSome = true
  i : ∀ N, SLIP_matrix_nnz true (some A) = .ok N → A.kind ≠ .dense → A.i.isSome = true →
    ∀ t, 0 ≤ t → t < N → (get (deref A.i) t).isSome = true
  j : A.kind = .triplet → A.j.isSome = true →
    ∀ t, 0 ≤ t → t < A.nz → (get (deref A.j) t).isSome = true
  x : 2 ≤ pr → ∀ N, SLIP_matrix_nnz true (some A) = .ok N → ∀ x, A.x = some x →
    ∀ t, 0 ≤ t → t < N → x.Set t

theorem printVal_ok {A : Mat} {x : Vals} {t : ℤ} (hx : A.x = some x) (h : x.Set t) :
    printVal A t = .ok () := by
  unfold printVal
  rw [hx]
  cases x <;> simp only [Vals.Set, Option.isSome_iff_exists] at h <;>
    (obtain ⟨v, hv⟩ := h; simp only [rd_eq hv]; rfl)

/-- A part of the check, run to its end. -/
theorem finish {P : Prop} {m : C Unit} (h : wp m (fun _ => P) (rejects P)) :
    (codeOf m = .ok .ok ∧ P) ∨ (codeOf m = .ok .incorrectInput ∧ ¬ P) := by
  cases m with
  | ok u => exact Or.inl ⟨rfl, h⟩
  | error e =>
    obtain ⟨rfl, h⟩ := h
    exact Or.inr ⟨rfl, h⟩

/-- C23: on every matrix whose arrays are as large as it says, with `nzmax >= 1` (as
`SLIP_matrix_allocate` ensures), `SLIP_matrix_check` returns SLIP_OK if the matrix is well formed and
SLIP_INCORRECT_INPUT if not. -/
theorem C23_check_exact {qs : List (Int × Int) → List (Int × Int)} (hq : QsortOk qs)
    (opt : Option Options) (A : Mat) (hr : Readable (optPrint opt) A) (hz : A.nzmax ≠ 0) :
    (SLIP_matrix_check qs true (some A) opt = .ok .ok ∧ WellFormed A) ∨
    (SLIP_matrix_check qs true (some A) opt = .ok .incorrectInput ∧ ¬ WellFormed A) := by
  -- the number of entries can be computed
  have hnz : ∃ N, SLIP_matrix_nnz true (some A) = .ok N := by
    unfold SLIP_matrix_nnz
    simp only [Bool.not_true, Bool.false_eq_true, if_false]
    cases hk : A.kind with
    | csc =>
      cases hp : A.p with
      | none => exact ⟨_, rfl⟩
      | some p =>
        dsimp only
        by_cases hn : A.n < 0
        · rw [if_pos hn]; exact ⟨_, rfl⟩
        · rw [if_neg hn]
          obtain ⟨v, hv⟩ := Option.isSome_iff_exists.1 (hr.p hk (by rw [hp]; rfl) A.n (by omega) le_rfl)
          rw [hp] at hv
          exact ⟨v, rd_eq hv⟩
    | triplet => exact ⟨_, rfl⟩
    | dense =>
      dsimp only
      split <;> exact ⟨_, rfl⟩
    | bad v => exact ⟨_, rfl⟩
  obtain ⟨N, hN⟩ := hnz
  unfold SLIP_matrix_check
  simp only [Bool.not_true, Bool.false_eq_true, if_false]
  rw [hN, ok_bind]
  have hN' := hN
  unfold SLIP_matrix_nnz at hN'
  simp only [Bool.not_true, Bool.false_eq_true, if_false] at hN'
  by_cases h0 : N < 0
  · -- rejected because of the count
    rw [if_pos h0]
    refine Or.inr ⟨rfl, fun W => ?_⟩
    cases hk : A.kind with
    | csc =>
      obtain ⟨hp, -, hp0, hcol⟩ := W.csc hk
      obtain ⟨p, hp⟩ := Option.isSome_iff_exists.1 hp
      simp only [hk, hp] at hN'
      rw [if_neg (by have := W.cols; omega)] at hN'
      have hall : ∀ j : ℕ, (j : ℤ) ≤ A.n → ∃ v, get (deref A.p) j = some v ∧ 0 ≤ v := by
        intro j
        induction j with
        | zero => intro _; exact ⟨0, hp0, le_rfl⟩
        | succ j ih =>
          intro hj
          obtain ⟨v, hv, h1⟩ := ih (by push_cast at hj; omega)
          obtain ⟨a, b, ha, hb, hab, -⟩ := hcol j (by omega) (by push_cast at hj; omega)
          rw [ha] at hv
          cases hv
          exact ⟨b, by push_cast; exact hb, by omega⟩
      obtain ⟨v, hv, h1⟩ := hall A.n.toNat (by have := W.cols; omega)
      rw [Int.toNat_of_nonneg W.cols] at hv
      have := rd_ok hN'
      rw [hp] at hv
      change get p _ = _ at hv
      rw [this] at hv
      cases hv
      omega
    | triplet =>
      simp only [hk] at hN'
      cases hN'
      have := (W.triplet hk).2.2.1
      omega
    | dense =>
      simp only [hk] at hN'
      rw [if_neg (by have := W.rows; have := W.cols; omega)] at hN'
      cases hN'
      have := mul_nonneg W.rows W.cols
      omega
    | bad v => exact W.kind v hk
  rw [if_neg h0]
  by_cases hm : A.m < 0
  · rw [if_pos hm]
    exact Or.inr ⟨rfl, fun W => by have := W.rows; omega⟩
  rw [if_neg hm]
  by_cases hn : A.n < 0
  · rw [if_pos hn]
    exact Or.inr ⟨rfl, fun W => by have := W.cols; omega⟩
  rw [if_neg hn]
  by_cases hzm : A.nzmax < 0
  · rw [if_pos hzm]
    exact Or.inr ⟨rfl, fun W => by have := W.room; omega⟩
  rw [if_neg hzm]
  cases hty : A.type.good with
  | false =>
    refine Or.inr ⟨rfl, fun W => ?_⟩
    cases ht : A.type <;> simp only [ht, Ty.good] at hty <;> first | exact absurd ht (W.type _) | cases hty
  | true =>
  have hty' : ∀ v, A.type ≠ .bad v := fun v h => by rw [h] at hty; cases hty
  simp only [Bool.not_true, Bool.false_eq_true, if_false]
  have hxp : ∀ x, A.x = some x → 2 ≤ optPrint opt → ∀ t, 0 ≤ t → t < N → printVal A t = .ok () :=
    fun x hx h t h1 h2 => printVal_ok hx (hr.x h N hN x hx t h1 h2)
  -- it remains to compare `checkKind` with the parts specific to the kind
  suffices h : wp (checkKind qs A N (optPrint opt)) (fun _ => WellFormed A) (rejects (WellFormed A)) from
    finish h
  unfold checkKind
  cases hk : A.kind with
  | csc =>
    dsimp only
    cases hp : A.p with
    | none => simp only [hk, hp] at hN'; cases hN'; omega
    | some p =>
    have hpr : ∀ j, 0 ≤ j → j ≤ A.n → get p j = some ((get p j).getD 0) := by
      intro j h1 h2
      obtain ⟨v, hv⟩ := Option.isSome_iff_exists.1 (hr.p hk (by rw [hp]; rfl) j h1 h2)
      rw [hp] at hv
      change get p j = _ at hv
      rw [hv]; rfl
    simp only [hk, hp] at hN'
    rw [if_neg hn] at hN'
    have hNn := rd_ok hN'
    rw [if_pos ⟨by omega, by simp⟩]
    change wp (rd p 0 >>= _) _ _
    rw [rd_eq (hpr 0 le_rfl (by omega)), ok_bind]
    have toP : WellFormed A → (get p 0).getD 0 = 0 ∧ A.i.isSome = true ∧
        (∀ j, 0 ≤ j → j < A.n → (get p j).getD 0 ≤ (get p (j + 1)).getD 0) := by
      intro W
      obtain ⟨-, hi, hp0, hcol⟩ := W.csc hk
      rw [hp] at hp0 hcol
      refine ⟨by change get p 0 = _ at hp0; rw [hp0]; rfl, hi, fun j h1 h2 => ?_⟩
      obtain ⟨a, b, ha, hb, hab, -⟩ := hcol j h1 h2
      change get p j = _ at ha
      change get p (j + 1) = _ at hb
      rw [ha, hb]; exact hab
    split
    · rename_i h
      refine ⟨rfl, fun W => ?_⟩
      rcases h.2 with h | h
      · cases h
      · exact h (toP W).1
    rename_i hcond
    have hp00 : (get p 0).getD 0 = 0 := by
      by_contra hh; exact hcond ⟨by omega, Or.inr hh⟩
    rw [wp_bind]
    refine wp_mono (checkPtr_spec N (by omega) hpr) (fun _ hmono => ?_) ?_
    swap
    · rintro e ⟨he, hno⟩
      refine ⟨he, fun W => hno fun j h1 h2 => ⟨(toP W).2.2 j h1 h2, ?_⟩⟩
      -- a pointer exceeds the last one: not monotone
      have hm' := (toP W).2.2
      have hall : ∀ d : ℕ, j + 1 + d ≤ A.n → (get p (j + 1)).getD 0 ≤ (get p (j + 1 + d)).getD 0 := by
        intro d
        induction d with
        | zero => intro _; simp
        | succ d ih =>
          intro hd
          have h3 := ih (by push_cast at hd; omega)
          have h4 := hm' (j + 1 + d) (by omega) (by push_cast at hd; omega)
          push_cast
          rw [← add_assoc]
          omega
      have := hall (A.n - (j + 1)).toNat (by omega)
      rw [show j + 1 + ((A.n - (j + 1)).toNat : ℤ) = A.n by omega, hNn] at this
      exact this
    split
    · rename_i h
      refine ⟨rfl, fun W => ?_⟩
      rcases h.2 with h | h
      · have := (toP W).2.1; rw [h] at this; cases this
      · have := W.x; rw [h] at this; cases this
    rename_i hcond2
    obtain ⟨i, hi⟩ : ∃ i, A.i = some i := Option.ne_none_iff_exists'.1 fun h => hcond2 ⟨by omega, Or.inl h⟩
    obtain ⟨x, hx⟩ : ∃ x, A.x = some x := Option.ne_none_iff_exists'.1 fun h => hcond2 ⟨by omega, Or.inr h⟩
    rw [hi]
    change wp (checkRows A p i _) _ _
    have hir : ∀ t, 0 ≤ t → t < N → get i t = some ((get i t).getD 0) := by
      intro t h1 h2
      obtain ⟨v, hv⟩ := Option.isSome_iff_exists.1 (hr.i N hN (by rw [hk]; simp) (by rw [hi]; rfl) t h1 h2)
      rw [hi] at hv
      change get i t = _ at hv
      rw [hv]; rfl
    have hpos : ∀ d : ℕ, (d : ℤ) ≤ A.n → 0 ≤ (get p d).getD 0 := by
      intro d
      induction d with
      | zero => intro _; simp [hp00]
      | succ d ih =>
        intro hd
        have h3 := ih (by push_cast at hd; omega)
        have h4 := (hmono d (by omega) (by push_cast at hd; omega)).1
        push_cast
        omega
    refine wp_mono (checkRows_spec rfl rfl (by omega) (by omega) hpr hp00 hmono hir (hxp x hx)) ?_ ?_
    · intro _ hall
      refine ⟨by omega, by omega, by omega, hty', by simp [hk], by rw [hx]; rfl,
        fun _ => ⟨by rw [hp]; rfl, by rw [hi]; rfl, ?_, fun j h1 h2 => ?_⟩, by simp [hk]⟩
      · rw [hp]; change get p 0 = _; rw [hpr 0 le_rfl (by omega), hp00]
      · rw [hp, hi]
        change ∃ a b, get p j = some a ∧ get p (j + 1) = some b ∧ a ≤ b ∧ (∀ t, a ≤ t → t < b →
          ∃ r, get i t = some r ∧ _) ∧ ∀ t t', a ≤ t → t < b → a ≤ t' → t' < b → get i t = get i t' → _
        have hj := hpos j.toNat (by omega)
        rw [Int.toNat_of_nonneg h1] at hj
        obtain ⟨m1, m2⟩ := hmono j h1 h2
        obtain ⟨c1, c2⟩ := hall j h1 h2
        refine ⟨_, _, hpr j h1 (by omega), hpr (j + 1) (by omega) (by omega), m1, fun t h3 h4 =>
          ⟨_, hir t (by omega) (by omega), c1 t h3 h4⟩, fun t t' h3 h4 h5 h6 e => c2 t t' h3 h4 h5 h6 ?_⟩
        dsimp only
        rw [e]
    · rintro e ⟨he, hno⟩
      refine ⟨he, fun W => hno fun j h1 h2 => ?_⟩
      obtain ⟨a, b, ha, hb, hab, r1, r2⟩ := (W.csc hk).2.2.2 j h1 h2
      rw [hp] at ha hb
      change get p j = _ at ha
      change get p (j + 1) = _ at hb
      rw [hi] at r1 r2
      rw [ha, hb]
      obtain ⟨m1, m2⟩ := hmono j h1 h2
      have hj := hpos j.toNat (by omega)
      rw [Int.toNat_of_nonneg h1] at hj
      rw [ha] at hj
      rw [hb] at m2
      refine ⟨fun t h3 h4 => ?_, fun t t' h3 h4 h5 h6 e => r2 t t' h3 h4 h5 h6 ?_⟩
      · obtain ⟨r, g, h⟩ := r1 t h3 h4
        change get i t = _ at g
        dsimp only
        rw [g]; exact h
      · change get i t = get i t'
        simp only [Option.getD_some] at hj m2 h3 h4 h5 h6
        dsimp only at e
        rw [hir t (by omega) (by omega), hir t' (by omega) (by omega), e]
  | triplet =>
    dsimp only
    simp only [hk] at hN'
    cases hN'
    split
    · rename_i h
      refine ⟨rfl, fun W => ?_⟩
      obtain ⟨w1, w2, -⟩ := W.triplet hk
      have w3 := W.x
      rcases h.2 with h | h | h
      · rw [h] at w1; cases w1
      · rw [h] at w2; cases w2
      · rw [h] at w3; cases w3
    rename_i hcond
    obtain ⟨i, hi⟩ : ∃ i, A.i = some i := Option.ne_none_iff_exists'.1 fun h => hcond ⟨by omega, Or.inl h⟩
    obtain ⟨j, hj⟩ : ∃ j, A.j = some j :=
      Option.ne_none_iff_exists'.1 fun h => hcond ⟨by omega, Or.inr (Or.inl h)⟩
    obtain ⟨x, hx⟩ : ∃ x, A.x = some x :=
      Option.ne_none_iff_exists'.1 fun h => hcond ⟨by omega, Or.inr (Or.inr h)⟩
    have hir : ∀ t, 0 ≤ t → t < A.nz → get i t = some ((get i t).getD 0) := by
      intro t h1 h2
      obtain ⟨v, hv⟩ := Option.isSome_iff_exists.1 (hr.i _ hN (by rw [hk]; simp) (by rw [hi]; rfl) t h1 h2)
      rw [hi] at hv
      change get i t = _ at hv
      rw [hv]; rfl
    have hjr : ∀ t, 0 ≤ t → t < A.nz → get j t = some ((get j t).getD 0) := by
      intro t h1 h2
      obtain ⟨v, hv⟩ := Option.isSome_iff_exists.1 (hr.j hk (by rw [hj]; rfl) t h1 h2)
      rw [hj] at hv
      change get j t = _ at hv
      rw [hv]; rfl
    rw [hi, hj]
    change wp (do checkTriplets A i j _ _; checkDup qs i j _) _ _
    rw [wp_bind]
    refine wp_mono (checkTriplets_spec (by omega) hir hjr (hxp x hx)) (fun _ hrange => ?_) ?_
    · refine wp_mono (checkDup_spec hq (by omega) hir hjr) (fun _ hdup => ?_) ?_
      · refine ⟨by omega, by omega, by omega, hty', by simp [hk], by rw [hx]; rfl,
          by simp [hk], fun _ => ⟨by rw [hi]; rfl, by rw [hj]; rfl, by omega,
          fun t h1 h2 => ?_, fun t t' h1 h2 h3 h4 e1 e2 => ?_⟩⟩
        · rw [hi, hj]
          exact ⟨_, _, hir t h1 h2, hjr t h1 h2, hrange t h1 h2⟩
        · rw [hi] at e1
          rw [hj] at e2
          change get i t = get i t' at e1
          change get j t = get j t' at e2
          exact hdup t t' h1 h2 h3 h4 (by rw [e1]) (by rw [e2])
      · rintro e ⟨he, hno⟩
        refine ⟨he, fun W => hno fun t t' h1 h2 h3 h4 e1 e2 => ?_⟩
        refine (W.triplet hk).2.2.2.2 t t' h1 h2 h3 h4 ?_ ?_
        · rw [hi]; change get i t = get i t'; rw [hir t h1 h2, hir t' h3 h4, e1]
        · rw [hj]; change get j t = get j t'; rw [hjr t h1 h2, hjr t' h3 h4, e2]
    · rintro e ⟨he, hno⟩
      refine ⟨he, fun W => hno fun t h1 h2 => ?_⟩
      obtain ⟨r, c, g1, g2, h⟩ := (W.triplet hk).2.2.2.1 t h1 h2
      rw [hi] at g1
      rw [hj] at g2
      change get i t = _ at g1
      change get j t = _ at g2
      rw [g1, g2]
      exact h
  | dense =>
    dsimp only
    simp only [hk] at hN'
    rw [if_neg (by omega)] at hN'
    cases hN'
    split
    · rename_i h
      refine ⟨rfl, fun W => ?_⟩
      have w3 := W.x
      rw [h.2] at w3; cases w3
    rename_i hcond
    obtain ⟨x, hx⟩ : ∃ x, A.x = some x := Option.ne_none_iff_exists'.1 fun h => hcond ⟨by omega, h⟩
    refine wp_mono (checkDense_spec (by omega) (by omega) (hxp x hx)) (fun _ _ => ?_) fun e h => h.elim
    exact ⟨by omega, by omega, by omega, hty', by simp [hk], by rw [hx]; rfl,
      by simp [hk], by simp [hk]⟩
  | bad v => simp only [hk] at hN'; cases hN'; omega

/-- C23: a NULL matrix is rejected; without initialisation the result is SLIP_PANIC. -/
theorem C23_check_null (qs : List (Int × Int) → List (Int × Int)) (A : Option Mat)
    (opt : Option Options) :
    SLIP_matrix_check qs true none opt = .ok .incorrectInput ∧
      SLIP_matrix_check qs false A opt = .ok .panic := ⟨rfl, rfl⟩

/-- C23: a matrix that passes the check, whose values are finite numbers of the declared type and
whose scale factor is not zero, is a valid matrix (the hypothesis of the copy and conversion
properties). -/
theorem C23_ok_valid {qs : List (Int × Int) → List (Int × Int)} (hq : QsortOk qs)
    (opt : Option Options) (A : Mat) (hr : Readable (optPrint opt) A) (hz : A.nzmax ≠ 0)
    (hok : SLIP_matrix_check qs true (some A) opt = .ok .ok)
    (hty : ∀ x, A.x = some x → x.ty = A.type) (hs : A.scale ≠ 0)
    (hv : ∀ N, SLIP_matrix_nnz true (some A) = .ok N → ∀ t, 0 ≤ t → t < N → ∃ v, A.val t = some v) :
    Valid A.m.toNat A.n.toNat A := by
  have W : WellFormed A := by
    rcases C23_check_exact hq opt A hr hz with h | h
    · exact h.2
    · rw [h.1] at hok; cases hok
  have em := Int.toNat_of_nonneg W.rows
  have en := Int.toNat_of_nonneg W.cols
  obtain ⟨x, hx⟩ := Option.isSome_iff_exists.1 W.x
  have H : Header A.m.toNat A.n.toNat A := ⟨em.symm, en.symm, ⟨x, hx, hty x hx⟩, hs⟩
  cases hk : A.kind with
  | csc =>
    obtain ⟨wp, wi, w0, wc⟩ := W.csc hk
    obtain ⟨p, hp⟩ := Option.isSome_iff_exists.1 wp
    rw [hp] at w0 wc
    change get p 0 = _ at w0
    have up : ∀ d j : ℕ, (j : ℤ) + d ≤ A.n → ∃ a b, get p j = some a ∧ get p (j + d) = some b ∧ a ≤ b := by
      intro d
      induction d with
      | zero =>
        intro j hj
        rcases Nat.eq_zero_or_pos j with rfl | h
        · exact ⟨0, 0, w0, by simpa using w0, le_rfl⟩
        · obtain ⟨a, b, ha, hb, -⟩ := wc ((j : ℤ) - 1) (by omega) (by push_cast at hj; omega)
          change get p _ = _ at hb
          rw [sub_add_cancel] at hb
          exact ⟨b, b, hb, by simpa using hb, le_rfl⟩
      | succ d ih =>
        intro j hj
        obtain ⟨a, b, ha, hb, hab⟩ := ih j (by push_cast at hj; omega)
        obtain ⟨a', b', ha', hb', hab', -⟩ := wc ((j : ℤ) + d) (by omega) (by push_cast at hj; omega)
        change get p _ = _ at ha' hb'
        rw [hb] at ha'
        cases ha'
        refine ⟨a, b', ha, ?_, by omega⟩
        push_cast
        rw [← add_assoc]
        exact hb'
    obtain ⟨-, N, -, hN, -⟩ := up A.n.toNat 0 (by omega)
    rw [show ((0 : ℕ) : ℤ) + (A.n.toNat : ℤ) = A.n by omega] at hN
    have hnnz : SLIP_matrix_nnz true (some A) = .ok N := by
      unfold SLIP_matrix_nnz
      simp only [Bool.not_true, Bool.false_eq_true, if_false, hk, hp]
      rw [if_neg (by omega)]
      exact rd_eq hN
    refine Or.inl ⟨H, hk, by rw [hp]; exact w0, fun j hj => ?_, Option.isSome_iff_ne_none.1 wi⟩
    rw [hp]
    obtain ⟨a, b, ha, hb, hab, r1, r2⟩ := wc j (by omega) (by omega)
    change get p _ = _ at ha hb
    refine ⟨a, b, ha, hb, hab, fun t h1 h2 => ⟨?_, ?_⟩, r2⟩
    · obtain ⟨r, g, h3, h4⟩ := r1 t h1 h2
      exact ⟨r.toNat, by omega, by rw [g, Int.toNat_of_nonneg h3]⟩
    · obtain ⟨a0, a1, g0, g1, h01⟩ := up j 0 (by push_cast; omega)
      obtain ⟨b0, b1, k0, k1, k01⟩ := up (A.n.toNat - (j + 1)) (j + 1) (by omega)
      push_cast at g0 g1 k0 k1
      rw [w0] at g0; cases g0
      rw [zero_add, ha] at g1; cases g1
      rw [hb] at k0; cases k0
      rw [show (j : ℤ) + 1 + ((A.n.toNat - (j + 1) : ℕ) : ℤ) = A.n by omega, hN] at k1; cases k1
      exact hv N hnnz t (by omega) (by omega)
  | triplet =>
    obtain ⟨-, -, w0, wr, wd⟩ := W.triplet hk
    have hnnz : SLIP_matrix_nnz true (some A) = .ok A.nz := by
      unfold SLIP_matrix_nnz
      simp only [Bool.not_true, Bool.false_eq_true, if_false, hk]
      rfl
    refine Or.inr (Or.inl ⟨H, hk, w0, fun t h1 h2 => ?_, wd⟩)
    obtain ⟨r, c, g1, g2, h⟩ := wr t h1 h2
    exact ⟨⟨r.toNat, by omega, by rw [g1, Int.toNat_of_nonneg h.1.1]⟩,
      ⟨c.toNat, by omega, by rw [g2, Int.toNat_of_nonneg h.2.1]⟩, hv _ hnnz t h1 h2⟩
  | dense =>
    have hnnz : SLIP_matrix_nnz true (some A) = .ok (A.m * A.n) := by
      unfold SLIP_matrix_nnz
      simp only [Bool.not_true, Bool.false_eq_true, if_false, hk]
      rw [if_neg (by omega)]
      rfl
    refine Or.inr (Or.inr ⟨H, hk, fun i hi j hj => ?_⟩)
    rw [em]
    have h1 : (0 : ℤ) ≤ j * A.m := mul_nonneg (by omega) W.rows
    have h2 : ((j : ℤ) + 1) * A.m ≤ A.n * A.m := mul_le_mul_of_nonneg_right (by omega) W.rows
    exact hv _ hnnz _ (by omega) (by rw [mul_comm A.m]; linarith)
  | bad v => exact absurd hk (W.kind v)

/-- C23: an integer CSC matrix that is square and passes the check, with all values set, is an input
for which the solver properties (C01, C02, ...) hold. -/
theorem C23_ok_solver_input {qs : List (Int × Int) → List (Int × Int)} (hq : QsortOk qs)
    (opt : Option Options) (A : Mat) {z : Arr Int} (hr : Readable (optPrint opt) A) (hz : A.nzmax ≠ 0)
    (hok : SLIP_matrix_check qs true (some A) opt = .ok .ok)
    (hk : A.kind = .csc) (hty : A.type = .mpz) (hsq : A.m = A.n) (hx : A.x = some (.mpz z))
    (hv : ∀ N, get (deref A.p) A.n = some N → ∀ t, 0 ≤ t → t < N → ∃ v, get z t = some v) :
    IsCsc A.n.toNat A := by
  have W : WellFormed A := by
    rcases C23_check_exact hq opt A hr hz with h | h
    · exact h.2
    · rw [h.1] at hok; cases hok
  -- give the matrix a nonzero scale: the check does not look at it
  have := C23_ok_valid hq opt { A with scale := 1 } ⟨hr.p, hr.i, hr.j, hr.x⟩ hz hok
    (by intro x h; change A.x = _ at h; rw [hx] at h; cases h; exact hty.symm) one_ne_zero (by
      intro N hN t h1 h2
      obtain ⟨p, hp⟩ := Option.isSome_iff_exists.1 (W.csc hk).1
      change SLIP_matrix_nnz true (some { A with scale := 1 }) = _ at hN
      unfold SLIP_matrix_nnz at hN
      simp only [Bool.not_true, Bool.false_eq_true, if_false, hk, hp] at hN
      rw [if_neg (by have := W.cols; omega)] at hN
      obtain ⟨v, hv⟩ := hv N (by rw [hp]; exact rd_ok hN) t h1 h2
      exact ⟨v, by unfold Mat.val; simp [hx, Vals.val, hv]⟩)
  rcases this with h | h | h
  · change ValidCsc A.m.toNat A.n.toNat { A with scale := 1 } at h
    rw [hsq] at h
    have en : ((A.n.toNat : ℕ) : ℤ) = A.n := Int.toNat_of_nonneg W.cols
    refine ⟨hk, hty, by rw [hsq, en], by rw [en], h.p0, fun j hj => ?_, h.idx⟩
    obtain ⟨a, b, ha, hb, hab, r1, r2⟩ := h.col j hj
    refine ⟨a, b, ha, hb, hab, fun t h1 h2 => ⟨(r1 t h1 h2).1, ?_⟩, r2⟩
    obtain ⟨v, hv⟩ := (r1 t h1 h2).2
    unfold Mat.val at hv
    simp only [hx, Option.bind_some, Vals.val, Option.map_eq_some_iff] at hv
    obtain ⟨w, hw, -⟩ := hv
    exact ⟨w, by unfold Mat.xz; rw [hx]; exact hw⟩
  · have := h.kind; change A.kind = _ at this; rw [hk] at this; cases this
  · have := h.kind; change A.kind = _ at this; rw [hk] at this; cases this

/-! ### Concrete cases -/

namespace Ex

/-- A sort that fulfils the contract of `qsort`. -/
def qs (l : List (Int × Int)) : List (Int × Int) := l.insertionSort fun a b => compar a b ≤ 0

theorem qs_ok : QsortOk qs := by
  intro l
  have h1 : Std.Total fun a b : Int × Int => compar a b ≤ 0 := ⟨fun a b => by
    rw [compar_le, compar_le]; omega⟩
  have h2 : IsTrans (Int × Int) fun a b => compar a b ≤ 0 := ⟨fun a b c => by
    rw [compar_le, compar_le, compar_le]; omega⟩
  exact ⟨List.perm_insertionSort _ l, List.pairwise_insertionSort _ l⟩

/-- A triplet matrix with entries (0,1), (1,0), (1,1). -/
def T : Mat :=
  { m := 2, n := 2, nzmax := 3, nz := 3, kind := .triplet, type := .fp64,
    p := none, pShallow := false, i := some [some 0, some 1, some 1], iShallow := false,
    j := some [some 1, some 0, some 1], jShallow := false,
    x := some (.fp64 [some (.fin 2), some (.fin (1 / 2)), some (.fin 0)]), xShallow := false, scale := 1 }

theorem T_readable : Readable 0 T := by
  refine ⟨fun h => by simp [T] at h, ?_, ?_, fun h => by omega⟩
  · intro N hN _ _ t h0 h1
    cases hN
    have : t = 0 ∨ t = 1 ∨ t = 2 := by change t < 3 at h1; omega
    rcases this with rfl | rfl | rfl <;> decide
  · intro _ _ t h0 h1
    have : t = 0 ∨ t = 1 ∨ t = 2 := by change t < 3 at h1; omega
    rcases this with rfl | rfl | rfl <;> decide

end Ex

/-- The hypotheses of `C23_check_exact` are met by a matrix that passes and by one that does not. -/
example : SLIP_matrix_check Ex.qs true (some Ex.T) none = .ok .ok ∧ Readable (optPrint none) Ex.T ∧
    SLIP_matrix_check Ex.qs true (some { Ex.T with i := some [some 0, some 1, some 0] }) none =
      .ok .incorrectInput ∧
    SLIP_matrix_check Ex.qs true (some { Ex.T with j := some [some 1, some 1, some 1] }) none =
      .ok .incorrectInput :=
  ⟨by decide +kernel, Ex.T_readable, by decide +kernel, by decide +kernel⟩

example : SLIP_matrix_check Ex.qs true (some Ex.A) none = .ok .ok := by decide +kernel

/-! ### Where the checker fails -/

/-- C23 is false without the assumption on array sizes, even for a matrix whose arrays have `nzmax`
elements: the checker never compares the column pointers with `nzmax`, and reads beyond the end. -/
theorem C23_nzmax_refuted :
    ∃ A : Mat, A.kind = .csc ∧ (A.nzmax : ℤ) = (deref A.i).length ∧ A.nzmax = A.xz.length ∧
      (deref A.p).length = A.n.toNat + 1 ∧ SLIP_matrix_check Ex.qs true (some A) none = .error .ub :=
  ⟨{ m := 2, n := 1, nzmax := 1, nz := 0, kind := .csc, type := .mpz,
     p := some [some 0, some 2], pShallow := false, i := some [some 0], iShallow := false,
     j := none, jShallow := false, x := some (.mpz [some 7]), xShallow := false, scale := 1 },
    rfl, rfl, rfl, rfl, by decide +kernel⟩

/-- C23 is false for `nzmax = 0`: column pointers that do not start at 0 are accepted. -/
theorem C23_no_room_refuted :
    ∃ A : Mat, A.kind = .csc ∧ get (deref A.p) 0 = some 5 ∧
      SLIP_matrix_check Ex.qs true (some A) none = .ok .ok :=
  ⟨{ m := 2, n := 1, nzmax := 0, nz := 0, kind := .csc, type := .mpz,
     p := some [some 5, some 5], pShallow := false, i := none, iShallow := false,
     j := none, jShallow := false, x := none, xShallow := false, scale := 1 },
    rfl, rfl, by decide +kernel⟩

/-! ## C24 -/

/-- C24: for a valid matrix of any kind, the count returned is at least the number of nonzeros of the
matrix represented. -/
theorem C24_nnz_bounds_nonzeros {m n : ℕ} {A : Mat} (h : Valid m n A) :
    ∃ N : ℕ, SLIP_matrix_nnz true (some A) = .ok (N : ℤ) ∧
      (Finset.univ.filter fun ij : Fin m × Fin n => A.num ij.1 ij.2 ≠ 0).card ≤ N := by
  have coo : ∀ N r c v, Coo m n N r c v A →
      (Finset.univ.filter fun ij : Fin m × Fin n => A.num ij.1 ij.2 ≠ 0).card ≤ N := by
    intro N r c v h
    have hsub : (Finset.univ.filter fun ij : Fin m × Fin n => A.num ij.1 ij.2 ≠ 0).image
        (fun ij => ((ij.1 : ℕ), (ij.2 : ℕ))) ⊆ (Finset.range N).image fun k => (r k, c k) := by
      intro ij hij
      obtain ⟨⟨i, j⟩, h1, rfl⟩ := Finset.mem_image.1 hij
      have h2 := (Finset.mem_filter.1 h1).2
      rw [h.num i j j.2] at h2
      by_contra hno
      refine h2 (cooNum_none fun k hk e => hno ?_)
      exact Finset.mem_image.2 ⟨k, Finset.mem_range.2 hk, by rw [e.1, e.2]⟩
    calc _ = _ := (Finset.card_image_of_injective _ (by
          rintro ⟨i, j⟩ ⟨i', j'⟩ e
          simp only [Prod.mk.injEq] at e
          rw [Fin.ext e.1, Fin.ext e.2])).symm
      _ ≤ _ := Finset.card_le_card hsub
      _ ≤ _ := Finset.card_image_le
      _ = N := Finset.card_range N
  rcases h with h | h | h
  · obtain ⟨N, r, c, v, hc, -⟩ := h.coo
    exact ⟨N, hc.nnz, coo _ _ _ _ hc⟩
  · obtain ⟨N, r, c, v, hc, -⟩ := h.coo
    exact ⟨N, hc.nnz, coo _ _ _ _ hc⟩
  · refine ⟨m * n, h.dns.nnz, (Finset.card_le_univ _).trans (by simp)⟩

end Slip
