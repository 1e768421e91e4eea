import Verif.Proof.AmdPre
import Verif.SpecAmd

/-!
# AMD: AMD_valid and AMD_order
-/

namespace Slip.Amd

variable [ar : Arith]

variable {n nz : ℤ} {a A : ℤ → ℤ} {Ap Ai : Arr Int}

/-- The first `k` columns are acceptable. -/
def Good (m : ℤ) (a A : ℤ → ℤ) (k : ℤ) : Prop :=
  ∀ j, 0 ≤ j → j < k → a j ≤ a (j + 1) ∧ ∀ p, a j ≤ p → p < a (j + 1) → 0 ≤ A p ∧ A p < m

/-- The first `k` columns are sorted. -/
def SrtTo (a A : ℤ → ℤ) (k : ℤ) : Prop := ∀ j, 0 ≤ j → j < k → Srt A (a j) (a (j + 1))

theorem Srt.succ {x y : ℤ} (h : Srt A x y) (hy : x < y → A (y - 1) < A y) : Srt A x (y + 1) := by
  intro p q h1 h2 h3
  rcases eq_or_ne q y with rfl | hq
  · have := hy (by omega)
    rcases eq_or_ne p (q - 1) with rfl | hp
    · exact this
    · have := h p (q - 1) h1 (by omega) (by omega)
      omega
  · exact h p q h1 h2 (by omega)

theorem validCols_spec {m : ℤ} (n0 : 0 ≤ n) (h0 : a 0 = 0) (hAp : ∀ j, 0 ≤ j → j ≤ n → get Ap j = some (a j))
    (hAi : ∀ j, 0 ≤ j → j ≤ n → ∀ p, 0 ≤ p → p < a j → get Ai p = some (A p)) :
    wp (validCols m n Ap Ai) (fun b => Good m a A n ∧ (b = true ↔ ¬SrtTo a A n))
      (fun e => e = .ret .incorrectInput ∧ ¬Good m a A n) := by
  unfold validCols
  refine wp_forRange (fun k (b : Bool) => Good m a A k ∧ (b = true ↔ ¬SrtTo a A k)) n0
    ⟨fun j h1 h2 => by omega, by
      constructor
      · intro h; cases h
      · intro h; exact absurd (fun j h1 h2 => by omega) h⟩ ?_
  rintro k b k0 k1 ⟨g1, g2⟩
  rw [rd_eq (hAp k k0 k1.le), ok_bind, rd_eq (hAp (k + 1) (by omega) (by omega)), ok_bind]
  have hk0 : 0 ≤ a k := by
    have := mono_le (n := k) (a := a) (fun j h1 h2 => (g1 j h1 h2).1) le_rfl k0 le_rfl
    omega
  by_cases hp : a k > a (k + 1)
  · rw [if_pos hp]
    exact ⟨rfl, fun h => by have := (h k k0 k1).1; omega⟩
  rw [if_neg hp]
  refine wb (wp_mono (wp_forRange (E := fun e => e = .ret .incorrectInput ∧ ¬Good m a A n)
    (fun p (z : ℤ × Bool) => (∀ q, a k ≤ q → q < p → 0 ≤ A q ∧ A q < m) ∧ z.1 = (if a k < p then A (p - 1) else -1) ∧
      (z.2 = true ↔ (b = true ∨ ¬Srt A (a k) p))) (show a k ≤ a (k + 1) by omega) ⟨fun q h1 h2 => by omega, by simp, ?_⟩ ?_) ?_
      (fun _ h => h))
  · dsimp only
    constructor
    · exact .inl
    · rintro (h | h)
      · exact h
      · exact absurd (fun p q h1 h2 h3 => by omega) h
  · rintro p ⟨il, bb⟩ p0 p1 ⟨f1, f2, f3⟩
    dsimp only at f2 f3
    unfold validEntry
    rw [rd_eq (hAi (k + 1) (by omega) (by omega) p (by omega) p1), ok_bind]
    by_cases hr : A p < 0 ∨ A p ≥ m
    · rw [if_pos hr]
      exact ⟨rfl, fun h => by have := (h k k0 k1).2 p p0 p1; omega⟩
    · rw [if_neg hr]
      refine wpr ⟨?_, ?_, ?_⟩
      · intro q q0 q1
        rcases eq_or_ne q p with rfl | hq
        · omega
        · exact f1 q q0 (by omega)
      · show A p = _
        rw [if_pos (by omega), add_sub_cancel_right]
      · show (bb || decide (A p ≤ il)) = true ↔ _
        rw [Bool.or_eq_true, f3, decide_eq_true_eq]
        constructor
        · rintro ((h | h) | h)
          · exact .inl h
          · exact .inr fun h' => h fun p q h1 h2 h3 => h' p q h1 h2 (by omega)
          · right
            intro h'
            rw [f2] at h
            split_ifs at h with hap
            · have := h' (p - 1) p (by omega) (by omega) (by omega)
              omega
            · omega
        · rintro (h | h)
          · exact .inl (.inl h)
          · by_cases hs : Srt A (a k) p
            · right
              rw [f2]
              by_contra hc
              apply h
              refine hs.succ ?_
              intro hap
              rw [if_pos hap] at hc
              omega
            · exact .inl (.inr hs)
  · rintro ⟨il, bb⟩ ⟨f1, -, f3⟩
    dsimp only at f3 ⊢
    refine wpr ⟨?_, ?_⟩
    · intro j j0 j1
      rcases eq_or_ne j k with rfl | hj
      · exact ⟨by omega, f1⟩
      · exact g1 j j0 (by omega)
    · rw [f3, g2]
      constructor
      · rintro (h | h) h'
        · exact h fun j j0 j1 => h' j j0 (by omega)
        · exact h (h' k k0 (by omega))
      · intro h
        by_contra hc
        push Not at hc
        apply h
        intro j j0 j1
        rcases eq_or_ne j k with rfl | hj
        · exact hc.2
        · exact hc.1 j j0 (by omega)

theorem amd_valid_spec (n0 : 0 ≤ n) (hAp : ∀ j, 0 ≤ j → j ≤ n → get Ap j = some (a j))
    (hAi : ∀ j, 0 ≤ j → j ≤ n → ∀ p, 0 ≤ p → p < a j → get Ai p = some (A p)) :
    ∃ st, amd_valid n n Ap Ai = .ok st ∧ ((st = .invalid ∧ ¬(a 0 = 0 ∧ Good n a A n)) ∨
      (st = .ok ∧ a 0 = 0 ∧ Good n a A n ∧ SrtTo a A n) ∨ (st = .jumbled ∧ a 0 = 0 ∧ Good n a A n ∧ ¬SrtTo a A n)) := by
  unfold amd_valid
  rw [if_neg (by omega), rd_eq (hAp n n0 le_rfl), ok_bind, rd_eq (hAp 0 le_rfl n0), ok_bind]
  by_cases h0 : a 0 = 0
  · by_cases hn : a n < 0
    · rw [if_pos (.inr hn)]
      refine ⟨_, rfl, .inl ⟨rfl, ?_⟩⟩
      rintro ⟨-, h⟩
      have := mono_le (n := n) (a := a) (fun j h1 h2 => (h j h1 h2).1) le_rfl n0 le_rfl
      omega
    · rw [if_neg (by omega)]
      have := validCols_spec (m := n) n0 h0 hAp hAi
      cases hv : validCols n n Ap Ai with
      | ok b =>
        rw [hv] at this
        obtain ⟨h1, h2⟩ := this
        refine ⟨_, rfl, .inr ?_⟩
        cases b with
        | true => exact .inr ⟨rfl, h0, h1, h2.1 rfl⟩
        | false => exact .inl ⟨rfl, h0, h1, by
            by_contra hc
            exact absurd (h2.2 hc) (by decide)⟩
      | error e =>
        rw [hv] at this
        obtain ⟨rfl, h1⟩ := this
        exact ⟨_, rfl, .inl ⟨rfl, fun h => h1 h.2⟩⟩
  · rw [if_pos (.inl h0)]
    exact ⟨_, rfl, .inl ⟨rfl, fun h => h0 h.1⟩⟩

theorem Good.am (n0 : 0 ≤ n) (h : Good n a A n) (h0 : a 0 = 0) : AM n (a n) a A := by
  refine ⟨h0, rfl, fun j h1 h2 => (h j h1 h2).1, ?_⟩
  intro p p0 p1
  have key : ∀ k : ℕ, (k : ℤ) ≤ n → p < a k → 0 ≤ A p ∧ A p < n := by
    intro k
    induction k with
    | zero => intro _ hp; rw [Nat.cast_zero, h0] at hp; omega
    | succ k ih =>
      intro hk hp
      push_cast at hk hp
      by_cases hp2 : p < a k
      · exact ih (by omega) hp2
      · exact (h k (by omega) (by omega)).2 p (by omega) hp
  exact key n.toNat (by omega) (by rw [show ((n.toNat : ℕ) : ℤ) = n by omega]; exact p1)

/-- The allocations that are needed succeed. -/
def Enough (M : Alloc) (sorted : Prop) : Prop := M.w = true ∧ M.s = true ∧ (¬sorted → M.r = true)

/-- The arithmetic suffices for a matrix of dimension `n`. -/
def Room (n : ℤ) : Prop :=
  ck (9223372036854775807 - n) = .ok (9223372036854775807 - n) ∧ ∀ z, 0 ≤ z → z ≤ n * n → Fits n (z + z / 5 + n)

theorem Room.ck {N : ℕ} (h : Room N) {v : ℤ} (v0 : 0 ≤ v) (v1 : v ≤ N * N) : ck v = .ok v :=
  (h.2 0 le_rfl (by positivity)).sq v v0 (by omega)

theorem amd_order_ok {N : ℕ} (hRm : Room N) {P : Arr Int} {K : Knobs} {M : Alloc} (hN : 0 < N) (h0 : a 0 = 0) (hG : Good N a A N)
    (hAp : ∀ j, 0 ≤ j → j ≤ (N : ℤ) → get Ap j = some (a j))
    (hAi : ∀ p, 0 ≤ p → p < a N → get Ai p = some (A p)) (hP : (N : ℤ) ≤ P.length) :
    ∃ st P' lnz, amd_order N Ap Ai P M K = .ok (st, P', lnz) ∧
      ((Enough M (SrtTo a A N) ∧ ((st = .ok ∧ SrtTo a A N) ∨ (st = .jumbled ∧ ¬SrtTo a A N)) ∧
        (∃ τ : Equiv.Perm (Fin N), Holds P' τ) ∧ 0 ≤ lnz ∧ 2 * lnz ≤ N * (N - 1)) ∨
      (¬Enough M (SrtTo a A N) ∧ st = .oom ∧ lnz = -1)) := by
  have hAM := hG.am (by omega) h0
  have hmono : ∀ j, 0 ≤ j → j ≤ (N : ℤ) → a j ≤ a N := fun j h1 h2 => mono_le hAM.mono h1 h2 le_rfl
  have hnz : 0 ≤ a N := by have := hmono 0 le_rfl (by omega); omega
  obtain ⟨st, e1, hst⟩ := amd_valid_spec (n := (N : ℤ)) (by omega) hAp (fun j h1 h2 p p0 p1 => hAi p p0 (by have := hmono j h1 h2; omega))
  have hst' : (st = .ok ∧ SrtTo a A N) ∨ (st = .jumbled ∧ ¬SrtTo a A N) := by
    rcases hst with ⟨-, h⟩ | ⟨h1, -, -, h2⟩ | ⟨h1, -, -, h2⟩
    · exact absurd ⟨h0, hG⟩ h
    · exact .inl ⟨h1, h2⟩
    · exact .inr ⟨h1, h2⟩
  have hni : st ≠ .invalid := by rcases hst' with ⟨rfl, -⟩ | ⟨rfl, -⟩ <;> decide
  have hjs : st = .jumbled ↔ ¬SrtTo a A N := by
    rcases hst' with ⟨rfl, h⟩ | ⟨rfl, h⟩
    · exact ⟨fun h => (by cases h), fun h' => absurd h h'⟩
    · exact ⟨fun _ => h, fun _ => rfl⟩
  have hml : (N : ℤ) ≤ (malloc Int N).length := by rw [length_malloc]; omega
  have hNN : (N : ℤ) ≤ N * N := by
    have : (1 : ℤ) ≤ N := by omega
    nlinarith
  -- the middle part
  have main : ∀ Cp Ci Len Pinv : Arr Int, (∃ nz' a' A', SM N nz' a' A' ∧ (∀ j, 0 ≤ j → j ≤ (N : ℤ) → get Cp j = some (a' j)) ∧
      ∀ p, 0 ≤ p → p < nz' → get Ci p = some (A' p)) → (N : ℤ) ≤ Len.length → (N : ℤ) ≤ Pinv.length →
      wp (do
        let (Len, P, nzaat) ← amd_aat N Cp Ci Len P
        if !M.s then pure (.oom, P, -1) else do
        let (P, lnz) ← amd_1 N Cp Ci P Pinv Len (nzaat + nzaat / 5 + 7 * N) K
        pure (st, P, lnz)) (fun y => (M.s = true ∧ y.1 = st ∧ (∃ τ : Equiv.Perm (Fin N), Holds y.2.1 τ) ∧
      0 ≤ y.2.2 ∧ 2 * y.2.2 ≤ N * (N - 1)) ∨
          (¬M.s = true ∧ y.1 = .oom ∧ y.2.2 = -1)) noFail := by
    rintro Cp Ci Len Pinv ⟨nz', a', A', hS, c1, c2⟩ l1 l2
    refine wb (wp_mono (amd_aat_spec hS c1 c2 hP l1 fun v v0 v1 => hRm.ck v0 (v1.trans hNN)) ?_ (fun _ h => h))
    rintro ⟨Len2, P2, nzaat⟩ ⟨d1, d2, d3, d0, d4⟩
    dsimp only at d1 d2 d3 d0 d4 ⊢
    have hz : 0 ≤ nzaat := by
      rw [d3]
      have := ptr_mono (len := fun x => ((nb (aatL a' A' N) x).length : ℤ)) (fun x => by positivity) le_rfl (show (0 : ℤ) ≤ N by omega)
      rw [ptr_zero] at this
      exact this
    cases hM : M.s with
    | false => exact wpr (.inr ⟨by simp, rfl, rfl⟩)
    | true =>
      rw [if_neg (by simp)]
      refine wb (wp_mono (amd_1_spec hS c1 c2 (by omega) l2 d1 d4 (by rw [← d3]; omega) (by
        rw [show nzaat + nzaat / 5 + 7 * (N : ℤ) - 6 * N = nzaat + nzaat / 5 + N by ring]
        exact hRm.2 _ d0.1 d0.2) hRm.1) ?_ (fun _ h => h))
      rintro ⟨P3, lnz⟩ ⟨f1, f2⟩
      exact wpr (.inl ⟨rfl, rfl, f1, f2⟩)
  have hwp : wp (amd_order N Ap Ai P M K) (fun y => (Enough M (SrtTo a A N) ∧ y.1 = st ∧
      (∃ τ : Equiv.Perm (Fin N), Holds y.2.1 τ) ∧
      0 ≤ y.2.2 ∧ 2 * y.2.2 ≤ N * (N - 1)) ∨ (¬Enough M (SrtTo a A N) ∧ y.1 = .oom ∧ y.2.2 = -1)) noFail := by
    unfold amd_order
    rw [if_neg (by omega), if_neg (by omega), rd_eq (hAp N (by omega) le_rfl), ok_bind, if_neg (by omega), e1, ok_bind, if_neg hni]
    cases hw : M.w with
    | false => exact wpr (.inr ⟨fun h => (by rw [h.1] at hw; cases hw), rfl, rfl⟩)
    | true =>
      rw [if_neg (by simp)]
      by_cases hr : st = .jumbled ∧ (!M.r) = true
      · rw [if_pos hr]
        refine wpr (.inr ⟨fun h => ?_, rfl, rfl⟩)
        have := h.2.2 (hjs.1 hr.1)
        rw [this] at hr
        exact absurd hr.2 (by decide)
      · rw [if_neg hr]
        have hen : M.s = true ↔ Enough M (SrtTo a A N) := by
          constructor
          · intro h
            refine ⟨hw, h, fun hs => ?_⟩
            by_contra hc
            exact hr ⟨hjs.2 hs, by simpa using hc⟩
          · intro h; exact h.2.1
        rw [← hen]
        dsimp only
        by_cases hj : st = .jumbled
        · rw [if_pos hj]
          refine wb (wp_mono (amd_preprocess_spec hAM hAp hAi (by rw [length_malloc]; omega) (by rw [length_malloc]; omega)
            hml hml fun v v0 v1 => hRm.ck v0 v1) ?_ (fun _ h => h))
          rintro ⟨Cp, Ci, Len, Pinv⟩ ⟨q1, q2, q3⟩
          exact main Cp Ci Len Pinv q3 (by show (N : ℤ) ≤ (Len.length : ℤ); rw [q1]; exact hml)
            (by show (N : ℤ) ≤ (Pinv.length : ℤ); rw [q2]; exact hml)
        · rw [if_neg hj, pure_bind]
          have hS : SrtTo a A N := by rcases hst' with ⟨-, h⟩ | ⟨h, -⟩; exacts [h, absurd h hj]
          exact main Ap Ai _ _ ⟨a N, a, A, ⟨hAM.z, hAM.e, hAM.mono, hAM.rg, hS⟩, hAp, hAi⟩ hml hml
  obtain ⟨⟨st2, P', lnz⟩, e, h⟩ := wp_noFail hwp
  refine ⟨_, P', lnz, e, ?_⟩
  rcases h with ⟨h1, h2, h3, h4⟩ | h
  · dsimp only at h2
    rw [h2]
    exact .inl ⟨h1, hst', h3, h4⟩
  · exact .inr h

/-! ## Patterns -/

/-- The contents of an array as a function. -/
def fn (p : Arr Int) (i : ℤ) : ℤ := (get p i).getD 0

theorem fn_eq {p : Arr Int} {i v : ℤ} (h : get p i = some v) : fn p i = v := by unfold fn; rw [h]; rfl

theorem fn_some {p : Arr Int} {i v : ℤ} (h : get p i = some v) : get p i = some (fn p i) := by rw [fn_eq h, h]

theorem SquarePattern.ptr {N : ℕ} (h : SquarePattern N Ap Ai) {j : ℤ} (j0 : 0 ≤ j) (j1 : j ≤ N) :
    get Ap j = some (fn Ap j) := by
  by_cases hj : j = 0
  · rw [hj]; exact fn_some h.z
  · obtain ⟨a, b, -, hb, -⟩ := h.col (j - 1).toNat (by omega)
    rw [show (((j - 1).toNat : ℕ) : ℤ) + 1 = j by omega] at hb
    exact fn_some hb

theorem SquarePattern.good {N : ℕ} (h : SquarePattern N Ap Ai) : Good N (fn Ap) (fn Ai) N := by
  intro j j0 j1
  obtain ⟨a, b, ha, hb, hab, hr⟩ := h.col j.toNat (by omega)
  rw [show ((j.toNat : ℕ) : ℤ) = j by omega] at ha hb
  rw [fn_eq ha, fn_eq hb]
  refine ⟨hab, ?_⟩
  intro p p0 p1
  obtain ⟨r, r1, r2⟩ := hr p p0 p1
  rw [fn_eq r2]; omega

theorem SquarePattern.entry {N : ℕ} (h : SquarePattern N Ap Ai) {p : ℤ} (p0 : 0 ≤ p) (p1 : p < fn Ap N) :
    get Ai p = some (fn Ai p) := by
  have key : ∀ k : ℕ, k ≤ N → p < fn Ap k → get Ai p = some (fn Ai p) := by
    intro k
    induction k with
    | zero => intro _ hp; rw [Nat.cast_zero, fn_eq h.z] at hp; omega
    | succ k ih =>
      intro hk hp
      by_cases hp2 : p < fn Ap k
      · exact ih (by omega) hp2
      · obtain ⟨a, b, ha, hb, -, hr⟩ := h.col k (by omega)
        push_cast at hp
        rw [fn_eq hb] at hp
        rw [fn_eq ha] at hp2
        obtain ⟨r, -, r2⟩ := hr p (by omega) hp
        exact fn_some r2
  exact key N le_rfl p1

theorem SquarePattern.sorted_iff {N : ℕ} (h : SquarePattern N Ap Ai) : SrtTo (fn Ap) (fn Ai) N ↔ StrictlySorted N Ap Ai := by
  have hAM := h.good.am (by omega) (fn_eq h.z)
  constructor
  · intro hs j hj a b ha hb t t' h1 h2 h3 r r' hr hr'
    have := hs j (by omega) (by omega) t t' (by rw [fn_eq ha]; exact h1) h2 (by rw [fn_eq hb]; exact h3)
    rwa [fn_eq hr, fn_eq hr'] at this
  · intro hs j j0 j1 t t' h1 h2 h3
    have hb := hAM.bd j0 j1
    have e1 := h.ptr j0 (by omega)
    have e2 := h.ptr (j := j + 1) (by omega) (by omega)
    exact hs j.toNat (by omega) (fn Ap j) (fn Ap (j + 1)) (by rw [show ((j.toNat : ℕ) : ℤ) = j by omega]; exact e1)
      (by rw [show ((j.toNat : ℕ) : ℤ) = j by omega]; exact e2) t t' h1 h2 h3 _ _ (h.entry (by omega) (by omega))
      (h.entry (by omega) (by omega))

/-- AMD_order on a valid pattern. -/
theorem amd_order_pattern {N : ℕ} {P : Arr Int} (M : Alloc) (K : Knobs) (hRm : Room N) (hN : 0 < N) (h : SquarePattern N Ap Ai)
    (hP : N ≤ P.length) :
    ∃ st P' lnz, amd_order N Ap Ai P M K = .ok (st, P', lnz) ∧
      ((Enough M (StrictlySorted N Ap Ai) ∧
        ((st = .ok ∧ StrictlySorted N Ap Ai) ∨ (st = .jumbled ∧ ¬StrictlySorted N Ap Ai)) ∧
        (∃ τ : Equiv.Perm (Fin N), Holds P' τ) ∧ 0 ≤ lnz ∧ 2 * lnz ≤ N * (N - 1)) ∨
      (¬Enough M (StrictlySorted N Ap Ai) ∧ st = .oom ∧ lnz = -1)) := by
  have := amd_order_ok (K := K) (M := M) (P := P) hRm hN (fn_eq h.z) h.good (fun j j0 j1 => h.ptr j0 j1)
    (fun p p0 p1 => h.entry p0 p1) (by omega)
  rwa [h.sorted_iff] at this

/-- AMD_order on an initialised input that is not a pattern. -/
theorem amd_order_invalid {N : ℕ} {P : Arr Int} (M : Alloc) (K : Knobs) (hN : 0 < N) (hi : Initialised N Ap Ai)
    (h : ¬SquarePattern N Ap Ai) : amd_order N Ap Ai P M K = .ok (.invalid, P, -1) := by
  have hAp : ∀ j, 0 ≤ j → j ≤ (N : ℤ) → get Ap j = some (fn Ap j) := by
    intro j j0 j1
    obtain ⟨v, hv⟩ := hi.ptr j.toNat (by omega)
    rw [show ((j.toNat : ℕ) : ℤ) = j by omega] at hv
    exact fn_some hv
  have hAi : ∀ j, 0 ≤ j → j ≤ (N : ℤ) → ∀ p, 0 ≤ p → p < fn Ap j → get Ai p = some (fn Ai p) := by
    intro j j0 j1 p p0 p1
    obtain ⟨w, hw⟩ := hi.idx j.toNat (by omega) (fn Ap j) (by
      rw [show ((j.toNat : ℕ) : ℤ) = j by omega]; exact hAp j j0 j1) p p0 p1
    exact fn_some hw
  unfold amd_order
  rw [if_neg (by omega), if_neg (by omega), rd_eq (hAp N (by omega) le_rfl), ok_bind]
  by_cases hz : fn Ap N < 0
  · rw [if_pos hz]; rfl
  · rw [if_neg hz]
    obtain ⟨st, e, hst⟩ := amd_valid_spec (n := (N : ℤ)) (by omega) hAp hAi
    rw [e, ok_bind]
    have hni : ¬(fn Ap 0 = 0 ∧ Good N (fn Ap) (fn Ai) N) := by
      rintro ⟨h0, hG⟩
      apply h
      refine ⟨by rw [hAp 0 le_rfl (by omega), h0], ?_⟩
      intro j hj
      have hAM := hG.am (by omega) h0
      have hb := hAM.bd (j := (j : ℤ)) (by omega) (by omega)
      refine ⟨_, _, hAp j (by omega) (by omega), hAp (j + 1) (by omega) (by omega), hb.2.1, ?_⟩
      intro t t0 t1
      have hr := hAM.rg t (by omega) (by omega)
      refine ⟨(fn Ai t).toNat, by omega, ?_⟩
      rw [hAi (j + 1) (by omega) (by omega) t (by omega) t1]
      congr 1
      omega
    rcases hst with ⟨h1, -⟩ | ⟨-, h1, h2, -⟩ | ⟨-, h1, h2, -⟩
    · rw [if_pos h1]; rfl
    · exact absurd ⟨h1, h2⟩ hni
    · exact absurd ⟨h1, h2⟩ hni

end Slip.Amd

namespace Slip.Amd

theorem room_exact {n : ℤ} (hn : 0 ≤ n) : @Room Arith.exact n :=
  letI : Arith := Arith.exact
  ⟨rfl, fun z z0 _ => ⟨by omega, fun _ _ _ => rfl, fun _ _ _ => rfl, fun _ _ _ => rfl⟩⟩

theorem room_bits64 {n : ℤ} (hn : 0 ≤ n) (hB : n ≤ 2 ^ 29) : @Room Arith.bits64 n := by
  letI : Arith := Arith.bits64
  have hnn : n * n ≤ 2 ^ 29 * 2 ^ 29 := mul_le_mul hB hB hn (by norm_num)
  norm_num at hnn hB
  refine ⟨?_, fun z z0 z1 => ⟨by omega, fun v h1 h2 => ?_, fun v h1 h2 => ?_, fun v h1 h2 => ?_⟩⟩
  · show i64 _ = .ok _
    unfold i64
    rw [if_pos]
    norm_num
    omega
  all_goals
    show i64 v = .ok v
    unfold i64
    rw [if_pos]
    norm_num
    omega

end Slip.Amd
