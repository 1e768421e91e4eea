import Verif.SpecMat
import Verif.Proof.DenseOps
import Mathlib.Algebra.BigOperators.Ring.Finset
import Mathlib.Data.Nat.Nth

/-!
# Valid sparse matrices as lists of entries
-/

namespace Slip

/-- A finite downward-closed condition. -/
theorem initial_segment {N : ℕ} {p : ℕ → Prop} [DecidablePred p]
    (h : ∀ k k', k ≤ k' → k' < N → p k' → p k) :
    ∀ k, k < N → (p k ↔ k < ((Finset.range N).filter p).card) := by
  have hex : ∃ t, N ≤ t ∨ ¬ p t := ⟨N, Or.inl le_rfl⟩
  set t := Nat.find hex with ht
  have h1 : (Finset.range N).filter p = Finset.range t := by
    ext k
    simp only [Finset.mem_filter, Finset.mem_range]
    constructor
    · rintro ⟨hk, hp⟩
      by_contra hc
      rcases Nat.find_spec hex with h2 | h2
      · omega
      · exact h2 (h t k (by omega) hk hp)
    · intro hk
      have := Nat.find_min hex hk
      push Not at this
      exact ⟨this.1, this.2⟩
  intro k hk
  rw [h1, Finset.card_range]
  have : k ∈ (Finset.range N).filter p ↔ k ∈ Finset.range t := by rw [h1]
  simp only [Finset.mem_filter, Finset.mem_range] at this
  exact ⟨fun hp => this.1 ⟨hk, hp⟩, fun h => (this.2 h).2⟩

/-- Number of entries in columns before `j`. -/
def colPtr (N : ℕ) (c : ℕ → ℕ) (j : ℕ) : ℕ := ((Finset.range N).filter fun k => c k < j).card

theorem colPtr_zero (N : ℕ) (c : ℕ → ℕ) : colPtr N c 0 = 0 := by simp [colPtr]

theorem colPtr_mono {N : ℕ} {c : ℕ → ℕ} {j j' : ℕ} (h : j ≤ j') : colPtr N c j ≤ colPtr N c j' := by
  unfold colPtr
  refine Finset.card_le_card fun k hk => ?_
  simp only [Finset.mem_filter, Finset.mem_range] at *
  exact ⟨hk.1, by omega⟩

theorem colPtr_le (N : ℕ) (c : ℕ → ℕ) (j : ℕ) : colPtr N c j ≤ N := by
  unfold colPtr
  exact (Finset.card_filter_le _ _).trans (by simp)

theorem colPtr_all {N n : ℕ} {c : ℕ → ℕ} (h : ∀ k, k < N → c k < n) : colPtr N c n = N := by
  unfold colPtr
  rw [Finset.filter_true_of_mem fun k hk => h k (Finset.mem_range.1 hk), Finset.card_range]

theorem colPtr_succ (N : ℕ) (c : ℕ → ℕ) (j : ℕ) :
    colPtr N c (j + 1) = colPtr N c j + ((Finset.range N).filter fun k => c k = j).card := by
  unfold colPtr
  rw [← Finset.card_union_of_disjoint]
  · congr 1
    ext k
    simp only [Finset.mem_filter, Finset.mem_union, Finset.mem_range]
    omega
  · rw [Finset.disjoint_filter]
    intro k _ h1 h2
    omega

/-- For sorted columns, the entries of columns before `j` are the first ones. -/
theorem colPtr_lt {N : ℕ} {c : ℕ → ℕ} (hc : ∀ k k', k ≤ k' → k' < N → c k ≤ c k') {j k : ℕ}
    (hk : k < N) : c k < j ↔ k < colPtr N c j :=
  initial_segment (p := fun k => c k < j) (fun k k' h1 h2 h3 => lt_of_le_of_lt (hc k k' h1 h2) h3) k hk

/-- `A` is a sparse matrix with the `N` entries `(r k, c k, v k)`, in this order. -/
structure Coo (m n N : ℕ) (r c : ℕ → ℕ) (v : ℕ → ℚ) (A : Mat) : Prop extends Header m n A where
  idx : ∀ k, k < N → r k < m ∧ c k < n ∧ get (deref A.i) k = some (r k : ℤ) ∧ A.val k = some (v k)
  shape : (A.kind = .csc ∧ (∀ k k', k ≤ k' → k' < N → c k ≤ c k') ∧
      ∀ j, j ≤ n → get (deref A.p) j = some (colPtr N c j : ℤ)) ∨
    (A.kind = .triplet ∧ A.nz = N ∧ ∀ k, k < N → get (deref A.j) k = some (c k : ℤ))
  ixs : A.kind = .csc → A.i ≠ none

/-- No position occurs twice. -/
def NoRep (N : ℕ) (r c : ℕ → ℕ) : Prop :=
  ∀ k k', k < N → k' < N → r k = r k' → c k = c k' → k = k'

/-- The number at position `(i,j)` of a list of entries. -/
def cooNum (N : ℕ) (r c : ℕ → ℕ) (v : ℕ → ℚ) (i j : ℕ) : ℚ :=
  ∑ k ∈ Finset.range N, if r k = i ∧ c k = j then v k else 0

theorem sum_Ico_int (a b : ℕ) (f : ℤ → ℚ) :
    ∑ t ∈ Finset.Ico (a : ℤ) (b : ℤ), f t = ∑ k ∈ Finset.Ico a b, f (k : ℤ) := by
  refine (Finset.sum_bij (fun (k : ℕ) _ => (k : ℤ)) ?_ ?_ ?_ ?_).symm
  · intro k hk; simp only [Finset.mem_Ico] at *; omega
  · intro k _ k' _ h; exact_mod_cast h
  · intro t ht
    simp only [Finset.mem_Ico] at ht
    exact ⟨t.toNat, by simp only [Finset.mem_Ico]; omega, by omega⟩
  · intro k _; rfl

theorem Coo.num {m n N : ℕ} {r c : ℕ → ℕ} {v : ℕ → ℚ} {A : Mat} (h : Coo m n N r c v A) (i j : ℕ)
    (hj : j < n) : A.num i j = cooNum N r c v i j := by
  unfold Mat.num cooNum
  rcases h.shape with ⟨hk, hm, hp⟩ | ⟨hk, hz, hjj⟩
  · rw [hk]
    dsimp only
    have e1 := hp j (by omega)
    have e2 := hp (j + 1) (by omega)
    rw [show (((j + 1 : ℕ)) : ℤ) = (j : ℤ) + 1 by push_cast; rfl] at e2
    rw [e1, e2]
    dsimp only
    rw [sum_Ico_int]
    have hle : colPtr N c (j + 1) ≤ N := colPtr_le _ _ _
    have hsub : Finset.Ico (colPtr N c j) (colPtr N c (j + 1)) ⊆ Finset.range N := by
      intro k hk; simp only [Finset.mem_Ico, Finset.mem_range] at *; omega
    rw [← Finset.sum_subset hsub (f := fun k => if r k = i ∧ c k = j then v k else 0)]
    · refine Finset.sum_congr rfl fun k hk => ?_
      have hkN := Finset.mem_range.1 (hsub hk)
      simp only [Finset.mem_Ico] at hk
      obtain ⟨-, -, gi, gv⟩ := h.idx k hkN
      have hc : c k = j := by
        have h1 := (colPtr_lt hm hkN (j := j + 1)).2 hk.2
        have h2 : ¬ c k < j := fun h3 => by have := (colPtr_lt hm hkN).1 h3; omega
        omega
      rw [gi, gv]
      simp [hc]
    · intro k hk hk'
      have hkN := Finset.mem_range.1 hk
      rw [if_neg]
      rintro ⟨-, hc⟩
      apply hk'
      simp only [Finset.mem_Ico]
      have h1 := (colPtr_lt hm hkN (j := j + 1)).1 (by omega)
      have h2 : ¬ k < colPtr N c j := fun h3 => by have := (colPtr_lt hm hkN).2 h3; omega
      omega
  · rw [hk]
    dsimp only
    rw [hz, show (0 : ℤ) = ((0 : ℕ) : ℤ) from rfl, sum_Ico_int, ← Finset.range_eq_Ico]
    refine Finset.sum_congr rfl fun k hk => ?_
    have hkN := Finset.mem_range.1 hk
    obtain ⟨-, -, gi, gv⟩ := h.idx k hkN
    rw [gi, gv, hjj k hkN]
    simp

theorem Coo.valid {m n N : ℕ} {r c : ℕ → ℕ} {v : ℕ → ℚ} {A : Mat} (h : Coo m n N r c v A)
    (hd : NoRep N r c) : Valid m n A := by
  rcases h.shape with ⟨hk, hm, hp⟩ | ⟨hk, hz, hjj⟩
  · left
    refine ⟨h.toHeader, hk, ?_, ?_, h.ixs hk⟩
    · have := hp 0 (by omega)
      rwa [colPtr_zero] at this
    · intro j hj
      have e2 := hp (j + 1) (by omega)
      rw [show (((j + 1 : ℕ)) : ℤ) = (j : ℤ) + 1 by push_cast; rfl] at e2
      have hN := colPtr_le N c (j + 1)
      refine ⟨_, _, hp j (by omega), e2, by exact_mod_cast colPtr_mono (by omega), ?_, ?_⟩
      · intro t h1 h2
        obtain ⟨t, rfl⟩ := Int.eq_ofNat_of_zero_le (by omega : 0 ≤ t)
        obtain ⟨h3, h4, gi, gv⟩ := h.idx t (by omega)
        exact ⟨⟨r t, h3, gi⟩, _, gv⟩
      · intro t t' h1 h2 h1' h2' he
        obtain ⟨t, rfl⟩ := Int.eq_ofNat_of_zero_le (by omega : 0 ≤ t)
        obtain ⟨t', rfl⟩ := Int.eq_ofNat_of_zero_le (by omega : 0 ≤ t')
        have hcol : ∀ k, colPtr N c j ≤ k → k < colPtr N c (j + 1) → c k = j := by
          intro k h1 h2
          have h3 := (colPtr_lt hm (by omega) (j := j + 1)).2 h2
          have h4 : ¬ c k < j := fun h5 => by
            have := (colPtr_lt hm (by omega)).1 h5; omega
          omega
        have gi := (h.idx t (by omega)).2.2.1
        have gi' := (h.idx t' (by omega)).2.2.1
        rw [gi, gi'] at he
        have := hd t t' (by omega) (by omega) (by simpa using he)
          (by rw [hcol t (by omega) (by omega), hcol t' (by omega) (by omega)])
        exact_mod_cast this
  · right; left
    refine ⟨h.toHeader, hk, by omega, ?_, ?_⟩
    · intro t h1 h2
      obtain ⟨t, rfl⟩ := Int.eq_ofNat_of_zero_le h1
      obtain ⟨h3, h4, gi, gv⟩ := h.idx t (by omega)
      exact ⟨⟨r t, h3, gi⟩, ⟨c t, h4, hjj t (by omega)⟩, _, gv⟩
    · intro t t' h1 h2 h1' h2' he he'
      obtain ⟨t, rfl⟩ := Int.eq_ofNat_of_zero_le h1
      obtain ⟨t', rfl⟩ := Int.eq_ofNat_of_zero_le h1'
      rw [(h.idx t (by omega)).2.2.1, (h.idx t' (by omega)).2.2.1] at he
      rw [hjj t (by omega), hjj t' (by omega)] at he'
      have := hd t t' (by omega) (by omega) (by simpa using he) (by simpa using he')
      exact_mod_cast this

theorem ValidTriplet.coo {m n : ℕ} {A : Mat} (h : ValidTriplet m n A) :
    ∃ N r c v, Coo m n N r c v A ∧ NoRep N r c ∧ A.nz = N := by
  obtain ⟨N, hN⟩ := Int.eq_ofNat_of_zero_le h.nz
  have hex : ∀ k : ℕ, k < N → ∃ i j v, i < m ∧ j < n ∧ get (deref A.i) k = some (i : ℤ) ∧
      get (deref A.j) k = some (j : ℤ) ∧ A.val k = some v := by
    intro k hk
    obtain ⟨⟨i, hi, gi⟩, ⟨j, hj, gj⟩, v, gv⟩ := h.entry k (by omega) (by omega)
    exact ⟨i, j, v, hi, hj, gi, gj, gv⟩
  choose! r c v h1 h2 h3 h4 h5 using hex
  refine ⟨N, r, c, v, ⟨h.toHeader, fun k hk => ⟨h1 k hk, h2 k hk, h3 k hk, h5 k hk⟩,
    Or.inr ⟨h.kind, hN, h4⟩, fun hk => by rw [h.kind] at hk; cases hk⟩, ?_, hN⟩
  intro k k' hk hk' hr hc
  have := h.nodup k k' (by omega) (by omega) (by omega) (by omega) (by rw [h3 k hk, h3 k' hk', hr])
    (by rw [h4 k hk, h4 k' hk', hc])
  exact_mod_cast this

theorem ValidCsc.coo {m n : ℕ} {A : Mat} (h : ValidCsc m n A) :
    ∃ N r c v, Coo m n N r c v A ∧ NoRep N r c ∧ get (deref A.p) n = some (N : ℤ) := by
  -- the column pointers as natural numbers
  have hP : ∀ j : ℕ, j ≤ n → ∃ P : ℕ, get (deref A.p) j = some (P : ℤ) := by
    intro j hj
    induction j with
    | zero => exact ⟨0, h.p0⟩
    | succ j ih =>
      obtain ⟨P, hP⟩ := ih (by omega)
      obtain ⟨a, b, ha, hb, hab, -⟩ := h.col j (by omega)
      rw [ha] at hP
      have : a = P := by simpa using hP
      refine ⟨b.toNat, ?_⟩
      push_cast
      rw [hb]
      congr 1
      omega
  choose! P hP using hP
  have hP0 : P 0 = 0 := by
    have := hP 0 (by omega)
    rw [show ((0 : ℕ) : ℤ) = 0 from rfl, h.p0] at this
    simpa using this.symm
  have hcol : ∀ j, j < n → P j ≤ P (j + 1) ∧
      (∀ k, P j ≤ k → k < P (j + 1) → (∃ i : ℕ, i < m ∧ get (deref A.i) k = some (i : ℤ)) ∧
        ∃ v, A.val k = some v) ∧
      (∀ k k', P j ≤ k → k < P (j + 1) → P j ≤ k' → k' < P (j + 1) →
        get (deref A.i) k = get (deref A.i) k' → k = k') := by
    intro j hj
    obtain ⟨a, b, ha, hb, hab, h1, h2⟩ := h.col j hj
    rw [hP j (by omega)] at ha
    have hb' := hP (j + 1) (by omega)
    push_cast at hb'
    rw [hb'] at hb
    cases ha
    cases hb
    refine ⟨by omega, fun k hk hk' => h1 k (by omega) (by omega), fun k k' a1 a2 a3 a4 e => ?_⟩
    have := h2 k k' (by omega) (by omega) (by omega) (by omega) e
    exact_mod_cast this
  have hmono : ∀ j j', j ≤ j' → j' ≤ n → P j ≤ P j' := by
    intro j j' h1 h2
    induction j' with
    | zero => have : j = 0 := by omega
              subst this; rfl
    | succ j' ih =>
      rcases Nat.eq_or_lt_of_le h1 with h3 | h3
      · rw [h3]
      · exact (ih (by omega) (by omega)).trans (hcol j' (by omega)).1
  -- the column of an entry
  have hex : ∀ k, k < P n → ∃ j, j < n ∧ P j ≤ k ∧ k < P (j + 1) := by
    intro k hk
    have hx : ∃ j, k < P j := ⟨n, hk⟩
    have h1 := Nat.find_spec hx
    have h2 : Nat.find hx ≠ 0 := by
      intro h0
      rw [h0, hP0] at h1
      omega
    refine ⟨Nat.find hx - 1, ?_, ?_, ?_⟩
    · have : Nat.find hx ≤ n := Nat.find_min' hx hk
      omega
    · have := Nat.find_min hx (m := Nat.find hx - 1) (by omega)
      omega
    · rwa [show Nat.find hx - 1 + 1 = Nat.find hx by omega]
  choose! c hc1 hc2 hc3 using hex
  have hcj : ∀ k j, k < P n → j ≤ n → (c k < j ↔ k < P j) := by
    intro k j hk hj
    constructor
    · intro hlt
      exact (hc3 k hk).trans_le (hmono _ _ hlt hj)
    · intro hlt
      by_contra hge
      have := hmono j (c k) (by omega) (by have := hc1 k hk; omega)
      have := hc2 k hk
      omega
  have hent : ∀ k, k < P n → ∃ i v, i < m ∧ get (deref A.i) k = some (i : ℤ) ∧ A.val k = some v := by
    intro k hk
    obtain ⟨-, h1, -⟩ := hcol (c k) (hc1 k hk)
    obtain ⟨⟨i, hi, gi⟩, v, gv⟩ := h1 k (hc2 k hk) (hc3 k hk)
    exact ⟨i, v, hi, gi, gv⟩
  choose! r v hr1 hr2 hr3 using hent
  refine ⟨P n, r, c, v, ⟨h.toHeader, fun k hk => ⟨hr1 k hk, hc1 k hk, hr2 k hk, hr3 k hk⟩,
    Or.inl ⟨h.kind, ?_, ?_⟩, fun _ => h.idx⟩, ?_, hP n le_rfl⟩
  · intro k k' hkk hk'
    by_contra hlt
    have h1 := (hcj k' (c k) hk' (by have := hc1 k (by omega); omega)).1 (by omega)
    have h2 := hc2 k (by omega)
    omega
  · intro j hj
    rw [hP j hj]
    congr 2
    unfold colPtr
    rw [Finset.filter_congr (q := fun k => k < P j)]
    · have := hmono j n hj le_rfl
      have e : (Finset.range (P n)).filter (fun k => k < P j) = Finset.range (P j) := by
        ext k; simp only [Finset.mem_filter, Finset.mem_range]; omega
      rw [e, Finset.card_range]
    · intro k hk
      exact hcj k j (Finset.mem_range.1 hk) hj
  · intro k k' hk hk' er ec
    obtain ⟨-, -, h1⟩ := hcol (c k) (hc1 k hk)
    refine h1 k k' (hc2 k hk) (hc3 k hk) (by rw [ec]; exact hc2 k' hk') (by rw [ec]; exact hc3 k' hk') ?_
    rw [hr2 k hk, hr2 k' hk', er]

/-- With no repeated positions the entry at `(r k, c k)` is `v k`. -/
theorem cooNum_at {N : ℕ} {r c : ℕ → ℕ} {v : ℕ → ℚ} (hd : NoRep N r c) {k : ℕ} (hk : k < N) :
    cooNum N r c v (r k) (c k) = v k := by
  unfold cooNum
  rw [Finset.sum_eq_single k]
  · simp
  · intro t ht hne
    rw [if_neg]
    rintro ⟨h1, h2⟩
    exact hne (hd t k (Finset.mem_range.1 ht) hk h1 h2)
  · intro h; exact absurd (Finset.mem_range.2 hk) h

theorem cooNum_none {N : ℕ} {r c : ℕ → ℕ} {v : ℕ → ℚ} {i j : ℕ}
    (h : ∀ k, k < N → ¬ (r k = i ∧ c k = j)) : cooNum N r c v i j = 0 := by
  unfold cooNum
  exact Finset.sum_eq_zero fun k hk => if_neg (h k (Finset.mem_range.1 hk))

/-- Reordering entries does not change the matrix. -/
theorem cooNum_perm {N : ℕ} {r c r' c' : ℕ → ℕ} {v v' : ℕ → ℚ} {f : ℕ → ℕ}
    (hf : ∀ k, k < N → f k < N) (hinj : ∀ k k', k < N → k' < N → f k = f k' → k = k')
    (h : ∀ k, k < N → r' (f k) = r k ∧ c' (f k) = c k ∧ v' (f k) = v k) (i j : ℕ) :
    cooNum N r' c' v' i j = cooNum N r c v i j := by
  unfold cooNum
  symm
  refine Finset.sum_bij (fun k _ => f k) ?_ ?_ ?_ ?_
  · intro k hk; exact Finset.mem_range.2 (hf k (Finset.mem_range.1 hk))
  · intro k hk k' hk' e; exact hinj k k' (Finset.mem_range.1 hk) (Finset.mem_range.1 hk') e
  · intro b hb
    have hinjOn : Set.InjOn f (Finset.range N : Set ℕ) := by
      intro k hk k' hk' e
      exact hinj k k' (Finset.mem_range.1 hk) (Finset.mem_range.1 hk') e
    have : Finset.image f (Finset.range N) = Finset.range N := by
      apply Finset.eq_of_subset_of_card_le
      · intro k hk
        obtain ⟨t, ht, rfl⟩ := Finset.mem_image.1 hk
        exact Finset.mem_range.2 (hf t (Finset.mem_range.1 ht))
      · rw [Finset.card_image_of_injOn hinjOn]
    rw [← this] at hb
    obtain ⟨t, ht, e⟩ := Finset.mem_image.1 hb
    exact ⟨t, ht, e⟩
  · intro k hk
    obtain ⟨h1, h2, h3⟩ := h k (Finset.mem_range.1 hk)
    rw [h1, h2, h3]

end Slip
