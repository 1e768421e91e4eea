import Verif.Proof.Cols

/-! # The invariant of the factorization loop and its preservation -/

namespace Slip

/-- The documented pivoting policies, at one step: `a i` is the candidate value of row `i`
(zero for rows that cannot be chosen), `d` the diagonal row, `p` the row chosen.
For FIRST_NONZERO only eligibility (`a p ≠ 0`) is claimed here.  For TOL_LARGEST with a negative
largest entry the code compares a fraction with a negative denominator; only `p = d ∨ p = s`
is then claimed. -/
def PolOk (order : Pivot) (tol : ℚ) (n : ℕ) (a : ℕ → ℤ) (d p : ℕ) : Prop :=
  a p ≠ 0 ∧
  match order with
  | .smallest => ∀ i < n, a i ≠ 0 → |a p| ≤ |a i|
  | .largest => ∀ i < n, |a i| ≤ |a p|
  | .firstNonzero => True
  | .diagonal => (a d ≠ 0 → p = d) ∧ (a d = 0 → ∀ i < n, a i ≠ 0 → |a p| ≤ |a i|)
  | .tolSmallest => ∃ s < n, a s ≠ 0 ∧ (∀ i < n, a i ≠ 0 → |a s| ≤ |a i|) ∧
      (a d ≠ 0 ∧ tol * (|a d| : ℤ) ≤ (|a s| : ℤ) → p = d) ∧
      (¬ (a d ≠ 0 ∧ tol * (|a d| : ℤ) ≤ (|a s| : ℤ)) → p = s)
  | .tolLargest => ∃ s < n, a s ≠ 0 ∧ (∀ i < n, |a i| ≤ |a s|) ∧
      (a d = 0 → p = s) ∧
      (a d ≠ 0 → 0 < a s → (tol * (|a s| : ℤ) ≤ (|a d| : ℤ) → p = d) ∧
        (¬ tol * (|a s| : ℤ) ≤ (|a d| : ℤ) → p = s)) ∧
      (a d ≠ 0 → a s < 0 → p = d ∨ p = s)

/-- The row permutation after row `pr` is swapped into position `k`. -/
def newR (r pi : ℕ → ℕ) (k pr : ℕ) : ℕ → ℕ :=
  fun t => if t = pi pr then r k else if t = k then pr else r t

/-- The inverse row permutation after row `pr` is swapped into position `k`. -/
def newPi (r pi : ℕ → ℕ) (k pr : ℕ) : ℕ → ℕ :=
  fun i => if i = r k then pi pr else if i = pr then k else pi i

theorem newPerm {n k pr : ℕ} {pi r : ℕ → ℕ} (hp : PermPair n pi r) (hk : k < n) (hpr : pr < n)
    (hkp : k ≤ pi pr) :
    PermPair n (newPi r pi k pr) (newR r pi k pr) ∧
    (∀ t < k, newR r pi k pr t = r t) ∧ newR r pi k pr k = pr ∧
    (∀ i < n, pi i < k → newPi r pi k pr i = pi i) ∧
    (∀ i < n, k ≤ pi i → k ≤ newPi r pi k pr i) ∧
    (∀ i < n, newPi r pi k pr i = k ↔ i = pr) := by
  have h1 := hp.rlt k hk
  have h2 := hp.plt pr hpr
  have h3 := hp.pr k hk
  have h4 := hp.rp pr hpr
  have key : ∀ i < n, ∀ j < n, pi i = pi j → i = j := by
    intro i hi j hj e
    rw [← hp.rp i hi, ← hp.rp j hj, e]
  have keyr : ∀ i < n, ∀ j < n, r i = r j → i = j := by
    intro i hi j hj e
    rw [← hp.pr i hi, ← hp.pr j hj, e]
  refine ⟨⟨?_, ?_, ?_, ?_⟩, ?_, ?_, ?_, ?_, ?_⟩
  · intro t ht
    unfold newR
    split
    · exact h1
    · split
      · exact hpr
      · exact hp.rlt t ht
  · intro i hi
    unfold newPi
    split
    · exact h2
    · split
      · exact hk
      · exact hp.plt i hi
  · intro t ht
    unfold newR newPi
    by_cases e1 : t = pi pr
    · simp [e1]
    · by_cases e2 : t = k
      · have e3 : pr ≠ r k := by
          intro hcon; apply e1; rw [e2, hcon, h3]
        subst e2
        simp [e1, e3]
      · have e3 : r t ≠ r k := fun hcon => e2 (keyr t ht k hk hcon)
        have e4 : r t ≠ pr := by
          intro hcon; apply e1; rw [← hcon, hp.pr t ht]
        simp [e1, e2, e3, e4, hp.pr t ht]
  · intro i hi
    unfold newR newPi
    by_cases e1 : i = r k
    · simp [e1]
    · by_cases e2 : i = pr
      · have e3 : k ≠ pi pr := by
          intro hcon; apply e1; rw [e2, hcon, h4]
        subst e2
        simp [e1, e3]
      · have e3 : pi i ≠ pi pr := fun hcon => e2 (key i hi pr hpr hcon)
        have e4 : pi i ≠ k := by
          intro hcon; apply e1; rw [← hcon, hp.rp i hi]
        simp [e1, e2, e3, e4, hp.rp i hi]
  · intro t ht
    unfold newR
    rw [if_neg (by omega), if_neg (by omega)]
  · unfold newR
    by_cases e1 : k = pi pr
    · rw [if_pos e1, e1, h4]
    · rw [if_neg e1, if_pos rfl]
  · intro i hi hlt
    unfold newPi
    rw [if_neg (by rintro rfl; omega), if_neg (by rintro rfl; omega)]
  · intro i hi hle
    unfold newPi
    split
    · exact hkp
    · split
      · exact le_refl _
      · exact hle
  · intro i hi
    unfold newPi
    constructor
    · intro h
      by_cases e1 : i = r k
      · rw [if_pos e1] at h
        rw [e1, ← h, h4]
      · rw [if_neg e1] at h
        by_cases e2 : i = pr
        · exact e2
        · rw [if_neg e2] at h
          exact absurd (by rw [← h, hp.rp i hi]) e1
    · rintro rfl
      by_cases e1 : i = r k
      · rw [if_pos e1, e1, h3]
      · rw [if_neg e1, if_pos rfl]

/-- The array after writing the swapped entries holds the new permutation. -/
theorem IsFn.upd2 {n : ℕ} {a : Arr Int} {f g : ℕ → ℕ} (h : IsFn n a f) {i j u w : ℕ}
    (hi : i < n) (hj : j < n)
    (hg : ∀ t < n, g t = if t = j then w else if t = i then u else f t) :
    wr a (i : Int) (u : Int) = .ok (upd a i u) ∧
    wr (upd a (i : Int) (u : Int)) (j : Int) (w : Int) = .ok (upd (upd a i u) j w) ∧
    IsFn n (upd (upd a (i : Int) (u : Int)) (j : Int) (w : Int)) g := by
  have bi := get_bounds (h i hi)
  have bj := get_bounds (h j hj)
  have bj' : (j : Int) < ((upd a (i : Int) (u : Int)).length : Int) := by
    rw [length_upd]; exact bj.2
  refine ⟨wr_eq bi.1 bi.2, wr_eq bj.1 bj', ?_⟩
  intro t ht
  rw [get_upd bj.1 bj', get_upd bi.1 bi.2, hg t ht]
  by_cases e1 : t = j
  · simp [e1]
  · by_cases e2 : t = i
    · subst e2; simp [e1]
    · rw [if_neg (by omega), if_neg (by omega), if_neg e1, if_neg e2]
      exact h t ht

/-- Columns `0..k-1` of U. -/
def UCols (A : ℕ → ℕ → ℤ) (r c : ℕ → ℕ) (n k : ℕ) (pi : ℕ → ℕ) (up : ℕ → ℤ) (Up Ui Ux : Arr Int) :
    Prop :=
  ColOk n k (fun t i => pi i ≤ t) (fun t i => lev A r c (pi i) (fun i => A i (c t)) i) up Up Ui Ux ∧
  ∀ t < k, up t < up (t + 1) ∧ get Ui (up (t + 1) - 1) = some ((r t : ℕ) : Int)

/-- The invariant of the main loop of the factorization after `k` columns. -/
structure FInv (order : Pivot) (tol : ℚ) (A : ℕ → ℕ → ℤ) (c : ℕ → ℕ) (n k : ℕ) (r pi : ℕ → ℕ)
    (lp up : ℕ → ℤ) (s : FactSt) : Prop where
  perm : PermPair n pi r
  pinv : IsFn n s.pinv pi
  pinvLen : s.pinv.length = n
  rperm : IsFn n s.row_perm r
  pivs : ∀ i : ℕ, i < n → get s.pivs (i : Int) = some (if pi i < k then 1 else -1)
  rho : RhosOk A r c k s.rhos
  rhoLen : s.rhos.length = max n 1
  rhoNone : ∀ t : ℤ, (k : ℤ) ≤ t → get s.rhos t = none
  L : LOk A r c n k pi lp (upd s.L.p (k : Int) s.lnz) s.L.i s.L.x
  lnz : lp k = s.lnz
  capL : CapOk n s.L s.lnz
  U : UCols A r c n k pi up (upd s.U.p (k : Int) s.unz) s.U.i s.U.x
  unz : up k = s.unz
  capU : CapOk n s.U s.unz
  xi : s.xi.length = 2 * n
  h : s.h.length = n
  x : ∀ i : ℕ, i < n → get s.x (i : Int) ≠ none
  pol : ∀ t < k, PolOk order tol n (fun i => lev A r c t (fun i => A i (c t)) i) (c t) (r t)

theorem natAbs_le_iff {a b : ℤ} : a.natAbs ≤ b.natAbs ↔ |a| ≤ |b| := by
  rw [← Int.natCast_natAbs, ← Int.natCast_natAbs]; omega

/-- Transfer of the pivot policy from the arrays to the mathematical candidate values. -/
theorem Policy.toPolOk {nc : Int → Int → ℚ → Bool} {order : Pivot} {tol : ℚ} {pat : List ℕ}
    {v pv : ℕ → ℤ} {d i n : ℕ} {a : ℕ → ℤ}
    (hE : ∀ j < n, a j ≠ 0 ↔ Elig v pv j) (hv : ∀ j, Elig v pv j → a j = v j) (hd : d < n)
    (hpat : ∀ j < n, a j ≠ 0 → j ∈ pat) (hlt : ∀ j ∈ pat, j < n) (hi : i ∈ pat)
    (hei : Elig v pv i)
    (h : Policy nc order tol pat v pv d i) : PolOk order tol n a d i := by
  have hLeast : ∀ s, Elig v pv s → (∀ j' ∈ pat, Elig v pv j' → (v s).natAbs ≤ (v j').natAbs) →
      ∀ j < n, a j ≠ 0 → |a s| ≤ |a j| := by
    intro s hs hmin j hj hne
    have he := (hE j hj).mp hne
    rw [hv s hs, hv j he]
    exact natAbs_le_iff.mp (hmin j (hpat j hj hne) he)
  have hGreat : ∀ s, Elig v pv s → (∀ j' ∈ pat, Elig v pv j' → (v j').natAbs ≤ (v s).natAbs) →
      ∀ j < n, |a j| ≤ |a s| := by
    intro s hs hmax j hj
    by_cases hne : a j = 0
    · rw [hne, abs_zero]; exact abs_nonneg _
    · have he := (hE j hj).mp hne
      rw [hv s hs, hv j he]
      exact natAbs_le_iff.mp (hmax j (hpat j hj hne) he)
  refine ⟨(hE i (hlt i hi)).mpr hei, ?_⟩
  cases order with
  | smallest => exact hLeast i hei h
  | largest => exact hGreat i hei h
  | firstNonzero => trivial
  | diagonal =>
    refine ⟨fun h' => h.1 ((hE d hd).mp h'), fun h' => hLeast i hei (h.2 ?_)⟩
    intro hc; exact (hE d hd).mpr hc h'
  | tolSmallest =>
    obtain ⟨s, hs, hes, hmin, h1, h2⟩ := h
    have hiff : (a d ≠ 0 ∧ tol * (|a d| : ℤ) ≤ (|a s| : ℤ)) ↔
        (Elig v pv d ∧ tol * (|v d| : ℤ) ≤ (|v s| : ℤ)) := by
      constructor
      · rintro ⟨q1, q2⟩
        have := (hE d hd).mp q1
        rw [hv d this, hv s hes] at q2
        exact ⟨this, q2⟩
      · rintro ⟨q1, q2⟩
        rw [← hv d q1, ← hv s hes] at q2
        exact ⟨(hE d hd).mpr q1, q2⟩
    exact ⟨s, hlt s hs, (hE s (hlt s hs)).mpr hes, hLeast s hes hmin,
      fun hc => h1 (hiff.mp hc), fun hc => h2 (fun hc' => hc (hiff.mpr hc'))⟩
  | tolLargest =>
    obtain ⟨s, hs, hes, hmax, h1, h2, h3⟩ := h
    refine ⟨s, hlt s hs, (hE s (hlt s hs)).mpr hes, hGreat s hes hmax,
      fun hc => h1 (fun he => (hE d hd).mpr he hc), ?_, ?_⟩
    · intro hc hpos
      have hed := (hE d hd).mp hc
      rw [hv s hes] at hpos ⊢
      rw [hv d hed]
      exact h2 hed hpos
    · intro hc hneg
      have hed := (hE d hd).mp hc
      rw [hv s hes] at hneg
      have := h3 hed hneg
      split at this
      · exact Or.inl this
      · exact Or.inr this

end Slip
