import Verif.Spec
import Verif.Proof.ColTop
import Verif.Proof.AmdOrder
import Mathlib.Tactic.Linarith
import Mathlib.Tactic.Ring

/-! # Proofs about SLIP_LU_analyze -/

namespace Slip

theorem IsCsc.pattern {n : ℕ} {A : Mat} (h : IsCsc n A) : IsPattern n (deref A.p) (deref A.i) :=
  ⟨h.p0, fun j hj => by
    obtain ⟨a, b, h1, h2, h3, h4, h5⟩ := h.col j hj
    exact ⟨a, b, h1, h2, h3, fun t ht ht' => (h4 t ht ht').1, h5⟩⟩

theorem IsPattern.ptr {n : ℕ} {p i : Arr Int} (h : IsPattern n p i) :
    ∀ j : ℕ, j ≤ n → ∃ a, get p j = some a ∧ 0 ≤ a
  | 0, _ => ⟨0, h.p0, le_refl _⟩
  | j + 1, hj => by
    obtain ⟨v, hv, hv0⟩ := h.ptr j (by omega)
    obtain ⟨a, b, h1, h2, h3, -⟩ := h.col j (by omega)
    obtain rfl := Option.some.inj (hv.symm.trans h1)
    exact ⟨b, by push_cast; exact h2, by omega⟩

/-- Every position below `p[n]` belongs to a column. -/
theorem IsPattern.idx {n : ℕ} {p i : Arr Int} (h : IsPattern n p i) :
    ∀ j : ℕ, j ≤ n → ∀ a, get p j = some a → ∀ t, 0 ≤ t → t < a → ∃ r : ℕ, r < n ∧
      get i t = some (r : ℤ)
  | 0, _, a, ha, t, h0, h1 => by
    have h2 := h.p0
    rw [Nat.cast_zero] at ha
    obtain rfl := Option.some.inj (ha.symm.trans h2)
    omega
  | j + 1, hj, a, ha, t, h0, h1 => by
    obtain ⟨a', b, h2, h3, h4, h5, -⟩ := h.col j (by omega)
    push_cast at ha
    obtain rfl := Option.some.inj (ha.symm.trans h3)
    by_cases ht : t < a'
    · exact h.idx j (by omega) a' h2 t h0 ht
    · exact h5 t (by omega) h1

theorem IsPattern.le_nnz {n : ℕ} {p i : Arr Int} (h : IsPattern n p i) {a b : ℤ} {j : ℕ}
    (hj : j ≤ n) (ha : get p j = some a) (hb : get p n = some b) : a ≤ b := by
  have key : ∀ k : ℕ, j + k ≤ n → ∀ c, get p ((j + k : ℕ) : ℤ) = some c → a ≤ c := by
    intro k
    induction k with
    | zero => intro _ c hc; rw [Nat.add_zero, ha] at hc; cases hc; exact le_rfl
    | succ k ih =>
      intro hk c hc
      obtain ⟨x, y, hx, hy, hxy, -⟩ := h.col (j + k) (by omega)
      have := ih (by omega) x hx
      rw [show ((j + (k + 1) : ℕ) : ℤ) = ((j + k : ℕ) : ℤ) + 1 by push_cast; ring, hy] at hc
      cases hc; omega
  have := key (n - j) (by omega) b
  rw [show j + (n - j) = n by omega] at this
  exact this hb

theorem clampNnz_spec {n nz : ℤ} (hn : 0 ≤ n) (hz : 0 ≤ nz) :
    n ≤ (clampNnz n nz nz).1 ∧ (clampNnz n nz nz).1 ≤ n * n ∧
      (clampNnz n nz nz).2 = (clampNnz n nz nz).1 := by
  unfold clampNnz
  by_cases h : nz > n * n
  · simp only [if_pos h]
    have h1 : n ≤ n * n := by nlinarith
    generalize hm : n * n = m at *
    refine ⟨?_, ?_, trivial⟩
    · split
      · omega
      · omega
    · split
      · rename_i h2
        have : n = 0 ∨ n = 1 ∨ 2 ≤ n := by omega
        rcases this with rfl | rfl | h3
        · omega
        · omega
        · have : 2 * n ≤ m := by rw [← hm]; nlinarith
          omega
      · omega
  · simp only [if_neg h]
    refine ⟨?_, ?_, trivial⟩
    · split <;> omega
    · split
      · have : n = 0 ∨ n = 1 ∨ 2 ≤ n := by omega
        rcases this with rfl | rfl | h3
        · omega
        · omega
        · nlinarith
      · omega

/-- A loop that writes `f i` to each `a[i]`. -/
theorem fillLoop {m : ℤ} {a : Arr Int} {g : ℤ → C ℤ} {f : ℤ → ℤ} (hm : 0 ≤ m)
    (hl : m ≤ (a.length : ℤ)) (hg : ∀ i, 0 ≤ i → i < m → g i = .ok (f i)) :
    ∃ a', (forRange 0 m a fun i a => do let v ← g i; wr a i v) = .ok a' ∧ a'.length = a.length ∧
      (∀ t, 0 ≤ t → t < m → get a' t = some (f t)) ∧ ∀ t, m ≤ t → get a' t = get a t := by
  have := wp_forRange (E := noFail) (lo := 0) (hi := m) (s := a)
    (f := fun i a => do let v ← g i; wr a i v)
    (fun k a' => a'.length = a.length ∧ (∀ t, 0 ≤ t → t < k → get a' t = some (f t)) ∧
      ∀ t, k ≤ t → get a' t = get a t) hm ⟨rfl, fun t h1 h2 => by omega, fun t _ => rfl⟩
    (by
      rintro k a' h0 h1 ⟨e, h2, h3⟩
      rw [hg k h0 h1, ok_bind]
      have hb : k < (a'.length : ℤ) := by omega
      rw [wr_eq h0 hb, wp_ok]
      refine ⟨by simp [e], fun t ht ht' => ?_, fun t ht => ?_⟩
      · rw [get_upd h0 hb]
        by_cases htk : t = k
        · simp [htk]
        · rw [if_neg htk]; exact h2 t ht (by omega)
      · rw [get_upd h0 hb, if_neg (by omega)]; exact h3 t (by omega))
  obtain ⟨a', h1, h2⟩ := wp_noFail this
  exact ⟨a', h1, h2⟩

/-- The copies of `A->p` and `A->i` that are passed to COLAMD. -/
theorem colamd_copy {n : ℕ} {A : Mat} {anz : ℤ} (hp : IsPattern n (deref A.p) (deref A.i))
    (hz : get (deref A.p) n = some anz) (h0 : 0 ≤ anz) :
    ∃ q A2, (forRange 0 ((n : ℤ) + 1) (malloc Int ((n : ℤ) + 1)) fun i q => do
        let v ← rd (deref A.p) i
        wr q i v) = .ok q ∧
      (forRange 0 anz (malloc Int (2 * anz + 6 * ((n : ℤ) + 1) + 6 * ((n : ℤ) + 1) + n)) fun i A2 => do
        let v ← rd (deref A.i) i
        wr A2 i v) = .ok A2 ∧
      (q.length : ℤ) = n + 1 ∧ (A2.length : ℤ) = 2 * anz + 6 * ((n : ℤ) + 1) + 6 * ((n : ℤ) + 1) + n ∧
      Colamd.RectPattern n n anz q A2 := by
  have hml : ((malloc Int ((n : ℤ) + 1)).length : ℤ) = n + 1 := by
    rw [length_malloc]; omega
  have hpv : ∀ t : ℤ, 0 ≤ t → t ≤ n → ∃ a, get (deref A.p) t = some a := by
    intro t h0 h1
    obtain ⟨t, rfl⟩ := Int.eq_ofNat_of_zero_le h0
    obtain ⟨a, ha, -⟩ := hp.ptr t (by omega)
    exact ⟨a, ha⟩
  obtain ⟨q, e, hql, hq, -⟩ := fillLoop (m := (n : ℤ) + 1) (a := malloc Int ((n : ℤ) + 1))
    (g := rd (deref A.p)) (f := fun i => (get (deref A.p) i).getD 0) (by omega) (by omega)
    (fun t h0 h1 => by
      obtain ⟨a, ha⟩ := hpv t h0 (by omega)
      rw [rd_eq ha, ha]; rfl)
  obtain ⟨A2, e2, hA2l, hA2, -⟩ := fillLoop (m := anz)
    (a := malloc Int (2 * anz + 6 * ((n : ℤ) + 1) + 6 * ((n : ℤ) + 1) + n))
    (g := rd (deref A.i)) (f := fun i => (get (deref A.i) i).getD 0) (by omega)
    (by rw [length_malloc]; omega)
    (fun t h0 h1 => by
      obtain ⟨r, -, ha⟩ := hp.idx n (le_refl _) anz hz t h0 h1
      rw [rd_eq ha, ha]; rfl)
  have hrect : Colamd.RectPattern n n anz q A2 := by
    have gq : ∀ t : ℤ, 0 ≤ t → t ≤ n → get q t = get (deref A.p) t := by
      intro t h0 h1
      obtain ⟨a, ha⟩ := hpv t h0 (by omega)
      rw [hq t h0 (by omega), ha]; rfl
    have gA : ∀ t : ℤ, 0 ≤ t → t < anz → get A2 t = get (deref A.i) t := by
      intro t h0 h1
      obtain ⟨r, -, ha⟩ := hp.idx n (le_refl _) anz hz t h0 h1
      rw [hA2 t h0 h1, ha]; rfl
    refine ⟨by rw [gq 0 le_rfl (by omega)]; exact hp.p0, by rw [gq n (by omega) le_rfl]; exact hz,
      fun j hj => ?_⟩
    obtain ⟨a, b, ha, hb, hab, h1, h2⟩ := hp.col j hj
    have ba : 0 ≤ a := by
      obtain ⟨a', ha', h0⟩ := hp.ptr j (by omega)
      rw [ha] at ha'; cases ha'; exact h0
    have bb : b ≤ anz := hp.le_nnz (j := j + 1) (by omega) (by push_cast; exact hb) hz
    refine ⟨a, b, by rw [gq j (by omega) (by omega)]; exact ha,
      by rw [gq (j + 1) (by omega) (by omega)]; exact hb, hab, ?_, ?_⟩
    · intro t t0 t1
      rw [gA t (by omega) (by omega)]; exact h1 t t0 t1
    · intro t t' t0 t1 t0' t1' e
      rw [gA t (by omega) (by omega), gA t' (by omega) (by omega)] at e
      exact h2 t t' t0 t1 t0' t1' e
  exact ⟨q, A2, e, e2, by rw [hql, hml], by rw [hA2l, length_malloc]; omega, hrect⟩

theorem analyzeBody_spec {O : Orderings} {opt : Option Options} {n : ℕ} (hO : AmdOk O opt n) {A : Mat}
    (hk : A.kind = .csc) (hn : A.n = n) (hp : IsPattern n (deref A.p) (deref A.i)) (hi : A.i ≠ none) :
    ∃ S, analyzeBody O A opt = .ok S ∧ IsAnalysis n S ∧ S.lnz ≤ n * n ∧ S.unz ≤ n * n ∧
      (optOrder opt = .none → Holds S.q (1 : Equiv.Perm (Fin n))) := by
  obtain ⟨anz, hz, hz0⟩ := hp.ptr n (le_refl _)
  have hnnz : SLIP_matrix_nnz true (some A) = .ok anz := by
    unfold SLIP_matrix_nnz
    simp only [Bool.not_true, Bool.false_eq_true, if_false, hk]
    cases hAp : A.p with
    | none => rw [hAp] at hz; simp [deref, Slip.get] at hz
    | some p =>
      rw [hAp] at hz
      simp only [hn]
      rw [if_neg (by omega)]
      exact rd_eq hz
  have hml : ((malloc Int ((n : ℤ) + 1)).length : ℤ) = n + 1 := by
    rw [length_malloc]; omega
  unfold analyzeBody
  simp only [hn, hnnz, ok_bind]
  cases ho : optOrder opt with
  | none =>
    obtain ⟨q, e, -, hq, -⟩ := fillLoop (m := (n : ℤ) + 1) (a := malloc Int ((n : ℤ) + 1))
      (g := fun i => .ok i) (f := fun i => i) (by omega) (by omega) (fun _ _ _ => rfl)
    simp only [ok_bind] at e
    have hq' : Holds q (1 : Equiv.Perm (Fin n)) := fun t => hq _ (by omega) (by omega)
    obtain ⟨c1, c2, c3⟩ := clampNnz_spec (n := n) (nz := 10 * anz) (by omega) (by omega)
    refine ⟨⟨q, (clampNnz n (10 * anz) (10 * anz)).1, (clampNnz n (10 * anz) (10 * anz)).2⟩, ?_,
      ⟨⟨1, hq'⟩, c1, ?_⟩, c2, ?_, fun _ => hq'⟩
    · simp only [e, ok_bind]; rfl
    · show (n : ℤ) ≤ (clampNnz n (10 * anz) (10 * anz)).2
      rw [c3]; exact c1
    · show (clampNnz n (10 * anz) (10 * anz)).2 ≤ n * n
      rw [c3]; exact c2
  | amd =>
    obtain ⟨hn0, hM⟩ := hO ho
    have hpp : A.p = some (deref A.p) := by
      cases hAp : A.p with
      | none => have := hp.p0; rw [hAp] at this; simp [deref, Slip.get] at this
      | some p => rfl
    have hsq : Amd.SquarePattern n (deref A.p) (deref A.i) := ⟨hp.p0, fun j hj => by
      obtain ⟨a, b, h1, h2, h3, h4, -⟩ := hp.col j hj
      exact ⟨a, b, h1, h2, h3, h4⟩⟩
    have key : ∃ q lnz, analyzeAmd (ar := Arith.exact) O A (malloc Int ((n : ℤ) + 1)) = .ok (q, lnz) ∧
        (∃ τ : Equiv.Perm (Fin n), Holds q τ) ∧ 0 ≤ lnz := by
      obtain ⟨i, hi⟩ := Option.ne_none_iff_exists'.1 hi
      rw [hi] at hsq
      obtain ⟨st, q, lnz, e, h⟩ := Amd.amd_order_pattern (ar := Arith.exact) (P := malloc Int ((n : ℤ) + 1)) ⟨true, true, true⟩ (O.amdKnobs n)
        (Amd.room_exact (by omega)) hn0 hsq (by omega)
      refine ⟨q, lnz, ?_, ?_⟩
      · unfold analyzeAmd
        rw [hpp, hi]
        show (Amd.amd_order (ar := Arith.exact) A.n (deref A.p) i _ (O.amdMem A.n (deref A.p) i) (O.amdKnobs A.n) >>= _) = _
        rw [hn, hM, show deref (some i) = i from rfl] at *
        rw [e]; rfl
      · rcases h with ⟨-, -, h1, h2, -⟩ | ⟨h1, -⟩
        · exact ⟨h1, h2⟩
        · exact absurd ⟨rfl, rfl, fun _ => rfl⟩ h1
    obtain ⟨q, lnz, eq, ⟨τ, hτ⟩, h0⟩ := key
    obtain ⟨c1, c2, c3⟩ := clampNnz_spec (n := n) (by omega) h0
    simp only [eq, ok_bind]
    exact ⟨⟨_, _, _⟩, rfl, ⟨⟨τ, hτ⟩, c1, by rw [c3]; exact c1⟩, c2, by rw [c3]; exact c2,
      fun h => by cases h⟩
  | colamd =>
    obtain ⟨q, A2, e, e2, hql, hA2l, hrect⟩ := colamd_copy hp hz (by omega)
    obtain ⟨q', eq', τ, hτ⟩ := Colamd.colamd_ok (ar := Arith.exact) (K := O.knobs n)
      (Alen := 2 * anz + 6 * ((n : ℤ) + 1) + 6 * ((n : ℤ) + 1) + n) (by omega)
      (by rw [hA2l]) hrect (by omega) (fun _ _ _ => rfl)
    obtain ⟨c1, c2, c3⟩ := clampNnz_spec (n := n) (nz := 10 * anz) (by omega) (by omega)
    refine ⟨⟨q', (clampNnz n (10 * anz) (10 * anz)).1, (clampNnz n (10 * anz) (10 * anz)).2⟩, ?_,
      ⟨⟨τ, hτ⟩, c1, ?_⟩, c2, ?_, fun h => by cases h⟩
    · simp only [e, e2, eq', ok_bind]; rfl
    · show (n : ℤ) ≤ (clampNnz n (10 * anz) (10 * anz)).2
      rw [c3]; exact c1
    · show (clampNnz n (10 * anz) (10 * anz)).2 ≤ n * n
      rw [c3]; exact c2

end Slip
