import Verif.Spec
import Verif.Proof.Check

/-! From the specification vocabulary to the proof-level invariants and back. -/

namespace Slip

open Finset

theorem entry_eq {A : Mat} {i j : ℕ} {a b : ℤ} (ha : get (deref A.p) j = some a)
    (hb : get (deref A.p) ((j : ℤ) + 1) = some b) :
    A.entry i j = ∑ t ∈ Finset.Ico a b,
      if get (deref A.i) t = some (i : ℤ) then (get A.xz t).getD 0 else 0 := by
  unfold Mat.entry
  rw [ha, hb]

/-- With no duplicates the sum has at most one term. -/
theorem entry_of_mem {A : Mat} {i j : ℕ} {a b t v : ℤ} (ha : get (deref A.p) j = some a)
    (hb : get (deref A.p) ((j : ℤ) + 1) = some b)
    (hnd : ∀ t t', a ≤ t → t < b → a ≤ t' → t' < b → get (deref A.i) t = get (deref A.i) t' → t = t')
    (h1 : a ≤ t) (h2 : t < b) (hi : get (deref A.i) t = some (i : ℤ)) (hv : get A.xz t = some v) :
    A.entry i j = v := by
  rw [entry_eq ha hb, Finset.sum_eq_single t]
  · rw [if_pos hi, hv]; rfl
  · intro t' ht' hne
    rw [Finset.mem_Ico] at ht'
    rw [if_neg]
    intro h
    exact hne (hnd t' t ht'.1 ht'.2 h1 h2 (by rw [h, hi]))
  · intro h; exact absurd (Finset.mem_Ico.mpr ⟨h1, h2⟩) h

theorem entry_of_not_mem {A : Mat} {i j : ℕ} {a b : ℤ} (ha : get (deref A.p) j = some a)
    (hb : get (deref A.p) ((j : ℤ) + 1) = some b)
    (h : ∀ t, a ≤ t → t < b → get (deref A.i) t ≠ some (i : ℤ)) :
    A.entry i j = 0 := by
  rw [entry_eq ha hb]
  refine Finset.sum_eq_zero fun t ht => ?_
  rw [Finset.mem_Ico] at ht
  rw [if_neg (h t ht.1 ht.2)]

theorem IsCsc.aok {n : ℕ} {A : Mat} (h : IsCsc n A) :
    ∃ ap, AOk n A.entry ap A.toCsc ∧ NoDup n ap A.toCsc := by
  let ap : ℕ → ℤ := fun j => (get (deref A.p) j).getD 0
  have hp : ∀ j : ℕ, j ≤ n → get (deref A.p) (j : ℤ) = some (ap j) := by
    intro j hj
    rcases Nat.eq_zero_or_pos j with h0 | h0
    · subst h0; simp only [ap]; rw [Nat.cast_zero, h.p0]; rfl
    · obtain ⟨a, b, -, hb, -⟩ := h.col (j - 1) (by omega)
      rw [show ((j - 1 : ℕ) : ℤ) + 1 = (j : ℤ) by omega] at hb
      simp only [ap]; rw [hb]; rfl
  have hc : ∀ j : ℕ, j < n → ∀ a b : ℤ, get (deref A.p) j = some a →
      get (deref A.p) ((j : ℤ) + 1) = some b → a = ap j ∧ b = ap (j + 1) := by
    intro j hj a b ha hb
    have h1 := hp j (by omega)
    have h2 := hp (j + 1) (by omega)
    push_cast at h2
    rw [ha] at h1; rw [hb] at h2
    exact ⟨Option.some.inj h1, Option.some.inj h2⟩
  refine ⟨ap, ⟨hp, ?_, ?_, ?_⟩, ?_⟩
  · intro j hj
    obtain ⟨a, b, ha, hb, hab, -⟩ := h.col j hj
    obtain ⟨rfl, rfl⟩ := hc j hj a b ha hb
    exact hab
  · intro j hj p h1 h2
    obtain ⟨a, b, ha, hb, hab, hent, hnd⟩ := h.col j hj
    obtain ⟨rfl, rfl⟩ := hc j hj a b ha hb
    obtain ⟨⟨i, hi, hgi⟩, v, hv⟩ := hent p h1 h2
    exact ⟨i, hi, hgi, by rw [entry_of_mem ha hb hnd h1 h2 hgi hv]; exact hv⟩
  · intro j hj i hi hne
    obtain ⟨a, b, ha, hb, hab, hent, hnd⟩ := h.col j hj
    obtain ⟨rfl, rfl⟩ := hc j hj a b ha hb
    by_contra hno
    push Not at hno
    exact hne (entry_of_not_mem ha hb hno)
  · intro j hj p p' h1 h2 h3 h4 e
    obtain ⟨a, b, ha, hb, hab, hent, hnd⟩ := h.col j hj
    obtain ⟨rfl, rfl⟩ := hc j hj a b ha hb
    exact hnd p p' h1 h2 h3 h4 e

theorem toMat_entry (A : Mat) (n : ℕ) : toMat A.entry n = A.matrix n := rfl

/-- A finished factor is a valid CSC matrix. -/
theorem FinCols.isCsc {n : ℕ} {S : ℕ → ℕ → Prop} {val : ℕ → ℕ → ℤ} {cp : ℕ → ℤ} {M : Csc}
    (h : FinCols n S val cp M) : IsCsc n (Mat.ofCsc M) := by
  refine ⟨rfl, rfl, h.mEq, h.nEq, ?_, ?_, by simp [Mat.ofCsc]⟩
  · have := h.ptr 0 (by omega)
    rw [h.cp0] at this; exact this
  · intro j hj
    refine ⟨cp j, cp (j + 1), h.ptr j (by omega), ?_, h.mono j hj, ?_, ?_⟩
    · have := h.ptr (j + 1) (by omega); push_cast at this; exact this
    · intro t h1 h2
      obtain ⟨s, hs, -, hi, hx⟩ := h.ent j hj t h1 h2
      exact ⟨⟨s, hs, hi⟩, _, hx⟩
    · intro t t' h1 h2 h3 h4 e; exact h.inj j hj t t' h1 h2 h3 h4 e

theorem FinCols.entry {n : ℕ} {S : ℕ → ℕ → Prop} {val : ℕ → ℕ → ℤ} {cp : ℕ → ℤ} {M : Csc}
    (h : FinCols n S val cp M) (hz : ∀ t < n, ∀ s < n, ¬ S t s → val t s = 0) {s t : ℕ}
    (hs : s < n) (ht : t < n) : (Mat.ofCsc M).entry s t = val t s := by
  have hb := h.ptr (t + 1) (by omega)
  push_cast at hb
  have ha := h.ptr t (by omega)
  by_cases hm : ∃ m, cp t ≤ m ∧ m < cp (t + 1) ∧ get M.i m = some (s : ℤ)
  · obtain ⟨m, h1, h2, h3⟩ := hm
    obtain ⟨s', hs', hS, hi, hx⟩ := h.ent t ht m h1 h2
    rw [h3] at hi
    have e : s = s' := by
      have := Option.some.inj hi; omega
    subst e
    exact entry_of_mem (A := Mat.ofCsc M) ha hb
      (fun t' t'' a1 a2 a3 a4 e => h.inj t ht t' t'' a1 a2 a3 a4 e) h1 h2 h3 hx
  · have h0 : val t s = 0 := by
      by_contra hne
      by_cases hS : S t s
      · exact hm (h.full t ht s hs hS hne)
      · exact hne (hz t ht s hs hS)
    rw [h0]
    refine entry_of_not_mem (A := Mat.ofCsc M) ha hb ?_
    intro m h1 h2 h3
    exact hm ⟨m, h1, h2, h3⟩

/-- The function behind a stored permutation. -/
theorem Holds.isFn {n : ℕ} {q : Arr Int} {τ : Equiv.Perm (Fin n)} (h : Holds q τ) :
    ∃ c ci : ℕ → ℕ, IsFn n q c ∧ PermPair n ci c ∧ (∀ t : Fin n, c t = (τ t : ℕ)) := by
  refine ⟨fun t => if ht : t < n then (τ ⟨t, ht⟩ : ℕ) else 0,
    fun t => if ht : t < n then (τ.symm ⟨t, ht⟩ : ℕ) else 0, ?_, ⟨?_, ?_, ?_, ?_⟩, ?_⟩
  · intro t ht
    have := h ⟨t, ht⟩
    simpa [ht] using this
  · intro t ht; simp [ht]
  · intro t ht; simp [ht]
  · intro t ht
    have h2 : (τ ⟨t, ht⟩ : ℕ) < n := (τ ⟨t, ht⟩).2
    simp [ht]
  · intro t ht
    have h2 : (τ.symm ⟨t, ht⟩ : ℕ) < n := (τ.symm ⟨t, ht⟩).2
    simp [ht]
  · intro t; simp

theorem PermPair.holds {n : ℕ} {q : Arr Int} {c ci : ℕ → ℕ} (h : PermPair n ci c)
    (hq : IsFn n q c) : Holds q h.toPerm := fun t => hq t t.2

theorem IsDenseZ.isMat {m k : ℕ} {b : Mat} (h : IsDenseZ m k b) :
    IsMat m k b.toDense.x (fun i j => (get b.xz ((i : ℤ) + j * m)).getD 0) := by
  intro i hi j hj
  obtain ⟨v, hv⟩ := h.val i hi j hj
  change get b.xz (ix2 m i j) = _
  unfold ix2
  beta_reduce
  rw [hv]; rfl

/-! ## The tolerance is only used by the tolerance schemes -/

/-- The scheme uses the tolerance. -/
def Pivot.usesTol (o : Pivot) : Prop := o = .tolSmallest ∨ o = .tolLargest

theorem choosePivot_tol {nc order} {tol tol' : Dbl} (h : ¬ Pivot.usesTol order) :
    choosePivot nc order tol = choosePivot nc order tol' := by
  cases order
  · rfl
  · rfl
  · rfl
  · exact absurd (Or.inl rfl) h
  · exact absurd (Or.inr rfl) h
  · rfl

theorem slip_get_pivot_tol {nc order} {tol tol' : Dbl} (h : ¬ Pivot.usesTol order) :
    slip_get_pivot nc order tol = slip_get_pivot nc order tol' := by
  funext x pivs n top xi col k rhos pinv row_perm
  unfold slip_get_pivot
  rw [choosePivot_tol h]

theorem factorize_tol {nc order} {tol tol' : Dbl} (h : ¬ Pivot.usesTol order) :
    factorize nc order tol = factorize nc order tol' := by
  have : factStep nc order tol = factStep nc order tol' := by
    funext A q k s
    unfold factStep
    rw [slip_get_pivot_tol h]
  funext A q lnz unz
  unfold factorize
  rw [this]

/-- A rational tolerance giving the same factorization. -/
theorem exists_fin_tol {opt : Option Options} (h : TolOk opt) (nc) :
    ∃ t : ℚ, factorize nc (optPivot opt) (optTol opt) = factorize nc (optPivot opt) (.fin t) ∧
      ((optPivot opt).usesTol → optTol opt = .fin t) := by
  by_cases hu : (optPivot opt).usesTol
  · obtain ⟨t, ht⟩ := h hu
    exact ⟨t, by rw [ht], fun _ => ht⟩
  · exact ⟨0, factorize_tol hu, fun h => absurd h hu⟩

end Slip
