import Verif.Proof.Populate

/-! # Correctly stored columns, generically for L and U -/

namespace Slip

/-- Columns `0..k-1` of a CSC matrix are stored: column `t` holds exactly rows `i` with `S t i`
(all of those with nonzero value), each once, with value `val t i`. -/
structure ColOk (n k : ℕ) (S : ℕ → ℕ → Prop) (val : ℕ → ℕ → ℤ) (cp : ℕ → ℤ) (Mp Mi Mx : Arr Int) :
    Prop where
  ptr : ∀ t : ℕ, t ≤ k → get Mp (t : Int) = some (cp t)
  zero : ∀ t : ℕ, k < t → t ≤ n → get Mp (t : Int) = some 0
  cp0 : cp 0 = 0
  mono : ∀ t < k, cp t ≤ cp (t + 1)
  ent : ∀ t < k, ∀ m : ℤ, cp t ≤ m → m < cp (t + 1) → ∃ i : ℕ, i < n ∧ S t i ∧
    get Mi m = some (i : Int) ∧ get Mx m = some (val t i)
  inj : ∀ t < k, ∀ m m' : ℤ, cp t ≤ m → m < cp (t + 1) → cp t ≤ m' → m' < cp (t + 1) →
    get Mi m = get Mi m' → m = m'
  full : ∀ t < k, ∀ i < n, S t i → val t i ≠ 0 →
    ∃ m, cp t ≤ m ∧ m < cp (t + 1) ∧ get Mi m = some (i : Int)

theorem ColOk.le {n k : ℕ} {S : ℕ → ℕ → Prop} {val : ℕ → ℕ → ℤ} {cp : ℕ → ℤ} {Mp Mi Mx : Arr Int}
    (h : ColOk n k S val cp Mp Mi Mx) : ∀ t s, t ≤ s → s ≤ k → cp t ≤ cp s := by
  intro t s hts
  induction hts with
  | refl => intro _; exact le_refl _
  | @step s hts ih => intro hs; exact (ih (by omega)).trans (h.mono s (by omega))

/-- Rows of column `k` (after the permutation `pi`) that belong to L. -/
theorem LOk_iff {A : ℕ → ℕ → ℤ} {r c : ℕ → ℕ} {n k : ℕ} {pi : ℕ → ℕ} {lp : ℕ → ℤ}
    {Lp Li Lx : Arr Int} :
    LOk A r c n k pi lp Lp Li Lx ↔
      ColOk n k (fun t i => t ≤ pi i) (fun t i => lev A r c t (fun i => A i (c t)) i) lp Lp Li Lx :=
  ⟨fun h => ⟨h.ptr, h.zero, h.lp0, h.mono, h.ent, h.inj, h.full⟩,
   fun h => ⟨h.ptr, h.zero, h.cp0, h.mono, h.ent, h.inj, h.full⟩⟩

theorem ColOk.extend {n k : ℕ} {S S' : ℕ → ℕ → Prop} {val val' : ℕ → ℕ → ℤ} {cp : ℕ → ℤ}
    {Mp Mi Mx Mi' Mx' : Arr Int} {l : List ℕ} {v : ℕ → ℤ}
    (h : ColOk n k S val cp Mp Mi Mx) (hk : k < n) (plen : Mp.length = n + 1)
    (hS : ∀ t < k, ∀ i < n, S' t i ↔ S t i)
    (hval : ∀ t < k, ∀ i < n, S t i → val' t i = val t i)
    (oldi : ∀ m, m < cp k → get Mi' m = get Mi m) (oldx : ∀ m, m < cp k → get Mx' m = get Mx m)
    (hnd : l.Nodup) (hl : ∀ i ∈ l, i < n ∧ S' k i ∧ v i = val' k i)
    (segi : Seg Mi' (cp k) (l.map (fun i : ℕ => (i : Int)))) (segx : Seg Mx' (cp k) (l.map v))
    (hfull : ∀ i < n, S' k i → val' k i ≠ 0 → i ∈ l) :
    ColOk n (k + 1) S' val' (Function.update cp (k + 1) (cp k + l.length))
      (upd Mp ((k : Int) + 1) (cp k + l.length)) Mi' Mx' := by
  have b0 : (0 : Int) ≤ (k : Int) + 1 := by omega
  have b1 : (k : Int) + 1 < (Mp.length : Int) := by rw [plen]; omega
  have cu : ∀ t, t ≤ k → Function.update cp (k + 1) (cp k + (l.length : ℤ)) t = cp t := by
    intro t ht; rw [Function.update_of_ne (by omega)]
  have cu1 : Function.update cp (k + 1) (cp k + (l.length : ℤ)) (k + 1) = cp k + l.length := by
    rw [Function.update_self]
  have hle := h.le
  refine ⟨?_, ?_, ?_, ?_, ?_, ?_, ?_⟩
  · intro t ht
    rw [get_upd b0 b1]
    rcases Nat.lt_or_ge t (k + 1) with hlt | hge
    · rw [if_neg (by omega), cu t (by omega)]; exact h.ptr t (by omega)
    · have : t = k + 1 := by omega
      subst this
      rw [if_pos (by push_cast; rfl), cu1]
  · intro t ht htn
    rw [get_upd b0 b1, if_neg (by omega)]
    exact h.zero t (by omega) htn
  · rw [cu 0 (by omega)]; exact h.cp0
  · intro t ht
    rcases Nat.lt_or_ge t k with hlt | hge
    · rw [cu t (by omega), cu (t + 1) (by omega)]; exact h.mono t hlt
    · have : t = k := by omega
      subst this
      rw [cu t (by omega), cu1]; omega
  · intro t ht m hm1 hm2
    rcases Nat.lt_or_ge t k with hlt | hge
    · rw [cu t (by omega)] at hm1
      rw [cu (t + 1) (by omega)] at hm2
      have hmk : m < cp k := lt_of_lt_of_le hm2 (hle _ _ (by omega) (le_refl _))
      obtain ⟨i, hi, hSi, e1, e2⟩ := h.ent t hlt m hm1 hm2
      exact ⟨i, hi, (hS t hlt i hi).mpr hSi, by rw [oldi m hmk, e1],
        by rw [oldx m hmk, e2, hval t hlt i hi hSi]⟩
    · have : t = k := by omega
      subst this
      rw [cu t (by omega)] at hm1
      rw [cu1] at hm2
      obtain ⟨s, rfl⟩ : ∃ s : ℕ, m = cp t + s := ⟨(m - cp t).toNat, by omega⟩
      have hs : s < l.length := by omega
      have e1 := segi s (by simpa using hs)
      have e2 := segx s (by simpa using hs)
      simp only [List.getElem_map] at e1 e2
      obtain ⟨q1, q2, q3⟩ := hl l[s] (List.getElem_mem hs)
      exact ⟨l[s], q1, q2, e1, by rw [e2, q3]⟩
  · intro t ht m m' hm1 hm2 hm1' hm2' heq
    rcases Nat.lt_or_ge t k with hlt | hge
    · rw [cu t (by omega)] at hm1 hm1'
      rw [cu (t + 1) (by omega)] at hm2 hm2'
      have hmk : m < cp k := lt_of_lt_of_le hm2 (hle _ _ (by omega) (le_refl _))
      have hmk' : m' < cp k := lt_of_lt_of_le hm2' (hle _ _ (by omega) (le_refl _))
      rw [oldi m hmk, oldi m' hmk'] at heq
      exact h.inj t hlt m m' hm1 hm2 hm1' hm2' heq
    · have : t = k := by omega
      subst this
      rw [cu t (by omega)] at hm1 hm1'
      rw [cu1] at hm2 hm2'
      obtain ⟨s, rfl⟩ : ∃ s : ℕ, m = cp t + s := ⟨(m - cp t).toNat, by omega⟩
      obtain ⟨s', rfl⟩ : ∃ s : ℕ, m' = cp t + s := ⟨(m' - cp t).toNat, by omega⟩
      have hs : s < l.length := by omega
      have hs' : s' < l.length := by omega
      have e1 := segi s (by simpa using hs)
      have e2 := segi s' (by simpa using hs')
      simp only [List.getElem_map] at e1 e2
      rw [e1, e2] at heq
      have heq' : l[s] = l[s'] := by
        have := Option.some.inj heq
        omega
      have := (List.Nodup.getElem_inj_iff hnd).mp heq'
      omega
  · intro t ht i hi hSi hne
    rcases Nat.lt_or_ge t k with hlt | hge
    · have hSi0 := (hS t hlt i hi).mp hSi
      rw [hval t hlt i hi hSi0] at hne
      obtain ⟨m, hm1, hm2, hm3⟩ := h.full t hlt i hi hSi0 hne
      have hmk : m < cp k := lt_of_lt_of_le hm2 (hle _ _ (by omega) (le_refl _))
      exact ⟨m, by rw [cu t (by omega)]; exact hm1, by rw [cu (t + 1) (by omega)]; exact hm2,
        by rw [oldi m hmk]; exact hm3⟩
    · have : t = k := by omega
      subst this
      obtain ⟨s, hs, rfl⟩ := List.getElem_of_mem (hfull i hi hSi hne)
      have e1 := segi s (by simpa using hs)
      simp only [List.getElem_map] at e1
      exact ⟨cp t + s, by rw [cu t (by omega)]; omega, by rw [cu1]; omega, e1⟩

/-- Storage of `L` or `U` during the factorization: `nz` entries used, room for `nzmax`. -/
structure CapOk (n : ℕ) (M : Csc) (nz : ℤ) : Prop where
  mEq : M.m = n
  nEq : M.n = n
  plen : M.p.length = n + 1
  nz0 : 0 ≤ nz
  nzle : nz ≤ M.nzmax
  nle : (n : ℤ) ≤ M.nzmax
  leni : (M.i.length : ℤ) = M.nzmax
  lenx : (M.x.length : ℤ) = M.nzmax
  fresh : ∀ m, nz ≤ m → get M.x m = none

theorem get_append_left {α : Type} {a b : Arr α} {i : Int} (h : i < (a.length : Int)) :
    get (a ++ b) i = get a i := by
  unfold get
  split
  · rfl
  · rw [List.getElem?_append_left (by omega)]

theorem get_append_right {α : Type} {a b : Arr α} {i : Int} (h : (a.length : Int) ≤ i) :
    get (a ++ b) i = get b (i - a.length) := by
  unfold get
  rw [if_neg (by omega), if_neg (by omega), List.getElem?_append_right (by omega)]
  congr 2
  omega

/-- The reallocation at the start of each column leaves room for `n` more entries: one doubling
always suffices. -/
theorem CapOk.grow {n : ℕ} {M : Csc} {nz : ℤ} (h : CapOk n M nz) :
    let M' := if nz + n > M.nzmax then slip_sparse_realloc M else M
    CapOk n M' nz ∧ nz + n ≤ M'.nzmax ∧ M'.p = M.p ∧
      (∀ m, m < nz → get M'.i m = get M.i m) ∧ (∀ m, m < nz → get M'.x m = get M.x m) := by
  have h1 := h.nz0
  have h2 := h.nzle
  have h3 := h.nle
  have h4 := h.leni
  have h5 := h.lenx
  intro M'
  by_cases hc : nz + n > M.nzmax
  · have : M' = slip_sparse_realloc M := if_pos hc
    rw [this]
    simp only [slip_sparse_realloc]
    refine ⟨⟨h.mEq, h.nEq, h.plen, h1, by simp only; omega, by simp only; omega, ?_, ?_, ?_⟩,
      by omega, trivial, ?_, ?_⟩
    · simp; omega
    · simp; omega
    · intro m hm
      simp only
      by_cases hml : m < (M.x.length : ℤ)
      · rw [get_append_left hml]; exact h.fresh m hm
      · rw [get_append_right (by omega)]; exact get_malloc
    · intro m hm; exact get_append_left (by omega)
    · intro m hm; exact get_append_left (by omega)
  · have : M' = M := if_neg hc
    rw [this]
    exact ⟨h, by omega, rfl, fun _ _ => rfl, fun _ _ => rfl⟩

end Slip
