import Verif.Props.Factor
import Verif.Example

/-!
# Pivoting policies (C15) and the singular verdict of the pivot searches (C16)
-/

namespace Slip

/-- The documented choice among the candidates `a 0, ..., a (n-1)` of a column (0 = not a
candidate), where `d` is the index of the diagonal entry and `p` the chosen index. TOL_LARGEST with a
negative largest entry: see `C15_tol_largest_negative_refuted`. -/
def PivotRule (order : Pivot) (tol : ℚ) (n : ℕ) (a : ℕ → ℤ) (d p : ℕ) : Prop :=
  let Least (s : ℕ) := s < n ∧ a s ≠ 0 ∧ ∀ i < n, a i ≠ 0 → |a s| ≤ |a i|
  let Greatest (s : ℕ) := s < n ∧ a s ≠ 0 ∧ ∀ i < n, |a i| ≤ |a s|
  match order with
  | .smallest => Least p
  | .largest => Greatest p
  | .firstNonzero => a p ≠ 0
  | .diagonal => if a d ≠ 0 then p = d else Least p
  | .tolSmallest => ∃ s, Least s ∧
      if a d ≠ 0 ∧ tol * (|a d| : ℤ) ≤ (|a s| : ℤ) then p = d else p = s
  | .tolLargest => ∃ s, Greatest s ∧
      if a d ≠ 0 ∧ a s < 0 then p = d ∨ p = s
      else if a d ≠ 0 ∧ tol * (|a s| : ℤ) ≤ (|a d| : ℤ) then p = d else p = s

theorem PolOk.rule {order : Pivot} {tol : ℚ} {n : ℕ} {a : ℕ → ℤ} {d p : ℕ}
    (h : PolOk order tol n a d p) (hp : p < n) : PivotRule order tol n a d p := by
  obtain ⟨h0, h⟩ := h
  cases order with
  | smallest => exact ⟨hp, h0, h⟩
  | largest => exact ⟨hp, h0, h⟩
  | firstNonzero => exact h0
  | diagonal =>
    simp only [PivotRule]
    split
    · rename_i hd; exact h.1 hd
    · rename_i hd; exact ⟨hp, h0, h.2 (by simpa using hd)⟩
  | tolSmallest =>
    obtain ⟨s, hs, hs0, hmin, h1, h2⟩ := h
    refine ⟨s, ⟨hs, hs0, hmin⟩, ?_⟩
    split
    · rename_i hc; exact h1 hc
    · rename_i hc; exact h2 hc
  | tolLargest =>
    obtain ⟨s, hs, hs0, hmax, h1, h2, h3⟩ := h
    refine ⟨s, ⟨hs, hs0, hmax⟩, ?_⟩
    split
    · rename_i hc; exact h3 hc.1 hc.2
    · rename_i hc
      by_cases hd : a d = 0
      · rw [if_neg (by simp [hd])]; exact h1 hd
      · have hpos : 0 < a s := by
          rcases lt_trichotomy (a s) 0 with h | h | h
          · exact absurd ⟨hd, h⟩ hc
          · exact absurd h hs0
          · exact h
        split
        · rename_i hc; exact (h2 hd hpos).1 hc.2
        · rename_i hc'; exact (h2 hd hpos).2 fun hle => hc' ⟨hd, hle⟩

/-- Renaming the candidates. -/
theorem PivotRule.perm {order : Pivot} {tol : ℚ} {n : ℕ} {a : ℕ → ℤ} {d p : ℕ} {pi r : ℕ → ℕ}
    (hr : PermPair n pi r) (hd : d < n) (hp : p < n)
    (h : PivotRule order tol n a d p) : PivotRule order tol n (fun s => a (r s)) (pi d) (pi p) := by
  have hL : ∀ s < n, (a s ≠ 0 ∧ ∀ i < n, a i ≠ 0 → |a s| ≤ |a i|) →
      pi s < n ∧ a (r (pi s)) ≠ 0 ∧ ∀ i < n, a (r i) ≠ 0 → |a (r (pi s))| ≤ |a (r i)| := by
    intro s hs h
    rw [hr.rp s hs]
    exact ⟨hr.plt s hs, h.1, fun i hi => h.2 _ (hr.rlt i hi)⟩
  have hG : ∀ s < n, (a s ≠ 0 ∧ ∀ i < n, |a i| ≤ |a s|) →
      pi s < n ∧ a (r (pi s)) ≠ 0 ∧ ∀ i < n, |a (r i)| ≤ |a (r (pi s))| := by
    intro s hs h
    rw [hr.rp s hs]
    exact ⟨hr.plt s hs, h.1, fun i hi => h.2 _ (hr.rlt i hi)⟩
  cases order with
  | smallest => exact hL p hp h.2
  | largest => exact hG p hp h.2
  | firstNonzero => simp only [PivotRule] at h ⊢; rwa [hr.rp p hp]
  | diagonal =>
    simp only [PivotRule] at h ⊢
    rw [hr.rp d hd]
    split
    · rename_i hc; rw [if_pos hc] at h; rw [h]
    · rename_i hc; rw [if_neg hc] at h; exact hL p hp h.2
  | tolSmallest =>
    obtain ⟨s, hs, h⟩ := h
    refine ⟨pi s, hL s hs.1 hs.2, ?_⟩
    beta_reduce
    rw [hr.rp d hd, hr.rp s hs.1]
    split
    · rename_i hc; rw [if_pos hc] at h; rw [h]
    · rename_i hc; rw [if_neg hc] at h; rw [h]
  | tolLargest =>
    obtain ⟨s, hs, h⟩ := h
    refine ⟨pi s, hG s hs.1 hs.2, ?_⟩
    beta_reduce
    rw [hr.rp d hd, hr.rp s hs.1]
    split
    · rename_i hc; rw [if_pos hc] at h
      rcases h with h | h
      · left; rw [h]
      · right; rw [h]
    · rename_i hc; rw [if_neg hc] at h
      split
      · rename_i hc; rw [if_pos hc] at h; rw [h]
      · rename_i hc; rw [if_neg hc] at h; rw [h]

/-- C15: in every column `k`, the pivot (position `k` of `L`'s column) is the one the policy
prescribes among the entries of column `k` of `L`; the diagonal entry is the one in row `q[k]` of
`A`, i.e. at position `pinv[q[k]]`. (FIRST_NONZERO: see also `C15_first_nonzero`.) -/
theorem C15_pivot_policy {nc} {opt : Option Options} {n : ℕ} {A : Mat} {S : Analysis}
    {L U R : Mat} {pinv : Arr Int} (hA : IsCsc n A) (hS : IsAnalysis n S) (ht : TolOk opt)
    (h : FactorizeOk nc opt A S L U R pinv) {σ τ : Equiv.Perm (Fin n)}
    (hσ : Holds pinv σ) (hτ : Holds S.q τ) :
    ∃ tol : ℚ, (optPivot opt = .tolSmallest ∨ optPivot opt = .tolLargest → optTol opt = .fin tol) ∧
    ∀ k : Fin n, PivotRule (optPivot opt) tol n (fun s => L.entry s k) (σ (τ k)) k := by
  obtain ⟨F, tol, r, pi, c, ci, lp, up, hF, rfl, rfl, rfl, rfl, -⟩ := h.fact hA hτ hS.lnz hS.unz ht
  refine ⟨tol, hF.tolEq, fun k => ?_⟩
  have h1 := (hF.ok.pol k k.2).rule (hF.ok.perm.rlt k k.2)
  have h2 := h1.perm hF.ok.perm (hF.col.rlt k k.2) (hF.ok.perm.rlt k k.2)
  rw [hF.ok.perm.pr k k.2] at h2
  have e1 : pi (c k) = ((σ (τ k) : Fin n) : ℕ) := by
    rw [hσ.unique hF.pinvHolds, hF.colEq k]; rfl
  rw [e1] at h2
  have e2 : ∀ s < n, lev A.entry r c k (fun i => A.entry i (c k)) (r s) =
      (Mat.ofCsc F.L).entry s k := fun s hs => (hF.Lentry hs k.2).symm
  -- replace the values, which agree on `0..n-1`
  have key : ∀ (a b : ℕ → ℤ) (d p : ℕ), (∀ s < n, a s = b s) → d < n → p < n →
      PivotRule (optPivot opt) tol n a d p → PivotRule (optPivot opt) tol n b d p := by
    intro a b d p hab hd hp hr
    have hab' := fun s hs => (hab s hs).symm
    cases ho : optPivot opt with
    | smallest =>
      rw [ho] at hr; obtain ⟨h1, h2, h3⟩ := hr
      exact ⟨h1, by rwa [← hab p hp], fun i hi hne => by
        rw [← hab p hp, ← hab i hi]; exact h3 i hi (by rwa [hab i hi])⟩
    | largest =>
      rw [ho] at hr; obtain ⟨h1, h2, h3⟩ := hr
      exact ⟨h1, by rwa [← hab p hp], fun i hi => by
        rw [← hab p hp, ← hab i hi]; exact h3 i hi⟩
    | firstNonzero => rw [ho] at hr; simp only [PivotRule] at hr ⊢; rwa [← hab p hp]
    | diagonal =>
      rw [ho] at hr; simp only [PivotRule] at hr ⊢
      rw [← hab d hd]
      split
      · rename_i hc; rwa [if_pos hc] at hr
      · rename_i hc; rw [if_neg hc] at hr
        obtain ⟨h1, h2, h3⟩ := hr
        exact ⟨h1, by rwa [← hab p hp], fun i hi hne => by
          rw [← hab p hp, ← hab i hi]; exact h3 i hi (by rwa [hab i hi])⟩
    | tolSmallest =>
      rw [ho] at hr; obtain ⟨s, ⟨h1, h2, h3⟩, h4⟩ := hr
      refine ⟨s, ⟨h1, by rwa [← hab s h1], fun i hi hne => by
        rw [← hab s h1, ← hab i hi]; exact h3 i hi (by rwa [hab i hi])⟩, ?_⟩
      rwa [← hab s h1, ← hab d hd]
    | tolLargest =>
      rw [ho] at hr; obtain ⟨s, ⟨h1, h2, h3⟩, h4⟩ := hr
      refine ⟨s, ⟨h1, by rwa [← hab s h1], fun i hi => by
        rw [← hab s h1, ← hab i hi]; exact h3 i hi⟩, ?_⟩
      rwa [← hab s h1, ← hab d hd]
  exact key _ _ _ _ e2 (σ (τ k)).2 k.2 h2

/-- The default policy (TOL_SMALLEST, tolerance 1) on the example: the rule holds in every column. -/
example : ∃ tol : ℚ, (optPivot none = .tolSmallest ∨ optPivot none = .tolLargest →
      optTol none = .fin tol) ∧
    ∀ k : Fin 3, PivotRule (optPivot none) tol 3 (fun s => Ex.L.entry s k) (Ex.σ (Ex.τ k)) k :=
  C15_pivot_policy Ex.A_csc Ex.S_ok Ex.tol_ok Ex.factorize_ok Ex.pinv_holds Ex.S_holds

/-! ## The pivot search functions themselves -/

/-- What a pivot search is given: `xi[top..n-1]` lists the rows `pat` (in this order); each listed
row has a value and a mark, negative = not yet pivotal. `d` is the diagonal row. -/
structure SearchInput (n : ℕ) (x pivs xi : Arr Int) (top : Int) (pat : List ℕ) (d : ℕ)
    (v pv : ℕ → ℤ) : Prop where
  topEq : 0 ≤ top ∧ top + pat.length = n
  pattern : ∀ (t : ℕ) (h : t < pat.length), get xi (top + t) = some ((pat[t] : ℕ) : ℤ)
  value : ∀ i ∈ d :: pat, get x (i : ℤ) = some (v i)
  mark : ∀ i ∈ d :: pat, get pivs (i : ℤ) = some (pv i)
  diag : v d ≠ 0 ∧ pv d < 0 → d ∈ pat

/-- Values of a search input. -/
def exV (i : ℕ) : ℤ := if i = 0 then 7 else if i = 1 then 9 else -5
/-- Marks of a search input. -/
def exM (i : ℕ) : ℤ := if i = 1 then 1 else -1

/-- A search input: rows 0 and 2 with values 7 and -5, row 1 (value 9) is already pivotal. -/
theorem exSearch : SearchInput 3 [some 7, some 9, some (-5)] [some (-1), some 1, some (-1)]
    [some 1, some 0, some 2] 0 [1, 0, 2] 0 exV exM := by
  refine ⟨by decide, ?_, ?_, ?_, by decide⟩
  · intro t h
    have h' : t < 3 := h
    interval_cases t <;> rfl
  · intro i hi
    fin_cases hi <;> rfl
  · intro i hi
    fin_cases hi <;> rfl

theorem SearchInput.pivIn {n : ℕ} {x pivs xi : Arr Int} {top : Int} {pat : List ℕ} {d : ℕ}
    {v pv : ℕ → ℤ} (h : SearchInput n x pivs xi top pat d v pv) :
    PivIn n x pivs xi top pat v pv := by
  refine ⟨h.topEq.1, h.topEq.2, ?_, fun i hi => h.value i (by simp [hi]),
    fun i hi => h.mark i (by simp [hi])⟩
  intro t ht
  rw [List.length_map] at ht
  rw [h.pattern t ht]
  simp

/-- C16: for each of the six schemes the search either returns the row of an eligible entry
(nonzero and not yet pivotal), or returns SLIP_SINGULAR, the latter exactly when no entry of the
pattern is eligible; it never fails otherwise. -/
theorem C16_search_singular_iff (nc) (order : Pivot) (tol : ℚ) {n : ℕ} {x pivs xi : Arr Int}
    {top : Int} {pat : List ℕ} {d : ℕ} {v pv : ℕ → ℤ}
    (h : SearchInput n x pivs xi top pat d v pv) :
    (choosePivot nc order (.fin tol) x pivs n top xi d = .error (.ret .singular) ↔
      ∀ i ∈ pat, ¬ (v i ≠ 0 ∧ pv i < 0)) ∧
    ((∃ i ∈ pat, v i ≠ 0 ∧ pv i < 0) →
      ∃ i ∈ pat, choosePivot nc order (.fin tol) x pivs n top xi d = .ok (i : ℤ) ∧
        v i ≠ 0 ∧ pv i < 0) := by
  have hs := choosePivot_spec nc order tol h.pivIn (h.value d (by simp)) (h.mark d (by simp)) h.diag
  cases hc : choosePivot nc order (.fin tol) x pivs n top xi d with
  | error e =>
    rw [hc, wp_error] at hs
    obtain ⟨rfl, hn⟩ := hs
    refine ⟨⟨fun _ => hn, fun _ => rfl⟩, ?_⟩
    rintro ⟨i, hi, he⟩
    exact absurd he (hn i hi)
  | ok p =>
    rw [hc, wp_ok] at hs
    obtain ⟨i, hi, rfl, he, -⟩ := hs
    refine ⟨⟨(fun h => by cases h), (fun hn => absurd he (hn i hi))⟩, fun _ => ⟨i, hi, rfl, he⟩⟩

example : ∃ i ∈ ([1, 0, 2] : List ℕ), choosePivot Ex.nc .smallest (.fin 1) [some 7, some 9, some (-5)]
    [some (-1), some 1, some (-1)] 3 0 [some 1, some 0, some 2] 0 = .ok (i : ℤ) ∧
    exV i ≠ 0 ∧ exM i < 0 :=
  (C16_search_singular_iff Ex.nc .smallest 1 exSearch).2 ⟨0, by decide, by decide⟩

/-- C15 for SLIP_FIRST_NONZERO: the row returned is the first eligible one of the pattern. -/
theorem C15_first_nonzero (nc) (tol : Dbl) {n : ℕ} {x pivs xi : Arr Int}
    {top : Int} {pat : List ℕ} {d : ℕ} {v pv : ℕ → ℤ} {p : ℤ}
    (h : SearchInput n x pivs xi top pat d v pv)
    (hp : choosePivot nc .firstNonzero tol x pivs n top xi d = .ok p) :
    ∃ (l : List ℕ) (i : ℕ) (r : List ℕ), pat = l ++ i :: r ∧ p = (i : ℤ) ∧ v i ≠ 0 ∧ pv i < 0 ∧
      ∀ j ∈ l, ¬ (v j ≠ 0 ∧ pv j < 0) := by
  rw [choosePivot_tol (tol' := .fin 0) (by simp [Pivot.usesTol])] at hp
  have hs := choosePivot_spec nc .firstNonzero 0 h.pivIn (h.value d (by simp))
    (h.mark d (by simp)) h.diag
  rw [hp, wp_ok] at hs
  obtain ⟨i, hi, rfl, he, l, r, hpat, hl⟩ := hs
  exact ⟨l, i, r, hpat, rfl, he.1, he.2, hl⟩

example := C15_first_nonzero Ex.nc .nan exSearch (p := 0) rfl

end Slip
