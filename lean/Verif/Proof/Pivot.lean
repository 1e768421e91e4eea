import Verif.Proof.Reach

/-! # The pivot searches -/

namespace Slip

/-- The arrays seen by a pivot search: the pattern `xi[top..n-1]` lists the rows `pat`, row `i`
has value `v i` and mark `pv i` (negative = not yet pivotal). -/
structure PivIn (n : ℕ) (x pivs xi : Arr Int) (top : Int) (pat : List ℕ) (v pv : ℕ → ℤ) :
    Prop where
  top0 : 0 ≤ top
  topn : top + pat.length = n
  seg : Seg xi top (pat.map (fun i : ℕ => (i : Int)))
  x : ∀ i ∈ pat, get x (i : Int) = some (v i)
  pivs : ∀ i ∈ pat, get pivs (i : Int) = some (pv i)

/-- A row that may become a pivot. -/
def Elig (v pv : ℕ → ℤ) (i : ℕ) : Prop := v i ≠ 0 ∧ pv i < 0

/-- A singular verdict: no row of the pattern is eligible. -/
def SingVerdict (pat : List ℕ) (v pv : ℕ → ℤ) (e : Fail) : Prop :=
  e = .ret .singular ∧ ∀ i ∈ pat, ¬ Elig v pv i

variable {n : ℕ} {x pivs xi : Arr Int} {top : Int} {pat : List ℕ} {v pv : ℕ → ℤ}

theorem PivIn.rdxi (h : PivIn n x pivs xi top pat v pv) (t : ℕ) (ht : t < pat.length) :
    rd xi (top + t) = .ok ((pat[t] : ℕ) : Int) := by
  have := h.seg t (by simpa using ht)
  simp at this
  exact rd_eq this

theorem PivIn.rdx (h : PivIn n x pivs xi top pat v pv) (t : ℕ) (ht : t < pat.length) :
    rd x ((pat[t] : ℕ) : Int) = .ok (v pat[t]) := rd_eq (h.x _ (List.getElem_mem ht))

theorem PivIn.rdpv (h : PivIn n x pivs xi top pat v pv) (t : ℕ) (ht : t < pat.length) :
    rd pivs ((pat[t] : ℕ) : Int) = .ok (pv pat[t]) := rd_eq (h.pivs _ (List.getElem_mem ht))

theorem smallestInit_spec (h : PivIn n x pivs xi top pat v pv) :
    ∀ (m t : ℕ), t + m = pat.length →
    wp (smallestInit x pivs xi m (top + t))
      (fun o => (o = none ∧ ∀ t' (h' : t' < pat.length), t ≤ t' → ¬ Elig v pv pat[t']) ∨
        ∃ t', ∃ h' : t' < pat.length, t ≤ t' ∧ o = some (top + t', ((pat[t'] : ℕ) : Int), v pat[t']) ∧
          Elig v pv pat[t'] ∧ ∀ s (hs : s < pat.length), t ≤ s → s < t' → ¬ Elig v pv pat[s]) noFail
  | 0, t, ht => by
    simp only [smallestInit, wp_ok]
    left
    exact ⟨by trivial, fun t' h' h'' => by omega⟩
  | m + 1, t, ht => by
    have htl : t < pat.length := by omega
    simp only [smallestInit, h.rdxi t htl, h.rdx t htl, h.rdpv t htl, ok_bind]
    by_cases he : pv pat[t] < 0 ∧ v pat[t] ≠ 0
    · rw [if_pos he]
      simp only [wp_pure]
      right
      exact ⟨t, htl, le_refl _, rfl, ⟨he.2, he.1⟩, fun s _ h1 h2 => by omega⟩
    · rw [if_neg he]
      have ih := smallestInit_spec h m (t + 1) (by omega)
      have e : top + ((t + 1 : ℕ) : Int) = top + t + 1 := by omega
      rw [e] at ih
      have hne : ¬ Elig v pv pat[t] := fun hc => he ⟨hc.2, hc.1⟩
      refine wp_post ih ?_
      rintro o (⟨rfl, hn⟩ | ⟨t', h', h1, rfl, h2, h3⟩)
      · left
        refine ⟨rfl, fun t' h' h'' => ?_⟩
        rcases Nat.eq_or_lt_of_le h'' with rfl | hlt
        · exact hne
        · exact hn t' h' hlt
      · right
        refine ⟨t', h', by omega, rfl, h2, ?_⟩
        intro s hs hs1 hs2
        rcases Nat.eq_or_lt_of_le hs1 with rfl | hlt
        · exact hne
        · exact h3 s hs hlt hs2

/-- `slip_get_smallest_pivot` returns an eligible row of least absolute value, or SINGULAR
exactly when there is none. -/
theorem smallest_spec (h : PivIn n x pivs xi top pat v pv) :
    wp (slip_get_smallest_pivot x pivs n top xi)
      (fun p => ∃ i ∈ pat, p = (i : Int) ∧ Elig v pv i ∧
        ∀ j ∈ pat, Elig v pv j → (v i).natAbs ≤ (v j).natAbs)
      (SingVerdict pat v pv) := by
  unfold slip_get_smallest_pivot
  have e : ((n : Int) - top).toNat = pat.length := by have := h.topn; omega
  rw [if_pos h.top0, e]
  obtain ⟨o, ho, hpost⟩ := wp_noFail (by simpa using smallestInit_spec h pat.length 0 (by omega))
  rw [ho, ok_bind]
  rcases hpost with ⟨rfl, hn⟩ | ⟨t', h', rfl, h2, h3⟩
  · simp only [Option.getD_none]
    rw [forRange_empty (le_refl _), ok_bind]
    simp only [if_true, wp_error]
    refine ⟨rfl, fun i hi => ?_⟩
    obtain ⟨t, ht, rfl⟩ := List.getElem_of_mem hi
    exact hn t ht
  · simp only [Option.getD_some]
    have htop := h.topn
    have hloop := wp_forRange (σ := Int × Int) (E := noFail) (lo := top + t') (hi := n)
      (s := ((pat[t'] : ℕ), v pat[t']))
      (f := fun i (s : Int × Int) => do
        let inew ← rd xi i
        let w ← rd x inew
        let pv ← rd pivs inew
        if pv < 0 ∧ s.2.natAbs > w.natAbs then
          if w ≠ 0 then pure (inew, w) else pure (s.1, s.2)
        else pure (s.1, s.2))
      (fun p s => ∃ i ∈ pat, s = ((i : Int), v i) ∧ Elig v pv i ∧
        ∀ t (ht : t < pat.length), top + t < p → Elig v pv pat[t] →
          (v i).natAbs ≤ (v pat[t]).natAbs)
      (by omega)
      ⟨pat[t'], List.getElem_mem h', rfl, h2, fun t ht hlt he => by
        exact absurd he (h3 t ht (by omega))⟩
      (by
        rintro p s hp1 hp2 ⟨i, hi, rfl, he, hmin⟩
        obtain ⟨t, rfl⟩ : ∃ t : ℕ, p = top + t := ⟨(p - top).toNat, by have := h.top0; omega⟩
        have htl : t < pat.length := by omega
        simp only [h.rdxi t htl, h.rdx t htl, h.rdpv t htl, ok_bind]
        split
        · rename_i hc
          split
          · rename_i hw
            simp only [wp_pure]
            refine ⟨pat[t], List.getElem_mem htl, rfl, ⟨hw, hc.1⟩, ?_⟩
            intro s hs hlt hes
            rcases Nat.lt_or_ge s t with hst | hst
            · have := hmin s hs (by omega) hes
              omega
            · have : s = t := by omega
              subst this; exact le_refl _
          · rename_i hw
            simp only [wp_pure]
            refine ⟨i, hi, rfl, he, ?_⟩
            intro s hs hlt hes
            rcases Nat.lt_or_ge s t with hst | hst
            · exact hmin s hs (by omega) hes
            · have : s = t := by omega
              subst this; exact absurd hes.1 hw
        · rename_i hc
          simp only [wp_pure]
          refine ⟨i, hi, rfl, he, ?_⟩
          intro s hs hlt hes
          rcases Nat.lt_or_ge s t with hst | hst
          · exact hmin s hs (by omega) hes
          · have : s = t := by omega
            subst this
            by_contra hcon
            exact hc ⟨hes.2, by omega⟩)
    obtain ⟨s, hs, i, hi, rfl, he, hmin⟩ := wp_noFail hloop
    refine wp_bind_ok (P := fun a => a = ((i : Int), v i)) (wp_of_ok hs rfl) ?_
    rintro _ rfl
    have : ¬ (i : Int) = -1 := by omega
    simp only [this, if_false, wp_pure]
    refine ⟨i, hi, rfl, he, fun j hj hej => ?_⟩
    obtain ⟨t, ht, rfl⟩ := List.getElem_of_mem hj
    exact hmin t ht (by omega) hej

/-- `slip_get_largest_pivot` returns an eligible row of greatest absolute value, or SINGULAR
exactly when there is none. -/
theorem largest_spec (h : PivIn n x pivs xi top pat v pv) :
    wp (slip_get_largest_pivot x pivs n top xi)
      (fun p => ∃ i ∈ pat, p = (i : Int) ∧ Elig v pv i ∧
        ∀ j ∈ pat, Elig v pv j → (v j).natAbs ≤ (v i).natAbs)
      (SingVerdict pat v pv) := by
  unfold slip_get_largest_pivot
  have htop := h.topn
  have hloop := wp_forRange (σ := Int × Int) (E := noFail) (lo := top) (hi := n)
    (s := ((-1 : Int), (0 : Int)))
    (f := fun i (s : Int × Int) => do
      let inew ← rd xi i
      let w ← rd x inew
      let pv ← rd pivs inew
      if pv < 0 ∧ s.2.natAbs < w.natAbs then pure (inew, w) else pure (s.1, s.2))
    (fun p s => (s = (-1, 0) ∧ ∀ t (ht : t < pat.length), top + t < p → ¬ Elig v pv pat[t]) ∨
      ∃ i ∈ pat, s = ((i : Int), v i) ∧ Elig v pv i ∧
      ∀ t (ht : t < pat.length), top + t < p → Elig v pv pat[t] →
        (v pat[t]).natAbs ≤ (v i).natAbs)
    (by omega)
    (Or.inl ⟨rfl, fun t ht hlt => by omega⟩)
    (by
      rintro p s hp1 hp2 hinv
      obtain ⟨t, rfl⟩ : ∃ t : ℕ, p = top + t := ⟨(p - top).toNat, by have := h.top0; omega⟩
      have htl : t < pat.length := by omega
      simp only [h.rdxi t htl, h.rdx t htl, h.rdpv t htl, ok_bind]
      rcases hinv with ⟨rfl, hn⟩ | ⟨i, hi, rfl, he, hmax⟩
      · split
        · rename_i hc
          simp only [wp_pure]
          right
          have hc2 := hc.2
          simp only [Int.natAbs_zero] at hc2
          refine ⟨pat[t], List.getElem_mem htl, rfl, ⟨by intro h0; simp [h0] at hc2, hc.1⟩, ?_⟩
          intro s hs hlt hes
          rcases Nat.lt_or_ge s t with hst | hst
          · exact absurd hes (hn s hs (by omega))
          · have : s = t := by omega
            subst this; exact le_refl _
        · rename_i hc
          simp only [wp_pure]
          left
          refine ⟨by trivial, ?_⟩
          intro s hs hlt hes
          rcases Nat.lt_or_ge s t with hst | hst
          · exact hn s hs (by omega) hes
          · have : s = t := by omega
            subst this
            exact hc ⟨hes.2, by have := hes.1; simpa using Int.natAbs_pos.mpr this⟩
      · split
        · rename_i hc
          simp only [wp_pure]
          right
          have hc2 := hc.2
          simp only at hc2
          refine ⟨pat[t], List.getElem_mem htl, rfl, ⟨by intro h0; simp [h0] at hc2, hc.1⟩, ?_⟩
          intro s hs hlt hes
          rcases Nat.lt_or_ge s t with hst | hst
          · have := hmax s hs (by omega) hes
            omega
          · have : s = t := by omega
            subst this; exact le_refl _
        · rename_i hc
          simp only [wp_pure]
          right
          refine ⟨i, hi, rfl, he, ?_⟩
          intro s hs hlt hes
          rcases Nat.lt_or_ge s t with hst | hst
          · exact hmax s hs (by omega) hes
          · have : s = t := by omega
            subst this
            by_contra hcon
            exact hc ⟨hes.2, by simp only; omega⟩)
  obtain ⟨s, hs, hinv⟩ := wp_noFail hloop
  refine wp_bind_ok (P := fun a => a = s) (wp_of_ok hs rfl) ?_
  rintro _ rfl
  rcases hinv with ⟨rfl, hn⟩ | ⟨i, hi, rfl, he, hmax⟩
  · simp only [if_true, wp_error]
    refine ⟨rfl, fun i hi => ?_⟩
    obtain ⟨t, ht, rfl⟩ := List.getElem_of_mem hi
    exact hn t ht (by omega)
  · have : ¬ (i : Int) = -1 := by omega
    simp only [this, if_false, wp_pure]
    refine ⟨i, hi, rfl, he, fun j hj hej => ?_⟩
    obtain ⟨t, ht, rfl⟩ := List.getElem_of_mem hj
    exact hmax t ht (by omega) hej

theorem nonzeroLoop_spec (h : PivIn n x pivs xi top pat v pv) :
    ∀ (m t : ℕ), t + m = pat.length →
    wp (nonzeroLoop x pivs xi m (top + t))
      (fun p => ∃ t', ∃ h' : t' < pat.length, t ≤ t' ∧ p = ((pat[t'] : ℕ) : Int) ∧
          Elig v pv pat[t'] ∧ ∀ s (hs : s < pat.length), t ≤ s → s < t' → ¬ Elig v pv pat[s])
      (fun e => e = .ret .singular ∧ ∀ t' (h' : t' < pat.length), t ≤ t' → ¬ Elig v pv pat[t'])
  | 0, t, ht => by
    simp only [nonzeroLoop, wp_error]
    exact ⟨by trivial, fun t' h' h'' => by omega⟩
  | m + 1, t, ht => by
    have htl : t < pat.length := by omega
    simp only [nonzeroLoop, h.rdxi t htl, h.rdx t htl, h.rdpv t htl, ok_bind]
    by_cases he : v pat[t] ≠ 0 ∧ pv pat[t] < 0
    · rw [if_pos he]
      simp only [wp_pure]
      exact ⟨t, htl, le_refl _, rfl, he, fun s _ h1 h2 => by omega⟩
    · rw [if_neg he]
      have ih := nonzeroLoop_spec h m (t + 1) (by omega)
      have e : top + ((t + 1 : ℕ) : Int) = top + t + 1 := by omega
      rw [e] at ih
      refine wp_mono ih ?_ ?_
      · rintro p ⟨t', h', h1, rfl, h2, h3⟩
        refine ⟨t', h', by omega, rfl, h2, ?_⟩
        intro s hs hs1 hs2
        rcases Nat.eq_or_lt_of_le hs1 with rfl | hlt
        · exact he
        · exact h3 s hs hlt hs2
      · rintro _ ⟨rfl, hn⟩
        refine ⟨rfl, fun t' h' h'' => ?_⟩
        rcases Nat.eq_or_lt_of_le h'' with rfl | hlt
        · exact he
        · exact hn t' h' hlt

/-- `slip_get_nonzero_pivot` returns the first eligible row of the pattern, or SINGULAR exactly
when there is none. -/
theorem nonzero_spec (h : PivIn n x pivs xi top pat v pv) :
    wp (slip_get_nonzero_pivot x pivs n top xi)
      (fun p => ∃ t, ∃ h' : t < pat.length, p = ((pat[t] : ℕ) : Int) ∧ Elig v pv pat[t] ∧
        ∀ s (hs : s < pat.length), s < t → ¬ Elig v pv pat[s])
      (SingVerdict pat v pv) := by
  unfold slip_get_nonzero_pivot
  have e : ((n : Int) - top).toNat = pat.length := by have := h.topn; omega
  rw [e]
  have := nonzeroLoop_spec h pat.length 0 (by omega)
  simp only [Nat.cast_zero, add_zero] at this
  refine wp_mono this ?_ ?_
  · rintro p ⟨t', h', _, rfl, h2, h3⟩
    exact ⟨t', h', rfl, h2, fun s hs hlt => h3 s hs (by omega) hlt⟩
  · rintro _ ⟨rfl, hn⟩
    refine ⟨rfl, fun i hi => ?_⟩
    obtain ⟨t, ht, rfl⟩ := List.getElem_of_mem hi
    exact hn t ht (by omega)

/-- The documented policy: which eligible row `i` each option picks, with `d` the diagonal row.
The tolerance options compare exact rationals; TOL_LARGEST with a negative largest entry is
decided by GMP on a non-canonical fraction (`nc`). -/
def Policy (nc : Int → Int → ℚ → Bool) (order : Pivot) (tol : ℚ) (pat : List ℕ) (v pv : ℕ → ℤ)
    (d i : ℕ) : Prop :=
  let Least (j : ℕ) := ∀ j' ∈ pat, Elig v pv j' → (v j).natAbs ≤ (v j').natAbs
  let Greatest (j : ℕ) := ∀ j' ∈ pat, Elig v pv j' → (v j').natAbs ≤ (v j).natAbs
  match order with
  | .smallest => Least i
  | .largest => Greatest i
  | .firstNonzero => ∃ l r, pat = l ++ i :: r ∧ ∀ j ∈ l, ¬ Elig v pv j
  | .diagonal => (Elig v pv d → i = d) ∧ (¬ Elig v pv d → Least i)
  | .tolSmallest => ∃ s ∈ pat, Elig v pv s ∧ Least s ∧
      (Elig v pv d ∧ tol * (|v d| : ℤ) ≤ (|v s| : ℤ) → i = d) ∧
      (¬ (Elig v pv d ∧ tol * (|v d| : ℤ) ≤ (|v s| : ℤ)) → i = s)
  | .tolLargest => ∃ s ∈ pat, Elig v pv s ∧ Greatest s ∧
      (¬ Elig v pv d → i = s) ∧
      (Elig v pv d → 0 < v s →
        (tol * (|v s| : ℤ) ≤ (|v d| : ℤ) → i = d) ∧ (¬ tol * (|v s| : ℤ) ≤ (|v d| : ℤ) → i = s)) ∧
      (Elig v pv d → v s < 0 → i = if nc (v d).natAbs (v s) tol then d else s)

theorem choosePivot_spec (nc : Int → Int → ℚ → Bool) (order : Pivot) (tol : ℚ) {d : ℕ}
    (h : PivIn n x pivs xi top pat v pv) (hx : get x (d : Int) = some (v d))
    (hpv : get pivs (d : Int) = some (pv d)) (hd : Elig v pv d → d ∈ pat) :
    wp (choosePivot nc order (.fin tol) x pivs n top xi d)
      (fun p => ∃ i ∈ pat, p = (i : Int) ∧ Elig v pv i ∧ Policy nc order tol pat v pv d i)
      (SingVerdict pat v pv) := by
  cases order with
  | smallest => exact smallest_spec h
  | largest => exact largest_spec h
  | firstNonzero =>
    refine wp_post (nonzero_spec h) ?_
    rintro p ⟨t, ht, rfl, he, hn⟩
    refine ⟨pat[t], List.getElem_mem ht, rfl, he, pat.take t, pat.drop (t + 1), ?_, ?_⟩
    · rw [List.getElem_cons_drop, List.take_append_drop]
    · intro j hj
      obtain ⟨s, hs, rfl⟩ := List.getElem_of_mem hj
      simp only [List.length_take] at hs
      rw [List.getElem_take]
      exact hn s (by omega) (by omega)
  | diagonal =>
    simp only [choosePivot, rd_eq hx, rd_eq hpv, ok_bind]
    by_cases he : v d ≠ 0 ∧ pv d < 0
    · rw [if_pos he]
      exact ⟨d, hd he, rfl, he, fun _ => rfl, fun hn => absurd he hn⟩
    · rw [if_neg he]
      refine wp_post (smallest_spec h) ?_
      rintro p ⟨i, hi, rfl, he', hmin⟩
      exact ⟨i, hi, rfl, he', fun hd => absurd hd he, fun _ => hmin⟩
  | tolSmallest =>
    simp only [choosePivot]
    refine wp_bind_ok (smallest_spec h) ?_
    rintro p ⟨s, hs, rfl, hes, hmin⟩
    simp only [rd_eq hx, rd_eq hpv, ok_bind]
    by_cases he : v d ≠ 0 ∧ pv d < 0
    · rw [if_pos he]
      simp only [rd_eq (h.x s hs), mpqSetD, ok_bind, ratioGe]
      have hpos : (0 : Int) < ((v d).natAbs : Int) := by
        have := Int.natAbs_pos.mpr he.1; omega
      rw [if_neg (by omega), if_pos hpos, ok_bind]
      have hposq : (0 : ℚ) < (((v d).natAbs : Int) : ℚ) := by exact_mod_cast hpos
      have hiff : tol ≤ (((v s).natAbs : Int) : ℚ) / (((v d).natAbs : Int) : ℚ) ↔
          tol * (|v d| : ℤ) ≤ (|v s| : ℤ) := by
        rw [le_div_iff₀ hposq, Int.natCast_natAbs, Int.natCast_natAbs]
      by_cases hr : tol * (|v d| : ℤ) ≤ (|v s| : ℤ)
      · rw [decide_eq_true (hiff.mpr hr)]
        simp only [if_true, wp_pure]
        exact ⟨d, hd he, rfl, he, s, hs, hes, hmin, fun _ => rfl, fun hn => absurd ⟨he, hr⟩ hn⟩
      · rw [decide_eq_false (fun hc => hr (hiff.mp hc))]
        simp only [Bool.false_eq_true, if_false, wp_pure]
        exact ⟨s, hs, rfl, hes, s, hs, hes, hmin, fun hc => absurd hc.2 hr, fun _ => rfl⟩
    · rw [if_neg he]
      simp only [wp_pure]
      exact ⟨s, hs, rfl, hes, s, hs, hes, hmin, fun hc => absurd hc.1 he, fun _ => rfl⟩
  | tolLargest =>
    simp only [choosePivot]
    refine wp_bind_ok (largest_spec h) ?_
    rintro p ⟨s, hs, rfl, hes, hmax⟩
    simp only [rd_eq hx, rd_eq hpv, ok_bind]
    by_cases he : v d ≠ 0 ∧ pv d < 0
    · rw [if_pos he]
      simp only [rd_eq (h.x s hs), mpqSetD, ok_bind, ratioGe]
      rw [if_neg hes.1]
      by_cases hpos : 0 < v s
      · rw [if_pos hpos, ok_bind]
        have hposq : (0 : ℚ) < (v s : ℚ) := by exact_mod_cast hpos
        have hiff : tol ≤ (((v d).natAbs : Int) : ℚ) / (v s : ℚ) ↔
            tol * (|v s| : ℤ) ≤ (|v d| : ℤ) := by
          rw [le_div_iff₀ hposq, Int.natCast_natAbs, abs_of_pos hpos]
        by_cases hr : tol * (|v s| : ℤ) ≤ (|v d| : ℤ)
        · rw [decide_eq_true (hiff.mpr hr)]
          simp only [if_true, wp_pure]
          exact ⟨d, hd he, rfl, he, s, hs, hes, hmax, fun hn => absurd he hn,
            fun _ _ => ⟨fun _ => rfl, fun hn => absurd hr hn⟩, fun _ hn => by omega⟩
        · rw [decide_eq_false (fun hc => hr (hiff.mp hc))]
          simp only [Bool.false_eq_true, if_false, wp_pure]
          exact ⟨s, hs, rfl, hes, s, hs, hes, hmax, fun hn => absurd he hn,
            fun _ _ => ⟨fun hc => absurd hc hr, fun _ => rfl⟩, fun _ hn => by omega⟩
      · rw [if_neg hpos, ok_bind]
        cases hb : nc (↑(v d).natAbs) (v s) tol
        · simp only [Bool.false_eq_true, if_false, wp_pure]
          exact ⟨s, hs, rfl, hes, s, hs, hes, hmax, fun hn => absurd he hn,
            fun _ hn => absurd hn hpos, fun _ _ => by rw [hb]; rfl⟩
        · simp only [if_true, wp_pure]
          exact ⟨d, hd he, rfl, he, s, hs, hes, hmax, fun hn => absurd he hn,
            fun _ hn => absurd hn hpos, fun _ _ => by rw [hb]; rfl⟩
    · rw [if_neg he]
      simp only [wp_pure]
      exact ⟨s, hs, rfl, hes, s, hs, hes, hmax, fun _ => rfl, fun hc => absurd hc he,
        fun hc => absurd hc he⟩

end Slip
