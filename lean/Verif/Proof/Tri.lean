import Verif.Proof.Hist
import Verif.Proof.Reach

/-! # The main loop of the REF triangular solve -/

namespace Slip

variable (A : ℕ → ℕ → ℤ) (r c : ℕ → ℕ)

/-- The array holds the function `f` on `0..n-1`. -/
def IsFn (n : ℕ) (a : Arr Int) (f : ℕ → ℕ) : Prop :=
  ∀ t : ℕ, t < n → get a (t : Int) = some ((f t : ℕ) : Int)

/-- `f` and `g` are inverse permutations of `0..n-1`. -/
structure PermPair (n : ℕ) (pi r : ℕ → ℕ) : Prop where
  rlt : ∀ t < n, r t < n
  plt : ∀ i < n, pi i < n
  pr : ∀ t < n, pi (r t) = t
  rp : ∀ i < n, r (pi i) = i

/-- Columns `0..k-1` of `L` are stored correctly, with original row indices: the entry of row
`i` in column `t` is the bordered minor of level `t`. -/
structure LOk (n k : ℕ) (pi : ℕ → ℕ) (lp : ℕ → ℤ) (Lp Li Lx : Arr Int) : Prop where
  ptr : ∀ t : ℕ, t ≤ k → get Lp (t : Int) = some (lp t)
  zero : ∀ t : ℕ, k < t → t ≤ n → get Lp (t : Int) = some 0
  lp0 : lp 0 = 0
  mono : ∀ t < k, lp t ≤ lp (t + 1)
  ent : ∀ t < k, ∀ m : ℤ, lp t ≤ m → m < lp (t + 1) → ∃ i : ℕ, i < n ∧ t ≤ pi i ∧
    get Li m = some (i : Int) ∧ get Lx m = some (lev A r c t (fun i => A i (c t)) i)
  inj : ∀ t < k, ∀ m m' : ℤ, lp t ≤ m → m < lp (t + 1) → lp t ≤ m' → m' < lp (t + 1) →
    get Li m = get Li m' → m = m'
  full : ∀ t < k, ∀ i < n, t ≤ pi i → lev A r c t (fun i => A i (c t)) i ≠ 0 →
    ∃ m, lp t ≤ m ∧ m < lp (t + 1) ∧ get Li m = some (i : Int)

variable {A r c}

theorem LOk.lp_nonneg {n k : ℕ} {pi : ℕ → ℕ} {lp : ℕ → ℤ} {Lp Li Lx : Arr Int}
    (h : LOk A r c n k pi lp Lp Li Lx) : ∀ t ≤ k, 0 ≤ lp t := by
  intro t
  induction t with
  | zero => intro _; rw [h.lp0]
  | succ t ih => intro ht; have := h.mono t (by omega); have := ih (by omega); omega

theorem LOk.graph {n k : ℕ} {pi : ℕ → ℕ} {lp : ℕ → ℤ} {Lp Li Lx pinv : Arr Int}
    (h : LOk A r c n k pi lp Lp Li Lx) (hpi : IsFn n pinv pi) (hp : PermPair n pi r) (hk : k < n) :
    Graph n Lp Li pinv := by
  refine ⟨?_, ?_, ?_⟩
  · intro j h0 hn
    obtain ⟨j, rfl⟩ := Int.eq_ofNat_of_zero_le h0
    refine ⟨_, hpi j (by omega), by omega, ?_⟩
    have := hp.plt j (by omega)
    omega
  · intro j h0 hn
    obtain ⟨j, rfl⟩ := Int.eq_ofNat_of_zero_le h0
    by_cases hj : j ≤ k
    · exact ⟨_, h.ptr j hj, h.lp_nonneg j hj⟩
    · exact ⟨_, h.zero j (by omega) (by omega), le_refl _⟩
  · intro w a b p h0 hn ha hb h1 h2
    obtain ⟨w, rfl⟩ := Int.eq_ofNat_of_zero_le h0
    have e : ((w : Int) + 1) = ((w + 1 : ℕ) : Int) := by omega
    rw [e] at hb
    by_cases hw : w < k
    · rw [h.ptr w (by omega)] at ha
      rw [h.ptr (w + 1) (by omega)] at hb
      cases ha; cases hb
      obtain ⟨i, hi, _, hi2, _⟩ := h.ent w hw p h1 h2
      exact ⟨_, hi2, by omega, by omega⟩
    · rw [h.zero (w + 1) (by omega) (by omega)] at hb
      cases hb
      exfalso
      have : 0 ≤ a := by
        by_cases hwk : w = k
        · subst hwk
          rw [h.ptr w (le_refl _)] at ha
          cases ha
          exact h.lp_nonneg w (le_refl _)
        · rw [h.zero w (by omega) (by omega)] at ha
          cases ha; exact le_refl _
      omega

/-- The pattern `P` contains the nonzeros of `v` and is closed under the graph of `L`. -/
structure PatOk (n k : ℕ) (pi : ℕ → ℕ) (lp : ℕ → ℤ) (Li : Arr Int) (v : ℕ → ℤ) (P : ℕ → Prop) :
    Prop where
  src : ∀ i < n, v i ≠ 0 → P i
  closed : ∀ j < n, P j → pi j < k → ∀ (m : ℤ) (i : ℕ), lp (pi j) ≤ m → m < lp (pi j + 1) →
    get Li m = some (i : Int) → P i

/-- Rows outside the pattern stay zero at every stage. -/
theorem lev_zero_of_not_pat {n k : ℕ} {pi : ℕ → ℕ} {lp : ℕ → ℤ} {Lp Li Lx rhos : Arr Int}
    {v : ℕ → ℤ} {P : ℕ → Prop} (hL : LOk A r c n k pi lp Lp Li Lx) (hp : PermPair n pi r)
    (hρ : RhosOk A r c k rhos) (hk : k ≤ n) (hP : PatOk n k pi lp Li v P) :
    ∀ s ≤ k, ∀ i < n, ¬ P i → s ≤ pi i → lev A r c s v i = 0 := by
  intro s
  induction s with
  | zero =>
    intro _ i hi hPi _
    rw [lev_zero]
    by_contra h
    exact hPi (hP.src i hi h)
  | succ s ih =>
    intro hs i hi hPi hsp
    have h0 := ih (by omega) i hi hPi (by omega)
    have hstep := lev_step A r c s (hρ.ne s (by omega)) v i
    have hz : lev A r c s (fun i => A i (c s)) i * lev A r c s v (r s) = 0 := by
      by_cases hPr : P (r s)
      · by_cases hl : lev A r c s (fun i => A i (c s)) i = 0
        · rw [hl, zero_mul]
        · obtain ⟨m, h1, h2, h3⟩ := hL.full s (by omega) i hi (by omega) hl
          have e := hp.pr s (by omega)
          exact absurd (hP.closed (r s) (hp.rlt s (by omega)) hPr (by rw [e]; omega) m i
            (by rw [e]; exact h1) (by rw [e]; exact h2) h3) hPi
      · rw [ih (by omega) (r s) (hp.rlt s (by omega)) hPr (by rw [hp.pr s (by omega)]), mul_zero]
    rw [h0, hz, mul_zero, sub_zero] at hstep
    rcases mul_eq_zero.mp hstep with h | h
    · exact absurd h (hρ.ne s (by omega))
    · exact h

variable (A r c)

/-- State of the solve when all pattern rows with pivot position `< ν` are final. -/
structure SInv (n k : ℕ) (pi : ℕ → ℕ) (v : ℕ → ℤ) (P : ℕ → Prop) (ν : ℕ) (h x : Arr Int) : Prop where
  done : ∀ i < n, P i → pi i < ν → get x (i : Int) = some (lev A r c (min k (pi i)) v i)
  todo : ∀ i < n, P i → ν ≤ pi i → ∃ (g : ℕ) (xv : ℤ), get h (i : Int) = some ((g : Int) - 1) ∧
    get x (i : Int) = some xv ∧ Rel A r c v i (min k ν) g xv

variable {A r c}

/-- Advance over a pivot position that contributes nothing. -/
theorem SInv.advance1 {n k : ℕ} {pi : ℕ → ℕ} {v : ℕ → ℤ} {P : ℕ → Prop} {ν : ℕ} {h x : Arr Int}
    (hI : SInv A r c n k pi v P ν h x) (hne : ∀ t ≤ k, piv A r c t ≠ 0)
    (hno : ∀ i < n, P i → pi i ≠ ν)
    (hz : ν < k → lev A r c ν v (r ν) = 0) : SInv A r c n k pi v P (ν + 1) h x := by
  refine ⟨fun i hi hPi hlt => hI.done i hi hPi (by have := hno i hi hPi; omega), ?_⟩
  intro i hi hPi hle
  obtain ⟨g, xv, h1, h2, h3⟩ := hI.todo i hi hPi (by omega)
  refine ⟨g, xv, h1, h2, ?_⟩
  by_cases hν : ν < k
  · have e1 : min k ν = ν := by omega
    have e2 : min k (ν + 1) = ν + 1 := by omega
    rw [e1] at h3
    rw [e2]
    exact h3.skip (hne ν (by omega)) (by rw [hz hν, mul_zero])
  · have e1 : min k ν = k := by omega
    have e2 : min k (ν + 1) = k := by omega
    rw [e1] at h3
    rw [e2]; exact h3

theorem SInv.advance {n k : ℕ} {pi : ℕ → ℕ} {lp : ℕ → ℤ} {Lp Li Lx rhos : Arr Int}
    {v : ℕ → ℤ} {P : ℕ → Prop} (hL : LOk A r c n k pi lp Lp Li Lx) (hp : PermPair n pi r)
    (hρ : RhosOk A r c k rhos) (hk : k ≤ n) (hP : PatOk n k pi lp Li v P) {h x : Arr Int} {ν : ℕ}
    (hI : SInv A r c n k pi v P ν h x) :
    ∀ d : ℕ, (∀ i < n, P i → ν ≤ pi i → ν + d ≤ pi i) → SInv A r c n k pi v P (ν + d) h x := by
  intro d
  induction d with
  | zero => intro _; exact hI
  | succ d ih =>
    intro hno
    have h1 := ih (fun i hi hPi hle => by have := hno i hi hPi hle; omega)
    refine h1.advance1 hρ.ne ?_ ?_
    · intro i hi hPi he
      have := hno i hi hPi (by omega)
      omega
    · intro hlt
      have hr := hp.pr (ν + d) (by omega)
      refine lev_zero_of_not_pat hL hp hρ hk hP (ν + d) (by omega) _ (hp.rlt _ (by omega)) ?_ (by omega)
      intro hPr
      have := hno _ (hp.rlt (ν + d) (by omega)) hPr (by omega)
      omega

/-- One iteration of the main loop. -/
theorem solveStepB_spec {fits : Int → Bool} {n k : ℕ} {pi : ℕ → ℕ} {lp : ℕ → ℤ} {Lp Li Lx rhos pinv xi : Arr Int}
    {v : ℕ → ℤ} {P : ℕ → Prop} (hL : LOk A r c n k pi lp Lp Li Lx) (hp : PermPair n pi r)
    (hpi : IsFn n pinv pi)
    (hρ : RhosOk A r c k rhos) (hk : k ≤ n) (hP : PatOk n k pi lp Li v P) {h x : Arr Int} {j : ℕ}
    {p : Int} (hxi : get xi p = some (j : Int)) (hj : j < n) (hPj : P j)
    (hI : SInv A r c n k pi v P (pi j) h x) (hz : SizeOk fits A r c (· < n) k v) :
    ∃ h' x', solveStepB fits Lp Li Lx pinv rhos xi (k : Int) p h x = .ok (h', x') ∧
      h'.length = h.length ∧ x'.length = x.length ∧
      (∀ i : Int, get x i ≠ none → get x' i ≠ none) ∧
      (∀ i : ℕ, ¬ P i → get x' (i : Int) = get x (i : Int)) ∧
      SInv A r c n k pi v P (pi j + 1) h' x' := by
  obtain ⟨g, xv, hg, hxv, hRel⟩ := hI.todo j hj hPj (le_refl _)
  have hrj : r (pi j) = j := hp.rp j hj
  have hpj := hp.plt j hj
  have huniq : ∀ i < n, pi i = pi j → i = j := fun i hi he => by
    rw [← hp.rp i hi, he, hrj]
  unfold solveStepB
  rw [rd_eq hxi, ok_bind, rd_eq (hpi j hj), ok_bind, rd_eq hxv, ok_bind]
  have hgle := hRel.2
  by_cases hx0 : xv = 0
  · rw [if_pos hx0]
    refine ⟨h, x, rfl, rfl, rfl, fun _ h => h, fun _ _ => rfl, ?_⟩
    subst hx0
    have hlz := hRel.lev_zero (hρ.ne g (by omega))
    refine ⟨?_, ?_⟩
    · intro i hi hPi hlt
      by_cases he : i = j
      · subst he
        rw [hxv]
        congr 1
        exact hlz.symm
      · refine hI.done i hi hPi ?_
        have : pi i ≠ pi j := fun e => he (huniq i hi e)
        omega
    · intro i hi hPi hle
      obtain ⟨g', xv', h1, h2, h3⟩ := hI.todo i hi hPi (by omega)
      refine ⟨g', xv', h1, h2, ?_⟩
      by_cases hν : pi j < k
      · have e1 : min k (pi j) = pi j := by omega
        have e2 : min k (pi j + 1) = pi j + 1 := by omega
        rw [e1] at h3 hlz
        rw [e2]
        exact h3.skip (hρ.ne _ (by omega)) (by rw [hrj, hlz, mul_zero])
      · have e1 : min k (pi j) = k := by omega
        have e2 : min k (pi j + 1) = k := by omega
        rw [e1] at h3
        rw [e2]; exact h3
  · rw [if_neg hx0]
    by_cases hν : pi j < k
    · rw [if_pos (by omega), rd_eq hg, ok_bind]
      have e1 : min k (pi j) = pi j := by omega
      have e2 : min k (pi j + 1) = pi j + 1 := by omega
      rw [e1] at hRel
      obtain ⟨x1, hx1, U1⟩ := histUpdateB_spec hρ hz hxv hRel (by omega) hj
      rw [hx1, ok_bind, rd_eq (hL.ptr (pi j) (by omega)), ok_bind]
      have ep : ((pi j : ℕ) : Int) + 1 = ((pi j + 1 : ℕ) : Int) := by omega
      rw [ep, rd_eq (hL.ptr (pi j + 1) (by omega)), ok_bind]
      -- inner loop
      have hloop := wp_forRange (E := noFail)
        (f := fun m (st : Arr Int × Arr Int) => match st with
          | (h, x) => do
            let i ← rd Li m
            let inew ← rd pinv i
            if inew > ((pi j : ℕ) : Int) then do
              let lij ← rd Lx m
              if lij = 0 then pure (h, x)
              else ipgeUpdateB fits rhos h x i (j : Int) ((pi j : ℕ) : Int) lij
            else pure (h, x))
        (fun m (st : Arr Int × Arr Int) =>
          st.1.length = h.length ∧ st.2.length = x.length ∧
          (∀ i : Int, get x i ≠ none → get st.2 i ≠ none) ∧
          (∀ i : ℕ, ¬ P i → get st.2 (i : Int) = get x (i : Int)) ∧
          (∀ i < n, P i → pi i ≤ pi j →
            get st.2 (i : Int) = some (lev A r c (min k (pi i)) v i)) ∧
          (∀ i < n, P i → pi j < pi i → ∃ (g : ℕ) (xv : ℤ),
            get st.1 (i : Int) = some ((g : Int) - 1) ∧ get st.2 (i : Int) = some xv ∧
            ((∃ m', lp (pi j) ≤ m' ∧ m' < m ∧ get Li m' = some (i : Int)) →
              Rel A r c v i (pi j + 1) g xv) ∧
            ((∀ m', lp (pi j) ≤ m' → m' < m → get Li m' ≠ some (i : Int)) →
              Rel A r c v i (pi j) g xv)))
        (lo := lp (pi j)) (hi := lp (pi j + 1)) (s := (h, x1)) (hL.mono (pi j) hν)
        (by
          refine ⟨rfl, U1.len, ?_, ?_, ?_, ?_⟩
          · intro i hi
            show get x1 i ≠ none
            rw [U1.val]; split
            · simp
            · exact hi
          · intro i hi
            have : (i : Int) ≠ (j : Int) := by
              intro e
              have : i = j := by omega
              subst this; exact hi hPj
            exact U1.ne this
          · intro i hi hPi hle
            by_cases he : i = j
            · subst he
              rw [e1]; exact U1.self
            · show get x1 _ = _
              rw [U1.ne (by omega)]
              refine hI.done i hi hPi ?_
              have : pi i ≠ pi j := fun e => he (huniq i hi e)
              omega
          · intro i hi hPi hlt
            obtain ⟨g', xv', h1, h2, h3⟩ := hI.todo i hi hPi (by omega)
            rw [e1] at h3
            refine ⟨g', xv', h1, ?_, ?_, fun _ => h3⟩
            · show get x1 _ = _
              rw [U1.ne]
              · exact h2
              · intro e
                have : i = j := by omega
                subst this; omega
            · rintro ⟨m', q1, q2, _⟩; omega)
        (by
          rintro m ⟨h2, x2⟩ hm1 hm2 ⟨hl1, hl2, hdef, hnp, hfin, htodo⟩
          obtain ⟨i, hin, hti, hLi, hLx⟩ := hL.ent (pi j) hν m hm1 hm2
          have hPi : P i := hP.closed j hj hPj hν m i hm1 hm2 hLi
          simp only at hl1 hl2 hdef hnp hfin htodo
          simp only [rd_eq hLi, ok_bind, rd_eq (hpi i hin)]
          have split_m : ∀ i' : ℕ, (∃ m', lp (pi j) ≤ m' ∧ m' < m + 1 ∧ get Li m' = some (i' : Int)) →
              i' ≠ i → (∃ m', lp (pi j) ≤ m' ∧ m' < m ∧ get Li m' = some (i' : Int)) := by
            rintro i' ⟨m', q1, q2, q3⟩ hne
            refine ⟨m', q1, ?_, q3⟩
            have : m' ≠ m := by
              rintro rfl
              rw [hLi] at q3
              have : (i : Int) = (i' : Int) := by simpa using q3
              omega
            omega
          have hfresh : ∀ m', lp (pi j) ≤ m' → m' < m → get Li m' ≠ some (i : Int) := by
            intro m' q1 q2 q3
            have := hL.inj (pi j) hν m' m q1 (by omega) hm1 hm2 (by rw [q3, hLi])
            omega
          by_cases hgt : pi i > pi j
          · rw [if_pos (by omega), rd_eq hLx, ok_bind]
            obtain ⟨g', xv', h3, h4, _, h6⟩ := htodo i hin hPi hgt
            have hRel' := h6 hfresh
            by_cases hl0 : lev A r c (pi j) (fun i => A i (c (pi j))) i = 0
            · rw [if_pos hl0, wp_pure]
              refine ⟨hl1, hl2, hdef, hnp, hfin, ?_⟩
              intro i' hi' hPi' hlt
              by_cases he : i' = i
              · subst he
                refine ⟨g', xv', h3, h4, fun _ => ?_, fun hno => absurd hLi (hno m hm1 (by omega))⟩
                exact hRel'.skip (hρ.ne _ (by omega)) (by rw [hl0, zero_mul])
              · obtain ⟨g2, xv2, k1, k2, k3, k4⟩ := htodo i' hi' hPi' hlt
                exact ⟨g2, xv2, k1, k2, fun hex => k3 (split_m i' hex he),
                  fun hno => k4 (fun m' q1 q2 => hno m' q1 (by omega))⟩
            · rw [if_neg hl0]
              have hij : (j : Int) ≠ (i : Int) := by
                intro e
                have : j = i := by omega
                subst this; omega
              have hxj : get x2 (j : Int) = some (lev A r c (pi j) v (r (pi j))) := by
                rw [hrj]
                have := hfin j hj hPj (le_refl _)
                rwa [e1] at this
              obtain ⟨h', x', hu, Uh, Ux⟩ := ipgeUpdateB_spec hρ hz h4 hRel' hν h3 hij hxj hin
              refine wp_of_ok hu ⟨Uh.len.trans hl1, Ux.len.trans hl2, ?_, ?_, ?_, ?_⟩
              · intro i' hi'
                show get x' i' ≠ none
                rw [Ux.val]; split
                · simp
                · exact hdef i' hi'
              · intro i' hi'
                show get x' _ = _
                have : (i' : Int) ≠ (i : Int) := by
                  intro e
                  have : i' = i := by omega
                  subst this; exact hi' hPi
                rw [Ux.ne this]
                exact hnp i' hi'
              · intro i' hi' hPi' hle
                show get x' _ = _
                rw [Ux.ne (by
                  intro e
                  have : i' = i := by omega
                  subst this; omega)]
                exact hfin i' hi' hPi' hle
              · intro i' hi' hPi' hlt
                by_cases he : i' = i
                · subst he
                  refine ⟨pi j + 1, _, ?_, Ux.self, fun _ => Rel.exact _ _ _,
                    fun hno => absurd hLi (hno m hm1 (by omega))⟩
                  show get h' _ = _
                  rw [Uh.self]; congr 1; omega
                · obtain ⟨g2, xv2, k1, k2, k3, k4⟩ := htodo i' hi' hPi' hlt
                  refine ⟨g2, xv2, ?_, ?_, fun hex => k3 (split_m i' hex he),
                    fun hno => k4 (fun m' q1 q2 => hno m' q1 (by omega))⟩
                  · show get h' _ = _
                    rw [Uh.ne (by omega)]; exact k1
                  · show get x' _ = _
                    rw [Ux.ne (by omega)]; exact k2
          · rw [if_neg (by omega), wp_pure]
            refine ⟨hl1, hl2, hdef, hnp, hfin, ?_⟩
            intro i' hi' hPi' hlt
            have he : i' ≠ i := by rintro rfl; omega
            obtain ⟨g2, xv2, k1, k2, k3, k4⟩ := htodo i' hi' hPi' hlt
            exact ⟨g2, xv2, k1, k2, fun hex => k3 (split_m i' hex he),
              fun hno => k4 (fun m' q1 q2 => hno m' q1 (by omega))⟩)
      obtain ⟨⟨h', x'⟩, hok, hl1, hl2, hdef, hnp, hfin, htodo⟩ := wp_noFail hloop
      refine ⟨h', x', hok, hl1, hl2, hdef, hnp, ?_, ?_⟩
      · intro i hi hPi hlt
        exact hfin i hi hPi (by omega)
      · intro i hi hPi hle
        obtain ⟨g2, xv2, k1, k2, k3, k4⟩ := htodo i hi hPi (by omega)
        refine ⟨g2, xv2, k1, k2, ?_⟩
        rw [e2]
        by_cases hex : ∃ m', lp (pi j) ≤ m' ∧ m' < lp (pi j + 1) ∧ get Li m' = some (i : Int)
        · exact k3 hex
        · refine (k4 (fun m' q1 q2 q3 => hex ⟨m', q1, q2, q3⟩)).skip (hρ.ne _ (by omega)) ?_
          by_cases hl0 : lev A r c (pi j) (fun i => A i (c (pi j))) i = 0
          · rw [hl0, zero_mul]
          · exact absurd (hL.full (pi j) hν i hi (by omega) hl0) hex
    · rw [if_neg (by omega), rd_eq hg, ok_bind]
      have e1 : min k (pi j) = k := by omega
      have e2 : min k (pi j + 1) = k := by omega
      rw [e1] at hRel
      obtain ⟨x1, hx1, U1⟩ := histUpdateB_spec hρ hz hxv hRel (le_refl _) hj
      rw [hx1, ok_bind]
      refine ⟨h, x1, rfl, rfl, U1.len, ?_, ?_, ?_, ?_⟩
      · intro i hi
        rw [U1.val]; split
        · simp
        · exact hi
      · intro i hi
        refine U1.ne ?_
        intro e
        have : i = j := by omega
        subst this; exact hi hPj
      · intro i hi hPi hlt
        by_cases he : i = j
        · subst he; rw [e1]; exact U1.self
        · rw [U1.ne (by omega)]
          refine hI.done i hi hPi ?_
          have : pi i ≠ pi j := fun e => he (huniq i hi e)
          omega
      · intro i hi hPi hle
        obtain ⟨g', xv', k1, k2, k3⟩ := hI.todo i hi hPi (by omega)
        refine ⟨g', xv', k1, ?_, by rw [e2]; rw [e1] at k3; exact k3⟩
        rw [U1.ne]
        · exact k2
        · intro e
          have : i = j := by omega
          subst this; omega

@[simp] theorem solveStepB_noLimit : solveStepB noLimit = solveStep := by
  unfold solveStepB solveStep
  simp only [histUpdateB_noLimit, ipgeUpdateB_noLimit]

theorem solveStep_spec {n k : ℕ} {pi : ℕ → ℕ} {lp : ℕ → ℤ} {Lp Li Lx rhos pinv xi : Arr Int}
    {v : ℕ → ℤ} {P : ℕ → Prop} (hL : LOk A r c n k pi lp Lp Li Lx) (hp : PermPair n pi r)
    (hpi : IsFn n pinv pi)
    (hρ : RhosOk A r c k rhos) (hk : k ≤ n) (hP : PatOk n k pi lp Li v P) {h x : Arr Int} {j : ℕ}
    {p : Int} (hxi : get xi p = some (j : Int)) (hj : j < n) (hPj : P j)
    (hI : SInv A r c n k pi v P (pi j) h x) :
    ∃ h' x', solveStep Lp Li Lx pinv rhos xi (k : Int) p h x = .ok (h', x') ∧
      h'.length = h.length ∧ x'.length = x.length ∧
      (∀ i : Int, get x i ≠ none → get x' i ≠ none) ∧
      (∀ i : ℕ, ¬ P i → get x' (i : Int) = get x (i : Int)) ∧
      SInv A r c n k pi v P (pi j + 1) h' x' :=
  solveStepB_noLimit ▸ solveStepB_spec hL hp hpi hρ hk hP hxi hj hPj hI (.noLimit A r c _ k v)

end Slip
