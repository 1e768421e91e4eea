import Verif.Proof.Coo
import Verif.Proof.Convert

/-!
# The loops of `SLIP_matrix_copy`
-/

namespace Slip

/-- Extending a loop bound by one element. -/
theorem get_upd_nat {α : Type} {a : Arr α} {p : ℕ} (hp : p < a.length) (v : α) (j : ℤ) :
    get (upd a (p : ℤ) v) j = if j = p then some v else get a j :=
  get_upd (by omega) (by omega) v j

/-! ## counting -/

/-- The entry counts of the columns, SLIP_matrix_copy.c lines 121-127. -/
theorem countLoop_spec {N n : ℕ} {Aj : Arr Int} {c : ℕ → ℕ} (hc : ∀ k, k < N → c k < n)
    (hj : ∀ k, k < N → get Aj k = some (c k : ℤ)) :
    ∃ W, forRange 0 (N : ℤ) (calloc n) (fun k W => do
        let j ← rd Aj k
        let w ← rd W j
        wr W j (w + 1)) = .ok W ∧ W.length = n ∧
      ∀ j, j < n → get W j = some (((Finset.range N).filter fun k => c k = j).card : ℤ) := by
  apply wp_noFail
  refine wp_post (wp_forRange (fun i W => ∃ k : ℕ, i = k ∧ k ≤ N ∧ W.length = n ∧
    ∀ j, j < n → get W j = some (((Finset.range k).filter fun k => c k = j).card : ℤ))
    (by omega) ⟨0, rfl, by omega, by simp, fun j hj => by
      simp only [Finset.range_zero, Finset.filter_empty, Finset.card_empty]
      exact get_calloc (by omega) (by omega)⟩ ?_) ?_
  · rintro i W h0 h1 ⟨k, rfl, hk, hl, hw⟩
    have hkN : k < N := by omega
    have hcn := hc k hkN
    simp only [rd_eq (hj k hkN), ok_bind, rd_eq (hw _ hcn)]
    rw [wr_eq (by omega) (by omega), wp_ok]
    refine ⟨k + 1, by push_cast; rfl, hkN, by simpa using hl, ?_⟩
    intro j hjn
    rw [get_upd_nat (by omega)]
    by_cases e : j = c k
    · subst e
      rw [if_pos rfl, Finset.range_add_one, Finset.filter_insert, if_pos rfl,
        Finset.card_insert_of_notMem (by simp)]
      push_cast; rfl
    · rw [if_neg (by omega), hw j hjn, Finset.range_add_one, Finset.filter_insert,
        if_neg (fun h => e h.symm)]
  · rintro W ⟨k, hk, hkn, hl, hw⟩
    have : k = N := by omega
    subst this
    exact ⟨hl, hw⟩

theorem sum_col_counts (N : ℕ) (c : ℕ → ℕ) (j : ℕ) :
    ∑ t ∈ Finset.range j, (((Finset.range N).filter fun k => c k = t).card : ℤ) =
      (colPtr N c j : ℤ) := by
  induction j with
  | zero => simp [colPtr_zero]
  | succ j ih => rw [Finset.sum_range_succ, ih, colPtr_succ]; push_cast; rfl

/-! ## triplet to CSC -/

/-- Position of triplet `k` after sorting by columns, keeping the order within a column. -/
def cscPos (N : ℕ) (c : ℕ → ℕ) (k : ℕ) : ℕ :=
  colPtr N c (c k) + ((Finset.range k).filter fun t => c t = c k).card

theorem cscPos_bounds {N : ℕ} {c : ℕ → ℕ} {k : ℕ} (hk : k < N) :
    colPtr N c (c k) ≤ cscPos N c k ∧ cscPos N c k < colPtr N c (c k + 1) := by
  unfold cscPos
  rw [colPtr_succ]
  refine ⟨by omega, ?_⟩
  have : ((Finset.range k).filter fun t => c t = c k).card <
      ((Finset.range N).filter fun t => c t = c k).card := by
    apply Finset.card_lt_card
    rw [Finset.ssubset_iff_of_subset]
    · exact ⟨k, by simp [hk], by simp⟩
    · intro t ht
      simp only [Finset.mem_filter, Finset.mem_range] at *
      exact ⟨by omega, ht.2⟩
  omega

theorem cscPos_lt {N : ℕ} {c : ℕ → ℕ} {k : ℕ} (hk : k < N) : cscPos N c k < N :=
  (cscPos_bounds hk).2.trans_le (colPtr_le _ _ _)

/-- Sorting by columns is stable. -/
theorem cscPos_strict {N : ℕ} {c : ℕ → ℕ} {k k' : ℕ} (h : k < k') (hc : c k = c k') :
    cscPos N c k < cscPos N c k' := by
  unfold cscPos
  rw [hc]
  have : ((Finset.range k).filter fun t => c t = c k').card <
      ((Finset.range k').filter fun t => c t = c k').card := by
    apply Finset.card_lt_card
    rw [Finset.ssubset_iff_of_subset]
    · exact ⟨k, by simp [h, hc], by simp⟩
    · intro t ht
      simp only [Finset.mem_filter, Finset.mem_range] at *
      exact ⟨by omega, ht.2⟩
  omega

theorem cscPos_col {N : ℕ} {c : ℕ → ℕ} {k k' : ℕ} (hk : k < N) (hk' : k' < N) (h : c k < c k') :
    cscPos N c k < cscPos N c k' := by
  have h1 := (cscPos_bounds (c := c) hk).2
  have h2 := (cscPos_bounds (c := c) hk').1
  have := colPtr_mono (N := N) (c := c) (j := c k + 1) (j' := c k') h
  omega

theorem cscPos_inj {N : ℕ} {c : ℕ → ℕ} {k k' : ℕ} (hk : k < N) (hk' : k' < N)
    (h : cscPos N c k = cscPos N c k') : k = k' := by
  rcases lt_trichotomy (c k) (c k') with h1 | h1 | h1
  · have := cscPos_col hk hk' h1; omega
  · rcases lt_trichotomy k k' with h2 | h2 | h2
    · have := cscPos_strict (N := N) h2 h1; omega
    · exact h2
    · have := cscPos_strict (N := N) h2 h1.symm; omega
  · have := cscPos_col hk' hk h1; omega

theorem cscPos_surj {N : ℕ} (c : ℕ → ℕ) : ∃ g : ℕ → ℕ, (∀ t, t < N → g t < N ∧ cscPos N c (g t) = t) ∧
    ∀ k, k < N → g (cscPos N c k) = k := by
  have hinjOn : Set.InjOn (cscPos N c) (Finset.range N : Set ℕ) := by
    intro k hk k' hk' e
    exact cscPos_inj (Finset.mem_range.1 hk) (Finset.mem_range.1 hk') e
  have himg : Finset.image (cscPos N c) (Finset.range N) = Finset.range N := by
    apply Finset.eq_of_subset_of_card_le
    · intro k hk
      obtain ⟨t, ht, rfl⟩ := Finset.mem_image.1 hk
      exact Finset.mem_range.2 (cscPos_lt (Finset.mem_range.1 ht))
    · rw [Finset.card_image_of_injOn hinjOn]
  have hex : ∀ t, t < N → ∃ k, k < N ∧ cscPos N c k = t := by
    intro t ht
    have : t ∈ Finset.image (cscPos N c) (Finset.range N) := by rw [himg]; exact Finset.mem_range.2 ht
    obtain ⟨k, hk, e⟩ := Finset.mem_image.1 this
    exact ⟨k, Finset.mem_range.1 hk, e⟩
  choose! g h1 h2 using hex
  refine ⟨g, fun t ht => ⟨h1 t ht, h2 t ht⟩, fun k hk => ?_⟩
  have hp := cscPos_lt (c := c) hk
  exact cscPos_inj (h1 _ hp) hk (h2 _ hp)

theorem buildCsc_spec {α : Type} (e : Elt α) {N n : ℕ} {Ai Aj W Ci : Arr Int} {Cx Yx : Arr α}
    {r c : ℕ → ℕ} {y : ℕ → α} (hc : ∀ k, k < N → c k < n)
    (hi : ∀ k, k < N → get Ai k = some (r k : ℤ)) (hj : ∀ k, k < N → get Aj k = some (c k : ℤ))
    (hy : ∀ k, k < N → get Yx k = some (y k))
    (hW : ∀ j, j < n → get W j = some (colPtr N c j : ℤ))
    (hCi : N ≤ Ci.length) (hCx : ∀ k : ℕ, k < N → ∃ u, get Cx k = some u) :
    ∃ Cx' Ci', buildCsc e Ai Aj N W Ci Cx Yx = .ok (Cx', Ci') ∧
      (∀ k, k < N → get Ci' (cscPos N c k) = some (r k : ℤ)) ∧
      (∀ k, k < N → get Cx' (cscPos N c k) = some (e.set (y k))) := by
  unfold buildCsc
  obtain ⟨⟨W', Ci', Cx'⟩, e1, k, hk, hkN, h1, h2, h3, h4, h5, h6⟩ := wp_noFail (wp_forRange (E := noFail) (lo := 0) (hi := (N : ℤ))
    (s := (W, Ci, Cx)) (f := fun k (W, Ci, Cx) => do
      let j ← rd Aj k
      let p ← rd W j
      let W ← wr W j (p + 1)
      let i ← rd Ai k
      let Ci ← wr Ci p i
      let v ← rd Yx k
      let Cx ← zset Cx p (e.set v)
      pure (W, Ci, Cx))
    (fun i s => ∃ k : ℕ, i = k ∧ k ≤ N ∧
      (∀ j, j < n → get s.1 j = some ((colPtr N c j + ((Finset.range k).filter fun t => c t = j).card : ℕ) : ℤ)) ∧
      s.2.1.length = Ci.length ∧ s.2.2.length = Cx.length ∧
      (∀ t : ℕ, t < N → ∃ u, get s.2.2 t = some u) ∧
      (∀ t, t < k → get s.2.1 (cscPos N c t) = some (r t : ℤ)) ∧
      (∀ t, t < k → get s.2.2 (cscPos N c t) = some (e.set (y t))))
    (by omega) ⟨0, rfl, by omega, by simpa using hW, rfl, rfl, hCx, by simp, by simp⟩ (by
      rintro i ⟨W, Ci2, Cx2⟩ h0 h1 ⟨k, rfl, hk, a1, a2, a3, a4, a5, a6⟩
      dsimp only at *
      have hkN : k < N := by omega
      have hcn := hc k hkN
      have gW := a1 _ hcn
      have hbW := get_bounds gW
      have hpos := cscPos_lt (c := c) hkN
      obtain ⟨u, hu⟩ := a4 _ hpos
      have epos : colPtr N c (c k) + ((Finset.range k).filter fun t => c t = c k).card = cscPos N c k := rfl
      rw [epos] at gW
      have hbx := get_bounds hu
      simp only [rd_eq (hj k hkN), ok_bind, rd_eq gW, wr_eq hbW.1 hbW.2, rd_eq (hi k hkN)]
      rw [wr_eq (by omega) (by omega)]
      simp only [ok_bind, rd_eq (hy k hkN), zset_eq hu, wp_pure]
      refine ⟨k + 1, by push_cast; rfl, hkN, ?_, by simpa using a2, by simpa using a3, ?_, ?_, ?_⟩
      · intro j hjn
        rw [get_upd hbW.1 hbW.2]
        by_cases ej : j = c k
        · subst ej
          rw [if_pos rfl, Finset.range_add_one, Finset.filter_insert, if_pos rfl,
            Finset.card_insert_of_notMem (by simp), ← epos]
          push_cast; ring_nf
        · rw [if_neg (by omega), a1 j hjn, Finset.range_add_one, Finset.filter_insert,
            if_neg (fun h => ej h.symm)]
      · intro t ht
        rw [get_upd hbx.1 hbx.2]
        split
        · exact ⟨_, rfl⟩
        · exact a4 t ht
      · intro t ht
        rw [get_upd_nat (by omega)]
        by_cases et : t = k
        · subst et; rw [if_pos rfl]
        · rw [if_neg, a5 t (by omega)]
          intro h
          exact et (cscPos_inj (c := c) (by omega) hkN (by exact_mod_cast h))
      · intro t ht
        rw [get_upd hbx.1 hbx.2]
        by_cases et : t = k
        · subst et; rw [if_pos rfl]
        · rw [if_neg, a6 t (by omega)]
          intro h
          exact et (cscPos_inj (c := c) (by omega) hkN (by exact_mod_cast h))))
  have : k = N := by omega
  subst this
  rw [e1]
  exact ⟨Cx', Ci', rfl, h5, h6⟩

/-! ## CSC to triplet: the column indices -/

theorem colIndexLoop_spec {N n : ℕ} {Ap Cj : Arr Int} {c : ℕ → ℕ} (hcn : ∀ k, k < N → c k < n)
    (hm : ∀ k k', k ≤ k' → k' < N → c k ≤ c k')
    (hp : ∀ j, j ≤ n → get Ap j = some (colPtr N c j : ℤ)) (hCj : N ≤ Cj.length) :
    ∃ Cj', forRange 0 (n : ℤ) Cj (fun j Cj => do
        let a ← rd Ap j
        let b ← rd Ap (j + 1)
        forRange a b Cj fun p Cj => wr Cj p j) = .ok Cj' ∧
      ∀ k, k < N → get Cj' k = some (c k : ℤ) := by
  apply wp_noFail
  refine wp_post (wp_forRange (fun i a => ∃ j : ℕ, i = j ∧ j ≤ n ∧ a.length = Cj.length ∧
    ∀ k, k < colPtr N c j → get a k = some (c k : ℤ))
    (by omega) ⟨0, rfl, by omega, rfl, by simp [colPtr_zero]⟩ ?_) ?_
  · rintro i a h0 h1 ⟨j, rfl, hj, hl, ha⟩
    have hjn : j < n := by omega
    have e2 := hp (j + 1) (by omega)
    rw [show (((j + 1 : ℕ)) : ℤ) = (j : ℤ) + 1 by push_cast; rfl] at e2
    simp only [rd_eq (hp j (by omega)), ok_bind, rd_eq e2]
    have hle : colPtr N c j ≤ colPtr N c (j + 1) := colPtr_mono (by omega)
    refine wp_post (wp_forRange (fun i a => ∃ t : ℕ, i = t ∧ t ≤ colPtr N c (j + 1) ∧
      a.length = Cj.length ∧ ∀ k, k < t → get a k = some (c k : ℤ))
      (by omega) ⟨_, rfl, hle, hl, ha⟩ ?_) ?_
    · rintro i a h0 h1 ⟨t, rfl, ht, hl, ha⟩
      have htN : t < N := by have := colPtr_le N c (j + 1); omega
      rw [wr_eq (by omega) (by omega), wp_ok]
      refine ⟨t + 1, by push_cast; rfl, by omega, by simpa using hl, ?_⟩
      intro k hk
      rw [get_upd_nat (by omega)]
      by_cases e : k = t
      · subst e
        rw [if_pos rfl]
        have h3 := (colPtr_lt hm htN (j := j + 1)).2 (by omega)
        have h4 : ¬ c k < j := fun h5 => by have := (colPtr_lt hm htN).1 h5; omega
        congr 1
        omega
      · rw [if_neg (by omega)]; exact ha k (by omega)
    · rintro a ⟨t, e, -, hl, ha⟩
      refine ⟨j + 1, by push_cast; rfl, hjn, hl, fun k hk => ha k (by omega)⟩
  · rintro a ⟨j, e, hj, hl, ha⟩
    have : j = n := by omega
    subst this
    rw [colPtr_all hcn] at ha
    exact ha

/-! ## scattering into a dense array -/

/-- The state of a scatter loop after the entries before `k`. -/
def Scat {α : Type} (m : ℕ) (r c : ℕ → ℕ) (w : ℕ → α) (C0 : Arr α) (k : ℕ) (a : Arr α) : Prop :=
  a.length = C0.length ∧ (∀ t, t < k → get a ((r t + c t * m : ℕ) : ℤ) = some (w t)) ∧
  (∀ p : ℤ, (∀ t, t < k → p ≠ ((r t + c t * m : ℕ) : ℤ)) → get a p = get C0 p)

theorem Scat.step {α : Type} {m n N : ℕ} {r c : ℕ → ℕ} {w : ℕ → α} {C0 a : Arr α} {k : ℕ}
    (h : Scat m r c w C0 k a) (hk : k < N) (hb : ∀ t, t < N → r t < m ∧ c t < n)
    (hd : NoRep N r c) (hC : ∀ p : ℕ, p < m * n → ∃ u, get C0 p = some u) :
    ∃ a', zset a ((r k : ℤ) + (c k : ℤ) * m) (w k) = .ok a' ∧ Scat m r c w C0 (k + 1) a' := by
  have hne : ∀ t, t < N → t ≠ k → r t + c t * m ≠ r k + c k * m := by
    intro t ht hne
    intro he
    obtain ⟨h1, h2⟩ := ix2_inj (hb t ht).1 (hb k hk).1 he
    exact hne (hd t k ht hk h1 h2)
  have hix : r k + c k * m < m * n := ix2_lt (hb k hk).1 (hb k hk).2
  obtain ⟨u, hu⟩ := hC _ hix
  have ga : get a ((r k + c k * m : ℕ) : ℤ) = some u := by
    rw [h.2.2]; exact hu
    intro t ht e
    exact hne t (by omega) (by omega) (by exact_mod_cast e.symm)
  have hbd := get_bounds ga
  have ecast : (r k : ℤ) + (c k : ℤ) * m = ((r k + c k * m : ℕ) : ℤ) := by push_cast; rfl
  rw [ecast, zset_eq ga]
  refine ⟨_, rfl, by simpa using h.1, ?_, ?_⟩
  · intro t ht
    rw [get_upd hbd.1 hbd.2]
    by_cases e : t = k
    · subst e; rw [if_pos rfl]
    · rw [if_neg, h.2.1 t (by omega)]
      intro e2
      exact hne t (by omega) e (by exact_mod_cast e2)
  · intro p hp
    rw [get_upd hbd.1 hbd.2, if_neg (hp k (by omega)), h.2.2 p fun t ht => hp t (by omega)]

theorem scatterTriplet_spec {α : Type} (e : Elt α) {m n N : ℕ} {Ai Aj : Arr Int} {Cx Yx : Arr α}
    {r c : ℕ → ℕ} {y : ℕ → α} (hb : ∀ t, t < N → r t < m ∧ c t < n) (hd : NoRep N r c)
    (hi : ∀ k, k < N → get Ai k = some (r k : ℤ)) (hj : ∀ k, k < N → get Aj k = some (c k : ℤ))
    (hy : ∀ k, k < N → get Yx k = some (y k)) (hC : ∀ p : ℕ, p < m * n → ∃ u, get Cx p = some u) :
    ∃ a, scatterTriplet e m N Ai Aj Cx Yx = .ok a ∧
      Scat m r c (fun k => e.set (y k)) Cx N a := by
  unfold scatterTriplet
  apply wp_noFail
  refine wp_post (wp_forRange (fun i a => ∃ k : ℕ, i = k ∧ k ≤ N ∧
    Scat m r c (fun k => e.set (y k)) Cx k a) (by omega)
    ⟨0, rfl, by omega, rfl, by simp, fun _ _ => rfl⟩ ?_) ?_
  · rintro i a h0 h1 ⟨k, rfl, hk, hs⟩
    have hkN : k < N := by omega
    obtain ⟨a', e', hs'⟩ := hs.step hkN hb hd hC
    simp only [rd_eq (hi k hkN), rd_eq (hj k hkN), rd_eq (hy k hkN), ok_bind, e', wp_ok]
    exact ⟨k + 1, by push_cast; rfl, hkN, hs'⟩
  · rintro a ⟨k, ek, -, hs⟩
    have : k = N := by omega
    subst this
    exact hs

theorem scatterCsc_spec {α : Type} (e : Elt α) {m n N : ℕ} {Ap Ai : Arr Int} {Cx Yx : Arr α}
    {r c : ℕ → ℕ} {y : ℕ → α} (hb : ∀ t, t < N → r t < m ∧ c t < n) (hd : NoRep N r c)
    (hm : ∀ k k', k ≤ k' → k' < N → c k ≤ c k')
    (hp : ∀ j, j ≤ n → get Ap j = some (colPtr N c j : ℤ))
    (hi : ∀ k, k < N → get Ai k = some (r k : ℤ))
    (hy : ∀ k, k < N → get Yx k = some (y k)) (hC : ∀ p : ℕ, p < m * n → ∃ u, get Cx p = some u) :
    ∃ a, scatterCsc e m n Ap Ai Cx Yx = .ok a ∧
      Scat m r c (fun k => e.set (y k)) Cx N a := by
  unfold scatterCsc
  apply wp_noFail
  refine wp_post (wp_forRange (fun i a => ∃ j : ℕ, i = j ∧ j ≤ n ∧
    Scat m r c (fun k => e.set (y k)) Cx (colPtr N c j) a) (by omega)
    ⟨0, rfl, by omega, by rw [colPtr_zero]; exact ⟨rfl, by simp, fun _ _ => rfl⟩⟩ ?_) ?_
  · rintro i a h0 h1 ⟨j, rfl, hj, hs⟩
    have e2 := hp (j + 1) (by omega)
    rw [show (((j + 1 : ℕ)) : ℤ) = (j : ℤ) + 1 by push_cast; rfl] at e2
    simp only [rd_eq (hp j (by omega)), ok_bind, rd_eq e2]
    have hle : colPtr N c j ≤ colPtr N c (j + 1) := colPtr_mono (by omega)
    have hle2 := colPtr_le N c (j + 1)
    refine wp_post (wp_forRange (fun i a => ∃ k : ℕ, i = k ∧ colPtr N c j ≤ k ∧ k ≤ colPtr N c (j + 1) ∧
      Scat m r c (fun k => e.set (y k)) Cx k a) (by omega) ⟨_, rfl, le_rfl, hle, hs⟩ ?_) ?_
    · rintro i a h0 h1 ⟨k, rfl, hk0, hk, hs⟩
      have hkN : k < N := by omega
      obtain ⟨a', e', hs'⟩ := hs.step hkN hb hd hC
      have hck : c k = j := by
        have h3 := (colPtr_lt hm hkN (j := j + 1)).2 (by omega)
        have h4 : ¬ c k < j := fun h5 => by have := (colPtr_lt hm hkN).1 h5; omega
        omega
      rw [hck] at e'
      simp only [rd_eq (hi k hkN), rd_eq (hy k hkN), ok_bind, e', wp_ok]
      exact ⟨k + 1, by push_cast; rfl, by omega, by omega, hs'⟩
    · rintro a ⟨k, ek, -, -, hs⟩
      have : k = colPtr N c (j + 1) := by omega
      subst this
      exact ⟨j + 1, by push_cast; rfl, by omega, hs⟩
  · rintro a ⟨j, ej, -, hs⟩
    have : j = n := by omega
    subst this
    rwa [colPtr_all fun k hk => (hb k hk).2] at hs

/-! ## dense to CSC -/

theorem countNz_spec {α : Type} (e : Elt α) {M : ℕ} {Yx : Arr α} {y : ℕ → α}
    {p : ℕ → Prop} [DecidablePred p] (hp : ∀ t, t < M → (p t ↔ e.isZero (y t) = false))
    (hy : ∀ k, k < M → get Yx k = some (y k)) :
    countNz e M Yx = .ok ((Nat.count p M : ℕ) : ℤ) := by
  unfold countNz
  obtain ⟨a, ea, k, hk, hkM, ha⟩ := wp_noFail (wp_forRange (E := noFail) (lo := 0) (hi := (M : ℤ)) (s := (0 : ℤ))
    (f := fun k actual => do
      let v ← rd Yx k
      if e.isZero v then pure actual else pure (actual + 1))
    (fun i a => ∃ k : ℕ, i = k ∧ k ≤ M ∧ a = ((Nat.count p k : ℕ) : ℤ))
    (by omega) ⟨0, rfl, by omega, by simp⟩ (by
      rintro i a h0 h1 ⟨k, rfl, hk, rfl⟩
      have hkM : k < M := by omega
      simp only [rd_eq (hy k hkM), ok_bind]
      cases hz : e.isZero (y k)
      · simp only [Bool.false_eq_true, if_false, wp_pure]
        refine ⟨k + 1, by push_cast; rfl, hkM, ?_⟩
        rw [Nat.count_succ, if_pos ((hp k hkM).2 hz)]; push_cast; rfl
      · simp only [if_true, wp_pure]
        refine ⟨k + 1, by push_cast; rfl, hkM, ?_⟩
        rw [Nat.count_succ, if_neg (by rw [hp k hkM]; simp [hz])]; push_cast; omega))
  have : k = M := by omega
  subst this
  rw [ea, ha]

theorem buildFromDense_spec {α : Type} (e : Elt α) {m n : ℕ} {Cp Ci : Arr Int} {Cx Yx : Arr α}
    {y : ℕ → α} {p : ℕ → Prop} [DecidablePred p]
    (hpp : ∀ t, t < m * n → (p t ↔ e.isZero (y t) = false)) (hy : ∀ t, t < m * n → get Yx t = some (y t)) (hCp : n + 1 ≤ Cp.length)
    (hCi : Nat.count p (m * n) ≤ Ci.length)
    (hCx : ∀ k : ℕ, k < Nat.count p (m * n) →
      ∃ u, get Cx k = some u) :
    ∃ Cx' Cp' Ci', buildFromDense e m n Cp Ci Cx Yx = .ok (Cx', Cp', Ci') ∧
      (∀ j, j ≤ n → get Cp' j = some ((Nat.count p (j * m) : ℕ) : ℤ)) ∧
      (∀ i j, i < m → j < n → p (i + j * m) →
        get Ci' (Nat.count p (i + j * m) : ℕ) = some (i : ℤ) ∧
        get Cx' (Nat.count p (i + j * m) : ℕ) =
          some (e.set (y (i + j * m)))) := by
  unfold buildFromDense
  have hcnt : ∀ t t', p t → p t' → Nat.count p t = Nat.count p t' → t = t' := by
    intro t t' h1 h2 h3
    exact Nat.count_injective h1 h2 h3
  have hclt : ∀ t, t < m * n → p t → Nat.count p t < Nat.count p (m * n) := by
    intro t ht hp
    exact Nat.count_strict_mono hp ht
  -- the invariant: entries before linear index `t` are in place
  let Inv : ℕ → Int → Arr Int → Arr α → Prop := fun t nz Ci' Cx' =>
    nz = (Nat.count p t : ℤ) ∧ Ci'.length = Ci.length ∧
    (∀ k : ℕ, k < Nat.count p (m * n) → ∃ u, get Cx' k = some u) ∧
    ∀ i j, i < m → j < n → i + j * m < t → p (i + j * m) →
      get Ci' (Nat.count p (i + j * m) : ℕ) = some (i : ℤ) ∧
      get Cx' (Nat.count p (i + j * m) : ℕ) = some (e.set (y (i + j * m)))
  have key : wp (forRange 0 (n : ℤ) ((0 : Int), Cp, Ci, Cx) fun j (nz, Cp, Ci, Cx) => do
      let Cp ← wr Cp j nz
      let (nz, Ci, Cx) ← forRange 0 (m : ℤ) (nz, Ci, Cx) fun i (nz, Ci, Cx) => do
        let v ← rd Yx (i + j * m)
        if e.isZero v then pure (nz, Ci, Cx)
        else do
          let Ci ← wr Ci nz i
          let Cx ← zset Cx nz (e.set v)
          pure (nz + 1, Ci, Cx)
      pure (nz, Cp, Ci, Cx))
      (fun s => s.2.1.length = Cp.length ∧
        (∀ j, j < n → get s.2.1 j = some (Nat.count p (j * m) : ℤ)) ∧
        Inv (n * m) s.1 s.2.2.1 s.2.2.2) noFail := by
    refine wp_post (wp_forRange (fun i s => ∃ j : ℕ, i = j ∧ j ≤ n ∧ s.2.1.length = Cp.length ∧
      (∀ j', j' < j → get s.2.1 j' = some (Nat.count p (j' * m) : ℤ)) ∧
      Inv (j * m) s.1 s.2.2.1 s.2.2.2) (by omega)
      ⟨0, rfl, by omega, rfl, by simp, by simp [Inv]; exact hCx⟩ ?_) ?_
    · rintro i ⟨nz, Cp1, Ci1, Cx1⟩ h0 h1 ⟨j, rfl, hj, l1, hp1, hI⟩
      dsimp only at *
      have hjn : j < n := by omega
      rw [wr_eq (by omega) (by omega)]
      simp only [ok_bind]
      refine wp_bind_ok (P := fun s : Int × Arr Int × Arr α => Inv ((j + 1) * m) s.1 s.2.1 s.2.2) ?_ ?_
      · refine wp_post (wp_forRange (fun i s => ∃ k : ℕ, i = k ∧ k ≤ m ∧
          Inv (k + j * m) s.1 s.2.1 s.2.2) (by omega) ⟨0, rfl, by omega, by simpa using hI⟩ ?_) ?_
        · rintro i ⟨nz2, Ci2, Cx2⟩ h0 h1 ⟨k, rfl, hk, hI1, hI2, hI3, hI4⟩
          dsimp only at *
          have hkm : k < m := by omega
          have hix : k + j * m < m * n := ix2_lt hkm hjn
          have gy := hy _ hix
          rw [show (((k + j * m : ℕ)) : ℤ) = (k : ℤ) + (j : ℤ) * m by push_cast; rfl] at gy
          simp only [rd_eq gy, ok_bind]
          have hsplit : ∀ i' j', i' < m → j' < n → i' + j' * m < k + 1 + j * m →
              i' + j' * m < k + j * m ∨ (i' = k ∧ j' = j) := by
            intro i' j' hi' hj' hlt
            by_cases h : i' + j' * m = k + j * m
            · exact Or.inr (ix2_inj hi' hkm h)
            · left; omega
          cases hz : e.isZero (y (k + j * m))
          · have hpk : p (k + j * m) := (hpp _ hix).2 hz
            have hlt := hclt _ hix hpk
            obtain ⟨u, hu⟩ := hI3 _ hlt
            have hbx := get_bounds hu
            subst hI1
            simp only [Bool.false_eq_true, if_false]
            rw [wr_eq (by omega) (by omega)]
            simp only [ok_bind, zset_eq hu, wp_pure]
            refine ⟨k + 1, by push_cast; rfl, hkm, ?_, by simpa using hI2, ?_, ?_⟩
            · rw [show k + 1 + j * m = k + j * m + 1 by ring, Nat.count_succ, if_pos hpk]
              push_cast; rfl
            · intro t ht
              rw [get_upd hbx.1 hbx.2]
              split
              · exact ⟨_, rfl⟩
              · exact hI3 t ht
            · intro i' j' hi' hj' hlt' hp'
              rw [get_upd_nat (by omega), get_upd hbx.1 hbx.2]
              rcases hsplit i' j' hi' hj' hlt' with h | ⟨rfl, rfl⟩
              · have hne : ¬ ((Nat.count p (i' + j' * m) : ℕ) : ℤ) = (Nat.count p (k + j * m) : ℕ) := by
                  intro h2
                  have := hcnt _ _ hp' hpk (by exact_mod_cast h2)
                  omega
                rw [if_neg hne, if_neg hne]
                exact hI4 i' j' hi' hj' h hp'
              · rw [if_pos rfl, if_pos rfl]
                exact ⟨rfl, rfl⟩
          · have hpk : ¬ p (k + j * m) := by rw [hpp _ hix]; simp [hz]
            simp only [if_true, wp_pure]
            refine ⟨k + 1, by push_cast; rfl, hkm, ?_, hI2, hI3, ?_⟩
            · rw [show k + 1 + j * m = k + j * m + 1 by ring, Nat.count_succ, if_neg hpk, hI1]
              push_cast; omega
            · intro i' j' hi' hj' hlt' hp'
              rcases hsplit i' j' hi' hj' hlt' with h | ⟨rfl, rfl⟩
              · exact hI4 i' j' hi' hj' h hp'
              · exact absurd hp' hpk
        · rintro ⟨nz2, Ci2, Cx2⟩ ⟨k, ek, -, hI⟩
          have : k = m := by omega
          subst this
          rw [show (j + 1) * k = k + j * k by ring]
          exact hI
      · rintro ⟨nz2, Ci2, Cx2⟩ hI'
        refine ⟨j + 1, by push_cast; rfl, hjn, by simpa using l1, ?_, hI'⟩
        intro j' hj'
        dsimp only
        rw [get_upd_nat (by omega)]
        by_cases ej : j' = j
        · subst ej; rw [if_pos rfl, hI.1]
        · rw [if_neg (by omega)]; exact hp1 j' (by omega)
    · rintro ⟨nz, Cp1, Ci1, Cx1⟩ ⟨j, ej, -, l1, hp1, hI⟩
      have : j = n := by omega
      subst this
      exact ⟨l1, hp1, hI⟩
  obtain ⟨⟨nz, Cp1, Ci1, Cx1⟩, e1, l1, hp1, hI1, hI2, hI3, hI4⟩ := wp_noFail key
  rw [e1]
  dsimp only at *
  simp only [ok_bind]
  rw [wr_eq (by omega) (by omega)]
  refine ⟨Cx1, _, Ci1, rfl, ?_, ?_⟩
  · intro j hj
    rw [get_upd_nat (by omega)]
    by_cases ej : j = n
    · subst ej; rw [if_pos rfl, hI1]
    · rw [if_neg (by omega)]; exact hp1 j (by omega)
  · intro i j hi hj hp
    exact hI4 i j hi hj (by rw [Nat.mul_comm n m]; exact ix2_lt hi hj) hp

/-! ## copying index arrays -/

theorem copyInts_spec {N : ℕ} {dst src : Arr Int} {v : ℕ → ℤ} (hd : N ≤ dst.length)
    (hs : ∀ k, k < N → get src k = some (v k)) :
    ∃ d, copyInts dst src N = .ok d ∧ d.length = dst.length ∧ ∀ k, k < N → get d k = some (v k) := by
  unfold copyInts
  apply wp_noFail
  refine wp_post (wp_forRange (fun i a => ∃ k : ℕ, i = k ∧ k ≤ N ∧ a.length = dst.length ∧
    ∀ t, t < k → get a t = some (v t)) (by omega) ⟨0, rfl, by omega, rfl, by simp⟩ ?_) ?_
  · rintro i a h0 h1 ⟨k, rfl, hk, hl, ha⟩
    have hkN : k < N := by omega
    simp only [rd_eq (hs k hkN), ok_bind]
    rw [wr_eq (by omega) (by omega), wp_ok]
    refine ⟨k + 1, by push_cast; rfl, hkN, by simpa using hl, ?_⟩
    intro t ht
    rw [get_upd_nat (by omega)]
    by_cases e : t = k
    · subst e; rw [if_pos rfl]
    · rw [if_neg (by omega)]; exact ha t (by omega)
  · rintro a ⟨k, ek, -, hl, ha⟩
    have : k = N := by omega
    subst this
    exact ⟨hl, ha⟩

end Slip
