import Verif.Proof.FactStep
import Verif.Proof.CostTri

/-! # One step of the factorization preserves the invariant, or the matrix is singular -/

namespace Slip

theorem ColOk.congr {n k : ℕ} {S : ℕ → ℕ → Prop} {val : ℕ → ℕ → ℤ} {cp : ℕ → ℤ}
    {Mp Mi Mx Mi' Mx' : Arr Int} (h : ColOk n k S val cp Mp Mi Mx)
    (oldi : ∀ m, m < cp k → get Mi' m = get Mi m) (oldx : ∀ m, m < cp k → get Mx' m = get Mx m) :
    ColOk n k S val cp Mp Mi' Mx' := by
  have hb : ∀ t < k, ∀ m, m < cp (t + 1) → m < cp k := fun t ht m hm =>
    lt_of_lt_of_le hm (h.le _ _ (by omega) (le_refl _))
  refine ⟨h.ptr, h.zero, h.cp0, h.mono, ?_, ?_, ?_⟩
  · intro t ht m h1 h2
    rw [oldi m (hb t ht m h2), oldx m (hb t ht m h2)]
    exact h.ent t ht m h1 h2
  · intro t ht m m' h1 h2 h1' h2' he
    rw [oldi m (hb t ht m h2), oldi m' (hb t ht m' h2')] at he
    exact h.inj t ht m m' h1 h2 h1' h2' he
  · intro t ht i hi hS hv
    obtain ⟨m, h1, h2, h3⟩ := h.full t ht i hi hS hv
    exact ⟨m, h1, h2, by rw [oldi m (hb t ht m h2)]; exact h3⟩

theorem Appended.cap {n : ℕ} {M M' : Csc} {nz : ℤ} {l : List ℕ} {v : ℕ → ℤ} (hc : CapOk n M nz)
    (ha : Appended M M' nz l v) (hroom : nz + n ≤ M.nzmax) (hl : l.length ≤ n) :
    CapOk n M' (nz + l.length) := by
  have := hc.nz0
  refine ⟨by rw [ha.m]; exact hc.mEq, by rw [ha.n]; exact hc.nEq, by rw [ha.p]; exact hc.plen,
    by omega, by rw [ha.nzmax]; omega, by rw [ha.nzmax]; exact hc.nle,
    by rw [ha.nzmax, ha.leni]; exact hc.leni, by rw [ha.nzmax, ha.lenx]; exact hc.lenx, ha.fresh⟩

/-- In the list of rows of a U column, ordered by the old positions, the new pivot is last. -/
theorem filter_last {k pr : ℕ} {pi pi' : ℕ → ℕ} {pat : List ℕ}
    (hs : pat.Pairwise (fun i j => pi i < pi j)) (hpr : pr ∈ pat) (hk : k ≤ pi pr)
    (h1 : ∀ i ∈ pat, pi' i ≤ k ↔ (pi i < k ∨ i = pr)) :
    ∃ l, pat.filter (fun i => pi' i ≤ k) = l ++ [pr] := by
  have hmem : pr ∈ pat.filter (fun i => pi' i ≤ k) := by
    simp [hpr, (h1 pr hpr).mpr (Or.inr rfl)]
  have hs' := hs.sublist (List.filter_sublist (p := fun i => decide (pi' i ≤ k)))
  obtain ⟨l, r, e⟩ := List.append_of_mem hmem
  rw [e] at hs' hmem ⊢
  cases r with
  | nil => exact ⟨l, rfl⟩
  | cons b r =>
    exfalso
    have hb : b ∈ pat.filter (fun i => pi' i ≤ k) := by rw [e]; simp
    simp only [List.mem_filter, decide_eq_true_eq] at hb
    have hlt : pi pr < pi b := by
      have := (List.pairwise_append.mp hs').2.1
      rw [List.pairwise_cons] at this
      exact this.1 b (by simp)
    rcases (h1 b hb.1).mp hb.2 with h | h
    · omega
    · subst h; omega

variable {A : ℕ → ℕ → ℤ} {c : ℕ → ℕ}

theorem wp_self {α : Type} (m : C α) : wp m (fun a => m = .ok a) (fun e => m = .error e) := by
  cases m <;> rfl

/-- One step in detail: the pattern `pat` of the new column is the set of reachable rows, the pivot
row `pr` is the one returned by the pivot search, and the new entries of L and U are the rows of `pat`
in their order. -/
theorem factStep_detail {nc : Int → Int → ℚ → Bool} {order : Pivot} {tol : ℚ} {n k : ℕ}
    {r pi : ℕ → ℕ} {lp up ap : ℕ → ℤ} {M : Csc} {q : Arr Int} {s : FactSt}
    (hA : AOk n A ap M) (hMn : M.n = n) (hq : IsFn n q c) (hc : ∀ t < n, c t < n)
    (hcinj : ∀ t < n, ∀ u < n, c t = c u → t = u) (hk : k < n)
    (h : FInv order tol A c n k r pi lp up s) :
    ∃ t pat Li, TriPost A r c n k pi (upd s.L.p (k : Int) s.lnz) s.h s.x t pat ∧
      (∀ m, m < s.lnz → get Li m = get s.L.i m) ∧
      (∀ i : ℕ, i ∈ pat ↔
        Reachable M.p M.i (upd s.L.p (k : Int) s.lnz) Li s.pinv (c k : Int) (i : Int)) ∧
      (∀ α β γ, Cnt (stepCost α β (ap (c k + 1) - ap (c k)).toNat pat.length
          (degSum (upd s.L.p (k : Int) s.lnz) s.pinv (pat.map fun i : ℕ => (i : Int))) +
          (β + 2 * γ) * (growN s.lnz n s.L.nzmax + growN s.unz n s.U.nzmax))
        (factStepT α β γ nc order (.fin tol) M q (k : Int) s) (factStep nc order (.fin tol) M q (k : Int) s)) ∧
      wp (factStep nc order (.fin tol) M q (k : Int) s)
      (fun s' => ∃ pr : ℕ, pr ∈ pat ∧ k ≤ pi pr ∧
        choosePivot nc order (.fin tol) t.x s.pivs n t.top t.xi (c k : Int) = .ok (pr : Int) ∧
        FInv order tol A c n (k + 1) (newR r pi k pr) (newPi r pi k pr)
          (Function.update lp (k + 1)
            (lp k + (pat.filter (fun i => k ≤ newPi r pi k pr i)).length))
          (Function.update up (k + 1)
            (up k + (pat.filter (fun i => newPi r pi k pr i ≤ k)).length)) s' ∧
        s'.L.nzmax = s.L.nzmax + growN s.lnz n s.L.nzmax ∧ s'.U.nzmax = s.U.nzmax + growN s.unz n s.U.nzmax ∧
        (∀ m, m < s.lnz → get s'.L.i m = get s.L.i m) ∧
        Seg s'.L.i s.lnz ((pat.filter (fun i => k ≤ newPi r pi k pr i)).map (fun i : ℕ => (i : Int))) ∧
        (∀ m, m < s.unz → get s'.U.i m = get s.U.i m) ∧
        Seg s'.U.i s.unz ((pat.filter (fun i => newPi r pi k pr i ≤ k)).map (fun i : ℕ => (i : Int))))
      (fun e => e = .ret .singular ∧ (toMat A n).det = 0 ∧
        choosePivot nc order (.fin tol) t.x s.pivs n t.top t.xi (c k : Int) = .error e) := by
  have hck := hc k hk
  have hp := h.perm
  have bk0 : (0 : Int) ≤ (k : Int) := by omega
  have bkL : (k : Int) < (s.L.p.length : Int) := by rw [h.capL.plen]; omega
  have bkU : (k : Int) < (s.U.p.length : Int) := by rw [h.capU.plen]; omega
  -- storage
  have capL1 : CapOk n { s.L with p := upd s.L.p (k : Int) s.lnz } s.lnz := by
    refine ⟨h.capL.mEq, h.capL.nEq, ?_, h.capL.nz0, h.capL.nzle, h.capL.nle, h.capL.leni,
      h.capL.lenx, h.capL.fresh⟩
    simp only [length_upd]; exact h.capL.plen
  have capU1 : CapOk n { s.U with p := upd s.U.p (k : Int) s.unz } s.unz := by
    refine ⟨h.capU.mEq, h.capU.nEq, ?_, h.capU.nz0, h.capU.nzle, h.capU.nle, h.capU.leni,
      h.capU.lenx, h.capU.fresh⟩
    simp only [length_upd]; exact h.capU.plen
  have gL := capL1.grow
  have gU := capU1.grow
  simp only at gL gU
  unfold factStep
  simp only [hMn, wr_eq bk0 bkL, wr_eq bk0 bkU, rd_eq (hq k hk), ok_bind]
  generalize hL2 : (if s.lnz + (n : Int) > s.L.nzmax
    then slip_sparse_realloc { s.L with p := upd s.L.p (k : Int) s.lnz }
    else { s.L with p := upd s.L.p (k : Int) s.lnz }) = L2 at gL ⊢
  generalize hU2 : (if s.unz + (n : Int) > s.U.nzmax
    then slip_sparse_realloc { s.U with p := upd s.U.p (k : Int) s.unz }
    else { s.U with p := upd s.U.p (k : Int) s.unz }) = U2 at gU ⊢
  obtain ⟨capL2, roomL, pL, oldLi, oldLx⟩ := gL
  obtain ⟨capU2, roomU, pU, oldUi, oldUx⟩ := gU
  have hL2ok : LOk A r c n k pi lp L2.p L2.i L2.x := by
    rw [pL]
    exact LOk_iff.mpr ((LOk_iff.mp h.L).congr (fun m hm => oldLi m (by rw [← h.lnz]; exact hm))
      (fun m hm => oldLx m (by rw [← h.lnz]; exact hm)))
  have hU2ok := h.U.1.congr (Mi' := U2.i) (Mx' := U2.x)
    (fun m hm => oldUi m (by rw [← h.unz]; exact hm))
    (fun m hm => oldUx m (by rw [← h.unz]; exact hm))
  rw [show upd s.U.p (k : Int) s.unz = U2.p from pU.symm] at hU2ok
  -- the triangular solve
  obtain ⟨t, pat, et, hT, hreach, hcost⟩ := slip_ref_triangular_solve_cost (xi := s.xi) (h := s.h) (x := s.x)
    hA hMn capL2.nEq hL2ok hp h.pinv h.rperm hq hc h.rho hk h.xi (by rw [h.h]) h.x
  rw [pL] at hT hreach
  have capEq : ∀ (nz : Int) (M M2 : Csc) (p : Arr Int), 0 ≤ M.nzmax →
      (if nz + (n : Int) > M.nzmax then slip_sparse_realloc { M with p := p } else { M with p := p }) = M2 →
      M2.nzmax = M.nzmax + growN nz n M.nzmax := by
    rintro nz M M2 p h0 rfl
    unfold growN
    split
    · simp only [slip_sparse_realloc]; omega
    · simp
  have nzL := capEq _ _ _ _ (by have := h.capL.nle; omega) hL2
  have nzU := capEq _ _ _ _ (by have := h.capU.nle; omega) hU2
  refine ⟨t, pat, L2.i, hT, oldLi, hreach, fun α β γ => ?_, ?_⟩
  · unfold factStepT
    simp only [hMn, wr_eq bk0 bkL, wr_eq bk0 bkU, rd_eq (hq k hk), W.lift_bind]
    have hcost := hcost α β
    have gL := growT_cnt β γ s.lnz n { s.L with p := upd s.L.p (k : Int) s.lnz }
    have gU := growT_cnt β γ s.unz n { s.U with p := upd s.U.p (k : Int) s.unz }
    simp only at gL gU
    rw [hL2] at gL
    rw [hU2] at gU
    refine Cnt.mono (gL.bindPure (gU.bindPure (b2 := stepCost α β (ap (c k + 1) - ap (c k)).toNat pat.length
          (degSum (upd s.L.p (k : Int) s.lnz) s.pinv (pat.map fun i : ℕ => (i : Int)))) ?_)) (by
        rw [Nat.mul_add]; omega)
    rw [pL] at hcost
    have hlen : ((n : Int) - t.top).toNat = pat.length := by rw [hT.top]; omega
    refine Cnt.mono (hcost.bind (b2 := 2 * ((n - t.top).toNat * β) + (((n - t.top).toNat * (β + 0)) + 0))
      fun t' e => ?_) ?_
    · rw [et] at e; cases e
      exact (slip_get_pivotT_cnt β nc order (.fin tol) _ _ _ _ _ _ _ _ _ _).bind
        fun g _ => Cnt.bind (b2 := 0) (.forRange (b := 0) fun i st _ _ => .lift _) fun _ _ => .pure _
    · rw [hlen]
      have h1 : β * (3 * pat.length) ≤ stepCost α β (ap (c k + 1) - ap (c k)).toNat pat.length
          (degSum (upd s.L.p (k : Int) s.lnz) s.pinv (pat.map fun i : ℕ => (i : Int))) :=
        (Nat.mul_le_mul_left _ (by omega)).trans (Nat.le_add_left _ _)
      have h2 : 2 * (pat.length * β) + (pat.length * (β + 0) + 0) = β * (3 * pat.length) := by ring
      rw [h2]
      omega
  rw [et, ok_bind]
  have hLeta : ({ L2 with p := t.Lp } : Csc) = L2 := by rw [hT.lp, ← pL]
  rw [hLeta]
  -- the pivot
  let v : ℕ → ℤ := fun i => lev A r c (min k (pi i)) (fun i => A i (c k)) i
  let pv : ℕ → ℤ := fun i => if pi i < k then 1 else -1
  let a : ℕ → ℤ := fun i => lev A r c k (fun i => A i (c k)) i
  have hpatnd : pat.Nodup := hT.sorted.imp (fun {a b} hab e => by subst e; omega)
  have hpatlen : pat.length ≤ n := by
    have h1 : pat.toFinset ⊆ Finset.range n := by
      intro i hi; simp only [List.mem_toFinset] at hi; simpa using hT.lt i hi
    have h2 := Finset.card_le_card h1
    rwa [List.toFinset_card_of_nodup hpatnd, Finset.card_range] at h2
  have htop : t.top + pat.length = n := by rw [hT.top]; ring
  have hP : PivIn n t.x s.pivs t.xi t.top pat v pv :=
    ⟨by rw [hT.top]; omega, htop, hT.seg, hT.val, fun i hi => h.pivs i (hT.lt i hi)⟩
  have hrk : ∀ i < n, pi i < k → a i = 0 := by
    intro i hi hlt
    have := lev_row_eq_zero A r c hlt (fun i => A i (c k))
    rwa [hp.rp i hi] at this
  have hva : ∀ i, k ≤ pi i → v i = a i := by
    intro i hi
    simp only [v, a]
    rw [Nat.min_eq_left hi]
  have hpv : ∀ i, pv i < 0 ↔ k ≤ pi i := by
    intro i; simp only [pv]; split <;> omega
  have hE : ∀ i < n, a i ≠ 0 ↔ Elig v pv i := by
    intro i hi
    unfold Elig
    rw [hpv]
    constructor
    · intro hne
      have hki : k ≤ pi i := by by_contra hcon; exact hne (hrk i hi (by omega))
      exact ⟨by rw [hva i hki]; exact hne, hki⟩
    · rintro ⟨h1, h2⟩; rw [← hva i h2]; exact h1
  have hpatmem : ∀ i < n, a i ≠ 0 → i ∈ pat := by
    intro i hi hne
    by_contra hcon
    have h0 := hT.zero i hi hcon
    have := (hE i hi).mp hne
    exact this.1 h0
  have hxd : get t.x (c k : Int) = some (v (c k)) := by
    by_cases hd : c k ∈ pat
    · exact hT.val _ hd
    · rw [hT.diag hd]
      have := hT.zero (c k) hck hd
      simp only [v]; rw [this]
  have hcp := wp_conj (choosePivot_spec nc order tol hP hxd (h.pivs _ hck)
    (fun he => hpatmem _ hck ((hE _ hck).mpr he))) (wp_self _)
  unfold slip_get_pivot
  simp only [bind_assoc]
  rw [wp_bind]
  refine wp_mono hcp ?_ ?_
  swap
  · -- singular
    rintro e ⟨⟨rfl, hnone⟩, hcerr⟩
    refine ⟨rfl, det_eq_zero_of_lev_zero A r c n k hk hc ?_ (h.rho.ne k (le_refl _)) ?_, hcerr⟩
    · intro y hy hcon
      have := hcinj y (by omega) k hk hcon
      omega
    · intro i hi
      by_contra hne
      exact hnone i (hpatmem i hi hne) ((hE i hi).mp hne)
  rintro p ⟨⟨pr, hprpat, rfl, hpre, hpol⟩, hcok⟩
  refine wp_post (Q := fun s' => _) ?_ (fun s' hs' => ⟨pr, hprpat, (hpv pr).mp hpre.2, hcok, hs'⟩)
  have hprn := hT.lt pr hprpat
  have hprk : k ≤ pi pr := (hpv pr).mp hpre.2
  obtain ⟨hp', hr', hrk', hpi1, hpi2, hpik⟩ := newPerm hp hk hprn hprk
  obtain ⟨w1, w2, hrperm'⟩ := h.rperm.upd2 (i := k) (j := pi pr) (u := pr) (w := r k) hk
    (hp.plt pr hprn) (g := newR r pi k pr) (fun t _ => rfl)
  obtain ⟨w3, w4, hpinv'⟩ := h.pinv.upd2 (i := pr) (j := r k) (u := k) (w := pi pr) hprn
    (hp.rlt k hk) (g := newPi r pi k pr) (fun t _ => rfl)
  have bp := get_bounds (h.pivs pr hprn)
  have brho : (k : Int) < (s.rhos.length : Int) := by rw [h.rhoLen]; omega
  have hz := zinit_eq bk0 brho (h.rhoNone _ (le_refl _))
  have brho' : (k : Int) < ((upd s.rhos (k : Int) (0 : Int)).length : Int) := by
    rw [length_upd]; exact brho
  have hval := hT.val pr hprpat
  simp only [rd_eq (h.pinv pr hprn), rd_eq (h.rperm k hk), ok_bind, w1, w2, w3, w4,
    wr_eq bp.1 bp.2, rd_eq hval, hz, zset_eq (get_upd_self bk0 brho (0 : Int)), pure_bind']
  generalize hpi'def : newPi r pi k pr = pi' at *
  generalize hr'def : newR r pi k pr = r' at *
  -- populate
  obtain ⟨L3, U3, epop, aL, aU⟩ := populate_spec (k := k) (pi := pi') (v := v) htop hT.seg
    (fun i hi => hpinv' i (hT.lt i hi)) hT.val capL2.nz0 capU2.nz0
    (by rw [capL2.leni]; omega) (by rw [capL2.lenx]; omega)
    (by rw [capU2.leni]; omega) (by rw [capU2.lenx]; omega) capL2.fresh capU2.fresh
  have epop' : (forRange t.top (n : Int) (s.lnz, s.unz, L2, U2) fun j st =>
      popStep t.xi (upd (upd s.pinv (pr : Int) (k : Int)) ((r k : ℕ) : Int) ((pi pr : ℕ) : Int))
        t.x (k : Int) j st) = _ := epop
  refine wp_bind_ok (P := fun a => a = _) (wp_of_ok epop' rfl) ?_
  rintro _ rfl
  simp only [wp_pure]
  -- facts about the new permutation
  have hlevr : ∀ t ≤ k, ∀ (w : ℕ → ℤ) i, lev A r' c t w i = lev A r c t w i := fun t ht w i =>
    lev_congr A r c t w i (fun x hx => hr' x (by omega)) (fun _ _ => rfl)
  have hpivr : ∀ t ≤ k, piv A r' c t = piv A r c t := fun t ht =>
    piv_congr A r c t (fun x hx y _ => by rw [hr' x (by omega)])
  have hlt_iff : ∀ i < n, pi' i < k ↔ pi i < k := by
    intro i hi
    constructor
    · intro hlt; by_contra hcon; have := hpi2 i hi (by omega); omega
    · intro hlt; rw [hpi1 i hi hlt]; exact hlt
  have hle_iff : ∀ i < n, pi' i ≤ k ↔ (pi i < k ∨ i = pr) := by
    intro i hi
    constructor
    · intro hle
      rcases Nat.lt_or_ge (pi' i) k with hlt | hge
      · exact Or.inl ((hlt_iff i hi).mp hlt)
      · exact Or.inr ((hpik i hi).mp (by omega))
    · rintro (hlt | rfl)
      · rw [hpi1 i hi hlt]; omega
      · exact le_of_eq ((hpik i hi).mpr rfl)
  have hge_iff : ∀ i < n, k ≤ pi' i ↔ k ≤ pi i := by
    intro i hi; have := hlt_iff i hi; omega
  have hpivk : piv A r' c (k + 1) = v pr := by
    rw [piv_succ, hrk', hlevr k (le_refl _), hva pr hprk]
  refine ⟨?_, aL.nzmax.trans nzL, aU.nzmax.trans nzU, fun m hm => (aL.oldi m hm).trans (oldLi m hm), aL.segi,
    fun m hm => (aU.oldi m hm).trans (oldUi m hm), aU.segi⟩
  obtain ⟨lU, elU⟩ := filter_last hT.sorted hprpat hprk (pi' := pi')
    (fun i hi => hle_iff i (hT.lt i hi))
  refine
    { perm := hp', pinv := hpinv', pinvLen := ?_, rperm := hrperm', pivs := ?_, rho := ?_,
      rhoLen := ?_, rhoNone := ?_, L := ?_, lnz := ?_, capL := ?_, U := ?_, unz := ?_, capU := ?_,
      xi := ?_, h := ?_, x := ?_, pol := ?_ }
  · simp [h.pinvLen]
  · intro i hi
    show get (upd s.pivs (pr : Int) 1) i = _
    rw [get_upd bp.1 bp.2]
    by_cases e : i = pr
    · subst e
      rw [if_pos rfl, if_pos]
      have := (hpik i hi).mpr rfl
      omega
    · rw [if_neg (by omega), h.pivs i hi]
      have h1 := hle_iff i hi
      have : pi' i < k + 1 ↔ pi i < k := by
        constructor
        · intro hh
          rcases h1.mp (by omega) with h | h
          · exact h
          · exact absurd h e
        · intro hh; have := h1.mpr (Or.inl hh); omega
      simp only [this]
  · -- rhos
    refine ⟨?_, ?_⟩
    · intro t ht
      show get (upd (upd s.rhos (k : Int) 0) (k : Int) _) t = _
      rw [get_upd bk0 brho', get_upd bk0 brho]
      by_cases e : t = k
      · subst e; rw [if_pos rfl, hpivk]
      · rw [if_neg (by omega), if_neg (by omega), h.rho.val t (by omega), hpivr (t + 1) (by omega)]
    · intro t ht
      rcases Nat.lt_or_ge t (k + 1) with hlt | hge
      · rw [hpivr t (by omega)]; exact h.rho.ne t (by omega)
      · have : t = k + 1 := by omega
        subst this
        rw [hpivk]; exact hpre.1
  · simp [h.rhoLen]
  · intro t ht
    show get (upd (upd s.rhos (k : Int) 0) (k : Int) _) t = _
    rw [get_upd bk0 brho', get_upd bk0 brho, if_neg (by omega), if_neg (by omega)]
    exact h.rhoNone t (by omega)
  · -- L
    rw [LOk_iff]
    have hext := (LOk_iff.mp hL2ok).extend (Mi' := L3.i) (Mx' := L3.x)
      (S' := fun t i => t ≤ pi' i) (val' := fun t i => lev A r' c t (fun i => A i (c t)) i)
      (l := pat.filter (fun i => k ≤ pi' i)) (v := v) hk capL2.plen
      (fun t ht i hi => by
        have h1 := hge_iff i hi
        by_cases hlt : pi i < k
        · rw [hpi1 i hi hlt]
        · omega)
      (fun t ht i hi _ => by exact hlevr t (by omega) _ i)
      (fun m hm => aL.oldi m (by rw [← h.lnz]; exact hm))
      (fun m hm => aL.oldx m (by rw [← h.lnz]; exact hm))
      (hpatnd.filter _)
      (fun i hi => by
        simp only [List.mem_filter, decide_eq_true_eq] at hi
        have hin := hT.lt i hi.1
        refine ⟨hin, hi.2, ?_⟩
        rw [hlevr k (le_refl _)]
        exact hva i ((hge_iff i hin).mp hi.2))
      (by rw [h.lnz]; exact aL.segi) (by rw [h.lnz]; exact aL.segx)
      (fun i hi hki hne => by
        simp only [List.mem_filter, decide_eq_true_eq]
        rw [hlevr k (le_refl _)] at hne
        exact ⟨hpatmem i hi hne, hki⟩)
    have e2 : ((k + 1 : ℕ) : Int) = (k : Int) + 1 := by omega
    show ColOk n (k + 1) _ _ _ (upd L3.p ((k + 1 : ℕ) : Int) _) L3.i L3.x
    rw [aL.p, e2, ← h.lnz]
    exact hext
  · rw [Function.update_self, h.lnz]
  · exact aL.cap capL2 roomL ((List.length_filter_le _ _).trans hpatlen)
  · -- U
    refine ⟨?_, ?_⟩
    · have hext := hU2ok.extend (Mi' := U3.i) (Mx' := U3.x)
        (S' := fun t i => pi' i ≤ t)
        (val' := fun t i => lev A r' c (pi' i) (fun i => A i (c t)) i)
        (l := pat.filter (fun i => pi' i ≤ k)) (v := v) hk capU2.plen
        (fun t ht i hi => by
          have h1 := hge_iff i hi
          by_cases hlt : pi i < k
          · rw [hpi1 i hi hlt]
          · omega)
        (fun t ht i hi hS => by
          have hlt : pi i < k := by omega
          rw [hpi1 i hi hlt]
          exact hlevr _ (by omega) _ i)
        (fun m hm => aU.oldi m (by rw [← h.unz]; exact hm))
        (fun m hm => aU.oldx m (by rw [← h.unz]; exact hm))
        (hpatnd.filter _)
        (fun i hi => by
          simp only [List.mem_filter, decide_eq_true_eq] at hi
          have hin := hT.lt i hi.1
          refine ⟨hin, hi.2, ?_⟩
          rw [hlevr (pi' i) hi.2]
          rcases (hle_iff i hin).mp hi.2 with hlt | rfl
          · simp only [v]
            rw [Nat.min_eq_right (by omega), hpi1 i hin hlt]
          · rw [(hpik i hin).mpr rfl]; exact hva i hprk)
        (by rw [h.unz]; exact aU.segi) (by rw [h.unz]; exact aU.segx)
        (fun i hi hki hne => by
          simp only [List.mem_filter, decide_eq_true_eq]
          refine ⟨?_, hki⟩
          rw [hlevr (pi' i) hki] at hne
          rcases (hle_iff i hi).mp hki with hlt | rfl
          · by_contra hcon
            have h0 := hT.zero i hi hcon
            rw [Nat.min_eq_right (by omega)] at h0
            rw [hpi1 i hi hlt] at hne
            exact hne h0
          · exact hprpat)
      have e2 : ((k + 1 : ℕ) : Int) = (k : Int) + 1 := by omega
      show ColOk n (k + 1) _ _ _ (upd U3.p ((k + 1 : ℕ) : Int) _) U3.i U3.x
      rw [aU.p, e2, ← h.unz]
      exact hext
    · intro t ht
      rcases Nat.lt_or_ge t k with hlt | hge
      · rw [Function.update_of_ne (by omega), Function.update_of_ne (by omega), hr' t hlt]
        obtain ⟨q1, q2⟩ := h.U.2 t hlt
        refine ⟨q1, ?_⟩
        have hb : up (t + 1) - 1 < s.unz := by
          have := h.U.1.le (t + 1) k (by omega) (le_refl _)
          rw [h.unz] at this; omega
        rw [aU.oldi _ hb, oldUi _ hb]
        exact q2
      · have : t = k := by omega
        subst this
        rw [Function.update_of_ne (by omega), Function.update_self, elU, hrk']
        have hsg := aU.segi lU.length (by rw [elU]; simp)
        simp only [elU] at hsg
        simp only [List.length_append, List.length_singleton]
        refine ⟨by push_cast; omega, ?_⟩
        have e : up t + ((lU.length + 1 : ℕ) : ℤ) - 1 = s.unz + lU.length := by
          rw [h.unz]; push_cast; ring
        rw [e]
        simpa using hsg
  · rw [Function.update_self, h.unz]
  · exact aU.cap capU2 roomU ((List.length_filter_le _ _).trans hpatlen)
  · exact hT.lenXi
  · rw [← h.h]; exact hT.lenH
  · exact hT.defd
  · -- policy
    intro t ht
    rcases Nat.lt_or_ge t k with hlt | hge
    · have := h.pol t hlt
      have e : (fun i => lev A r' c t (fun i => A i (c t)) i) =
          (fun i => lev A r c t (fun i => A i (c t)) i) := by
        funext i; exact hlevr t (by omega) _ i
      rw [e, hr' t hlt]; exact this
    · have : t = k := by omega
      subst this
      have e : (fun i => lev A r' c t (fun i => A i (c t)) i) = a := by
        funext i; exact hlevr t (by omega) _ i
      rw [e, hrk']
      exact Policy.toPolOk hE (fun j hj => (hva j ((hpv j).mp hj.2)).symm) hck hpatmem hT.lt
        hprpat hpre hpol

theorem factStep_spec {nc : Int → Int → ℚ → Bool} {order : Pivot} {tol : ℚ} {n k : ℕ}
    {r pi : ℕ → ℕ} {lp up ap : ℕ → ℤ} {M : Csc} {q : Arr Int} {s : FactSt}
    (hA : AOk n A ap M) (hMn : M.n = n) (hq : IsFn n q c) (hc : ∀ t < n, c t < n)
    (hcinj : ∀ t < n, ∀ u < n, c t = c u → t = u) (hk : k < n)
    (h : FInv order tol A c n k r pi lp up s) :
    wp (factStep nc order (.fin tol) M q (k : Int) s)
      (fun s' => ∃ r' pi' lp' up', FInv order tol A c n (k + 1) r' pi' lp' up' s')
      (fun e => e = .ret .singular ∧ (toMat A n).det = 0) := by
  obtain ⟨t, pat, Li, -, -, -, -, hw⟩ := factStep_detail (nc := nc) hA hMn hq hc hcinj hk h
  refine wp_mono hw ?_ ?_
  · rintro s' ⟨pr, -, -, -, hs, -⟩
    exact ⟨_, _, _, _, hs⟩
  · rintro e ⟨h1, h2, -⟩
    exact ⟨h1, h2⟩

end Slip
