import Verif.Proof.Bridge
import Verif.Proof.Workspace

/-!
# Two factorizations of the same matrix, stored differently

Two runs on objects that store the same entries in the same columns (in any order), with the same
column order and any estimates, go through the same states, up to the workspaces and the sizes of the
arrays of L and U.
-/

namespace Slip

/-! ## The pivot search looks at the pattern only -/

section
variable {n : ℕ} {x pivs xi x' pivs' xi' : Arr Int} {top : Int} {pat : List ℕ} {v pv : ℕ → ℤ}

theorem smallestInit_congr (h : PivIn n x pivs xi top pat v pv) (h' : PivIn n x' pivs' xi' top pat v pv) :
    ∀ (m t : ℕ), t + m = pat.length →
      smallestInit x pivs xi m (top + t) = smallestInit x' pivs' xi' m (top + t)
  | 0, _, _ => rfl
  | m + 1, t, ht => by
    unfold smallestInit
    rw [h.rdxi t (by omega), h'.rdxi t (by omega), ok_bind, ok_bind, h.rdx t (by omega),
      h'.rdx t (by omega), ok_bind, ok_bind, h.rdpv t (by omega), h'.rdpv t (by omega), ok_bind, ok_bind]
    have := smallestInit_congr h h' m (t + 1) (by omega)
    rw [show top + ((t + 1 : ℕ) : Int) = top + t + 1 by push_cast; ring] at this
    rw [this]

theorem nonzeroLoop_congr (h : PivIn n x pivs xi top pat v pv) (h' : PivIn n x' pivs' xi' top pat v pv) :
    ∀ (m t : ℕ), t + m = pat.length →
      nonzeroLoop x pivs xi m (top + t) = nonzeroLoop x' pivs' xi' m (top + t)
  | 0, _, _ => rfl
  | m + 1, t, ht => by
    unfold nonzeroLoop
    rw [h.rdxi t (by omega), h'.rdxi t (by omega), ok_bind, ok_bind, h.rdx t (by omega),
      h'.rdx t (by omega), ok_bind, ok_bind, h.rdpv t (by omega), h'.rdpv t (by omega), ok_bind, ok_bind]
    have := nonzeroLoop_congr h h' m (t + 1) (by omega)
    rw [show top + ((t + 1 : ℕ) : Int) = top + t + 1 by push_cast; ring] at this
    rw [this]

theorem forCnt_eq {σ : Type} {f g : Int → σ → C σ} : ∀ (m : ℕ) (lo : Int) (s : σ),
    (∀ i s, lo ≤ i → i < lo + m → f i s = g i s) → forCnt m lo s f = forCnt m lo s g
  | 0, _, _, _ => rfl
  | m + 1, lo, s, h => by
    unfold forCnt
    rw [h lo s (le_refl _) (by omega)]
    congr 1
    funext s'
    exact forCnt_eq m (lo + 1) s' fun i s h1 h2 => h i s (by omega) (by omega)

theorem forRange_eq {σ : Type} {f g : Int → σ → C σ} {lo hi : Int} {s : σ}
    (h : ∀ i s, lo ≤ i → i < hi → f i s = g i s) : forRange lo hi s f = forRange lo hi s g :=
  forCnt_eq _ _ _ fun i s h1 h2 => h i s h1 (by omega)

/-- The three reads of one step of a search. -/
theorem PivIn.reads (h : PivIn n x pivs xi top pat v pv) {i : Int} (h0 : top ≤ i) (h1 : i < n) :
    ∃ w ∈ pat, rd xi i = .ok ((w : ℕ) : Int) ∧ rd x ((w : ℕ) : Int) = .ok (v w) ∧
      rd pivs ((w : ℕ) : Int) = .ok (pv w) ∧ ∀ hh : (i - top).toNat < pat.length, w = pat[(i - top).toNat] := by
  have := h.topn
  have e : top + ((i - top).toNat : Int) = i := by omega
  have hl : (i - top).toNat < pat.length := by omega
  have := h.rdxi (i - top).toNat hl
  rw [e] at this
  exact ⟨_, List.getElem_mem hl, this, h.rdx _ hl, h.rdpv _ hl, fun _ => rfl⟩

theorem smallest_congr (h : PivIn n x pivs xi top pat v pv) (h' : PivIn n x' pivs' xi' top pat v pv) :
    slip_get_smallest_pivot x pivs n top xi = slip_get_smallest_pivot x' pivs' n top xi' := by
  have ht := h.topn
  have e : ((n : Int) - top).toNat = pat.length := by omega
  have hc := smallestInit_congr h h' pat.length 0 (by omega)
  obtain ⟨o, ho, hpost⟩ := wp_noFail (by simpa using smallestInit_spec h pat.length 0 (by omega))
  simp only [Nat.cast_zero, add_zero] at hc
  unfold slip_get_smallest_pivot
  rw [if_pos h.top0, e, if_pos h.top0, ← hc, ho, ok_bind, ok_bind]
  have hj : top ≤ (o.getD ((n : Int), -1, 0)).1 := by
    rcases hpost with ⟨rfl, -⟩ | ⟨t', h1, rfl, -⟩
    · show top ≤ (n : Int); omega
    · show top ≤ top + (t' : Int); omega
  generalize hg : o.getD ((n : Int), -1, 0) = g at hj ⊢
  obtain ⟨j, p0, s0⟩ := g
  simp only at hj ⊢
  congr 1
  refine forRange_eq fun i s h0 h1 => ?_
  obtain ⟨p, sm⟩ := s
  obtain ⟨w, hw, r1, r2, r3, hh⟩ := h.reads (by omega) h1
  obtain ⟨w', hw', r1', r2', r3', hh'⟩ := h'.reads (by omega) h1
  have hl : (i - top).toNat < pat.length := by omega
  have : w = w' := by rw [hh hl, hh' hl]
  subst this
  simp only [r1, r1', r2, r2', r3, r3', ok_bind]

theorem largest_congr (h : PivIn n x pivs xi top pat v pv) (h' : PivIn n x' pivs' xi' top pat v pv) :
    slip_get_largest_pivot x pivs n top xi = slip_get_largest_pivot x' pivs' n top xi' := by
  have ht := h.topn
  unfold slip_get_largest_pivot
  congr 1
  refine forRange_eq fun i s h0 h1 => ?_
  obtain ⟨p, sm⟩ := s
  obtain ⟨w, hw, r1, r2, r3, hh⟩ := h.reads (by omega) h1
  obtain ⟨w', hw', r1', r2', r3', hh'⟩ := h'.reads (by omega) h1
  have hl : (i - top).toNat < pat.length := by omega
  have : w = w' := by rw [hh hl, hh' hl]
  subst this
  simp only [r1, r1', r2, r2', r3, r3', ok_bind]

theorem nonzero_congr (h : PivIn n x pivs xi top pat v pv) (h' : PivIn n x' pivs' xi' top pat v pv) :
    slip_get_nonzero_pivot x pivs n top xi = slip_get_nonzero_pivot x' pivs' n top xi' := by
  have ht := h.topn
  have e : ((n : Int) - top).toNat = pat.length := by omega
  have hc := nonzeroLoop_congr h h' pat.length 0 (by omega)
  simp only [Nat.cast_zero, add_zero] at hc
  unfold slip_get_nonzero_pivot
  rw [e]; exact hc

theorem choosePivot_congr (nc : Int → Int → ℚ → Bool) (order : Pivot) (tol : Dbl) {d : ℕ}
    (h : PivIn n x pivs xi top pat v pv) (h' : PivIn n x' pivs' xi' top pat v pv)
    (hx : get x (d : Int) = some (v d)) (hx' : get x' (d : Int) = some (v d))
    (hp : get pivs (d : Int) = some (pv d)) (hp' : get pivs' (d : Int) = some (pv d)) :
    choosePivot nc order tol x pivs n top xi d = choosePivot nc order tol x' pivs' n top xi' d := by
  cases order with
  | smallest => exact smallest_congr h h'
  | largest => exact largest_congr h h'
  | firstNonzero => exact nonzero_congr h h'
  | diagonal =>
    simp only [choosePivot, rd_eq hx, rd_eq hx', rd_eq hp, rd_eq hp', ok_bind, smallest_congr h h']
  | tolSmallest =>
    simp only [choosePivot, rd_eq hx, rd_eq hx', rd_eq hp, rd_eq hp', ok_bind, ← smallest_congr h h']
    have hs := smallest_spec h
    cases hm : slip_get_smallest_pivot x pivs n top xi with
    | error e => rfl
    | ok p =>
      rw [hm, wp_ok] at hs
      obtain ⟨i, hi, rfl, -⟩ := hs
      simp only [ok_bind, rd_eq (h.x i hi), rd_eq (h'.x i hi)]
  | tolLargest =>
    simp only [choosePivot, rd_eq hx, rd_eq hx', rd_eq hp, rd_eq hp', ok_bind, ← largest_congr h h']
    have hs := largest_spec h
    cases hm : slip_get_largest_pivot x pivs n top xi with
    | error e => rfl
    | ok p =>
      rw [hm, wp_ok] at hs
      obtain ⟨i, hi, rfl, -⟩ := hs
      simp only [ok_bind, rd_eq (h.x i hi), rd_eq (h'.x i hi)]

end

/-! ## One column -/

variable {order : Pivot} {tol : ℚ} {A : ℕ → ℕ → ℤ} {c : ℕ → ℕ} {n k : ℕ}

/-- The states of the two runs before column `k`. -/
def Sim (order : Pivot) (tol : ℚ) (A : ℕ → ℕ → ℤ) (c : ℕ → ℕ) (n k : ℕ) (s s' : FactSt) : Prop :=
  ∃ r pi lp up, FInv order tol A c n k r pi lp up s ∧ FInv order tol A c n k r pi lp up s' ∧
    (∀ m, m < lp k → get s.L.i m = get s'.L.i m) ∧ (∀ m, m < up k → get s.U.i m = get s'.U.i m)

theorem IsFn.arr_eq {a b : Arr Int} {f : ℕ → ℕ} (ha : IsFn n a f) (hb : IsFn n b f)
    (la : a.length = n) (lb : b.length = n) : a = b := by
  refine arr_ext' (la.trans lb.symm) fun j h0 h1 => ?_
  obtain ⟨j, rfl⟩ := Int.eq_ofNat_of_zero_le h0
  rw [ha j (by omega), hb j (by omega)]

theorem edge_transfer {r pi : ℕ → ℕ} {lp up : ℕ → ℤ} {s s' : FactSt}
    (h : FInv order tol A c n k r pi lp up s) (h' : FInv order tol A c n k r pi lp up s')
    (hL : ∀ m, m < lp k → get s.L.i m = get s'.L.i m) {Li Li' : Arr Int}
    (hLi : ∀ m, m < s.lnz → get Li m = get s.L.i m) (hLi' : ∀ m, m < s'.lnz → get Li' m = get s'.L.i m)
    {i j : Int} (he : Edge (upd s.L.p (k : Int) s.lnz) Li s.pinv j i) :
    Edge (upd s'.L.p (k : Int) s'.lnz) Li' s'.pinv j i := by
  obtain ⟨w, a, b, p, g1, g2, g3, g4, g5, g6⟩ := he
  have hj := get_bounds g1
  rw [h.pinvLen] at hj
  obtain ⟨j, rfl⟩ := Int.eq_ofNat_of_zero_le hj.1
  rw [h.pinv j (by omega)] at g1
  have hw := Option.some.inj g1
  subst hw
  have hpj := h.perm.plt j (by omega)
  have e1 : ((pi j : ℕ) : Int) + 1 = ((pi j + 1 : ℕ) : Int) := by omega
  rw [e1] at g3
  have nn := h.L.lp_nonneg k (le_refl _)
  by_cases hlt : pi j < k
  · rw [h.L.ptr _ (by omega)] at g2
    rw [h.L.ptr _ (by omega)] at g3
    have ha := Option.some.inj g2
    have hb := Option.some.inj g3
    subst ha hb
    have hle := (LOk_iff.mp h.L).le (pi j + 1) k (by omega) (le_refl _)
    have e2 := h.lnz
    have e3 := h'.lnz
    refine ⟨_, _, _, p, h'.pinv j (by omega), h'.L.ptr _ (by omega), ?_, g4, g5, ?_⟩
    · rw [e1]; exact h'.L.ptr _ (by omega)
    · rw [hLi' p (by omega), ← hL p (by omega), ← hLi p (by omega)]; exact g6
  · exfalso
    rw [h.L.zero _ (by omega) (by omega)] at g3
    have hb := Option.some.inj g3
    have ha : 0 ≤ a := by
      by_cases e : pi j = k
      · rw [e, h.L.ptr k (le_refl _)] at g2
        have := Option.some.inj g2
        omega
      · rw [h.L.zero _ (by omega) (by omega)] at g2
        have := Option.some.inj g2
        omega
    omega

theorem pattern_eq {pi : ℕ → ℕ} {l l' : List ℕ} (h : l.Pairwise (fun i j => pi i < pi j))
    (h' : l'.Pairwise (fun i j => pi i < pi j)) (hm : ∀ i, i ∈ l ↔ i ∈ l') : l = l' := by
  have nd : l.Nodup := h.imp fun {a b} hab e => by subst e; omega
  have nd' : l'.Nodup := h'.imp fun {a b} hab e => by subst e; omega
  exact List.Perm.eq_of_pairwise (fun a b _ _ h1 h2 => by omega) h h'
    ((List.perm_ext_iff_of_nodup nd nd').mpr hm)

theorem TriPost.pivIn {r pi : ℕ → ℕ} {lp up : ℕ → ℤ} {s : FactSt} (h : FInv order tol A c n k r pi lp up s)
    {Lp : Arr Int} {t : TriOut} {pat : List ℕ} (hT : TriPost A r c n k pi Lp s.h s.x t pat) :
    PivIn n t.x s.pivs t.xi t.top pat (fun i => lev A r c (min k (pi i)) (fun i => A i (c k)) i)
      (fun i => if pi i < k then 1 else -1) := by
  have hnd : pat.Nodup := hT.sorted.imp (fun {a b} hab e => by subst e; omega)
  have hlen : pat.length ≤ n := by
    have h1 : pat.toFinset ⊆ Finset.range n := by
      intro i hi; simp only [List.mem_toFinset] at hi; simpa using hT.lt i hi
    have h2 := Finset.card_le_card h1
    rwa [List.toFinset_card_of_nodup hnd, Finset.card_range] at h2
  exact ⟨by rw [hT.top]; omega, by rw [hT.top]; ring, hT.seg, hT.val, fun i hi => h.pivs i (hT.lt i hi)⟩

theorem TriPost.diagVal {r pi : ℕ → ℕ} {h x Lp : Arr Int} {t : TriOut} {pat : List ℕ} (hck : c k < n)
    (hT : TriPost A r c n k pi Lp h x t pat) :
    get t.x (c k : Int) = some (lev A r c (min k (pi (c k))) (fun i => A i (c k)) (c k)) := by
  by_cases hd : c k ∈ pat
  · exact hT.val _ hd
  · rw [hT.diag hd, hT.zero (c k) hck hd]

theorem seg_eq {a b : Arr Int} {lo : Int} {l : List Int} (ha : Seg a lo l) (hb : Seg b lo l)
    {m : Int} (h0 : lo ≤ m) (h1 : m < lo + l.length) : get a m = get b m := by
  have e : lo + ((m - lo).toNat : Int) = m := by omega
  have h2 := ha (m - lo).toNat (by omega)
  have h3 := hb (m - lo).toNat (by omega)
  rw [e] at h2 h3
  rw [h2, h3]

theorem factStep_sim {nc : Int → Int → ℚ → Bool} {ap ap' : ℕ → ℤ} {M M' : Csc} {q q' : Arr Int}
    {s s' : FactSt} (hA : AOk n A ap M) (hA' : AOk n A ap' M') (hMn : M.n = n) (hMn' : M'.n = n)
    (hcol : ∀ j < n, ∀ i : Int, ColRow M.p M.i (j : Int) i ↔ ColRow M'.p M'.i (j : Int) i)
    (hq : IsFn n q c) (hq' : IsFn n q' c) (hc : ∀ t < n, c t < n)
    (hcinj : ∀ t < n, ∀ u < n, c t = c u → t = u) (hk : k < n) (hs : Sim order tol A c n k s s') :
    CRel (Sim order tol A c n (k + 1)) (factStep nc order (.fin tol) M q (k : Int) s)
      (factStep nc order (.fin tol) M' q' (k : Int) s') := by
  obtain ⟨r, pi, lp, up, h, h', hL, hU⟩ := hs
  have hck := hc k hk
  obtain ⟨t, pat, Li, hT, hLi, hmem, -, hw⟩ := factStep_detail (nc := nc) hA hMn hq hc hcinj hk h
  obtain ⟨t', pat', Li', hT', hLi', hmem', -, hw'⟩ := factStep_detail (nc := nc) hA' hMn' hq' hc hcinj hk h'
  have hpat : pat = pat' := by
    refine pattern_eq hT.sorted hT'.sorted fun i => ?_
    rw [hmem, hmem']
    constructor
    · rintro ⟨s0, g1, g2⟩
      exact ⟨s0, (hcol _ hck _).mp g1, g2.lift id (fun _ _ he => edge_transfer h h' hL hLi hLi' he)⟩
    · rintro ⟨s0, g1, g2⟩
      exact ⟨s0, (hcol _ hck _).mpr g1, g2.lift id (fun _ _ he =>
        edge_transfer h' h (fun m hm => (hL m hm).symm) hLi' hLi he)⟩
  subst hpat
  have htop : t.top = t'.top := by rw [hT.top, hT'.top]
  have hP := hT.pivIn h
  have hP' := hT'.pivIn h'
  rw [← htop] at hP'
  have hcp := choosePivot_congr nc order (.fin tol) hP hP' (hT.diagVal hck) (hT'.diagVal hck)
    (h.pivs _ hck) (h'.pivs _ hck)
  rw [← htop, ← hcp] at hw'
  have e1 := h.lnz
  have e2 := h'.lnz
  have e3 := h.unz
  have e4 := h'.unz
  cases hf : factStep nc order (.fin tol) M q (k : Int) s with
  | error e =>
    rw [hf, wp_error] at hw
    obtain ⟨rfl, -, hce⟩ := hw
    cases hf' : factStep nc order (.fin tol) M' q' (k : Int) s' with
    | error e' =>
      rw [hf', wp_error] at hw'
      obtain ⟨rfl, -⟩ := hw'
      rfl
    | ok s1' =>
      rw [hf', wp_ok] at hw'
      obtain ⟨pr', -, -, hc', -⟩ := hw'
      rw [hce] at hc'; cases hc'
  | ok s1 =>
    rw [hf, wp_ok] at hw
    obtain ⟨pr, -, -, hco, hF, -, -, lo, ls, uo, us⟩ := hw
    cases hf' : factStep nc order (.fin tol) M' q' (k : Int) s' with
    | error e' =>
      rw [hf', wp_error] at hw'
      obtain ⟨-, -, hce⟩ := hw'
      rw [hco] at hce; cases hce
    | ok s1' =>
      rw [hf', wp_ok] at hw'
      obtain ⟨pr', -, -, hc', hF', -, -, lo', ls', uo', us'⟩ := hw'
      rw [hco] at hc'
      have : pr = pr' := by have := Except.ok.inj hc'; omega
      subst this
      refine CRel.ok ⟨_, _, _, _, hF, hF', ?_, ?_⟩
      · intro m hm
        rw [Function.update_self] at hm
        by_cases hlt : m < lp k
        · rw [lo m (by omega), lo' m (by omega)]; exact hL m hlt
        · rw [← e1] at ls; rw [← e2] at ls'
          exact seg_eq ls ls' (by omega) (by simpa using hm)
      · intro m hm
        rw [Function.update_self] at hm
        by_cases hlt : m < up k
        · rw [uo m (by omega), uo' m (by omega)]; exact hU m hlt
        · rw [← e3] at us; rw [← e4] at us'
          exact seg_eq us us' (by omega) (by simpa using hm)

/-! ## The whole factorization -/

theorem FinCols.ext {S : ℕ → ℕ → Prop} {val : ℕ → ℕ → ℤ} {cp : ℕ → ℤ} {M M' : Csc}
    (h : FinCols n S val cp M) (h' : FinCols n S val cp M')
    (hi : ∀ m, 0 ≤ m → m < cp n → get M.i m = get M'.i m) : M = M' := by
  obtain ⟨m, nn, nz, p, i, x⟩ := M
  obtain ⟨m', nn', nz', p', i', x'⟩ := M'
  have f1 := h.mEq; have f1' := h'.mEq
  have f2 := h.nEq; have f2' := h'.nEq
  have f3 := h.nzmax; have f3' := h'.nzmax
  have f4 := h.plen; have f4' := h'.plen
  have f5 := h.leni; have f5' := h'.leni
  have f6 := h.lenx; have f6' := h'.lenx
  simp only at f1 f1' f2 f2' f3 f3' f4 f4' f5 f5' f6 f6' hi
  have e4 : p = p' := by
    refine arr_ext' (by omega) fun j h0 h1 => ?_
    obtain ⟨j, rfl⟩ := Int.eq_ofNat_of_zero_le h0
    have g1 := h.ptr j (by omega)
    have g2 := h'.ptr j (by omega)
    simp only at g1 g2
    rw [g1, g2]
  have e5 : i = i' := arr_ext' (by omega) fun j h0 h1 => hi j h0 (by omega)
  have e6 : x = x' := by
    refine arr_ext' (by omega) fun j h0 h1 => ?_
    obtain ⟨t, ht, h2, h3⟩ := find_col h.cp0 n j h0 (by omega)
    obtain ⟨s, -, -, g1, g2⟩ := h.ent t ht j h2 h3
    obtain ⟨s', -, -, g1', g2'⟩ := h'.ent t ht j h2 h3
    simp only at g1 g2 g1' g2'
    rw [hi j h0 (by omega), g1'] at g1
    have : s = s' := by have := Option.some.inj g1; omega
    subst this
    rw [g2, g2']
  subst e4 e5 e6
  rw [f1, f2, f3, f1', f2', f3']

/-- The end of the factorization, SLIP_LU_factorize.c lines 272-322, as in `factorize`. -/
def factFinish (n : Int) (s : FactSt) : C Factors := do
  let Lp ← wr s.L.p n s.lnz
  let Up ← wr s.U.p n s.unz
  let L ← slip_sparse_collapse { s.L with p := Lp }
  let U ← slip_sparse_collapse { s.U with p := Up }
  let L ← permuteRows L s.pinv s.lnz
  let U ← permuteRows U s.pinv s.unz
  pure { L := L, U := U, rhos := s.rhos, pinv := s.pinv }

theorem factFinish_spec {r pi : ℕ → ℕ} {lp up : ℕ → ℤ} {s : FactSt}
    (h : FInv order tol A c n n r pi lp up s) :
    ∃ F, factFinish n s = .ok F ∧ F.rhos = s.rhos ∧ F.pinv = s.pinv ∧
      FinCols n (fun t s => t ≤ s) (fun t s => lev A r c t (fun i => A i (c t)) (r s)) lp F.L ∧
      FinCols n (fun t s => s ≤ t) (fun t s => lev A r c s (fun i => A i (c t)) (r s)) up F.U ∧
      (∀ (m : ℤ) (i : ℕ), 0 ≤ m → m < lp n → i < n → get s.L.i m = some (i : Int) →
        get F.L.i m = some ((pi i : ℕ) : Int)) ∧
      (∀ (m : ℤ) (i : ℕ), 0 ≤ m → m < up n → i < n → get s.U.i m = some (i : Int) →
        get F.U.i m = some ((pi i : ℕ) : Int)) := by
  have bL : (n : Int) < (s.L.p.length : Int) := by rw [h.capL.plen]; omega
  have bU : (n : Int) < (s.U.p.length : Int) := by rw [h.capU.plen]; omega
  unfold factFinish
  rw [wr_eq (by omega) bL, ok_bind, wr_eq (by omega) bU, ok_bind]
  have capL1 : CapOk n { s.L with p := upd s.L.p (n : Int) s.lnz } s.lnz := by
    refine ⟨h.capL.mEq, h.capL.nEq, ?_, h.capL.nz0, h.capL.nzle, h.capL.nle, h.capL.leni,
      h.capL.lenx, h.capL.fresh⟩
    simp only [length_upd]; exact h.capL.plen
  have capU1 : CapOk n { s.U with p := upd s.U.p (n : Int) s.unz } s.unz := by
    refine ⟨h.capU.mEq, h.capU.nEq, ?_, h.capU.nz0, h.capU.nzle, h.capU.nle, h.capU.leni,
      h.capU.lenx, h.capU.fresh⟩
    simp only [length_upd]; exact h.capU.plen
  have hp := h.perm
  obtain ⟨L1, L2, eL1, eL2, fL, dL⟩ := finish_spec (S' := fun t s => t ≤ s)
    (val' := fun t s => lev A r c t (fun i => A i (c t)) (r s)) (LOk_iff.mp h.L) capL1 h.lnz hp
    h.pinv (fun t ht i hi => Iff.rfl) (fun t ht i hi _ => by rw [hp.rp i hi])
  obtain ⟨U1, U2, eU1, eU2, fU, dU⟩ := finish_spec (S' := fun t s => s ≤ t)
    (val' := fun t s => lev A r c s (fun i => A i (c t)) (r s)) h.U.1 capU1 h.unz hp
    h.pinv (fun t ht i hi => Iff.rfl) (fun t ht i hi _ => by rw [hp.rp i hi])
  rw [eL1, ok_bind, eU1, ok_bind, eL2, ok_bind, eU2, ok_bind]
  refine ⟨_, rfl, rfl, rfl, fL, fU, ?_, ?_⟩
  · intro m i h0 h1 hi hg
    exact dL m i h0 (by rw [← h.lnz]; exact h1) hi hg
  · intro m i h0 h1 hi hg
    exact dU m i h0 (by rw [← h.unz]; exact h1) hi hg

theorem cols_row {S : ℕ → ℕ → Prop} {val : ℕ → ℕ → ℤ} {cp : ℕ → ℤ} {Mp Mi Mx : Arr Int}
    (h : ColOk n n S val cp Mp Mi Mx) {m : ℤ} (h0 : 0 ≤ m) (h1 : m < cp n) :
    ∃ i : ℕ, i < n ∧ get Mi m = some (i : Int) := by
  obtain ⟨t, ht, h2, h3⟩ := find_col h.cp0 n m h0 h1
  obtain ⟨i, hi, -, hg, -⟩ := h.ent t ht m h2 h3
  exact ⟨i, hi, hg⟩

theorem factorize_stored {nc : Int → Int → ℚ → Bool} {ap ap' : ℕ → ℤ} {M M' : Csc} {q q' : Arr Int}
    {lnz unz lnz' unz' : ℤ} (hA : AOk n A ap M) (hA' : AOk n A ap' M') (hMn : M.n = n) (hMn' : M'.n = n)
    (hcol : ∀ j < n, ∀ i : Int, ColRow M.p M.i (j : Int) i ↔ ColRow M'.p M'.i (j : Int) i)
    (hq : IsFn n q c) (hq' : IsFn n q' c) (hc : ∀ t < n, c t < n)
    (hcinj : ∀ t < n, ∀ u < n, c t = c u → t = u) (hl : (n : ℤ) ≤ lnz) (hu : (n : ℤ) ≤ unz)
    (hl' : (n : ℤ) ≤ lnz') (hu' : (n : ℤ) ≤ unz') :
    CRel Eq (factorize nc order (.fin tol) M q lnz unz) (factorize nc order (.fin tol) M' q' lnz' unz') := by
  obtain ⟨s0, e0, h0⟩ := factInit_spec order tol A c hl hu
  obtain ⟨s0', e0', h0'⟩ := factInit_spec order tol A c hl' hu'
  have hrun : ∀ (M : Csc) (q : Arr Int) (lnz unz : Int) (s0 : FactSt), M.n = n →
      factInit n lnz unz = .ok s0 → factorize nc order (.fin tol) M q lnz unz =
      forRange 0 (n : Int) s0 (fun k s => factStep nc order (.fin tol) M q k s) >>= factFinish n := by
    intro M q lnz unz s0 hM e
    unfold factorize
    simp only [hM]
    rw [e, ok_bind]
    rfl
  rw [hrun M q lnz unz s0 hMn e0, hrun M' q' lnz' unz' s0' hMn' e0']
  have hloop : CRel (fun s s' => Sim order tol A c n n s s')
      (forRange 0 (n : Int) s0 (fun k s => factStep nc order (.fin tol) M q k s))
      (forRange 0 (n : Int) s0' (fun k s => factStep nc order (.fin tol) M' q' k s)) := by
    have := relForIdx (R := fun i s s' => 0 ≤ i ∧ Sim order tol A c n i.toNat s s') (hi := (n : Int))
      (f := fun k s => factStep nc order (.fin tol) M q k s)
      (g := fun k s => factStep nc order (.fin tol) M' q' k s)
      (by
        rintro i s s' hi ⟨hi0, hs⟩
        obtain ⟨i, rfl⟩ := Int.eq_ofNat_of_zero_le hi0
        have e : ((i : Int) + 1).toNat = i + 1 := by omega
        rw [e]
        exact (factStep_sim hA hA' hMn hMn' hcol hq hq' hc hcinj (by omega) hs).mono
          fun _ _ h => ⟨by omega, h⟩)
      n 0 s0 s0' (by omega)
      ⟨le_refl _, id, id, _, _, h0, h0', fun m hm => by rw [get_neg hm, get_neg hm],
        fun m hm => by rw [get_neg hm, get_neg hm]⟩
    have e : ((n : Int) - 0).toNat = n := by omega
    unfold forRange
    rw [e]
    exact this.mono fun _ _ h => by simpa using h.2
  refine hloop.bind ?_
  rintro s s' ⟨r, pi, lp, up, h, h', hL, hU⟩
  obtain ⟨F, eF, f1, f2, f3, f4, f5, f6⟩ := factFinish_spec h
  obtain ⟨F', eF', f1', f2', f3', f4', f5', f6'⟩ := factFinish_spec h'
  rw [eF, eF']
  refine CRel.ok ?_
  have eL : F.L = F'.L := by
    refine f3.ext f3' fun m h0 h1 => ?_
    obtain ⟨i, hi, hg⟩ := cols_row (LOk_iff.mp h.L) h0 h1
    rw [f5 m i h0 h1 hi hg, f5' m i h0 h1 hi (by rw [← hL m h1]; exact hg)]
  have eU : F.U = F'.U := by
    refine f4.ext f4' fun m h0 h1 => ?_
    obtain ⟨i, hi, hg⟩ := cols_row h.U.1 h0 h1
    rw [f6 m i h0 h1 hi hg, f6' m i h0 h1 hi (by rw [← hU m h1]; exact hg)]
  have ep : F.pinv = F'.pinv := by
    rw [f2, f2']; exact h.pinv.arr_eq h'.pinv h.pinvLen h'.pinvLen
  have er : F.rhos = F'.rhos := by
    rw [f1, f1']
    refine arr_ext' (by rw [h.rhoLen, h'.rhoLen]) fun j h0 _ => ?_
    obtain ⟨j, rfl⟩ := Int.eq_ofNat_of_zero_le h0
    by_cases hj : j < n
    · rw [h.rho.val j hj, h'.rho.val j hj]
    · rw [h.rhoNone _ (by omega), h'.rhoNone _ (by omega)]
  obtain ⟨a, b, d, e⟩ := F
  obtain ⟨a', b', d', e'⟩ := F'
  simp only at eL eU ep er
  rw [eL, eU, ep, er]

end Slip
