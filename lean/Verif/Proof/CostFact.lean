import Verif.Proof.Factorize

/-! # The work of the factorization -/

namespace Slip

open Finset

variable {A : ℕ → ℕ → ℤ} {c : ℕ → ℕ}

/-- The number of entries of column `t`. -/
def colLen (lp : ℕ → ℤ) (t : ℕ) : ℕ := (lp (t + 1) - lp t).toNat

/-- The sum, over the entries of `U` stored so far, of the lengths of the columns of `L` of their rows. -/
def uWork (lp : ℕ → ℤ) (pi : ℕ → ℕ) (Ui : Arr Int) (unz : ℤ) : ℕ :=
  ∑ m ∈ range unz.toNat, colLen lp (pi ((get Ui (m : Int)).getD 0).toNat)

theorem sum_seg {a : Arr Int} {f : ℕ → ℕ} : ∀ (l : List ℕ) (lo : Int), Seg a lo (l.map fun i : ℕ => (i : Int)) →
    ∑ m ∈ range l.length, f ((get a (lo + m)).getD 0).toNat = (l.map f).sum
  | [], lo, _ => by simp
  | v :: l, lo, hs => by
    rw [List.length_cons, sum_range_succ']
    have h0 := hs.head
    have ih := sum_seg (f := f) l (lo + 1) hs.tail
    simp only [Nat.cast_zero, add_zero, h0, Option.getD_some, Int.toNat_natCast, List.map_cons, List.sum_cons]
    rw [← ih, add_comm]
    congr 1
    refine sum_congr rfl fun m _ => ?_
    rw [show lo + ((m + 1 : ℕ) : Int) = lo + 1 + (m : Int) by omega]

theorem filter_length_add (l : List ℕ) (p : ℕ → ℕ) (k : ℕ) (h : ∃ i ∈ l, p i = k) :
    l.length + 1 ≤ (l.filter fun i => k ≤ p i).length + (l.filter fun i => p i ≤ k).length := by
  induction l with
  | nil => obtain ⟨i, hi, -⟩ := h; simp at hi
  | cons a l ih =>
    by_cases ha : p a = k
    · have : ∀ l : List ℕ, l.length ≤ (l.filter fun i => k ≤ p i).length + (l.filter fun i => p i ≤ k).length := by
        intro l
        induction l with
        | nil => simp
        | cons b l ih =>
          simp only [List.filter_cons, List.length_cons]
          rcases le_total k (p b) with h | h
          · simp only [h, decide_true, if_true, List.length_cons]
            split <;> simp <;> omega
          · simp only [h, decide_true, if_true, List.length_cons]
            split <;> simp <;> omega
      have := this l
      simp only [List.filter_cons, List.length_cons, ha, le_refl, decide_true, if_true]
      omega
    · obtain ⟨i, hi, hk⟩ := h
      have hi : i ∈ l := by
        rcases List.mem_cons.1 hi with rfl | hi
        · exact absurd hk ha
        · exact hi
      have := ih ⟨i, hi, hk⟩
      simp only [List.filter_cons, List.length_cons]
      rcases le_total k (p a) with h | h
      · have h2 : ¬ p a ≤ k := by omega
        simp only [h, h2, decide_true, decide_false, if_true, Bool.false_eq_true, if_false, List.length_cons]
        omega
      · have h2 : ¬ k ≤ p a := by omega
        simp only [h, h2, decide_true, decide_false, if_true, Bool.false_eq_true, if_false, List.length_cons]
        omega

theorem sum_filter_ge {l : List ℕ} {d g : ℕ → ℕ} {p : ℕ → ℕ} {k b : ℕ}
    (h1 : ∀ i ∈ l, p i < k → d i ≤ g i) (h2 : ∀ i ∈ l, k ≤ p i → d i = 0)
    (h3 : ∃ i ∈ l, p i = k ∧ b ≤ g i) :
    (l.map d).sum + b ≤ ((l.filter fun i => p i ≤ k).map g).sum := by
  have base : ∀ l : List ℕ, (∀ i ∈ l, p i < k → d i ≤ g i) → (∀ i ∈ l, k ≤ p i → d i = 0) →
      (l.map d).sum ≤ ((l.filter fun i => p i ≤ k).map g).sum := by
    intro l
    induction l with
    | nil => simp
    | cons a l ih =>
      intro h1 h2
      have ih := ih (fun i hi => h1 i (by simp [hi])) (fun i hi => h2 i (by simp [hi]))
      have a1 := h1 a (by simp)
      have a2 := h2 a (by simp)
      simp only [List.filter_cons, List.map_cons, List.sum_cons]
      split
      · rename_i h
        simp only [decide_eq_true_eq] at h
        simp only [List.map_cons, List.sum_cons]
        rcases lt_or_eq_of_le h with h | h
        · have := a1 h; omega
        · have := a2 (by omega); omega
      · rename_i h
        simp only [decide_eq_true_eq] at h
        have := a2 (by omega); omega
  induction l with
  | nil => obtain ⟨i, hi, -⟩ := h3; simp at hi
  | cons a l ih =>
    have b1 : ∀ i ∈ l, p i < k → d i ≤ g i := fun i hi => h1 i (by simp [hi])
    have b2 : ∀ i ∈ l, k ≤ p i → d i = 0 := fun i hi => h2 i (by simp [hi])
    have a1 := h1 a (by simp)
    have a2 := h2 a (by simp)
    obtain ⟨i, hi, hk, hb⟩ := h3
    simp only [List.filter_cons, List.map_cons, List.sum_cons]
    rcases List.mem_cons.1 hi with rfl | hi
    · have := base l b1 b2
      have := a2 (by omega)
      simp only [hk, le_refl, decide_true, if_true, List.map_cons, List.sum_cons]
      omega
    · have ih := ih b1 b2 ⟨i, hi, hk, hb⟩
      split
      · rename_i h
        simp only [decide_eq_true_eq] at h
        simp only [List.map_cons, List.sum_cons]
        rcases lt_or_eq_of_le h with h | h
        · have := a1 h; omega
        · have := a2 (by omega); omega
      · rename_i h
        simp only [decide_eq_true_eq] at h
        have := a2 (by omega); omega

theorem LOk.colLen_le {r : ℕ → ℕ} {n k : ℕ} {pi : ℕ → ℕ} {lp : ℕ → ℤ} {Lp Li Lx : Arr Int}
    (h : LOk A r c n k pi lp Lp Li Lx) (hp : PermPair n pi r) {t : ℕ} (ht : t < k) : colLen lp t ≤ n - t := by
  have hmono := h.mono t ht
  have key : ∀ m : ℕ, m < colLen lp t → ∃ i : ℕ, i < n ∧ t ≤ pi i ∧ get Li (lp t + m) = some (i : Int) := by
    intro m hm
    unfold colLen at hm
    obtain ⟨i, hi, h1, h2, -⟩ := h.ent t ht (lp t + m) (by omega) (by omega)
    exact ⟨i, hi, h1, h2⟩
  choose! f hf1 hf2 hf3 using key
  have hcard : (range (colLen lp t)).card ≤ (Ico t n).card := by
    refine card_le_card_of_injOn (fun m => pi (f m)) ?_ ?_
    · intro m hm
      have hm := mem_range.1 hm
      simp only [coe_Ico, Set.mem_Ico]
      exact ⟨hf2 m hm, hp.plt _ (hf1 m hm)⟩
    · intro m hm m' hm' e
      have hm := mem_range.1 hm
      have hm' := mem_range.1 hm'
      have e2 : f m = f m' := by
        have := congrArg r e
        simp only at this
        rwa [hp.rp _ (hf1 m hm), hp.rp _ (hf1 m' hm')] at this
      unfold colLen at hm hm'
      have := h.inj t ht (lp t + m) (lp t + m') (by omega) (by omega) (by omega) (by omega)
        (by rw [hf3 m hm, hf3 m' hm', e2])
      omega
  rwa [card_range, Nat.card_Ico] at hcard

theorem ColOk.colLen_le {n k : ℕ} {S : ℕ → ℕ → Prop} {val : ℕ → ℕ → ℤ} {cp : ℕ → ℤ} {Mp Mi Mx : Arr Int}
    (h : ColOk n k S val cp Mp Mi Mx) {t : ℕ} (ht : t < k) : colLen cp t ≤ n := by
  have hmono := h.mono t ht
  have key : ∀ m : ℕ, m < colLen cp t → ∃ i : ℕ, i < n ∧ get Mi (cp t + m) = some (i : Int) := by
    intro m hm
    unfold colLen at hm
    obtain ⟨i, hi, -, h2, -⟩ := h.ent t ht (cp t + m) (by omega) (by omega)
    exact ⟨i, hi, h2⟩
  choose! f hf1 hf3 using key
  have hcard : (range (colLen cp t)).card ≤ (range n).card := by
    refine card_le_card_of_injOn f ?_ ?_
    · intro m hm
      have hm := mem_range.1 hm
      simp only [coe_range, Set.mem_Iio]
      exact hf1 m hm
    · intro m hm m' hm' e
      have hm := mem_range.1 hm
      have hm' := mem_range.1 hm'
      unfold colLen at hm hm'
      have := h.inj t ht (cp t + m) (cp t + m') (by omega) (by omega) (by omega) (by omega)
        (by rw [hf3 m hm, hf3 m' hm', e])
      omega
  rwa [card_range, card_range] at hcard

theorem ColOk.nnz_le {n k : ℕ} {S : ℕ → ℕ → Prop} {val : ℕ → ℕ → ℤ} {cp : ℕ → ℤ} {Mp Mi Mx : Arr Int}
    (h : ColOk n k S val cp Mp Mi Mx) : ∀ t ≤ k, cp t ≤ ((n * t : ℕ) : ℤ) := by
  intro t
  induction t with
  | zero => intro _; rw [h.cp0]; simp
  | succ t ih =>
    intro ht
    have h1 := ih (by omega)
    have h2 := h.colLen_le (t := t) (by omega)
    unfold colLen at h2
    rw [Nat.mul_succ]
    omega

/-- The largest possible number of entries in the columns of `L` that are used for column `k`. -/
def triSum (n k : ℕ) : ℕ := ∑ t ∈ range k, (n - t)

theorem factStep_cost {nc : Int → Int → ℚ → Bool} {order : Pivot} {tol : ℚ} {n k : ℕ}
    {r pi : ℕ → ℕ} {lp up ap : ℕ → ℤ} {M : Csc} {q : Arr Int} {s : FactSt}
    (hA : AOk n A ap M) (hMn : M.n = n) (hq : IsFn n q c) (hc : ∀ t < n, c t < n)
    (hcinj : ∀ t < n, ∀ u < n, c t = c u → t = u) (hk : k < n)
    (h : FInv order tol A c n k r pi lp up s) :
    ∃ P D G, (∀ α β γ, Cnt (stepCost α β (ap (c k + 1) - ap (c k)).toNat P D + (β + 2 * γ) * G)
        (factStepT α β γ nc order (.fin tol) M q (k : Int) s) (factStep nc order (.fin tol) M q (k : Int) s)) ∧
      P ≤ n ∧ D ≤ triSum n k ∧
      (G : ℤ) + s.L.nzmax + s.U.nzmax ≤ max s.L.nzmax (2 * (n * n)) + max s.U.nzmax (2 * (n * n)) ∧
      wp (factStep nc order (.fin tol) M q (k : Int) s)
      (fun s' => ∃ r' pi' lp' up', FInv order tol A c n (k + 1) r' pi' lp' up' s' ∧
        (G : ℤ) + s.L.nzmax + s.U.nzmax = s'.L.nzmax + s'.U.nzmax ∧
        s'.L.nzmax ≤ max s.L.nzmax (2 * (n * n)) ∧ s'.U.nzmax ≤ max s.U.nzmax (2 * (n * n)) ∧
        s'.L.nzmax ≤ max s.L.nzmax (2 * (s.lnz + n)) ∧ s'.U.nzmax ≤ max s.U.nzmax (2 * (s.unz + n)) ∧
        s.lnz ≤ s'.lnz ∧ s.unz ≤ s'.unz ∧
        (P : ℤ) + 1 + s.lnz + s.unz ≤ s'.lnz + s'.unz ∧
        (D : ℤ) + uWork lp pi s.U.i s.unz + (s'.lnz - s.lnz) ≤ uWork lp' pi' s'.U.i s'.unz)
      (fun e => e = .ret .singular ∧ (toMat A n).det = 0) := by
  obtain ⟨t, pat, Li, hT, -, -, hcost, hw⟩ := factStep_detail (nc := nc) hA hMn hq hc hcinj hk h
  have hp := h.perm
  have hpatnd : pat.Nodup := hT.sorted.imp (fun {a b} hab e => by subst e; omega)
  have hdeg : ∀ i ∈ pat, degN (upd s.L.p (k : Int) s.lnz) s.pinv (i : Int) =
      if pi i < k then colLen lp (pi i) else 0 := by
    intro i hi
    have hin := hT.lt i hi
    have hpin := hp.plt i hin
    have e1 : ((pi i : ℕ) : Int) + 1 = ((pi i + 1 : ℕ) : Int) := by omega
    split
    · rename_i hlt
      exact degN_eq (h.pinv i hin) (h.L.ptr (pi i) (by omega)) (by rw [e1]; exact h.L.ptr (pi i + 1) (by omega))
    · rename_i hlt
      obtain ⟨a, ha, ha0⟩ : ∃ a, get (upd s.L.p (k : Int) s.lnz) ((pi i : ℕ) : Int) = some a ∧ 0 ≤ a := by
        by_cases e : pi i = k
        · exact ⟨_, h.L.ptr (pi i) (by omega), h.L.lp_nonneg _ (by omega)⟩
        · exact ⟨_, h.L.zero (pi i) (by omega) (by omega), le_refl _⟩
      rw [degN_eq (h.pinv i hin) ha (by rw [e1]; exact h.L.zero (pi i + 1) (by omega) (by omega))]
      omega
  have hD : degSum (upd s.L.p (k : Int) s.lnz) s.pinv (pat.map fun i : ℕ => (i : Int)) =
      (pat.map fun i => if pi i < k then colLen lp (pi i) else 0).sum := by
    unfold degSum
    rw [List.map_map]
    congr 1
    exact List.map_congr_left hdeg
  have hln := (LOk_iff.mp h.L).nnz_le k (le_refl _)
  have hun := h.U.1.nnz_le k (le_refl _)
  rw [h.lnz] at hln
  rw [h.unz] at hun
  push_cast at hln hun
  have hkn : (k : ℤ) * n + n ≤ n * n := by
    have : ((k + 1 : ℕ) : ℤ) * n ≤ n * n := mul_le_mul_of_nonneg_right (by omega) (by omega)
    push_cast at this
    linarith
  have cL := h.capL.nle
  have cU := h.capU.nle
  have grow : ∀ {nz cap : ℤ}, 0 ≤ cap → nz + n ≤ n * n → cap + growN nz n cap ≤ max cap (2 * (nz + n)) ∧
      cap + growN nz n cap ≤ max cap (2 * (n * n)) := by
    intro nz cap h0 h1
    unfold growN
    split <;> omega
  have gL := grow (nz := s.lnz) (cap := s.L.nzmax) (by omega) (by linarith)
  have gU := grow (nz := s.unz) (cap := s.U.nzmax) (by omega) (by linarith)
  refine ⟨pat.length, _, _, hcost, ?_, ?_, by push_cast; omega, wp_mono hw ?_ fun e he => ⟨he.1, he.2.1⟩⟩
  · have h1 : pat.toFinset ⊆ range n := by
      intro i hi; simp only [List.mem_toFinset] at hi; simpa using hT.lt i hi
    have h2 := card_le_card h1
    rwa [List.toFinset_card_of_nodup hpatnd, card_range] at h2
  · rw [hD, ← List.sum_toFinset _ hpatnd]
    unfold triSum
    have hinj : Set.InjOn pi (pat.toFinset : Set ℕ) := by
      intro i hi j hj e
      simp only [List.coe_toFinset, Set.mem_setOf_eq] at hi hj
      rw [← hp.rp i (hT.lt i hi), ← hp.rp j (hT.lt j hj), e]
    rw [← sum_image (g := pi) (f := fun u => if u < k then colLen lp u else 0) hinj, ← sum_filter]
    refine (sum_le_sum (g := fun u => n - u) fun u hu => h.L.colLen_le hp (mem_filter.1 hu).2).trans ?_
    exact sum_le_sum_of_subset fun u hu => mem_range.2 (mem_filter.1 hu).2
  · rintro s' ⟨pr, hprpat, hprk, -, hF, nzL, nzU, -, hL, hUo, hU⟩
    rw [nzL, nzU]
    refine ⟨_, _, _, _, hF, by push_cast; omega, gL.2, gU.2, gL.1, gU.1, ?_, ?_, ?_, ?_⟩
    all_goals
      obtain ⟨hp', -, -, hpi1, hpi2, hpik⟩ := newPerm hp hk (hT.lt pr hprpat) hprk
      have el := hF.lnz
      have eu := hF.unz
      rw [Function.update_self, h.lnz] at el
      rw [Function.update_self, h.unz] at eu
    · omega
    · omega
    · have := filter_length_add pat (newPi r pi k pr) k ⟨pr, hprpat, (hpik pr (hT.lt pr hprpat)).2 rfl⟩
      omega
    · have hunz0 := h.capU.nz0
      have e1 : s'.unz.toNat = s.unz.toNat + (pat.filter (fun i => newPi r pi k pr i ≤ k)).length := by omega
      rw [hD]
      have hold : ∑ m ∈ range s.unz.toNat, colLen (Function.update lp (k + 1)
            (lp k + (pat.filter (fun i => k ≤ newPi r pi k pr i)).length))
            (newPi r pi k pr ((get s'.U.i (m : Int)).getD 0).toNat) = uWork lp pi s.U.i s.unz := by
        refine sum_congr rfl fun m hm => ?_
        have hm := mem_range.1 hm
        obtain ⟨u, hu, hm1, hm2⟩ := find_col h.U.1.cp0 k (m : Int) (by omega) (by rw [h.unz]; omega)
        obtain ⟨i, hi, hiu, hget, -⟩ := h.U.1.ent u hu m hm1 hm2
        rw [hUo _ (by omega), hget]
        simp only [Option.getD_some, Int.toNat_natCast]
        rw [hpi1 i hi (by omega)]
        unfold colLen
        rw [Function.update_of_ne (by omega), Function.update_of_ne (by omega)]
      have hnew := sum_seg (f := fun i => colLen (Function.update lp (k + 1)
            (lp k + (pat.filter (fun i => k ≤ newPi r pi k pr i)).length)) (newPi r pi k pr i)) _ _ hU
      have hge := sum_filter_ge (l := pat) (p := newPi r pi k pr) (k := k)
        (d := fun i => if pi i < k then colLen lp (pi i) else 0)
        (g := fun i => colLen (Function.update lp (k + 1)
            (lp k + (pat.filter (fun i => k ≤ newPi r pi k pr i)).length)) (newPi r pi k pr i))
        (b := (pat.filter (fun i => k ≤ newPi r pi k pr i)).length) (fun i hi hlt => by
          have : pi i < k := by
            by_contra hcon
            have := hpi2 i (hT.lt i hi) (by omega)
            omega
          simp only [this, if_true]
          rw [hpi1 i (hT.lt i hi) this]
          unfold colLen
          rw [Function.update_of_ne (by omega), Function.update_of_ne (by omega)]) (fun i hi hge => by
          have : ¬ pi i < k := by
            intro hcon
            have := hpi1 i (hT.lt i hi) (by omega)
            omega
          simp only [this, if_false])
        ⟨pr, hprpat, (hpik pr (hT.lt pr hprpat)).2 rfl, by
          rw [(hpik pr (hT.lt pr hprpat)).2 rfl]
          unfold colLen
          rw [Function.update_self, Function.update_of_ne (by omega)]
          omega⟩
      unfold uWork at hold ⊢
      rw [e1, sum_range_add, hold]
      have hcongr : ∀ m ∈ range (pat.filter (fun i => newPi r pi k pr i ≤ k)).length,
          ((s.unz.toNat + m : ℕ) : Int) = s.unz + m := fun m _ => by omega
      have hnew' : ∑ m ∈ range (pat.filter (fun i => newPi r pi k pr i ≤ k)).length,
          colLen (Function.update lp (k + 1)
            (lp k + (pat.filter (fun i => k ≤ newPi r pi k pr i)).length))
            (newPi r pi k pr ((get s'.U.i ((s.unz.toNat + m : ℕ) : Int)).getD 0).toNat) =
          ((pat.filter (fun i => newPi r pi k pr i ≤ k)).map fun i => colLen (Function.update lp (k + 1)
            (lp k + (pat.filter (fun i => k ≤ newPi r pi k pr i)).length)) (newPi r pi k pr i)).sum := by
        rw [← hnew]
        exact sum_congr rfl fun m hm => by rw [hcongr m hm]
      rw [hnew']
      omega

/-- The work of `m` columns from column `k` on. -/
structure LoopCost (n : ℕ) (a : ℕ → ℕ) (s : FactSt) (k m ca cb cg : ℕ) : Prop where
  sto : (cg : ℤ) + s.L.nzmax + s.U.nzmax ≤ max s.L.nzmax (2 * (n * n)) + max s.U.nzmax (2 * (n * n))
  ops : ca ≤ ∑ j ∈ Ico k (k + m), (2 * n + 5 * triSum n j)
  its : cb ≤ ∑ j ∈ Ico k (k + m), (2 * a j + 2 * triSum n j + 13 * n + 1)

theorem factLoop_cost {nc : Int → Int → ℚ → Bool} {order : Pivot} {tol : ℚ} {n : ℕ}
    {ap : ℕ → ℤ} {M : Csc} {q : Arr Int}
    (hA : AOk n A ap M) (hMn : M.n = n) (hq : IsFn n q c) (hc : ∀ t < n, c t < n)
    (hcinj : ∀ t < n, ∀ u < n, c t = c u → t = u) :
    ∀ (m k : ℕ) (s : FactSt) (r pi : ℕ → ℕ) (lp up : ℕ → ℤ), FInv order tol A c n k r pi lp up s → k + m ≤ n →
    ∃ ca cb cg, LoopCost n (fun j => (ap (c j + 1) - ap (c j)).toNat) s k m ca cb cg ∧
      (∀ α β γ, Cnt (α * ca + β * cb + (β + 2 * γ) * cg)
        (forCntT β m (k : Int) s fun k s => factStepT α β γ nc order (.fin tol) M q k s)
        (forCnt m (k : Int) s fun k s => factStep nc order (.fin tol) M q k s)) ∧
      wp (forCnt m (k : Int) s fun k s => factStep nc order (.fin tol) M q k s)
        (fun s' => ∃ r' pi' lp' up', FInv order tol A c n (k + m) r' pi' lp' up' s' ∧
          ((cg : ℤ) + s.L.nzmax + s.U.nzmax = s'.L.nzmax + s'.U.nzmax ∧
          s'.L.nzmax ≤ max s.L.nzmax (2 * (s'.lnz + n)) ∧ s'.U.nzmax ≤ max s.U.nzmax (2 * (s'.unz + n)) ∧
          s.lnz ≤ s'.lnz ∧ s.unz ≤ s'.unz) ∧
          (ca : ℤ) + 2 * m + 3 * (s'.lnz - s.lnz) + 5 * uWork lp pi s.U.i s.unz ≤
            5 * uWork lp' pi' s'.U.i s'.unz + 2 * (s'.unz - s.unz) ∧
          (cb : ℤ) + 12 * m + 2 * uWork lp pi s.U.i s.unz ≤
            2 * (∑ j ∈ Ico k (k + m), (ap (c j + 1) - ap (c j)).toNat : ℕ) + 2 * uWork lp' pi' s'.U.i s'.unz +
            11 * (s'.lnz - s.lnz) + 13 * (s'.unz - s.unz))
        (fun e => e = .ret .singular ∧ (toMat A n).det = 0)
  | 0, k, s, r, pi, lp, up, h, hm =>
    ⟨0, 0, 0, ⟨by omega, by omega, by omega⟩, fun α β γ => (Cnt.pure s).mono (by omega), r, pi, lp, up, h, by
      refine ⟨⟨?_, ?_, ?_, ?_, ?_⟩, ?_, ?_⟩ <;> simp⟩
  | m + 1, k, s, r, pi, lp, up, h, hm => by
    obtain ⟨P, D, G, hcnt, hP, hD, hG, hw⟩ := factStep_cost (nc := nc) hA hMn hq hc hcinj (by omega) h
    have e1 : Ico k (k + (m + 1)) = insert k (Ico (k + 1) (k + 1 + m)) := by
      rw [Finset.insert_Ico_add_one_left_eq_Ico (by omega)]
      congr 1; omega
    have hnot : k ∉ Ico (k + 1) (k + 1 + m) := by simp
    cases hs : factStep nc order (.fin tol) M q (k : Int) s with
    | error e =>
      rw [hs] at hw
      refine ⟨2 * P + 5 * D, 2 * (ap (c k + 1) - ap (c k)).toNat + 2 * D + 13 * P + 1, G, ⟨hG, ?_, ?_⟩,
        fun α β γ => ?_, ?_⟩
      · rw [e1, sum_insert hnot]
        omega
      · rw [e1, sum_insert hnot]
        omega
      · unfold forCntT forCnt
        refine ((hcnt α β γ).bind (b2 := 0) fun a ha => ?_).tickBind.mono ?_
        · rw [hs] at ha; cases ha
        · unfold stepCost
          rw [Nat.mul_add β _ 1]
          omega
      · unfold forCnt
        beta_reduce
        rw [hs]
        exact hw
    | ok s1 =>
      rw [hs] at hw
      obtain ⟨r1, pi1, lp1, up1, h1, d1, d2, d3, d4, d5, d6, d7, g1, g2⟩ := hw
      obtain ⟨ca, cb, cg, hl, hcnt1, hw1⟩ := factLoop_cost hA hMn hq hc hcinj m (k + 1) s1 r1 pi1 lp1 up1 h1 (by omega)
      refine ⟨2 * P + 5 * D + ca, 2 * (ap (c k + 1) - ap (c k)).toNat + 2 * D + 13 * P + 1 + cb, G + cg,
        ⟨?_, ?_, ?_⟩, fun α β γ => ?_, ?_⟩
      · have := hl.sto
        push_cast
        omega
      · have := hl.ops
        rw [e1, sum_insert hnot]
        omega
      · have := hl.its
        rw [e1, sum_insert hnot]
        omega
      · unfold forCntT forCnt
        refine ((hcnt α β γ).bind (b2 := α * ca + β * cb + (β + 2 * γ) * cg) fun a ha => ?_).tickBind.mono ?_
        · rw [hs] at ha; cases ha
          exact_mod_cast hcnt1 α β γ
        · unfold stepCost
          rw [Nat.mul_add α _ ca, Nat.mul_add β _ cb, Nat.mul_add β _ 1, Nat.mul_add _ G cg]
          omega
      · unfold forCnt
        beta_reduce
        rw [hs, ok_bind]
        have e2 : k + (m + 1) = k + 1 + m := by omega
        refine wp_mono (by exact_mod_cast hw1) ?_ fun e he => he
        rintro s' ⟨r', pi', lp', up', h', ⟨b1, b2, b3, b4, b5⟩, a1, a2⟩
        refine ⟨r', pi', lp', up', by rw [e2]; exact h', ⟨by push_cast; omega, by omega, by omega, by omega, by omega⟩,
          ?_, ?_⟩
        · push_cast at a1 ⊢
          omega
        · rw [e1, sum_insert hnot]
          push_cast at a2 ⊢
          omega

/-- The length of column `t` of the matrix with column pointers `p`. -/
def ptrLen (p : Arr Int) (t : Int) : ℕ := ((get p (t + 1)).getD 0 - (get p t).getD 0).toNat

theorem factorize_cost {nc : Int → Int → ℚ → Bool} {order : Pivot} {tol : ℚ} {n : ℕ}
    {ap : ℕ → ℤ} {M : Csc} {q : Arr Int} {lnz unz : ℤ}
    (hA : AOk n A ap M) (hMn : M.n = n) (hq : IsFn n q c) (hc : ∀ t < n, c t < n)
    (hcinj : ∀ t < n, ∀ u < n, c t = c u → t = u) (hl : (n : ℤ) ≤ lnz) (hu : (n : ℤ) ≤ unz) :
    ∃ ca cb cg, (∀ α β γ, Cnt (α * ca + β * cb + γ * cg) (factorizeT α β γ nc order (.fin tol) M q lnz unz)
        (factorize nc order (.fin tol) M q lnz unz)) ∧
      ca ≤ ∑ j ∈ range n, (2 * n + 5 * triSum n j) ∧
      cb ≤ ∑ j ∈ range n, (2 * (ap (c j + 1) - ap (c j)).toNat + 2 * triSum n j + 13 * n + 1) +
        (2 * n + 6 * (n * n)) ∧
      cg ≤ (max lnz 1).toNat + (max unz 1).toNat + 8 * (n * n) ∧
      wp (factorize nc order (.fin tol) M q lnz unz)
        (fun F => ∃ nl nu w : ℕ, get F.L.p n = some (nl : ℤ) ∧ get F.U.p n = some (nu : ℤ) ∧
          w = ∑ m ∈ range nu, ptrLen F.L.p ((get F.U.i (m : Int)).getD 0) ∧
          ca + 2 * n + 3 * nl ≤ 5 * w + 2 * nu ∧
          cb + 6 * n ≤ 2 * ∑ j ∈ range n, (ap (c j + 1) - ap (c j)).toNat + 2 * w + 14 * nl + 16 * nu ∧
          cg ≤ (max lnz 1).toNat + (max unz 1).toNat + 4 * nl + 4 * nu + 8 * n)
        (fun e => e = .ret .singular ∧ (toMat A n).det = 0) := by
  obtain ⟨s0, e0, h0⟩ := factInit_spec order tol A c hl hu
  obtain ⟨ca, cb, cg, hlc, hcnt, hw⟩ := factLoop_cost (nc := nc) hA hMn hq hc hcinj n 0 s0 _ _ _ _ h0 (by omega)
  obtain ⟨hsto, hops, hits⟩ := hlc
  have cL := h0.capL.nle
  have cU := h0.capU.nle
  have hcg : cg ≤ 4 * (n * n) := by
    have : (cg : ℤ) ≤ ((4 * (n * n) : ℕ) : ℤ) := by
      push_cast
      have := Int.mul_nonneg (Int.natCast_nonneg n) (Int.natCast_nonneg n)
      omega
    exact_mod_cast this
  rw [Nat.zero_add, ← range_eq_Ico] at hops hits
  have hi := fun β γ => factInitT_cnt β γ (n : Int) lnz unz
  have hz0 : s0.lnz = 0 ∧ s0.unz = 0 := by
    have h1 := h0.lnz
    have h2 := h0.unz
    exact ⟨h1.symm, h2.symm⟩
  have huw : uWork (fun _ => 0) id s0.U.i s0.unz = 0 := by rw [hz0.2]; rfl
  have eloop : ∀ s, (forRange 0 (n : Int) s fun k s => factStep nc order (.fin tol) M q k s) =
      forCnt n ((0 : ℕ) : Int) s fun k s => factStep nc order (.fin tol) M q k s := by
    intro s; unfold forRange; simp
  have eloopT : ∀ α β γ s, (forRangeT β 0 (n : Int) s fun k s => factStepT α β γ nc order (.fin tol) M q k s) =
      forCntT β n ((0 : ℕ) : Int) s fun k s => factStepT α β γ nc order (.fin tol) M q k s := by
    intro α β γ s; unfold forRangeT; simp
  cases hs : (forCnt n ((0 : ℕ) : Int) s0 fun k s => factStep nc order (.fin tol) M q k s) with
  | error e =>
    rw [hs] at hw
    refine ⟨ca, cb + cg + 2 * n, (max lnz 1).toNat + (max unz 1).toNat + 2 * cg, fun α β γ => ?_, hops, by omega,
      by omega, ?_⟩
    · unfold factorizeT factorize
      simp only [hMn, eloop, eloopT]
      refine Cnt.mono ((hi β γ).bind (b2 := α * ca + β * cb + (β + 2 * γ) * cg) fun s e => ?_) ?_
      · rw [e0] at e; cases e
        refine ((hcnt α β γ).bind (b2 := 0) fun s e => ?_)
        rw [hs] at e; cases e
      · rw [Int.toNat_natCast]
        refine le_of_eq ?_
        ring
    · unfold factorize
      simp only [hMn, eloop]
      rw [e0, ok_bind, hs]
      exact hw
  | ok s =>
    rw [hs] at hw
    obtain ⟨r, pi, lp, up, h, ⟨b1, b2, b3, -, -⟩, a1, a2⟩ := hw
    rw [Nat.zero_add] at h
    have bL : (n : Int) < (s.L.p.length : Int) := by rw [h.capL.plen]; omega
    have bU : (n : Int) < (s.U.p.length : Int) := by rw [h.capU.plen]; omega
    have capL1 : CapOk n { s.L with p := upd s.L.p (n : Int) s.lnz } s.lnz := by
      refine ⟨h.capL.mEq, h.capL.nEq, ?_, h.capL.nz0, h.capL.nzle, h.capL.nle, h.capL.leni,
        h.capL.lenx, h.capL.fresh⟩
      simp only [length_upd]; exact h.capL.plen
    have capU1 : CapOk n { s.U with p := upd s.U.p (n : Int) s.unz } s.unz := by
      refine ⟨h.capU.mEq, h.capU.nEq, ?_, h.capU.nz0, h.capU.nzle, h.capU.nle, h.capU.leni,
        h.capU.lenx, h.capU.fresh⟩
      simp only [length_upd]; exact h.capU.plen
    have hp := h.perm
    obtain ⟨L1, L2, eL1, eL2, fL, -⟩ := finish_spec (S' := fun t s => t ≤ s)
      (val' := fun t s => lev A r c t (fun i => A i (c t)) (r s)) (LOk_iff.mp h.L) capL1 h.lnz hp
      h.pinv (fun t ht i hi => Iff.rfl) (fun t ht i hi _ => by rw [hp.rp i hi])
    obtain ⟨U1, U2, eU1, eU2, fU, dU⟩ := finish_spec (S' := fun t s => s ≤ t)
      (val' := fun t s => lev A r c s (fun i => A i (c t)) (r s)) h.U.1 capU1 h.unz hp
      h.pinv (fun t ht i hi => Iff.rfl) (fun t ht i hi _ => by rw [hp.rp i hi])
    have hl0 := h.capL.nz0
    have hu0 := h.capU.nz0
    have hln := (LOk_iff.mp h.L).nnz_le n (le_refl _)
    have hun := h.U.1.nnz_le n (le_refl _)
    rw [h.lnz] at hln
    rw [h.unz] at hun
    have hwork : uWork lp pi s.U.i s.unz =
        ∑ m ∈ range s.unz.toNat, ptrLen L2.p ((get U2.i (m : Int)).getD 0) := by
      refine sum_congr rfl fun m hm => ?_
      have hm := mem_range.1 hm
      obtain ⟨u, hu, hm1, hm2⟩ := find_col h.U.1.cp0 n (m : Int) (by omega) (by rw [h.unz]; omega)
      obtain ⟨i, hi, hiu, hget, -⟩ := h.U.1.ent u hu m hm1 hm2
      have g := dU m i (by omega) (by omega) hi hget
      rw [hget, g]
      simp only [Option.getD_some, Int.toNat_natCast]
      have hpi := hp.plt i hi
      unfold colLen ptrLen
      rw [fL.ptr (pi i) (by omega), show ((pi i : ℕ) : Int) + 1 = ((pi i + 1 : ℕ) : Int) by omega,
        fL.ptr (pi i + 1) (by omega)]
      rfl
    have hcg2 : cg ≤ 2 * s.lnz.toNat + 2 * s.unz.toNat + 4 * n := by omega
    refine ⟨ca, cb + cg + 2 * n + s.lnz.toNat + s.unz.toNat, (max lnz 1).toNat + (max unz 1).toNat + 2 * cg,
      fun α β γ => ?_, hops, by omega, by omega, ?_⟩
    · unfold factorizeT factorize
      simp only [hMn, eloop, eloopT]
      refine Cnt.mono ((hi β γ).bind
        (b2 := α * ca + β * cb + (β + 2 * γ) * cg + (s.lnz.toNat * β + s.unz.toNat * β)) fun s' e => ?_) ?_
      · rw [e0] at e; cases e
        refine (hcnt α β γ).bind fun s' e => ?_
        rw [hs] at e; cases e
        refine .liftBind fun _ _ => .liftBind fun _ _ => .liftBind fun _ _ => .liftBind fun _ _ => ?_
        refine (permuteRowsT_cnt β _ _ _).bind fun _ _ => ?_
        exact (permuteRowsT_cnt β _ _ _).bind (b2 := 0) fun _ _ => .pure _
      · rw [Int.toNat_natCast]
        refine le_of_eq ?_
        ring
    · unfold factorize
      simp only [hMn, eloop]
      rw [e0, ok_bind, hs, ok_bind, wr_eq (by omega) bL, ok_bind, wr_eq (by omega) bU, ok_bind,
        eL1, ok_bind, eU1, ok_bind, eL2, ok_bind, eU2, ok_bind]
      refine ⟨s.lnz.toNat, s.unz.toNat, _, ?_, ?_, rfl, ?_, ?_, by omega⟩
      · show get L2.p n = _
        rw [fL.ptr n (le_refl _), h.lnz]; congr 1; omega
      · show get U2.p n = _
        rw [fU.ptr n (le_refl _), h.unz]; congr 1; omega
      · show _ ≤ 5 * (∑ m ∈ range s.unz.toNat, ptrLen L2.p ((get U2.i (m : Int)).getD 0)) + _
        rw [← hwork]
        rw [huw, hz0.1, hz0.2] at a1
        omega
      · show _ ≤ _ + 2 * (∑ m ∈ range s.unz.toNat, ptrLen L2.p ((get U2.i (m : Int)).getD 0)) + _ + _
        rw [← hwork]
        rw [huw, hz0.1, hz0.2, Nat.zero_add, ← range_eq_Ico] at a2
        omega

end Slip
