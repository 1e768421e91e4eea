import Verif.Proof.FactStep2

/-! # The whole factorization -/

namespace Slip

/-- The columns of a finished factor, with row indices that are pivot positions: column `t` stores
positions `s` with `S t s`, each at most once, all those with `val t s ≠ 0`; arrays are exactly as
long as needed. -/
structure FinCols (n : ℕ) (S : ℕ → ℕ → Prop) (val : ℕ → ℕ → ℤ) (cp : ℕ → ℤ) (M : Csc) : Prop where
  mEq : M.m = n
  nEq : M.n = n
  nzmax : M.nzmax = cp n
  plen : M.p.length = n + 1
  leni : (M.i.length : ℤ) = cp n
  lenx : (M.x.length : ℤ) = cp n
  ptr : ∀ t : ℕ, t ≤ n → get M.p (t : Int) = some (cp t)
  cp0 : cp 0 = 0
  mono : ∀ t < n, cp t ≤ cp (t + 1)
  ent : ∀ t < n, ∀ m : ℤ, cp t ≤ m → m < cp (t + 1) → ∃ s : ℕ, s < n ∧ S t s ∧
    get M.i m = some (s : Int) ∧ get M.x m = some (val t s)
  inj : ∀ t < n, ∀ m m' : ℤ, cp t ≤ m → m < cp (t + 1) → cp t ≤ m' → m' < cp (t + 1) →
    get M.i m = get M.i m' → m = m'
  full : ∀ t < n, ∀ s < n, S t s → val t s ≠ 0 →
    ∃ m, cp t ≤ m ∧ m < cp (t + 1) ∧ get M.i m = some (s : Int)

theorem FinCols.le {n : ℕ} {S : ℕ → ℕ → Prop} {val : ℕ → ℕ → ℤ} {cp : ℕ → ℤ} {M : Csc}
    (h : FinCols n S val cp M) : ∀ t s, t ≤ s → s ≤ n → cp t ≤ cp s := by
  intro t s hts
  induction hts with
  | refl => intro _; exact le_refl _
  | @step s hts ih => intro hs; exact (ih (by omega)).trans (h.mono s (by omega))

/-- Every position of the storage belongs to a column. -/
theorem find_col {cp : ℕ → ℤ} (h0 : cp 0 = 0) :
    ∀ (n : ℕ) (m : ℤ), 0 ≤ m → m < cp n → ∃ t < n, cp t ≤ m ∧ m < cp (t + 1) := by
  intro n
  induction n with
  | zero => intro m h1 h2; omega
  | succ n ih =>
    intro m h1 h2
    by_cases hm : m < cp n
    · obtain ⟨t, ht, h3, h4⟩ := ih m h1 hm
      exact ⟨t, by omega, h3, h4⟩
    · exact ⟨n, by omega, by omega, h2⟩

theorem get_take {α : Type} {a : Arr α} {k : ℕ} {i : Int} (h : i < k) :
    get (a.take k) i = get a i := by
  unfold get
  split
  · rfl
  · rw [List.getElem?_take_of_lt (by omega)]

/-- `slip_sparse_collapse` followed by the row permutation. -/
theorem finish_spec {n : ℕ} {S S' : ℕ → ℕ → Prop} {val val' : ℕ → ℕ → ℤ} {cp : ℕ → ℤ} {M : Csc}
    {pi r : ℕ → ℕ} {pinv : Arr Int} {nz : ℤ}
    (h : ColOk n n S val cp M.p M.i M.x) (hcap : CapOk n M nz) (hnz : cp n = nz)
    (hp : PermPair n pi r) (hpi : IsFn n pinv pi)
    (hS : ∀ t < n, ∀ i < n, S t i ↔ S' t (pi i))
    (hval : ∀ t < n, ∀ i < n, S t i → val t i = val' t (pi i)) :
    ∃ M1 M2, slip_sparse_collapse M = .ok M1 ∧ permuteRows M1 pinv nz = .ok M2 ∧
      FinCols n S' val' cp M2 ∧
      (∀ (m : ℤ) (i : ℕ), 0 ≤ m → m < nz → i < n → get M.i m = some (i : Int) →
        get M2.i m = some ((pi i : ℕ) : Int)) := by
  have hnz0 := hcap.nz0
  have hle := h.le
  let M1 : Csc := { M with i := M.i.take nz.toNat, x := M.x.take nz.toNat, nzmax := nz }
  have e1 : slip_sparse_collapse M = .ok M1 := by
    unfold slip_sparse_collapse
    have hh : rd M.p M.n = .ok nz := by rw [hcap.nEq, ← hnz]; exact rd_eq (h.ptr n (le_refl _))
    rw [hh, ok_bind]
    rfl
  have hget : ∀ m : ℤ, m < nz → get M1.i m = get M.i m ∧ get M1.x m = get M.x m := by
    intro m hm
    exact ⟨get_take (by omega), get_take (by omega)⟩
  have hlen1 : (M1.i.length : ℤ) = nz := by
    have h1 := hcap.leni; have h2 := hcap.nzle
    simp only [M1, List.length_take]; omega
  have hlenx1 : (M1.x.length : ℤ) = nz := by
    have h1 := hcap.lenx; have h2 := hcap.nzle
    simp only [M1, List.length_take]; omega
  have hrow : ∀ m : ℤ, 0 ≤ m → m < nz → ∃ i : ℕ, i < n ∧ get M.i m = some (i : Int) := by
    intro m h0 h1
    obtain ⟨t, ht, h2, h3⟩ := find_col h.cp0 n m h0 (by rw [hnz]; exact h1)
    obtain ⟨i, hi, _, h4, _⟩ := h.ent t ht m h2 h3
    exact ⟨i, hi, h4⟩
  have hloop := wp_forRange (E := noFail) (lo := 0) (hi := nz) (s := M1.i)
    (f := fun p Mi => do
      let v ← rd Mi p
      let w ← rd pinv v
      wr Mi p w)
    (fun p Mi => (Mi.length : ℤ) = nz ∧
      (∀ m, p ≤ m → m < nz → get Mi m = get M.i m) ∧
      ∀ (m : ℤ) (i : ℕ), 0 ≤ m → m < p → i < n → get M.i m = some (i : Int) →
        get Mi m = some ((pi i : ℕ) : Int))
    hnz0
    ⟨hlen1, fun m _ h2 => (hget m h2).1, fun m i h1 h2 => by omega⟩
    (by
      rintro p Mi hp0 hp1 ⟨hl, hrest, hdone⟩
      obtain ⟨i, hi, hgi⟩ := hrow p hp0 hp1
      have hg : get Mi p = some (i : Int) := by rw [hrest p (le_refl _) hp1]; exact hgi
      have hb := get_bounds hg
      simp only [rd_eq hg, rd_eq (hpi i hi), ok_bind, wr_eq hb.1 hb.2, wp_ok]
      refine ⟨by rw [length_upd]; exact hl, ?_, ?_⟩
      · intro m h1 h2
        rw [get_upd_ne hb.1 hb.2 _ (by omega)]
        exact hrest m (by omega) h2
      · intro m j h1 h2 hj hgj
        rw [get_upd hb.1 hb.2]
        by_cases hmp : m = p
        · subst hmp
          rw [if_pos rfl]
          rw [hgi] at hgj
          have : i = j := by have := Option.some.inj hgj; omega
          rw [this]
        · rw [if_neg hmp]
          exact hdone m j h1 (by omega) hj hgj)
  obtain ⟨Mi, hMi, hl, -, hdone⟩ := wp_noFail hloop
  have e2 : permuteRows M1 pinv nz = .ok { M1 with i := Mi } := by
    unfold permuteRows
    rw [hMi]; rfl
  have hcase : ∀ t < n, ∀ m, cp t ≤ m → m < cp (t + 1) → 0 ≤ m ∧ m < nz := by
    intro t ht m h1 h2
    have q1 := hle 0 t (by omega) (by omega)
    have q2 := hle (t + 1) n (by omega) (le_refl _)
    rw [h.cp0] at q1
    rw [hnz] at q2
    omega
  refine ⟨M1, _, e1, e2, ⟨hcap.mEq, hcap.nEq, hnz.symm, hcap.plen, by rw [hnz]; exact hl,
    by rw [hnz]; exact hlenx1, h.ptr, h.cp0, h.mono, ?_, ?_, ?_⟩, hdone⟩
  · intro t ht m h1 h2
    obtain ⟨q1, q2⟩ := hcase t ht m h1 h2
    obtain ⟨i, hi, hSi, h3, h4⟩ := h.ent t ht m h1 h2
    refine ⟨pi i, hp.plt i hi, (hS t ht i hi).mp hSi, hdone m i q1 q2 hi h3, ?_⟩
    show get M1.x m = _
    rw [(hget m q2).2, h4, hval t ht i hi hSi]
  · intro t ht m m' h1 h2 h1' h2' he
    obtain ⟨q1, q2⟩ := hcase t ht m h1 h2
    obtain ⟨q1', q2'⟩ := hcase t ht m' h1' h2'
    obtain ⟨i, hi, -, h3, -⟩ := h.ent t ht m h1 h2
    obtain ⟨i', hi', -, h3', -⟩ := h.ent t ht m' h1' h2'
    have he' : get Mi m = get Mi m' := he
    rw [hdone m i q1 q2 hi h3, hdone m' i' q1' q2' hi' h3'] at he'
    have hpe : pi i = pi i' := by have := Option.some.inj he'; omega
    have : i = i' := by rw [← hp.rp i hi, ← hp.rp i' hi', hpe]
    subst this
    exact h.inj t ht m m' h1 h2 h1' h2' (by rw [h3, h3'])
  · intro t ht s hs hSs hne
    have hrs := hp.rlt s hs
    have hprs := hp.pr s hs
    have hSi : S t (r s) := (hS t ht _ hrs).mpr (by rw [hprs]; exact hSs)
    have hv := hval t ht _ hrs hSi
    rw [hprs] at hv
    obtain ⟨m, h1, h2, h3⟩ := h.full t ht (r s) hrs hSi (by rw [hv]; exact hne)
    obtain ⟨q1, q2⟩ := hcase t ht m h1 h2
    refine ⟨m, h1, h2, ?_⟩
    have := hdone m _ q1 q2 hrs h3
    rwa [hprs] at this

/-- What a successful factorization returns. -/
structure FOk (order : Pivot) (tol : ℚ) (A : ℕ → ℕ → ℤ) (c : ℕ → ℕ) (n : ℕ) (r pi : ℕ → ℕ)
    (lp up : ℕ → ℤ) (F : Factors) : Prop where
  perm : PermPair n pi r
  pinv : IsFn n F.pinv pi
  pinvLen : F.pinv.length = n
  rho : RhosOk A r c n F.rhos
  rhoLen : F.rhos.length = max n 1
  L : FinCols n (fun t s => t ≤ s) (fun t s => lev A r c t (fun i => A i (c t)) (r s)) lp F.L
  U : FinCols n (fun t s => s ≤ t) (fun t s => lev A r c s (fun i => A i (c t)) (r s)) up F.U
  diag : ∀ t < n, up t < up (t + 1) ∧ get F.U.i (up (t + 1) - 1) = some (t : Int)
  pol : ∀ t < n, PolOk order tol n (fun i => lev A r c t (fun i => A i (c t)) i) (c t) (r t)

theorem allocCsc_cap {n : ℕ} {z : ℤ} (h : (n : ℤ) ≤ z) : CapOk n (allocCsc n z) 0 := by
  refine ⟨rfl, rfl, ?_, le_refl _, ?_, ?_, ?_, ?_, ?_⟩
  · simp [allocCsc]
  · simp [allocCsc]
  · simp only [allocCsc]; omega
  · simp [allocCsc]
  · simp [allocCsc]
  · intro m _; exact get_malloc

theorem allocCsc_cols {n : ℕ} {z : ℤ} (S : ℕ → ℕ → Prop) (val : ℕ → ℕ → ℤ) :
    ColOk n 0 S val (fun _ => 0) (upd (allocCsc n z).p ((0 : ℕ) : Int) 0) (allocCsc n z).i
      (allocCsc n z).x := by
  have b1 : ((0 : ℕ) : Int) < ((allocCsc n z).p.length : Int) := by
    simp [allocCsc]
  refine ⟨?_, ?_, rfl, fun t ht => by omega, fun t ht => by omega, fun t ht => by omega,
    fun t ht => by omega⟩
  · intro t ht
    rw [get_upd (by omega) b1, if_pos (by omega)]
  · intro t ht htn
    rw [get_upd (by omega) b1, if_neg (by omega)]
    exact get_calloc (by omega) (by omega)

theorem factInit_spec (order : Pivot) (tol : ℚ) (A : ℕ → ℕ → ℤ) (c : ℕ → ℕ) {n : ℕ} {lnz unz : ℤ}
    (hl : (n : ℤ) ≤ lnz) (hu : (n : ℤ) ≤ unz) :
    ∃ s, factInit n lnz unz = .ok s ∧ FInv order tol A c n 0 id id (fun _ => 0) (fun _ => 0) s := by
  have hloop := wp_forRange (E := noFail) (lo := 0) (hi := (n : Int))
    (s := ((malloc Int n, malloc Int n, malloc Int n, malloc Int n) :
      Arr Int × Arr Int × Arr Int × Arr Int))
    (f := fun i (s : Arr Int × Arr Int × Arr Int × Arr Int) => do
      let h ← wr s.1 i (-1)
      let pivs ← wr s.2.1 i (-1)
      let pinv ← wr s.2.2.1 i i
      let row_perm ← wr s.2.2.2 i i
      pure (h, pivs, pinv, row_perm))
    (fun p s => s.1.length = n ∧ s.2.1.length = n ∧ s.2.2.1.length = n ∧ s.2.2.2.length = n ∧
      ∀ m : ℤ, 0 ≤ m → m < p → get s.2.1 m = some (-1) ∧ get s.2.2.1 m = some m ∧
        get s.2.2.2 m = some m)
    (by omega)
    ⟨by simp, by simp, by simp, by simp, fun m h1 h2 => by omega⟩
    (by
      rintro p ⟨a1, a2, a3, a4⟩ hp0 hp1 ⟨l1, l2, l3, l4, hg⟩
      simp only at l1 l2 l3 l4 hg
      have b1 : p < (a1.length : Int) := by omega
      have b2 : p < (a2.length : Int) := by omega
      have b3 : p < (a3.length : Int) := by omega
      have b4 : p < (a4.length : Int) := by omega
      simp only [wr_eq hp0 b1, wr_eq hp0 b2, wr_eq hp0 b3, wr_eq hp0 b4, ok_bind, wp_pure,
        length_upd]
      refine ⟨l1, l2, l3, l4, ?_⟩
      intro m h1 h2
      rw [get_upd hp0 b2, get_upd hp0 b3, get_upd hp0 b4]
      by_cases hm : m = p
      · subst hm; simp
      · simp only [hm, if_false]
        exact hg m h1 (by omega))
  obtain ⟨⟨a1, a2, a3, a4⟩, e1, l1, l2, l3, l4, hg⟩ := wp_noFail hloop
  simp only at l1 l2 l3 l4 hg
  have hloop2 := wp_forRange (E := noFail) (lo := 0) (hi := (n : Int))
    (s := malloc Int (max (n : Int) 1)) (f := fun i x => zinit x i)
    (fun p x => x.length = max n 1 ∧ (∀ m : ℤ, p ≤ m → get x m = none) ∧
      ∀ m : ℤ, 0 ≤ m → m < p → get x m ≠ none)
    (by omega)
    ⟨by simp; omega, fun m _ => get_malloc, fun m h1 h2 => by omega⟩
    (by
      rintro p x hp0 hp1 ⟨l, hn, hs⟩
      have b : p < (x.length : Int) := by rw [l]; omega
      rw [zinit_eq hp0 b (hn p (le_refl _))]
      simp only [wp_ok, length_upd]
      refine ⟨l, ?_, ?_⟩
      · intro m hm; rw [get_upd_ne hp0 b _ (by omega)]; exact hn m (by omega)
      · intro m h1 h2
        rw [get_upd hp0 b]
        by_cases hm : m = p
        · simp [hm]
        · rw [if_neg hm]; exact hs m h1 (by omega))
  obtain ⟨x, e2, lx, -, hx⟩ := wp_noFail hloop2
  refine ⟨{ lnz := 0, unz := 0, L := allocCsc n lnz, U := allocCsc n unz,
            rhos := malloc Int (max n 1), pinv := a3, row_perm := a4, pivs := a2,
            h := a1, xi := malloc Int (2 * n), x := x }, ?_, ?_⟩
  · unfold factInit
    simp only
    have e1' : (forRange 0 (n : Int) ((malloc Int n, malloc Int n, malloc Int n, malloc Int n) :
      Arr Int × Arr Int × Arr Int × Arr Int) fun i (x : Arr Int × Arr Int × Arr Int × Arr Int) =>
        match x with
        | (h, pivs, pinv, row_perm) => do
          let h ← wr h i (-1)
          let pivs ← wr pivs i (-1)
          let pinv ← wr pinv i i
          let row_perm ← wr row_perm i i
          pure (h, pivs, pinv, row_perm)) = .ok (a1, a2, a3, a4) := e1
    rw [e1', ok_bind]
    simp only
    rw [e2, ok_bind]
    rfl
  · refine
    { perm := ⟨fun _ h => h, fun _ h => h, fun _ _ => rfl, fun _ _ => rfl⟩
      pinv := fun t ht => (hg t (by omega) (by omega)).2.1
      pinvLen := l3
      rperm := fun t ht => (hg t (by omega) (by omega)).2.2
      pivs := fun i hi => by rw [if_neg (by omega)]; exact (hg i (by omega) (by omega)).1
      rho := ⟨fun t ht => by omega, fun t ht => by
        have : t = 0 := by omega
        subst this; simp⟩
      rhoLen := by simp only [length_malloc]; omega
      rhoNone := fun t _ => get_malloc
      L := LOk_iff.mpr (allocCsc_cols _ _)
      lnz := rfl
      capL := allocCsc_cap hl
      U := ⟨allocCsc_cols _ _, fun t ht => by omega⟩
      unz := rfl
      capU := allocCsc_cap hu
      xi := by simp only [length_malloc]; omega
      h := l1
      x := fun i hi => hx i (by omega) (by omega)
      pol := fun t ht => by omega }

variable {A : ℕ → ℕ → ℤ} {c : ℕ → ℕ}

/-- The state of the main loop after any number `k ≤ n` of columns satisfies the invariant,
unless the loop stopped with SINGULAR on a singular matrix. -/
theorem factLoop_spec {nc : Int → Int → ℚ → Bool} {order : Pivot} {tol : ℚ} {n : ℕ}
    {ap : ℕ → ℤ} {M : Csc} {q : Arr Int} {s : FactSt}
    (hA : AOk n A ap M) (hMn : M.n = n) (hq : IsFn n q c) (hc : ∀ t < n, c t < n)
    (hcinj : ∀ t < n, ∀ u < n, c t = c u → t = u) 
    (h0 : ∃ r pi lp up, FInv order tol A c n 0 r pi lp up s) (k : ℕ) (hk : k ≤ n) :
    wp (forRange 0 (k : Int) s fun k s => factStep nc order (.fin tol) M q k s)
      (fun s' => ∃ r pi lp up, FInv order tol A c n k r pi lp up s')
      (fun e => e = .ret .singular ∧ (toMat A n).det = 0) := by
  have := wp_forRange (E := fun e => e = .ret .singular ∧ (toMat A n).det = 0)
    (lo := 0) (hi := (k : Int)) (s := s)
    (f := fun k s => factStep nc order (.fin tol) M q k s)
    (fun p s' => ∃ r pi lp up, FInv order tol A c n p.toNat r pi lp up s')
    (by omega) h0
    (by
      rintro p s' hp0 hp1 ⟨r, pi, lp, up, hinv⟩
      obtain ⟨p, rfl⟩ := Int.eq_ofNat_of_zero_le hp0
      have e : ((p : Int) + 1).toNat = p + 1 := by omega
      rw [e]
      exact factStep_spec hA hMn hq hc hcinj (by omega) hinv)
  simpa using this

theorem factorize_spec {nc : Int → Int → ℚ → Bool} {order : Pivot} {tol : ℚ} {n : ℕ}
    {ap : ℕ → ℤ} {M : Csc} {q : Arr Int} {lnz unz : ℤ}
    (hA : AOk n A ap M) (hMn : M.n = n) (hq : IsFn n q c) (hc : ∀ t < n, c t < n)
    (hcinj : ∀ t < n, ∀ u < n, c t = c u → t = u) (hl : (n : ℤ) ≤ lnz) (hu : (n : ℤ) ≤ unz) :
    wp (factorize nc order (.fin tol) M q lnz unz)
      (fun F => ∃ r pi lp up, FOk order tol A c n r pi lp up F)
      (fun e => e = .ret .singular ∧ (toMat A n).det = 0) := by
  unfold factorize
  obtain ⟨s0, e0, h0⟩ := factInit_spec order tol A c hl hu
  simp only [hMn]
  rw [e0, ok_bind]
  refine wp_bind_ok (factLoop_spec hA hMn hq hc hcinj ⟨_, _, _, _, h0⟩ n (le_refl _)) ?_
  rintro s ⟨r, pi, lp, up, h⟩
  have bL : (n : Int) < (s.L.p.length : Int) := by rw [h.capL.plen]; omega
  have bU : (n : Int) < (s.U.p.length : Int) := by rw [h.capU.plen]; omega
  rw [wr_eq (by omega) bL, ok_bind, wr_eq (by omega) bU, ok_bind]
  have capL1 : CapOk n { s.L with p := upd s.L.p (n : Int) s.lnz } s.lnz := by
    refine ⟨h.capL.mEq, h.capL.nEq, ?_, h.capL.nz0, h.capL.nzle, h.capL.nle, h.capL.leni,
      h.capL.lenx, h.capL.fresh⟩
    simp only [length_upd]; exact h.capL.plen
  have capU1 : CapOk n { s.U with p := upd s.U.p (n : Int) s.unz } s.unz := by
    refine ⟨h.capU.mEq, h.capU.nEq, ?_, h.capU.nz0, h.capU.nzle, h.capU.nle, h.capU.leni,
      h.capU.lenx, h.capU.fresh⟩
    simp only [length_upd]; exact h.capU.plen
  have hp := h.perm
  obtain ⟨L1, L2, eL1, eL2, fL, -⟩ := finish_spec (S' := fun t s => t ≤ s)
    (val' := fun t s => lev A r c t (fun i => A i (c t)) (r s)) (LOk_iff.mp h.L) capL1 h.lnz hp
    h.pinv (fun t ht i hi => Iff.rfl) (fun t ht i hi _ => by rw [hp.rp i hi])
  obtain ⟨U1, U2, eU1, eU2, fU, dU⟩ := finish_spec (S' := fun t s => s ≤ t)
    (val' := fun t s => lev A r c s (fun i => A i (c t)) (r s)) h.U.1 capU1 h.unz hp
    h.pinv (fun t ht i hi => Iff.rfl) (fun t ht i hi _ => by rw [hp.rp i hi])
  rw [eL1, ok_bind, eU1, ok_bind, eL2, ok_bind, eU2, ok_bind]
  refine ⟨r, pi, lp, up, hp, h.pinv, h.pinvLen, h.rho, h.rhoLen, fL, fU, ?_, h.pol⟩
  intro t ht
  obtain ⟨q1, q2⟩ := h.U.2 t ht
  refine ⟨q1, ?_⟩
  have b1 := h.U.1.le 0 t (by omega) (by omega)
  have b2 := h.U.1.le (t + 1) n (by omega) (le_refl _)
  rw [h.U.1.cp0] at b1
  rw [h.unz] at b2
  have := dU (up (t + 1) - 1) (r t) (by omega) (by omega) (hp.rlt t ht) q2
  rwa [hp.pr t ht] at this

end Slip
