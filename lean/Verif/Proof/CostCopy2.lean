import Verif.Proof.CostCopy

/-! # Counting the work of SLIP_matrix_copy: the nine cases -/

namespace Slip

variable {α β γ : ℕ}

/-- Column pointers: they start at 0, do not decrease and end at `N`. -/
def Ptrs (n N : ℕ) (p : Arr Int) : Prop :=
  ∃ f : ℕ → ℤ, f 0 = 0 ∧ (∀ t < n, f t ≤ f (t + 1)) ∧ f n = N ∧ ∀ t ≤ n, get p (t : ℤ) = some (f t)

theorem sum_ptrs {f : ℕ → ℤ} {n : ℕ} (h0 : f 0 = 0) (h : ∀ t < n, f t ≤ f (t + 1)) :
    ((∑ t ∈ Finset.range n, (f (t + 1) - f t).toNat : ℕ) : ℤ) = f n := by
  induction n with
  | zero => simp [h0]
  | succ n ih =>
    rw [Finset.sum_range_succ, Nat.cast_add, ih fun t ht => h t (by omega)]
    have := h n (by omega)
    omega

/-- A loop over the columns, and over the entries of each column. -/
theorem colLoop_lin {δ : Type} {k n N : ℕ} {p : Arr Int} (hp : Ptrs n N p) {g' : Int → Int → δ → W δ}
    {g : Int → Int → δ → C δ} {s : δ} (h : ∀ j t s, Lin α β γ k 0 0 (g' j t s) (g j t s)) :
    Lin α β γ (N * k) (n + N) 0
      (forRangeT β 0 n s fun j s => do
        let a ← W.lift (rd p j)
        let b ← W.lift (rd p (j + 1))
        forRangeT β a b s (g' j))
      (forRange 0 n s fun j s => do
        let a ← rd p j
        let b ← rd p (j + 1)
        forRange a b s (g j)) := by
  obtain ⟨f, h0, hmono, hN, hget⟩ := hp
  refine (Lin.forRangeSum (a := fun t => (f (t + 1) - f t).toNat * k) (b := fun t => (f (t + 1) - f t).toNat)
    (c := fun _ => 0) fun t s ht => ?_).mono ?_ ?_ ?_
  · refine Lin.liftBind fun a ha => Lin.liftBind fun b hb => ?_
    have ha' := rd_ok ha
    have hb' := rd_ok hb
    rw [hget t (by omega)] at ha'
    have e : ((t : ℤ) + 1) = ((t + 1 : ℕ) : ℤ) := by push_cast; rfl
    rw [e, hget (t + 1) (by omega)] at hb'
    cases ha'
    cases hb'
    refine (Lin.forRange (a := k) (b := 0) (c := 0) fun i s _ _ => h _ _ _).mono le_rfl ?_ ?_ <;> simp
  · rw [← Finset.sum_mul]
    have := sum_ptrs h0 hmono
    rw [hN] at this
    rw [Nat.cast_inj.1 this]
  · rw [Finset.sum_add_distrib]
    have := sum_ptrs h0 hmono
    rw [hN] at this
    rw [Nat.cast_inj.1 this]
    simp
  · simp

/-! ## The loops -/

theorem withValsT_lin {δ : Type} {a b c : ℕ} (opt : Option Options) (cx yx : Option Vals)
    {f' : {ε : Type} → ℕ → Elt ε → Arr ε → Arr ε → W (Arr ε × δ)}
    {f : {ε : Type} → Elt ε → Arr ε → Arr ε → C (Arr ε × δ)}
    (h : ∀ {ε : Type} (k : ℕ) (e : Elt ε) (x y : Arr ε), k ≤ 1 * α → Lin α β γ a b c (f' k e x y) (f e x y)) :
    Lin α β γ a b c (withValsT α opt cx yx f') (withVals opt cx yx f) := by
  have hE : Lin α β γ a b c (W.lift (.error .ub) : W (Vals × δ)) (.error .ub) :=
    (Lin.lift _).mono (Nat.zero_le _) (Nat.zero_le _) (Nat.zero_le _)
  rcases cx with _ | ⟨x⟩ | ⟨x⟩ | ⟨x⟩ | ⟨x⟩ | ⟨x⟩
  · exact hE
  all_goals rcases yx with _ | ⟨y⟩ | ⟨y⟩ | ⟨y⟩ | ⟨y⟩ | ⟨y⟩
  all_goals first
    | exact hE
    | exact (h _ _ _ _ (by omega)).bind fun s _ => Lin.pure _

theorem buildCscT_lin {ε : Type} {a : ℕ} (ha : a ≤ 1 * α) (e : Elt ε) (Ai Aj : Arr Int) (N : ℕ) (W Ci : Arr Int)
    (Cx Yx : Arr ε) : Lin α β γ N N 0 (buildCscT β a e Ai Aj N W Ci Cx Yx) (buildCsc e Ai Aj N W Ci Cx Yx) := by
  unfold buildCscT buildCsc
  refine ((Lin.forRange (a := 1) (b := 0) (c := 0) fun i s _ _ => Lin.tickLe ha (Lin.lift _)).bind fun s _ =>
    Lin.pure _).mono ?_ ?_ ?_ <;> simp

theorem countNzT_lin {ε : Type} {a : ℕ} (ha : a ≤ 1 * α) (e : Elt ε) (N : ℕ) (Yx : Arr ε) :
    Lin α β γ N N 0 (countNzT β a e N Yx) (countNz e N Yx) := by
  unfold countNzT countNz
  refine (Lin.forRange (a := 1) (b := 0) (c := 0) fun i s _ _ => Lin.tickLe ha (Lin.lift _)).mono ?_ ?_ ?_ <;> simp

theorem buildFromDenseT_lin {ε : Type} {a : ℕ} (ha : a ≤ 1 * α) (e : Elt ε) (m n : ℕ) (Cp Ci : Arr Int)
    (Cx Yx : Arr ε) : Lin α β γ (2 * (n * m)) (n * m + n) 0 (buildFromDenseT β a e m n Cp Ci Cx Yx)
      (buildFromDense e m n Cp Ci Cx Yx) := by
  unfold buildFromDenseT buildFromDense
  refine ((Lin.forRange (a := 2 * m) (b := m) (c := 0) fun j s _ _ => Lin.liftBind fun Cp _ =>
    ((Lin.forRange (a := 2) (b := 0) (c := 0) fun i s _ _ => (Lin.tickLe ha (a := 1) (Lin.liftBind fun v _ => Lin.ite
      (fun _ => (Lin.pure _).mono (Nat.zero_le _) le_rfl le_rfl) fun _ => Lin.liftBind fun Ci _ =>
      Lin.tickLe ha (Lin.liftBind fun Cx _ => Lin.pure _)))).bind fun s _ => Lin.pure _).mono ?_ ?_ ?_).bind fun s _ =>
    Lin.liftBind fun Cp _ => Lin.pure _).mono ?_ ?_ ?_
  · omega
  · omega
  · omega
  · rw [Int.sub_zero, Int.toNat_natCast]; exact le_of_eq (by ring)
  · rw [Int.sub_zero, Int.toNat_natCast]; exact le_of_eq (by ring)
  · simp

theorem scatterTripletT_lin {ε : Type} {a : ℕ} (ha : a ≤ 1 * α) (e : Elt ε) (m : Int) (N : ℕ) (Ai Aj : Arr Int)
    (Cx Yx : Arr ε) : Lin α β γ N N 0 (scatterTripletT β a e m N Ai Aj Cx Yx) (scatterTriplet e m N Ai Aj Cx Yx) := by
  unfold scatterTripletT scatterTriplet
  refine (Lin.forRange (a := 1) (b := 0) (c := 0) fun i s _ _ => Lin.tickLe ha (Lin.lift _)).mono ?_ ?_ ?_ <;> simp

theorem scatterCscT_lin {ε : Type} {a n N : ℕ} (ha : a ≤ 1 * α) (e : Elt ε) (m : Int) {Ap Ai : Arr Int}
    (hp : Ptrs n N Ap) (Cx Yx : Arr ε) :
    Lin α β γ N (n + N) 0 (scatterCscT β a e m n Ap Ai Cx Yx) (scatterCsc e m n Ap Ai Cx Yx) := by
  unfold scatterCscT scatterCsc
  exact (colLoop_lin (k := 1) hp fun j t s => Lin.tickLe ha (Lin.lift _)).mono (by omega) le_rfl le_rfl

/-! ## The cases -/

variable (fp : Fp) (opt : Option Options) (type : Ty) {A : Mat} {m n N : ℕ}

theorem copyCscCscT_lin (hn : A.n = n) :
    Lin α β γ (6 * N) (7 * N + n + 4) (5 * N + n + 7) (copyCscCscT α β γ fp opt type A N)
      (copyCscCsc fp opt type A N) := by
  unfold copyCscCscT copyCscCsc
  refine ((allocSparse_lin .csc (by decide) type A.m A.n le_rfl).bind fun c _ => (copyIntsT_lin _ _ _).bind fun p _ =>
    (copyIntsT_lin _ _ _).bind fun i _ => (slip_cast_arrayT_lin fp opt _ _ _ _ _).bind fun s _ => Lin.pure _).mono ?_ ?_ ?_
  · omega
  · rw [hn]; omega
  · rw [if_pos rfl, hn]; omega

theorem copyTripletTripletT_lin :
    Lin α β γ (6 * N) (8 * N + 3) (5 * N + 5) (copyTripletTripletT α β γ fp opt type A N)
      (copyTripletTriplet fp opt type A N) := by
  unfold copyTripletTripletT copyTripletTriplet
  refine ((allocSparse_lin .triplet (by decide) type A.m A.n le_rfl).bind fun c _ => (copyIntsT_lin _ _ _).bind fun p _ =>
    (copyIntsT_lin _ _ _).bind fun i _ => (slip_cast_arrayT_lin fp opt _ _ _ _ _).bind fun s _ => Lin.pure _).mono ?_ ?_ ?_
  · omega
  · omega
  · rw [if_neg (by decide)]; omega

theorem copyCscTripletT_lin (hn : A.n = n) (hp : Ptrs n N (deref A.p)) :
    Lin α β γ (6 * N) (8 * N + n + 3) (5 * N + 5) (copyCscTripletT α β γ fp opt type A N)
      (copyCscTriplet fp opt type A N) := by
  unfold copyCscTripletT copyCscTriplet
  rw [hn]
  refine ((allocSparse_lin .triplet (by decide) type A.m _ le_rfl).bind fun c _ =>
    (slip_cast_arrayT_lin fp opt _ _ _ _ _).bind fun s _ => (copyIntsT_lin _ _ _).bind fun i _ =>
    (colLoop_lin (k := 0) hp fun j t s => Lin.lift _).bind fun s _ => Lin.pure _).mono ?_ ?_ ?_
  · omega
  · omega
  · rw [if_neg (by decide)]; omega

theorem copyTripletCscT_lin (hn : A.n = n) (hN : SLIP_matrix_nnz true (some A) = .ok (N : ℤ)) :
    Lin α β γ (7 * N) (9 * N + n + 4) (6 * N + 2 * n + 8) (copyTripletCscT α β γ fp opt type A N)
      (copyTripletCsc fp opt type A N) := by
  unfold copyTripletCscT copyTripletCsc
  refine ((slip_cast_matrixT_lin fp opt type hN).bind fun y _ => Lin.tickC <|
    (allocSparse_lin .csc (by decide) type A.m A.n le_rfl).bind fun c _ =>
    (Lin.forRange (a := 0) (b := 0) (c := 0) fun i s _ _ => Lin.lift _).bind fun W _ =>
    (slip_cumsumT_lin _ _ _).bind fun p _ => (withValsT_lin opt _ _ fun k e x y hk => buildCscT_lin hk e _ _ N _ _ x y).bind
    fun s _ => Lin.pure _).mono ?_ ?_ ?_
  · omega
  · rw [hn]; omega
  · rw [if_pos rfl, hn]; omega

theorem copyTripletDenseT_lin (hm : A.m = m) (hn : A.n = n) (hN : SLIP_matrix_nnz true (some A) = .ok (N : ℤ)) :
    Lin α β γ (7 * N) (7 * N + m * n + 4) (3 * N + m * n + 4) (copyTripletDenseT α β γ fp opt type A N)
      (copyTripletDense fp opt type A N) := by
  unfold copyTripletDenseT copyTripletDense
  rw [hm, hn]
  refine ((allocDense_lin type m n _ _).bind fun c _ => (slip_cast_matrixT_lin fp opt type hN).bind fun y _ =>
    (withValsT_lin (a := N) (b := N) (c := 0) opt _ _ fun k e x y hk =>
      (scatterTripletT_lin hk e _ N _ _ x y).bind fun s _ => Lin.pure _).bind
    fun s _ => Lin.pure _).mono ?_ ?_ ?_
  all_goals omega

theorem copyCscDenseT_lin (hm : A.m = m) (hn : A.n = n) (hp : Ptrs n N (deref A.p))
    (hN : SLIP_matrix_nnz true (some A) = .ok (N : ℤ)) :
    Lin α β γ (7 * N) (7 * N + n + m * n + 4) (3 * N + m * n + 4) (copyCscDenseT α β γ fp opt type A N)
      (copyCscDense fp opt type A N) := by
  unfold copyCscDenseT copyCscDense
  rw [hm, hn]
  refine ((allocDense_lin type m n _ _).bind fun c _ => (slip_cast_matrixT_lin fp opt type hN).bind fun y _ =>
    (withValsT_lin (a := N) (b := n + N) (c := 0) opt _ _ fun k e x y hk =>
      (scatterCscT_lin hk e _ hp x y).bind fun s _ => Lin.pure _).bind
    fun s _ => Lin.pure _).mono ?_ ?_ ?_
  all_goals omega

theorem copyDenseDenseT_lin (hm : A.m = m) (hn : A.n = n) :
    Lin α β γ (6 * N) (5 * N + m * n + 3) (2 * N + m * n + 3) (copyDenseDenseT α β γ fp opt type A N)
      (copyDenseDense fp opt type A N) := by
  unfold copyDenseDenseT copyDenseDense
  rw [hm, hn]
  refine ((allocDense_lin type m n _ _).bind fun c _ => (slip_cast_arrayT_lin fp opt _ _ _ _ _).bind
    fun s _ => Lin.pure _).mono ?_ ?_ ?_
  all_goals omega

/-! ## Dense to CSC: the number of nonzeros -/

theorem wr_okC {ε : Type} {a a' : Arr ε} {i : Int} {v : ε} (h : wr a i v = .ok a') :
    0 ≤ i ∧ i < (a.length : Int) ∧ a' = upd a i v := by
  unfold wr at h
  split at h
  · rename_i hi
    exact ⟨hi.1, hi.2, (Except.ok.inj h).symm⟩
  · cases h

theorem get_wr_self {ε : Type} {a a' : Arr ε} {i : Int} {v : ε} (h : wr a i v = .ok a') : get a' i = some v := by
  obtain ⟨h0, h1, rfl⟩ := wr_okC h
  exact get_upd_self h0 h1 v

theorem get_wr_ne {ε : Type} {a a' : Arr ε} {i j : Int} {v : ε} (h : wr a i v = .ok a') (hj : j ≠ i) :
    get a' j = get a j := by
  obtain ⟨h0, h1, rfl⟩ := wr_okC h
  exact get_upd_ne h0 h1 v hj

theorem countNz_le {ε : Type} (e : Elt ε) (N : ℕ) (Yx : Arr ε) :
    wp (countNz e N Yx) (fun a => a ≤ N) (fun _ => True) := by
  unfold countNz
  refine wp_forRange (fun k (a : Int) => a ≤ k) (Int.natCast_nonneg _) le_rfl fun i s h1 h2 h3 => ?_
  rw [wp_bind]
  cases rd Yx i with
  | error e => trivial
  | ok v =>
    by_cases hz : e.isZero v = true
    · rw [wp_ok, if_pos hz, wp_pure]; omega
    · rw [wp_ok, if_neg hz, wp_pure]; omega

theorem buildFromDense_ptrs {ε : Type} (e : Elt ε) (m n : ℕ) (Cp Ci : Arr Int) (Cx Yx : Arr ε) :
    wp (buildFromDense e m n Cp Ci Cx Yx) (fun r => ∃ M : ℕ, M ≤ m * n ∧ Ptrs n M r.2.1) (fun _ => True) := by
  unfold buildFromDense
  rw [wp_bind]
  refine wp_post (wp_forRange (fun (j : Int) (s : Int × Arr Int × Arr Int × Arr ε) =>
    ∃ f : ℕ → ℤ, f 0 = 0 ∧ (∀ t : ℕ, (t : ℤ) < j → f t ≤ f (t + 1)) ∧ f j.toNat = s.1 ∧ s.1 ≤ m * j ∧
      ∀ t : ℕ, (t : ℤ) < j → get s.2.1 (t : ℤ) = some (f t)) (Int.natCast_nonneg _) ?_ fun j s hj0 hj1 hs => ?_) fun s hs => ?_
  · exact ⟨fun _ => 0, rfl, fun t ht => le_rfl, rfl, by simp, fun t ht => by omega⟩
  · obtain ⟨nz, Cp, Ci, Cx⟩ := s
    obtain ⟨f, f0, fm, fj, fle, fget⟩ := hs
    dsimp only at fj fle fget ⊢
    rw [wp_bind]
    cases hw : wr Cp j nz with
    | error e => trivial
    | ok Cp' =>
      rw [wp_ok, wp_bind]
      refine wp_post (wp_forRange (fun (i : Int) (s : Int × Arr Int × Arr ε) => nz ≤ s.1 ∧ s.1 ≤ nz + i)
        (Int.natCast_nonneg _) (by simp) fun i s hi0 hi1 hs => ?_) fun s hs => ?_
      · obtain ⟨z, Ci, Cx⟩ := s
        dsimp only at hs ⊢
        rw [wp_bind]
        cases rd Yx (i + j * m) with
        | error e => trivial
        | ok v =>
          rw [wp_ok]
          by_cases hz : e.isZero v = true
          · rw [if_pos hz, wp_pure]; dsimp only; omega
          · rw [if_neg hz, wp_bind]
            cases wr Ci z i with
            | error e => trivial
            | ok Ci' =>
              rw [wp_ok, wp_bind]
              cases zset Cx z (e.set v) with
              | error e => trivial
              | ok Cx' => rw [wp_ok, wp_pure]; dsimp only; omega
      · obtain ⟨z, Ci', Cx'⟩ := s
        dsimp only at hs ⊢
        rw [wp_pure]
        obtain ⟨t, rfl⟩ := Int.eq_ofNat_of_zero_le hj0
        rw [Int.toNat_natCast] at fj
        refine ⟨fun i => if i ≤ t then f i else z, by simp [f0], fun i hi => ?_, ?_, ?_, fun i hi => ?_⟩
        · rcases Nat.lt_or_ge i t with h | h
          · simp only [if_pos (show i ≤ t by omega), if_pos (show i + 1 ≤ t by omega)]
            exact fm i (by omega)
          · obtain rfl : i = t := by omega
            simp only [le_refl, if_true, if_neg (show ¬ i + 1 ≤ i by omega), fj]
            exact hs.1
        · have e1 : ((t : ℤ) + 1).toNat = t + 1 := by omega
          rw [e1]
          exact if_neg (by omega)
        · show z ≤ m * ((t : ℤ) + 1)
          rw [mul_add, mul_one]; omega
        · simp only [if_pos (show i ≤ t by omega)]
          rcases Nat.lt_or_ge i t with h | h
          · rw [get_wr_ne hw (by omega)]
            exact fget i (by omega)
          · obtain rfl : i = t := by omega
            rw [get_wr_self hw, fj]
  · obtain ⟨nz, Cp, Ci, Cx⟩ := s
    obtain ⟨f, f0, fm, fj, fle, fget⟩ := hs
    dsimp only at fj fle fget ⊢
    rw [Int.toNat_natCast] at fj
    rw [wp_bind]
    cases hw : wr Cp n nz with
    | error e => trivial
    | ok Cp' =>
      rw [wp_ok, wp_pure]
      have hpos : ∀ t ≤ n, 0 ≤ f t := by
        intro t
        induction t with
        | zero => intro _; rw [f0]
        | succ t ih => intro ht; exact le_trans (ih (by omega)) (fm t (by omega))
      have h0 := hpos n le_rfl
      rw [fj] at h0
      refine ⟨nz.toNat, ?_, f, f0, fun t ht => fm t (by omega), by rw [fj]; omega, fun t ht => ?_⟩
      · zify
        rw [Int.toNat_of_nonneg h0]
        exact fle
      · dsimp only
        rcases Nat.lt_or_ge t n with h | h
        · rw [get_wr_ne hw (by omega)]
          exact fget t (by omega)
        · obtain rfl : t = n := by omega
          rw [get_wr_self hw, fj]

theorem withVals_wp {δ : Type} (opt : Option Options) (cx yx : Option Vals) {Q : δ → Prop}
    {f : {ε : Type} → Elt ε → Arr ε → Arr ε → C (Arr ε × δ)}
    (h : ∀ {ε : Type} (e : Elt ε) (x y : Arr ε), wp (f e x y) (fun r => Q r.2) (fun _ => True)) :
    wp (withVals opt cx yx f) (fun r => Q r.2) (fun _ => True) := by
  rcases cx with _ | ⟨x⟩ | ⟨x⟩ | ⟨x⟩ | ⟨x⟩ | ⟨x⟩
  · trivial
  all_goals rcases yx with _ | ⟨y⟩ | ⟨y⟩ | ⟨y⟩ | ⟨y⟩ | ⟨y⟩
  all_goals first
    | trivial
    | (unfold withVals
       dsimp only
       rw [wp_bind]
       exact wp_post (h _ _ _) fun r hr => hr)

theorem wp_use {δ : Type} {m : C δ} {Q : δ → Prop} {E : Fail → Prop} (h : wp m Q E) {a : δ} (e : m = .ok a) : Q a := by
  rw [e] at h
  exact h

theorem allocate_header {kind : Kind} {type : Ty} {m n nzmax : Int} {sh ini : Bool} {c : Mat}
    (h : allocate kind type m n nzmax sh ini = .ok c) : c.m = m ∧ c.n = n ∧ c.kind = kind := by
  unfold allocate at h
  split at h
  · cases h
  · dsimp only at h
    split at h <;> (rw [← Except.ok.inj h]; exact ⟨rfl, rfl, rfl⟩)

/-- What the CSC matrix made from a dense one looks like. -/
theorem copyDenseCsc_ptrs (hm : A.m = m) (hn : A.n = n) :
    wp (copyDenseCsc fp opt type A N) (fun t => t.n = n ∧ t.kind = .csc ∧ t.p ≠ none ∧
      ∃ M : ℕ, M ≤ m * n ∧ Ptrs n M (deref t.p)) (fun _ => True) := by
  unfold copyDenseCsc
  rw [wp_bind]
  cases slip_cast_matrix fp opt type A with
  | error e => trivial
  | ok y =>
    rw [wp_ok, wp_bind]
    cases withVals opt y.1 y.1 _ with
    | error e => trivial
    | ok a =>
      rw [wp_ok, wp_bind]
      cases hc : allocate .csc type A.m A.n a.2 false true with
      | error e => trivial
      | ok c =>
        rw [wp_ok, wp_bind]
        obtain ⟨-, h2, h3⟩ := allocate_header hc
        refine wp_post (withVals_wp (Q := fun r : Arr Int × Arr Int => ∃ M : ℕ, M ≤ m * n ∧ Ptrs n M r.1) opt _ _
          fun e x y => ?_) fun r hr => ?_
        · rw [hm, hn]
          exact buildFromDense_ptrs e m n _ _ x y
        · exact ⟨h2.trans hn, h3, by simp, hr⟩

theorem copyDenseCscT_lin (hm : A.m = m) (hn : A.n = n) (hN : SLIP_matrix_nnz true (some A) = .ok (N : ℤ))
    (hmn : N = m * n) :
    Lin α β γ (9 * N) (9 * N + n + 4) (6 * N + n + 8) (copyDenseCscT α β γ fp opt type A N)
      (copyDenseCsc fp opt type A N) := by
  unfold copyDenseCscT copyDenseCsc
  refine ((slip_cast_matrixT_lin fp opt type hN).bind (a2 := 3 * N) (b2 := 3 * N + n + 1) (c2 := 3 * N + n + 5)
    fun y _ => ((withValsT_lin (a := N) (b := N) (c := 0) opt _ _ fun k e x y hk =>
      (countNzT_lin hk e N y).bind fun s _ => Lin.pure _).bind (a2 := 2 * N) (b2 := 2 * N + n + 1) (c2 := 3 * N + n + 5)
    fun a ha => ?_).mono ?_ ?_ ?_).mono ?_ ?_ ?_
  · have hle : a.2 ≤ (N : ℤ) := by
      refine wp_use (withVals_wp (Q := fun k : Int => k ≤ (N : ℤ)) opt _ _ fun e x y => ?_) ha
      rw [wp_bind]
      exact wp_post (countNz_le e N y) fun r hr => hr
    rw [hm, hn]
    refine ((allocSparse_lin .csc (by decide) type _ _ hle).bind fun c _ =>
      (withValsT_lin (a := 2 * (n * m)) (b := n * m + n) (c := 0) opt _ _ fun k e x y hk =>
        buildFromDenseT_lin hk e m n _ _ x y).bind fun s _ => Lin.pure _).mono ?_ ?_ ?_
    · rw [hmn, mul_comm m n]; omega
    · rw [hmn, mul_comm m n]; omega
    · rw [if_pos rfl]; omega
  all_goals omega

theorem copyDenseTripletT_lin (hm : A.m = m) (hn : A.n = n) (hN : SLIP_matrix_nnz true (some A) = .ok (N : ℤ))
    (hmn : N = m * n) :
    Lin α β γ (15 * N) (17 * N + 2 * n + 7) (11 * N + n + 13) (copyDenseTripletT α β γ fp opt type A N)
      (copyDenseTriplet fp opt type A N) := by
  unfold copyDenseTripletT copyDenseTriplet
  refine ((copyDenseCscT_lin fp opt type hm hn hN hmn).bind (a2 := 6 * N) (b2 := 8 * N + n + 3) (c2 := 5 * N + 5)
    fun t ht => Lin.liftBind fun z hz => ?_).mono ?_ ?_ ?_
  · obtain ⟨tn, tk, tp, M, hM, hp⟩ := wp_use (copyDenseCsc_ptrs (N := N) fp opt type hm hn) ht
    obtain ⟨f, f0, fm, fn, fget⟩ := id hp
    have hz' : z = (M : ℤ) := by
      unfold SLIP_matrix_nnz at hz
      simp only [Bool.not_true, Bool.false_eq_true, if_false, tk] at hz
      cases e : t.p with
      | none => exact absurd e tp
      | some p =>
        rw [e] at hz fget
        simp only at hz
        rw [if_neg (by omega), tn] at hz
        have := rd_ok hz
        have h2 := fget n le_rfl
        change get p (n : ℤ) = _ at h2
        rw [this] at h2
        cases h2
        exact fn
    subst hz'
    rw [← hmn] at hM
    refine ((copyCscTripletT_lin fp opt type tn hp).bind fun s _ => Lin.pure _).mono ?_ ?_ ?_
    all_goals omega
  all_goals omega

/-! ## All cases -/

theorem copyBodyT_lin {kind : Kind} (hm : A.m = m) (hn : A.n = n) (hN : SLIP_matrix_nnz true (some A) = .ok (N : ℤ))
    (hp : A.kind = .csc → Ptrs n N (deref A.p)) :
    Lin α β γ (15 * N) (17 * N + 2 * n + (if kind = .dense then m * n else 0) + 7)
      (11 * N + 2 * n + (if kind = .dense then m * n else 0) + 13) (copyBodyT α β γ fp opt kind type A N)
      (copyBody fp opt kind type A N) := by
  have hE : ∀ a b c, Lin α β γ a b c (W.lift (.error .ub) : W Mat) (.error .ub) := fun a b c =>
    (Lin.lift _).mono (Nat.zero_le _) (Nat.zero_le _) (Nat.zero_le _)
  have hd : A.kind = .dense → N = m * n := by
    intro hk
    unfold SLIP_matrix_nnz at hN
    simp only [Bool.not_true, Bool.false_eq_true, if_false, hk] at hN
    rw [if_neg (by omega), hm, hn] at hN
    have := Except.ok.inj hN
    rw [← Nat.cast_mul, Nat.cast_inj] at this
    exact this.symm
  unfold copyBodyT copyBody
  cases hk : A.kind <;> cases kind <;> simp only [if_true, reduceCtorEq, if_false]
  · exact (copyCscCscT_lin fp opt type hn).mono (by omega) (by omega) (by omega)
  · exact (copyCscTripletT_lin fp opt type hn (hp hk)).mono (by omega) (by omega) (by omega)
  · exact (copyCscDenseT_lin fp opt type hm hn (hp hk) hN).mono (by omega) (by omega) (by omega)
  · exact hE _ _ _
  · exact (copyTripletCscT_lin fp opt type hn hN).mono (by omega) (by omega) (by omega)
  · exact (copyTripletTripletT_lin fp opt type).mono (by omega) (by omega) (by omega)
  · exact (copyTripletDenseT_lin fp opt type hm hn hN).mono (by omega) (by omega) (by omega)
  · exact hE _ _ _
  · exact (copyDenseCscT_lin fp opt type hm hn hN (hd hk)).mono (by omega) (by omega) (by omega)
  · exact (copyDenseTripletT_lin fp opt type hm hn hN (hd hk)).mono (by omega) (by omega) (by omega)
  · exact (copyDenseDenseT_lin fp opt type hm hn).mono (by omega) (by omega) (by omega)
  · exact hE _ _ _
  · exact hE _ _ _
  · exact hE _ _ _
  · exact hE _ _ _
  · exact hE _ _ _

theorem SLIP_matrix_copyT_lin {kind : Kind} {Ch : Handle Mat} (hm : A.m = m) (hn : A.n = n)
    (hN : SLIP_matrix_nnz true (some A) = .ok (N : ℤ)) (hp : A.kind = .csc → Ptrs n N (deref A.p)) :
    Lin α β γ (15 * N) (17 * N + 2 * n + (if kind = .dense then m * n else 0) + 7)
      (11 * N + 2 * n + (if kind = .dense then m * n else 0) + 13)
      (SLIP_matrix_copyT α β γ fp true Ch kind type (some A) opt) (SLIP_matrix_copy fp true Ch kind type (some A) opt) := by
  unfold SLIP_matrix_copyT SLIP_matrix_copy
  simp only [Bool.not_true, Bool.false_eq_true, if_false]
  refine Lin.liftBind fun z hz => ?_
  obtain rfl : z = N := by rw [hN] at hz; exact (Except.ok.inj hz).symm
  refine Lin.ite (fun _ => (Lin.pure _).mono (Nat.zero_le _) (Nat.zero_le _) (Nat.zero_le _)) fun _ => ?_
  intro w
  obtain ⟨w', e, h⟩ := copyBodyT_lin (kind := kind) (α := α) (β := β) (γ := γ) fp opt type hm hn hN hp w
  refine ⟨w', ?_, h⟩
  unfold W.copyWrap
  rw [e]

end Slip
