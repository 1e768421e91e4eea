import Verif.Proof.Machine

/-!
# 64-bit arithmetic: the factorization
-/

namespace Slip.M64
variable {α β σ : Type}

theorem Agree.ite {c : Prop} [Decidable c] {a' a b' b : C α} {Q : α → Prop}
    (h1 : c → Agree a' a Q) (h2 : ¬c → Agree b' b Q) :
    Agree (if c then a' else b') (if c then a else b) Q := by
  by_cases h : c
  · rw [if_pos h, if_pos h]; exact h1 h
  · rw [if_neg h, if_neg h]; exact h2 h

/-! ## slip_dfs and slip_reach -/

theorem dfsScan_some {Lp Li : Arr Int} : ∀ {m : ℕ} {p p' i : Int},
    dfsScan Lp Li m p = .ok (some (p', i)) → get Li p' = some i
  | 0, p, p', i, h => by cases h
  | m + 1, p, p', i, h => by
    unfold dfsScan at h
    cases e : rd Li p with
    | error e' => rw [e] at h; cases h
    | ok v =>
      rw [e, ok_bind] at h
      cases e2 : marked Lp v with
      | error e' => rw [e2] at h; cases h
      | ok b =>
        rw [e2, ok_bind] at h
        cases b
        · cases h; exact rd_ok e
        · exact dfsScan_some h

/-- What the depth-first search keeps: small entries, and `top` in range. -/
structure DInv (n : Int) (l x : ℕ) (s : DfsSt) : Prop where
  Lp : SmA s.Lp
  xi : SmA s.xi
  top0 : 0 ≤ s.top
  top1 : s.top ≤ n
  lenL : s.Lp.length = l
  lenX : s.xi.length = x

theorem agree_dfsStep {n : Int} {l x : ℕ} {Li pinv : Arr Int} {s : DfsSt} (hn : 0 ≤ n ∧ n ≤ 2 ^ 60)
    (hx : (x : Int) ≤ 2 ^ 60) (hLi : SmA Li) (hLl : (Li.length : Int) ≤ 2 ^ 60) (hpi : SmA pinv)
    (h : DInv n l x s) :
    Agree (dfsStep64 n Li pinv s) (dfsStep n Li pinv s) (DInv n l x) := by
  unfold dfsStep64 dfsStep
  refine agree_rd fun j hj hj0 hj1 => ?_
  refine agree_rd fun jnew hjn _ _ => ?_
  have hsm := hpi _ _ hjn
  rw [h.lenX] at hj1
  have hsm' := hsm
  unfold Sm at hsm'
  refine agree_same fun b => ?_
  refine Agree.bind (P := fun s' => DInv n l x s' ∧ s'.head = s.head) ?_ ?_
  · refine Agree.ite (fun _ => Agree.pure s ⟨h, rfl⟩) fun _ => ?_
    refine agree_mark h.Lp fun Lp' hL hl _ _ => ?_
    refine Agree.bind (P := Sm) ?_ ?_
    · refine Agree.ite (fun _ => Agree.pure 0 ⟨by norm_num, by norm_num⟩) fun _ => ?_
      refine agree_rd fun v hv _ _ => ?_
      rw [unflip64_eq (hL _ _ hv)]
      exact Agree.ok _ (hL _ _ hv).unflip
    · intro p0 hp0
      refine agree_i64 (by omega) ?_
      refine agree_wr fun h0 h1 => ?_
      exact Agree.pure _ ⟨⟨hL, h.xi.upd h0 h1 hp0, h.top0, h.top1, by rw [hl, h.lenL], by simp [h.lenX]⟩, rfl⟩
  · rintro s' ⟨h', hh⟩
    rw [← hh] at hj0 hj1
    refine Agree.bind (P := fun _ => True) ?_ ?_
    · refine Agree.ite (fun _ => Agree.pure 0 trivial) fun _ => ?_
      refine agree_i64 (by omega) ?_
      refine agree_rd fun v hv _ _ => ?_
      rw [unflip64_eq (h'.Lp _ _ hv)]
      exact Agree.ok _ trivial
    · intro p2 _
      refine agree_i64 (by omega) ?_
      refine agree_rd fun p hp _ _ => ?_
      refine Agree.bind (Agree.refl _) fun r hr => ?_
      cases r with
      | some pi =>
        obtain ⟨p', i⟩ := pi
        have hg := dfsScan_some hr
        have hb := get_bounds hg
        refine agree_wr fun h0 h1 => ?_
        refine agree_i64 (by omega) ?_
        refine agree_wr fun h2 h3 => ?_
        exact Agree.pure _ ⟨h'.Lp, (h'.xi.upd h0 h1 (sm_of_lt hb.1 hb.2 hLl)).upd h2 h3 (hLi _ _ hg),
          h'.top0, h'.top1, h'.lenL, by simp [h'.lenX]⟩
      | none =>
        have := h'.top0
        have := h'.top1
        refine agree_i64 (by omega) ?_
        refine agree_wr fun h0 h1 => ?_
        refine agree_i64 (by omega) ?_
        have hjs : Sm j := h.xi _ _ hj
        exact Agree.pure _ ⟨h'.Lp, h'.xi.upd h0 h1 hjs, h0, by show s'.top - 1 ≤ n; omega, h'.lenL,
          by simp [h'.lenX]⟩

theorem agree_dfsLoop {n : Int} {l x : ℕ} {Li pinv : Arr Int} (hn : 0 ≤ n ∧ n ≤ 2 ^ 60)
    (hx : (x : Int) ≤ 2 ^ 60) (hLi : SmA Li) (hLl : (Li.length : Int) ≤ 2 ^ 60) (hpi : SmA pinv) :
    ∀ (f : ℕ) (s : DfsSt), DInv n l x s →
      Agree (dfsLoop64 n Li pinv f s) (dfsLoop n Li pinv f s) (DInv n l x)
  | 0, s, h => by
    unfold dfsLoop64 dfsLoop
    exact Agree.ite (fun _ => Agree.error _) fun _ => Agree.ok _ h
  | f + 1, s, h => by
    unfold dfsLoop64 dfsLoop
    refine Agree.ite (fun _ => ?_) fun _ => Agree.ok _ h
    exact Agree.bind (agree_dfsStep hn hx hLi hLl hpi h) fun s' h' =>
      agree_dfsLoop hn hx hLi hLl hpi f s' h'

/-- What `slip_reach` keeps: small entries, and `top` in range. -/
structure RInv (n : Int) (l x : ℕ) (s : Int × Arr Int × Arr Int) : Prop where
  Lp : SmA s.2.1
  xi : SmA s.2.2
  top0 : 0 ≤ s.1
  top1 : s.1 ≤ n
  lenL : s.2.1.length = l
  lenX : s.2.2.length = x

theorem agree_dfs {n : Int} {l x : ℕ} {Li pinv : Arr Int} (hn : 0 ≤ n ∧ n ≤ 2 ^ 60)
    (hx : (x : Int) ≤ 2 ^ 60) (hLi : SmA Li) (hLl : (Li.length : Int) ≤ 2 ^ 60) (hpi : SmA pinv)
    {top j : Int} {Lp xi : Arr Int} (hj : Sm j) (h : RInv n l x (top, Lp, xi)) :
    Agree (slip_dfs64 n Li pinv top j Lp xi) (slip_dfs n Li pinv top j Lp xi) (RInv n l x) := by
  unfold slip_dfs64 slip_dfs
  refine agree_wr fun h0 h1 => ?_
  refine Agree.bind (agree_dfsLoop hn hx hLi hLl hpi _ _
    (⟨h.Lp, h.xi.upd h0 h1 hj, h.top0, h.top1, h.lenL, by simpa using h.lenX⟩ : DInv n l x _)) fun s' h' => ?_
  exact Agree.pure _ ⟨h'.Lp, h'.xi, h'.top0, h'.top1, h'.lenL, h'.lenX⟩

theorem agree_reach {n : Int} {l x : ℕ} {Ap Ai Li pinv : Arr Int} (hn : 0 ≤ n ∧ n ≤ 2 ^ 60)
    (hl : (l : Int) ≤ 2 ^ 60) (hx : (x : Int) ≤ 2 ^ 60)
    (hLi : SmA Li) (hLl : (Li.length : Int) ≤ 2 ^ 60) (hpi : SmA pinv)
    {col : Int} (hc : Sm col) {Lp xi : Arr Int} (h : RInv n l x (n, Lp, xi)) :
    Agree (slip_reach64 n Ap Ai Li pinv col Lp xi) (slip_reach n Ap Ai Li pinv col Lp xi)
      (RInv n l x) := by
  unfold slip_reach64 slip_reach
  unfold Sm at hc
  refine agree_rd fun p0 _ _ _ => ?_
  refine agree_i64 (by omega) ?_
  refine agree_rd fun p1 _ _ _ => ?_
  refine Agree.bind (P := RInv n l x) ?_ ?_
  · refine agree_loop (RInv n l x) h ?_
    rintro p ⟨top, Lp, xi⟩ _ _ hs
    refine agree_rd fun i hi _ _ => ?_
    refine Agree.bind (Agree.refl _) fun b hb => ?_
    have hbi : 0 ≤ i ∧ i < (Lp.length : Int) := by
      unfold marked at hb
      cases e : rd Lp i with
      | error _ => rw [e] at hb; cases hb
      | ok v => exact get_bounds (rd_ok e)
    refine Agree.ite (fun _ => Agree.pure _ hs) fun _ => ?_
    refine agree_dfs hn hx hLi hLl hpi (sm_of_lt hbi.1 hbi.2 ?_) hs
    have := hs.lenL
    simp only at this
    rw [this]; exact hl
  · rintro ⟨top, Lp, xi⟩ hs
    dsimp only
    refine Agree.bind (P := fun Lp' => SmA Lp' ∧ Lp'.length = l) ?_ ?_
    · refine agree_loop (fun Lp' => SmA Lp' ∧ Lp'.length = l) ⟨hs.Lp, hs.lenL⟩ ?_
      rintro p Lp' _ _ ⟨hL, hl'⟩
      refine agree_rd fun j _ _ _ => ?_
      have := agree_mark (j := j) (f' := pure) (f := pure) (Q := fun Lp' => SmA Lp' ∧ Lp'.length = l) hL
        fun Lp'' h1 h2 _ _ => Agree.pure _ ⟨h1, by rw [h2, hl']⟩
      simpa only [bind_pure] using this
    · rintro Lp' ⟨hL, hl'⟩
      exact Agree.pure _ ⟨hL, hs.xi, hs.top0, hs.top1, hl', hs.lenX⟩

/-! ## slip_ref_triangular_solve -/

theorem rdSeg_sm {a : Arr Int} (ha : SmA a) : ∀ {m : ℕ} {lo : Int} {l : List Int},
    rdSeg a m lo = .ok l → ∀ v ∈ l, Sm v
  | 0, lo, l, h => by cases h; simp
  | m + 1, lo, l, h => by
    unfold rdSeg at h
    cases e : rd a lo with
    | error e' => rw [e] at h; cases h
    | ok v =>
      rw [e, ok_bind] at h
      cases e2 : rdSeg a m (lo + 1) with
      | error e' => rw [e2] at h; cases h
      | ok l' =>
        rw [e2, ok_bind] at h
        cases h
        intro w hw
        rcases List.mem_cons.mp hw with rfl | hw
        · exact ha _ _ (rd_ok e)
        · exact rdSeg_sm ha e2 w hw

theorem wrSeg_sm : ∀ {l : List Int} {a a' : Arr Int} {lo : Int}, (∀ v ∈ l, Sm v) → SmA a →
    wrSeg l a lo = .ok a' → SmA a' ∧ a'.length = a.length
  | [], a, a', lo, _, ha, h => by cases h; exact ⟨ha, rfl⟩
  | v :: l, a, a', lo, hl, ha, h => by
    unfold wrSeg at h
    cases e : wr a lo v with
    | error e' => rw [e] at h; cases h
    | ok b =>
      rw [e, ok_bind] at h
      obtain ⟨h0, h1, rfl⟩ := wr_ok e
      obtain ⟨h2, h3⟩ := wrSeg_sm (fun w hw => hl w (List.mem_cons_of_mem _ hw))
        (ha.upd h0 h1 (hl v List.mem_cons_self)) h
      exact ⟨h2, by rw [h3]; simp⟩

theorem agree_qsort {xi : Arr Int} (hx : SmA xi) {top n : Int} (ht : 0 ≤ top) (htn : top ≤ n)
    (hn : n ≤ 2 ^ 60) :
    Agree (qsortSeg64 xi top n) (qsortSeg xi top n) (fun a => SmA a ∧ a.length = xi.length) := by
  unfold qsortSeg64
  refine agree_i64 (by omega) ?_
  refine Agree.of_wp fun a h => ?_
  unfold qsortSeg at h
  cases e : rdSeg xi (n - top).toNat top with
  | error e' => rw [e] at h; cases h
  | ok l =>
    rw [e, ok_bind] at h
    refine wrSeg_sm (fun v hv => ?_) hx h
    rw [List.mem_insertionSort] at hv
    exact rdSeg_sm hx e v hv

theorem agree_hist {rhos x : Arr Int} {j hj s : Int} (hs : Sm s) :
    Agree (histUpdate64 rhos x j hj s) (histUpdate rhos x j hj s) (fun _ => True) := by
  unfold histUpdate64 histUpdate
  unfold Sm at hs
  refine agree_i64 (by omega) ?_
  refine Agree.ite (fun _ => ?_) fun _ => Agree.pure _ trivial
  exact Agree.of_wp fun _ _ => trivial

theorem agree_ipge {rhos h x : Arr Int} {i j jnew lij : Int} (hs : Sm jnew) :
    Agree (ipgeUpdate64 rhos h x i j jnew lij) (ipgeUpdate rhos h x i j jnew lij) (fun _ => True) := by
  unfold ipgeUpdate64 ipgeUpdate
  have hs' := hs
  unfold Sm at hs'
  refine agree_same fun xi => ?_
  refine Agree.ite (fun _ => ?_) fun _ => ?_
  · refine Agree.ite (fun _ => Agree.of_wp fun _ _ => trivial) fun _ => ?_
    refine agree_same fun _ => agree_same fun _ => agree_same fun _ => ?_
    refine agree_i64 (by omega) ?_
    exact Agree.of_wp fun _ _ => trivial
  · refine Agree.ite (fun _ => Agree.of_wp fun _ _ => trivial) fun _ => ?_
    refine agree_same fun _ => ?_
    refine Agree.bind (agree_hist hs) fun _ _ => ?_
    refine agree_same fun _ => agree_same fun _ => agree_same fun _ => agree_same fun _ =>
      agree_same fun _ => agree_same fun _ => agree_same fun _ => ?_
    refine agree_i64 (by omega) ?_
    exact Agree.of_wp fun _ _ => trivial

theorem agree_solveStep {Lp Li Lx pinv rhos xi : Arr Int} {k p : Int} {h x : Arr Int} (hpi : SmA pinv)
    (hk : Sm k) :
    Agree (solveStep64 Lp Li Lx pinv rhos xi k p h x) (solveStep Lp Li Lx pinv rhos xi k p h x)
      (fun _ => True) := by
  unfold solveStep64 solveStep
  refine agree_same fun j => ?_
  refine agree_rd fun jnew hj _ _ => ?_
  have hs := hpi _ _ hj
  have hs' := hs
  unfold Sm at hs'
  refine agree_same fun xj => ?_
  refine Agree.ite (fun _ => Agree.pure _ trivial) fun _ => ?_
  refine Agree.ite (fun _ => ?_) fun _ => ?_
  · refine agree_same fun hj => ?_
    refine Agree.bind (agree_hist hs) fun x _ => ?_
    refine agree_same fun m0 => ?_
    refine agree_i64 (by omega) ?_
    refine agree_same fun m1 => ?_
    refine agree_loop (fun _ => True) trivial ?_
    rintro m ⟨h, x⟩ _ _ _
    refine agree_same fun i => agree_same fun inew => ?_
    refine Agree.ite (fun _ => ?_) fun _ => Agree.pure _ trivial
    refine agree_same fun lij => ?_
    exact Agree.ite (fun _ => Agree.pure _ trivial) fun _ => agree_ipge hs
  · refine agree_same fun hj => ?_
    refine Agree.bind (agree_hist hk) fun x _ => ?_
    exact Agree.pure _ trivial

/-- What the triangular solve returns: small entries, and `top` in range. -/
structure TInv (n : Int) (l x : ℕ) (t : TriOut) : Prop where
  Lp : SmA t.Lp
  xi : SmA t.xi
  top0 : 0 ≤ t.top
  top1 : t.top ≤ n
  lenL : t.Lp.length = l
  lenX : t.xi.length = x

theorem agree_tri {L A : Csc} {k : Int} {xi q rhos pinv row_perm h x : Arr Int} {l xn : ℕ}
    (hn : 0 ≤ A.n ∧ A.n ≤ 2 ^ 60) (hLn : L.n = A.n) (hl : (l : Int) ≤ 2 ^ 60) (hx : (xn : Int) ≤ 2 ^ 60)
    (hq : ∀ c, get q k = some c → Sm c) (hLi : SmA L.i) (hLl : (L.i.length : Int) ≤ 2 ^ 60)
    (hpi : SmA pinv) (hrp : SmA row_perm) (hk : Sm k)
    (hLp : SmA L.p) (hxi : SmA xi) (hLpl : L.p.length = l) (hxl : xi.length = xn) :
    Agree (slip_ref_triangular_solve64 L A k xi q rhos pinv row_perm h x)
      (slip_ref_triangular_solve L A k xi q rhos pinv row_perm h x) (TInv A.n l xn) := by
  unfold slip_ref_triangular_solve64 slip_ref_triangular_solve
  rw [hLn]
  refine agree_rd fun col hcol _ _ => ?_
  have hcs := hq _ hcol
  refine Agree.bind (agree_reach hn hl hx hLi hLl hpi hcs (⟨hLp, hxi, hn.1, le_refl _, hLpl, hxl⟩ :
    RInv A.n l xn _)) ?_
  rintro ⟨top, Lp, xi⟩ hs
  obtain ⟨s1, s2, s3, s4, s5, s6⟩ := hs
  dsimp only at s1 s2 s3 s4 s5 s6 ⊢
  refine Agree.bind (P := fun a => SmA a ∧ a.length = xn) ?_ ?_
  · refine agree_loop (fun a => SmA a ∧ a.length = xn) ⟨s2, s6⟩ ?_
    rintro j a _ _ ⟨ha, hl⟩
    refine agree_same fun v => ?_
    refine agree_rd fun w hw _ _ => ?_
    refine Agree.of_wp fun a' h' => ?_
    obtain ⟨h0, h1, rfl⟩ := wr_ok h'
    exact ⟨ha.upd h0 h1 (hpi _ _ hw), by simpa using hl⟩
  rintro a ⟨ha, hal⟩
  refine Agree.bind (agree_qsort ha s3 s4 hn.2) ?_
  rintro b ⟨hb, hbl⟩
  rw [hal] at hbl
  refine Agree.bind (P := fun a => SmA a ∧ a.length = xn) ?_ ?_
  · refine agree_loop (fun a => SmA a ∧ a.length = xn) ⟨hb, hbl⟩ ?_
    rintro j a _ _ ⟨ha, hl⟩
    refine agree_same fun v => ?_
    refine agree_rd fun w hw _ _ => ?_
    refine Agree.of_wp fun a' h' => ?_
    obtain ⟨h0, h1, rfl⟩ := wr_ok h'
    exact ⟨ha.upd h0 h1 (hrp _ _ hw), by simpa using hl⟩
  rintro c ⟨hc, hcl⟩
  refine agree_same fun x => agree_same fun x => agree_same fun h => ?_
  refine agree_rd fun a0 _ h0 h1 => ?_
  unfold Sm at hcs
  refine agree_i64 (by omega) ?_
  refine agree_same fun a1 => agree_same fun x => ?_
  refine Agree.bind (P := fun _ => True) ?_ ?_
  · refine agree_loop (fun _ => True) trivial ?_
    rintro p ⟨h, x⟩ _ _ _
    exact agree_solveStep hpi hk
  · rintro ⟨h, x⟩ _
    exact Agree.pure _ ⟨s1, hc, s3, s4, s5, hcl⟩

/-! ## The pivot search -/

theorem agree_smallestInit {x pivs xi : Arr Int} (hx : (xi.length : Int) ≤ 2 ^ 60) : ∀ (m : ℕ) (fl : Int),
    Agree (smallestInit64 x pivs xi m fl) (smallestInit x pivs xi m fl) (fun _ => True)
  | 0, fl => Agree.ok _ trivial
  | m + 1, fl => by
    unfold smallestInit64 smallestInit
    refine agree_rd fun inew _ h0 h1 => ?_
    refine agree_same fun v => agree_same fun pv => ?_
    refine Agree.ite (fun _ => Agree.pure _ trivial) fun _ => ?_
    refine agree_i64 (by omega) ?_
    exact agree_smallestInit hx m _

theorem agree_smallest {x pivs xi : Arr Int} {n top : Int} (hx : (xi.length : Int) ≤ 2 ^ 60) :
    Agree (slip_get_smallest_pivot64 x pivs n top xi) (slip_get_smallest_pivot x pivs n top xi)
      (fun _ => True) := by
  unfold slip_get_smallest_pivot64 slip_get_smallest_pivot
  refine Agree.bind (P := fun _ => True) ?_ fun r _ => Agree.of_wp fun _ _ => trivial
  exact Agree.ite (fun _ => agree_smallestInit hx _ _) fun _ => Agree.pure _ trivial

theorem agree_choose {nc : Int → Int → ℚ → Bool} {order : Pivot} {tol : Dbl} {x pivs xi : Arr Int}
    {n top col : Int} (hx : (xi.length : Int) ≤ 2 ^ 60) :
    Agree (choosePivot64 nc order tol x pivs n top xi col) (choosePivot nc order tol x pivs n top xi col)
      (fun _ => True) := by
  cases order <;> unfold choosePivot64 choosePivot <;> dsimp only
  · exact agree_smallest hx
  · refine agree_same fun v => agree_same fun pv => ?_
    exact Agree.ite (fun _ => Agree.pure _ trivial) fun _ => agree_smallest hx
  · exact Agree.of_wp fun _ _ => trivial
  · exact Agree.bind (agree_smallest hx) fun _ _ => Agree.of_wp fun _ _ => trivial
  · exact Agree.of_wp fun _ _ => trivial
  · exact Agree.of_wp fun _ _ => trivial

theorem agree_pivot {nc : Int → Int → ℚ → Bool} {order : Pivot} {tol : Dbl} {x pivs xi : Arr Int}
    {n top col k : Int} {rhos pinv row_perm : Arr Int} (hx : (xi.length : Int) ≤ 2 ^ 60)
    (hpi : SmA pinv) (hrp : SmA row_perm) (hpl : (pinv.length : Int) ≤ 2 ^ 60) (hk : Sm k) :
    Agree (slip_get_pivot64 nc order tol x pivs n top xi col k rhos pinv row_perm)
      (slip_get_pivot nc order tol x pivs n top xi col k rhos pinv row_perm)
      (fun g => SmA g.pinv ∧ SmA g.row_perm ∧ g.pinv.length = pinv.length) := by
  unfold slip_get_pivot64 slip_get_pivot
  refine Agree.bind (agree_choose hx) fun pivot _ => ?_
  refine agree_rd fun a ha hp0 hp1 => ?_
  refine agree_rd fun b hb _ _ => ?_
  refine agree_wr fun h0 h1 => ?_
  refine agree_wr fun h2 h3 => ?_
  refine agree_wr fun h4 h5 => ?_
  refine agree_wr fun h6 h7 => ?_
  refine agree_same fun pivs => agree_same fun v => agree_same fun rh => agree_same fun rh => ?_
  exact Agree.pure _ ⟨(hpi.upd h4 h5 hk).upd h6 h7 (hpi _ _ ha),
    (hrp.upd h0 h1 (sm_of_lt hp0 hp1 hpl)).upd h2 h3 (hrp _ _ hb), by simp⟩

end Slip.M64
