import Verif.Model.Workspace

/-!
# The result does not depend on the contents of uninitialised memory
-/

namespace Slip

variable {α β γ δ σ τ : Type}

/-- `m'` does at least what `m` does: if `m` returns, `m'` returns a related result; if `m` returns
an error code, so does `m'`. -/
def CRel (R : α → β → Prop) (m : C α) (m' : C β) : Prop :=
  match m with
  | .ok a => ∃ b, m' = .ok b ∧ R a b
  | .error (.ret e) => m' = .error (.ret e)
  | .error _ => True

theorem CRel.bind {R : α → β → Prop} {S : γ → δ → Prop} {m : C α} {m' : C β} {f : α → C γ}
    {f' : β → C δ} (h : CRel R m m') (hf : ∀ a b, R a b → CRel S (f a) (f' b)) :
    CRel S (m >>= f) (m' >>= f') := by
  cases m with
  | ok a => obtain ⟨b, rfl, hb⟩ := h; exact hf a b hb
  | error e =>
    cases e with
    | ub => trivial
    | fuel => trivial
    | ret e => simp only [CRel] at h; subst h; rfl

theorem CRel.ok {R : α → β → Prop} {a : α} {b : β} (h : R a b) : CRel R (.ok a) (.ok b) :=
  ⟨b, rfl, h⟩

theorem CRel.pure {R : α → β → Prop} {a : α} {b : β} (h : R a b) :
    CRel R (pure a : C α) (pure b : C β) := ⟨b, rfl, h⟩

theorem CRel.refl (m : C α) : CRel Eq m m := by
  cases m with
  | ok a => exact ⟨a, rfl, rfl⟩
  | error e => cases e <;> simp [CRel]

theorem CRel.of_eq {m m' : C α} (h : m = m') : CRel Eq m m' := by subst h; exact CRel.refl m

theorem CRel.mono {R S : α → β → Prop} {m : C α} {m' : C β} (h : CRel R m m')
    (hi : ∀ a b, R a b → S a b) : CRel S m m' := by
  cases m with
  | ok a => obtain ⟨b, rfl, hb⟩ := h; exact ⟨b, rfl, hi _ _ hb⟩
  | error e => cases e <;> exact h

theorem CRel.ite {R : α → β → Prop} {c : Prop} [Decidable c] {m n : C α} {m' n' : C β}
    (h1 : c → CRel R m m') (h2 : ¬ c → CRel R n n') :
    CRel R (if c then m else n) (if c then m' else n') := by
  split
  · exact h1 ‹_›
  · exact h2 ‹_›

/-- `b` is `a` with some unwritten elements filled in. -/
def Fill (a b : Arr α) : Prop :=
  a.length = b.length ∧ ∀ i v, get a i = some v → get b i = some v

theorem Fill.refl (a : Arr α) : Fill a a := ⟨rfl, fun _ _ h => h⟩

theorem Fill.rd {a b : Arr α} (h : Fill a b) (i : Int) : CRel Eq (rd a i) (rd b i) := by
  unfold Slip.rd
  cases hg : get a i with
  | none => trivial
  | some v => rw [h.2 i v hg]; exact ⟨v, rfl, rfl⟩

theorem Fill.wr {a b : Arr α} (h : Fill a b) (i : Int) (v : α) : CRel Fill (wr a i v) (wr b i v) := by
  unfold Slip.wr
  split
  · rename_i hb
    rw [if_pos (by rw [← h.1]; exact hb)]
    refine ⟨_, rfl, by simp [h.1], fun j w hj => ?_⟩
    rw [get_upd hb.1 hb.2] at hj
    rw [get_upd hb.1 (by rw [← h.1]; exact hb.2)]
    split
    · rename_i e; rwa [if_pos e] at hj
    · rename_i e; rw [if_neg e] at hj; exact h.2 _ _ hj
  · trivial

theorem relForCnt {R : σ → τ → Prop} {f : Int → σ → C σ} {g : Int → τ → C τ}
    (h : ∀ i a b, R a b → CRel R (f i a) (g i b)) :
    ∀ (m : Nat) (lo : Int) (a : σ) (b : τ), R a b → CRel R (forCnt m lo a f) (forCnt m lo b g)
  | 0, _, _, _, hab => CRel.ok hab
  | m + 1, lo, a, b, hab => (h lo a b hab).bind fun _ _ hs => relForCnt h m (lo + 1) _ _ hs

theorem relFor {R : σ → τ → Prop} {f : Int → σ → C σ} {g : Int → τ → C τ} {lo hi : Int}
    {a : σ} {b : τ} (hab : R a b) (h : ∀ i a b, R a b → CRel R (f i a) (g i b)) :
    CRel R (forRange lo hi a f) (forRange lo hi b g) := relForCnt h _ _ _ _ hab

/-! ## The graph search -/

theorem dfsScan_rel {Lp Li Li' : Arr Int} (h : Fill Li Li') : ∀ (m : Nat) (p : Int),
    CRel Eq (dfsScan Lp Li m p) (dfsScan Lp Li' m p)
  | 0, _ => CRel.refl _
  | m + 1, p => by
    unfold dfsScan
    refine (h.rd p).bind ?_
    rintro i _ rfl
    refine (CRel.refl _).bind ?_
    rintro b _ rfl
    cases b
    · exact CRel.refl _
    · exact dfsScan_rel h m (p + 1)

/-- Related states of the search. -/
def DfsRel (s s' : DfsSt) : Prop :=
  s.head = s'.head ∧ s.top = s'.top ∧ s.Lp = s'.Lp ∧ Fill s.xi s'.xi

theorem dfsStep_rel {n : Int} {Li Li' pinv : Arr Int} (h : Fill Li Li') {s s' : DfsSt}
    (hs : DfsRel s s') : CRel DfsRel (dfsStep n Li pinv s) (dfsStep n Li' pinv s') := by
  obtain ⟨hd, tp, Lp, xi⟩ := s
  obtain ⟨hd', tp', Lp', xi'⟩ := s'
  obtain ⟨e1, e2, e3, hx⟩ := hs
  simp only at e1 e2 e3 hx
  subst e1 e2 e3
  unfold dfsStep
  simp only
  refine (hx.rd hd).bind ?_
  rintro j _ rfl
  refine (CRel.refl _).bind ?_
  rintro jnew _ rfl
  refine (CRel.refl _).bind ?_
  rintro b _ rfl
  refine CRel.bind (R := fun s s' => DfsRel s s' ∧ s.head = hd ∧ s.top = tp) ?_ ?_
  · cases b
    · refine (CRel.refl (mark Lp j)).bind ?_
      rintro Lp' _ rfl
      refine (CRel.refl _).bind ?_
      rintro p0 _ rfl
      refine (hx.wr _ _).bind ?_
      intro x x' hx
      exact CRel.pure ⟨⟨rfl, rfl, rfl, hx⟩, rfl, rfl⟩
    · exact CRel.pure ⟨⟨rfl, rfl, rfl, hx⟩, rfl, rfl⟩
  · rintro ⟨hd1, tp1, Lp, xi⟩ ⟨hd', tp', Lp', xi'⟩ ⟨⟨e1, e2, e3, hx⟩, e4, e5⟩
    simp only at e1 e2 e3 e4 e5 hx
    subst e4 e5 e1 e2 e3
    simp only
    refine (CRel.refl _).bind ?_
    rintro p2 _ rfl
    refine (hx.rd _).bind ?_
    rintro p _ rfl
    refine (dfsScan_rel h _ _).bind ?_
    rintro r _ rfl
    cases r with
    | none =>
      refine (hx.wr _ _).bind ?_
      intro x x' hx
      exact CRel.pure ⟨rfl, rfl, rfl, hx⟩
    | some pi =>
      obtain ⟨p, i⟩ := pi
      refine (hx.wr _ _).bind ?_
      intro x x' hx
      refine (hx.wr _ _).bind ?_
      intro x x' hx
      exact CRel.pure ⟨rfl, rfl, rfl, hx⟩

theorem dfsLoop_rel {n : Int} {Li Li' pinv : Arr Int} (h : Fill Li Li') : ∀ (f : Nat) {s s' : DfsSt},
    DfsRel s s' → CRel DfsRel (dfsLoop n Li pinv f s) (dfsLoop n Li' pinv f s')
  | 0, s, s', hs => by
    unfold dfsLoop
    rw [← hs.1]
    exact CRel.ite (fun _ => trivial) (fun _ => CRel.ok hs)
  | f + 1, s, s', hs => by
    unfold dfsLoop
    rw [← hs.1]
    exact CRel.ite (fun _ => (dfsStep_rel h hs).bind fun _ _ hs => dfsLoop_rel h f hs)
      (fun _ => CRel.ok hs)

/-- Related results of the search: equal except for the workspace. -/
def TripRel (a b : Int × Arr Int × Arr Int) : Prop := a.1 = b.1 ∧ a.2.1 = b.2.1 ∧ Fill a.2.2 b.2.2

theorem slip_dfs_rel {n : Int} {Li Li' pinv : Arr Int} (h : Fill Li Li') (top j : Int) (Lp : Arr Int)
    {xi xi' : Arr Int} (hx : Fill xi xi') :
    CRel TripRel (slip_dfs n Li pinv top j Lp xi) (slip_dfs n Li' pinv top j Lp xi') := by
  unfold slip_dfs
  refine (hx.wr _ _).bind ?_
  intro x x' hx
  refine (dfsLoop_rel h _ (s := ⟨0, top, Lp, x⟩) (s' := ⟨0, top, Lp, x'⟩) ⟨rfl, rfl, rfl, hx⟩).bind ?_
  intro s s' hs
  exact CRel.pure ⟨hs.2.1, hs.2.2.1, hs.2.2.2⟩

theorem slip_reach_rel {n : Int} {Ap Ai Li Li' pinv : Arr Int} (h : Fill Li Li') (col : Int)
    (Lp : Arr Int) {xi xi' : Arr Int} (hx : Fill xi xi') :
    CRel TripRel (slip_reach n Ap Ai Li pinv col Lp xi) (slip_reach n Ap Ai Li' pinv col Lp xi') := by
  unfold slip_reach
  refine (CRel.refl _).bind ?_
  rintro p0 _ rfl
  refine (CRel.refl _).bind ?_
  rintro p1 _ rfl
  refine CRel.bind (R := TripRel) (relFor ⟨rfl, rfl, hx⟩ ?_) ?_
  · rintro p ⟨t, l, x⟩ ⟨t', l', x'⟩ ⟨e1, e2, hx⟩
    simp only at e1 e2 hx
    subst e1 e2
    refine (CRel.refl _).bind ?_
    rintro i _ rfl
    refine (CRel.refl _).bind ?_
    rintro b _ rfl
    cases b
    · exact slip_dfs_rel h _ _ _ hx
    · exact CRel.pure ⟨rfl, rfl, hx⟩
  · rintro ⟨t, l, x⟩ ⟨t', l', x'⟩ ⟨e1, e2, hx⟩
    simp only at e1 e2 hx
    subst e1 e2
    refine CRel.bind (R := Eq) (relFor rfl ?_) ?_
    · rintro p l _ rfl
      refine (hx.rd _).bind ?_
      rintro j _ rfl
      exact CRel.refl _
    · rintro l _ rfl
      exact CRel.pure ⟨rfl, rfl, hx⟩

/-! ## The triangular solve -/

theorem rdSeg_rel {a b : Arr Int} (h : Fill a b) : ∀ (m : Nat) (lo : Int),
    CRel Eq (rdSeg a m lo) (rdSeg b m lo)
  | 0, _ => CRel.refl _
  | m + 1, lo => by
    unfold rdSeg
    refine (h.rd lo).bind ?_
    rintro v _ rfl
    refine (rdSeg_rel h m (lo + 1)).bind ?_
    rintro l _ rfl
    exact CRel.refl _

theorem wrSeg_rel : ∀ (l : List Int) {a b : Arr Int} (_ : Fill a b) (lo : Int),
    CRel Fill (wrSeg l a lo) (wrSeg l b lo)
  | [], _, _, h, _ => CRel.ok h
  | v :: l, _, _, h, lo => (h.wr lo v).bind fun _ _ h => wrSeg_rel l h (lo + 1)

theorem qsortSeg_rel {a b : Arr Int} (h : Fill a b) (top n : Int) :
    CRel Fill (qsortSeg a top n) (qsortSeg b top n) := by
  unfold qsortSeg
  refine (rdSeg_rel h _ _).bind ?_
  rintro l _ rfl
  exact wrSeg_rel _ h _

theorem solveStep_rel {Lp Li Li' Lx pinv rhos xi xi' : Arr Int} (hL : Fill Li Li') (hx : Fill xi xi')
    (k p : Int) (h x : Arr Int) :
    CRel Eq (solveStep Lp Li Lx pinv rhos xi k p h x) (solveStep Lp Li' Lx pinv rhos xi' k p h x) := by
  unfold solveStep
  refine (hx.rd _).bind ?_
  rintro j _ rfl
  refine (CRel.refl _).bind ?_
  rintro jnew _ rfl
  refine (CRel.refl _).bind ?_
  rintro xj _ rfl
  refine CRel.ite (fun _ => CRel.refl _) fun _ => CRel.ite (fun _ => ?_) fun _ => CRel.refl _
  refine (CRel.refl _).bind ?_
  rintro hj _ rfl
  refine (CRel.refl _).bind ?_
  rintro x _ rfl
  refine (CRel.refl _).bind ?_
  rintro m0 _ rfl
  refine (CRel.refl _).bind ?_
  rintro m1 _ rfl
  refine relFor rfl ?_
  rintro m s _ rfl
  refine (hL.rd _).bind ?_
  rintro i _ rfl
  exact CRel.refl _

/-- Related outputs of the triangular solve: equal except for the workspace. -/
def TriRel (a b : TriOut) : Prop :=
  a.top = b.top ∧ a.Lp = b.Lp ∧ a.h = b.h ∧ a.x = b.x ∧ Fill a.xi b.xi

/-- Related sparse matrices: equal except for unwritten row indices. -/
def CscRel (a b : Csc) : Prop :=
  a.m = b.m ∧ a.n = b.n ∧ a.nzmax = b.nzmax ∧ a.p = b.p ∧ a.x = b.x ∧ Fill a.i b.i

theorem tri_rel {L L' A : Csc} (hL : CscRel L L') (k : Int) {xi xi' : Arr Int} (hx : Fill xi xi')
    (q rhos pinv row_perm h x : Arr Int) :
    CRel TriRel (slip_ref_triangular_solve L A k xi q rhos pinv row_perm h x)
      (slip_ref_triangular_solve L' A k xi' q rhos pinv row_perm h x) := by
  obtain ⟨m, n, nzm, p, i, X⟩ := L
  obtain ⟨m', n', nzm', p', i', X'⟩ := L'
  obtain ⟨e1, e2, e3, e4, e5, hi⟩ := hL
  simp only at e1 e2 e3 e4 e5 hi
  subst e1 e2 e3 e4 e5
  unfold slip_ref_triangular_solve
  simp only
  refine (CRel.refl _).bind ?_
  rintro col _ rfl
  refine (slip_reach_rel hi _ _ hx).bind ?_
  rintro ⟨t, l, xi⟩ ⟨t', l', xi'⟩ ⟨e1, e2, hx⟩
  simp only at e1 e2 hx
  subst e1 e2
  refine CRel.bind (R := Fill) (relFor hx ?_) ?_
  · intro j a b hab
    refine (hab.rd _).bind ?_
    rintro v _ rfl
    refine (CRel.refl _).bind ?_
    rintro w _ rfl
    exact hab.wr _ _
  intro xi xi' hx
  refine (qsortSeg_rel hx _ _).bind ?_
  intro xi xi' hx
  refine CRel.bind (R := Fill) (relFor hx ?_) ?_
  · intro j a b hab
    refine (hab.rd _).bind ?_
    rintro v _ rfl
    refine (CRel.refl _).bind ?_
    rintro w _ rfl
    exact hab.wr _ _
  intro xi xi' hx
  refine CRel.bind (R := Eq) (relFor rfl ?_) ?_
  · rintro j a _ rfl
    refine (hx.rd _).bind ?_
    rintro v _ rfl
    exact CRel.refl _
  rintro x _ rfl
  refine (CRel.refl _).bind ?_
  rintro x _ rfl
  refine CRel.bind (R := Eq) (relFor rfl ?_) ?_
  · rintro j a _ rfl
    refine (hx.rd _).bind ?_
    rintro v _ rfl
    exact CRel.refl _
  rintro h _ rfl
  refine (CRel.refl _).bind ?_
  rintro a0 _ rfl
  refine (CRel.refl _).bind ?_
  rintro a1 _ rfl
  refine (CRel.refl _).bind ?_
  rintro x _ rfl
  refine CRel.bind (R := Eq) (relFor rfl ?_) ?_
  · rintro p s _ rfl
    exact solveStep_rel hi hx _ _ _ _
  rintro s _ rfl
  exact CRel.pure ⟨rfl, rfl, rfl, rfl, hx⟩

/-! ## The pivot search -/

theorem smallestInit_rel {x pivs xi xi' : Arr Int} (hx : Fill xi xi') : ∀ (m : Nat) (f : Int),
    CRel Eq (smallestInit x pivs xi m f) (smallestInit x pivs xi' m f)
  | 0, _ => CRel.refl _
  | m + 1, f => by
    unfold smallestInit
    refine (hx.rd _).bind ?_
    rintro inew _ rfl
    refine (CRel.refl _).bind ?_
    rintro v _ rfl
    refine (CRel.refl _).bind ?_
    rintro pv _ rfl
    exact CRel.ite (fun _ => CRel.refl _) fun _ => smallestInit_rel hx m (f + 1)

theorem nonzeroLoop_rel {x pivs xi xi' : Arr Int} (hx : Fill xi xi') : ∀ (m : Nat) (f : Int),
    CRel Eq (nonzeroLoop x pivs xi m f) (nonzeroLoop x pivs xi' m f)
  | 0, _ => CRel.refl _
  | m + 1, f => by
    unfold nonzeroLoop
    refine (hx.rd _).bind ?_
    rintro inew _ rfl
    refine (CRel.refl _).bind ?_
    rintro v _ rfl
    refine (CRel.refl _).bind ?_
    rintro pv _ rfl
    exact CRel.ite (fun _ => CRel.refl _) fun _ => nonzeroLoop_rel hx m (f + 1)

theorem smallest_rel {x pivs xi xi' : Arr Int} (hx : Fill xi xi') (n top : Int) :
    CRel Eq (slip_get_smallest_pivot x pivs n top xi) (slip_get_smallest_pivot x pivs n top xi') := by
  unfold slip_get_smallest_pivot
  refine CRel.bind (R := Eq) (CRel.ite (fun _ => smallestInit_rel hx _ _) fun _ => CRel.refl _) ?_
  rintro r _ rfl
  refine CRel.bind (R := Eq) (relFor rfl ?_) ?_
  · rintro i s _ rfl
    refine (hx.rd _).bind ?_
    rintro inew _ rfl
    exact CRel.refl _
  rintro s _ rfl
  exact CRel.refl _

theorem largest_rel {x pivs xi xi' : Arr Int} (hx : Fill xi xi') (n top : Int) :
    CRel Eq (slip_get_largest_pivot x pivs n top xi) (slip_get_largest_pivot x pivs n top xi') := by
  unfold slip_get_largest_pivot
  refine CRel.bind (R := Eq) (relFor rfl ?_) ?_
  · rintro i s _ rfl
    refine (hx.rd _).bind ?_
    rintro inew _ rfl
    exact CRel.refl _
  rintro s _ rfl
  exact CRel.refl _

theorem choosePivot_rel (nc : Int → Int → ℚ → Bool) (order : Pivot) (tol : Dbl) {x pivs xi xi' : Arr Int}
    (hx : Fill xi xi') (n top col : Int) :
    CRel Eq (choosePivot nc order tol x pivs n top xi col) (choosePivot nc order tol x pivs n top xi' col) := by
  cases order
  · exact smallest_rel hx _ _
  · unfold choosePivot
    simp only
    refine (CRel.refl _).bind ?_
    rintro v _ rfl
    refine (CRel.refl _).bind ?_
    rintro pv _ rfl
    exact CRel.ite (fun _ => CRel.refl _) fun _ => smallest_rel hx _ _
  · exact nonzeroLoop_rel hx _ _
  · unfold choosePivot
    simp only
    refine (smallest_rel hx _ _).bind ?_
    rintro v _ rfl
    exact CRel.refl _
  · unfold choosePivot
    simp only
    refine (largest_rel hx _ _).bind ?_
    rintro v _ rfl
    exact CRel.refl _
  · exact largest_rel hx _ _

/-! ## Populating the factors -/

theorem pushEntry_rel {M M' : Csc} (h : CscRel M M') (nz row v : Int) :
    CRel (fun a b => CscRel a b ∧ a.n = M.n) (pushEntry M nz row v) (pushEntry M' nz row v) := by
  obtain ⟨e1, e2, e3, e4, e5, hi⟩ := h
  unfold pushEntry
  refine (hi.wr _ _).bind ?_
  intro i i' hi
  rw [e5]
  refine (CRel.refl _).bind ?_
  rintro x _ rfl
  refine (CRel.refl _).bind ?_
  rintro x _ rfl
  exact CRel.pure ⟨⟨e1, e2, e3, e4, rfl, hi⟩, rfl⟩

/-- Related states of the populating loop. -/
def PopRel (N : Int) (a b : Int × Int × Csc × Csc) : Prop :=
  a.1 = b.1 ∧ a.2.1 = b.2.1 ∧ (CscRel a.2.2.1 b.2.2.1 ∧ a.2.2.1.n = N) ∧
    (CscRel a.2.2.2 b.2.2.2 ∧ a.2.2.2.n = N)

theorem popStep_rel {xi xi' : Arr Int} (hx : Fill xi xi') (pinv x : Arr Int) (k j : Int)
    {N : Int} {s s' : Int × Int × Csc × Csc} (h : PopRel N s s') :
    CRel (PopRel N) (popStep xi pinv x k j s) (popStep xi' pinv x k j s') := by
  obtain ⟨ln, un, L, U⟩ := s
  obtain ⟨ln', un', L', U'⟩ := s'
  obtain ⟨e1, e2, ⟨hL, nL⟩, hU, nU⟩ := h
  simp only at e1 e2 hL hU nL nU
  subst e1 e2
  unfold popStep
  simp only
  refine (hx.rd _).bind ?_
  rintro jn _ rfl
  refine (CRel.refl _).bind ?_
  rintro loc _ rfl
  refine CRel.bind (R := fun a b => a.1 = b.1 ∧ CscRel a.2 b.2 ∧ a.2.n = N) ?_ ?_
  · refine CRel.ite (fun _ => ?_) fun _ => CRel.pure ⟨rfl, hU, nU⟩
    refine (CRel.refl _).bind ?_
    rintro v _ rfl
    exact (pushEntry_rel hU _ _ _).bind fun _ _ h => CRel.pure ⟨rfl, h.1, h.2.trans nU⟩
  rintro ⟨un, U⟩ ⟨un', U'⟩ ⟨e, hU, nU⟩
  simp only at e hU nU
  subst e
  refine CRel.bind (R := fun a b => a.1 = b.1 ∧ CscRel a.2 b.2 ∧ a.2.n = N) ?_ ?_
  · refine CRel.ite (fun _ => ?_) fun _ => CRel.pure ⟨rfl, hL, nL⟩
    refine (CRel.refl _).bind ?_
    rintro v _ rfl
    exact (pushEntry_rel hL _ _ _).bind fun _ _ h => CRel.pure ⟨rfl, h.1, h.2.trans nL⟩
  rintro ⟨ln, L⟩ ⟨ln', L'⟩ ⟨e, hL, nL⟩
  simp only at e hL nL
  subst e
  exact CRel.pure ⟨rfl, rfl, ⟨hL, nL⟩, hU, nU⟩

/-! ## The factorization -/

theorem length_garbage (g : Arr Int) (n : Int) : (garbage g n).length = n.toNat := by
  simp [garbage]

theorem get_app_left {a b : Arr α} {i : Int} {v : α} (h : get a i = some v) :
    get (a ++ b) i = some v := by
  have hb := get_bounds h
  unfold get at h ⊢
  rw [if_neg (by omega)] at h ⊢
  rw [List.getElem?_append_left (by omega)]
  exact h

theorem get_app {a b : Arr α} {i : Int} :
    get (a ++ b) i = if i < a.length then get a i else get b (i - a.length) := by
  unfold get
  split
  · rename_i h
    split
    · rfl
    · rw [if_pos (by omega)]
  · rename_i h
    split
    · rw [List.getElem?_append_left (by omega)]
    · rw [if_neg (by omega), List.getElem?_append_right (by omega)]
      congr 2
      omega

theorem get_malloc' (n i : Int) : get (malloc Int n) i = none := by
  unfold get malloc
  split
  · rfl
  · rw [List.getElem?_replicate]; split <;> rfl

theorem Fill.append {a b : Arr Int} (h : Fill a b) (n : Int) (g : Arr Int) :
    Fill (a ++ malloc Int n) (b ++ garbage g n) := by
  refine ⟨by simp [h.1, malloc, garbage], fun i v hv => ?_⟩
  rw [get_app] at hv
  split at hv
  · exact get_app_left (h.2 i v hv)
  · rw [get_malloc'] at hv; cases hv

theorem realloc_rel {M M' : Csc} (h : CscRel M M') (g : Arr Int) :
    CscRel (slip_sparse_realloc M) (slip_sparse_reallocW g M') := by
  obtain ⟨e1, e2, e3, e4, e5, hi⟩ := h
  refine ⟨e1, e2, by simp [slip_sparse_realloc, slip_sparse_reallocW, e3], e4,
    by simp [slip_sparse_realloc, slip_sparse_reallocW, e3, e5], ?_⟩
  simp only [slip_sparse_realloc, slip_sparse_reallocW, e3]
  exact hi.append _ _

/-- Related states of the main loop. -/
structure FactRel (N : Int) (s s' : FactSt) : Prop where
  Ln : s.L.n = N
  Un : s.U.n = N
  lnz : s.lnz = s'.lnz
  unz : s.unz = s'.unz
  L : CscRel s.L s'.L
  U : CscRel s.U s'.U
  rhos : s.rhos = s'.rhos
  pinv : s.pinv = s'.pinv
  row_perm : s.row_perm = s'.row_perm
  pivs : s.pivs = s'.pivs
  h : s.h = s'.h
  xi : Fill s.xi s'.xi
  x : s.x = s'.x

theorem factStep_rel (W : Work) (nc : Int → Int → ℚ → Bool) (order : Pivot) (tol : Dbl) (A : Csc)
    (q : Arr Int) (k : Int) {s s' : FactSt} {N : Int} (h : FactRel N s s') :
    CRel (FactRel N) (factStep nc order tol A q k s) (factStepW W nc order tol A q k s') := by
  obtain ⟨ln, un, L, U, rh, pi, rp, pv, hh, xi, x⟩ := s
  obtain ⟨ln', un', L', U', rh', pi', rp', pv', hh', xi', x'⟩ := s'
  obtain ⟨nL, nU, e1, e2, hL, hU, e3, e4, e5, e6, e7, hx, e8⟩ := h
  simp only at nL nU e1 e2 hL hU e3 e4 e5 e6 e7 hx e8
  subst e1 e2 e3 e4 e5 e6 e7 e8
  unfold factStep factStepW
  simp only
  rw [hL.2.2.2.1, hU.2.2.2.1]
  refine (CRel.refl _).bind ?_
  rintro Lp _ rfl
  refine (CRel.refl _).bind ?_
  rintro Up _ rfl
  refine (CRel.refl _).bind ?_
  rintro col _ rfl
  have key : ∀ {M M' : Csc} (g : Arr Int) (nz : Int) (p : Arr Int), CscRel M M' → CscRel
      (if nz + A.n > M.nzmax then slip_sparse_realloc { M with p := p } else { M with p := p })
      (if nz + A.n > M'.nzmax then slip_sparse_reallocW g { M' with p := p }
        else { M' with p := p }) ∧
      (if nz + A.n > M.nzmax then slip_sparse_realloc { M with p := p } else { M with p := p }).n =
        M.n := by
    intro M M' g nz p hM
    obtain ⟨f1, f2, f3, f4, f5, hi⟩ := hM
    have hM' : CscRel { M with p := p } { M' with p := p } := ⟨f1, f2, f3, rfl, f5, hi⟩
    by_cases hc : nz + A.n > M'.nzmax
    · rw [if_pos hc, if_pos (by rw [f3]; exact hc)]
      exact ⟨realloc_rel hM' g, rfl⟩
    · rw [if_neg hc, if_neg (by rw [f3]; exact hc)]
      exact ⟨hM', rfl⟩
  obtain ⟨hL', nL'⟩ := key (W.tailL k) ln Lp hL
  obtain ⟨hU', nU'⟩ := key (W.tailU k) un Up hU
  refine (tri_rel hL' k hx _ _ _ _ _ _).bind ?_
  rintro t t' ⟨g1, g2, g3, g4, hx⟩
  rw [← g1, ← g2, ← g3, ← g4]
  unfold slip_get_pivot
  refine CRel.bind (R := Eq) ((choosePivot_rel nc order tol hx _ _ _).bind ?_) ?_
  · rintro p _ rfl
    exact CRel.refl _
  rintro g _ rfl
  refine CRel.bind (R := PopRel N) (relFor ⟨rfl, rfl, ⟨?_, nL'.trans nL⟩, hU', nU'.trans nU⟩ fun j a b hab =>
    popStep_rel hx _ _ _ _ hab) ?_
  · obtain ⟨f1, f2, f3, f4, f5, hi⟩ := hL'
    exact ⟨f1, f2, f3, rfl, f5, hi⟩
  rintro ⟨ln, un, L, U⟩ ⟨ln', un', L', U'⟩ ⟨f1, f2, ⟨hL, nL⟩, hU, nU⟩
  simp only at f1 f2 hL hU nL nU
  subst f1 f2
  exact CRel.pure ⟨nL, nU, rfl, rfl, hL, hU, rfl, rfl, rfl, rfl, rfl, hx, rfl⟩

theorem relForIdx {R : Int → σ → τ → Prop} {f : Int → σ → C σ} {g : Int → τ → C τ} {hi : Int}
    (h : ∀ i a b, i < hi → R i a b → CRel (R (i + 1)) (f i a) (g i b)) :
    ∀ (m : Nat) (lo : Int) (a : σ) (b : τ), lo + m = hi → R lo a b →
      CRel (R hi) (forCnt m lo a f) (forCnt m lo b g)
  | 0, lo, a, b, e, hab => by
    have : lo = hi := by simpa using e
    subst this; exact CRel.ok hab
  | m + 1, lo, a, b, e, hab => (h lo a b (by omega) hab).bind fun _ _ hs =>
      relForIdx h m (lo + 1) _ _ (by omega) hs

theorem arr_ext' {a b : Arr α} (hl : a.length = b.length)
    (h : ∀ j : Int, 0 ≤ j → j < a.length → get a j = get b j) : a = b := by
  refine List.ext_getElem hl fun t h1 h2 => ?_
  have := h t (by omega) (by omega)
  unfold get at this
  rw [if_neg (by omega), if_neg (by omega)] at this
  simpa [h1, h2] using this

/-- The first `i` elements agree. -/
def Sync (i : Int) (a b : Arr α) : Prop :=
  a.length = b.length ∧ ∀ j : Int, 0 ≤ j → j < i → get a j = get b j

theorem Sync.wr {i : Int} {a b : Arr α} (h : Sync i a b) (v : α) :
    CRel (Sync (i + 1)) (wr a i v) (wr b i v) := by
  unfold Slip.wr
  split
  · rename_i hb
    rw [if_pos (by rw [← h.1]; exact hb)]
    refine ⟨_, rfl, by simp [h.1], fun j h0 hj => ?_⟩
    rw [get_upd hb.1 hb.2, get_upd hb.1 (by rw [← h.1]; exact hb.2)]
    split
    · rfl
    · exact h.2 j h0 (by omega)
  · trivial

theorem factInit_rel {W : Work} {n : Int} (hn : 0 ≤ n) (hW : W.Sized n) (lnz unz : Int) :
    CRel (FactRel n) (factInit n lnz unz) (factInitW W n lnz unz) := by
  unfold factInit factInitW
  simp only
  have hl : (malloc Int n).length = n.toNat := by simp [malloc]
  refine CRel.bind (R := Eq) (CRel.mono (R := fun a b => Sync n a.1 b.1 ∧ Sync n a.2.1 b.2.1 ∧
    Sync n a.2.2.1 b.2.2.1 ∧ Sync n a.2.2.2 b.2.2.2 ∧ a.1.length = n.toNat ∧
    a.2.1.length = n.toNat ∧ a.2.2.1.length = n.toNat ∧ a.2.2.2.length = n.toNat) ?_ ?_) ?_
  · unfold forRange
    refine relForIdx (R := fun i (a b : Arr Int × Arr Int × Arr Int × Arr Int) =>
      Sync i a.1 b.1 ∧ Sync i a.2.1 b.2.1 ∧
      Sync i a.2.2.1 b.2.2.1 ∧ Sync i a.2.2.2 b.2.2.2 ∧ a.1.length = n.toNat ∧
      a.2.1.length = n.toNat ∧ a.2.2.1.length = n.toNat ∧ a.2.2.2.length = n.toNat) (hi := n)
      ?_ _ _ _ _ (by omega) ?_
    · rintro i ⟨a1, a2, a3, a4⟩ ⟨b1, b2, b3, b4⟩ hi ⟨h1, h2, h3, h4, l1, l2, l3, l4⟩
      simp only at h1 h2 h3 h4 l1 l2 l3 l4 ⊢
      have hlen : ∀ {a b : Arr Int} (v : Int), Sync i a b → a.length = n.toNat →
          CRel (fun a b => Sync (i + 1) a b ∧ a.length = n.toNat) (wr a i v) (wr b i v) := by
        intro a b v h l
        have := h.wr v
        unfold wr at this ⊢
        split
        · rename_i hb
          rw [if_pos hb] at this
          obtain ⟨c, e, hc⟩ := this
          exact ⟨c, e, hc, by simp [l]⟩
        · trivial
      refine (hlen _ h1 l1).bind ?_
      rintro a1 b1 ⟨h1, l1⟩
      refine (hlen _ h2 l2).bind ?_
      rintro a2 b2 ⟨h2, l2⟩
      refine (hlen _ h3 l3).bind ?_
      rintro a3 b3 ⟨h3, l3⟩
      refine (hlen _ h4 l4).bind ?_
      rintro a4 b4 ⟨h4, l4⟩
      exact CRel.pure ⟨h1, h2, h3, h4, l1, l2, l3, l4⟩
    · exact ⟨⟨by rw [hl, hW.h], fun j h0 hj => by omega⟩, ⟨by rw [hl, hW.pivs], fun j h0 hj => by omega⟩,
        ⟨by rw [hl, hW.pinv], fun j h0 hj => by omega⟩,
        ⟨by rw [hl, hW.row_perm], fun j h0 hj => by omega⟩, hl, hl, hl, hl⟩
  · rintro ⟨a1, a2, a3, a4⟩ ⟨b1, b2, b3, b4⟩ ⟨h1, h2, h3, h4, l1, l2, l3, l4⟩
    simp only at h1 h2 h3 h4 l1 l2 l3 l4
    have key : ∀ {a b : Arr Int}, Sync n a b → a.length = n.toNat → a = b := fun h l =>
      arr_ext' h.1 fun j h0 hj => h.2 j h0 (by omega)
    rw [key h1 l1, key h2 l2, key h3 l3, key h4 l4]
  · rintro s _ rfl
    refine (CRel.refl _).bind ?_
    rintro x _ rfl
    refine CRel.pure ⟨rfl, rfl, rfl, rfl, ⟨rfl, rfl, rfl, rfl, rfl, Fill.refl _⟩,
      ⟨rfl, rfl, rfl, rfl, rfl, Fill.refl _⟩, rfl, rfl, rfl, rfl, rfl, ?_, rfl⟩
    refine ⟨by simp [malloc, hW.xi], fun i v hv => ?_⟩
    rw [get_malloc'] at hv; cases hv

theorem Fill.take {a b : Arr α} (h : Fill a b) (m : ℕ) : Fill (a.take m) (b.take m) := by
  refine ⟨by simp [h.1], fun i v hv => ?_⟩
  have hb := get_bounds hv
  have := h.2 i v ?_
  · unfold get at this ⊢
    rw [if_neg (by omega)] at this ⊢
    rw [List.getElem?_take]
    rw [List.length_take] at hb
    rw [if_pos (by omega)]
    exact this
  · unfold get at hv ⊢
    rw [if_neg (by omega)] at hv ⊢
    rw [List.getElem?_take] at hv
    split at hv
    · exact hv
    · cases hv

theorem collapse_rel {M M' : Csc} (h : CscRel M M') {nz : Int} (hp : get M.p M.n = some nz) :
    CRel (fun a b => CscRel a b ∧ (a.i.length : Int) ≤ max nz 0)
      (slip_sparse_collapse M) (slip_sparse_collapse M') := by
  obtain ⟨e1, e2, e3, e4, e5, hi⟩ := h
  unfold slip_sparse_collapse
  rw [← e4, ← e2, rd_eq hp]
  refine CRel.pure ⟨⟨e1, rfl, rfl, rfl, by rw [e5], hi.take _⟩, ?_⟩
  simp only [List.length_take]
  omega

theorem permuteRows_rel {M M' : Csc} (h : CscRel M M') (pinv : Arr Int) {nz : Int}
    (hl : (M.i.length : Int) ≤ max nz 0) : CRel Eq (permuteRows M pinv nz) (permuteRows M' pinv nz) := by
  obtain ⟨e1, e2, e3, e4, e5, hi⟩ := h
  unfold permuteRows
  refine CRel.bind (R := Eq) (CRel.mono (R := fun a b => Fill a b ∧ (a.length : Int) ≤ max nz 0 ∧
    ∀ j : Int, 0 ≤ j → j < max nz 0 → ∃ v, get a j = some v) ?_ ?_) ?_
  · unfold forRange
    refine relForIdx (R := fun i (a b : Arr Int) => Fill a b ∧ (a.length : Int) ≤ max nz 0 ∧
      ∀ j : Int, 0 ≤ j → j < i → ∃ v, get a j = some v) (hi := max nz 0) ?_ _ _ _ _ (by omega) ?_
    · rintro i a b hi ⟨h1, h2, h3⟩
      refine (h1.rd _).bind ?_
      rintro v _ rfl
      refine (CRel.refl _).bind ?_
      rintro w _ rfl
      have hw := h1.wr i w
      unfold wr at hw ⊢
      split
      · rename_i hb
        rw [if_pos hb] at hw
        obtain ⟨c, e, hc⟩ := hw
        refine ⟨c, e, hc, by rw [length_upd]; exact h2, fun j h0 hj => ?_⟩
        rw [get_upd hb.1 hb.2]
        split
        · exact ⟨_, rfl⟩
        · exact h3 j h0 (by omega)
      · trivial
    · exact ⟨hi, hl, fun j h0 hj => by omega⟩
  · rintro a b ⟨h1, h2, h3⟩
    refine arr_ext' h1.1 fun j h0 hj => ?_
    obtain ⟨v, hv⟩ := h3 j h0 (by omega)
    rw [hv, h1.2 j v hv]
  · rintro i _ rfl
    refine CRel.pure ?_
    rw [e1, e2, e3, e4, e5]

theorem factorize_rel {W : Work} (nc : Int → Int → ℚ → Bool) (order : Pivot) (tol : Dbl) {A : Csc}
    (hn : 0 ≤ A.n) (hW : W.Sized A.n) (q : Arr Int) (lnz unz : Int) :
    CRel Eq (factorize nc order tol A q lnz unz) (factorizeW W nc order tol A q lnz unz) := by
  unfold factorize factorizeW
  simp only
  refine (factInit_rel hn hW lnz unz).bind ?_
  intro s s' hs
  refine CRel.bind (R := FactRel A.n) (relFor hs fun k a b hab => factStep_rel W nc order tol A q k hab) ?_
  intro s s' hs
  obtain ⟨nL, nU, e1, e2, hL, hU, e3, e4, -, -, -, -, -⟩ := hs
  rw [← e1, ← e2, ← e3, ← e4, hL.2.2.2.1, hU.2.2.2.1]
  refine CRel.bind (R := fun p p' => p = p' ∧ get p A.n = some s.lnz) ?_ ?_
  · unfold wr
    split
    · rename_i hb
      exact ⟨_, rfl, rfl, by rw [get_upd_self hb.1 hb.2]⟩
    · trivial
  rintro Lp _ ⟨rfl, hLp⟩
  refine CRel.bind (R := fun p p' => p = p' ∧ get p A.n = some s.unz) ?_ ?_
  · unfold wr
    split
    · rename_i hb
      exact ⟨_, rfl, rfl, by rw [get_upd_self hb.1 hb.2]⟩
    · trivial
  rintro Up _ ⟨rfl, hUp⟩
  have hL' : CscRel { s.L with p := Lp } { s'.L with p := Lp } :=
    ⟨hL.1, hL.2.1, hL.2.2.1, rfl, hL.2.2.2.2.1, hL.2.2.2.2.2⟩
  have hU' : CscRel { s.U with p := Up } { s'.U with p := Up } :=
    ⟨hU.1, hU.2.1, hU.2.2.1, rfl, hU.2.2.2.2.1, hU.2.2.2.2.2⟩
  refine (collapse_rel hL' (nz := s.lnz) (by simp only; rw [nL]; exact hLp)).bind ?_
  rintro L L' ⟨hL, lL⟩
  refine (collapse_rel hU' (nz := s.unz) (by simp only; rw [nU]; exact hUp)).bind ?_
  rintro U U' ⟨hU, lU⟩
  refine (permuteRows_rel hL _ lL).bind ?_
  rintro L _ rfl
  refine (permuteRows_rel hU _ lU).bind ?_
  rintro U _ rfl
  exact CRel.refl _

end Slip
