import Verif.Proof.StoreFact

/-!
# Simulation of the value model by the heap model: SLIP_LU_factorize
-/

namespace Slip.Store

variable {α β γ δ σ τ : Type} {h0 h : Heap}

theorem slot_ext (l1 l2 : List (Arr Int)) (lq : List (Arr ℚ)) :
    Slot h0 (fun a => ext h0 (l1 ++ a :: l2) lq) (h0.nz + l1.length) where
  get a := ext_z (by simp)
  put a b := by rw [ext_put (by simp)]; simp
  fr a := ext_frame ..

theorem slotq_ext (l : List (Arr Int)) (l1 l2 : List (Arr ℚ)) :
    Slotq h0 (fun a => ext h0 l (l1 ++ a :: l2)) (h0.nq + l1.length) where
  get a := ext_q (by simp)
  put a b := by rw [ext_putq (by simp)]; simp
  fr a := ext_frame ..

/-- The heap during the main loop of the factorization. -/
def WF (h0 : Heap) (pinv pivs h xi rp rhos Lp Li Lx Up Ui Ux x : Arr Int) : Heap :=
  ext h0 [pinv, pivs, h, xi, rp, rhos, Lp, Li, Lx, Up, Ui, Ux, x] []

section slots
variable {a0 a1 a2 a3 a4 a5 a6 a7 a8 a9 a10 a11 a12 : Arr Int}

theorem sl0 : Slot h0 (fun a => WF h0 a a1 a2 a3 a4 a5 a6 a7 a8 a9 a10 a11 a12) (h0.nz + 0) :=
  slot_ext [] [a1, a2, a3, a4, a5, a6, a7, a8, a9, a10, a11, a12] []
theorem sl1 : Slot h0 (fun a => WF h0 a0 a a2 a3 a4 a5 a6 a7 a8 a9 a10 a11 a12) (h0.nz + 1) :=
  slot_ext [a0] [a2, a3, a4, a5, a6, a7, a8, a9, a10, a11, a12] []
theorem sl2 : Slot h0 (fun a => WF h0 a0 a1 a a3 a4 a5 a6 a7 a8 a9 a10 a11 a12) (h0.nz + 2) :=
  slot_ext [a0, a1] [a3, a4, a5, a6, a7, a8, a9, a10, a11, a12] []
theorem sl3 : Slot h0 (fun a => WF h0 a0 a1 a2 a a4 a5 a6 a7 a8 a9 a10 a11 a12) (h0.nz + 3) :=
  slot_ext [a0, a1, a2] [a4, a5, a6, a7, a8, a9, a10, a11, a12] []
theorem sl4 : Slot h0 (fun a => WF h0 a0 a1 a2 a3 a a5 a6 a7 a8 a9 a10 a11 a12) (h0.nz + 4) :=
  slot_ext [a0, a1, a2, a3] [a5, a6, a7, a8, a9, a10, a11, a12] []
theorem sl5 : Slot h0 (fun a => WF h0 a0 a1 a2 a3 a4 a a6 a7 a8 a9 a10 a11 a12) (h0.nz + 5) :=
  slot_ext [a0, a1, a2, a3, a4] [a6, a7, a8, a9, a10, a11, a12] []
theorem sl6 : Slot h0 (fun a => WF h0 a0 a1 a2 a3 a4 a5 a a7 a8 a9 a10 a11 a12) (h0.nz + 6) :=
  slot_ext [a0, a1, a2, a3, a4, a5] [a7, a8, a9, a10, a11, a12] []
theorem sl7 : Slot h0 (fun a => WF h0 a0 a1 a2 a3 a4 a5 a6 a a8 a9 a10 a11 a12) (h0.nz + 7) :=
  slot_ext [a0, a1, a2, a3, a4, a5, a6] [a8, a9, a10, a11, a12] []
theorem sl8 : Slot h0 (fun a => WF h0 a0 a1 a2 a3 a4 a5 a6 a7 a a9 a10 a11 a12) (h0.nz + 8) :=
  slot_ext [a0, a1, a2, a3, a4, a5, a6, a7] [a9, a10, a11, a12] []
theorem sl9 : Slot h0 (fun a => WF h0 a0 a1 a2 a3 a4 a5 a6 a7 a8 a a10 a11 a12) (h0.nz + 9) :=
  slot_ext [a0, a1, a2, a3, a4, a5, a6, a7, a8] [a10, a11, a12] []
theorem sl10 : Slot h0 (fun a => WF h0 a0 a1 a2 a3 a4 a5 a6 a7 a8 a9 a a11 a12) (h0.nz + 10) :=
  slot_ext [a0, a1, a2, a3, a4, a5, a6, a7, a8, a9] [a11, a12] []
theorem sl11 : Slot h0 (fun a => WF h0 a0 a1 a2 a3 a4 a5 a6 a7 a8 a9 a10 a a12) (h0.nz + 11) :=
  slot_ext [a0, a1, a2, a3, a4, a5, a6, a7, a8, a9, a10] [a12] []
theorem sl12 : Slot h0 (fun a => WF h0 a0 a1 a2 a3 a4 a5 a6 a7 a8 a9 a10 a11 a) (h0.nz + 12) :=
  slot_ext [a0, a1, a2, a3, a4, a5, a6, a7, a8, a9, a10, a11] [] []

theorem WF_old {r : Ref} (hr : r < h0.nz) :
    (WF h0 a0 a1 a2 a3 a4 a5 a6 a7 a8 a9 a10 a11 a12).z r = h0.z r := ext_old hr

theorem WF_fr : Frame h0 (WF h0 a0 a1 a2 a3 a4 a5 a6 a7 a8 a9 a10 a11 a12) := ext_frame ..

end slots

/-- The references of the workspaces. -/
def loc (h0 : Heap) : LocH where
  pinv := h0.nz + 0
  pivs := h0.nz + 1
  h := h0.nz + 2
  xi := h0.nz + 3
  row_perm := h0.nz + 4
  rhos := h0.nz + 5
  x := h0.nz + 12

/-- The object `L`. -/
def cscL (h0 : Heap) (M : Csc) : CscH := ⟨M.m, M.n, M.nzmax, h0.nz + 6, h0.nz + 7, h0.nz + 8⟩
/-- The object `U`. -/
def cscU (h0 : Heap) (M : Csc) : CscH := ⟨M.m, M.n, M.nzmax, h0.nz + 9, h0.nz + 10, h0.nz + 11⟩

/-- The heap for a state of the main loop. -/
def W (h0 : Heap) (s : FactSt) : Heap :=
  WF h0 s.pinv s.pivs s.h s.xi s.row_perm s.rhos s.L.p s.L.i s.L.x s.U.p s.U.i s.U.x s.x

/-- The matrix behind the references of `A`. -/
def CscH.view (h : Heap) (A : CscH) : Csc := ⟨A.m, A.n, A.nzmax, h.z A.p, h.z A.i, h.z A.x⟩

/-- The matrix behind the references of `A`. -/
def DenseH.view (h : Heap) (A : DenseH) : Dense Int := ⟨A.m, A.n, A.nzmax, h.z A.x⟩

/-- The rational matrix behind the references of `A`. -/
def DenseH.viewq (h : Heap) (A : DenseH) : Dense ℚ := ⟨A.m, A.n, A.nzmax, h.q A.x⟩

/-- The arrays of `A` exist in the heap. -/
def CscH.In (h : Heap) (A : CscH) : Prop := A.p < h.nz ∧ A.i < h.nz ∧ A.x < h.nz

section push
variable {E : Arr Int → Arr Int → Heap} {M : CscH}

theorem push_sim (s1 : ∀ b, Slot h0 (fun a => E a b) M.i) (s2 : ∀ a, Slot h0 (E a) M.x) (Ma : Csc)
    (nz row v : Int) : Sim h0 (E Ma.i Ma.x) (pushEntryH M nz row v) (pushEntry Ma nz row v)
      fun N => ((), E N.i N.x) := by
  unfold pushEntryH pushEntry
  exact Sim.wr (s1 _) fun _ => Sim.zinit (s2 _) fun _ =>
    Sim.bindPure (Sim.modE (g := fun a => Slip.zset a _ _) (s2 _)) fun _ => Sim.pure rfl

end push

theorem realloc_run {E : Arr Int → Arr Int → Heap} {M : CscH} (s1 : ∀ b, Slot h0 (fun a => E a b) M.i)
    (s2 : ∀ a, Slot h0 (E a) M.x) (i x : Arr Int) :
    slip_sparse_reallocH M (E i x) = (.ok { M with nzmax := 2 * M.nzmax },
      E (i ++ malloc Int M.nzmax) (x ++ malloc Int M.nzmax)) := by
  have e1 : (E i x).put M.x ((E i x).z M.x ++ malloc Int M.nzmax) = E i (x ++ malloc Int M.nzmax) := by
    rw [(s2 i).put, (s2 i).get]
  have e2 : ∀ x, (E i x).put M.i ((E i x).z M.i ++ malloc Int M.nzmax) =
      E (i ++ malloc Int M.nzmax) x := fun x => by
    rw [(s1 x).get, (s1 x).put]
  show (Except.ok _, Heap.put _ _ _) = _
  rw [e1, e2]

/-- Same header. -/
def Hd (M N : Csc) : Prop := M.m = N.m ∧ M.n = N.n ∧ M.nzmax = N.nzmax ∧ M.p = N.p

theorem wp_any {α : Type} (m : C α) : wp m (fun _ => True) fun _ => True := by
  unfold wp; split <;> trivial

theorem push_hd (M : Csc) (nz row v : Int) : wp (pushEntry M nz row v) (Hd M) fun _ => True := by
  unfold pushEntry
  rw [wp_bind]
  refine wp_mono (wp_any _) (fun _ _ => ?_) fun _ => id
  rw [wp_bind]
  refine wp_mono (wp_any _) (fun _ _ => ?_) fun _ => id
  rw [wp_bind]
  exact wp_mono (wp_any _) (fun _ _ => ⟨rfl, rfl, rfl, rfl⟩) fun _ => id

theorem Hd.trans {M N P : Csc} (h : Hd M N) (g : Hd N P) : Hd M P :=
  ⟨h.1.trans g.1, h.2.1.trans g.2.1, h.2.2.1.trans g.2.2.1, h.2.2.2.trans g.2.2.2⟩

theorem pop_hd (xi pinv x : Arr Int) (k j : Int) (s : Int × Int × Csc × Csc) :
    wp (popStep xi pinv x k j s) (fun t => Hd s.2.2.1 t.2.2.1 ∧ Hd s.2.2.2 t.2.2.2) fun _ => True := by
  obtain ⟨lnz, unz, L, U⟩ := s
  unfold popStep
  dsimp only
  rw [wp_bind]
  refine wp_mono (wp_any _) (fun jnew _ => ?_) fun _ => id
  rw [wp_bind]
  refine wp_mono (wp_any _) (fun loc _ => ?_) fun _ => id
  refine wp_bind_ok (P := fun r => Hd U r.2) ?_ fun ⟨unz, U'⟩ hU => ?_
  · by_cases hc : loc ≤ k
    · rw [if_pos hc, wp_bind]
      refine wp_mono (wp_any _) (fun v _ => ?_) fun _ => id
      exact wp_bind_ok (push_hd U unz jnew v) fun U' h => h
    · rw [if_neg hc]; exact ⟨rfl, rfl, rfl, rfl⟩
  dsimp only
  refine wp_bind_ok (P := fun r => Hd L r.2) ?_ fun ⟨lnz, L'⟩ hL => ?_
  · by_cases hc : loc ≥ k
    · rw [if_pos hc, wp_bind]
      refine wp_mono (wp_any _) (fun v _ => ?_) fun _ => id
      exact wp_bind_ok (push_hd L lnz jnew v) fun U' h => h
    · rw [if_neg hc]; exact ⟨rfl, rfl, rfl, rfl⟩
  exact ⟨hL, hU⟩

theorem popLoop_hd (xi pinv x : Arr Int) (k top n : Int) (s : Int × Int × Csc × Csc) :
    wp (forRange top n s fun j st => popStep xi pinv x k j st)
      (fun t => Hd s.2.2.1 t.2.2.1 ∧ Hd s.2.2.2 t.2.2.2) fun _ => True := by
  unfold forRange
  exact wp_forCnt (fun (_ : Int) (t : Int × Int × Csc × Csc) => Hd s.2.2.1 t.2.2.1 ∧ Hd s.2.2.2 t.2.2.2) _ _ _
    ⟨⟨rfl, rfl, rfl, rfl⟩, ⟨rfl, rfl, rfl, rfl⟩⟩ fun i t _ _ ht =>
      wp_post (pop_hd xi pinv x k i t) fun u hu => ⟨ht.1.trans hu.1, ht.2.trans hu.2⟩

theorem cscL_hd {M N : Csc} (h : Hd M N) : cscL h0 M = cscL h0 N := by
  unfold cscL; rw [h.1, h.2.1, h.2.2.1]

theorem cscU_hd {M N : Csc} (h : Hd M N) : cscU h0 M = cscU h0 N := by
  unfold cscU; rw [h.1, h.2.1, h.2.2.1]

theorem pop_sim {a0 a1 a2 a3 a4 a5 a12 : Arr Int} (L U : Csc) (k j : Int)
    (s : Int × Int × Csc × Csc) :
    Sim h0 (WF h0 a0 a1 a2 a3 a4 a5 s.2.2.1.p s.2.2.1.i s.2.2.1.x s.2.2.2.p s.2.2.2.i s.2.2.2.x a12)
      (popStepH (cscL h0 L) (cscU h0 U) (h0.nz + 3) (h0.nz + 0) (h0.nz + 12) k j (s.1, s.2.1))
      (popStep a3 a0 a12 k j s)
      fun s => ((s.1, s.2.1), WF h0 a0 a1 a2 a3 a4 a5 s.2.2.1.p s.2.2.1.i s.2.2.1.x
        s.2.2.2.p s.2.2.2.i s.2.2.2.x a12) := by
  obtain ⟨lnz, unz, L1, U1⟩ := s
  unfold popStepH popStep
  dsimp only
  refine Sim.rd (sl3.get _) WF_fr fun jnew => Sim.rd (sl0.get _) WF_fr fun loc => ?_
  refine Sim.bindW (R := fun r : Int × Csc => (r.1, WF h0 a0 a1 a2 a3 a4 a5 L1.p L1.i L1.x
    r.2.p r.2.i r.2.x a12)) ?_ fun ⟨unz, U2⟩ _ => ?_
  · refine Sim.ite (fun _ => ?_) fun _ => Sim.pure rfl
    refine Sim.rd (sl12.get _) WF_fr fun v => ?_
    refine Sim.bindW (push_sim (E := fun i x => WF h0 a0 a1 a2 a3 a4 a5 L1.p L1.i L1.x U1.p i x a12)
      (M := cscU h0 U) (fun _ => sl10) (fun _ => sl11) U1 unz jnew v) fun U2 e => Sim.pure ?_
    have := push_hd U1 unz jnew v
    rw [e] at this
    dsimp only
    rw [this.2.2.2]
  refine Sim.bindW (R := fun r : Int × Csc => (r.1, WF h0 a0 a1 a2 a3 a4 a5 r.2.p r.2.i r.2.x
    U2.p U2.i U2.x a12)) ?_ fun ⟨lnz, L2⟩ _ => Sim.pure rfl
  · refine Sim.ite (fun _ => ?_) fun _ => Sim.pure rfl
    refine Sim.rd (sl12.get _) WF_fr fun v => ?_
    refine Sim.bindW (push_sim (E := fun i x => WF h0 a0 a1 a2 a3 a4 a5 L1.p i x U2.p U2.i U2.x a12)
      (M := cscL h0 L) (fun _ => sl7) (fun _ => sl8) L1 lnz jnew v) fun L2 e => Sim.pure ?_
    have := push_hd L1 lnz jnew v
    rw [e] at this
    dsimp only
    rw [this.2.2.2]

theorem factStep_sim {A : CscH} {q : Ref} (hA : A.In h0) (hq : q < h0.nz)
    (nc : Int → Int → ℚ → Bool) (order : Pivot) (tol : Dbl) (k : Int) (s : FactSt) :
    Sim h0 (W h0 s)
      (factStepH nc order tol A q (loc h0) k (s.lnz, s.unz, cscL h0 s.L, cscU h0 s.U))
      (factStep nc order tol (A.view h0) (h0.z q) k s)
      fun s => ((s.lnz, s.unz, cscL h0 s.L, cscU h0 s.U), W h0 s) := by
  obtain ⟨hp, hi, hx⟩ := hA
  unfold factStepH factStep W
  refine Sim.wr sl6 fun lp => Sim.wr sl9 fun up => ?_
  refine Sim.rd (WF_old hq) WF_fr fun col => ?_
  dsimp only
  generalize hL1 : (if s.lnz + (A.view h0).n > s.L.nzmax then
    slip_sparse_realloc { s.L with p := lp } else { s.L with p := lp }) = L1
  generalize hU1 : (if s.unz + (A.view h0).n > s.U.nzmax then
    slip_sparse_realloc { s.U with p := up } else { s.U with p := up }) = U1
  refine Sim.step (b := cscL h0 L1) (h' := WF h0 s.pinv s.pivs s.h s.xi s.row_perm s.rhos
    L1.p L1.i L1.x up s.U.i s.U.x s.x) ?_ ?_
  · subst hL1
    by_cases hc : s.lnz + A.n > s.L.nzmax
    · rw [if_pos (show s.lnz + A.n > (cscL h0 s.L).nzmax from hc),
        if_pos (show s.lnz + (A.view h0).n > s.L.nzmax from hc)]
      exact realloc_run (E := fun i x => WF h0 s.pinv s.pivs s.h s.xi s.row_perm s.rhos
        lp i x up s.U.i s.U.x s.x) (M := cscL h0 s.L) (fun _ => sl7) (fun _ => sl8) _ _
    · rw [if_neg (show ¬ s.lnz + A.n > (cscL h0 s.L).nzmax from hc),
        if_neg (show ¬ s.lnz + (A.view h0).n > s.L.nzmax from hc)]
      rfl
  refine Sim.step (b := cscU h0 U1) (h' := WF h0 s.pinv s.pivs s.h s.xi s.row_perm s.rhos
    L1.p L1.i L1.x U1.p U1.i U1.x s.x) ?_ ?_
  · subst hU1
    by_cases hc : s.unz + A.n > s.U.nzmax
    · rw [if_pos (show s.unz + A.n > (cscU h0 s.U).nzmax from hc),
        if_pos (show s.unz + (A.view h0).n > s.U.nzmax from hc)]
      exact realloc_run (E := fun i x => WF h0 s.pinv s.pivs s.h s.xi s.row_perm s.rhos
        L1.p L1.i L1.x up i x s.x) (M := cscU h0 s.U) (fun _ => sl10) (fun _ => sl11) _ _
    · rw [if_neg (show ¬ s.unz + A.n > (cscU h0 s.U).nzmax from hc),
        if_neg (show ¬ s.unz + (A.view h0).n > s.U.nzmax from hc)]
      rfl
  refine Sim.bind (triSolve_sim (E := fun a b c d => WF h0 s.pinv s.pivs c b s.row_perm s.rhos
    a L1.i L1.x U1.p U1.i U1.x d) (La := L1) (Aa := A.view h0) (L := cscL h0 L1)
    (fun _ _ _ => sl6) (fun _ _ _ => sl3) (fun _ _ _ => sl2) (fun _ _ _ => sl12)
    (fun _ _ _ _ => sl7.get _) (fun _ _ _ _ => sl8.get _) (fun _ _ _ _ => WF_old hp)
    (fun _ _ _ _ => WF_old hi) (fun _ _ _ _ => WF_old hx) (fun _ _ _ _ => WF_old hq)
    (fun _ _ _ _ => sl5.get _) (fun _ _ _ _ => sl0.get _) (fun _ _ _ _ => sl4.get _) rfl rfl
    k s.xi s.h s.x) fun t => ?_
  refine Sim.bind (getPivot_sim (E := fun a b c d => WF h0 c a t.h t.xi d b
    t.Lp L1.i L1.x U1.p U1.i U1.x t.x) (fun _ _ _ => sl1) (fun _ _ _ => sl5) (fun _ _ _ => sl0)
    (fun _ _ _ => sl4) (fun _ _ _ _ => sl12.get _) (fun _ _ _ _ => sl3.get _) nc order tol
    _ _ _ _ _ _ _ _) fun g => ?_
  refine Sim.bindW (Sim.for' (fun s : Int × Int × Csc × Csc => ((s.1, s.2.1),
    WF h0 g.pinv g.pivs t.h t.xi g.row_perm g.rhos s.2.2.1.p s.2.2.1.i s.2.2.1.x
        s.2.2.2.p s.2.2.2.i s.2.2.2.x t.x)) rfl fun j st => pop_sim L1 U1 k j st) fun st e => Sim.pure ?_
  have := popLoop_hd t.xi g.pinv t.x k t.top (A.view h0).n (s.lnz, s.unz, { L1 with p := t.Lp }, U1)
  rw [e] at this
  dsimp only
  rw [cscU_hd this.2, ← cscL_hd this.1]
  rfl

theorem allocCsc_run {l lq} (n nzmax : Int) : allocCscH n nzmax (ext h0 l lq) =
    (.ok ⟨n, n, max nzmax 1, h0.nz + l.length, h0.nz + (l.length + 1), h0.nz + (l.length + 2)⟩,
      ext h0 (l ++ [calloc (n + 1), calloc (max nzmax 1), malloc Int (max nzmax 1)]) lq) := by
  unfold allocCscH
  rw [bind_run new_run, bind_run new_run, bind_run new_run]
  simp
  rfl

theorem factInit_sim (n lnz unz : Int) :
    Sim h0 h0 (factInitH n lnz unz) (factInit n lnz unz)
      fun s => ((loc h0, cscL h0 s.L, cscU h0 s.U), W h0 s) := by
  unfold factInitH factInit
  have e0 : ∀ {β α : Type} (mH : H β) (m : C α) R, Sim h0 (ext h0 [] []) mH m R → Sim h0 h0 mH m R := by
    intro _ _ _ _ _ h; rwa [ext_nil] at h
  apply e0
  refine Sim.new <| Sim.new <| Sim.new <| Sim.new <| Sim.new ?_
  refine Sim.bind (Sim.for' (fun r : Arr Int × Arr Int × Arr Int × Arr Int =>
    ((), ext h0 [r.2.2.1, r.2.1, r.1, malloc Int (2 * n), r.2.2.2] [])) rfl fun i ⟨a, b, c, d⟩ => ?_)
    fun ⟨a, b, c, d⟩ => ?_
  · refine Sim.wr (slot_ext [c, b] [malloc Int (2 * n), d] []) fun a => ?_
    refine Sim.wr (slot_ext [c] [a, malloc Int (2 * n), d] []) fun b => ?_
    refine Sim.wr (slot_ext [] [b, a, malloc Int (2 * n), d] []) fun c => ?_
    exact Sim.bindPure (Sim.modE (g := fun a => Slip.wr a _ _)
      (slot_ext [c, b, a, malloc Int (2 * n)] [] [])) fun d => Sim.pure rfl
  · dsimp only
    refine Sim.new <| Sim.step (allocCsc_run n lnz) <| Sim.step (allocCsc_run n unz) <| Sim.new ?_
    refine Sim.bind (Sim.for' (fun x : Arr Int => ((), WF h0 c b a (malloc Int (2 * n)) d
      (malloc Int (max n 1)) (allocCsc n lnz).p (allocCsc n lnz).i (allocCsc n lnz).x
      (allocCsc n unz).p (allocCsc n unz).i (allocCsc n unz).x x)) rfl fun i x =>
        Sim.modE (E := fun x => WF h0 c b a (malloc Int (2 * n)) d
      (malloc Int (max n 1)) (allocCsc n lnz).p (allocCsc n lnz).i (allocCsc n lnz).x
      (allocCsc n unz).p (allocCsc n unz).i (allocCsc n unz).x x) (g := fun a => Slip.zinit a i) sl12)
      fun x => Sim.pure rfl

/-- Shrinking a matrix. -/
theorem collapse_sim {E : Arr Int → Arr Int → Arr Int → Heap} (mk : Csc → CscH) {M : Csc}
    (hn : (mk M).n = M.n) (hmk : ∀ i x z, mk { M with i := i, x := x, nzmax := z } = { mk M with nzmax := z })
    (s1 : ∀ p x, Slot h0 (fun a => E p a x) (mk M).i) (s2 : ∀ p a, Slot h0 (E p a) (mk M).x)
    (r : ∀ a b c, (E a b c).z (mk M).p = a) :
    Sim h0 (E M.p M.i M.x) (slip_sparse_collapseH (mk M)) (slip_sparse_collapse M)
      fun N => (mk N, E N.p N.i N.x) := by
  unfold slip_sparse_collapseH slip_sparse_collapse
  rw [show rdH (mk M).p (mk M).n = rdH (mk M).p M.n by rw [hn]]
  refine Sim.rd (r ..) ((s2 ..).fr _) fun anz => ?_
  refine Sim.step (b := ()) (h' := E M.p (M.i.take anz.toNat) M.x) ?_ <|
    Sim.step (b := ()) (h' := E M.p (M.i.take anz.toNat) (M.x.take anz.toNat)) ?_ <| Sim.pure ?_
  · show (Except.ok _, Heap.put _ _ _) = _
    rw [(s1 _ _).get, (s1 _ _).put]
  · show (Except.ok _, Heap.put _ _ _) = _
    rw [(s2 _ _).get, (s2 _ _).put]
  · rw [hmk]

theorem permute_sim {E : Arr Int → Heap} {M : CscH} {pinv : Ref} {pi : Arr Int}
    (s1 : Slot h0 E M.i) (r : ∀ a, (E a).z pinv = pi) (Ma : Csc) (nz : Int) :
    Sim h0 (E Ma.i) (permuteRowsH M pinv nz) (permuteRows Ma pi nz) fun N => ((), E N.i) := by
  unfold permuteRowsH permuteRows
  refine Sim.bindPure (Sim.for' (fun i : Arr Int => ((), E i)) rfl fun p a => ?_) fun a => Sim.pure rfl
  exact Sim.rd (s1.get _) (s1.fr _) fun v => Sim.rd (r _) (s1.fr _) fun w =>
    Sim.modE (g := fun a => Slip.wr a p w) s1

theorem permute_hd (M : Csc) (pi : Arr Int) (nz : Int) :
    wp (permuteRows M pi nz) (fun N => Hd M N ∧ M.x = N.x) fun _ => True := by
  unfold permuteRows
  rw [wp_bind]
  exact wp_mono (wp_any _) (fun _ _ => ⟨⟨rfl, rfl, rfl, rfl⟩, rfl⟩) fun _ => id

/-- The heap after the factorization: the workspaces are gone. -/
def WR (h0 : Heap) (F : Factors) : Heap :=
  WF h0 F.pinv [] [] [] [] F.rhos F.L.p F.L.i F.L.x F.U.p F.U.i F.U.x []

/-- The factors as objects. -/
def facs (h0 : Heap) (F : Factors) : FactorsH :=
  ⟨cscL h0 F.L, cscU h0 F.U, h0.nz + 5, h0.nz + 0⟩

theorem factInit_nz (n lnz unz : Int) :
    wp (factInit n lnz unz) (fun s => s.lnz = 0 ∧ s.unz = 0) fun _ => True := by
  unfold factInit
  dsimp only
  rw [wp_bind]
  refine wp_mono (wp_any _) (fun _ _ => ?_) fun _ => id
  rw [wp_bind]
  exact wp_mono (wp_any _) (fun _ _ => ⟨rfl, rfl⟩) fun _ => id

theorem factorize_sim {A : CscH} {q : Ref} (hA : A.In h0) (hq : q < h0.nz)
    (nc : Int → Int → ℚ → Bool) (order : Pivot) (tol : Dbl) (lnz unz : Int) :
    Sim h0 h0 (factorizeH nc order tol A q lnz unz)
      (factorize nc order tol (A.view h0) (h0.z q) lnz unz)
      fun F => (facs h0 F, WR h0 F) := by
  unfold factorizeH factorize
  refine Sim.bindW (factInit_sim _ _ _) fun s0 e0 => ?_
  have hz := factInit_nz (A.view h0).n lnz unz
  rw [e0] at hz
  refine Sim.bindW (Sim.for' (fun s : FactSt => ((s.lnz, s.unz, cscL h0 s.L, cscU h0 s.U), W h0 s)) ?_
    fun k s => factStep_sim hA hq nc order tol k s) fun s _ => ?_
  · rw [hz.1, hz.2]
  dsimp only
  refine Sim.wr sl6 fun lp => Sim.wr sl9 fun up => ?_
  refine Sim.free (j := 3) (by simp) <| Sim.free (j := 2) (by simp) <| Sim.free (j := 1) (by simp) <|
    Sim.free (j := 4) (by simp) <| Sim.free (j := 12) (by simp) ?_
  refine Sim.bind (collapse_sim (E := fun p i x => WF h0 s.pinv [] [] [] [] s.rhos p i x up s.U.i s.U.x [])
    (cscL h0) rfl (fun _ _ _ => rfl) (fun _ _ => sl7) (fun _ _ => sl8) (fun _ _ _ => sl6.get _)) fun L => ?_
  refine Sim.bind (collapse_sim (E := fun p i x => WF h0 s.pinv [] [] [] [] s.rhos L.p L.i L.x p i x [])
    (M := { s.U with p := up }) (cscU h0) rfl (fun _ _ _ => rfl) (fun _ _ => sl10) (fun _ _ => sl11)
    (fun _ _ _ => sl9.get _)) fun U => ?_
  refine Sim.bindW (permute_sim (E := fun a => WF h0 s.pinv [] [] [] [] s.rhos L.p a L.x U.p U.i U.x [])
    (M := cscL h0 L) sl7 (fun _ => sl0.get _) L s.lnz) fun L' eL => ?_
  refine Sim.bindW (permute_sim (E := fun a => WF h0 s.pinv [] [] [] [] s.rhos L.p L'.i L.x U.p a U.x [])
    (M := cscU h0 U) sl10 (fun _ => sl0.get _) U s.unz) fun U' eU => Sim.pure ?_
  have hL := permute_hd L s.pinv s.lnz
  have hU := permute_hd U s.pinv s.unz
  rw [eL] at hL
  rw [eU] at hU
  unfold facs WR
  dsimp only
  rw [cscL_hd hL.1, cscU_hd hU.1, hL.2, hU.2, hL.1.2.2.2, hU.1.2.2.2]
  rfl

end Slip.Store
