import Verif.Proof.Store

/-!
# Simulation of the value model by the heap model: reach, triangular solve, pivot search
-/

namespace Slip.Store

variable {α β γ δ σ τ : Type} {h0 h : Heap}

theorem marked_sim {r : Ref} {a : Arr Int} {j : Int} (e : h.z r = a) (F : Frame h0 h) :
    Sim h0 h (markedH r j) (marked a j) fun b => (b, h) :=
  Sim.rd e F fun _ => Sim.pure rfl

theorem mark_sim {E : Arr Int → Heap} {r : Ref} {a : Arr Int} {j : Int} (s : Slot h0 E r) :
    Sim h0 (E a) (markH r j) (mark a j) fun a' => ((), E a') :=
  Sim.rd (s.get a) (s.fr a) fun v => Sim.modE (g := fun a => Slip.wr a j (Slip.flip v)) s

theorem dfsScan_sim {Lp Li : Ref} {lp li : Arr Int} (e1 : h.z Lp = lp) (e2 : h.z Li = li)
    (F : Frame h0 h) : ∀ (m : Nat) (p : Int),
      Sim h0 h (dfsScanH Lp Li m p) (dfsScan lp li m p) fun r => (r, h)
  | 0, _ => Sim.ok rfl
  | m + 1, p => by
    unfold dfsScanH dfsScan
    refine Sim.rd e2 F fun i => Sim.bind (marked_sim e1 F) fun b => ?_
    exact Sim.ite (fun _ => dfsScan_sim e1 e2 F m (p + 1)) fun _ => Sim.ok rfl

section reach
variable {E : Arr Int → Arr Int → Heap} {Lp Li pinv xi Ap Ai : Ref} {li pi ap ai : Arr Int}

theorem dfsStep_sim (sp : ∀ b, Slot h0 (fun a => E a b) Lp) (sx : ∀ a, Slot h0 (E a) xi)
    (r1 : ∀ a b, (E a b).z Li = li) (r2 : ∀ a b, (E a b).z pinv = pi) (n : Int) (s : DfsSt) :
    Sim h0 (E s.Lp s.xi) (dfsStepH n Lp Li pinv xi s.head s.top) (dfsStep n li pi s)
      fun s => ((s.head, s.top), E s.Lp s.xi) := by
  have F : ∀ a b, Frame h0 (E a b) := fun a b => (sx a).fr b
  have g1 : ∀ a b, (E a b).z Lp = a := fun a b => (sp b).get a
  have g2 : ∀ a b, (E a b).z xi = b := fun a b => (sx a).get b
  unfold dfsStepH dfsStep
  refine Sim.rd (g2 ..) (F ..) fun j => Sim.rd (r2 ..) (F ..) fun jnew => ?_
  refine Sim.bind (marked_sim (g1 ..) (F ..)) fun b => ?_
  refine Sim.bindW (R := fun t : DfsSt => ((), E t.Lp t.xi))
    (m := if b = true then pure s else _) ?_ fun t ht => ?_
  · refine Sim.ite (fun _ => Sim.pure rfl) fun _ => ?_
    refine Sim.bind (mark_sim (sp _)) fun lp => ?_
    refine Sim.bind (R := fun p => (p, E lp s.xi)) ?_ fun p0 => ?_
    · exact Sim.ite (fun _ => Sim.pure rfl) fun _ => Sim.rd (g1 ..) (F ..) fun _ => Sim.pure rfl
    · exact Sim.bindPure (Sim.modE (g := fun a => Slip.wr a _ _) (sx _)) fun a => Sim.pure rfl
  · have hh : t.head = s.head ∧ t.top = s.top := by
      have : wp (if b = true then pure s else do
          let Lp ← mark s.Lp j
          let p0 ← (if jnew < 0 then pure 0 else do let v ← rd Lp jnew; pure (unflip v))
          let xi ← Slip.wr s.xi (n + s.head) p0
          pure { s with Lp := Lp, xi := xi } : C DfsSt)
          (fun t => t.head = s.head ∧ t.top = s.top) fun _ => True := by
        by_cases hb : b = true
        · rw [if_pos hb]; exact ⟨rfl, rfl⟩
        · rw [if_neg hb, wp_bind]
          refine wp_mono (Q := fun _ => True) (E := fun _ => True) (by cases mark s.Lp j <;> trivial)
            (fun lp _ => ?_) fun _ => id
          rw [wp_bind]
          refine wp_mono (Q := fun _ => True) (E := fun _ => True) (by unfold wp; split <;> trivial)
            (fun p0 _ => ?_) fun _ => id
          rw [wp_bind]
          refine wp_mono (Q := fun _ => True) (E := fun _ => True) (by unfold wp; split <;> trivial)
            (fun p0 _ => ⟨rfl, rfl⟩) fun _ => id
      rw [ht] at this
      exact this
    refine Sim.bind (R := fun p => (p, E t.Lp t.xi)) ?_ fun p2 => ?_
    · exact Sim.ite (fun _ => Sim.pure rfl) fun _ => Sim.rd (g1 ..) (F ..) fun _ => Sim.pure rfl
    rw [← hh.1, ← hh.2]
    refine Sim.rd (g2 ..) (F ..) fun p => ?_
    refine Sim.bind (dfsScan_sim (g1 ..) (r1 ..) (F ..) _ _) fun r => ?_
    rcases r with _ | ⟨p, i⟩
    · exact Sim.wr (sx _) fun a => Sim.pure rfl
    · exact Sim.wr (sx _) fun a => Sim.wr (sx _) fun a => Sim.pure rfl

theorem dfsLoop_sim (sp : ∀ b, Slot h0 (fun a => E a b) Lp) (sx : ∀ a, Slot h0 (E a) xi)
    (r1 : ∀ a b, (E a b).z Li = li) (r2 : ∀ a b, (E a b).z pinv = pi) (n : Int) :
    ∀ (f : Nat) (s : DfsSt),
    Sim h0 (E s.Lp s.xi) (dfsLoopH n Lp Li pinv xi f s.head s.top) (dfsLoop n li pi f s)
      fun s => (s.top, E s.Lp s.xi)
  | 0, s => by
    unfold dfsLoopH dfsLoop
    exact Sim.ite (fun _ => Sim.error ((sx _).fr _)) fun _ => Sim.ok rfl
  | f + 1, s => by
    unfold dfsLoopH dfsLoop
    refine Sim.ite (fun _ => ?_) fun _ => Sim.ok rfl
    exact Sim.bind (dfsStep_sim sp sx r1 r2 n s) fun t => dfsLoop_sim sp sx r1 r2 n f t

theorem dfs_sim (sp : ∀ b, Slot h0 (fun a => E a b) Lp) (sx : ∀ a, Slot h0 (E a) xi)
    (r1 : ∀ a b, (E a b).z Li = li) (r2 : ∀ a b, (E a b).z pinv = pi) (n top j : Int)
    (lp x : Arr Int) :
    Sim h0 (E lp x) (slip_dfsH n Lp Li pinv xi top j) (slip_dfs n li pi top j lp x)
      fun r => (r.1, E r.2.1 r.2.2) := by
  unfold slip_dfsH slip_dfs
  refine Sim.wr (sx _) fun a => ?_
  exact Sim.bindPure (dfsLoop_sim sp sx r1 r2 n _ ⟨0, top, lp, a⟩) fun s => Sim.pure rfl

theorem reach_sim (sp : ∀ b, Slot h0 (fun a => E a b) Lp) (sx : ∀ a, Slot h0 (E a) xi)
    (r1 : ∀ a b, (E a b).z Li = li) (r2 : ∀ a b, (E a b).z pinv = pi)
    (r3 : ∀ a b, (E a b).z Ap = ap) (r4 : ∀ a b, (E a b).z Ai = ai) (n col : Int) (lp x : Arr Int) :
    Sim h0 (E lp x) (slip_reachH n Ap Ai Lp Li pinv xi col) (slip_reach n ap ai li pi col lp x)
      fun r => (r.1, E r.2.1 r.2.2) := by
  have F : ∀ a b, Frame h0 (E a b) := fun a b => (sx a).fr b
  have g1 : ∀ a b, (E a b).z Lp = a := fun a b => (sp b).get a
  have g2 : ∀ a b, (E a b).z xi = b := fun a b => (sx a).get b
  unfold slip_reachH slip_reach
  refine Sim.rd (r3 ..) (F ..) fun p0 => Sim.rd (r3 ..) (F ..) fun p1 => ?_
  refine Sim.bind (Sim.for' (fun r : Int × Arr Int × Arr Int => (r.1, E r.2.1 r.2.2)) rfl
    fun p ⟨top, lp, x⟩ => ?_) fun ⟨top, lp, x⟩ => ?_
  · refine Sim.rd (r4 ..) (F ..) fun i => Sim.bind (marked_sim (g1 ..) (F ..)) fun b => ?_
    exact Sim.ite (fun _ => Sim.pure rfl) fun _ => dfs_sim sp sx r1 r2 n top i lp x
  · refine Sim.bind (Sim.for' (fun lp : Arr Int => ((), E lp x)) rfl fun p lp => ?_) fun lp =>
      Sim.pure rfl
    exact Sim.rd (g2 ..) (F ..) fun j => mark_sim (sp _)

end reach

section tri
variable {E : Arr Int → Heap} {rhos x : Ref} {rh : Arr Int}

theorem hist_sim (sx : Slot h0 E x) (r1 : ∀ a, (E a).z rhos = rh) (a : Arr Int) (j hj s : Int) :
    Sim h0 (E a) (histUpdateH rhos x j hj s) (histUpdate rh a j hj s) fun a => ((), E a) := by
  unfold histUpdateH histUpdate
  refine Sim.ite (fun _ => ?_) fun _ => Sim.pure rfl
  refine Sim.rd (sx.get _) (sx.fr _) fun xj => Sim.rd (r1 _) (sx.fr _) fun ρ => Sim.zset sx fun a => ?_
  refine Sim.ite (fun _ => ?_) fun _ => Sim.pure rfl
  refine Sim.rd (sx.get _) (sx.fr _) fun xj => Sim.rd (r1 _) (sx.fr _) fun ρ => ?_
  exact Sim.lift (sx.fr _) fun d => Sim.modE (g := fun a => Slip.zset a j d) sx

end tri

section tri2
variable {E : Arr Int → Arr Int → Heap} {rhos x hh xi pinv : Ref} {L : CscH}
  {rh lp li lx pi xa : Arr Int}

theorem ipge_sim (sh : ∀ b, Slot h0 (fun a => E a b) hh) (sx : ∀ a, Slot h0 (E a) x)
    (r1 : ∀ a b, (E a b).z rhos = rh) (i j jnew lij : Int) (ha a : Arr Int) :
    Sim h0 (E ha a) (ipgeUpdateH rhos hh x i j jnew lij) (ipgeUpdate rh ha a i j jnew lij)
      fun r => ((), E r.1 r.2) := by
  have F : ∀ a b, Frame h0 (E a b) := fun a b => (sx a).fr b
  have g1 : ∀ a b, (E a b).z hh = a := fun a b => (sh b).get a
  have g2 : ∀ a b, (E a b).z x = b := fun a b => (sx a).get b
  have wlast : ∀ ha a i v, Sim h0 (E ha a) (wrH hh i v)
      (do let h ← Slip.wr ha i v; pure (h, a)) fun r : Arr Int × Arr Int => ((), E r.1 r.2) :=
    fun ha a i v => Sim.bindPure (Sim.modE (E := fun c => E c a) (g := fun a => Slip.wr a i v) (sh a))
      fun _ => Sim.pure rfl
  unfold ipgeUpdateH ipgeUpdate
  refine Sim.rd (g2 ..) (F ..) fun v => ?_
  refine Sim.ite (fun _ => Sim.ite (fun _ => ?_) fun _ => ?_) fun _ => Sim.ite (fun _ => ?_) fun _ => ?_
  · exact Sim.rd (g2 ..) (F ..) fun _ => Sim.zset (sx _) fun _ => wlast ..
  · exact Sim.rd (g2 ..) (F ..) fun _ => Sim.zset (sx _) fun _ => Sim.rd (g2 ..) (F ..) fun _ =>
      Sim.rd (r1 ..) (F ..) fun _ => Sim.lift (F ..) fun _ => Sim.zset (sx _) fun _ => wlast ..
  · exact Sim.rd (r1 ..) (F ..) fun _ => Sim.zset (sx _) fun _ => Sim.rd (g2 ..) (F ..) fun _ =>
      Sim.rd (g2 ..) (F ..) fun _ => Sim.zset (sx _) fun _ => wlast ..
  · exact Sim.rd (g1 ..) (F ..) fun _ => Sim.bind (hist_sim (sx _) (r1 _) _ _ _ _) fun _ =>
      Sim.rd (g2 ..) (F ..) fun _ =>
      Sim.rd (r1 ..) (F ..) fun _ => Sim.zset (sx _) fun _ => Sim.rd (g2 ..) (F ..) fun _ =>
      Sim.rd (g2 ..) (F ..) fun _ => Sim.zset (sx _) fun _ => Sim.rd (g2 ..) (F ..) fun _ =>
      Sim.rd (r1 ..) (F ..) fun _ => Sim.lift (F ..) fun _ => Sim.zset (sx _) fun _ => wlast ..

theorem solveStep_sim (sh : ∀ b, Slot h0 (fun a => E a b) hh) (sx : ∀ a, Slot h0 (E a) x)
    (r1 : ∀ a b, (E a b).z rhos = rh) (r2 : ∀ a b, (E a b).z pinv = pi)
    (r3 : ∀ a b, (E a b).z xi = xa) (r4 : ∀ a b, (E a b).z L.p = lp) (r5 : ∀ a b, (E a b).z L.i = li)
    (r6 : ∀ a b, (E a b).z L.x = lx) (k p : Int) (ha a : Arr Int) :
    Sim h0 (E ha a) (solveStepH L pinv rhos xi hh x k p) (solveStep lp li lx pi rh xa k p ha a)
      fun r => ((), E r.1 r.2) := by
  have F : ∀ a b, Frame h0 (E a b) := fun a b => (sx a).fr b
  have g1 : ∀ a b, (E a b).z hh = a := fun a b => (sh b).get a
  have g2 : ∀ a b, (E a b).z x = b := fun a b => (sx a).get b
  unfold solveStepH solveStep
  refine Sim.rd (r3 ..) (F ..) fun j => Sim.rd (r2 ..) (F ..) fun jnew => Sim.rd (g2 ..) (F ..) fun xj => ?_
  refine Sim.ite (fun _ => Sim.pure rfl) fun _ => Sim.ite (fun _ => ?_) fun _ => ?_
  · refine Sim.rd (g1 ..) (F ..) fun hj => Sim.bind (hist_sim (sx _) (r1 _) _ _ _ _) fun a => ?_
    refine Sim.rd (r4 ..) (F ..) fun m0 => Sim.rd (r4 ..) (F ..) fun m1 => ?_
    refine Sim.for' (fun r : Arr Int × Arr Int => ((), E r.1 r.2)) rfl fun m ⟨ha, a⟩ => ?_
    refine Sim.rd (r5 ..) (F ..) fun i => Sim.rd (r2 ..) (F ..) fun inew => ?_
    refine Sim.ite (fun _ => ?_) fun _ => Sim.pure rfl
    refine Sim.rd (r6 ..) (F ..) fun lij => ?_
    exact Sim.ite (fun _ => Sim.pure rfl) fun _ => ipge_sim sh sx r1 i j jnew lij ha a
  · refine Sim.rd (g1 ..) (F ..) fun hj => ?_
    exact Sim.bindPure (hist_sim (sx _) (r1 _) _ _ _ _) fun a => Sim.pure rfl

end tri2

end Slip.Store
