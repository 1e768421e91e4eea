import Verif.Proof.StoreTri

/-!
# Simulation of the value model by the heap model: factorization
-/

namespace Slip.Store

variable {α β γ δ σ τ : Type} {h0 h : Heap}

section tri
variable {E : Arr Int → Arr Int → Arr Int → Arr Int → Heap} {L A : CscH}
  {xi q rhos pinv row_perm hh x : Ref} {La Aa : Csc} {qa rh pi rp : Arr Int}

theorem triSolve_sim (sp : ∀ b c d, Slot h0 (fun a => E a b c d) L.p)
    (sxi : ∀ a c d, Slot h0 (fun b => E a b c d) xi)
    (sh : ∀ a b d, Slot h0 (fun c => E a b c d) hh) (sx : ∀ a b c, Slot h0 (E a b c) x)
    (r1 : ∀ a b c d, (E a b c d).z L.i = La.i) (r2 : ∀ a b c d, (E a b c d).z L.x = La.x)
    (r3 : ∀ a b c d, (E a b c d).z A.p = Aa.p) (r4 : ∀ a b c d, (E a b c d).z A.i = Aa.i)
    (r5 : ∀ a b c d, (E a b c d).z A.x = Aa.x) (r6 : ∀ a b c d, (E a b c d).z q = qa)
    (r7 : ∀ a b c d, (E a b c d).z rhos = rh) (r8 : ∀ a b c d, (E a b c d).z pinv = pi)
    (r9 : ∀ a b c d, (E a b c d).z row_perm = rp) (eL : L.n = La.n) (eA : A.n = Aa.n)
    (k : Int) (xa ha a : Arr Int) :
    Sim h0 (E La.p xa ha a) (slip_ref_triangular_solveH L A k xi q rhos pinv row_perm hh x)
      (slip_ref_triangular_solve La Aa k xa qa rh pi rp ha a)
      fun t => (t.top, E t.Lp t.xi t.h t.x) := by
  have F : ∀ a b c d, Frame h0 (E a b c d) := fun a b c d => (sx a b c).fr d
  have g1 : ∀ a b c d, (E a b c d).z L.p = a := fun a b c d => (sp b c d).get a
  have g2 : ∀ a b c d, (E a b c d).z xi = b := fun a b c d => (sxi a c d).get b
  have g3 : ∀ a b c d, (E a b c d).z hh = c := fun a b c d => (sh a b d).get c
  have g4 : ∀ a b c d, (E a b c d).z x = d := fun a b c d => (sx a b c).get d
  unfold slip_ref_triangular_solveH slip_ref_triangular_solve
  rw [eL, eA]
  refine Sim.rd (r6 ..) (F ..) fun col => ?_
  refine Sim.bind (reach_sim (E := fun c d => E c d ha a) (fun b => sp b _ _) (fun c => sxi c _ _)
    (fun _ _ => r1 ..) (fun _ _ => r8 ..) (fun _ _ => r3 ..) (fun _ _ => r4 ..) _ _ _ _)
    fun ⟨top, lp, xa⟩ => ?_
  refine Sim.bind (Sim.for' (fun b : Arr Int => ((), E lp b ha a)) rfl fun j b => ?_) fun xa => ?_
  · exact Sim.rd (g2 ..) (F ..) fun v => Sim.rd (r8 ..) (F ..) fun w =>
      Sim.modE (E := fun b => E lp b ha a) (g := fun a => Slip.wr a _ _) (sxi ..)
  refine Sim.mod (E := fun b => E lp b ha a) (g := fun a => qsortSeg a top Aa.n) (sxi ..) fun xa => ?_
  refine Sim.bind (Sim.for' (fun b : Arr Int => ((), E lp b ha a)) rfl fun j b => ?_) fun xa => ?_
  · exact Sim.rd (g2 ..) (F ..) fun v => Sim.rd (r9 ..) (F ..) fun w =>
      Sim.modE (E := fun b => E lp b ha a) (g := fun a => Slip.wr a _ _) (sxi ..)
  refine Sim.bind (Sim.for' (fun b : Arr Int => ((), E lp xa ha b)) rfl fun j b => ?_) fun a => ?_
  · exact Sim.rd (g2 ..) (F ..) fun v =>
      Sim.modE (E := fun b => E lp xa ha b) (g := fun a => Slip.zset a _ _) (sx ..)
  refine Sim.zset (sx ..) fun a => ?_
  refine Sim.bind (Sim.for' (fun b : Arr Int => ((), E lp xa b a)) rfl fun j b => ?_) fun ha => ?_
  · exact Sim.rd (g2 ..) (F ..) fun v =>
      Sim.modE (E := fun b => E lp xa b a) (g := fun a => Slip.wr a _ _) (sh ..)
  refine Sim.rd (r3 ..) (F ..) fun a0 => Sim.rd (r3 ..) (F ..) fun a1 => ?_
  refine Sim.bind (Sim.for' (fun b : Arr Int => ((), E lp xa ha b)) rfl fun j b => ?_) fun a => ?_
  · exact Sim.rd (r4 ..) (F ..) fun i => Sim.rd (r5 ..) (F ..) fun v =>
      Sim.modE (E := fun b => E lp xa ha b) (g := fun a => Slip.zset a _ _) (sx ..)
  refine Sim.bind (Sim.for' (fun r : Arr Int × Arr Int => ((), E lp xa r.1 r.2)) rfl
    fun p ⟨ha, a⟩ => ?_) fun ⟨ha, a⟩ => Sim.pure rfl
  exact solveStep_sim (E := fun c d => E lp xa c d) (fun b => sh ..) (fun a => sx ..)
    (fun _ _ => r7 ..) (fun _ _ => r8 ..) (fun _ _ => g2 ..) (fun _ _ => g1 ..) (fun _ _ => r1 ..)
    (fun _ _ => r2 ..) k p ha a

end tri

section pivot
variable {x pivs xi : Ref} {xa pa xia : Arr Int}

theorem smallestInit_sim (e1 : h.z x = xa) (e2 : h.z pivs = pa) (e3 : h.z xi = xia) (F : Frame h0 h) :
    ∀ (m : Nat) (flag : Int), Sim h0 h (smallestInitH x pivs xi m flag)
      (smallestInit xa pa xia m flag) fun r => (r, h)
  | 0, _ => Sim.ok rfl
  | m + 1, flag => by
    unfold smallestInitH smallestInit
    exact Sim.rd e3 F fun inew => Sim.rd e1 F fun v => Sim.rd e2 F fun pv =>
      Sim.ite (fun _ => Sim.pure rfl) fun _ => smallestInit_sim e1 e2 e3 F m (flag + 1)

theorem smallest_sim (e1 : h.z x = xa) (e2 : h.z pivs = pa) (e3 : h.z xi = xia) (F : Frame h0 h)
    (n top : Int) : Sim h0 h (slip_get_smallest_pivotH x pivs n top xi)
      (slip_get_smallest_pivot xa pa n top xia) fun r => (r, h) := by
  unfold slip_get_smallest_pivotH slip_get_smallest_pivot
  refine Sim.bind (R := fun r => (r, h)) ?_ fun r => ?_
  · exact Sim.ite (fun _ => smallestInit_sim e1 e2 e3 F _ _) fun _ => Sim.pure rfl
  rcases r.getD (n, -1, 0) with ⟨j, pivot, small⟩
  refine Sim.bind (Sim.for' (fun r : Int × Int => (r, h)) rfl fun i ⟨pivot, small⟩ => ?_)
    fun ⟨pivot, small⟩ => ?_
  · exact Sim.rd e3 F fun inew => Sim.rd e1 F fun v => Sim.rd e2 F fun pv =>
      Sim.ite (fun _ => Sim.ite (fun _ => Sim.pure rfl) fun _ => Sim.pure rfl) fun _ => Sim.pure rfl
  · exact Sim.ite (fun _ => Sim.error F) fun _ => Sim.pure rfl

theorem largest_sim (e1 : h.z x = xa) (e2 : h.z pivs = pa) (e3 : h.z xi = xia) (F : Frame h0 h)
    (n top : Int) : Sim h0 h (slip_get_largest_pivotH x pivs n top xi)
      (slip_get_largest_pivot xa pa n top xia) fun r => (r, h) := by
  unfold slip_get_largest_pivotH slip_get_largest_pivot
  refine Sim.bind (Sim.for' (fun r : Int × Int => (r, h)) rfl fun i ⟨pivot, big⟩ => ?_)
    fun ⟨pivot, big⟩ => ?_
  · exact Sim.rd e3 F fun inew => Sim.rd e1 F fun v => Sim.rd e2 F fun pv =>
      Sim.ite (fun _ => Sim.pure rfl) fun _ => Sim.pure rfl
  · exact Sim.ite (fun _ => Sim.error F) fun _ => Sim.pure rfl

theorem nonzero_sim (e1 : h.z x = xa) (e2 : h.z pivs = pa) (e3 : h.z xi = xia) (F : Frame h0 h) :
    ∀ (m : Nat) (i : Int), Sim h0 h (nonzeroLoopH x pivs xi m i)
      (nonzeroLoop xa pa xia m i) fun r => (r, h)
  | 0, _ => Sim.error F
  | m + 1, i => by
    unfold nonzeroLoopH nonzeroLoop
    exact Sim.rd e3 F fun inew => Sim.rd e1 F fun v => Sim.rd e2 F fun pv =>
      Sim.ite (fun _ => Sim.pure rfl) fun _ => nonzero_sim e1 e2 e3 F m (i + 1)

theorem choose_sim (e1 : h.z x = xa) (e2 : h.z pivs = pa) (e3 : h.z xi = xia) (F : Frame h0 h)
    (nc : Int → Int → ℚ → Bool) (order : Pivot) (tol : Dbl) (n top col : Int) :
    Sim h0 h (choosePivotH nc order tol x pivs n top xi col)
      (choosePivot nc order tol xa pa n top xia col) fun r => (r, h) := by
  unfold choosePivotH choosePivot
  cases order with
  | smallest => exact smallest_sim e1 e2 e3 F n top
  | diagonal =>
    exact Sim.rd e1 F fun v => Sim.rd e2 F fun pv =>
      Sim.ite (fun _ => Sim.pure rfl) fun _ => smallest_sim e1 e2 e3 F n top
  | firstNonzero => exact nonzero_sim e1 e2 e3 F _ _
  | tolLargest =>
    refine Sim.bind (largest_sim e1 e2 e3 F n top) fun pivot => ?_
    refine Sim.rd e1 F fun v => Sim.rd e2 F fun pv => Sim.ite (fun _ => ?_) fun _ => Sim.pure rfl
    exact Sim.lift F fun t => Sim.rd e1 F fun w => Sim.lift F fun r =>
      Sim.ite (fun _ => Sim.pure rfl) fun _ => Sim.pure rfl
  | largest => exact largest_sim e1 e2 e3 F n top
  | tolSmallest =>
    refine Sim.bind (smallest_sim e1 e2 e3 F n top) fun pivot => ?_
    refine Sim.rd e1 F fun v => Sim.rd e2 F fun pv => Sim.ite (fun _ => ?_) fun _ => Sim.pure rfl
    exact Sim.rd e1 F fun w => Sim.lift F fun t => Sim.lift F fun r =>
      Sim.ite (fun _ => Sim.pure rfl) fun _ => Sim.pure rfl

variable {E : Arr Int → Arr Int → Arr Int → Arr Int → Heap} {rhos pinv row_perm : Ref}

theorem getPivot_sim (s1 : ∀ b c d, Slot h0 (fun a => E a b c d) pivs)
    (s2 : ∀ a c d, Slot h0 (fun b => E a b c d) rhos)
    (s3 : ∀ a b d, Slot h0 (fun c => E a b c d) pinv) (s4 : ∀ a b c, Slot h0 (E a b c) row_perm)
    (r1 : ∀ a b c d, (E a b c d).z x = xa) (r2 : ∀ a b c d, (E a b c d).z xi = xia)
    (nc : Int → Int → ℚ → Bool) (order : Pivot) (tol : Dbl) (n top col k : Int)
    (pa rh pi rp : Arr Int) :
    Sim h0 (E pa rh pi rp) (slip_get_pivotH nc order tol x pivs n top xi col k rhos pinv row_perm)
      (slip_get_pivot nc order tol xa pa n top xia col k rh pi rp)
      fun g => (g.pivot, E g.pivs g.rhos g.pinv g.row_perm) := by
  have F : ∀ a b c d, Frame h0 (E a b c d) := fun a b c d => (s4 a b c).fr d
  have g1 : ∀ a b c d, (E a b c d).z pivs = a := fun a b c d => (s1 b c d).get a
  have g3 : ∀ a b c d, (E a b c d).z pinv = c := fun a b c d => (s3 a b d).get c
  have g4 : ∀ a b c d, (E a b c d).z row_perm = d := fun a b c d => (s4 a b c).get d
  unfold slip_get_pivotH slip_get_pivot
  refine Sim.bind (choose_sim (r1 ..) (g1 ..) (r2 ..) (F ..) nc order tol n top col) fun pivot => ?_
  exact Sim.rd (g3 ..) (F ..) fun _ => Sim.rd (g4 ..) (F ..) fun _ =>
    Sim.wr (s4 ..) fun _ => Sim.wr (s4 ..) fun _ => Sim.wr (s3 _ _ _) fun _ => Sim.wr (s3 _ _ _) fun _ =>
    Sim.wr (s1 _ _ _) fun _ => Sim.rd (r1 ..) (F ..) fun _ => Sim.zinit (s2 _ _ _) fun _ =>
    Sim.zset (s2 _ _ _) fun _ => Sim.pure rfl

end pivot

end Slip.Store
