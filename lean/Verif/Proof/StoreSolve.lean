import Verif.Proof.StoreLU

/-!
# Simulation of the value model by the heap model: SLIP_LU_solve
-/

namespace Slip.Store

variable {α β γ δ σ τ : Type} {h0 h : Heap}

/-- The object `b2`. -/
def denB (h0 : Heap) (d : Dense Int) : DenseH := ⟨d.m, d.n, d.nzmax, h0.nz + 0⟩
/-- The object `x2`. -/
def denX2 (h0 : Heap) (d : Dense ℚ) : DenseH := ⟨d.m, d.n, d.nzmax, h0.nq + 0⟩
/-- The object `x`. -/
def denX (h0 : Heap) (d : Dense ℚ) : DenseH := ⟨d.m, d.n, d.nzmax, h0.nq + 1⟩

theorem ext_oldq {l lq} {r : Ref} (hr : r < h0.nq) : (ext h0 l lq).q r = h0.q r := if_neg (by omega)

theorem allocDense_run {l lq} (m n : Int) : allocDenseH m n (ext h0 l lq) =
    (.ok ⟨m, n, max (m * n) 1, h0.nz + l.length⟩, ext h0 (l ++ [(allocDense Int m n).x]) lq) := by
  unfold allocDenseH
  rw [bind_run new_run]
  rfl

theorem allocDenseq_run {l lq} (m n : Int) : allocDenseqH m n (ext h0 l lq) =
    (.ok ⟨m, n, max (m * n) 1, h0.nq + lq.length⟩, ext h0 l (lq ++ [(allocDense ℚ m n).x])) := by
  unfold allocDenseqH
  rw [bind_run newq_run]
  rfl

theorem permute_b_sim {b : DenseH} {pinv : Ref} (hb : b.x < h0.nz) (hp : pinv < h0.nz) :
    Sim h0 (ext h0 [] []) (slip_permute_bH b pinv) (slip_permute_b (b.view h0) (h0.z pinv))
      fun d => (denB h0 d, ext h0 [d.x] []) := by
  unfold slip_permute_bH slip_permute_b
  refine Sim.step (allocDense_run _ _) ?_
  refine Sim.bind (Sim.for' (fun x : Arr Int => ((), ext h0 [x] [])) rfl fun i x => ?_) fun x =>
    Sim.pure rfl
  refine Sim.for' (fun x : Arr Int => ((), ext h0 [x] [])) rfl fun j x => ?_
  exact Sim.rd (ext_old hp) (ext_frame ..) fun p => Sim.rd (ext_old hb) (ext_frame ..) fun v =>
    Sim.modE (g := fun a => Slip.zset a _ v) (slot_ext [] [] [])

section fwd
variable {E : Arr Int → Arr Int → Heap} {rhos x hh : Ref} {L : CscH} {rh : Arr Int} {La : Csc}

theorem fwdUpdate_sim (sh : ∀ b, Slot h0 (fun a => E a b) hh) (sx : ∀ a, Slot h0 (E a) x)
    (r1 : ∀ a b, (E a b).z rhos = rh) (ij ii i lji : Int) (ha a : Arr Int) :
    Sim h0 (E ha a) (fwdUpdateH rhos hh x ij ii i lji) (fwdUpdate rh ha a ij ii i lji)
      fun r => ((), E r.1 r.2) := by
  have F : ∀ a b, Frame h0 (E a b) := fun a b => (sx a).fr b
  have g1 : ∀ a b, (E a b).z hh = a := fun a b => (sh b).get a
  have g2 : ∀ a b, (E a b).z x = b := fun a b => (sx a).get b
  have tail : ∀ a, Sim h0 (E ha a) (if i > 0 then do
        let v ← rdH x ij
        let ρ ← rdH rhos (i - 1)
        let d ← lift (divexact v ρ)
        zsetH x ij d
      else pure ()) (if i > 0 then do
        let v ← Slip.rd a ij
        let ρ ← Slip.rd rh (i - 1)
        let d ← divexact v ρ
        Slip.zset a ij d
      else pure a) fun a => ((), E ha a) := fun a =>
    Sim.ite (fun _ => Sim.rd (g2 ..) (F ..) fun _ => Sim.rd (r1 ..) (F ..) fun _ =>
      Sim.lift (F ..) fun d => Sim.modE (g := fun a => Slip.zset a _ d) (sx _)) fun _ => Sim.pure rfl
  unfold fwdUpdateH fwdUpdate
  refine Sim.rd (g2 ..) (F ..) fun xj => ?_
  refine Sim.bind (R := fun a => ((), E ha a)) (Sim.ite (fun _ => ?_) fun _ => ?_) fun a => ?_
  · exact Sim.rd (g2 ..) (F ..) fun xi => Sim.zset (sx _) fun a => tail a
  · exact Sim.rd (g1 ..) (F ..) fun hx => Sim.bind (hist_sim (sx _) (r1 _) _ _ _ _) fun a =>
      Sim.rd (g2 ..) (F ..) fun v => Sim.rd (r1 ..) (F ..) fun ρ => Sim.zset (sx _) fun a =>
      Sim.rd (g2 ..) (F ..) fun v => Sim.rd (g2 ..) (F ..) fun xi => Sim.zset (sx _) fun a => tail a
  · exact Sim.bindPure (Sim.modE (E := fun c => E c a) (g := fun a => Slip.wr a ij i) (sh a))
      fun _ => Sim.pure rfl

theorem fwdStep_sim (sh : ∀ b, Slot h0 (fun a => E a b) hh) (sx : ∀ a, Slot h0 (E a) x)
    (r1 : ∀ a b, (E a b).z rhos = rh) (r4 : ∀ a b, (E a b).z L.p = La.p)
    (r5 : ∀ a b, (E a b).z L.i = La.i) (r6 : ∀ a b, (E a b).z L.x = La.x) (m k i : Int)
    (ha a : Arr Int) :
    Sim h0 (E ha a) (fwdStepH L rhos m k i hh x) (fwdStep La rh m k i ha a)
      fun r => ((), E r.1 r.2) := by
  have F : ∀ a b, Frame h0 (E a b) := fun a b => (sx a).fr b
  have g1 : ∀ a b, (E a b).z hh = a := fun a b => (sh b).get a
  have g2 : ∀ a b, (E a b).z x = b := fun a b => (sx a).get b
  unfold fwdStepH fwdStep
  refine Sim.rd (g1 ..) (F ..) fun hx => Sim.rd (g2 ..) (F ..) fun xi => ?_
  refine Sim.ite (fun _ => Sim.pure rfl) fun _ => ?_
  refine Sim.bind (hist_sim (sx _) (r1 _) _ _ _ _) fun a => ?_
  refine Sim.rd (r4 ..) (F ..) fun p0 => Sim.rd (r4 ..) (F ..) fun p1 => ?_
  refine Sim.for' (fun r : Arr Int × Arr Int => ((), E r.1 r.2)) rfl fun j ⟨ha, a⟩ => ?_
  refine Sim.rd (r5 ..) (F ..) fun jnew => Sim.rd (r6 ..) (F ..) fun lji => ?_
  exact Sim.ite (fun _ => Sim.pure rfl) fun _ => Sim.ite (fun _ => fwdUpdate_sim sh sx r1 _ _ _ _ _ _)
    fun _ => Sim.pure rfl

end fwd

theorem forward_sim {L : CscH} {rhos : Ref} (hL : L.In h0) (hr : rhos < h0.nz) (x : Dense Int) :
    Sim h0 (ext h0 [x.x] []) (slip_forward_subH L (denB h0 x) rhos)
      (slip_forward_sub (L.view h0) x (h0.z rhos)) fun d => ((), ext h0 [d.x, []] []) := by
  unfold slip_forward_subH slip_forward_sub
  refine Sim.step (allocDense_run _ _) ?_
  refine Sim.bind (Sim.for' (fun a : Arr Int => ((), ext h0 [x.x, a] [])) rfl fun i a =>
    Sim.modE (E := fun a => ext h0 [x.x, a] []) (g := fun a => Slip.wr a i (-1))
      (slot_ext [x.x] [] [])) fun a => ?_
  refine Sim.bind (Sim.for' (fun r : Arr Int × Arr Int => ((), ext h0 [r.2, r.1] [])) rfl fun k r => ?_)
    fun r => ?_
  · refine Sim.for' (fun r : Arr Int × Arr Int => ((), ext h0 [r.2, r.1] [])) rfl fun i ⟨ha, a⟩ => ?_
    exact fwdStep_sim (E := fun ha a => ext h0 [a, ha] []) (fun b => slot_ext [b] [] [])
      (fun a => slot_ext [] [a] []) (fun _ _ => ext_old hr) (fun _ _ => ext_old hL.1)
      (fun _ _ => ext_old hL.2.1) (fun _ _ => ext_old hL.2.2) _ k i ha a
  · exact free_run (l := [r.2, r.1]) (j := 1) (by simp)

theorem mul_sim (x : Dense Int) (v : Int) :
    Sim h0 (ext h0 [x.x, []] []) (slip_matrix_mulH (denB h0 x) v) (slip_matrix_mul x v)
      fun d => ((), ext h0 [d.x, []] []) := by
  unfold slip_matrix_mulH slip_matrix_mul
  refine Sim.bindPure (Sim.for' (fun a : Arr Int => ((), ext h0 [a, []] [])) rfl fun i a => ?_)
    fun a => Sim.pure rfl
  exact Sim.rd (ext_z rfl) (ext_frame ..) fun v =>
    Sim.modE (E := fun a => ext h0 [a, []] []) (g := fun a => Slip.zset a i _) (slot_ext [] [[]] [])

theorem back_sim {U : CscH} (hU : U.In h0) (x : Dense Int) :
    Sim h0 (ext h0 [x.x, []] []) (slip_back_subH U (denB h0 x)) (slip_back_sub (U.view h0) x)
      fun d => ((), ext h0 [d.x, []] []) := by
  obtain ⟨hp, hi, hx⟩ := hU
  have S : Slot h0 (fun a => ext h0 [a, []] []) (h0.nz + 0) := slot_ext [] [[]] []
  unfold slip_back_subH slip_back_sub
  refine Sim.bindPure (Sim.for' (fun a : Arr Int => ((), ext h0 [a, []] [])) rfl fun k a => ?_)
    fun a => Sim.pure rfl
  refine Sim.forDown' (fun a : Arr Int => ((), ext h0 [a, []] [])) rfl fun j a => ?_
  unfold backStepH backStep
  refine Sim.rd (ext_z rfl) (ext_frame ..) fun v => ?_
  refine Sim.ite (fun _ => Sim.pure rfl) fun _ => ?_
  refine Sim.rd (ext_old hp) (ext_frame ..) fun p1 => Sim.rd (ext_old hx) (ext_frame ..) fun d =>
    Sim.lift (ext_frame ..) fun w => Sim.zset S fun a => Sim.rd (ext_old hp) (ext_frame ..) fun p0 => ?_
  refine Sim.for' (fun a : Arr Int => ((), ext h0 [a, []] [])) rfl fun i a => ?_
  unfold backInnerH backInner
  refine Sim.rd (ext_old hx) (ext_frame ..) fun u => Sim.ite (fun _ => Sim.pure rfl) fun _ => ?_
  exact Sim.rd (ext_old hi) (ext_frame ..) fun row => Sim.rd (ext_z rfl) (ext_frame ..) fun w =>
    Sim.rd (ext_z rfl) (ext_frame ..) fun bj =>
    Sim.modE (g := fun a => Slip.zset a _ _) S

theorem div_sim (x : Dense Int) (v : Int) :
    Sim h0 (ext h0 [x.x, []] []) (slip_matrix_divH (denB h0 x) v) (slip_matrix_div x v)
      fun d => (denX2 h0 d, ext h0 [x.x, []] [d.x]) := by
  have S : Slotq h0 (fun a => ext h0 [x.x, []] [a]) (h0.nq + 0) := slotq_ext _ [] []
  unfold slip_matrix_divH slip_matrix_div
  refine Sim.step (allocDenseq_run _ _) ?_
  refine Sim.bind (Sim.for' (fun a : Arr ℚ => ((), ext h0 [x.x, []] [a])) rfl fun i a => ?_) fun a =>
    Sim.pure rfl
  exact Sim.rd (ext_z rfl) (ext_frame ..) fun v => Sim.zsetq S fun a =>
    Sim.rdq (ext_q rfl) (ext_frame ..) fun w => Sim.lift (ext_frame ..) fun d => Sim.zsetqE S

theorem permute_x_sim {q : Ref} (hq : q < h0.nz) (y : Arr Int) (x : Dense ℚ) :
    Sim h0 (ext h0 [y, []] [x.x]) (slip_permute_xH (denX2 h0 x) q) (slip_permute_x x (h0.z q))
      fun d => (denX h0 d, ext h0 [y, []] [x.x, d.x]) := by
  have S : Slotq h0 (fun a => ext h0 [y, []] [x.x, a]) (h0.nq + 1) := slotq_ext _ [x.x] []
  unfold slip_permute_xH slip_permute_x
  refine Sim.step (allocDenseq_run _ _) ?_
  refine Sim.bind (Sim.for' (fun a : Arr ℚ => ((), ext h0 [y, []] [x.x, a])) rfl fun i a => ?_) fun a =>
    Sim.pure rfl
  refine Sim.for' (fun a : Arr ℚ => ((), ext h0 [y, []] [x.x, a])) rfl fun j a => ?_
  exact Sim.rd (ext_old hq) (ext_frame ..) fun p => Sim.rdq (ext_q rfl) (ext_frame ..) fun v =>
    Sim.zsetqE S

theorem check_sim {A : CscH} {b : DenseH} (hA : A.In h0) (hb : b.x < h0.nz) (y : Arr Int)
    (x : Dense ℚ) :
    Sim h0 (ext h0 [y, []] [[], x.x]) (slip_check_solutionH A (denX h0 x) b)
      (slip_check_solution (A.view h0) x (b.view h0))
      fun _ => ((), ext h0 [y, []] [[], x.x, []]) := by
  have S : Slotq h0 (fun a => ext h0 [y, []] [[], x.x, a]) (h0.nq + 2) := slotq_ext _ [[], x.x] []
  unfold slip_check_solutionH slip_check_solution
  refine Sim.step (allocDenseq_run _ _) ?_
  refine Sim.bind (R := fun a : Arr ℚ => ((), ext h0 [y, []] [[], x.x, a])) ?_ fun a => ?_
  · unfold checkMulH checkMul
    refine Sim.for' (fun a : Arr ℚ => ((), ext h0 [y, []] [[], x.x, a])) rfl fun j a => ?_
    refine Sim.for' (fun a : Arr ℚ => ((), ext h0 [y, []] [[], x.x, a])) rfl fun i a => ?_
    refine Sim.rd (ext_old hA.1) (ext_frame ..) fun p0 => Sim.rd (ext_old hA.1) (ext_frame ..) fun p1 => ?_
    refine Sim.for' (fun a : Arr ℚ => ((), ext h0 [y, []] [[], x.x, a])) rfl fun p a => ?_
    exact Sim.rd (ext_old hA.2.2) (ext_frame ..) fun v => Sim.rdq (ext_q (j := 1) rfl) (ext_frame ..) fun xv =>
      Sim.rd (ext_old hA.2.1) (ext_frame ..) fun r => Sim.rdq (ext_q (j := 2) rfl) (ext_frame ..) fun w =>
      Sim.zsetqE S
  refine Sim.bind (R := fun ok : Bool => (ok, ext h0 [y, []] [[], x.x, a])) ?_ fun ok => ?_
  · unfold checkCmpH checkCmp
    refine Sim.for' (fun ok : Bool => (ok, ext h0 [y, []] [[], x.x, a])) rfl fun j ok => ?_
    refine Sim.ite (fun _ => Sim.pure rfl) fun _ => ?_
    refine Sim.for' (fun ok : Bool => (ok, ext h0 [y, []] [[], x.x, a])) rfl fun i ok => ?_
    refine Sim.ite (fun _ => Sim.pure rfl) fun _ => ?_
    exact Sim.rd (ext_old hb) (ext_frame ..) fun v => Sim.rdq (ext_q (j := 2) rfl) (ext_frame ..) fun w =>
      Sim.pure rfl
  refine Sim.freeq (j := 2) (by simp) ?_
  exact Sim.ite (fun _ => Sim.pure rfl) fun _ => Sim.error (ext_frame ..)

theorem scale_sim (lq : List (Arr ℚ)) (y : Arr Int) (x : Dense ℚ) (sA sb : ℚ) :
    Sim h0 (ext h0 [y, []] ([] :: x.x :: lq)) (scaleSolutionH (denX h0 x) sA sb) (scaleSolution x sA sb)
      fun d => ((), ext h0 [y, []] ([] :: d.x :: lq)) := by
  have S : Slotq h0 (fun a => ext h0 [y, []] ([] :: a :: lq)) (h0.nq + 1) := slotq_ext _ [[]] lq
  unfold scaleSolutionH scaleSolution
  refine Sim.lift (ext_frame ..) fun scale => Sim.ite (fun _ => Sim.pure rfl) fun _ => ?_
  refine Sim.bindPure (Sim.for' (fun a : Arr ℚ => ((), ext h0 [y, []] ([] :: a :: lq))) rfl fun i a => ?_)
    fun a => Sim.pure rfl
  exact Sim.rdq (ext_q (j := 1) rfl) (ext_frame ..) fun v => Sim.zsetqE S

/-! ### Headers -/

theorem fwd_hd (L : Csc) (x : Dense Int) (rh : Arr Int) : wp (slip_forward_sub L x rh)
    (fun d => d.m = x.m ∧ d.n = x.n ∧ d.nzmax = x.nzmax) fun _ => True := by
  unfold slip_forward_sub
  dsimp only
  rw [wp_bind]
  refine wp_mono (wp_any _) (fun _ _ => ?_) fun _ => id
  rw [wp_bind]
  exact wp_mono (wp_any _) (fun _ _ => ⟨rfl, rfl, rfl⟩) fun _ => id

theorem mul_hd (x : Dense Int) (v : Int) : wp (slip_matrix_mul x v)
    (fun d => d.m = x.m ∧ d.n = x.n ∧ d.nzmax = x.nzmax) fun _ => True := by
  unfold slip_matrix_mul
  rw [wp_bind]
  exact wp_mono (wp_any _) (fun _ _ => ⟨rfl, rfl, rfl⟩) fun _ => id

theorem back_hd (U : Csc) (x : Dense Int) : wp (slip_back_sub U x)
    (fun d => d.m = x.m ∧ d.n = x.n ∧ d.nzmax = x.nzmax) fun _ => True := by
  unfold slip_back_sub
  rw [wp_bind]
  exact wp_mono (wp_any _) (fun _ _ => ⟨rfl, rfl, rfl⟩) fun _ => id

theorem scale_hd (x : Dense ℚ) (sA sb : ℚ) : wp (scaleSolution x sA sb)
    (fun d => d.m = x.m ∧ d.n = x.n ∧ d.nzmax = x.nzmax) fun _ => True := by
  unfold scaleSolution
  rw [wp_bind]
  refine wp_mono (wp_any _) (fun s _ => ?_) fun _ => id
  by_cases hs : s = 1
  · rw [if_pos hs]; exact ⟨rfl, rfl, rfl⟩
  · rw [if_neg hs, wp_bind]
    exact wp_mono (wp_any _) (fun _ _ => ⟨rfl, rfl, rfl⟩) fun _ => id

theorem denB_hd {x d : Dense Int} (h : d.m = x.m ∧ d.n = x.n ∧ d.nzmax = x.nzmax) :
    denB h0 d = denB h0 x := by
  unfold denB; rw [h.1, h.2.1, h.2.2]

theorem denX_hd {x d : Dense ℚ} (h : d.m = x.m ∧ d.n = x.n ∧ d.nzmax = x.nzmax) :
    denX h0 d = denX h0 x := by
  unfold denX; rw [h.1, h.2.1, h.2.2]

/-- The factors behind the references of `F`. -/
def FactorsH.view (h : Heap) (F : FactorsH) : Factors :=
  ⟨F.L.view h, F.U.view h, h.z F.rhos, h.z F.pinv⟩

/-- The arrays of `F` exist in the heap. -/
def FactorsH.In (h : Heap) (F : FactorsH) : Prop :=
  F.L.In h ∧ F.U.In h ∧ F.rhos < h.nz ∧ F.pinv < h.nz

/-- The heap after the solve phase. -/
def WS (h0 : Heap) (check : Bool) (d : Dense ℚ) : Heap :=
  ext h0 [[], []] (if check then [[], d.x, []] else [[], d.x])

theorem luSolve_sim {A : CscH} {b : DenseH} {F : FactorsH} {q : Ref} (hA : A.In h0) (hb : b.x < h0.nz)
    (hF : F.In h0) (hq : q < h0.nz) (sA sb : ℚ) (check : Bool) :
    Sim h0 h0 (luSolveH A sA b sb F q check)
      (luSolve (A.view h0) sA (b.view h0) sb (F.view h0) (h0.z q) check)
      fun d => (denX h0 d, WS h0 check d) := by
  obtain ⟨hL, hU, hr, hp⟩ := hF
  have e0 : ∀ {β α : Type} (mH : H β) (m : C α) R, Sim h0 (ext h0 [] []) mH m R → Sim h0 h0 mH m R := by
    intro _ _ _ _ _ h; rwa [ext_nil] at h
  apply e0
  unfold luSolveH luSolve
  refine Sim.bind (permute_b_sim hb hp) fun b2 => ?_
  refine Sim.bindW (forward_sim hL hr b2) fun b3 e3 => ?_
  have h3 := fwd_hd (F.view h0).L b2 (F.view h0).rhos
  rw [e3] at h3
  dsimp only
  rw [← denB_hd (h0 := h0) h3]
  refine Sim.rd (ext_old hr) (ext_frame ..) fun det => ?_
  refine Sim.bindW (mul_sim b3 det) fun b4 e4 => ?_
  have h4 := mul_hd b3 det
  rw [e4] at h4
  dsimp only
  rw [← denB_hd (h0 := h0) h4]
  refine Sim.bindW (back_sim hU b4) fun b5 e5 => ?_
  have h5 := back_hd (F.view h0).U b4
  rw [e5] at h5
  dsimp only
  rw [← denB_hd (h0 := h0) h5]
  refine Sim.rd (ext_old hr) (ext_frame ..) fun det => ?_
  refine Sim.bind (div_sim b5 det) fun x2 => ?_
  refine Sim.bind (permute_x_sim hq _ x2) fun x => ?_
  refine Sim.freeq (j := 0) (by simp) ?_
  have fin : ∀ lq, Sim h0 (ext h0 [b5.x, []] ([] :: x.x :: lq))
      (scaleSolutionH (denX h0 x) sA sb >>= fun _ => freeH (denB h0 b5).x >>= fun _ => pure (denX h0 x))
      (scaleSolution x sA sb) fun d => (denX h0 d, ext h0 [[], []] ([] :: d.x :: lq)) := fun lq => by
    refine Sim.then (scale_sim lq _ x sA sb) fun d e => ?_
    have h6 := scale_hd x sA sb
    rw [e] at h6
    rw [denX_hd h6]
    exact bind_run (free_run (l := [b5.x, []]) (j := 0) (by simp))
  cases check with
  | true => exact Sim.bind (check_sim hA hb _ x) fun _ => fin [[]]
  | false => exact Sim.step (b := ()) rfl (fin [])

end Slip.Store
