import Verif.Proof.CostFact
import Verif.Model.CostApi

/-! # The work of the solve -/

namespace Slip

open Finset

variable (α β : ℕ)

theorem Cnt.loop {γ : Type} {c : ℕ} {lo hi : Int} {s : γ} {f : Int → γ → C γ} :
    Cnt ((hi - lo).toNat * c) (forRangeT c lo hi s fun i s => W.lift (f i s)) (Slip.forRange lo hi s f) :=
  (Cnt.forRange (b := 0) fun _ _ _ _ => Cnt.lift _).mono (by rw [Nat.add_zero])

theorem slip_permute_bT_cnt (b2 : Dense Int) (pinv : Arr Int) :
    Cnt (b2.m.toNat * (β + b2.n.toNat * β)) (slip_permute_bT β b2 pinv) (slip_permute_b b2 pinv) := by
  unfold slip_permute_bT slip_permute_b
  refine Cnt.mono (Cnt.bind (b2 := 0) (.forRange fun i s _ _ => .loop) fun _ _ => .pure _) ?_
  simp

theorem slip_permute_xT_cnt (x2 : Dense ℚ) (q : Arr Int) :
    Cnt (x2.m.toNat * (β + x2.n.toNat * β)) (slip_permute_xT β x2 q) (slip_permute_x x2 q) := by
  unfold slip_permute_xT slip_permute_x
  refine Cnt.mono (Cnt.bind (b2 := 0) (.forRange fun i s _ _ => .loop) fun _ _ => .pure _) ?_
  simp

theorem fwdUpdateT_cnt (rhos h x : Arr Int) (ij ii i lji : Int) :
    Cnt (5 * α) (fwdUpdateT α rhos h x ij ii i lji) (fwdUpdate rhos h x ij ii i lji) := by
  unfold fwdUpdateT fwdUpdate
  have tail : ∀ x : Arr Int, Cnt α (if i > 0 then do
        let v ← W.lift (rd x ij)
        let ρ ← W.lift (rd rhos (i - 1))
        tick α
        let d ← W.lift (divexact v ρ)
        W.lift (zset x ij d)
      else pure x) (if i > 0 then do
        let v ← rd x ij
        let ρ ← rd rhos (i - 1)
        let d ← divexact v ρ
        zset x ij d
      else pure x) := fun x => .ite (fun _ => .liftBind fun v _ => .liftBind fun ρ _ =>
        (Cnt.tickBind (b := 0) (.liftBind fun d _ => .lift _)).mono (by omega))
        fun _ => (Cnt.pure _).mono (by omega)
  refine .liftBind fun xj _ => (Cnt.bind (b1 := 5 * α) (b2 := 0) (.ite (fun _ => ?_) fun _ => ?_) fun x _ =>
    .liftBind fun h _ => .pure _).mono (by omega)
  · refine .liftBind fun xi _ => (Cnt.tickBind (b := α) (.liftBind fun x _ => tail x)).mono (by omega)
  · refine .liftBind fun hx _ => ((histUpdateT_cnt α _ _ _ _ _).bind (b2 := 3 * α) fun x _ => ?_).mono (by omega)
    refine .liftBind fun v _ => .liftBind fun ρ _ => (Cnt.tickBind (b := 2 * α) (.liftBind fun x _ =>
      .liftBind fun v _ => .liftBind fun xi _ => ?_)).mono (by omega)
    exact (Cnt.tickBind (b := α) (.liftBind fun x _ => tail x)).mono (by omega)

theorem ptrLen_eq {p : Arr Int} {i a b : Int} (ha : get p i = some a) (hb : get p (i + 1) = some b) :
    ptrLen p i = (b - a).toNat := by
  unfold ptrLen
  rw [ha, hb]
  rfl

theorem fwdStepT_cnt (L : Csc) (rhos : Arr Int) (m k i : Int) (h x : Arr Int) :
    Cnt (2 * α + ptrLen L.p i * (β + 5 * α)) (fwdStepT α β L rhos m k i h x) (fwdStep L rhos m k i h x) := by
  unfold fwdStepT fwdStep
  refine .liftBind fun hx _ => .liftBind fun xi _ => .ite (fun _ => (Cnt.pure _).mono (by omega)) fun _ => ?_
  refine (histUpdateT_cnt α _ _ _ _ _).bind fun x _ => .liftBind fun p0 h0 => .liftBind fun p1 h1 => ?_
  rw [ptrLen_eq (rd_ok h0) (rd_ok h1)]
  refine .forRange fun j st _ _ => .liftBind fun jn _ => .liftBind fun lji _ =>
    .ite (fun _ => (Cnt.pure _).mono (by omega)) fun _ => .ite (fun _ => fwdUpdateT_cnt α _ _ _ _ _ _ _) fun _ =>
    (Cnt.pure _).mono (by omega)

theorem slip_forward_subT_cnt (L : Csc) (x : Dense Int) (rhos : Arr Int) :
    Cnt (x.nzmax.toNat * β + x.n.toNat * (β + ∑ i ∈ range x.m.toNat, (β + (2 * α + ptrLen L.p (i : Int) * (β + 5 * α)))))
      (slip_forward_subT α β L x rhos) (slip_forward_sub L x rhos) := by
  unfold slip_forward_subT slip_forward_sub
  refine Cnt.mono (Cnt.loop.bind fun h _ => Cnt.bind (b2 := 0) (.forRange fun k st _ _ => ?_) fun _ _ => .pure _) ?_
    (b := ((x.nzmax - 0).toNat * β + ((x.n - 0).toNat * (β + ∑ i ∈ range (x.m - 0).toNat,
      (β + (2 * α + ptrLen L.p (i : Int) * (β + 5 * α)))) + 0)))
  · refine Cnt.forCntSum _ _ _ fun t s _ => ?_
    rw [Int.zero_add]
    exact fwdStepT_cnt α β L rhos x.m k t s.1 s.2
  · simp

theorem slip_matrix_mulT_cnt (x : Dense Int) (scalar : Int) :
    Cnt ((x.m * x.n).toNat * (β + α)) (slip_matrix_mulT α β x scalar) (slip_matrix_mul x scalar) := by
  unfold slip_matrix_mulT slip_matrix_mul
  refine Cnt.mono (Cnt.bind (b2 := 0) (.forRange (b := α) fun i s _ _ => .liftBind fun v _ =>
    (Cnt.tickBind (b := 0) (.lift _)).mono (by omega)) fun _ _ => .pure _) ?_
  simp

theorem backStepT_cnt (U : Csc) (m k j : Int) (y : Arr Int) :
    Cnt (α + (ptrLen U.p j - 1) * (β + α)) (backStepT α β U m k j y) (backStep U m k j y) := by
  unfold backStepT backStep
  refine .liftBind fun v _ => .ite (fun _ => (Cnt.pure _).mono (by omega)) fun _ => ?_
  refine .liftBind fun p1 h1 => .liftBind fun d _ => .tickBind (.liftBind fun w _ => .liftBind fun y _ =>
    .liftBind fun p0 h0 => ?_)
  rw [ptrLen_eq (rd_ok h0) (rd_ok h1), show (p1 - p0).toNat - 1 = (p1 - 1 - p0).toNat by omega]
  refine .forRange fun i y _ _ => ?_
  unfold backInnerT backInner
  refine .liftBind fun u _ => .ite (fun _ => (Cnt.pure _).mono (by omega)) fun _ => ?_
  exact .liftBind fun r _ => .liftBind fun w _ => .liftBind fun bj _ =>
    (Cnt.tickBind (b := 0) (.lift _)).mono (by omega)

theorem slip_back_subT_cnt (U : Csc) (bx : Dense Int) :
    Cnt (bx.n.toNat * (β + ∑ j ∈ range U.n.toNat, (β + (α + (ptrLen U.p (j : Int) - 1) * (β + α)))))
      (slip_back_subT α β U bx) (slip_back_sub U bx) := by
  unfold slip_back_subT slip_back_sub
  refine Cnt.mono (Cnt.bind (b2 := 0) (.forRange fun k st _ _ => ?_) fun _ _ => .pure _) ?_
    (b := ((bx.n - 0).toNat * (β + ∑ j ∈ range (U.n - 0).toNat,
      (β + (α + (ptrLen U.p (j : Int) - 1) * (β + α)))) + 0))
  · refine Cnt.forDownCntSum _ _ _ fun t s _ => ?_
    rw [Int.zero_add]
    exact backStepT_cnt α β U bx.m k t s
  · simp

theorem slip_matrix_divT_cnt (x : Dense Int) (scalar : Int) :
    Cnt ((x.m * x.n).toNat * (β + α)) (slip_matrix_divT α β x scalar) (slip_matrix_div x scalar) := by
  unfold slip_matrix_divT slip_matrix_div
  refine Cnt.mono (Cnt.bind (b2 := 0) (.forRange (b := α) fun i s _ _ => .liftBind fun v _ => .liftBind fun y _ =>
    .liftBind fun w _ => (Cnt.tickBind (b := 0) (.liftBind fun d _ => .lift _)).mono (by omega)) fun _ _ => .pure _) ?_
  simp

theorem slip_check_solutionT_cnt (A : Csc) (x : Dense ℚ) (b : Dense Int) :
    Cnt (b.n.toNat * (β + ∑ i ∈ range b.m.toNat, (β + ptrLen A.p (i : Int) * (β + 2 * α))) +
        b.n.toNat * (β + b.m.toNat * β))
      (slip_check_solutionT α β A x b) (slip_check_solution A x b) := by
  unfold slip_check_solutionT slip_check_solution
  refine Cnt.bind ?_ fun y _ => Cnt.mono (Cnt.bind (b2 := 0) (?_ : Cnt (b.n.toNat * (β + b.m.toNat * β)) _ _)
    fun ok _ => .lift _) (by omega)
  · unfold checkMulT checkMul
    refine Cnt.mono (.forRange fun k st _ _ => ?_) ?_
      (b := ((b.n - 0).toNat * (β + ∑ i ∈ range (b.m - 0).toNat, (β + ptrLen A.p (i : Int) * (β + 2 * α)))))
    · refine Cnt.forCntSum _ _ _ fun t s _ => ?_
      rw [Int.zero_add]
      refine .liftBind fun p0 h0 => .liftBind fun p1 h1 => ?_
      rw [ptrLen_eq (rd_ok h0) (rd_ok h1)]
      refine .forRange fun p s _ _ => .liftBind fun a _ => .liftBind fun xv _ => ?_
      refine (Cnt.tickBind (b := α) (.liftBind fun r _ => .liftBind fun w _ => ?_)).mono (by omega)
      exact (Cnt.tickBind (b := 0) (.lift _)).mono (by omega)
    · simp
  · unfold checkCmpT checkCmp
    refine Cnt.mono (.forRange (b := b.m.toNat * β) fun j ok _ _ => ?_) (by simp)
    refine .ite (fun _ => (Cnt.pure _).mono (by omega)) fun _ => Cnt.loop.mono (by simp)

theorem scaleSolutionT_cnt (x : Dense ℚ) (sA sb : ℚ) :
    Cnt (α + (x.m * x.n).toNat * (β + α)) (scaleSolutionT α β x sA sb) (scaleSolution x sA sb) := by
  unfold scaleSolutionT scaleSolution
  refine .tickBind (.liftBind fun s _ => .ite (fun _ => (Cnt.pure _).mono (by omega)) fun _ => ?_)
  refine Cnt.mono (Cnt.bind (b2 := 0) (.forRange (b := α) fun i s _ _ => .liftBind fun v _ =>
    (Cnt.tickBind (b := 0) (.lift _)).mono (by omega)) fun _ _ => .pure _) ?_
  simp

theorem dims_permute_b {b b' : Dense Int} {pinv : Arr Int} (h : slip_permute_b b pinv = .ok b') :
    b'.m = b.m ∧ b'.n = b.n ∧ b'.nzmax = max (b.m * b.n) 1 := by
  unfold slip_permute_b at h
  obtain ⟨x, -, h⟩ := bind_ok_iff.1 h
  cases h
  exact ⟨rfl, rfl, rfl⟩

theorem dims_forward_sub {L : Csc} {b b' : Dense Int} {rhos : Arr Int} (h : slip_forward_sub L b rhos = .ok b') :
    b'.m = b.m ∧ b'.n = b.n := by
  unfold slip_forward_sub at h
  obtain ⟨x, -, h⟩ := bind_ok_iff.1 h
  obtain ⟨y, -, h⟩ := bind_ok_iff.1 h
  cases h
  exact ⟨rfl, rfl⟩

theorem dims_matrix_mul {b b' : Dense Int} {d : Int} (h : slip_matrix_mul b d = .ok b') :
    b'.m = b.m ∧ b'.n = b.n := by
  unfold slip_matrix_mul at h
  obtain ⟨x, -, h⟩ := bind_ok_iff.1 h
  cases h
  exact ⟨rfl, rfl⟩

theorem dims_back_sub {U : Csc} {b b' : Dense Int} (h : slip_back_sub U b = .ok b') :
    b'.m = b.m ∧ b'.n = b.n := by
  unfold slip_back_sub at h
  obtain ⟨x, -, h⟩ := bind_ok_iff.1 h
  cases h
  exact ⟨rfl, rfl⟩

theorem dims_matrix_div {b : Dense Int} {d : Int} {x : Dense ℚ} (h : slip_matrix_div b d = .ok x) :
    x.m = b.m ∧ x.n = b.n := by
  unfold slip_matrix_div at h
  obtain ⟨y, -, h⟩ := bind_ok_iff.1 h
  cases h
  exact ⟨rfl, rfl⟩

theorem dims_permute_x {x x' : Dense ℚ} {q : Arr Int} (h : slip_permute_x x q = .ok x') :
    x'.m = x.m ∧ x'.n = x.n := by
  unfold slip_permute_x at h
  obtain ⟨y, -, h⟩ := bind_ok_iff.1 h
  cases h
  exact ⟨rfl, rfl⟩

/-- The sum of the first `n` column lengths. -/
def ptrSum (p : Arr Int) (n : ℕ) : ℕ := ∑ i ∈ range n, ptrLen p (i : Int)

theorem luSolveT_cnt {n r : ℕ} {A : Csc} {b : Dense Int} {F : Factors} (sA sb : ℚ) (q : Arr Int) (check : Bool)
    (hbm : b.m = n) (hbn : b.n = r) (hUn : F.U.n = n) (hU : ∀ j < n, 1 ≤ ptrLen F.U.p (j : Int)) :
    Cnt (α * (5 * (r * ptrSum F.L.p n) + r * ptrSum F.U.p n + (if check then 2 * (r * ptrSum A.p n) else 0) +
          5 * (n * r) + 1) +
        β * (r * ptrSum F.L.p n + r * ptrSum F.U.p n + (if check then r * ptrSum A.p n + 2 * r + 2 * (n * r) else 0) +
          2 * n + 2 * r + 6 * (n * r) + max (n * r) 1))
      (luSolveT α β A sA b sb F q check) (luSolve A sA b sb F q check) := by
  unfold luSolveT luSolve
  have hnr : ((n : Int) * (r : Int)).toNat = n * r := by
    rw [← Nat.cast_mul, Int.toNat_natCast]
  have hmax : (max ((n : Int) * r) 1).toNat = max (n * r) 1 := by
    rw [← Nat.cast_mul]; omega
  have e1 := slip_permute_bT_cnt β b F.pinv
  rw [hbm, hbn] at e1
  simp only [Int.toNat_natCast] at e1
  refine Cnt.mono (e1.bind fun b2 h2 => ?_) (?_ : _ + (max (n * r) 1 * β + r * (β + (n * (β + 2 * α) +
    ptrSum F.L.p n * (β + 5 * α))) + (n * r * (β + α) + (r * (β + ptrSum F.U.p n * (β + α)) + (n * r * (β + α) +
    (n * (β + r * β) + ((if check then r * (β + (n * β + ptrSum A.p n * (β + 2 * α))) + r * (β + n * β) else 0) +
      (α + n * r * (β + α)))))))) ≤ _)
  · obtain ⟨d1, d2, d3⟩ := dims_permute_b h2
    rw [hbm] at d1 d3; rw [hbn] at d2 d3
    have e2 := slip_forward_subT_cnt α β F.L b2 F.rhos
    rw [d1, d2, d3, hmax] at e2
    simp only [Int.toNat_natCast] at e2
    have es : ∑ i ∈ range n, (β + (2 * α + ptrLen F.L.p (i : Int) * (β + 5 * α))) =
        n * (β + 2 * α) + ptrSum F.L.p n * (β + 5 * α) := by
      rw [ptrSum, sum_mul]
      simp only [← add_assoc]
      rw [sum_add_distrib, sum_const, card_range, smul_eq_mul]
    rw [es] at e2
    refine e2.bind fun b3 h3 => .liftBind fun det _ => ?_
    obtain ⟨f1, f2⟩ := dims_forward_sub h3
    rw [d1] at f1; rw [d2] at f2
    have e3 := slip_matrix_mulT_cnt α β b3 det
    rw [f1, f2, hnr] at e3
    refine e3.bind fun b4 h4 => ?_
    obtain ⟨g1, g2⟩ := dims_matrix_mul h4
    rw [f1] at g1; rw [f2] at g2
    have e4 := slip_back_subT_cnt α β F.U b4
    rw [g2, hUn] at e4
    simp only [Int.toNat_natCast] at e4
    have es4 : ∑ j ∈ range n, (β + (α + (ptrLen F.U.p (j : Int) - 1) * (β + α))) = ptrSum F.U.p n * (β + α) := by
      rw [ptrSum, sum_mul]
      refine sum_congr rfl fun j hj => ?_
      obtain ⟨l, hl⟩ := Nat.exists_eq_add_of_le (hU j (mem_range.1 hj))
      rw [hl, Nat.add_sub_cancel_left, Nat.add_mul, Nat.one_mul]
      omega
    rw [es4] at e4
    refine e4.bind fun b5 h5 => .liftBind fun det' _ => ?_
    obtain ⟨k1, k2⟩ := dims_back_sub h5
    rw [g1] at k1; rw [g2] at k2
    have e5 := slip_matrix_divT_cnt α β b5 det'
    rw [k1, k2, hnr] at e5
    refine e5.bind fun x2 h6 => ?_
    obtain ⟨l1, l2⟩ := dims_matrix_div h6
    rw [k1] at l1; rw [k2] at l2
    have e6 := slip_permute_xT_cnt β x2 q
    rw [l1, l2] at e6
    simp only [Int.toNat_natCast] at e6
    refine e6.bind fun x h7 => ?_
    obtain ⟨m1, m2⟩ := dims_permute_x h7
    rw [l1] at m1; rw [l2] at m2
    have e8 := scaleSolutionT_cnt α β x sA sb
    rw [m1, m2, hnr] at e8
    cases check with
    | false =>
      refine e8.mono ?_
      simp
    | true =>
      have e7 := slip_check_solutionT_cnt α β A x b
      rw [hbm, hbn] at e7
      simp only [Int.toNat_natCast] at e7
      have es7 : ∑ i ∈ range n, (β + ptrLen A.p (i : Int) * (β + 2 * α)) =
          n * β + ptrSum A.p n * (β + 2 * α) := by
        rw [ptrSum, sum_mul, sum_add_distrib, sum_const, card_range, smul_eq_mul]
      rw [es7] at e7
      exact e7.bind fun _ _ => e8
  · refine Nat.le_of_eq ?_
    cases check with
    | false => simp only [Bool.false_eq_true, if_false]; ring
    | true => simp only [if_true]; ring

end Slip
