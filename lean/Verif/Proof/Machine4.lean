import Verif.Proof.Machine3

/-!
# 64-bit arithmetic: the solve
-/

namespace Slip.M64
variable {α β σ : Type}

/-- Index of an element of a dense matrix with `m` rows, in column `j < k`. -/
theorem agree_ix {m i j k : Int} {f' : Int → C β} {c : C β} {Q : β → Prop} (hm : 0 ≤ m) (hj : 0 ≤ j)
    (hjk : j < k) (hmk : m * k ≤ 2 ^ 60) (hi : Sm i) (hf : Agree (f' (ix2 m i j)) c Q) :
    Agree (ix64 m i j >>= f') c Q := by
  have h0 : 0 ≤ j * m := mul_nonneg hj hm
  have h1 : j * m ≤ 2 ^ 60 := by
    have : j * m ≤ k * m := mul_le_mul_of_nonneg_right hjk.le hm
    rw [mul_comm k m] at this
    omega
  unfold Sm at hi
  unfold ix64
  rw [i64_eq (by omega) (by omega), ok_bind, i64_eq (by omega) (by omega)]
  exact hf

theorem agree_allocDense {α : Type} [Zero α] {m n : Int} {f' : Dense α → C β} {c : C β} {Q : β → Prop}
    (h0 : 0 ≤ m * n) (h1 : m * n ≤ 2 ^ 60) (hf : Agree (f' (allocDense α m n)) c Q) :
    Agree (allocDense64 α m n >>= f') c Q := by
  unfold allocDense64
  rw [bind_assoc]
  refine agree_i64 (by omega) ?_
  rw [pure_bind]
  exact hf

/-- The sizes of the dense matrices of the solve. -/
structure Sizes (m k : Int) : Prop where
  m0 : 0 ≤ m
  k0 : 0 ≤ k
  m1 : m ≤ 2 ^ 60
  prod : m * k ≤ 2 ^ 60

theorem Sizes.mk0 {m k : Int} (h : Sizes m k) : 0 ≤ m * k := mul_nonneg h.m0 h.k0

theorem Sizes.sm {m k i : Int} (h : Sizes m k) (h0 : 0 ≤ i) (h1 : i < m) : Sm i := sm_of_lt h0 h1 h.m1

theorem agree_permute_b {b : Dense Int} {pinv : Arr Int} (hs : Sizes b.m b.n) (hp : SmA pinv) :
    Agree (slip_permute_b64 b pinv) (slip_permute_b b pinv) (fun d => d.m = b.m ∧ d.n = b.n) := by
  unfold slip_permute_b64 slip_permute_b
  dsimp only
  refine agree_allocDense hs.mk0 hs.prod ?_
  refine Agree.bind (P := fun _ => True) ?_ fun x _ => Agree.pure _ ⟨rfl, rfl⟩
  refine agree_loop (fun _ => True) trivial ?_
  intro i x hi0 hi1 _
  refine agree_loop (fun _ => True) trivial ?_
  intro j x hj0 hj1 _
  refine agree_rd fun p hp' _ _ => ?_
  refine agree_ix hs.m0 hj0 hj1 hs.prod (hs.sm hi0 hi1) ?_
  refine agree_same fun v => ?_
  refine agree_ix hs.m0 hj0 hj1 hs.prod (hp _ _ hp') ?_
  exact Agree.of_wp fun _ _ => trivial

theorem agree_fwdUpdate {rhos h x : Arr Int} {ij ii i lji : Int} (hi : Sm i) :
    Agree (fwdUpdate64 rhos h x ij ii i lji) (fwdUpdate rhos h x ij ii i lji) (fun _ => True) := by
  unfold fwdUpdate64 fwdUpdate
  have hi' := hi
  unfold Sm at hi'
  refine agree_same fun xj => ?_
  refine Agree.bind (P := fun _ => True) ?_ fun x _ => Agree.of_wp fun _ _ => trivial
  refine Agree.ite (fun _ => ?_) fun _ => ?_
  · refine agree_same fun _ => agree_same fun _ => ?_
    refine Agree.ite (fun _ => ?_) fun _ => Agree.pure _ trivial
    refine agree_same fun _ => ?_
    refine agree_i64 (by omega) ?_
    exact Agree.of_wp fun _ _ => trivial
  · refine agree_same fun _ => ?_
    refine Agree.bind (agree_hist hi) fun _ _ => ?_
    refine agree_same fun _ => agree_same fun _ => agree_same fun _ => agree_same fun _ =>
      agree_same fun _ => agree_same fun _ => ?_
    refine Agree.ite (fun _ => ?_) fun _ => Agree.pure _ trivial
    refine agree_same fun _ => ?_
    refine agree_i64 (by omega) ?_
    exact Agree.of_wp fun _ _ => trivial

theorem agree_fwdStep {L : Csc} {rhos h x : Arr Int} {m n k i : Int} (hs : Sizes m n) (hk0 : 0 ≤ k)
    (hk1 : k < n) (hi0 : 0 ≤ i) (hi1 : i < m) (hL : SmA L.i) :
    Agree (fwdStep64 L rhos m k i h x) (fwdStep L rhos m k i h x) (fun _ => True) := by
  unfold fwdStep64 fwdStep
  have hm1 := hs.m1
  refine agree_ix hs.m0 hk0 hk1 hs.prod (hs.sm hi0 hi1) ?_
  refine agree_same fun hx => agree_same fun xi => ?_
  refine Agree.ite (fun _ => Agree.pure _ trivial) fun _ => ?_
  refine Agree.bind (agree_hist (hs.sm hi0 hi1)) fun x _ => ?_
  refine agree_same fun p0 => ?_
  refine agree_i64 (by omega) ?_
  refine agree_same fun p1 => ?_
  refine agree_loop (fun _ => True) trivial ?_
  rintro j ⟨h, x⟩ _ _ _
  refine agree_rd fun jnew hj _ _ => ?_
  refine agree_same fun lji => ?_
  refine Agree.ite (fun _ => Agree.pure _ trivial) fun _ => ?_
  refine Agree.ite (fun _ => ?_) fun _ => Agree.pure _ trivial
  refine agree_ix hs.m0 hk0 hk1 hs.prod (hL _ _ hj) ?_
  exact agree_fwdUpdate (hs.sm hi0 hi1)

theorem agree_forward {L : Csc} {x : Dense Int} {rhos : Arr Int} (hs : Sizes x.m x.n) (hL : SmA L.i) :
    Agree (slip_forward_sub64 L x rhos) (slip_forward_sub L x rhos) (fun d => d.m = x.m ∧ d.n = x.n) := by
  unfold slip_forward_sub64 slip_forward_sub
  dsimp only
  refine agree_allocDense hs.mk0 hs.prod ?_
  refine agree_same fun h => ?_
  refine Agree.bind (P := fun _ => True) ?_ ?_
  · refine agree_loop (fun _ => True) trivial ?_
    rintro k ⟨h, y⟩ hk0 hk1 _
    refine agree_loop (fun _ => True) trivial ?_
    rintro i ⟨h, y⟩ hi0 hi1 _
    exact agree_fwdStep hs hk0 hk1 hi0 hi1 hL
  · rintro ⟨h, y⟩ _
    exact Agree.pure _ ⟨rfl, rfl⟩

theorem agree_mul {x : Dense Int} {s : Int} (hs : Sizes x.m x.n) :
    Agree (slip_matrix_mul64 x s) (slip_matrix_mul x s) (fun d => d.m = x.m ∧ d.n = x.n) := by
  unfold slip_matrix_mul64 slip_matrix_mul
  have h0 := hs.mk0
  have h1 := hs.prod
  refine agree_i64 (by omega) ?_
  exact agree_same fun y => Agree.pure _ ⟨rfl, rfl⟩

theorem agree_back {U : Csc} {bx : Dense Int} (hs : Sizes bx.m bx.n) (hn : U.n = bx.m) (hp : SmA U.p)
    (hi : SmA U.i) :
    Agree (slip_back_sub64 U bx) (slip_back_sub U bx) (fun d => d.m = bx.m ∧ d.n = bx.n) := by
  unfold slip_back_sub64 slip_back_sub
  have hm1 := hs.m1
  refine Agree.bind (P := fun _ => True) ?_ fun y _ => Agree.pure _ ⟨rfl, rfl⟩
  refine agree_loop (fun _ => True) trivial ?_
  intro k y hk0 hk1 _
  refine agree_loopDown (fun _ => True) trivial ?_
  intro j y hj0 hj1 _
  rw [hn] at hj1
  unfold backStep64 backStep
  refine agree_ix hs.m0 hk0 hk1 hs.prod (hs.sm hj0 hj1) ?_
  refine agree_same fun v => ?_
  refine Agree.ite (fun _ => Agree.pure _ trivial) fun _ => ?_
  refine agree_i64 (by omega) ?_
  refine agree_rd fun p1 hp1 _ _ => ?_
  have hps := hp _ _ hp1
  unfold Sm at hps
  refine agree_i64 (by omega) ?_
  refine agree_same fun d => agree_same fun w => agree_same fun y => agree_same fun p0 => ?_
  refine agree_loop (fun _ => True) trivial ?_
  intro i y _ _ _
  unfold backInner64 backInner
  refine agree_same fun u => ?_
  refine Agree.ite (fun _ => Agree.pure _ trivial) fun _ => ?_
  refine agree_rd fun row hrow _ _ => ?_
  refine agree_ix hs.m0 hk0 hk1 hs.prod (hi _ _ hrow) ?_
  refine agree_same fun w => ?_
  refine agree_ix hs.m0 hk0 hk1 hs.prod (hs.sm hj0 hj1) ?_
  exact Agree.of_wp fun _ _ => trivial

theorem agree_div {x : Dense Int} {s : Int} (hs : Sizes x.m x.n) :
    Agree (slip_matrix_div64 x s) (slip_matrix_div x s) (fun d => d.m = x.m ∧ d.n = x.n) := by
  unfold slip_matrix_div64 slip_matrix_div
  have h0 := hs.mk0
  have h1 := hs.prod
  refine agree_allocDense hs.mk0 hs.prod ?_
  refine agree_i64 (by omega) ?_
  exact agree_same fun y => Agree.pure _ ⟨rfl, rfl⟩

theorem agree_permute_x {x : Dense ℚ} {q : Arr Int} (hs : Sizes x.m x.n)
    (hq : ∀ k c, 0 ≤ k → k < x.m → get q k = some c → Sm c) :
    Agree (slip_permute_x64 x q) (slip_permute_x x q) (fun d => d.m = x.m ∧ d.n = x.n) := by
  unfold slip_permute_x64 slip_permute_x
  dsimp only
  refine agree_allocDense hs.mk0 hs.prod ?_
  refine Agree.bind (P := fun _ => True) ?_ fun x _ => Agree.pure _ ⟨rfl, rfl⟩
  refine agree_loop (fun _ => True) trivial ?_
  intro i x hi0 hi1 _
  refine agree_loop (fun _ => True) trivial ?_
  intro j x hj0 hj1 _
  refine agree_rd fun p hp' _ _ => ?_
  refine agree_ix hs.m0 hj0 hj1 hs.prod (hs.sm hi0 hi1) ?_
  refine agree_same fun v => ?_
  refine agree_ix hs.m0 hj0 hj1 hs.prod (hq _ _ hi0 hi1 hp') ?_
  exact Agree.of_wp fun _ _ => trivial

/-- The row indices of the columns of `A` are small. -/
def SmRows (A : Csc) (m : Int) : Prop := ∀ j p0 p1 p r, 0 ≤ j → j < m → get A.p j = some p0 →
  get A.p (j + 1) = some p1 → p0 ≤ p → p < p1 → get A.i p = some r → Sm r

theorem agree_check {A : Csc} {x : Dense ℚ} {b : Dense Int} (hs : Sizes b.m b.n) (hx : x.m = b.m)
    (hA : SmRows A b.m) :
    Agree (slip_check_solution64 A x b) (slip_check_solution A x b) (fun _ => True) := by
  unfold slip_check_solution64 slip_check_solution
  have hm1 := hs.m1
  refine agree_allocDense hs.mk0 hs.prod ?_
  refine Agree.bind (P := fun _ => True) ?_ fun y _ => ?_
  · unfold checkMul64 checkMul
    refine agree_loop (fun _ => True) trivial ?_
    intro j b2 hj0 hj1 _
    refine agree_loop (fun _ => True) trivial ?_
    intro i b2 hi0 hi1 _
    refine agree_rd fun p0 hp0 _ _ => ?_
    refine agree_i64 (by omega) ?_
    refine agree_rd fun p1 hp1 _ _ => ?_
    refine agree_loop (fun _ => True) trivial ?_
    intro p b2 h0 h1 _
    refine agree_same fun a => ?_
    rw [hx]
    refine agree_ix hs.m0 hj0 hj1 hs.prod (hs.sm hi0 hi1) ?_
    refine agree_same fun xv => ?_
    refine agree_rd fun r hr _ _ => ?_
    refine agree_ix hs.m0 hj0 hj1 hs.prod (hA i p0 p1 p r hi0 hi1 hp0 hp1 h0 h1 hr) ?_
    exact Agree.of_wp fun _ _ => trivial
  · refine Agree.bind (P := fun _ => True) ?_ fun ok _ => Agree.of_wp fun _ _ => trivial
    unfold checkCmp64 checkCmp
    refine agree_loop (fun _ => True) trivial ?_
    intro j ok hj0 hj1 _
    refine Agree.ite (fun _ => Agree.pure _ trivial) fun _ => ?_
    refine agree_loop (fun _ => True) trivial ?_
    intro i ok hi0 hi1 _
    refine Agree.ite (fun _ => Agree.pure _ trivial) fun _ => ?_
    refine agree_ix hs.m0 hj0 hj1 hs.prod (hs.sm hi0 hi1) ?_
    exact Agree.of_wp fun _ _ => trivial

theorem agree_scale {x : Dense ℚ} {sA sb : ℚ} (hs : Sizes x.m x.n) :
    Agree (scaleSolution64 x sA sb) (scaleSolution x sA sb) (fun _ => True) := by
  unfold scaleSolution64 scaleSolution
  have h0 := hs.mk0
  have h1 := hs.prod
  refine agree_same fun scale => ?_
  refine Agree.ite (fun _ => Agree.pure _ trivial) fun _ => ?_
  refine agree_i64 (by omega) ?_
  exact Agree.of_wp fun _ _ => trivial

theorem agree_luSolve {A : Csc} {sA sb : ℚ} {b : Dense Int} {F : Factors} {q : Arr Int} {check : Bool}
    (hs : Sizes b.m b.n) (hF : FOut b.m F) (hA : SmRows A b.m)
    (hq : ∀ k c, 0 ≤ k → k < b.m → get q k = some c → Sm c) :
    Agree (luSolve64 A sA b sb F q check) (luSolve A sA b sb F q check) (fun _ => True) := by
  unfold luSolve64 luSolve
  dsimp only
  have hm0 := hs.m0
  have hm1 := hs.m1
  refine Agree.bind (agree_permute_b hs hF.pinv) ?_
  rintro d1 ⟨e1, e2⟩
  refine Agree.bind (agree_forward (by rw [e1, e2]; exact hs) hF.Li) ?_
  rintro d2 ⟨e3, e4⟩
  rw [e1] at e3; rw [e2] at e4
  rw [hF.Ln]
  refine agree_i64 (by omega) ?_
  refine agree_same fun det => ?_
  refine Agree.bind (agree_mul (by rw [e3, e4]; exact hs)) ?_
  rintro d3 ⟨e5, e6⟩
  rw [e3] at e5; rw [e4] at e6
  refine Agree.bind (agree_back (by rw [e5, e6]; exact hs) (by rw [hF.Un, e5]) hF.Up hF.Ui) ?_
  rintro d4 ⟨e7, e8⟩
  rw [e5] at e7; rw [e6] at e8
  refine agree_same fun det => ?_
  refine Agree.bind (agree_div (by rw [e7, e8]; exact hs)) ?_
  rintro d5 ⟨e9, e10⟩
  rw [e7] at e9; rw [e8] at e10
  refine Agree.bind (agree_permute_x (by rw [e9, e10]; exact hs) (by rw [e9]; exact hq)) ?_
  rintro d6 ⟨e11, e12⟩
  rw [e9] at e11; rw [e10] at e12
  cases check
  · exact agree_scale (by rw [e11, e12]; exact hs)
  · refine Agree.bind (agree_check hs e11 hA) fun _ _ => ?_
    exact agree_scale (by rw [e11, e12]; exact hs)

end Slip.M64
