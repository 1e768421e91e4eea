import Verif.Model.Cost
import Mathlib.Algebra.BigOperators.Group.Finset.Basic
import Mathlib.Tactic.Ring

/-! # Counting: the metered functions compute the same, and bounds for their work -/

namespace Slip

/-- The metered `m'` does what `m` does, with work at most `b`. -/
def Cnt {α : Type} (b : ℕ) (m' : W α) (m : C α) : Prop := ∀ w, ∃ w', m' w = (m, w') ∧ w' ≤ w + b

theorem W.bind_eq {α β : Type} (m : W α) (f : α → W β) (w : ℕ) :
    (m >>= f) w = match m w with
      | (.ok a, w') => f a w'
      | (.error e, w') => (.error e, w') := rfl

namespace Cnt
variable {α β : Type}

theorem lift (m : C α) : Cnt 0 (W.lift m) m := fun w => ⟨w, rfl, by omega⟩

theorem pure (a : α) : Cnt 0 (Pure.pure a : W α) (Pure.pure a : C α) := fun w => ⟨w, rfl, by omega⟩

theorem mono {b b' : ℕ} {m' : W α} {m : C α} (h : Cnt b m' m) (hb : b ≤ b') : Cnt b' m' m := by
  intro w
  obtain ⟨w', e, h⟩ := h w
  exact ⟨w', e, by omega⟩

theorem bind {b1 b2 : ℕ} {m' : W α} {m : C α} {f' : α → W β} {f : α → C β} (h : Cnt b1 m' m)
    (hf : ∀ a, m = .ok a → Cnt b2 (f' a) (f a)) : Cnt (b1 + b2) (m' >>= f') (m >>= f) := by
  intro w
  obtain ⟨w1, e1, h1⟩ := h w
  rw [W.bind_eq, e1]
  cases hm : m with
  | error e => exact ⟨w1, rfl, by omega⟩
  | ok a =>
    obtain ⟨w2, e2, h2⟩ := hf a hm w1
    exact ⟨w2, e2, by omega⟩

/-- A counted part that only returns a value. -/
theorem bindPure {b1 b2 : ℕ} {m' : W α} {a : α} {f' : α → W β} {m : C β} (h : Cnt b1 m' (Pure.pure a))
    (hf : Cnt b2 (f' a) m) : Cnt (b1 + b2) (m' >>= f') m :=
  h.bind (f := fun _ => m) fun _ e => by cases e; exact hf

/-- A part that is not counted, followed by one that is. -/
theorem liftBind {b : ℕ} {m : C α} {f' : α → W β} {f : α → C β}
    (hf : ∀ a, m = .ok a → Cnt b (f' a) (f a)) : Cnt b (W.lift m >>= f') (m >>= f) := by
  have := (Cnt.lift m).bind hf
  rwa [Nat.zero_add] at this

theorem tickBind {b c : ℕ} {f' : W β} {m : C β} (hf : Cnt b f' m) :
    Cnt (c + b) (tick c >>= fun _ => f') m := by
  intro w
  obtain ⟨w', e, h⟩ := hf (w + c)
  exact ⟨w', e, by omega⟩

theorem ite {p : Prop} [Decidable p] {b : ℕ} {m1' m2' : W α} {m1 m2 : C α} (h1 : p → Cnt b m1' m1)
    (h2 : ¬p → Cnt b m2' m2) : Cnt b (if p then m1' else m2') (if p then m1 else m2) := by
  split
  · exact h1 (by assumption)
  · exact h2 (by assumption)

theorem forCnt {γ : Type} {c : ℕ} {f' : Int → γ → W γ} {f : Int → γ → C γ} {b : ℕ} :
    ∀ (m : ℕ) (lo : Int) (s : γ), (∀ i s, lo ≤ i → i < lo + m → Cnt b (f' i s) (f i s)) →
      Cnt (m * (c + b)) (forCntT c m lo s f') (Slip.forCnt m lo s f)
  | 0, _, s, _ => by
    rw [Nat.zero_mul]
    exact Cnt.pure s
  | m + 1, lo, s, h => by
    have := tickBind (c := c) ((h lo s (le_refl _) (by omega)).bind fun a _ =>
      forCnt (c := c) m (lo + 1) a fun i s h1 h2 => h i s (by omega) (by omega))
    refine this.mono ?_
    rw [Nat.succ_mul]; omega

theorem forRange {γ : Type} {c : ℕ} {f' : Int → γ → W γ} {f : Int → γ → C γ} {b : ℕ} {lo hi : Int} {s : γ}
    (h : ∀ i s, lo ≤ i → i < hi → Cnt b (f' i s) (f i s)) :
    Cnt ((hi - lo).toNat * (c + b)) (forRangeT c lo hi s f') (Slip.forRange lo hi s f) :=
  forCnt _ _ _ fun i s h1 h2 => h i s h1 (by omega)

theorem forDownCnt {γ : Type} {c : ℕ} {f' : Int → γ → W γ} {f : Int → γ → C γ} {b : ℕ} :
    ∀ (m : ℕ) (lo : Int) (s : γ), (∀ i s, lo ≤ i → i < lo + m → Cnt b (f' i s) (f i s)) →
      Cnt (m * (c + b)) (forDownCntT c m lo s f') (Slip.forDownCnt m lo s f)
  | 0, _, s, _ => by
    rw [Nat.zero_mul]
    exact Cnt.pure s
  | m + 1, lo, s, h => by
    have := tickBind (c := c) ((h (lo + m) s (by omega) (by omega)).bind fun a _ =>
      forDownCnt (c := c) m lo a fun i s h1 h2 => h i s (by omega) (by omega))
    refine this.mono ?_
    rw [Nat.succ_mul]; omega

/-- A loop whose iterations cost different amounts. -/
theorem forCntSum {γ : Type} {c : ℕ} {f' : Int → γ → W γ} {f : Int → γ → C γ} {b : ℕ → ℕ} :
    ∀ (m : ℕ) (lo : Int) (s : γ), (∀ (t : ℕ) s, t < m → Cnt (b t) (f' (lo + t) s) (f (lo + t) s)) →
      Cnt (∑ t ∈ Finset.range m, (c + b t)) (forCntT c m lo s f') (Slip.forCnt m lo s f) := by
  intro m
  induction m generalizing b with
  | zero => intro lo s _; exact Cnt.pure s
  | succ m ih =>
    intro lo s h
    have h0 := h 0 s (by omega)
    rw [Nat.cast_zero, add_zero] at h0
    have := tickBind (c := c) (h0.bind fun a _ =>
      ih (b := fun t => b (t + 1)) (lo + 1) a fun t s ht => by
        have := h (t + 1) s (by omega)
        rwa [show lo + ((t + 1 : ℕ) : Int) = lo + 1 + (t : Int) by omega] at this)
    refine this.mono ?_
    rw [Finset.sum_range_succ']
    omega

theorem forDownCntSum {γ : Type} {c : ℕ} {f' : Int → γ → W γ} {f : Int → γ → C γ} {b : ℕ → ℕ} :
    ∀ (m : ℕ) (lo : Int) (s : γ), (∀ (t : ℕ) s, t < m → Cnt (b t) (f' (lo + t) s) (f (lo + t) s)) →
      Cnt (∑ t ∈ Finset.range m, (c + b t)) (forDownCntT c m lo s f') (Slip.forDownCnt m lo s f) := by
  intro m
  induction m with
  | zero => intro lo s _; exact Cnt.pure s
  | succ m ih =>
    intro lo s h
    have := tickBind (c := c) ((h m s (by omega)).bind fun a _ => ih lo a fun t s ht => h t s (by omega))
    refine this.mono ?_
    rw [Finset.sum_range_succ]
    omega

end Cnt

variable (α β : ℕ)

/-! ## The triangular solve -/

theorem histUpdateT_cnt (rhos x : Arr Int) (j hj s : Int) :
    Cnt (2 * α) (histUpdateT α rhos x j hj s) (histUpdate rhos x j hj s) := by
  unfold histUpdateT histUpdate
  refine .ite (fun _ => ?_) fun _ => (Cnt.pure _).mono (by omega)
  refine .liftBind fun xj _ => .liftBind fun ρ _ => ?_
  refine (Cnt.tickBind (b := α) (.liftBind fun x _ => ?_)).mono (by omega)
  refine .ite (fun _ => ?_) fun _ => (Cnt.pure _).mono (by omega)
  refine .liftBind fun xj _ => .liftBind fun ρ _ => ?_
  refine (Cnt.tickBind (b := 0) (.liftBind fun d _ => ?_)).mono (by omega)
  exact .lift _

theorem ipgeUpdateT_cnt (rhos h x : Arr Int) (i j jnew lij : Int) :
    Cnt (5 * α) (ipgeUpdateT α rhos h x i j jnew lij) (ipgeUpdate rhos h x i j jnew lij) := by
  unfold ipgeUpdateT ipgeUpdate
  refine .liftBind fun xi _ => ?_
  refine .ite (fun _ => .ite (fun _ => ?_) fun _ => ?_) fun _ => .ite (fun _ => ?_) fun _ => ?_
  · refine .liftBind fun xj _ => (Cnt.tickBind (b := 0) (.liftBind fun x _ => .liftBind fun h _ =>
      .pure _)).mono (by omega)
  · refine .liftBind fun xj _ => (Cnt.tickBind (b := α + 0) (.liftBind fun x _ => .liftBind fun v _ =>
      .liftBind fun ρ _ => Cnt.tickBind (.liftBind fun d _ => .liftBind fun x _ => .liftBind fun h _ =>
      .pure _))).mono (by omega)
  · refine .liftBind fun ρ _ => (Cnt.tickBind (b := α + 0) (.liftBind fun x _ => .liftBind fun v _ =>
      .liftBind fun xj _ => Cnt.tickBind (.liftBind fun x _ => .liftBind fun h _ => .pure _))).mono (by omega)
  · refine .liftBind fun hi _ => ((histUpdateT_cnt α _ _ _ _ _).bind (b2 := α + (α + (α + 0))) fun x _ =>
      .liftBind fun v _ => .liftBind fun ρ _ => Cnt.tickBind (.liftBind fun x _ => .liftBind fun v _ =>
      .liftBind fun xj _ => Cnt.tickBind (.liftBind fun x _ => .liftBind fun v _ => .liftBind fun ρ _ =>
      Cnt.tickBind (.liftBind fun d _ => .liftBind fun x _ => .liftBind fun h _ => .pure _)))).mono (by omega)

/-- The number of entries of the column of `L` of pivot row `j` (0 if it has none yet). -/
def degN (Lp pinv : Arr Int) (j : Int) : ℕ :=
  match get pinv j with
  | some w => match get Lp w, get Lp (w + 1) with
    | some a, some b => (b - a).toNat
    | _, _ => 0
  | none => 0

theorem degN_eq {Lp pinv : Arr Int} {j w a b : Int} (h : get pinv j = some w) (ha : get Lp w = some a)
    (hb : get Lp (w + 1) = some b) : degN Lp pinv j = (b - a).toNat := by
  unfold degN
  rw [h]
  simp only [ha, hb]

theorem solveStepT_cnt (Lp Li Lx pinv rhos xi : Arr Int) (k p : Int) (h x : Arr Int) :
    Cnt (match get xi p with | some j => 2 * α + degN Lp pinv j * (β + 5 * α) | none => 0)
      (solveStepT α β Lp Li Lx pinv rhos xi k p h x) (solveStep Lp Li Lx pinv rhos xi k p h x) := by
  unfold solveStepT solveStep
  refine .liftBind fun j hj => ?_
  rw [rd_ok hj]
  simp only
  refine .liftBind fun jnew hjn => .liftBind fun xj _ => ?_
  refine .ite (fun _ => (Cnt.pure _).mono (by omega)) fun _ => .ite (fun _ => ?_) fun _ => ?_
  · refine .liftBind fun hj _ => (histUpdateT_cnt α _ _ _ _ _).bind fun x _ => ?_
    refine .liftBind fun m0 h0 => .liftBind fun m1 h1 => ?_
    rw [degN_eq (rd_ok hjn) (rd_ok h0) (rd_ok h1)]
    refine .forRange fun m st _ _ => ?_
    refine .liftBind fun i _ => .liftBind fun inew _ => ?_
    refine .ite (fun _ => ?_) fun _ => (Cnt.pure _).mono (by omega)
    refine .liftBind fun lij _ => .ite (fun _ => (Cnt.pure _).mono (by omega)) fun _ => ?_
    exact ipgeUpdateT_cnt α _ _ _ _ _ _ _
  · refine .liftBind fun hj _ => ((histUpdateT_cnt α _ _ _ _ _).bind (b2 := 0) fun x _ => .pure _).mono (by omega)

/-! ## The pivot search -/

theorem smallestInitT_cnt (x pivs xi : Arr Int) :
    ∀ (m : ℕ) (flag : Int), Cnt (m * β) (smallestInitT β x pivs xi m flag) (smallestInit x pivs xi m flag)
  | 0, flag => (Cnt.pure none).mono (by omega)
  | m + 1, flag => by
    unfold smallestInitT smallestInit
    refine (Cnt.tickBind (b := m * β) (.liftBind fun inew _ => .liftBind fun v _ => .liftBind fun pv _ =>
      .ite (fun _ => (Cnt.pure _).mono (by omega)) fun _ => smallestInitT_cnt x pivs xi m (flag + 1))).mono ?_
    rw [Nat.succ_mul]; omega

theorem smallestInit_le {x pivs xi : Arr Int} : ∀ (m : ℕ) (flag : Int) {j p s : Int},
    smallestInit x pivs xi m flag = .ok (some (j, p, s)) → flag ≤ j
  | 0, flag, j, p, s, h => by simp [smallestInit] at h
  | m + 1, flag, j, p, s, h => by
    unfold smallestInit at h
    cases h1 : rd xi flag with
    | error e => simp [h1] at h
    | ok inew =>
      cases h2 : rd x inew with
      | error e => simp [h1, h2] at h
      | ok v =>
        cases h3 : rd pivs inew with
        | error e => simp [h1, h2, h3] at h
        | ok pv =>
          simp only [h1, h2, h3, ok_bind] at h
          split at h
          · simp only [pure, Except.pure, Except.ok.injEq, Option.some.injEq, Prod.mk.injEq] at h
            omega
          · have := smallestInit_le m (flag + 1) h
            omega

theorem slip_get_smallest_pivotT_cnt (x pivs : Arr Int) (n top : Int) (xi : Arr Int) :
    Cnt (2 * ((n - top).toNat * β)) (slip_get_smallest_pivotT β x pivs n top xi)
      (slip_get_smallest_pivot x pivs n top xi) := by
  unfold slip_get_smallest_pivotT slip_get_smallest_pivot
  rw [Nat.two_mul]
  refine Cnt.bind (.ite (fun _ => smallestInitT_cnt β _ _ _ _ _) fun _ => (Cnt.pure none).mono (by omega))
    fun r hr => ?_
  refine Cnt.mono (Cnt.bind (b2 := 0) (.forRange (b := 0) fun i st _ _ => .lift _) fun a _ => .lift _) ?_
  rw [Nat.add_zero, Nat.add_zero]
  refine Nat.mul_le_mul_right _ ?_
  rcases r with _ | ⟨j, p, s⟩
  · simp
  · simp only [Option.getD_some]
    split at hr
    · have := smallestInit_le _ _ hr
      omega
    · cases hr

theorem slip_get_largest_pivotT_cnt (x pivs : Arr Int) (n top : Int) (xi : Arr Int) :
    Cnt ((n - top).toNat * β) (slip_get_largest_pivotT β x pivs n top xi)
      (slip_get_largest_pivot x pivs n top xi) := by
  unfold slip_get_largest_pivotT slip_get_largest_pivot
  refine Cnt.mono (Cnt.bind (b2 := 0) (.forRange (b := 0) fun i st _ _ => .lift _) fun a _ => .lift _) ?_
  rw [Nat.add_zero, Nat.add_zero]

theorem nonzeroLoopT_cnt (x pivs xi : Arr Int) :
    ∀ (m : ℕ) (i : Int), Cnt (m * β) (nonzeroLoopT β x pivs xi m i) (nonzeroLoop x pivs xi m i)
  | 0, i => (Cnt.lift _).mono (by omega)
  | m + 1, i => by
    unfold nonzeroLoopT nonzeroLoop
    refine (Cnt.tickBind (b := m * β) (.liftBind fun inew _ => .liftBind fun v _ => .liftBind fun pv _ =>
      .ite (fun _ => (Cnt.pure _).mono (by omega)) fun _ => nonzeroLoopT_cnt x pivs xi m (i + 1))).mono ?_
    rw [Nat.succ_mul]; omega

theorem choosePivotT_cnt (nc : Int → Int → ℚ → Bool) (order : Pivot) (tol : Dbl) (x pivs : Arr Int)
    (n top : Int) (xi : Arr Int) (col : Int) :
    Cnt (2 * ((n - top).toNat * β)) (choosePivotT β nc order tol x pivs n top xi col)
      (choosePivot nc order tol x pivs n top xi col) := by
  cases order
  · exact slip_get_smallest_pivotT_cnt β _ _ _ _ _
  · exact .liftBind fun v _ => .liftBind fun pv _ =>
      .ite (fun _ => (Cnt.pure _).mono (by omega)) fun _ => slip_get_smallest_pivotT_cnt β _ _ _ _ _
  · exact (nonzeroLoopT_cnt β _ _ _ _ _).mono (by omega)
  · exact ((slip_get_smallest_pivotT_cnt β _ _ _ _ _).bind (b2 := 0) fun _ _ => .lift _)
  · exact ((slip_get_largest_pivotT_cnt β _ _ _ _ _).bind (b2 := 0) fun _ _ => .lift _).mono (by omega)
  · exact (slip_get_largest_pivotT_cnt β _ _ _ _ _).mono (by omega)

theorem slip_get_pivotT_cnt (nc : Int → Int → ℚ → Bool) (order : Pivot) (tol : Dbl) (x pivs : Arr Int)
    (n top : Int) (xi : Arr Int) (col k : Int) (rhos pinv row_perm : Arr Int) :
    Cnt (2 * ((n - top).toNat * β))
      (slip_get_pivotT β nc order tol x pivs n top xi col k rhos pinv row_perm)
      (slip_get_pivot nc order tol x pivs n top xi col k rhos pinv row_perm) := by
  unfold slip_get_pivotT slip_get_pivot
  exact (choosePivotT_cnt β nc order tol x pivs n top xi col).bind (b2 := 0) fun _ _ => .lift _

theorem permuteRowsT_cnt (M : Csc) (pinv : Arr Int) (nz : Int) :
    Cnt (nz.toNat * β) (permuteRowsT β M pinv nz) (permuteRows M pinv nz) := by
  unfold permuteRowsT permuteRows
  refine Cnt.mono (Cnt.bind (b2 := 0) (.forRange (b := 0) fun i st _ _ => .lift _) fun a _ => .pure _) ?_
  simp

/-- The number of entries by which an array is enlarged. -/
def growN (nz : Int) (n : Int) (cap : Int) : ℕ := if nz + n > cap then cap.toNat else 0

theorem growT_cnt (γ : ℕ) (nz n : Int) (L : Csc) :
    Cnt ((β + 2 * γ) * growN nz n L.nzmax) (if nz + n > L.nzmax then slip_sparse_reallocT β γ L else pure L)
      (pure (if nz + n > L.nzmax then slip_sparse_realloc L else L) : C Csc) := by
  unfold growN
  by_cases h : nz + n > L.nzmax
  · rw [if_pos h, if_pos h, if_pos h]
    unfold slip_sparse_reallocT
    have h1 := Cnt.forRange (c := β) (b := 0) (lo := L.nzmax) (hi := 2 * L.nzmax) (s := ())
      (f' := fun _ u => pure u) (f := fun _ u => pure u) fun i s _ _ => Cnt.pure s
    have e : forRange L.nzmax (2 * L.nzmax) () (fun _ u => (pure u : C Unit)) = .ok () := by
      unfold forRange
      generalize (2 * L.nzmax - L.nzmax).toNat = m
      generalize L.nzmax = lo
      induction m generalizing lo with
      | zero => rfl
      | succ m ih => exact ih (lo + 1)
    rw [e] at h1
    have h2 := (h1.bind (f' := fun _ => pure (slip_sparse_realloc L)) (f := fun _ => pure (slip_sparse_realloc L))
      (b2 := 0) fun _ _ => Cnt.pure _).tickBind (c := γ * (2 * L.nzmax).toNat)
    refine Cnt.mono h2 ?_
    have : (2 * L.nzmax).toNat = 2 * L.nzmax.toNat := by omega
    rw [this, show (2 * L.nzmax - L.nzmax).toNat = L.nzmax.toNat by omega]
    refine le_of_eq ?_
    ring
  · rw [if_neg h, if_neg h, if_neg h]
    exact (Cnt.pure L).mono (by omega)

theorem factInitT_cnt (γ : ℕ) (n lnz unz : Int) :
    Cnt (2 * (n.toNat * β) + γ * ((max lnz 1).toNat + (max unz 1).toNat)) (factInitT β γ n lnz unz)
      (factInit n lnz unz) := by
  unfold factInitT factInit
  refine Cnt.mono (Cnt.tickBind <| Cnt.bind (.forRange (b := 0) fun i st _ _ => .lift _) fun a _ =>
    Cnt.bind (b2 := 0) (.forRange (b := 0) fun i st _ _ => .lift _) fun a _ => .pure _) ?_
  simp only [Int.sub_zero, Nat.add_zero]
  omega

end Slip
