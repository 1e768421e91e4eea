import Verif.Proof.LuSolve

/-! `slip_check_solution` accepts exactly the solutions. -/

namespace Slip

open Finset

variable {A : ℕ → ℕ → ℤ}

/-- No column of `M` stores a row twice. -/
def NoDup (n : ℕ) (ap : ℕ → ℤ) (M : Csc) : Prop :=
  ∀ j < n, ∀ p p' : ℤ, ap j ≤ p → p < ap (j + 1) → ap j ≤ p' → p' < ap (j + 1) →
    get M.i p = get M.i p' → p = p'

/-- One column of `A` times one entry of `x`. -/
theorem checkCol_spec {n k : ℕ} {ap : ℕ → ℤ} {M : Csc} {x : Dense ℚ} {X : ℕ → ℕ → ℚ}
    {B : ℕ → ℕ → ℚ} {y : Arr ℚ} (hA : AOk n A ap M) (hnd : NoDup n ap M)
    (hxm : x.m = n) (hx : IsMat n k x.x X) {i j : ℕ} (hi : i < n) (hj : j < k)
    (hy : IsMat n k y B) :
    ∃ z, (do
      let p0 ← rd M.p (i : Int)
      let p1 ← rd M.p ((i : Int) + 1)
      forRange p0 p1 y fun p b2 => do
        let a ← rd M.x p
        let xv ← rd x.x (ix2 x.m (i : Int) (j : Int))
        let r ← rd M.i p
        let w ← rd b2 (ix2 (n : Int) r (j : Int))
        zset b2 (ix2 (n : Int) r (j : Int)) (w + (a : ℚ) * xv)) = .ok z ∧ z.length = y.length ∧
      IsMat n k z (fun r j' => if j' = j then B r j + (A r i : ℚ) * X i j else B r j') := by
  rw [rd_eq (hA.ptr i (by omega)), ok_bind]
  have e1 := hA.ptr (i + 1) (by omega)
  push_cast at e1
  rw [rd_eq e1, ok_bind]
  have hloop := wp_forRange (E := noFail) (lo := ap i) (hi := ap (i + 1)) (s := y)
    (f := fun p b2 => do
        let a ← rd M.x p
        let xv ← rd x.x (ix2 x.m (i : Int) (j : Int))
        let r ← rd M.i p
        let w ← rd b2 (ix2 (n : Int) r (j : Int))
        zset b2 (ix2 (n : Int) r (j : Int)) (w + (a : ℚ) * xv))
    (fun p z => z.length = y.length ∧
      (∀ r < n, ∀ j' < k, j' ≠ j → get z (ix2 (n : Int) (r : Int) (j' : Int)) = some (B r j')) ∧
      (∀ r < n, (∃ p', ap i ≤ p' ∧ p' < p ∧ get M.i p' = some (r : Int)) →
        get z (ix2 (n : Int) (r : Int) (j : Int)) = some (B r j + (A r i : ℚ) * X i j)) ∧
      (∀ r < n, (¬ ∃ p', ap i ≤ p' ∧ p' < p ∧ get M.i p' = some (r : Int)) →
        get z (ix2 (n : Int) (r : Int) (j : Int)) = some (B r j)))
    (hA.mono i hi)
    ⟨rfl, fun r hr j' hj' _ => hy r hr j' hj',
      fun r hr h => by obtain ⟨p', h1, h2, _⟩ := h; omega, fun r hr _ => hy r hr j hj⟩
    (by
      rintro p z hp0 hp1 ⟨hl, hoth, hin, hout⟩
      obtain ⟨r, hr, hgi, hgx⟩ := hA.ent i hi p hp0 hp1
      have hnot : ¬ ∃ p', ap i ≤ p' ∧ p' < p ∧ get M.i p' = some (r : Int) := by
        rintro ⟨p', h1, h2, h3⟩
        have := hnd i hi p' p h1 (by omega) hp0 hp1 (by rw [h3, hgi])
        omega
      have hw := hout r hr hnot
      have hb := get_bounds hw
      rw [rd_eq hgx, ok_bind, hxm, rd_eq (hx i hi j hj), ok_bind, rd_eq hgi, ok_bind, rd_eq hw,
        ok_bind, zset_eq hw, wp_ok]
      refine ⟨by rw [length_upd, hl], ?_, ?_, ?_⟩
      · intro r' hr' j' hj' hne
        rw [get_upd_ne hb.1 hb.2 _ (ix2_ne hr' hr (Or.inr hne))]
        exact hoth r' hr' j' hj' hne
      · rintro r' hr' ⟨p', h1, h2, h3⟩
        by_cases e : r' = r
        · subst e; exact get_upd_self hb.1 hb.2 _
        · rw [get_upd_ne hb.1 hb.2 _ (ix2_ne hr' hr (Or.inl e))]
          refine hin r' hr' ⟨p', h1, ?_, h3⟩
          rcases eq_or_ne p' p with e2 | e2
          · subst e2; rw [hgi] at h3
            have : (r : Int) = (r' : Int) := Option.some.inj h3
            omega
          · omega
      · intro r' hr' hno
        have e : r' ≠ r := by rintro rfl; exact hno ⟨p, hp0, by omega, hgi⟩
        rw [get_upd_ne hb.1 hb.2 _ (ix2_ne hr' hr (Or.inl e))]
        exact hout r' hr' fun ⟨p', h1, h2, h3⟩ => hno ⟨p', h1, by omega, h3⟩)
  obtain ⟨z, e, hl, hoth, hin, hout⟩ := wp_noFail hloop
  refine ⟨z, e, hl, ?_⟩
  intro r hr j' hj'
  beta_reduce
  by_cases e : j' = j
  · subst e
    rw [if_pos rfl]
    by_cases h0 : A r i = 0
    · by_cases hm : ∃ p', ap i ≤ p' ∧ p' < ap (i + 1) ∧ get M.i p' = some (r : Int)
      · exact hin r hr hm
      · rw [hout r hr hm, h0]; simp
    · exact hin r hr (hA.full i hi r hr h0)
  · rw [if_neg e]; exact hoth r hr j' hj' e

theorem checkMul_spec {n k : ℕ} {ap : ℕ → ℤ} {M : Csc} {x : Dense ℚ} {X : ℕ → ℕ → ℚ}
    (hA : AOk n A ap M) (hnd : NoDup n ap M)
    (hxm : x.m = n) (hx : IsMat n k x.x X) :
    ∃ z, checkMul M x (n : Int) (k : Int) (allocDense ℚ (n : Int) (k : Int)).x = .ok z ∧
      IsMat n k z (fun r j => ∑ l ∈ range n, (A r l : ℚ) * X l j) := by
  unfold checkMul
  have hloop := wp_forRange (E := noFail) (lo := 0) (hi := (k : Int))
    (s := (allocDense ℚ (n : Int) (k : Int)).x)
    (f := fun j b2 => forRange 0 (n : Int) b2 fun i b2 => do
      let p0 ← rd M.p i
      let p1 ← rd M.p (i + 1)
      forRange p0 p1 b2 fun p b2 => do
        let a ← rd M.x p
        let xv ← rd x.x (ix2 x.m i j)
        let r ← rd M.i p
        let w ← rd b2 (ix2 (n : Int) r j)
        zset b2 (ix2 (n : Int) r j) (w + (a : ℚ) * xv))
    (fun p z => IsMat n k z (fun r j => if (j : Int) < p then ∑ l ∈ range n, (A r l : ℚ) * X l j
      else 0))
    (by omega)
    (by
      intro i hi j hj
      beta_reduce
      rw [if_neg (by omega), ix2_nat]
      exact allocDense_get (by omega) (by have := ix2_lt hi hj; exact_mod_cast this))
    (by
      intro p z hp0 hp1 hz
      obtain ⟨j, rfl⟩ := Int.eq_ofNat_of_zero_le hp0
      have hj : j < k := by omega
      have hin := wp_forRange (E := noFail) (lo := 0) (hi := (n : Int)) (s := z)
        (f := fun i b2 => do
          let p0 ← rd M.p i
          let p1 ← rd M.p (i + 1)
          forRange p0 p1 b2 fun p b2 => do
            let a ← rd M.x p
            let xv ← rd x.x (ix2 x.m i (j : Int))
            let r ← rd M.i p
            let w ← rd b2 (ix2 (n : Int) r (j : Int))
            zset b2 (ix2 (n : Int) r (j : Int)) (w + (a : ℚ) * xv))
        (fun p z => ∃ i : ℕ, p = i ∧ IsMat n k z (fun r j' =>
          if j' = j then ∑ l ∈ range i, (A r l : ℚ) * X l j
          else if (j' : Int) < j then ∑ l ∈ range n, (A r l : ℚ) * X l j' else 0))
        (by omega)
        ⟨0, rfl, by
          intro r hr j' hj'
          rw [hz r hr j' hj']
          by_cases e : j' = j
          · subst e; simp
          · simp [e]⟩
        (by
          rintro p y hp0 hp1 ⟨i, rfl, hy⟩
          obtain ⟨y', e, -, hy'⟩ := checkCol_spec hA hnd hxm hx (i := i) (by omega) hj hy
          refine wp_of_ok e ⟨i + 1, by push_cast; rfl, ?_⟩
          intro r hr j' hj'
          rw [hy' r hr j' hj']
          by_cases e : j' = j
          · subst e; simp [Finset.sum_range_succ]
          · simp [e])
      refine wp_post hin ?_
      rintro y ⟨i, hi, hy⟩
      have hi : i = n := by omega
      subst hi
      intro r hr j' hj'
      rw [hy r hr j' hj']
      by_cases e : j' = j
      · subst e; simp
      · have : ((j' : Int) < j) ↔ ((j' : Int) < j + 1) := by omega
        simp [e, this])
  obtain ⟨z, e, hz⟩ := wp_noFail hloop
  refine ⟨z, e, ?_⟩
  intro r hr j hj
  rw [hz r hr j hj]
  beta_reduce
  rw [if_pos (by omega)]

theorem checkCmp_spec {n k : ℕ} {b : Dense Int} {f : ℕ → ℕ → ℤ} {y : Arr ℚ} {B : ℕ → ℕ → ℚ}
    (hm : b.m = n) (hn : b.n = k) (hb : IsMat n k b.x f) (hy : IsMat n k y B) :
    ∃ v : Bool, checkCmp b y = .ok v ∧ (v = true ↔ ∀ i < n, ∀ j < k, (f i j : ℚ) = B i j) := by
  unfold checkCmp
  have hloop := wp_forRange (E := noFail) (lo := 0) (hi := (k : Int)) (s := true)
    (f := fun j ok =>
      if !ok then pure false
      else forRange 0 (n : Int) true fun i ok =>
        if !ok then pure false
        else do
          let v ← rd b.x (ix2 (n : Int) i j)
          let w ← rd y (ix2 (n : Int) i j)
          pure (decide ((v : ℚ) = w)))
    (fun p v => v = true ↔ ∀ i < n, ∀ j < k, (j : Int) < p → (f i j : ℚ) = B i j)
    (by omega) (by simp)
    (by
      intro p v hp0 hp1 hv
      obtain ⟨j, rfl⟩ := Int.eq_ofNat_of_zero_le hp0
      have hj : j < k := by omega
      cases v with
      | false =>
        simp only [Bool.not_false, if_true, wp_pure]
        refine ⟨fun h => by simp at h, fun h => ?_⟩
        exact hv.mpr fun i hi j' hj' hlt => h i hi j' hj' (by omega)
      | true =>
        have hv := hv.mp rfl
        simp only [Bool.not_true, Bool.false_eq_true, if_false]
        have hin := wp_forRange (E := noFail) (lo := 0) (hi := (n : Int)) (s := true)
          (f := fun i ok =>
            if !ok then pure false
            else do
              let v ← rd b.x (ix2 (n : Int) i (j : Int))
              let w ← rd y (ix2 (n : Int) i (j : Int))
              pure (decide ((v : ℚ) = w)))
          (fun p v => v = true ↔ ∀ i < n, (i : Int) < p → (f i j : ℚ) = B i j)
          (by omega) (by simp)
          (by
            intro p v hp0 hp1 hv
            obtain ⟨i, rfl⟩ := Int.eq_ofNat_of_zero_le hp0
            have hi : i < n := by omega
            cases v with
            | false =>
              simp only [Bool.not_false, if_true, wp_pure]
              refine ⟨fun h => by simp at h, fun h => ?_⟩
              exact hv.mpr fun i hi hlt => h i hi (by omega)
            | true =>
              have hv := hv.mp rfl
              simp only [Bool.not_true, Bool.false_eq_true, if_false]
              rw [rd_eq (hb i hi j hj), ok_bind, rd_eq (hy i hi j hj), ok_bind, wp_pure,
                decide_eq_true_iff]
              refine ⟨fun h i' hi' hlt => ?_, fun h => h i hi (by omega)⟩
              by_cases e : i' = i
              · subst e; exact h
              · exact hv i' hi' (by omega))
        refine wp_post hin ?_
        intro v hv'
        rw [hv']
        refine ⟨fun h i hi j' hj' hlt => ?_, fun h i hi _ => h i hi j hj (by omega)⟩
        by_cases e : j' = j
        · subst e; exact h i hi (by omega)
        · exact hv i hi j' hj' (by omega))
  obtain ⟨v, e, hv⟩ := wp_noFail hloop
  refine ⟨v, by rw [hn, hm]; exact e, ?_⟩
  rw [hv]
  exact ⟨fun h i hi j hj => h i hi j hj (by omega), fun h i hi j hj _ => h i hi j hj⟩

/-- The check accepts `x` iff `A x = b`, and otherwise reports SLIP_INCORRECT. -/
theorem slip_check_solution_spec {n k : ℕ} {ap : ℕ → ℤ} {M : Csc} {x : Dense ℚ}
    {X : ℕ → ℕ → ℚ} {b : Dense Int} {f : ℕ → ℕ → ℤ} (hA : AOk n A ap M) (hnd : NoDup n ap M)
    (hm : b.m = n) (hn : b.n = k) (hb : IsMat n k b.x f)
    (hxm : x.m = n) (hx : IsMat n k x.x X) :
    slip_check_solution M x b =
      if ∀ i < n, ∀ j < k, ∑ l ∈ range n, (A i l : ℚ) * X l j = (f i j : ℚ) then .ok ()
      else .error (.ret .incorrect) := by
  obtain ⟨z, e, hz⟩ := checkMul_spec hA hnd hxm hx
  obtain ⟨v, e2, hv⟩ := checkCmp_spec hm hn hb hz
  unfold slip_check_solution
  simp only [hm, hn]
  rw [e, ok_bind, e2, ok_bind]
  have hv' : v = true ↔ ∀ i < n, ∀ j < k, ∑ l ∈ range n, (A i l : ℚ) * X l j = (f i j : ℚ) :=
    hv.trans ⟨fun h i hi j hj => (h i hi j hj).symm, fun h i hi j hj => (h i hi j hj).symm⟩
  by_cases h : v = true
  · rw [if_pos h, if_pos (hv'.mp h)]; rfl
  · rw [if_neg h, if_neg (fun h' => h (hv'.mpr h'))]

variable {r c : ℕ → ℕ}

/-- `SLIP_LU_solve` after the argument checks. -/
theorem luSolve_spec {n k : ℕ} {pi ci : ℕ → ℕ} {ap lp up : ℕ → ℤ} {M : Csc} {F : Factors}
    {q : Arr Int} {order : Pivot} {tol : ℚ} {b : Dense Int} {f : ℕ → ℕ → ℤ} {sA sb : ℚ}
    (hn0 : 0 < n) (hA : AOk n A ap M) (hnd : NoDup n ap M)
    (hF : FOk order tol A c n r pi lp up F) (hc : PermPair n ci c)
    (hq : IsFn n q c) (hm : b.m = n) (hk : b.n = k) (hb : IsMat n k b.x f) (hsb : sb ≠ 0)
    (check : Bool) :
    ∃ (x : Dense ℚ) (X : ℕ → ℕ → ℚ),
      luSolve M sA b sb F q check = .ok x ∧
      x.m = n ∧ x.n = k ∧ x.nzmax = max ((n : Int) * k) 1 ∧ x.x.length = max (n * k) 1 ∧
      IsMat n k x.x X ∧
      ∀ i < n, ∀ j < k, ∑ l ∈ range n, (A i l : ℚ) * X l j = (f i j : ℚ) * (sA / sb) := by
  obtain ⟨x, X, hg, xm, xn, xz, xl, hX, heq⟩ := solveCore_spec hn0 hF hc hq hm hk hb
  obtain ⟨y, ey, hl, hy⟩ := scaleSolution_spec xm xn hX (sA := sA) hsb
  refine ⟨{ x with x := y }, _, ?_, xm, xn, xz, by rw [hl, xl], hy, ?_⟩
  · unfold luSolve
    rw [hg]
    have hchk := slip_check_solution_spec hA hnd hm hk hb xm hX
    rw [if_pos heq] at hchk
    cases check
    · exact ey
    · simp only [if_true]; rw [hchk, ok_bind]; exact ey
  · intro i hi j hj
    rw [← heq i hi j hj, Finset.sum_mul]
    exact Finset.sum_congr rfl fun l _ => by ring

end Slip
