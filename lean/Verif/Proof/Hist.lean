import Verif.Model.Sized
import Verif.Bareiss
import Mathlib.Tactic.LinearCombination

/-! # One entry of the REF triangular solve: history and IPGE updates -/

namespace Slip

/-- `x'` is `x` with entry `j` equal to `v`. -/
structure Upd1 (x x' : Arr Int) (j v : Int) : Prop where
  len : x'.length = x.length
  val : ∀ i, get x' i = if i = j then some v else get x i

theorem Upd1.self {x x' : Arr Int} {j v : Int} (h : Upd1 x x' j v) : get x' j = some v := by
  rw [h.val, if_pos rfl]

theorem Upd1.ne {x x' : Arr Int} {j v i : Int} (h : Upd1 x x' j v) (hi : i ≠ j) :
    get x' i = get x i := by rw [h.val, if_neg hi]

theorem Upd1.of_upd {x : Arr Int} {j v : Int} (h0 : 0 ≤ j) (h1 : j < (x.length : Int)) :
    Upd1 x (upd x j v) j v := ⟨by simp, get_upd h0 h1 v⟩

theorem Upd1.refl {x : Arr Int} {j v : Int} (h : get x j = some v) : Upd1 x x j v :=
  ⟨rfl, fun i => by split <;> simp_all⟩

theorem Upd1.trans {x x' x'' : Arr Int} {j v w : Int} (h : Upd1 x x' j v) (h' : Upd1 x' x'' j w) :
    Upd1 x x'' j w :=
  ⟨h'.len.trans h.len, fun i => by rw [h'.val, h.val]; split <;> simp_all⟩

variable (A : ℕ → ℕ → ℤ) (r c : ℕ → ℕ)

/-- `rhos[0..k-1]` are the pivots, all nonzero. -/
structure RhosOk (k : ℕ) (rhos : Arr Int) : Prop where
  val : ∀ t : ℕ, t < k → get rhos (t : Int) = some (piv A r c (t + 1))
  ne : ∀ t : ℕ, t ≤ k → piv A r c t ≠ 0

/-- The entry `xv` of row `i` was last updated at stage `g` and is equivalent to stage `s`. -/
def Rel (v : ℕ → ℤ) (i s g : ℕ) (xv : ℤ) : Prop :=
  xv * piv A r c s = lev A r c s v i * piv A r c g ∧ g ≤ s

variable {A r c}

theorem Rel.zero (v : ℕ → ℤ) (i : ℕ) : Rel A r c v i 0 0 (v i) := by
  simp [Rel]

theorem Rel.exact (v : ℕ → ℤ) (i s : ℕ) : Rel A r c v i s s (lev A r c s v i) :=
  ⟨rfl, le_refl _⟩

theorem Rel.lev_zero {v : ℕ → ℤ} {i s g : ℕ} (h : Rel A r c v i s g 0) (hp : piv A r c g ≠ 0) :
    lev A r c s v i = 0 := by
  have := h.1
  rw [zero_mul] at this
  rcases mul_eq_zero.mp this.symm with h | h
  · exact h
  · exact absurd h hp

/-- No effective update at stage `s`. -/
theorem Rel.skip {v : ℕ → ℤ} {i s g : ℕ} {xv : ℤ} (h : Rel A r c v i s g xv)
    (hp : piv A r c s ≠ 0)
    (hz : lev A r c s (fun i => A i (c s)) i * lev A r c s v (r s) = 0) :
    Rel A r c v i (s + 1) g xv := by
  refine ⟨?_, by have := h.2; omega⟩
  have h1 := lev_step A r c s hp v i
  rw [hz, sub_zero] at h1
  apply mul_left_cancel₀ hp
  linear_combination (piv A r c (s + 1)) * h.1 - (piv A r c g) * h1

/-- The integers of the updates of one column `v`, for rows with `R`, fit: products of two bordered
minors. -/
structure SizeOk (fits : Int → Bool) (A : ℕ → ℕ → ℤ) (r c : ℕ → ℕ) (R : ℕ → Prop) (k : ℕ)
    (v : ℕ → ℤ) : Prop where
  mul : ∀ s g i, s ≤ k → g ≤ k → R i → fits (lev A r c s v i * piv A r c g) = true
  sub : ∀ s i, s < k → R i →
    fits (lev A r c s (fun i => A i (c s)) i * lev A r c s v (r s)) = true

theorem SizeOk.noLimit (A : ℕ → ℕ → ℤ) (r c : ℕ → ℕ) (R : ℕ → Prop) (k : ℕ) (v : ℕ → ℤ) :
    SizeOk Slip.noLimit A r c R k v := ⟨fun _ _ _ _ _ _ => rfl, fun _ _ _ _ => rfl⟩

theorem SizeOk.lev {fits : Int → Bool} {R : ℕ → Prop} {k : ℕ} {v : ℕ → ℤ}
    (h : SizeOk fits A r c R k v) {s i : ℕ} (hs : s ≤ k) (hi : R i) :
    fits (Slip.lev A r c s v i) = true := by
  simpa using h.mul s 0 i hs (by omega) hi

theorem zsetB_eq {fits : Int → Bool} {a : Arr Int} {i v w : Int} (hv : fits v = true)
    (h : get a i = some w) : zsetB fits a i v = .ok (upd a i v) := by
  unfold zsetB; rw [if_pos hv, zset_eq h]

theorem zsubmulB_eq {fits : Int → Bool} {a : Arr Int} {i v l y w : Int} (hp : fits (l * y) = true)
    (hv : fits (v - l * y) = true)
    (h : get a i = some w) : zsubmulB fits a i v l y = .ok (upd a i (v - l * y)) := by
  unfold zsubmulB; rw [if_pos hp, zsetB_eq hv h]

@[simp] theorem zsetB_noLimit : zsetB noLimit = zset := rfl

@[simp] theorem zsubmulB_noLimit (a : Arr Int) (i v l y : Int) :
    zsubmulB noLimit a i v l y = zset a i (v - l * y) := rfl

@[simp] theorem histUpdateB_noLimit : histUpdateB noLimit = histUpdate := rfl

@[simp] theorem ipgeUpdateB_noLimit : ipgeUpdateB noLimit = ipgeUpdate := rfl

/-- `histUpdate` brings the entry to level `s`. -/
theorem histUpdateB_spec {fits : Int → Bool} {R : ℕ → Prop} {k : ℕ} {rhos x : Arr Int}
    (hρ : RhosOk A r c k rhos) {v : ℕ → ℤ} (hz : SizeOk fits A r c R k v)
    {i s g : ℕ} {xv j : Int} (hx : get x j = some xv) (hR : Rel A r c v i s g xv) (hs : s ≤ k)
    (hi : R i) :
    ∃ x', histUpdateB fits rhos x j ((g : Int) - 1) (s : Int) = .ok x' ∧
      Upd1 x x' j (lev A r c s v i) := by
  obtain ⟨hR1, hR2⟩ := hR
  have hb := get_bounds hx
  have hz1 : fits (xv * piv A r c s) = true := by rw [hR1]; exact hz.mul s g i hs (by omega) hi
  have hz2 := hz.lev hs hi
  unfold histUpdateB
  by_cases hg : g < s
  · rw [if_pos (by omega)]
    have hρs : get rhos ((s : Int) - 1) = some (piv A r c s) := by
      have := hρ.val (s - 1) (by omega)
      have e : ((s - 1 : ℕ) : Int) = (s : Int) - 1 := by omega
      have e2 : s - 1 + 1 = s := by omega
      rwa [e, e2] at this
    rw [rd_eq hx, ok_bind, rd_eq hρs, ok_bind, zsetB_eq hz1 hx, ok_bind]
    have hx' := get_upd_self hb.1 hb.2 (xv * piv A r c s)
    by_cases hg0 : g = 0
    · subst hg0
      rw [if_neg (by simp)]
      refine ⟨_, rfl, ?_⟩
      have : lev A r c s v i = xv * piv A r c s := by rw [hR1]; simp
      rw [this]
      exact .of_upd hb.1 hb.2
    · rw [if_pos (by omega)]
      have hρg : get rhos ((g : Int) - 1) = some (piv A r c g) := by
        have := hρ.val (g - 1) (by omega)
        have e : ((g - 1 : ℕ) : Int) = (g : Int) - 1 := by omega
        have e2 : g - 1 + 1 = g := by omega
        rwa [e, e2] at this
      rw [rd_eq hx', ok_bind, rd_eq hρg, ok_bind, divexact_eq (hρ.ne g (by omega)) hR1, ok_bind,
        zsetB_eq hz2 hx']
      exact ⟨_, rfl, (Upd1.of_upd hb.1 hb.2).trans (.of_upd hb.1 (by simpa using hb.2))⟩
  · rw [if_neg (by omega)]
    have : g = s := by omega
    subst this
    have : xv = lev A r c g v i := mul_right_cancel₀ (hρ.ne g hs) hR1
    exact ⟨x, rfl, this ▸ .refl hx⟩

theorem histUpdate_spec {k : ℕ} {rhos x : Arr Int} (hρ : RhosOk A r c k rhos) {v : ℕ → ℤ}
    {i s g : ℕ} {xv j : Int} (hx : get x j = some xv) (hR : Rel A r c v i s g xv) (hs : s ≤ k) :
    ∃ x', histUpdate rhos x j ((g : Int) - 1) (s : Int) = .ok x' ∧ Upd1 x x' j (lev A r c s v i) :=
  histUpdateB_spec hρ (.noLimit A r c (fun _ => True) k v) hx hR hs trivial

/-- `ipgeUpdate` brings the entry from stage `s` to stage `s+1`. -/
theorem ipgeUpdateB_spec {fits : Int → Bool} {R : ℕ → Prop} {k : ℕ} {rhos h x : Arr Int}
    (hρ : RhosOk A r c k rhos) {v : ℕ → ℤ} (hz : SizeOk fits A r c R k v)
    {row s g : ℕ} {xv i j : Int} (hx : get x i = some xv) (hR : Rel A r c v row s g xv)
    (hs : s < k) (hh : get h i = some ((g : Int) - 1)) (hij : j ≠ i)
    (hxj : get x j = some (lev A r c s v (r s))) (hrow : R row) :
    ∃ h' x', ipgeUpdateB fits rhos h x i j (s : Int) (lev A r c s (fun i => A i (c s)) row) = .ok (h', x') ∧
      Upd1 h h' i (s : Int) ∧ Upd1 x x' i (lev A r c (s + 1) v row) := by
  have hb := get_bounds hx
  have hbh := get_bounds hh
  have hstep := lev_step A r c s (hρ.ne s (by omega)) v row
  have hwh : wr h i (s : Int) = .ok (upd h i (s : Int)) := wr_eq hbh.1 hbh.2
  have hUh : Upd1 h (upd h i (s : Int)) i (s : Int) := .of_upd hbh.1 hbh.2
  have hρs1 : get rhos (s : Int) = some (piv A r c (s + 1)) := hρ.val s hs
  have hρs : s ≠ 0 → get rhos ((s : Int) - 1) = some (piv A r c s) := by
    intro h0
    have := hρ.val (s - 1) (by omega)
    have e : ((s - 1 : ℕ) : Int) = (s : Int) - 1 := by omega
    have e2 : s - 1 + 1 = s := by omega
    rwa [e, e2] at this
  -- generic facts on `upd`
  have upd_i : ∀ (y : Arr Int) (w : Int), Upd1 x y i w → get y i = some w := fun y w h => h.self
  have upd_j : ∀ (y : Arr Int) (w : Int), Upd1 x y i w → get y j = some (lev A r c s v (r s)) :=
    fun y w h => by rw [h.ne hij, hxj]
  have upd_n : ∀ (y : Arr Int) (w w' : Int), fits w' = true → Upd1 x y i w →
      zsetB fits y i w' = .ok (upd y i w') ∧
      Upd1 x (upd y i w') i w' := fun y w w' hw h =>
    have hb' := get_bounds h.self
    ⟨zsetB_eq hw h.self, h.trans (.of_upd hb'.1 hb'.2)⟩
  have hzs := hz.sub s row hs hrow
  have sub_n : ∀ (y : Arr Int) (w w' : Int),
      fits (w' - lev A r c s (fun i => A i (c s)) row * lev A r c s v (r s)) = true → Upd1 x y i w →
      zsubmulB fits y i w' (lev A r c s (fun i => A i (c s)) row) (lev A r c s v (r s)) =
        .ok (upd y i (w' - lev A r c s (fun i => A i (c s)) row * lev A r c s v (r s))) ∧
      Upd1 x (upd y i (w' - lev A r c s (fun i => A i (c s)) row * lev A r c s v (r s))) i
        (w' - lev A r c s (fun i => A i (c s)) row * lev A r c s v (r s)) := fun y w w' hw h =>
    have hb' := get_bounds h.self
    ⟨zsubmulB_eq hzs hw h.self, h.trans (.of_upd hb'.1 hb'.2)⟩
  have hz1 := hz.lev (s := s + 1) (i := row) hs hrow
  have hzd : fits (lev A r c (s + 1) v row * piv A r c s) = true :=
    hz.mul (s + 1) s row hs (by omega) hrow
  have hzm : fits (lev A r c s v row * piv A r c (s + 1)) = true :=
    hz.mul s (s + 1) row (by omega) hs hrow
  have U0 : Upd1 x x i xv := .refl hx
  unfold ipgeUpdateB
  rw [rd_eq hx, ok_bind]
  by_cases hxv : xv = 0
  · rw [if_pos hxv]
    subst hxv
    have hlz := hR.lev_zero (hρ.ne g (by have := hR.2; omega))
    rw [hlz, mul_zero, zero_sub] at hstep
    by_cases hs0 : s = 0
    · subst hs0
      rw [if_pos (by simp), rd_eq hxj, ok_bind]
      have hE0 : lev A r c (0 + 1) v row
          = 0 - lev A r c 0 (fun i => A i (c 0)) row * lev A r c 0 v (r 0) := by
        simpa using hstep
      obtain ⟨e1, U1⟩ := sub_n x 0 0 (by rw [← hE0]; exact hz1) U0
      rw [e1, ok_bind, hwh, ok_bind]
      refine ⟨_, _, rfl, hUh, ?_⟩
      have : lev A r c (0 + 1) v row
          = 0 - lev A r c 0 (fun i => A i (c 0)) row * lev A r c 0 v (r 0) := by
        simpa using hstep
      rw [this]; exact U1
    · rw [if_neg (by omega), rd_eq hxj, ok_bind]
      obtain ⟨e1, U1⟩ := sub_n x 0 0 (by
        rw [show (0 : Int) - lev A r c s (fun i => A i (c s)) row * lev A r c s v (r s) =
          lev A r c (s + 1) v row * piv A r c s by linear_combination -hstep]
        exact hzd) U0
      rw [e1, ok_bind, rd_eq U1.self, ok_bind, rd_eq (hρs hs0), ok_bind]
      rw [divexact_eq (q := lev A r c (s + 1) v row) (hρ.ne s (by omega)) (by linear_combination -hstep),
        ok_bind]
      obtain ⟨e2, U2⟩ := upd_n _ _ (lev A r c (s + 1) v row) hz1 U1
      rw [e2, ok_bind, hwh, ok_bind]
      exact ⟨_, _, rfl, hUh, U2⟩
  · rw [if_neg hxv]
    by_cases hs0 : s = 0
    · subst hs0
      have hg0 : g = 0 := by have := hR.2; omega
      subst hg0
      have hR1 := hR.1
      simp only [piv_zero, mul_one] at hR1
      rw [if_pos (by simp)]
      rw [show (0 : Int) = ((0 : ℕ) : Int) by rfl, rd_eq hρs1, ok_bind]
      obtain ⟨e1, U1⟩ := upd_n x _ (xv * piv A r c (0 + 1)) (by rw [hR1]; exact hzm) U0
      rw [e1, ok_bind, rd_eq U1.self, ok_bind, rd_eq (upd_j _ _ U1), ok_bind]
      have hE0 : lev A r c (0 + 1) v row = xv * piv A r c (0 + 1)
          - lev A r c 0 (fun i => A i (c 0)) row * lev A r c 0 v (r 0) := by
        rw [hR1]; simp only [piv_zero, one_mul] at hstep; rw [hstep]; ring
      obtain ⟨e2, U2⟩ := sub_n _ _ (xv * piv A r c (0 + 1)) (by rw [← hE0]; exact hz1) U1
      rw [e2, ok_bind, hwh, ok_bind]
      refine ⟨_, _, rfl, hUh, ?_⟩
      have : lev A r c (0 + 1) v row = xv * piv A r c (0 + 1)
          - lev A r c 0 (fun i => A i (c 0)) row * lev A r c 0 v (r 0) := by
        rw [hR1]; simp only [piv_zero, one_mul] at hstep; rw [hstep]; ring
      rw [this]; exact U2
    · rw [if_neg (by omega), rd_eq hh, ok_bind]
      obtain ⟨x1, e1, U1⟩ := histUpdateB_spec hρ hz hx hR (by omega) hrow
      rw [e1, ok_bind, rd_eq U1.self, ok_bind, rd_eq hρs1, ok_bind]
      obtain ⟨e2, U2⟩ := upd_n _ _ (lev A r c s v row * piv A r c (s + 1)) hzm U1
      rw [e2, ok_bind, rd_eq U2.self, ok_bind, rd_eq (upd_j _ _ U2), ok_bind]
      obtain ⟨e3, U3⟩ := sub_n _ _ (lev A r c s v row * piv A r c (s + 1)) (by
        rw [show lev A r c s v row * piv A r c (s + 1)
          - lev A r c s (fun i => A i (c s)) row * lev A r c s v (r s) =
          lev A r c (s + 1) v row * piv A r c s by linear_combination -hstep]
        exact hzd) U2
      rw [e3, ok_bind, rd_eq U3.self, ok_bind, rd_eq (hρs hs0), ok_bind]
      rw [divexact_eq (q := lev A r c (s + 1) v row) (hρ.ne s (by omega)) (by linear_combination -hstep),
        ok_bind]
      obtain ⟨e4, U4⟩ := upd_n _ _ (lev A r c (s + 1) v row) hz1 U3
      rw [e4, ok_bind, hwh, ok_bind]
      exact ⟨_, _, rfl, hUh, U4⟩

theorem ipgeUpdate_spec {k : ℕ} {rhos h x : Arr Int} (hρ : RhosOk A r c k rhos) {v : ℕ → ℤ}
    {row s g : ℕ} {xv i j : Int} (hx : get x i = some xv) (hR : Rel A r c v row s g xv)
    (hs : s < k) (hh : get h i = some ((g : Int) - 1)) (hij : j ≠ i)
    (hxj : get x j = some (lev A r c s v (r s))) :
    ∃ h' x', ipgeUpdate rhos h x i j (s : Int) (lev A r c s (fun i => A i (c s)) row) = .ok (h', x') ∧
      Upd1 h h' i (s : Int) ∧ Upd1 x x' i (lev A r c (s + 1) v row) :=
  ipgeUpdateB_spec hρ (.noLimit A r c (fun _ => True) k v) hx hR hs hh hij hxj trivial

end Slip
