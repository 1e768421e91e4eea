import Verif.Proof.Forward
import Verif.Proof.Backward
import Mathlib.Algebra.BigOperators.Field

/-! The solve phase solves the system exactly. -/

namespace Slip

open Finset

/-- The permutation of `Fin n` given by one half of a `PermPair`. -/
def PermPair.toPerm {n : ℕ} {pi r : ℕ → ℕ} (h : PermPair n pi r) : Equiv.Perm (Fin n) where
  toFun t := ⟨r t, h.rlt t t.2⟩
  invFun i := ⟨pi i, h.plt i i.2⟩
  left_inv t := by ext; exact h.pr t t.2
  right_inv i := by ext; exact h.rp i i.2

theorem PermPair.symm {n : ℕ} {pi r : ℕ → ℕ} (h : PermPair n pi r) : PermPair n r pi :=
  ⟨h.plt, h.rlt, h.rp, h.pr⟩

/-- An injective self-map of `0..n-1` has an inverse. -/
theorem exists_permPair {n : ℕ} {c : ℕ → ℕ} (hc : ∀ t < n, c t < n)
    (hinj : ∀ t < n, ∀ u < n, c t = c u → t = u) : ∃ ci, PermPair n ci c := by
  let f : Fin n → Fin n := fun t => ⟨c t, hc t t.2⟩
  have hf : Function.Injective f := by
    intro t u h
    ext
    exact hinj t t.2 u u.2 (by simpa [f] using h)
  have hs : Function.Surjective f := Finite.surjective_of_injective hf
  choose g hg using hs
  refine ⟨fun i => if h : i < n then (g ⟨i, h⟩ : ℕ) else 0, hc, ?_, ?_, ?_⟩
  · intro i hi; simp only [hi, dif_pos]; exact (g ⟨i, hi⟩).2
  · intro t ht
    simp only [hc t ht, dif_pos]
    have := hf (hg (f ⟨t, ht⟩))
    have h2 := congrArg Fin.val this
    exact h2
  · intro i hi
    simp only [hi, dif_pos]
    have h2 := congrArg Fin.val (hg ⟨i, hi⟩)
    exact h2

variable {A : ℕ → ℕ → ℤ} {r c : ℕ → ℕ}

/-- Sum over columns in pivotal order. -/
theorem sum_perm {n : ℕ} {ci c : ℕ → ℕ} (hc : PermPair n ci c) {M : Type*} [AddCommMonoid M]
    (f : ℕ → M) : ∑ t ∈ range n, f (c t) = ∑ l ∈ range n, f l := by
  refine Finset.sum_nbij c (fun t ht => ?_) ?_ ?_ (fun t _ => rfl)
  · simp only [mem_range] at ht ⊢; exact hc.rlt t ht
  · intro t ht u hu e
    simp only [coe_range, Set.mem_Iio] at ht hu
    rw [← hc.pr t ht, ← hc.pr u hu, e]
  · intro l hl
    simp only [coe_range, Set.mem_Iio] at hl
    exact ⟨ci l, by simpa using hc.plt l hl, hc.rp l hl⟩

/-- The exact solution times the last pivot is integral. -/
theorem exists_Z {n : ℕ} {pi ci : ℕ → ℕ} (hr : PermPair n pi r) (hc : PermPair n ci c)
    (b : ℕ → ℤ) :
    ∃ Z : ℕ → ℤ, ∀ i < n, ∑ l ∈ range n, A i l * Z l = piv A r c n * b i := by
  obtain ⟨Z, hZ⟩ := exists_int_solution A r c n hr.toPerm hc.toPerm (fun _ => rfl) (fun _ => rfl)
    (fun i => b i)
  refine ⟨fun l => if h : l < n then Z ⟨l, h⟩ else 0, fun i hi => ?_⟩
  have h1 := congrFun hZ ⟨i, hi⟩
  simp only [Matrix.mulVec, dotProduct, toMat, Matrix.of_apply] at h1
  rw [← h1, Finset.sum_range]
  refine Finset.sum_congr rfl fun l _ => ?_
  simp

/-- Everything the solve phase does before the optional check and the scaling. -/
theorem solveCore_spec {n k : ℕ} {pi ci : ℕ → ℕ} {lp up : ℕ → ℤ} {F : Factors} {q : Arr Int}
    {order : Pivot} {tol : ℚ} {b : Dense Int} {f : ℕ → ℕ → ℤ}
    (hn0 : 0 < n) (hF : FOk order tol A c n r pi lp up F) (hc : PermPair n ci c)
    (hq : IsFn n q c) (hm : b.m = n) (hk : b.n = k) (hb : IsMat n k b.x f) :
    ∃ (x : Dense ℚ) (X : ℕ → ℕ → ℚ),
      (∀ {β : Type} (g : Dense ℚ → C β), (do
        let b2 ← slip_permute_b b F.pinv
        let b2 ← slip_forward_sub F.L b2 F.rhos
        let det ← rd F.rhos (F.L.n - 1)
        let b2 ← slip_matrix_mul b2 det
        let b2 ← slip_back_sub F.U b2
        let det ← rd F.rhos (F.L.n - 1)
        let x2 ← slip_matrix_div b2 det
        let x ← slip_permute_x x2 q
        g x) = g x) ∧
      x.m = n ∧ x.n = k ∧ x.nzmax = max ((n : Int) * k) 1 ∧ x.x.length = max (n * k) 1 ∧
      IsMat n k x.x X ∧
      ∀ i < n, ∀ j < k, ∑ l ∈ range n, (A i l : ℚ) * X l j = (f i j : ℚ) := by
  have hpn : piv A r c n ≠ 0 := hF.rho.ne n (le_refl _)
  have hpnq : (piv A r c n : ℚ) ≠ 0 := by exact_mod_cast hpn
  choose Z hZ using fun j => exists_Z (A := A) hF.perm hc (fun i => f i j)
  obtain ⟨y1, e1, m1, n1, z1, l1, g1⟩ := slip_permute_b_spec hm hk hb hF.perm hF.pinv
  obtain ⟨y2, e2, l2, g2⟩ := slip_forward_sub_spec hF.L hF.rho m1 n1 z1 g1
  obtain ⟨y3, e3, l3, g3⟩ := slip_matrix_mul_spec (x := { y1 with x := y2 }) m1 n1 g2 (piv A r c n)
  obtain ⟨y4, e4, l4, g4⟩ := slip_back_sub_spec (b := { y1 with x := y3 })
    (z := fun t j => Z j (c t)) hF.U hF.diag
    (fun t ht => by rw [← piv_succ]; exact hF.rho.ne (t + 1) ht)
    (fun t s hts => lev_col_eq_zero A r c hts _) m1 n1 g3
    (by
      intro j hj s hs
      have hps := hF.rho.ne s (by omega)
      have h1 : ∑ t ∈ range n, lev A r c s (fun i => A i (c t)) (r s) * Z j (c t)
          = lev A r c s (fun i => ∑ t ∈ range n, Z j (c t) * A i (c t)) (r s) := by
        rw [lev_sum A r c s hps (range n) (fun t => Z j (c t)) (fun t i => A i (c t))]
        exact Finset.sum_congr rfl fun t _ => mul_comm _ _
      have h2 : lev A r c s (fun i => ∑ t ∈ range n, Z j (c t) * A i (c t)) (r s)
          = lev A r c s (fun i => piv A r c n * f i j) (r s) := by
        have key : ∀ i < n, ∑ t ∈ range n, Z j (c t) * A i (c t) = piv A r c n * f i j := by
          intro i hi
          rw [sum_perm hc (fun l => Z j l * A i l), ← hZ j i hi]
          exact Finset.sum_congr rfl fun t _ => mul_comm _ _
        exact lev_congr_v A r c s _ (fun x hx => key _ (hF.perm.rlt x (by omega)))
          (key _ (hF.perm.rlt s hs))
      rw [h1, h2, lev_smul A r c s hps, mul_comm])
  obtain ⟨y5, e5, m5, n5, l5, g5⟩ := slip_matrix_div_spec (x := { y1 with x := y4 }) m1 n1 g4 hpn
  obtain ⟨y6, e6, m6, n6, z6, l6, g6⟩ := slip_permute_x_spec m5 n5 g5 hc.symm hq
  have hdet : rd F.rhos (F.L.n - 1) = .ok (piv A r c n) := by
    have := hF.rho.val (n - 1) (by omega)
    rw [show n - 1 + 1 = n by omega] at this
    rw [hF.L.nEq, show (n : Int) - 1 = ((n - 1 : ℕ) : Int) by omega]
    exact rd_eq this
  refine ⟨y6, _, ?_, m6, n6, z6, l6, g6, ?_⟩
  · intro β g
    rw [e1, ok_bind, e2, ok_bind, hdet, ok_bind, e3, ok_bind, e4, ok_bind, ok_bind, e5, ok_bind,
      e6, ok_bind]
  · intro i hi j hj
    have h3 : ∀ l ∈ range n, (A i l : ℚ) * ((Z j (c (ci l)) : ℚ) / (piv A r c n : ℚ))
        = (A i l : ℚ) * (Z j l : ℚ) / (piv A r c n : ℚ) := by
      intro l hl
      rw [hc.rp l (by simpa using hl)]; ring
    rw [Finset.sum_congr rfl h3, ← Finset.sum_div, div_eq_iff hpnq]
    have := hZ j i hi
    rw [mul_comm (f i j : ℚ)]
    exact_mod_cast this

end Slip
