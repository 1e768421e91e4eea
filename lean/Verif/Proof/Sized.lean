import Verif.Proof.LuSolve
import Verif.Proof.Machine

/-!
# The limited run agrees with the unlimited one when the integers fit
-/

namespace Slip

/-- `m'` runs out of memory or behaves as `m`. -/
def Lim {α : Type} (m' m : C α) : Prop := m' = .error (.ret .outOfMemory) ∨ m' = m

namespace Lim

theorem refl {α : Type} (m : C α) : Lim m m := Or.inr rfl

theorem bind {α β : Type} {m' m : C α} {f' f : α → C β} (h : Lim m' m) (hf : ∀ a, Lim (f' a) (f a)) :
    Lim (m' >>= f') (m >>= f) := by
  rcases h with rfl | rfl
  · exact Or.inl rfl
  · cases m' with
    | error e => exact Or.inr rfl
    | ok a => exact hf a

theorem forCnt {σ : Type} {f' f : Int → σ → C σ} (h : ∀ i s, Lim (f' i s) (f i s)) :
    ∀ (k : Nat) (lo : Int) (s : σ), Lim (Slip.forCnt k lo s f') (Slip.forCnt k lo s f)
  | 0, _, _ => Or.inr rfl
  | k + 1, lo, s => by
    unfold Slip.forCnt
    exact Lim.bind (h lo s) fun a => forCnt h k (lo + 1) a

theorem forRange {σ : Type} {f' f : Int → σ → C σ} {lo hi : Int} {s : σ}
    (h : ∀ i s, Lim (f' i s) (f i s)) : Lim (Slip.forRange lo hi s f') (Slip.forRange lo hi s f) :=
  Lim.forCnt h _ lo s

theorem forDownCnt {σ : Type} {f' f : Int → σ → C σ} (h : ∀ i s, Lim (f' i s) (f i s)) :
    ∀ (k : Nat) (lo : Int) (s : σ), Lim (Slip.forDownCnt k lo s f') (Slip.forDownCnt k lo s f)
  | 0, _, _ => Or.inr rfl
  | k + 1, lo, s => by
    unfold Slip.forDownCnt
    exact Lim.bind (h _ s) fun a => forDownCnt h k lo a

theorem forDown {σ : Type} {f' f : Int → σ → C σ} {lo hi : Int} {s : σ}
    (h : ∀ i s, Lim (f' i s) (f i s)) : Lim (Slip.forDown lo hi s f') (Slip.forDown lo hi s f) :=
  Lim.forDownCnt h _ lo s

theorem eq_of_ok {α : Type} {m' m : C α} (h : Lim m' m) {a : α} (e : m' = .ok a) : m' = m := by
  rcases h with h | h
  · rw [e] at h; cases h
  · exact h

theorem zset (fits : Int → Bool) (a : Arr Int) (i v : Int) : Lim (zsetB fits a i v) (Slip.zset a i v) := by
  unfold zsetB
  split
  · exact .refl _
  · exact Or.inl rfl

theorem zsubmul (fits : Int → Bool) (a : Arr Int) (i v l y : Int) :
    Lim (zsubmulB fits a i v l y) (Slip.zset a i (v - l * y)) := by
  unfold zsubmulB
  split
  · exact zset _ _ _ _
  · exact Or.inl rfl

end Lim

/-- Lemmas for the functions that are called. -/
syntax "lim_leaf" : tactic

macro_rules | `(tactic| lim_leaf) => `(tactic| with_reducible exact Lim.refl _)
macro_rules | `(tactic| lim_leaf) => `(tactic| with_reducible exact Lim.zset _ _ _ _)
macro_rules | `(tactic| lim_leaf) => `(tactic| with_reducible exact Lim.zsubmul _ _ _ _ _ _)

macro "lims" : tactic => `(tactic| repeat' first
  | lim_leaf
  | with_reducible apply Lim.bind
  | with_reducible apply Lim.forRange
  | with_reducible apply Lim.forDown
  | intro _
  | split)

variable (fits : Int → Bool)

theorem histUpdateB_lim (rhos x : Arr Int) (j hj s : Int) :
    Lim (histUpdateB fits rhos x j hj s) (histUpdate rhos x j hj s) := by
  unfold histUpdateB histUpdate
  lims

macro_rules | `(tactic| lim_leaf) => `(tactic| with_reducible exact histUpdateB_lim ..)

theorem ipgeUpdateB_lim (rhos h x : Arr Int) (i j jnew l : Int) :
    Lim (ipgeUpdateB fits rhos h x i j jnew l) (ipgeUpdate rhos h x i j jnew l) := by
  unfold ipgeUpdateB ipgeUpdate
  lims

macro_rules | `(tactic| lim_leaf) => `(tactic| with_reducible exact ipgeUpdateB_lim ..)

theorem solveStepB_lim (Lp Li Lx pinv rhos xi : Arr Int) (k p : Int) (h x : Arr Int) :
    Lim (solveStepB fits Lp Li Lx pinv rhos xi k p h x) (solveStep Lp Li Lx pinv rhos xi k p h x) := by
  unfold solveStepB solveStep
  lims

macro_rules | `(tactic| lim_leaf) => `(tactic| with_reducible exact solveStepB_lim ..)

theorem slip_ref_triangular_solveB_lim (L A : Csc) (k : Int) (xi q rhos pinv row_perm h x : Arr Int) :
    Lim (slip_ref_triangular_solveB fits L A k xi q rhos pinv row_perm h x)
      (slip_ref_triangular_solve L A k xi q rhos pinv row_perm h x) := by
  unfold slip_ref_triangular_solveB slip_ref_triangular_solve
  lims

theorem fwdUpdateB_lim (rhos h x : Arr Int) (ij ii i l : Int) :
    Lim (fwdUpdateB fits rhos h x ij ii i l) (fwdUpdate rhos h x ij ii i l) := by
  unfold fwdUpdateB fwdUpdate
  lims

macro_rules | `(tactic| lim_leaf) => `(tactic| with_reducible exact fwdUpdateB_lim ..)

theorem fwdStepB_lim (L : Csc) (rhos : Arr Int) (m k i : Int) (h x : Arr Int) :
    Lim (fwdStepB fits L rhos m k i h x) (fwdStep L rhos m k i h x) := by
  unfold fwdStepB fwdStep
  lims

macro_rules | `(tactic| lim_leaf) => `(tactic| with_reducible exact fwdStepB_lim ..)

theorem slip_forward_subB_lim (L : Csc) (x : Dense Int) (rhos : Arr Int) :
    Lim (slip_forward_subB fits L x rhos) (slip_forward_sub L x rhos) := by
  unfold slip_forward_subB slip_forward_sub
  lims

theorem slip_matrix_mulB_lim (x : Dense Int) (s : Int) :
    Lim (slip_matrix_mulB fits x s) (slip_matrix_mul x s) := by
  unfold slip_matrix_mulB slip_matrix_mul
  lims

theorem backInnerB_lim (U : Csc) (m k j : Int) (y : Arr Int) (i : Int) :
    Lim (backInnerB fits U m k j y i) (backInner U m k j y i) := by
  unfold backInnerB backInner
  lims

macro_rules | `(tactic| lim_leaf) => `(tactic| with_reducible exact backInnerB_lim ..)

theorem backStepB_lim (U : Csc) (m k j : Int) (y : Arr Int) :
    Lim (backStepB fits U m k j y) (backStep U m k j y) := by
  unfold backStepB backStep
  lims

macro_rules | `(tactic| lim_leaf) => `(tactic| with_reducible exact backStepB_lim ..)

theorem slip_back_subB_lim (U : Csc) (b : Dense Int) :
    Lim (slip_back_subB fits U b) (slip_back_sub U b) := by
  unfold slip_back_subB slip_back_sub
  lims

variable {fits : Int → Bool} {A : ℕ → ℕ → ℤ} {r c : ℕ → ℕ}

theorem factStepB_eq {nc : Int → Int → ℚ → Bool} {order : Pivot} {tol : ℚ} {n k : ℕ}
    {r pi : ℕ → ℕ} {lp up ap : ℕ → ℤ} {M : Csc} {q : Arr Int} {s : FactSt}
    (hA : AOk n A ap M) (hMn : M.n = n) (hq : IsFn n q c) (hc : ∀ t < n, c t < n) (hk : k < n)
    (h : FInv order tol A c n k r pi lp up s)
    (hz : SizeOk fits A r c (· < n) k (fun i => A i (c k))) :
    factStepB fits nc order (.fin tol) M q (k : Int) s = factStep nc order (.fin tol) M q (k : Int) s := by
  have hp := h.perm
  have bk0 : (0 : Int) ≤ (k : Int) := by omega
  have bkL : (k : Int) < (s.L.p.length : Int) := by rw [h.capL.plen]; omega
  have bkU : (k : Int) < (s.U.p.length : Int) := by rw [h.capU.plen]; omega
  have capL1 : CapOk n { s.L with p := upd s.L.p (k : Int) s.lnz } s.lnz := by
    refine ⟨h.capL.mEq, h.capL.nEq, ?_, h.capL.nz0, h.capL.nzle, h.capL.nle, h.capL.leni,
      h.capL.lenx, h.capL.fresh⟩
    simp only [length_upd]; exact h.capL.plen
  have gL := capL1.grow
  simp only at gL
  unfold factStepB factStep
  simp only [hMn, wr_eq bk0 bkL, wr_eq bk0 bkU, rd_eq (hq k hk), ok_bind]
  generalize hL2 : (if s.lnz + (n : Int) > s.L.nzmax
    then slip_sparse_realloc { s.L with p := upd s.L.p (k : Int) s.lnz }
    else { s.L with p := upd s.L.p (k : Int) s.lnz }) = L2 at gL ⊢
  obtain ⟨capL2, roomL, pL, oldLi, oldLx⟩ := gL
  have hL2ok : LOk A r c n k pi lp L2.p L2.i L2.x := by
    rw [pL]
    exact LOk_iff.mpr ((LOk_iff.mp h.L).congr (fun m hm => oldLi m (by rw [← h.lnz]; exact hm))
      (fun m hm => oldLx m (by rw [← h.lnz]; exact hm)))
  obtain ⟨t, pat, et, -, -⟩ := slip_ref_triangular_solveB_spec (xi := s.xi) (h := s.h) (x := s.x)
    hA hMn capL2.nEq hL2ok hp h.pinv h.rperm hq hc h.rho hk h.xi (by rw [h.h]) h.x hz
  rw [(slip_ref_triangular_solveB_lim fits _ _ _ _ _ _ _ _ _ _).eq_of_ok et]

/-- With room for the products of two bordered minors of each column, the limited factorization is the
unlimited one. -/
theorem factorizeB_eq {nc : Int → Int → ℚ → Bool} {order : Pivot} {tol : ℚ} {n : ℕ}
    {ap : ℕ → ℤ} {M : Csc} {q : Arr Int} {lnz unz : ℤ}
    (hA : AOk n A ap M) (hMn : M.n = n) (hq : IsFn n q c) (hc : ∀ t < n, c t < n)
    (hcinj : ∀ t < n, ∀ u < n, c t = c u → t = u) (hl : (n : ℤ) ≤ lnz) (hu : (n : ℤ) ≤ unz)
    (hz : ∀ k < n, ∀ r : ℕ → ℕ, (∀ t < n, r t < n) → SizeOk fits A r c (· < n) k (fun i => A i (c k))) :
    factorizeB fits nc order (.fin tol) M q lnz unz = factorize nc order (.fin tol) M q lnz unz := by
  unfold factorizeB factorize
  obtain ⟨s0, e0, h0⟩ := factInit_spec order tol A c hl hu
  simp only [hMn]
  rw [e0, ok_bind, ok_bind]
  have hloop := M64.agree_forRange (lo := 0) (hi := (n : Int)) (s := s0)
    (f' := fun k s => factStepB fits nc order (.fin tol) M q k s)
    (f := fun k s => factStep nc order (.fin tol) M q k s)
    (fun p s' => ∃ r pi lp up, FInv order tol A c n p.toNat r pi lp up s') ⟨_, _, _, _, h0⟩
    (by
      rintro p s' hp0 hp1 ⟨r, pi, lp, up, hinv⟩
      obtain ⟨p, rfl⟩ := Int.eq_ofNat_of_zero_le hp0
      rw [Int.toNat_natCast] at hinv
      have e : ((p : Int) + 1).toNat = p + 1 := by omega
      rw [e]
      have hs := factStep_spec (nc := nc) hA hMn hq hc hcinj (by omega) hinv
      have heq := factStepB_eq (nc := nc) (fits := fits) hA hMn hq hc (by omega) hinv
        (hz p (by omega) r hinv.perm.rlt)
      simp only [heq]
      refine M64.Agree.of_wp fun s' e' => ?_
      rw [e'] at hs
      exact hs)
  have hwp := factLoop_spec (nc := nc) hA hMn hq hc hcinj ⟨_, _, _, _, h0⟩ n (le_refl _)
  rw [hloop.eq (by
    intro hcon
    rw [hcon] at hwp
    exact absurd hwp.1 (by simp))]

/-- What has to fit in the solve for one right-hand side: the integers of the forward substitution, the
product with the last pivot and the integers of the back substitution. -/
structure SolveFits (fits : Int → Bool) (A : ℕ → ℕ → ℤ) (r c : ℕ → ℕ) (n : ℕ) (b : ℕ → ℤ) : Prop where
  fwd : SizeOk fits A r c (fun i => ∃ s < n, i = r s) n b
  back : ∀ Z : ℕ → ℤ, (∀ i < n, ∑ l ∈ Finset.range n, A i l * Z l = piv A r c n * b i) →
    BackFits fits n (fun t s => lev A r c s (fun i => A i (c t)) (r s)) (fun t => Z (c t))

/-- With room for these integers, the limited solve is the unlimited one. -/
theorem luSolveB_eq {n k : ℕ} {pi ci : ℕ → ℕ} {lp up : ℕ → ℤ} {F : Factors} {q : Arr Int}
    {order : Pivot} {tol : ℚ} {b : Dense Int} {f : ℕ → ℕ → ℤ} {M : Csc} {sA sb : ℚ} {check : Bool}
    (hn0 : 0 < n) (hF : FOk order tol A c n r pi lp up F) (hc : PermPair n ci c)
    (hm : b.m = n) (hk : b.n = k) (hb : IsMat n k b.x f)
    (hz : ∀ j < k, SolveFits fits A r c n (fun i => f i j)) :
    luSolveB fits M sA b sb F q check = luSolve M sA b sb F q check := by
  choose Z hZ using fun j => exists_Z (A := A) hF.perm hc (fun i => f i j)
  obtain ⟨y1, e1, m1, n1, z1, l1, g1⟩ := slip_permute_b_spec hm hk hb hF.perm hF.pinv
  obtain ⟨y2, e2, l2, g2⟩ := slip_forward_subB_spec hF.L hF.rho m1 n1 z1 g1 fun j hj => (hz j hj).fwd
  obtain ⟨y3, e3, l3, g3⟩ := slip_matrix_mulB_spec (x := { y1 with x := y2 }) m1 n1 g2 (piv A r c n)
    fun s hs j hj => (hz j hj).fwd.mul s n _ (by omega) (le_refl _) ⟨s, hs, rfl⟩
  obtain ⟨y4, e4, l4, g4⟩ := slip_back_subB_spec (b := { y1 with x := y3 })
    (z := fun t j => Z j (c t)) hF.U hF.diag
    (fun t ht => by rw [← piv_succ]; exact hF.rho.ne (t + 1) ht)
    (fun t s hts => lev_col_eq_zero A r c hts _) m1 n1 g3
    (by
      intro j hj s hs
      have hps := hF.rho.ne s (by omega)
      have h1 : ∑ t ∈ Finset.range n, lev A r c s (fun i => A i (c t)) (r s) * Z j (c t)
          = lev A r c s (fun i => ∑ t ∈ Finset.range n, Z j (c t) * A i (c t)) (r s) := by
        rw [lev_sum A r c s hps (Finset.range n) (fun t => Z j (c t)) (fun t i => A i (c t))]
        exact Finset.sum_congr rfl fun t _ => mul_comm _ _
      have h2 : lev A r c s (fun i => ∑ t ∈ Finset.range n, Z j (c t) * A i (c t)) (r s)
          = lev A r c s (fun i => piv A r c n * f i j) (r s) := by
        have key : ∀ i < n, ∑ t ∈ Finset.range n, Z j (c t) * A i (c t) = piv A r c n * f i j := by
          intro i hi
          rw [sum_perm hc (fun l => Z j l * A i l), ← hZ j i hi]
          exact Finset.sum_congr rfl fun t _ => mul_comm _ _
        exact lev_congr_v A r c s _ (fun x hx => key _ (hF.perm.rlt x (by omega)))
          (key _ (hF.perm.rlt s hs))
      rw [h1, h2, lev_smul A r c s hps, mul_comm])
    fun j hj => (hz j hj).back (Z j) (hZ j)
  have hdet : rd F.rhos (F.L.n - 1) = .ok (piv A r c n) := by
    have := hF.rho.val (n - 1) (by omega)
    rw [show n - 1 + 1 = n by omega] at this
    rw [hF.L.nEq, show (n : Int) - 1 = ((n - 1 : ℕ) : Int) by omega]
    exact rd_eq this
  unfold luSolveB luSolve
  simp only [e1, ok_bind, hdet]
  rw [← (slip_forward_subB_lim fits _ _ _).eq_of_ok e2, e2, ok_bind, ok_bind,
    ← (slip_matrix_mulB_lim fits _ _).eq_of_ok e3, e3, ok_bind, ok_bind,
    ← (slip_back_subB_lim fits _ _).eq_of_ok e4]

end Slip
