import Verif.Props.Growth
import Verif.Proof.Sized
import Mathlib.Algebra.Order.Chebyshev

/-!
# The products of minors fit below Hadamard's bound
-/

namespace Slip

open Finset

variable {A : ℕ → ℕ → ℤ} {r c : ℕ → ℕ} {n : ℕ}

/-- The squared length of column `l`. -/
def colQ (A : ℕ → ℕ → ℤ) (n l : ℕ) : ℤ := ∑ i ∈ range n, A i l ^ 2

/-- The product of the squared lengths of all columns (those that are not zero). -/
def colP (A : ℕ → ℕ → ℤ) (n : ℕ) : ℤ := ∏ l ∈ range n, max 1 (colQ A n l)

theorem colQ_nonneg (l : ℕ) : 0 ≤ colQ A n l := sum_nonneg fun _ _ => sq_nonneg _

theorem one_le_prod_max (s : Finset ℕ) (f : ℕ → ℤ) : 1 ≤ ∏ l ∈ s, max 1 (f l) := by
  refine Finset.prod_induction _ (fun v => (1 : ℤ) ≤ v) ?_ (le_refl _) fun _ _ => le_max_left _ _
  intro a b ha hb
  exact one_le_mul_of_one_le_of_one_le ha hb

theorem prod_le_colP {ci : ℕ → ℕ} (hc : PermPair n ci c) {T : Finset ℕ} (hT : T ⊆ range n) :
    ∏ t ∈ T, colQ A n (c t) ≤ colP A n := by
  have h1 : ∏ t ∈ T, colQ A n (c t) ≤ ∏ t ∈ T, max 1 (colQ A n (c t)) :=
    prod_le_prod (fun _ _ => colQ_nonneg _) fun _ _ => le_max_right _ _
  refine h1.trans ?_
  have hinj : Set.InjOn c (T : Set ℕ) := by
    intro t ht u hu e
    have ht := mem_range.1 (hT ht)
    have hu := mem_range.1 (hT hu)
    rw [← hc.pr t ht, ← hc.pr u hu, e]
  rw [← prod_image (s := T) (g := c) (f := fun l => max 1 (colQ A n l)) hinj]
  have hsub : T.image c ⊆ range n := by
    intro l hl
    obtain ⟨t, ht, rfl⟩ := mem_image.1 hl
    exact mem_range.2 (hc.rlt t (mem_range.1 (hT ht)))
  unfold colP
  rw [← prod_sdiff hsub]
  refine le_mul_of_one_le_left (prod_nonneg fun _ _ => (zero_le_one.trans (le_max_left _ _))) ?_
  exact one_le_prod_max _ _

theorem one_le_colP : 1 ≤ colP A n := one_le_prod_max _ _

theorem lev_sq_le {s i : ℕ} {v : ℕ → ℤ} (hr : ∀ x < s, r x < n) (hi : i < n) :
    lev A r c s v i ^ 2 ≤ (∏ y ∈ range s, colQ A n (c y)) * ∑ i ∈ range n, v i ^ 2 := by
  let ρ : Fin (s + 1) → ℕ := fun x => if (x : ℕ) < s then r x else i
  have hρ : ∀ x, ρ x < n := by
    intro x
    simp only [ρ]
    split
    · exact hr _ (by assumption)
    · exact hi
  have hpos : 0 ≤ (∏ y ∈ range s, colQ A n (c y)) * ∑ i ∈ range n, v i ^ 2 :=
    mul_nonneg (prod_nonneg fun _ _ => colQ_nonneg _) (sum_nonneg fun _ _ => sq_nonneg _)
  by_cases hinj : Function.Injective ρ
  · have key : ∀ f : ℕ → ℤ, ∑ x, f (ρ x) ^ 2 ≤ ∑ i ∈ range n, f i ^ 2 := by
      intro f
      rw [← sum_image (s := univ) (g := ρ) (f := fun i => f i ^ 2) hinj.injOn]
      refine sum_le_sum_of_subset_of_nonneg ?_ fun _ _ _ => sq_nonneg _
      intro l hl
      obtain ⟨x, -, rfl⟩ := mem_image.1 hl
      exact mem_range.2 (hρ x)
    unfold lev
    refine (hadamard_int _).trans ?_
    rw [Fin.prod_univ_castSucc]
    refine mul_le_mul ?_ ?_ (sum_nonneg fun _ _ => sq_nonneg _)
      (prod_nonneg fun _ _ => colQ_nonneg _)
    · rw [prod_range]
      refine prod_le_prod (fun _ _ => sum_nonneg fun _ _ => sq_nonneg _) fun y _ => ?_
      have := key fun i => A i (c y)
      simpa [ρ, colQ] using this
    · have := key v
      simpa [ρ] using this
  · have h0 : lev A r c s v i = 0 := by
      unfold Function.Injective at hinj
      push Not at hinj
      obtain ⟨x, y, e, hne⟩ := hinj
      unfold lev
      refine Matrix.det_zero_of_row_eq hne ?_
      funext z
      simp only [Matrix.of_apply]
      simp only [ρ] at e
      rw [e]
    rw [h0]
    simpa using hpos

theorem lev_col_le {ci : ℕ → ℕ} (hc : PermPair n ci c) {s k i : ℕ} (hr : ∀ x < n, r x < n) (hsk : s ≤ k)
    (hk : k < n) (hi : i < n) : lev A r c s (fun i => A i (c k)) i ^ 2 ≤ colP A n := by
  refine (lev_sq_le (fun x hx => hr x (by omega)) hi).trans ?_
  have := prod_le_colP (A := A) hc (T := insert k (range s)) (by
    intro t ht
    rcases mem_insert.1 ht with rfl | ht
    · exact mem_range.2 hk
    · have := mem_range.1 ht
      exact mem_range.2 (by omega))
  rw [prod_insert (by simp; omega)] at this
  rw [mul_comm]
  exact this

theorem lev_vec_le {ci : ℕ → ℕ} (hc : PermPair n ci c) {s i : ℕ} {v : ℕ → ℤ} {β : ℤ}
    (hr : ∀ x < n, r x < n) (hs : s ≤ n) (hi : i < n) (hβ : ∑ i ∈ range n, v i ^ 2 ≤ β) :
    lev A r c s v i ^ 2 ≤ colP A n * β := by
  refine (lev_sq_le (fun x hx => hr x (by omega)) hi).trans ?_
  exact mul_le_mul (prod_le_colP hc (range_mono hs)) hβ (sum_nonneg fun _ _ => sq_nonneg _)
    (zero_le_one.trans one_le_colP)

theorem piv_sq_le {ci : ℕ → ℕ} (hc : PermPair n ci c) {g : ℕ} (hr : ∀ x < n, r x < n) (hg : g ≤ n) :
    piv A r c g ^ 2 ≤ colP A n := by
  cases g with
  | zero => simpa using one_le_colP
  | succ g =>
    rw [piv_succ]
    exact lev_col_le hc hr (le_refl _) hg (hr g hg)

/-- The factorization: products of two minors. -/
theorem sizeOk_fact {fits : Int → Bool} (hf : ∀ v : ℤ, v ^ 2 ≤ colP A n ^ 2 → fits v = true)
    {ci : ℕ → ℕ} (hc : PermPair n ci c) (hr : ∀ x < n, r x < n) {k : ℕ} (hk : k < n) :
    SizeOk fits A r c (· < n) k (fun i => A i (c k)) := by
  have hP := one_le_colP (A := A) (n := n)
  have mul : ∀ a b : ℤ, a ^ 2 ≤ colP A n → b ^ 2 ≤ colP A n → fits (a * b) = true := by
    intro a b ha hb
    refine hf _ ?_
    rw [mul_pow, sq (colP A n)]
    exact mul_le_mul ha hb (sq_nonneg _) (by omega)
  refine ⟨fun s g i hs hg hi => ?_, fun s i hs hi => ?_⟩
  · exact mul _ _ (lev_col_le hc hr hs hk hi) (piv_sq_le hc hr (by omega))
  · exact mul _ _ (lev_col_le hc hr (le_refl _) (by omega) hi)
      (lev_col_le hc hr (by omega) hk (hr s (by omega)))

theorem Z_sq_le {pi ci : ℕ → ℕ} (hr : PermPair n pi r) (hc : PermPair n ci c) (hp : piv A r c n ≠ 0)
    {b Z : ℕ → ℤ} (hZ : ∀ i < n, ∑ l ∈ range n, A i l * Z l = piv A r c n * b i) {β : ℤ}
    (hβ : ∑ i ∈ range n, b i ^ 2 ≤ β) {l : ℕ} (hl : l < n) : Z l ^ 2 ≤ colP A n * β := by
  have hdet := piv_eq_sign_det A r c n hr.toPerm hc.toPerm (fun _ => rfl) fun _ => rfl
  set M := toMat A n with hM
  set ε : ℤ := (Equiv.Perm.sign hr.toPerm : ℤ) * (Equiv.Perm.sign hc.toPerm : ℤ) with hε
  have hd : M.det ≠ 0 := by
    intro h
    rw [h, mul_zero] at hdet
    exact hp hdet
  have hε2 : ε ^ 2 = 1 := by
    rw [hε, mul_pow, ← Units.val_pow_eq_pow_val, ← Units.val_pow_eq_pow_val, Int.units_sq, Int.units_sq]
    simp
  have hsol : (fun x : Fin n => Z x - ε * M.cramer (fun i : Fin n => b i) x) = 0 := by
    refine Matrix.eq_zero_of_mulVec_eq_zero hd ?_
    have h1 : M.mulVec (fun x : Fin n => Z x) = fun i : Fin n => piv A r c n * b i := by
      funext i
      have := hZ i i.2
      rw [sum_range] at this
      simpa [Matrix.mulVec, dotProduct, hM, toMat] using this
    have h2 := Matrix.mulVec_cramer M fun i : Fin n => b i
    have h3 : (fun x : Fin n => Z x - ε * M.cramer (fun i : Fin n => b i) x) =
        (fun x : Fin n => Z x) - ε • M.cramer (fun i : Fin n => b i) := by
      funext x; simp
    rw [h3, Matrix.mulVec_sub, Matrix.mulVec_smul, h1, h2]
    funext i
    simp only [Pi.sub_apply, Pi.smul_apply, smul_eq_mul, Pi.zero_apply]
    rw [hdet]; ring
  have hz : Z l = ε * M.cramer (fun i : Fin n => b i) ⟨l, hl⟩ := by
    have := congrFun hsol ⟨l, hl⟩
    simp only [Pi.zero_apply] at this
    omega
  rw [hz, mul_pow, hε2, one_mul]
  refine (cramer_bound M _ _).trans ?_
  have hcol : ∀ x : Fin n, colSq M x = colQ A n x := by
    intro x
    unfold colSq colQ
    rw [sum_range]; rfl
  refine mul_le_mul ?_ ?_ (sum_nonneg fun _ _ => sq_nonneg _) (zero_le_one.trans one_le_colP)
  · have h1 : ∏ x ∈ univ.erase (⟨l, hl⟩ : Fin n), colSq M x ≤
        ∏ x ∈ univ.erase (⟨l, hl⟩ : Fin n), max 1 (colSq M x) :=
      prod_le_prod (fun _ _ => colSq_nonneg _ _) fun _ _ => le_max_right _ _
    refine h1.trans ?_
    have h2 : colP A n = ∏ x : Fin n, max 1 (colSq M x) := by
      unfold colP
      rw [prod_range]
      exact prod_congr rfl fun x _ => by rw [hcol]
    rw [h2, ← prod_erase_mul univ _ (mem_univ (⟨l, hl⟩ : Fin n))]
    refine le_mul_of_one_le_right (prod_nonneg fun _ _ => zero_le_one.trans (le_max_left _ _))
      (le_max_left _ _)
  · rw [sum_range] at hβ
    exact hβ

/-- The solve: products of two minors and sums of at most `n` of them. -/
theorem solveFits {fits : Int → Bool} {β : ℤ} (hβ1 : 1 ≤ β)
    (hf : ∀ v : ℤ, v ^ 2 ≤ n ^ 2 * (colP A n ^ 2 * β) → fits v = true)
    {pi ci : ℕ → ℕ} (hr : PermPair n pi r) (hc : PermPair n ci c) (hp : piv A r c n ≠ 0) (hn : 0 < n)
    {b : ℕ → ℤ} (hβ : ∑ i ∈ range n, b i ^ 2 ≤ β) : SolveFits fits A r c n b := by
  have hP := one_le_colP (A := A) (n := n)
  have hPβ : 1 ≤ colP A n ^ 2 * β := by
    have : 1 ≤ colP A n ^ 2 := one_le_pow₀ hP
    nlinarith
  have hn1 : (1 : ℤ) ≤ (n : ℤ) ^ 2 := one_le_pow₀ (by exact_mod_cast hn)
  have one : ∀ v : ℤ, v ^ 2 ≤ colP A n ^ 2 * β → fits v = true := fun v hv =>
    hf v (hv.trans (le_mul_of_one_le_left (by omega) hn1))
  have sqm : ∀ a b : ℤ, a ^ 2 ≤ colP A n → b ^ 2 ≤ colP A n * β → (a * b) ^ 2 ≤ colP A n ^ 2 * β := by
    intro a b ha hb
    rw [mul_pow, sq (colP A n), mul_assoc]
    exact mul_le_mul ha hb (sq_nonneg _) (by omega)
  have hV : ∀ t < n, ∀ s < n, lev A r c s (fun i => A i (c t)) (r s) ^ 2 ≤ colP A n := by
    intro t ht s hs
    rcases Nat.lt_or_ge t s with h | h
    · rw [lev_col_eq_zero A r c h]
      omega
    · exact lev_col_le hc hr.rlt h ht (hr.rlt s hs)
  refine ⟨⟨fun s g i hs hg hi => ?_, fun s i hs hi => ?_⟩, fun Z hZ => ?_⟩
  · obtain ⟨s', hs', rfl⟩ := hi
    rw [mul_comm]
    exact one _ (sqm _ _ (piv_sq_le hc hr.rlt hg) (lev_vec_le hc hr.rlt hs (hr.rlt s' hs') hβ))
  · obtain ⟨s', hs', rfl⟩ := hi
    exact one _ (sqm _ _ (lev_col_le hc hr.rlt (le_refl _) hs (hr.rlt s' hs'))
      (lev_vec_le hc hr.rlt (by omega) (hr.rlt s hs) hβ))
  · have hZ2 : ∀ t < n, Z (c t) ^ 2 ≤ colP A n * β := fun t ht =>
      Z_sq_le hr hc hp hZ hβ (hc.rlt t ht)
    refine ⟨fun t ht => ?_, fun t ht s hs => ?_, fun j hj s hs => ?_⟩
    · have := sqm 1 (Z (c t)) (by simpa using hP) (hZ2 t ht)
      rw [one_mul] at this
      exact one _ this
    · exact one _ (sqm _ _ (hV t ht s hs) (hZ2 t ht))
    · refine hf _ ?_
      refine (sq_sum_le_card_mul_sum_sq).trans ?_
      rw [card_range]
      have h1 : ∑ t ∈ range j, (lev A r c s (fun i => A i (c t)) (r s) * Z (c t)) ^ 2 ≤
          ∑ t ∈ range j, colP A n ^ 2 * β := by
        refine sum_le_sum fun t ht => ?_
        have := mem_range.1 ht
        exact sqm _ _ (hV t (by omega) s hs) (hZ2 t (by omega))
      rw [sum_const, card_range, nsmul_eq_mul] at h1
      have hjn : (j : ℤ) ≤ n := by exact_mod_cast hj
      have hj0 : (0 : ℤ) ≤ j := by positivity
      calc (j : ℤ) * ∑ t ∈ range j, (lev A r c s (fun i => A i (c t)) (r s) * Z (c t)) ^ 2
          ≤ j * (j * (colP A n ^ 2 * β)) := mul_le_mul_of_nonneg_left h1 hj0
        _ = j ^ 2 * (colP A n ^ 2 * β) := by ring
        _ ≤ n ^ 2 * (colP A n ^ 2 * β) := by
          refine mul_le_mul_of_nonneg_right ?_ (by omega)
          exact pow_le_pow_left₀ hj0 hjn 2

end Slip
