import Verif.Proof.ColInit2
import Verif.Proof.ColMain
import Verif.SpecColamd

/-!
# COLAMD: the whole function
-/

namespace Slip.Colamd

set_option linter.unusedSectionVars false

variable [ar : Arith]
variable {n m : ℕ} {nnz Al Alen : ℤ} {A p : Arr Int} {K : Knobs}

theorem get_take {a : Arr Int} {k : ℕ} {i : ℤ} (h : i < k) : get (a.take k) i = get a i := by
  unfold Slip.get
  split_ifs with h0
  · rfl
  · rw [List.getElem?_take_of_lt (by omega)]

theorem initMem_I1 (hp : p.length = n + 1) (hA : Al ≤ A.length) (hal : 2 * nnz ≤ Al)
    (hn : 0 ≤ nnz) (hfit : Fits n m Al)
    (ip : ∀ t : ℤ, 0 ≤ t → t ≤ n → ∃ v, get p t = some v)
    (iA : ∀ t : ℤ, 0 ≤ t → t < nnz → ∃ v, get A t = some v) :
    I1 n m nnz Al (fun i => (get p i).getD 0) (fun i => (get A i).getD 0) 0 0
      (initMem n m Al A p) (fun f i => (get (initMem n m Al A p f) i).getD 0) := by
  have eA : ∀ i, 0 ≤ i → i < nnz → get (A.take Al.toNat) i = get A i :=
    fun i i0 i1 => get_take (by omega)
  refine ⟨⟨?_, ?_, hfit⟩, ?_, ?_, ?_, ?_, ?_⟩
  · intro f i hi
    cases f <;> simp only [DI] at hi <;> try omega
    · simp only [initMem]
      obtain ⟨v, hv⟩ := iA i hi.1 hi.2
      rw [eA i hi.1 hi.2, hv]; rfl
    · simp only [initMem]
      obtain ⟨v, hv⟩ := ip i hi.1 (by omega)
      rw [hv]; rfl
  · intro f
    cases f <;> simp only [initMem, cap, length_malloc, List.length_take] <;> omega
  · intro i i0 i1
    simp only [initMem]
    rw [eA i i0 i1]
  · intro i i0 i1; rfl
  · intro c c0 c1; omega
  · intro c c0 c1; omega
  · intro r r0 r1; omega

theorem colamd_ok (hp : p.length = n + 1) (hA : Alen ≤ A.length) (h : RectPattern n m nnz p A)
    (hal : 2 * nnz + n + 6 * (n + 1) + 4 * (m + 1) ≤ Alen)
    (hfit : Fits n m (Alen - (colSize n + rowSize m))) :
    ∃ q, colamd n m Alen A p K = .ok (true, q) ∧ ∃ τ : Equiv.Perm (Fin n), Holds q τ := by
  have ip : ∀ t : ℤ, 0 ≤ t → t ≤ n → ∃ v, get p t = some v := by
    intro t t0 t1
    by_cases ht : t = n
    · subst ht; exact ⟨_, h.e⟩
    · obtain ⟨a, b, ha, -⟩ := h.col t.toNat (by omega)
      rw [show ((t.toNat : ℕ) : ℤ) = t by omega] at ha
      exact ⟨a, ha⟩
  set P : ℤ → ℤ := fun i => (get p i).getD 0 with hP
  set A0 : ℤ → ℤ := fun i => (get A i).getD 0 with hA0
  have hm : Mat n m nnz P := ⟨by omega, by omega, by simp [hP, h.z], by simp [hP, h.e]⟩
  have hcol : ∀ c : ℤ, 0 ≤ c → c < n → P c ≤ P (c + 1) ∧
      (∀ t, P c ≤ t → t < P (c + 1) → ∃ r : ℕ, r < m ∧ get A t = some (r : ℤ)) ∧
      (∀ t t', P c ≤ t → t < P (c + 1) → P c ≤ t' → t' < P (c + 1) → get A t = get A t' →
        t = t') := by
    intro c c0 c1
    obtain ⟨a, b, ha, hb, hab, h1, h2⟩ := h.col c.toNat (by omega)
    rw [show ((c.toNat : ℕ) : ℤ) = c by omega] at ha hb
    have ea : P c = a := by simp [hP, ha]
    have eb : P (c + 1) = b := by simp [hP, hb]
    rw [ea, eb]
    exact ⟨hab, h1, h2⟩
  have mono : ∀ c, 0 ≤ c → c < (n : ℤ) → P c ≤ P (c + 1) := fun c c0 c1 => (hcol c c0 c1).1
  have hn0 : 0 ≤ nnz := by
    have := P_mono mono (le_refl 0) hm.n0 le_rfl
    rw [hm.z, hm.e] at this; exact this
  have hent : ∀ t, 0 ≤ t → t < nnz → ∃ r : ℕ, r < m ∧ get A t = some (r : ℤ) := by
    intro t t0 t1
    obtain ⟨c, c0, c1, a, b⟩ := cover (S := P) (i := t) hm.n0 (by rw [hm.z]; exact t0)
      (by rw [hm.e]; exact t1)
    exact (hcol c c0 c1).2.1 t a b
  have hv : Valid n m nnz P A0 := by
    refine ⟨mono, fun t t0 t1 => ?_⟩
    obtain ⟨r, hr, e⟩ := hent t t0 t1
    simp only [hA0, e, Option.getD_some]
    omega
  have hnd : NoDup n P A0 := by
    intro c c0 c1 t t' t0 t1 t0' t1' e
    obtain ⟨r, hr, er⟩ := (hcol c c0 c1).2.1 t t0 t1
    obtain ⟨r', hr', er'⟩ := (hcol c c0 c1).2.1 t' t0' t1'
    simp only [hA0, er, er', Option.getD_some] at e
    exact (hcol c c0 c1).2.2 t t' t0 t1 t0' t1' (by rw [er, er', e])
  unfold colamd
  rw [if_neg (by omega), if_neg (by omega), rd_eq h.e, ok_bind, if_neg (by omega), rd_eq h.z,
    ok_bind, if_neg (by simp), if_neg (by simp only [colSize, rowSize]; omega)]
  have hi := initMem_I1 (Al := Alen - (colSize n + rowSize m)) (m := m) (nnz := nnz) (A := A) hp
    (by simp only [colSize, rowSize]; omega) (by simp only [colSize, rowSize]; omega) hn0 hfit ip
    (fun t t0 t1 => by obtain ⟨r, _, e⟩ := hent t t0 t1; exact ⟨_, e⟩)
  have hck : ∀ c, 0 ≤ c → c < (n : ℤ) → ck (P (c + 1) - P c) = .ok (P (c + 1) - P c) := by
    intro c c0 c1
    have h1 := mono c c0 c1
    have h2 := P_mono mono (le_refl 0) c0 c1.le
    have h3 := P_mono mono (show 0 ≤ c + 1 by omega) (show c + 1 ≤ (n : ℤ) by omega) le_rfl
    rw [hm.z] at h2
    rw [hm.e] at h3
    exact hfit _ (by simp only [colSize, rowSize]; omega) (by simp only [colSize, rowSize]; omega)
  have hir := init_rows_cols_spec hm hnd (by simp only [colSize, rowSize]; omega) hck hi
  dsimp only
  cases hr : init_rows_cols (n : ℤ) m (initMem n m (Alen - (colSize n + rowSize m)) A p) with
  | error e =>
    rw [hr] at hir
    exact absurd hv hir.2
  | ok s =>
    rw [hr, wp_ok] at hir
    obtain ⟨-, F, ir⟩ := hir
    dsimp only
    have key : wp (do
        let (s, n2, maxDeg) ← init_scoring n m K s
        let nnz2 ← ck (2 * nnz)
        let s ← find_ordering n m (Alen - (colSize n + rowSize m)) n2 maxDeg nnz2 K.aggressive s
        let s ← order_children n s
        pure (true, s .p)) (fun z : Bool × Arr Int => z.1 = true ∧
          ∃ τ : Equiv.Perm (Fin n), Holds z.2 τ) noFail := by
      refine wp_bind_ok (init_scoring_spec hm.n0 hm.m0 ir) ?_
      rintro ⟨s1, n2, mx⟩ ⟨F1, rk, h1⟩
      dsimp only at h1 ⊢
      rw [hfit (2 * nnz) (by simp only [colSize, rowSize]; omega)
        (by simp only [colSize, rowSize]; omega), ok_bind]
      refine wp_bind_ok (find_ordering_spec hm.n0 hm.m0
        (by simp only [colSize, rowSize]; omega) h1) ?_
      rintro s2 ⟨L, F2, root, e, h2, h3⟩
      refine wp_bind_ok (order_children_spec h3 h2) ?_
      rintro s3 hτ
      rw [wp_pure]
      exact ⟨rfl, hτ⟩
    obtain ⟨⟨b, q⟩, e, rfl, hτ⟩ := wp_noFail key
    exact ⟨q, e, hτ⟩

theorem colamd_invalid {N M : ℤ} (hN : 0 ≤ N → p.length = N + 1) (hA : Alen ≤ A.length)
    (ip : 0 ≤ N → ∀ t : ℤ, 0 ≤ t → t ≤ N → ∃ v, get p t = some v)
    (iA : 0 ≤ N → ∀ v, get p N = some v → ∀ t : ℤ, 0 ≤ t → t < v → t < Alen → ∃ w, get A t = some w)
    (hfit : Fits N M (Alen - (colSize N + rowSize M)))
    (hck : ∀ c : ℤ, 0 ≤ c → c < N → ∀ a b, get p c = some a → get p (c + 1) = some b →
      ck (b - a) = .ok (b - a))
    (h : ¬ ∃ nnz, Acceptable N M nnz Alen p A) : colamd N M Alen A p K = .ok (false, p) := by
  unfold colamd
  by_cases h1 : M < 0
  · rw [if_pos h1]; rfl
  by_cases h2 : N < 0
  · rw [if_neg h1, if_pos h2]; rfl
  obtain ⟨nnz, hz⟩ := ip (by omega) N (by omega) le_rfl
  obtain ⟨p0, h0⟩ := ip (by omega) 0 le_rfl (by omega)
  rw [if_neg h1, if_neg h2, rd_eq hz, ok_bind]
  by_cases h3 : nnz < 0
  · rw [if_pos h3]; rfl
  rw [if_neg h3, rd_eq h0, ok_bind]
  by_cases h4 : p0 ≠ 0
  · rw [if_pos h4]; rfl
  rw [if_neg h4]
  by_cases h5 : 2 * nnz + N + colSize N + rowSize M > Alen
  · rw [if_pos h5]; rfl
  rw [if_neg h5]
  push Not at h4
  obtain ⟨n, rfl⟩ := Int.eq_ofNat_of_zero_le (show 0 ≤ N by omega)
  obtain ⟨m, rfl⟩ := Int.eq_ofNat_of_zero_le (show 0 ≤ M by omega)
  simp only [colSize, rowSize] at h5
  have hi := initMem_I1 (Al := Alen - (colSize n + rowSize m)) (m := m) (nnz := nnz) (A := A)
    (by have := hN (by omega); omega)
    (by simp only [colSize, rowSize]; omega) (by simp only [colSize, rowSize]; omega)
    (by omega) hfit (ip (by omega))
    (fun t t0 t1 => iA (by omega) nnz hz t t0 t1 (by omega))
  have hmat : Mat (n : ℤ) m nnz (fun i => (get p i).getD 0) :=
    ⟨by omega, by omega, by simp [h0, h4], by simp [hz]⟩
  have hinv := init_rows_cols_invalid hmat (fun hv => by
    refine h ⟨nnz, by omega, by omega, by omega, by rw [h0, h4], hz, by omega, ?_, ?_⟩
    · intro c c0 c1 a b ha hb
      have := hv.1 c c0 c1
      simp only [ha, hb, Option.getD_some] at this
      exact this
    · intro t t0 t1 r hr
      have := hv.2 t t0 t1
      simp only [hr, Option.getD_some] at this
      exact this) (fun c c0 c1 => by
    obtain ⟨a, ha⟩ := ip (by omega) c c0 (by omega)
    obtain ⟨b, hb⟩ := ip (by omega) (c + 1) (by omega) (by omega)
    simp only [ha, hb, Option.getD_some]
    exact hck c c0 c1 a b ha hb) hi
  dsimp only
  rw [hinv]; rfl

end Slip.Colamd
