import Verif.Proof.Machine4
import Verif.Proof.Analyze
import Verif.Proof.ColLe
import Verif.Proof.AmdLe
import Mathlib.Data.Int.Interval

/-!
# 64-bit arithmetic: the analysis
-/

namespace Slip.M64

/-- A column of a pattern has at most `n` entries. -/
theorem col_le {n : ℕ} {i : Arr Int} {a b : ℤ} (hab : a ≤ b)
    (h1 : ∀ t, a ≤ t → t < b → ∃ r : ℕ, r < n ∧ get i t = some (r : ℤ))
    (h2 : ∀ t t', a ≤ t → t < b → a ≤ t' → t' < b → get i t = get i t' → t = t') : b - a ≤ n := by
  have key : (Finset.Ico a b).card ≤ (Finset.Ico (0 : ℤ) n).card := by
    refine Finset.card_le_card_of_injOn (fun t => (get i t).getD 0) ?_ ?_
    · intro t ht
      have ht' := Finset.mem_Ico.mp (Finset.mem_coe.mp ht)
      obtain ⟨r, hr, e⟩ := h1 t ht'.1 ht'.2
      simp only [e, Option.getD_some, Finset.coe_Ico, Set.mem_Ico]
      omega
    · intro t ht t' ht' e
      have u := Finset.mem_Ico.mp (Finset.mem_coe.mp ht)
      have u' := Finset.mem_Ico.mp (Finset.mem_coe.mp ht')
      obtain ⟨r, hr, er⟩ := h1 t u.1 u.2
      obtain ⟨r', hr', er'⟩ := h1 t' u'.1 u'.2
      refine h2 t t' u.1 u.2 u'.1 u'.2 ?_
      simp only [er, er', Option.getD_some] at e ⊢
      rw [e]
  rw [Int.card_Ico, Int.card_Ico] at key
  omega

/-- A pattern has at most `n` entries per column. -/
theorem ptr_le {n : ℕ} {p i : Arr Int} (h : IsPattern n p i) :
    ∀ j : ℕ, j ≤ n → ∃ a, get p j = some a ∧ 0 ≤ a ∧ a ≤ j * n
  | 0, _ => ⟨0, h.p0, le_refl _, by simp⟩
  | j + 1, hj => by
    obtain ⟨v, hv, hv0, hv1⟩ := ptr_le h j (by omega)
    obtain ⟨a, b, h1, h2, h3, h4, h5⟩ := h.col j (by omega)
    obtain rfl := Option.some.inj (hv.symm.trans h1)
    have := col_le h3 h4 h5
    refine ⟨b, by push_cast; exact h2, by omega, ?_⟩
    push_cast
    linarith

theorem nnz_le {n : ℕ} {A : Mat} (hk : A.kind = .csc) (hn : A.n = n)
    (hp : IsPattern n (deref A.p) (deref A.i)) :
    ∃ z, SLIP_matrix_nnz true (some A) = .ok z ∧ 0 ≤ z ∧ z ≤ n * n ∧ get (deref A.p) n = some z := by
  obtain ⟨z, hz, h0, h1⟩ := ptr_le hp n (le_refl _)
  refine ⟨z, ?_, h0, h1, hz⟩
  unfold SLIP_matrix_nnz
  simp only [Bool.not_true, Bool.false_eq_true, if_false, hk]
  cases hAp : A.p with
  | none => rw [hAp] at hz; simp [deref, Slip.get] at hz
  | some p =>
    rw [hAp] at hz
    simp only [hn]
    rw [if_neg (by omega)]
    exact rd_eq hz

theorem clamp_eq {n nz : Int} (hn : 0 ≤ n ∧ n ≤ 2 ^ 29) (hz : -1 ≤ nz) :
    clampNnz64 n nz nz = .ok (clampNnz n nz nz) := by
  unfold clampNnz64 clampNnz
  have key : ∀ v : Int, -1 ≤ v →
      (if v < n then i64 (v + n) else pure v) = .ok (if v < n then v + n else v) := by
    intro v hv
    by_cases h : v < n
    · rw [if_pos h, if_pos h, i64_eq (by omega) (by omega)]
    · rw [if_neg h, if_neg h]; rfl
  have hnn : 0 ≤ n * n := mul_nonneg hn.1 hn.1
  by_cases h : nz > n * n
  · simp only [if_pos h]
    rw [key _ (by omega), ok_bind, ok_bind]
    rfl
  · simp only [if_neg h]
    rw [key _ (by omega), ok_bind, ok_bind]
    rfl

/-- No operation of COLAMD overflows. -/
theorem fits64 {n m Al : ℤ} (h : n + m + Al < 2 ^ 60) : @Colamd.Fits Arith.bits64 n m Al := by
  intro v h1 h2
  exact i64_eq (by omega) (by omega)

theorem colamd64_eq {n m : ℕ} {nnz Alen : ℤ} {A p : Arr Int} {K : Colamd.Knobs} (hp : p.length = n + 1)
    (hA : Alen ≤ A.length) (h : Colamd.RectPattern n m nnz p A)
    (hal : 2 * nnz + n + 6 * (n + 1) + 4 * (m + 1) ≤ Alen) (hs : Alen < 2 ^ 60) :
    Colamd.colamd (ar := Arith.bits64) n m Alen A p K = Colamd.colamd (ar := Arith.exact) n m Alen A p K := by
  obtain ⟨q, e, -⟩ := Colamd.colamd_ok (ar := Arith.bits64) (K := K) hp hA h hal
    (fits64 (by simp only [Colamd.colSize, Colamd.rowSize]; omega))
  exact (Colamd.colamd_le ..).eq (by rw [e]; intro h; cases h)

theorem agree_analyze {O : Orderings} {opt : Option Options} {n : ℕ} (hO : AmdOk O opt n) (hn29 : (n : ℤ) ≤ 2 ^ 29)
    {A : Mat} (hk : A.kind = .csc) (hn : A.n = n) (hp : IsPattern n (deref A.p) (deref A.i))
    (hi : A.i ≠ none) : analyzeBody64 O A opt = analyzeBody O A opt := by
  obtain ⟨z, hz, z0, z1, hzg⟩ := nnz_le hk hn hp
  have hnn : (n : Int) * n ≤ 2 ^ 58 := by nlinarith
  have hn' : (0 : Int) ≤ n ∧ (n : Int) ≤ 2 ^ 29 := ⟨by omega, hn29⟩
  obtain ⟨S, eS, -⟩ := analyzeBody_spec hO hk hn hp hi
  refine Agree.eq (Q := fun _ => True) ?_ (by rw [eS]; intro h; cases h)
  unfold analyzeBody64 analyzeBody
  dsimp only
  refine Agree.bind (P := fun v => v = z) (by rw [hz]; exact Agree.ok _ rfl) ?_
  rintro _ rfl
  rw [hn]
  refine agree_i64 (by omega) ?_
  refine agree_malloc64 (by omega) ?_
  have fin : ∀ r : Arr Int × Int, -1 ≤ r.2 → Agree (do
      let (lnz, unz) ← clampNnz64 n r.2 r.2
      pure ({ q := r.1, lnz := lnz, unz := unz } : Analysis))
      (pure { q := r.1, lnz := (clampNnz n r.2 r.2).1, unz := (clampNnz n r.2 r.2).2 }) (fun _ => True) := by
    intro r hr
    rw [clamp_eq hn' hr, ok_bind]
    exact Agree.pure _ trivial
  cases ho : optOrder opt with
  | none =>
    refine Agree.bind (P := fun r : Arr Int × Int => -1 ≤ r.2) ?_ fun r hr => fin r hr
    dsimp only
    refine agree_same fun q => ?_
    refine agree_i64 (by omega) ?_
    exact Agree.pure _ (by dsimp only; omega)
  | amd =>
    refine Agree.bind (P := fun r : Arr Int × Int => -1 ≤ r.2) ?_ fun r hr => fin r hr
    obtain ⟨hn0, hM⟩ := hO ho
    have hpp : A.p = some (deref A.p) := by
      cases hAp : A.p with
      | none => have := hp.p0; rw [hAp] at this; simp [deref, Slip.get] at this
      | some p => rfl
    have hsq : Amd.SquarePattern n (deref A.p) (deref A.i) := ⟨hp.p0, fun j hj => by
      obtain ⟨a, b, h1, h2, h3, h4, -⟩ := hp.col j hj
      exact ⟨a, b, h1, h2, h3, h4⟩⟩
    have hii : A.i = some (deref A.i) := by
      cases hAi : A.i with
      | none => exact absurd hAi hi
      | some p => rfl
    obtain ⟨st, q, lnz, e, h⟩ := Amd.amd_order_pattern (ar := Arith.bits64) (P := malloc Int ((n : ℤ) + 1))
      ⟨true, true, true⟩ (O.amdKnobs n) (Amd.room_bits64 (by omega) hn29) hn0 hsq (by rw [length_malloc]; omega)
    have e' : Amd.amd_order (ar := Arith.exact) n (deref A.p) (deref A.i) (malloc Int ((n : ℤ) + 1))
        ⟨true, true, true⟩ (O.amdKnobs n) = .ok (st, q, lnz) := by
      rw [← (Amd.amd_order_le ..).eq (by rw [e]; intro h; cases h), e]
    have r64 : analyzeAmd (ar := Arith.bits64) O A (malloc Int ((n : ℤ) + 1)) = .ok (q, lnz) := by
      unfold analyzeAmd
      rw [hpp, hii]
      dsimp only
      rw [hn, hM, e, ok_bind]; rfl
    have rex : analyzeAmd (ar := Arith.exact) O A (malloc Int ((n : ℤ) + 1)) = .ok (q, lnz) := by
      unfold analyzeAmd
      rw [hpp, hii]
      dsimp only
      rw [hn, hM, e', ok_bind]; rfl
    dsimp only
    rw [r64, rex]
    refine Agree.ok _ ?_
    rcases h with ⟨-, -, -, h, -⟩ | ⟨-, -, h⟩ <;> dsimp only <;> omega
  | colamd =>
    refine Agree.bind (P := fun r : Arr Int × Int => -1 ≤ r.2) ?_ fun r hr => fin r hr
    dsimp only
    refine agree_i64 (by omega) ?_
    refine agree_i64 (by omega) ?_
    refine agree_i64 (by omega) ?_
    refine agree_i64 (by omega) ?_
    refine agree_i64 (by omega) ?_
    refine agree_malloc64 (by omega) ?_
    obtain ⟨q, A2, e1, e2, l1, l2, hrect⟩ := colamd_copy hp hzg z0
    rw [e1, ok_bind, ok_bind, e2, ok_bind, ok_bind,
      colamd64_eq (by omega) (by rw [l2]) hrect (by omega) (by omega)]
    refine agree_same fun r => ?_
    refine agree_i64 (by omega) ?_
    exact Agree.pure _ (by dsimp only; omega)

end Slip.M64
