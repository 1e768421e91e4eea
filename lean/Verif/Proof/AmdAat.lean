import Verif.Proof.AmdTop

/-!
# AMD: the entries of A+A'

The loops of AMD_aat and AMD_1 visit a fixed list of pairs, which depends only on the matrix.
-/

namespace Slip.Amd

open Slip.Colamd (seg mem_seg seg_congr seg_succ length_seg seg_zero wp_seg)

variable [Arith]

/-- Add all pairs. -/
def runL {σ : Type} (add : Int → Int → σ → C σ) (l : List (ℤ × ℤ)) (s : σ) : C σ :=
  l.foldlM (fun s e => add e.1 e.2 s) s

theorem runL_nil {σ : Type} (add : Int → Int → σ → C σ) (s : σ) : runL add [] s = .ok s := rfl

theorem runL_cons {σ : Type} (add : Int → Int → σ → C σ) (e : ℤ × ℤ) (l : List (ℤ × ℤ)) (s : σ) :
    runL add (e :: l) s = (add e.1 e.2 s >>= fun s => runL add l s) := by
  unfold runL; rw [List.foldlM_cons]

theorem runL_append {σ : Type} (add : Int → Int → σ → C σ) (l l' : List (ℤ × ℤ)) (s : σ) :
    runL add (l ++ l') s = (runL add l s >>= fun s => runL add l' s) := by
  unfold runL; rw [List.foldlM_append]

/-- A square matrix with sorted columns and without duplicates: the column pointers `a`, the row indices `A`. -/
structure SM (n nz : ℤ) (a A : ℤ → ℤ) : Prop where
  z : a 0 = 0
  e : a n = nz
  mono : ∀ j, 0 ≤ j → j < n → a j ≤ a (j + 1)
  rg : ∀ p, 0 ≤ p → p < nz → 0 ≤ A p ∧ A p < n
  st : ∀ j, 0 ≤ j → j < n → ∀ p q, a j ≤ p → p < q → q < a (j + 1) → A p < A q

variable {n nz : ℤ} {a A : ℤ → ℤ}

theorem mono_le (mono : ∀ j, 0 ≤ j → j < n → a j ≤ a (j + 1)) {i : ℤ} (hi : 0 ≤ i) {j : ℤ} (hij : i ≤ j)
    (hj : j ≤ n) : a i ≤ a j := by
  obtain ⟨d, rfl⟩ : ∃ d : ℕ, j = i + d := ⟨(j - i).toNat, by omega⟩
  induction d with
  | zero => simp
  | succ d ih =>
    have h1 := ih (by omega) (by push_cast at hj; omega)
    have h2 := mono (i + d) (by omega) (by push_cast at hj; omega)
    push_cast
    rw [show i + ((d : ℤ) + 1) = i + d + 1 by ring]
    omega

theorem SM.bd (h : SM n nz a A) {j : ℤ} (h0 : 0 ≤ j) (h1 : j < n) : 0 ≤ a j ∧ a j ≤ a (j + 1) ∧ a (j + 1) ≤ nz := by
  have := mono_le h.mono le_rfl h0 (by omega)
  have h2 := mono_le h.mono (show 0 ≤ j + 1 by omega) (show j + 1 ≤ n by omega) le_rfl
  rw [h.z] at this
  rw [h.e] at h2
  exact ⟨this, h.mono j h0 h1, h2⟩

/-! ## The lower part of a column -/

section pure
variable (a A : ℤ → ℤ)

/-- The pairs of `lowScan`. -/
def lowL (k j pj2 : ℤ) : ℕ → ℤ → List (ℤ × ℤ) × ℤ
  | 0, pj => ([], pj)
  | f + 1, pj =>
    if pj < pj2 then
      if A pj < k then ((A pj, j) :: (lowL k j pj2 f (pj + 1)).1, (lowL k j pj2 f (pj + 1)).2)
      else if A pj = k then ([], pj + 1) else ([], pj)
    else ([], pj)

/-- The pairs of `upScan`. -/
def upL (k p2 : ℤ) : ℕ → ℤ → (ℤ → ℤ) → List (ℤ × ℤ) × (ℤ → ℤ) × ℤ
  | 0, p, T => ([], T, p)
  | f + 1, p, T =>
    if p < p2 then
      if A p < k then
        let r1 := lowL A k (A p) (a (A p + 1)) ((a (A p + 1) - T (A p)).toNat + 1) (T (A p))
        let r := upL k p2 f (p + 1) (Function.update T (A p) r1.2)
        ((A p, k) :: (r1.1 ++ r.1), r.2.1, r.2.2)
      else if A p = k then ([], T, p + 1) else ([], T, p)
    else ([], T, p)

/-- The pairs of `scanUpper`. -/
def upperL : ℕ → List (ℤ × ℤ) × (ℤ → ℤ)
  | 0 => ([], fun _ => 0)
  | k + 1 =>
    let r := upperL k
    let u := upL a A k (a (k + 1)) ((a (k + 1) - a k).toNat + 1) (a k) r.2
    (r.1 ++ u.1, Function.update u.2.1 k u.2.2)

/-- The pairs of `scanRest`. -/
def restL (T : ℤ → ℤ) : ℕ → List (ℤ × ℤ)
  | 0 => []
  | j + 1 => restL T j ++ (seg A (T j) (a (j + 1) - T j)).map (·, (j : ℤ))

/-- The pairs of `scanAAT`. -/
def aatL (n : ℕ) : List (ℤ × ℤ) := (upperL a A n).1 ++ restL a A (upperL a A n).2 n

end pure

/-! ## The program visits these pairs -/

section prog
variable {σ : Type} {add : Int → Int → σ → C σ} {Ap Ai : Arr Int}

theorem lowScan_eq {k j pj2 : ℤ} : ∀ (fuel : ℕ) (pj : ℤ) (s : σ), (∀ p, pj ≤ p → p < pj2 → get Ai p = some (A p)) →
    (pj2 - pj).toNat < fuel → lowScan Ai add k j pj2 fuel pj s =
      (runL add (lowL A k j pj2 fuel pj).1 s >>= fun s => pure (s, (lowL A k j pj2 fuel pj).2))
  | 0, _, _, _, hf => by omega
  | fuel + 1, pj, s, hA, hf => by
    unfold lowScan lowL
    by_cases hp : pj < pj2
    · rw [if_pos hp, if_pos hp, rd_eq (hA pj le_rfl hp), ok_bind]
      by_cases hk : A pj < k
      · rw [if_pos hk, if_pos hk, runL_cons, bind_assoc]
        congr 1
        funext s
        exact lowScan_eq fuel (pj + 1) s (fun p h1 h2 => hA p (by omega) h2) (by omega)
      · rw [if_neg hk, if_neg hk]
        by_cases hk2 : A pj = k
        · rw [if_pos hk2, if_pos hk2]; rfl
        · rw [if_neg hk2, if_neg hk2]; rfl
    · rw [if_neg hp, if_neg hp]; rfl

theorem lowL_ge {k j pj2 : ℤ} : ∀ (fuel : ℕ) (pj : ℤ), pj ≤ (lowL A k j pj2 fuel pj).2
  | 0, _ => le_rfl
  | fuel + 1, pj => by
    unfold lowL
    have := lowL_ge (k := k) (j := j) (pj2 := pj2) fuel (pj + 1)
    split_ifs <;> dsimp only <;> omega

theorem upScan_eq (hSM : SM n nz a A) (hAp : ∀ j, 0 ≤ j → j ≤ n → get Ap j = some (a j))
    (hAi : ∀ p, 0 ≤ p → p < nz → get Ai p = some (A p)) {k : ℤ} (k1 : k < n) :
    ∀ (fuel : ℕ) (p : ℤ) (Tp : Arr Int) (T : ℤ → ℤ), a k ≤ p → 0 ≤ k → n ≤ Tp.length →
      (∀ j, 0 ≤ j → j < k → get Tp j = some (T j) ∧ a j ≤ T j) → (a (k + 1) - p).toNat < fuel →
      ∃ Tp' : Arr Int, Tp'.length = Tp.length ∧
        (∀ j, 0 ≤ j → j < k → get Tp' j = some ((upL a A k (a (k + 1)) fuel p T).2.1 j) ∧
          a j ≤ (upL a A k (a (k + 1)) fuel p T).2.1 j) ∧ p ≤ (upL a A k (a (k + 1)) fuel p T).2.2 ∧
        ∀ s : σ, upScan Ap Ai add k (a (k + 1)) fuel p s Tp = (runL add (upL a A k (a (k + 1)) fuel p T).1 s >>= fun s =>
          pure (s, Tp', (upL a A k (a (k + 1)) fuel p T).2.2))
  | 0, _, _, _, _, _, _, _, hf => by omega
  | fuel + 1, p, Tp, T, hp0, k0, hl, hT, hf => by
    have hbk := hSM.bd k0 k1
    unfold upScan upL
    by_cases hp : p < a (k + 1)
    · rw [if_pos hp, rd_eq (hAi p (by omega) (by omega))]
      have hr := hSM.rg p (by omega) (by omega)
      by_cases hk : A p < k
      · rw [if_pos hk]
        dsimp only
        have hTj := hT (A p) hr.1 hk
        have hbj := hSM.bd hr.1 hr.2
        have hge := lowL_ge (A := A) (k := k) (j := A p) (pj2 := a (A p + 1)) ((a (A p + 1) - T (A p)).toNat + 1) (T (A p))
        have hgb := get_bounds hTj.1
        set r1 := lowL A k (A p) (a (A p + 1)) ((a (A p + 1) - T (A p)).toNat + 1) (T (A p)) with hr1
        obtain ⟨Tp', q1, q2, q4, q3⟩ := upScan_eq hSM hAp hAi k1 fuel (p + 1) (upd Tp (A p) r1.2)
          (Function.update T (A p) r1.2) (by omega) k0 (by rw [length_upd]; exact hl) (by
            intro j j0 j1
            rw [get_upd hgb.1 hgb.2, Function.update_apply]
            by_cases hj : j = A p
            · rw [if_pos hj, if_pos hj]; exact ⟨rfl, by rw [hj]; omega⟩
            · rw [if_neg hj, if_neg hj]; exact hT j j0 j1) (by omega)
        refine ⟨Tp', by rw [q1, length_upd], q2, by omega, ?_⟩
        intro s
        rw [if_pos hp, ok_bind, if_pos hk, runL_cons, bind_assoc]
        congr 1
        funext s1
        rw [rd_eq (hAp _ (by omega) (by omega)), ok_bind, rd_eq hTj.1, ok_bind,
          lowScan_eq (A := A) _ _ _ (fun q h1 h2 => hAi q (by omega) (by omega)) (by omega), ← hr1, runL_append, bind_assoc,
          bind_assoc]
        congr 1
        funext s2
        rw [pure_bind]
        dsimp only
        rw [wr_eq hgb.1 hgb.2, ok_bind]
        exact q3 s2
      · rw [if_neg hk]
        by_cases hk2 : A p = k
        · rw [if_pos hk2]
          refine ⟨Tp, rfl, hT, by dsimp only; omega, fun s => ?_⟩
          rw [if_pos hp, ok_bind, if_neg hk, if_pos hk2]; rfl
        · rw [if_neg hk2]
          refine ⟨Tp, rfl, hT, le_rfl, fun s => ?_⟩
          rw [if_pos hp, ok_bind, if_neg hk, if_neg hk2]; rfl
    · rw [if_neg hp]
      refine ⟨Tp, rfl, hT, le_rfl, fun s => ?_⟩
      rw [if_neg hp]; rfl

theorem forCnt_snoc {f : ℤ → σ → C σ} : ∀ (m : ℕ) (lo : ℤ) (s : σ),
    forCnt (m + 1) lo s f = (forCnt m lo s f >>= fun s => f (lo + m) s)
  | 0, lo, s => by
    show (f lo s >>= fun s => .ok s) = (Except.ok s >>= fun s => f (lo + (0 : ℕ)) s)
    rw [ok_bind]
    simp only [Nat.cast_zero, add_zero]
    exact bind_pure _
  | m + 1, lo, s => by
    show (f lo s >>= fun s => forCnt (m + 1) (lo + 1) s f) = ((f lo s >>= fun s => forCnt m (lo + 1) s f) >>= _)
    rw [bind_assoc]
    congr 1
    funext s
    rw [forCnt_snoc m (lo + 1) s]
    congr 1
    funext s
    congr 1
    push_cast; ring

theorem forRange_snoc {f : ℤ → σ → C σ} {lo hi : ℤ} (h : lo ≤ hi) (s : σ) :
    forRange lo (hi + 1) s f = (forRange lo hi s f >>= fun s => f hi s) := by
  unfold forRange
  rw [show (hi + 1 - lo).toNat = (hi - lo).toNat + 1 by omega, forCnt_snoc,
    show lo + ((hi - lo).toNat : ℤ) = hi by omega]

theorem scanUpper_eq (hSM : SM n nz a A) (hAp : ∀ j, 0 ≤ j → j ≤ n → get Ap j = some (a j))
    (hAi : ∀ p, 0 ≤ p → p < nz → get Ai p = some (A p)) {Tp : Arr Int} (hl : n ≤ Tp.length) : ∀ (k : ℕ), (k : ℤ) ≤ n →
    ∃ Tp' : Arr Int, Tp'.length = Tp.length ∧
      (∀ j, 0 ≤ j → j < (k : ℤ) → get Tp' j = some ((upperL a A k).2 j) ∧ a j ≤ (upperL a A k).2 j) ∧
      ∀ s : σ, scanUpper k Ap Ai add s Tp = (runL add (upperL a A k).1 s >>= fun s => pure (s, Tp'))
  | 0, _ => ⟨Tp, rfl, fun j h0 h1 => by push_cast at h1; omega, fun s => rfl⟩
  | k + 1, hk => by
    push_cast at hk
    obtain ⟨T1, l1, v1, e1⟩ := scanUpper_eq hSM hAp hAi hl k (by omega)
    obtain ⟨T2, l2, v2, b2, e2⟩ := upScan_eq (σ := σ) (add := add) hSM hAp hAi (k := (k : ℤ)) (by omega)
      ((a (k + 1) - a k).toNat + 1) (a k) T1 (upperL a A k).2 le_rfl (by omega) (by omega) v1 (by omega)
    refine ⟨upd T2 k (upL a A k (a (k + 1)) ((a (k + 1) - a k).toNat + 1) (a k) (upperL a A k).2).2.2, ?_, ?_, ?_⟩
    · rw [length_upd, l2, l1]
    · intro j j0 j1
      rw [get_upd (by omega) (by omega)]
      rw [show (upperL a A (k + 1)).2 = Function.update (upL a A k (a (k + 1)) ((a (k + 1) - a k).toNat + 1) (a k)
        (upperL a A k).2).2.1 k (upL a A k (a (k + 1)) ((a (k + 1) - a k).toNat + 1) (a k) (upperL a A k).2).2.2 from rfl,
        Function.update_apply]
      by_cases hj : j = k
      · rw [if_pos hj, if_pos hj]; exact ⟨rfl, by rw [hj]; exact b2⟩
      · rw [if_neg hj, if_neg hj]; exact v2 j j0 (by push_cast at j1; omega)
    · intro s
      have e1' := e1 s
      unfold scanUpper at e1' ⊢
      push_cast
      rw [forRange_snoc (by omega), e1']
      show _ = (runL add ((upperL a A k).1 ++ _) s >>= _)
      rw [runL_append, bind_assoc, bind_assoc]
      congr 1
      funext s1
      rw [pure_bind]
      dsimp only
      rw [rd_eq (hAp _ (by omega) (by omega)), ok_bind, rd_eq (hAp _ (by omega) (by omega)), ok_bind, e2, bind_assoc]
      congr 1
      funext s2
      rw [pure_bind]
      dsimp only
      rw [wr_eq (by omega) (by omega), ok_bind]

theorem segFor_eq {A : ℤ → ℤ} {t j : ℤ} : ∀ (l : ℕ) (s : σ), (∀ p, t ≤ p → p < t + l → get Ai p = some (A p)) →
    (forRange t (t + l) s fun pj s => do let i ← rd Ai pj; add i j s) = runL add ((seg A t l).map (·, j)) s
  | 0, s, _ => by
    rw [forRange_empty (by simp), show ((0 : ℕ) : ℤ) = 0 from rfl, seg_zero]; rfl
  | l + 1, s, h => by
    push_cast
    rw [← add_assoc, forRange_snoc (by omega), seg_succ _ (by omega), List.map_append, runL_append,
      segFor_eq l s (fun p h1 h2 => h p h1 (by push_cast; omega))]
    congr 1
    funext s
    rw [rd_eq (h _ (by omega) (by push_cast; omega)), ok_bind]
    show _ = runL add [(A (t + l), j)] s
    rw [runL_cons]
    exact (bind_pure _).symm

theorem scanRest_eq {T : ℤ → ℤ} (hSM : SM n nz a A) (hAp : ∀ j, 0 ≤ j → j ≤ n → get Ap j = some (a j))
    (hAi : ∀ p, 0 ≤ p → p < nz → get Ai p = some (A p)) {Tp : Arr Int}
    (hT : ∀ j, 0 ≤ j → j < n → get Tp j = some (T j) ∧ a j ≤ T j) : ∀ (k : ℕ) (s : σ), (k : ℤ) ≤ n →
      scanRest k Ap Ai add s Tp = runL add (restL a A T k) s
  | 0, s, _ => rfl
  | k + 1, s, hk => by
    push_cast at hk
    have e1 := scanRest_eq hSM hAp hAi hT k s (by omega)
    unfold scanRest at e1 ⊢
    push_cast
    rw [forRange_snoc (by omega), e1]
    show _ = runL add (restL a A T k ++ _) s
    rw [runL_append]
    congr 1
    funext s
    obtain ⟨g1, g2⟩ := hT k (by omega) (by omega)
    have hb := hSM.bd (j := (k : ℤ)) (by omega) (by omega)
    rw [rd_eq g1, ok_bind, rd_eq (hAp _ (by omega) (by omega)), ok_bind]
    by_cases hle : T k ≤ a (k + 1)
    · have := segFor_eq (add := add) (Ai := Ai) (A := A) (t := T k) (j := k) (a (k + 1) - T k).toNat s
        (fun p h1 h2 => hAi p (by omega) (by omega))
      rw [show ((a (k + 1) - T k).toNat : ℤ) = a (k + 1) - T k by omega, show T k + (a (k + 1) - T k) = a (k + 1) by ring]
        at this
      exact this
    · rw [forRange_empty (by omega)]
      have : seg A (T k) (a (k + 1) - T k) = [] := by
        rw [← List.length_eq_zero_iff, length_seg]; omega
      rw [this]; rfl

theorem scanAAT_eq {N : ℕ} (hSM : SM N nz a A) (hAp : ∀ j, 0 ≤ j → j ≤ (N : ℤ) → get Ap j = some (a j))
    (hAi : ∀ p, 0 ≤ p → p < nz → get Ai p = some (A p)) {Tp : Arr Int} (hl : (N : ℤ) ≤ Tp.length) :
    ∃ Tp' : Arr Int, Tp'.length = Tp.length ∧
      ∀ s : σ, scanAAT N Ap Ai add s Tp = (runL add (aatL a A N) s >>= fun s => pure (s, Tp')) := by
  obtain ⟨Tp', l1, v1, e1⟩ := scanUpper_eq (σ := σ) (add := add) hSM hAp hAi hl N le_rfl
  refine ⟨Tp', l1, fun s => ?_⟩
  unfold scanAAT aatL
  rw [e1, runL_append, bind_assoc, bind_assoc]
  congr 1
  funext s1
  rw [pure_bind]
  dsimp only
  rw [scanRest_eq hSM hAp hAi v1 N s1 le_rfl]

end prog
end Slip.Amd
