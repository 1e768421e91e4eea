import Verif.Proof.PrintSolve
import Verif.Proof.Analyze
import Verif.Proof.Check
import Verif.Proof.Main

/-!
# The output of the solver, exactly (C54)
-/

namespace Slip.Out

open Finset

theorem lift_ok_bind {α β : Type} (a : α) (f : α → P β) : (Out.lift (.ok a) >>= f) = f a := rfl

/-! ## The ordering -/

theorem clamp_eq_iff {n e : ℤ} (hn : 0 ≤ n) (he : 0 ≤ e) : (clampNnz n e e).1 = e ↔ n ≤ e ∧ e ≤ n * n := by
  obtain ⟨h1, h2, -⟩ := clampNnz_spec hn he
  constructor
  · intro h; rw [h] at h1 h2; exact ⟨h1, h2⟩
  · rintro ⟨a, b⟩
    unfold clampNnz
    simp only [show ¬ e > n * n by omega, if_false, show ¬ e < n by omega]

/-- What the analysis of an `n`-by-`n` matrix with these column pointers and row indices may print at level 1 and above;
`lnz` is the estimate it returns. -/
def OrderingReport (n : ℕ) (p i : Arr Int) (lnz : Int) : ColOrder → List Line → Prop
  | .none, out => out = []
  | .amd, out => ∃ st e, out = [.heading, .amdControl, .amdInfo st e] ∧
      ((st = .ok ∧ Amd.StrictlySorted n p i) ∨ (st = .jumbled ∧ ¬Amd.StrictlySorted n p i)) ∧
      0 ≤ e ∧ 2 * e ≤ n * (n - 1) ∧ lnz = if e < n then e + n else e
  | .colamd, out => ∃ nz, get p n = some nz ∧ out = [.heading, .colamd true, .estimate (10 * nz)] ∧
      (lnz = 10 * nz ↔ n ≤ 10 * nz ∧ 10 * nz ≤ n * n)

theorem analyzeBody_says {O : Orderings} {opt : Option Options} {n : ℕ} (hO : AmdOk O opt n) {A : Mat}
    (hk : A.kind = .csc) (hn : A.n = n) (hp : IsPattern n (deref A.p) (deref A.i)) (hi : A.i ≠ none) :
    ∃ S out, Says (analyzeBody O A opt) (.ok S) (if optPrint opt ≥ 1 then out else []) ∧
      OrderingReport n (deref A.p) (deref A.i) S.lnz (optOrder opt) out := by
  obtain ⟨anz, hz, hz0⟩ := hp.ptr n (le_refl _)
  have hnnz : SLIP_matrix_nnz true (some A) = .ok anz := by
    unfold SLIP_matrix_nnz
    simp only [Bool.not_true, Bool.false_eq_true, if_false, hk]
    cases hAp : A.p with
    | none => rw [hAp] at hz; simp [deref, Slip.get] at hz
    | some p =>
      rw [hAp] at hz
      simp only [hn]
      rw [if_neg (by omega)]
      exact rd_eq hz
  have hml : ((malloc Int ((n : ℤ) + 1)).length : ℤ) = n + 1 := by
    rw [length_malloc]; omega
  cases ho : optOrder opt with
  | none =>
    obtain ⟨S, e, -⟩ := analyzeBody_spec hO hk hn hp hi
    obtain ⟨q, e', -⟩ := fillLoop (m := (n : ℤ) + 1) (a := malloc Int ((n : ℤ) + 1))
      (g := fun i => .ok i) (f := fun i => i) (by omega) (by omega) (fun _ _ _ => rfl)
    simp only [ok_bind] at e'
    refine ⟨⟨q, (clampNnz n (10 * anz) (10 * anz)).1, (clampNnz n (10 * anz) (10 * anz)).2⟩, [], ?_, rfl⟩
    unfold analyzeBody
    simp only [hn, ho]
    refine Says.lift_ok hnnz ?_
    intro o
    show ((Out.lift _ >>= fun q => _ : P _) >>= _) o = _
    simp only [ite_self]
    rw [e']
    show (_, o) = _
    rw [List.append_nil]
  | amd =>
    obtain ⟨hn0, hM⟩ := hO ho
    have hpp : A.p = some (deref A.p) := by
      cases hAp : A.p with
      | none => have := hp.p0; rw [hAp] at this; simp [deref, Slip.get] at this
      | some p => rfl
    have hii : A.i = some (deref A.i) := by
      cases hAi : A.i with
      | none => exact absurd hAi hi
      | some p => rfl
    have hsq : Amd.SquarePattern n (deref A.p) (deref A.i) := ⟨hp.p0, fun j hj => by
      obtain ⟨a, b, h1, h2, h3, h4, -⟩ := hp.col j hj
      exact ⟨a, b, h1, h2, h3, h4⟩⟩
    obtain ⟨st, q, e, eA, h⟩ := Amd.amd_order_pattern (ar := Arith.exact) (P := malloc Int ((n : ℤ) + 1))
      ⟨true, true, true⟩ (O.amdKnobs n) (Amd.room_exact (by omega)) hn0 hsq (by omega)
    have h' : ((st = .ok ∧ Amd.StrictlySorted n (deref A.p) (deref A.i)) ∨
        (st = .jumbled ∧ ¬Amd.StrictlySorted n (deref A.p) (deref A.i))) ∧ 0 ≤ e ∧ 2 * e ≤ n * (n - 1) := by
      rcases h with ⟨-, h1, -, h2, h3⟩ | ⟨h1, -⟩
      · exact ⟨h1, h2, h3⟩
      · exact absurd ⟨rfl, rfl, fun _ => rfl⟩ h1
    have ea : amd O A (malloc Int ((n : ℤ) + 1)) = .ok (st, q, e) := by
      unfold amd
      rw [hpp, hii]
      dsimp only
      rw [hn, hM]
      exact eA
    refine ⟨⟨q, (clampNnz n e e).1, (clampNnz n e e).2⟩, [.heading, .amdControl, .amdInfo st e], ?_,
      ⟨st, e, rfl, h'.1, h'.2.1, h'.2.2, ?_⟩⟩
    · unfold analyzeBody
      simp only [hn, ho]
      refine Says.lift_ok hnnz ?_
      intro o
      show ((Out.lift _ >>= fun r => _ : P _) >>= _) o = _
      rw [ea]
      by_cases hpr : optPrint opt ≥ 1
      · rw [if_pos hpr]
        show ((if optPrint opt > 0 then _ else _ : P _) >>= _) o = _
        rw [if_pos (by omega)]
        show (_, o ++ [.heading] ++ [.amdControl] ++ [.amdInfo st e]) = _
        simp only [List.append_assoc, List.cons_append, List.nil_append]
      · rw [if_neg hpr]
        show ((if optPrint opt > 0 then _ else _ : P _) >>= _) o = _
        rw [if_neg (by omega)]
        show (_, o) = _
        rw [List.append_nil]
    · have h3 := h'.2.2
      have h1 : ¬ e > (n : ℤ) * n := by
        have : (n : ℤ) * (n - 1) = n * n - n := by ring
        have h4 : (0 : ℤ) ≤ (n : ℤ) * n := by positivity
        omega
      unfold clampNnz
      simp only [if_neg h1]
  | colamd =>
    obtain ⟨q, A2, e, e2, hql, hA2l, hrect⟩ := colamd_copy hp hz (by omega)
    obtain ⟨q', eq', -⟩ := Colamd.colamd_ok (ar := Arith.exact) (K := O.knobs n)
      (Alen := 2 * anz + 6 * ((n : ℤ) + 1) + 6 * ((n : ℤ) + 1) + n) (by omega)
      (by rw [hA2l]) hrect (by omega) (fun _ _ _ => rfl)
    refine ⟨⟨q', (clampNnz n (10 * anz) (10 * anz)).1, (clampNnz n (10 * anz) (10 * anz)).2⟩,
      [.heading, .colamd true, .estimate (10 * anz)], ?_, ⟨anz, hz, rfl, clamp_eq_iff (by omega) (by omega)⟩⟩
    unfold analyzeBody
    simp only [hn, ho]
    refine Says.lift_ok hnnz ?_
    intro o
    show ((Out.lift _ >>= fun q => _ : P _) >>= _) o = _
    rw [e, e2]
    simp only [lift_ok_bind]
    rw [eq', lift_ok_bind]
    by_cases hpr : optPrint opt ≥ 1
    · rw [if_pos hpr]
      show ((if optPrint opt > 0 then _ else _ : P _) >>= _) o = _
      rw [if_pos (by omega)]
      show (_, o ++ [.heading] ++ [.colamd true] ++ [.estimate (10 * anz)]) = _
      simp only [List.append_assoc, List.cons_append, List.nil_append]
    · rw [if_neg hpr]
      show ((if optPrint opt > 0 then _ else _ : P _) >>= _) o = _
      rw [if_neg (by omega)]
      show (_, o) = _
      rw [List.append_nil]

end Slip.Out
