import Verif.Proof.Workspace
import Verif.Props.Factor

/-!
# C11: results do not depend on workspace contents
-/

namespace Slip

/-- C11: whatever values the allocator leaves in the uninitialised memory (`W`), the factorization
returns the same status and the same objects, namely those of the model in which uninitialised
memory is unreadable. -/
theorem C11_workspace_irrelevant {nc : Int → Int → ℚ → Bool} {opt : Option Options} {n : ℕ}
    {A : Mat} {S : Analysis} (hA : IsCsc n A) (hS : IsAnalysis n S) (ht : TolOk opt) {W : Work}
    (hW : W.Sized n) (l u rh : Option Mat) (pv : Option (Arr Int)) :
    SLIP_LU_factorizeW W nc true (some l) (some u) (some rh) (some pv) (some A) (some S) opt =
    SLIP_LU_factorize nc true (some l) (some u) (some rh) (some pv) (some A) (some S) opt := by
  obtain ⟨o, ho⟩ := C08_factorize_safe (nc := nc) hA hS ht l u rh pv
  have hr := factorize_rel (W := W) nc (optPivot opt) (optTol opt) (A := A.toCsc)
    (by show 0 ≤ A.n; rw [hA.cols]; omega) (by show W.Sized A.n; rw [hA.cols]; exact hW) S.q S.lnz S.unz
  rw [ho]
  have he := SLIP_LU_factorize_eq (nc := nc) (S := S) (opt := opt) hA l u rh pv
  rw [ho] at he
  have hz : SLIP_LU_factorizeW W nc true (some l) (some u) (some rh) (some pv) (some A) (some S)
      opt = factWrap A.n (factorizeW W nc (optPivot opt) (optTol opt) A.toCsc S.q S.lnz S.unz) := by
    obtain ⟨z, hz, hz0, -⟩ := hA.nnz
    unfold SLIP_LU_factorizeW
    simp only [Bool.not_true, Bool.false_eq_true, if_false, hA.kind, hA.type, ne_eq,
      not_true_eq_false, hz, ok_bind, reduceCtorEq, false_or]
    rw [if_neg (by omega)]
  rw [hz]
  cases hf : factorize nc (optPivot opt) (optTol opt) A.toCsc S.q S.lnz S.unz with
  | ok F =>
    rw [hf] at hr he
    obtain ⟨_, hb, rfl⟩ := hr
    rw [hb, he]
  | error e =>
    rw [hf] at hr he
    cases e with
    | ub => cases he
    | fuel => cases he
    | ret e =>
      simp only [CRel] at hr
      rw [hr, he]

/-- Workspace full of arbitrary values. -/
def exWork (v : ℤ) : Work :=
  { h := List.replicate 3 (some v), pivs := List.replicate 3 (some v),
    pinv := List.replicate 3 (some v), row_perm := List.replicate 3 (some v),
    xi := List.replicate 6 (some v), tailL := fun k => List.replicate 50 (some (v + k)),
    tailU := fun k => List.replicate 50 (some (v * k)) }

example := C11_workspace_irrelevant (nc := Ex.nc) Ex.A_csc Ex.S_ok Ex.tol_ok (W := exWork (-77))
  ⟨rfl, rfl, rfl, rfl, rfl⟩ none none none none

/-- C11: two runs with different workspace contents agree. -/
theorem C11_any_two_runs_agree {nc : Int → Int → ℚ → Bool} {opt : Option Options} {n : ℕ}
    {A : Mat} {S : Analysis} (hA : IsCsc n A) (hS : IsAnalysis n S) (ht : TolOk opt) {W W' : Work}
    (hW : W.Sized n) (hW' : W'.Sized n) (l u rh : Option Mat) (pv : Option (Arr Int)) :
    ∃ o, SLIP_LU_factorizeW W nc true (some l) (some u) (some rh) (some pv) (some A) (some S) opt =
      .ok o ∧
    SLIP_LU_factorizeW W' nc true (some l) (some u) (some rh) (some pv) (some A) (some S) opt =
      .ok o := by
  obtain ⟨o, ho⟩ := C08_factorize_safe (nc := nc) hA hS ht l u rh pv
  exact ⟨o, (C11_workspace_irrelevant hA hS ht hW l u rh pv).trans ho,
    (C11_workspace_irrelevant hA hS ht hW' l u rh pv).trans ho⟩

example := C11_any_two_runs_agree (nc := Ex.nc) Ex.A_csc Ex.S_ok Ex.tol_ok (W := exWork (-77))
  (W' := exWork 3) ⟨rfl, rfl, rfl, rfl, rfl⟩ ⟨rfl, rfl, rfl, rfl, rfl⟩ none none none none

theorem SLIP_LU_factorize_down (nc : Int → Int → ℚ → Bool) (L U rhos : Handle Mat)
    (pinv : Handle (Arr Int)) (A : Option Mat) (S : Option Analysis) (opt : Option Options) :
    SLIP_LU_factorize nc false L U rhos pinv A S opt = .ok ⟨.panic, L, U, rhos, pinv⟩ := rfl

theorem SLIP_LU_factorize_null (nc : Int → Int → ℚ → Bool) (L U rhos : Handle Mat)
    (pinv : Handle (Arr Int)) (S : Option Analysis) (opt : Option Options) :
    SLIP_LU_factorize nc true L U rhos pinv none S opt = .ok ⟨.incorrectInput, L, U, rhos, pinv⟩ := rfl

theorem SLIP_LU_factorizeW_down (W : Work) (nc : Int → Int → ℚ → Bool) (L U rhos : Handle Mat)
    (pinv : Handle (Arr Int)) (A : Option Mat) (S : Option Analysis) (opt : Option Options) :
    SLIP_LU_factorizeW W nc false L U rhos pinv A S opt = .ok ⟨.panic, L, U, rhos, pinv⟩ := rfl

theorem SLIP_LU_factorizeW_null (W : Work) (nc : Int → Int → ℚ → Bool) (L U rhos : Handle Mat)
    (pinv : Handle (Arr Int)) (S : Option Analysis) (opt : Option Options) :
    SLIP_LU_factorizeW W nc true L U rhos pinv none S opt = .ok ⟨.incorrectInput, L, U, rhos, pinv⟩ := rfl

theorem SLIP_LU_factorize_cases (nc : Int → Int → ℚ → Bool) (L U rhos : Handle Mat)
    (pinv : Handle (Arr Int)) (A : Mat) (S : Option Analysis) (opt : Option Options) :
    SLIP_LU_factorize nc true L U rhos pinv (some A) S opt =
    (if A.kind ≠ .csc then pure ⟨.incorrectInput, L, U, rhos, pinv⟩
    else if A.type ≠ .mpz then pure ⟨.incorrectInput, L, U, rhos, pinv⟩
    else do
      let anz ← SLIP_matrix_nnz true (some A)
      match S with
      | none => pure ⟨.incorrectInput, L, U, rhos, pinv⟩
      | some S =>
        if L = none ∨ U = none ∨ rhos = none ∨ pinv = none ∨ anz < 0 then
          pure ⟨.incorrectInput, L, U, rhos, pinv⟩
        else
          factWrap A.n (factorize nc (optPivot opt) (optTol opt) A.toCsc S.q S.lnz S.unz)) := rfl

theorem SLIP_LU_factorizeW_cases (W : Work) (nc : Int → Int → ℚ → Bool) (L U rhos : Handle Mat)
    (pinv : Handle (Arr Int)) (A : Mat) (S : Option Analysis) (opt : Option Options) :
    SLIP_LU_factorizeW W nc true L U rhos pinv (some A) S opt =
    (if A.kind ≠ .csc then pure ⟨.incorrectInput, L, U, rhos, pinv⟩
    else if A.type ≠ .mpz then pure ⟨.incorrectInput, L, U, rhos, pinv⟩
    else do
      let anz ← SLIP_matrix_nnz true (some A)
      match S with
      | none => pure ⟨.incorrectInput, L, U, rhos, pinv⟩
      | some S =>
        if L = none ∨ U = none ∨ rhos = none ∨ pinv = none ∨ anz < 0 then
          pure ⟨.incorrectInput, L, U, rhos, pinv⟩
        else
          factWrap A.n (factorizeW W nc (optPivot opt) (optTol opt) A.toCsc S.q S.lnz S.unz)) := rfl

/-- C11, for all arguments, valid or not: whenever the model in which uninitialised memory is unreadable
returns something (a status and handles), every run with arbitrary values in the uninitialised memory returns
the same. -/
theorem C11_workspace_any {nc : Int → Int → ℚ → Bool} {opt : Option Options} {init : Bool} {W : Work}
    {L U rhos : Handle Mat} {pinv : Handle (Arr Int)} {A : Option Mat} {S : Option Analysis} {o : FactOut}
    (hA : ∀ a ∈ A, 0 ≤ a.n ∧ W.Sized a.n)
    (h : SLIP_LU_factorize nc init L U rhos pinv A S opt = .ok o) :
    SLIP_LU_factorizeW W nc init L U rhos pinv A S opt = .ok o := by
  cases init with
  | false => rwa [SLIP_LU_factorizeW_down, ← SLIP_LU_factorize_down nc L U rhos pinv A S opt]
  | true =>
    cases A with
    | none => rwa [SLIP_LU_factorizeW_null, ← SLIP_LU_factorize_null nc L U rhos pinv S opt]
    | some A =>
      obtain ⟨h0, hW⟩ := hA A rfl
      have e := SLIP_LU_factorizeW_cases W nc L U rhos pinv A S opt
      have e' := SLIP_LU_factorize_cases nc L U rhos pinv A S opt
      rw [e'] at h
      rw [e]
      by_cases hk : A.kind = .csc
      swap
      · rw [if_pos hk] at h ⊢; exact h
      rw [if_neg (not_not.mpr hk)] at h ⊢
      by_cases ht : A.type = .mpz
      swap
      · rw [if_pos ht] at h ⊢; exact h
      rw [if_neg (not_not.mpr ht)] at h ⊢
      cases hz : SLIP_matrix_nnz true (some A) with
      | error e => rw [hz] at h; cases h
      | ok anz =>
        rw [hz] at h
        simp only [ok_bind] at h ⊢
        cases S with
        | none => exact h
        | some S =>
          dsimp only at h ⊢
          by_cases hc : L = none ∨ U = none ∨ rhos = none ∨ pinv = none ∨ anz < 0
          · rw [if_pos hc] at h ⊢; exact h
          rw [if_neg hc] at h ⊢
          have hr := factorize_rel (W := W) nc (optPivot opt) (optTol opt) (A := A.toCsc) h0 hW S.q S.lnz S.unz
          cases hf : factorize nc (optPivot opt) (optTol opt) A.toCsc S.q S.lnz S.unz with
          | ok F =>
            rw [hf] at hr h
            obtain ⟨_, hb, rfl⟩ := hr
            rw [hb]; exact h
          | error e =>
            rw [hf] at hr h
            cases e with
            | ub => cases h
            | fuel => cases h
            | ret e =>
              simp only [CRel] at hr
              rw [hr]; exact h

/-- A call without an analysis is rejected. -/
example : SLIP_LU_factorizeW (exWork 5) Ex.nc true (some none) (some none) (some none) (some none) (some Ex.A)
    none none = .ok ⟨.incorrectInput, some none, some none, some none, some none⟩ :=
  C11_workspace_any (fun a ha => by cases ha; exact ⟨by decide, rfl, rfl, rfl, rfl, rfl⟩) rfl

end Slip
