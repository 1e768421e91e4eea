import Verif.Props.Flaky
import Verif.Props.Copy

/-!
# Property C57: `SLIP_matrix_copy` when memory is refused

As in `Verif/Props/Flaky.lean`, `ω` says which requests are refused and `t` how many were made before the call.  `junk` is what the
scale of the new matrix contains when the request for setting it is refused.
-/

namespace Slip

open Flaky

section

variable (junk : ℚ) (ω : ℕ → Bool) (t : ℕ) (fp : Fp) (init : Bool) (Ch : Handle Mat) (kind : Kind) (type : Ty)
  (A : Option Mat) (opt : Option Options)

theorem SLIP_matrix_copyF_cases :
    let r := SLIP_matrix_copyF junk fp init Ch kind type A opt ω t
    t ≤ r.2 ∧
    ((∃ e, (e = .outOfMemory ∨ e = .incorrectInput) ∧ r.1 = .ok (e, some none) ∧ SomeRefused ω t r.2) ∨
     (r.1 = SLIP_matrix_copy fp init Ch kind type A opt ∧ NoneRefused ω t r.2) ∨
     ((∃ M σ, (σ = junk ∨ σ = 1) ∧ SLIP_matrix_copy fp init Ch kind type A opt = .ok (.ok, some (some M)) ∧
        r.1 = .ok (.ok, some (some { M with scale := σ }))) ∧ SomeRefused ω t r.2) ∨
     ((∀ M, r.1 ≠ .ok (.ok, some (some M))) ∧ r.1 = SLIP_matrix_copy fp init Ch kind type A opt ∧ SomeRefused ω t r.2)) := by
  have trivial_run : ∀ {c : C (Info × Handle Mat)}, t ≤ (lift c ω t).2 ∧ NoneRefused ω t (lift c ω t).2 := by
    intro c
    exact ⟨le_refl _, fun s h1 h2 => absurd h2 (show ¬ s < t by omega)⟩
  intro r
  have hr : r = SLIP_matrix_copyF junk fp init Ch kind type A opt ω t := rfl
  clear_value r
  unfold SLIP_matrix_copyF at hr
  unfold SLIP_matrix_copy
  by_cases h0 : (!init) = true
  · rw [if_pos h0] at hr
    rw [if_pos h0, hr]
    exact ⟨trivial_run.1, Or.inr (Or.inl ⟨rfl, trivial_run.2⟩)⟩
  rw [if_neg h0] at hr
  rw [if_neg h0]
  rcases hz : SLIP_matrix_nnz init A with e | nz
  · rw [hz] at hr
    rw [hr]
    exact ⟨trivial_run.1, Or.inr (Or.inl ⟨rfl, trivial_run.2⟩)⟩
  rw [hz] at hr
  rw [ok_bind]
  cases A with
  | none =>
    rw [hr]
    exact ⟨trivial_run.1, Or.inr (Or.inl ⟨rfl, trivial_run.2⟩)⟩
  | some A =>
    dsimp only at hr ⊢
    rw [bind_def] at hr
    dsimp only [lift] at hr
    by_cases h : Ch = none ∨ nz < 0 ∨ A.type.ok = false ∨ kind.ok = false ∨ type.ok = false
    · rw [if_pos h] at hr
      rw [if_pos h, hr]
      exact ⟨trivial_run.1, Or.inr (Or.inl ⟨rfl, trivial_run.2⟩)⟩
    rw [if_neg h] at hr
    rw [if_neg h]
    obtain ⟨h1, h2⟩ := (copyBodyF_amb junk fp opt type A nz kind).out ω t
    have hr1 : r.1 = copyWrap (copyBodyF junk fp opt kind type A nz ω t).1 := by rw [hr]; rfl
    have hr2 : r.2 = (copyBodyF junk fp opt kind type A nz ω t).2 := by rw [hr]; rfl
    rw [hr2, hr1]
    refine ⟨h1, ?_⟩
    rcases h2 with ⟨h2 | h2, hs⟩ | ⟨h2, hs⟩ | ⟨h2, hs⟩
    · exact Or.inl ⟨.outOfMemory, Or.inl rfl, by rw [h2]; rfl, hs⟩
    · exact Or.inl ⟨.incorrectInput, Or.inr rfl, by rw [h2]; rfl, hs⟩
    · exact Or.inr (Or.inl ⟨by rw [h2], hs⟩)
    · rcases hc : copyBody fp opt kind type A nz with e | M
      · rw [hc] at h2
        have e2 : (copyBodyF junk fp opt kind type A nz ω t).1 = .error e := h2
        refine Or.inr (Or.inr (Or.inr ⟨fun M hM => ?_, by rw [e2], hs⟩))
        rw [e2] at hM
        rcases e with _ | _ | e <;> cases hM
      · rw [hc] at h2
        refine Or.inr (Or.inr (Or.inl ⟨⟨M, if kind = .triplet ∧ A.kind = .dense ∧ type ≠ .mpz then 1 else junk, ?_, rfl, ?_⟩, hs⟩))
        · by_cases hk : kind = .triplet ∧ A.kind = .dense ∧ type ≠ .mpz
          · rw [if_pos hk]; exact Or.inr rfl
          · rw [if_neg hk]; exact Or.inl rfl
        · rw [h2]
          rfl

/-- C57: `SLIP_matrix_copy`, for all arguments, all formats and types: if no request was refused, it returns what it returns with
unlimited memory. If one was, it returns SLIP_OUT_OF_MEMORY or SLIP_INCORRECT_INPUT and NULL; or the call fails as it fails with
unlimited memory; or it returns SLIP_OK and a matrix that has, except for its scale, the right contents; the scale is then the number 1 of a new matrix, or whatever a refused `mpq_set` leaves. -/
theorem C57_copy :
    let r := SLIP_matrix_copyF junk fp init Ch kind type A opt ω t
    t ≤ r.2 ∧ (NoneRefused ω t r.2 → r.1 = SLIP_matrix_copy fp init Ch kind type A opt) ∧
      (SomeRefused ω t r.2 →
        r.1 = .ok (.outOfMemory, some none) ∨ r.1 = .ok (.incorrectInput, some none) ∨
        (r.1 = SLIP_matrix_copy fp init Ch kind type A opt ∧ ∀ M, r.1 ≠ .ok (.ok, some (some M))) ∨
        ∃ M σ, (σ = junk ∨ σ = 1) ∧ SLIP_matrix_copy fp init Ch kind type A opt = .ok (.ok, some (some M)) ∧
          r.1 = .ok (.ok, some (some { M with scale := σ }))) := by
  intro r
  have no : SomeRefused ω t r.2 → NoneRefused ω t r.2 → False := fun ⟨s, h1, h2, h3⟩ h => by
    rw [h s h1 h2] at h3; cases h3
  obtain ⟨h0, h⟩ := SLIP_matrix_copyF_cases junk ω t fp init Ch kind type A opt
  refine ⟨h0, fun hn => ?_, fun hs => ?_⟩
  · rcases h with ⟨e, -, -, h⟩ | ⟨h, -⟩ | ⟨-, h⟩ | ⟨-, h, -⟩
    · exact (no h hn).elim
    · exact h
    · exact (no h hn).elim
    · exact h
  · rcases h with ⟨e, rfl | rfl, h, -⟩ | ⟨-, h⟩ | ⟨⟨M, σ, hσ, h1, h2⟩, -⟩ | ⟨h1, h2, -⟩
    · exact Or.inl h
    · exact Or.inr (Or.inl h)
    · exact (no hs h).elim
    · exact Or.inr (Or.inr (Or.inr ⟨M, σ, hσ, h1, h2⟩))
    · exact Or.inr (Or.inr (Or.inl ⟨h2, h1⟩))

/-- C57: a matrix that `SLIP_matrix_copy` returns with SLIP_OK is, whatever memory did, the matrix returned with unlimited memory, if
the scales agree. -/
theorem C57_copy_values {M : Mat} (h : (SLIP_matrix_copyF junk fp init Ch kind type A opt ω t).1 = .ok (.ok, some (some M))) :
    ∃ M₀, SLIP_matrix_copy fp init Ch kind type A opt = .ok (.ok, some (some M₀)) ∧
      M.m = M₀.m ∧ M.n = M₀.n ∧ M.nzmax = M₀.nzmax ∧ M.nz = M₀.nz ∧ M.kind = M₀.kind ∧ M.type = M₀.type ∧
      M.p = M₀.p ∧ M.i = M₀.i ∧ M.j = M₀.j ∧ M.x = M₀.x ∧ (M.scale = M₀.scale → M = M₀) := by
  obtain ⟨-, h1, h2⟩ := C57_copy junk ω t fp init Ch kind type A opt
  rcases refused_or ω t (SLIP_matrix_copyF junk fp init Ch kind type A opt ω t).2 with hr | hr
  · rcases h2 hr with h3 | h3 | ⟨-, h3⟩ | ⟨M₀, σ, -, h3, h4⟩
    · rw [h] at h3; cases h3
    · rw [h] at h3; cases h3
    · exact (h3 M h).elim
    · rw [h] at h4
      cases h4
      exact ⟨M₀, h3, rfl, rfl, rfl, rfl, rfl, rfl, rfl, rfl, rfl, rfl, fun e => by rw [show σ = M₀.scale from e]⟩
  · rw [h] at h1
    exact ⟨M, (h1 hr).symm, rfl, rfl, rfl, rfl, rfl, rfl, rfl, rfl, rfl, rfl, fun _ => rfl⟩

/-- C57: copies from CSC to CSC or triplet, from triplet to triplet and from dense to dense: if a request was refused, the result is
SLIP_OUT_OF_MEMORY or SLIP_INCORRECT_INPUT and NULL; otherwise that of the run with unlimited memory. -/
theorem C57_copy_checked (hk : ∀ M, A = some M →
      (M.kind = .csc ∧ (kind = .csc ∨ kind = .triplet)) ∨ (M.kind = .triplet ∧ kind = .triplet) ∨
      (M.kind = .dense ∧ kind = .dense)) :
    let r := SLIP_matrix_copyF junk fp init Ch kind type A opt ω t
    (SomeRefused ω t r.2 → r.1 = .ok (.outOfMemory, some none) ∨ r.1 = .ok (.incorrectInput, some none)) ∧
      (NoneRefused ω t r.2 → r.1 = SLIP_matrix_copy fp init Ch kind type A opt) := by
  intro r
  obtain ⟨-, h⟩ := (SLIP_matrix_copyF_stop (junk := junk) (fp := fp) (init := init) (Ch := Ch) (type := type) (opt := opt) hk).out ω t
  refine ⟨fun ⟨s, h1, h2, h3⟩ => ?_, fun hn => ?_⟩
  · rcases h with ⟨⟨⟨e, y⟩, he, h4, rfl⟩, -⟩ | ⟨-, hn⟩
    · rcases h4 with rfl | rfl
      · exact Or.inl he
      · exact Or.inr he
    · rw [hn s h1 h2] at h3; cases h3
  · rcases h with ⟨-, s, h1, h2, h3⟩ | ⟨e, -⟩
    · rw [hn s h1 h2] at h3; cases h3
    · exact e

/-- C57: enough memory is enough: if the first requests are granted, as many as the run with unlimited memory makes, the result is the
one of that run, whatever is refused later. -/
theorem C57_enough (h : NoneRefused ω t (SLIP_matrix_copyF junk fp init Ch kind type A opt (fun _ => false) t).2) :
    (SLIP_matrix_copyF junk fp init Ch kind type A opt ω t).1 = SLIP_matrix_copy fp init Ch kind type A opt := by
  have e : SLIP_matrix_copyF junk fp init Ch kind type A opt ω t =
      SLIP_matrix_copyF junk fp init Ch kind type A opt (fun _ => false) t :=
    (SLIP_matrix_copyF_det junk fp init Ch kind type A opt (fun _ => false) ω t).2 h
  obtain ⟨-, h1, -⟩ := C57_copy junk (fun _ => false) t fp init Ch kind type A opt
  rw [e]
  exact h1 fun _ _ _ => rfl

end

/-! ## What is not true -/

namespace FlakyEx

/-- The 1-by-1 matrix (1/2) as the user gives it: triplet, FP64. -/
def T : Mat :=
  { CopyEx.base 1 1 1 .triplet .fp64 (.fp64 [some (.fin (1/2))]) 1 with
    nzmax := 1, i := some [some 0], j := some [some 0] }

/-- Its copy to CSC, MPZ when exactly request `s` is refused. -/
def copy (s : ℕ) : C (Info × Handle Mat) × ℕ :=
  SLIP_matrix_copyF 1 Ex.fp true (some none) .csc .mpz (some T) none (fun u => u == s) 0

/-- What can be seen of it: status, values and scale, and the number of requests. -/
def see (r : C (Info × Handle Mat) × ℕ) : Option (Info × Arr Int × ℚ) × ℕ :=
  (match r.1 with
    | .ok (e, h) => some (e, match h.join with
      | some M => (match M.x with
        | some (.mpz v) => (v, M.scale)
        | _ => ([], 0))
      | none => ([], 0))
    | .error _ => none, r.2)

/-- The right-hand side (1). -/
def b : Mat := Mat.ofDenseZ 1 1 1 [some 1]

/-- What follows the copy in a program: the solution of `A x = b`, as far as the status is SLIP_OK. -/
def solve (s : ℕ) : Option (Option Vals) :=
  match copy s with
  | (.ok (.ok, some (some A)), t) =>
    match SLIP_backslashF 1 Ex.fp Ex.orderings Ex.nc true (some none) .mpq (some A) (some b) none (fun u => u == s) t with
    | (.ok (.ok, some (some x)), _) => some x.x
    | _ => none
  | _ => none

end FlakyEx

/-- C57, refuted for the other pairs of formats: one refused request, SLIP_OK, and a matrix with the right entries and the wrong scale
(SLIP_matrix_copy.c line 127: the status of `SLIP_mpq_set` is not looked at). The matrix is (1/2), the copy says (1). -/
theorem C57_scale_refuted :
    ∃ (ω : ℕ → Bool) (A : Mat) (M M₀ : Mat),
      (SLIP_matrix_copyF 1 Ex.fp true (some none) .csc .mpz (some A) none ω 0).1 = .ok (.ok, some (some M)) ∧
      SLIP_matrix_copy Ex.fp true (some none) .csc .mpz (some A) none = .ok (.ok, some (some M₀)) ∧
      M.x = some (.mpz [some 1]) ∧ M.scale = 1 ∧ M₀.x = some (.mpz [some 1]) ∧ M₀.scale = 2 := by
  have h : FlakyEx.see (FlakyEx.copy 30) = (some (.ok, [some 1], 1), 32) := by decide +kernel
  have h0 : FlakyEx.see (SLIP_matrix_copy Ex.fp true (some none) .csc .mpz (some FlakyEx.T) none, 0) =
      (some (.ok, [some 1], 2), 0) := by decide +kernel
  have key : ∀ (r : C (Info × Handle Mat) × ℕ) (σ : ℚ) (k : ℕ), FlakyEx.see r = (some (.ok, [some 1], σ), k) →
      ∃ M, r.1 = .ok (.ok, some (some M)) ∧ M.x = some (.mpz [some 1]) ∧ M.scale = σ := by
    rintro ⟨r, k⟩ σ k' hr
    unfold FlakyEx.see at hr
    have hr := congrArg Prod.fst hr
    dsimp only at hr
    rcases r with e | ⟨e, _ | _ | M⟩
    · cases hr
    · cases hr
    · cases hr
    · dsimp only [Option.join_some] at hr
      rcases hx : M.x with _ | v
      · simp [hx] at hr
      · rcases v with v | v | v | v | v <;> simp [hx] at hr
        obtain ⟨rfl, rfl, rfl⟩ := hr
        exact ⟨M, rfl, hx, rfl⟩
  obtain ⟨M, h1, h2, h3⟩ := key _ _ _ h
  obtain ⟨M₀, h4, h5, h6⟩ := key _ _ _ h0
  exact ⟨_, FlakyEx.T, M, M₀, h1, h4, h2, h3, h5, h6⟩

/-- C57: what it leads to. The system `(1/2) x = 1` is copied and solved, exactly one of all requests is refused, every function
returns SLIP_OK, and the solution is 1. Without a refused request it is 2. -/
theorem C57_wrong_solution_refuted :
    FlakyEx.solve 30 = some (some (.mpq [some 1])) ∧ FlakyEx.solve 1000 = some (some (.mpq [some 2])) := by
  constructor <;> decide +kernel

/-! ## Examples -/

/-- Both statuses of a refused request occur; a run in which none of the 32 requests is refused succeeds. -/
example : FlakyEx.see (FlakyEx.copy 0) = (some (.outOfMemory, [], 0), 1) ∧
    FlakyEx.see (FlakyEx.copy 29) = (some (.incorrectInput, [], 0), 30) ∧
    FlakyEx.see (FlakyEx.copy 31) = (some (.outOfMemory, [], 0), 32) ∧
    FlakyEx.see (FlakyEx.copy 32) = (some (.ok, [some 1], 2), 32) := by
  refine ⟨?_, ?_, ?_, ?_⟩ <;> decide +kernel

example := C57_copy_checked 5 (fun s => s % 3 == 1) 4 Ex.fp true (some none) .triplet .mpz (some FlakyEx.T) none
  (fun M h => by cases h; exact Or.inr (Or.inl ⟨rfl, rfl⟩))

end Slip
