import Verif.Proof.FlakyCopy
import Verif.Props.Api

/-!
# Property C56: memory pressure never changes an answer

A history of answers `ω : ℕ → Bool` says of each request whether it is refused (`true`); a function that is called when `t` requests
have been made returns its result and the number of requests made by then.  `ω` is arbitrary: the theorems hold for every point and
every pattern of failure, and also when later requests are granted again.
-/

namespace Slip

open Flaky

/-- Some of the requests `t, ..., t' - 1` is refused. -/
def SomeRefused (ω : ℕ → Bool) (t t' : ℕ) : Prop := ∃ s, t ≤ s ∧ s < t' ∧ ω s = true

/-- None of the requests `t, ..., t' - 1` is refused. -/
def NoneRefused (ω : ℕ → Bool) (t t' : ℕ) : Prop := ∀ s, t ≤ s → s < t' → ω s = false

section

variable (junk : ℚ) (ω : ℕ → Bool) (t : ℕ)

/-- C56: `SLIP_LU_analyze`, for all arguments: if a request was refused, it returns SLIP_OUT_OF_MEMORY and NULL; otherwise what it
returns with unlimited memory. -/
theorem C56_analyze (O : Orderings) (init : Bool) (S : Handle Analysis) (A : Option Mat) (opt : Option Options) :
    let r := SLIP_LU_analyzeF O init S A opt ω t
    t ≤ r.2 ∧ (SomeRefused ω t r.2 → r.1 = .ok (.outOfMemory, some none)) ∧
      (NoneRefused ω t r.2 → r.1 = SLIP_LU_analyze O init S A opt) := by
  intro r
  obtain ⟨h0, h⟩ := (SLIP_LU_analyzeF_stop O init S A opt).out ω t
  refine ⟨h0, fun ⟨s, h1, h2, h3⟩ => ?_, fun hn => ?_⟩
  · rcases h with ⟨⟨a, e, rfl⟩, -⟩ | ⟨-, hn⟩
    · exact e
    · rw [hn s h1 h2] at h3; cases h3
  · rcases h with ⟨-, s, h1, h2, h3⟩ | ⟨e, -⟩
    · rw [hn s h1 h2] at h3; cases h3
    · exact e

/-- C56: `SLIP_LU_factorize`, for all arguments: if a request was refused, it returns SLIP_OUT_OF_MEMORY or SLIP_INCORRECT_INPUT and
four NULL handles; otherwise what it returns with unlimited memory. In particular it never returns SLIP_SINGULAR, or a factor,
because memory was short. -/
theorem C56_factorize (nc : Int → Int → ℚ → Bool) (init : Bool) (L U rhos : Handle Mat)
    (pinv : Handle (Arr Int)) (A : Option Mat) (S : Option Analysis) (opt : Option Options) :
    let r := SLIP_LU_factorizeF nc init L U rhos pinv A S opt ω t
    t ≤ r.2 ∧ (SomeRefused ω t r.2 →
        r.1 = .ok ⟨.outOfMemory, some none, some none, some none, some none⟩ ∨
        r.1 = .ok ⟨.incorrectInput, some none, some none, some none, some none⟩) ∧
      (NoneRefused ω t r.2 → r.1 = SLIP_LU_factorize nc init L U rhos pinv A S opt) := by
  intro r
  obtain ⟨h0, h⟩ := (SLIP_LU_factorizeF_stop nc init L U rhos pinv A S opt).out ω t
  refine ⟨h0, fun ⟨s, h1, h2, h3⟩ => ?_, fun hn => ?_⟩
  · rcases h with ⟨⟨⟨e, l, u, ρ, p⟩, he, h4, rfl, rfl, rfl, rfl⟩, -⟩ | ⟨-, hn⟩
    · rcases h4 with rfl | rfl
      · exact Or.inl he
      · exact Or.inr he
    · rw [hn s h1 h2] at h3; cases h3
  · rcases h with ⟨-, s, h1, h2, h3⟩ | ⟨e, -⟩
    · rw [hn s h1 h2] at h3; cases h3
    · exact e

/-- C56: `SLIP_LU_solve`, for all arguments: if a request was refused, it returns SLIP_OUT_OF_MEMORY or SLIP_INCORRECT_INPUT and NULL;
otherwise what it returns with unlimited memory. -/
theorem C56_solve (init : Bool) (x : Handle Mat) (b A L U rhos : Option Mat)
    (S : Option Analysis) (pinv : Option (Arr Int)) (opt : Option Options) :
    let r := SLIP_LU_solveF init x b A L U rhos S pinv opt ω t
    t ≤ r.2 ∧ (SomeRefused ω t r.2 → r.1 = .ok (.outOfMemory, some none) ∨ r.1 = .ok (.incorrectInput, some none)) ∧
      (NoneRefused ω t r.2 → r.1 = SLIP_LU_solve init x b A L U rhos S pinv opt) := by
  intro r
  obtain ⟨h0, h⟩ := (SLIP_LU_solveF_stop init x b A L U rhos S pinv opt).out ω t
  refine ⟨h0, fun ⟨s, h1, h2, h3⟩ => ?_, fun hn => ?_⟩
  · rcases h with ⟨⟨⟨e, y⟩, he, h4, rfl⟩, -⟩ | ⟨-, hn⟩
    · rcases h4 with rfl | rfl
      · exact Or.inl he
      · exact Or.inr he
    · rw [hn s h1 h2] at h3; cases h3
  · rcases h with ⟨-, s, h1, h2, h3⟩ | ⟨e, -⟩
    · rw [hn s h1 h2] at h3; cases h3
    · exact e

/-- C56: `SLIP_backslash`, for all arguments: if a request was refused, it returns SLIP_OUT_OF_MEMORY or SLIP_INCORRECT_INPUT and NULL;
otherwise what it returns with unlimited memory. -/
theorem C56_backslash (fp : Fp) (O : Orderings) (nc : Int → Int → ℚ → Bool) (init : Bool)
    (X : Handle Mat) (type : Ty) (A b : Option Mat) (opt : Option Options) :
    let r := SLIP_backslashF junk fp O nc init X type A b opt ω t
    t ≤ r.2 ∧ (SomeRefused ω t r.2 → r.1 = .ok (.outOfMemory, some none) ∨ r.1 = .ok (.incorrectInput, some none)) ∧
      (NoneRefused ω t r.2 → r.1 = SLIP_backslash fp O nc init X type A b opt) := by
  intro r
  obtain ⟨h0, h⟩ := (SLIP_backslashF_stop junk fp O nc init X type A b opt).out ω t
  refine ⟨h0, fun ⟨s, h1, h2, h3⟩ => ?_, fun hn => ?_⟩
  · rcases h with ⟨⟨⟨e, y⟩, he, h4, rfl⟩, -⟩ | ⟨-, hn⟩
    · rcases h4 with rfl | rfl
      · exact Or.inl he
      · exact Or.inr he
    · rw [hn s h1 h2] at h3; cases h3
  · rcases h with ⟨-, s, h1, h2, h3⟩ | ⟨e, -⟩
    · rw [hn s h1 h2] at h3; cases h3
    · exact e

/-- Each run has a refused request or none. -/
theorem refused_or (ω : ℕ → Bool) (t t' : ℕ) : SomeRefused ω t t' ∨ NoneRefused ω t t' := by
  by_cases h : SomeRefused ω t t'
  · exact Or.inl h
  · refine Or.inr fun s h1 h2 => ?_
    cases h3 : ω s with
    | false => rfl
    | true => exact absurd ⟨s, h1, h2, h3⟩ h

/-- C56: a status other than SLIP_OUT_OF_MEMORY and SLIP_INCORRECT_INPUT is that of the run with unlimited memory, and so is the
result: whatever memory does, SLIP_OK comes with the right answer and SLIP_SINGULAR is not a lie. -/
theorem C56_status_final (fp : Fp) (O : Orderings) (nc : Int → Int → ℚ → Bool) (init : Bool)
    (X : Handle Mat) (type : Ty) (A b : Option Mat) (opt : Option Options) {e : Info} {x : Handle Mat}
    (h : (SLIP_backslashF junk fp O nc init X type A b opt ω t).1 = .ok (e, x))
    (h1 : e ≠ .outOfMemory) (h2 : e ≠ .incorrectInput) :
    SLIP_backslash fp O nc init X type A b opt = .ok (e, x) := by
  obtain ⟨-, h3, h4⟩ := C56_backslash junk ω t fp O nc init X type A b opt
  rcases refused_or ω t (SLIP_backslashF junk fp O nc init X type A b opt ω t).2 with hr | hr
  · rcases h3 hr with h5 | h5
    · rw [h] at h5; cases h5; exact absurd rfl h1
    · rw [h] at h5; cases h5; exact absurd rfl h2
  · rw [← h4 hr, h]

/-- C56: enough memory is enough: if the first requests are granted, as many as the run with unlimited memory makes, the result is the
one of that run, whatever is refused later. -/
theorem C56_enough (fp : Fp) (O : Orderings) (nc : Int → Int → ℚ → Bool) (init : Bool)
    (X : Handle Mat) (type : Ty) (A b : Option Mat) (opt : Option Options)
    (h : NoneRefused ω t (SLIP_backslashF junk fp O nc init X type A b opt (fun _ => false) t).2) :
    (SLIP_backslashF junk fp O nc init X type A b opt ω t).1 = SLIP_backslash fp O nc init X type A b opt :=
  ((SLIP_backslashF_stop junk fp O nc init X type A b opt).enough ω t h).2

variable {n k : ℕ} {fp : Fp} {O : Orderings} {nc : Int → Int → ℚ → Bool} {A b : Mat} {opt : Option Options} {X : Option Mat}

/-- C56, C01: for a nonsingular system, whatever memory does, `SLIP_backslash` returns the exact solution, or reports
SLIP_OUT_OF_MEMORY or SLIP_INCORRECT_INPUT and gives no solution; and the latter only if a request was refused. -/
theorem C56_exact_or_nothing (hO : AmdOk O opt n) (hA : IsCsc n A) (hb : IsDenseZ n k b)
    (hn : 0 < n) (hsA : A.scale ≠ 0) (hsb : b.scale ≠ 0) (ht : TolOk opt) (hd : (A.matrix n).det ≠ 0) :
    let r := SLIP_backslashF junk fp O nc true (some X) .mpq (some A) (some b) opt ω t
    (∃ x, r.1 = .ok (.ok, some (some x)) ∧ IsDenseQ n k x ∧
      unscale (A.matrix n) A.scale * x.denseQ n k = unscale (b.denseZ n k) b.scale) ∨
    ((r.1 = .ok (.outOfMemory, some none) ∨ r.1 = .ok (.incorrectInput, some none)) ∧ SomeRefused ω t r.2) := by
  intro r
  obtain ⟨-, h3, h4⟩ := C56_backslash junk ω t fp O nc true (some X) .mpq (some A) (some b) opt
  rcases refused_or ω t r.2 with hr | hr
  · exact Or.inr ⟨h3 hr, hr⟩
  · obtain ⟨x, h1, h2, e⟩ := C35_backslash_mpq (fp := fp) (nc := nc) (X := X) hO hA hb hn hsA hsb ht hd
    exact Or.inl ⟨x, (h4 hr).trans h1, h2, e⟩

/-- C56, C02: a matrix is called singular only if it is, whatever memory does. -/
theorem C56_singular_only_if (hO : AmdOk O opt n) (hA : IsCsc n A) (hb : IsDenseZ n k b)
    (hn : 0 < n) (hsA : A.scale ≠ 0) (hsb : b.scale ≠ 0) (ht : TolOk opt) {x : Handle Mat}
    (h : (SLIP_backslashF junk fp O nc true (some X) .mpq (some A) (some b) opt ω t).1 = .ok (.singular, x)) :
    (A.matrix n).det = 0 := by
  by_contra hd
  rcases C56_exact_or_nothing junk ω t (fp := fp) (nc := nc) (X := X) hO hA hb hn hsA hsb ht hd with ⟨x, e, -⟩ | ⟨e | e, -⟩ <;>
    · rw [h] at e
      cases e

end

/-! ## Examples: a system whose solution takes 205 requests -/

example := C56_exact_or_nothing 7 (fun s => s % 7 == 3) 5 (fp := Ex.fp) (nc := Ex.nc) (X := none) (opt := none) (Ex.orderings_ok _)
  Ex.A_csc Ex.b_dense (by decide) Ex.scale_ne.1 Ex.scale_ne.2 Ex.tol_ok (by rw [Ex.A_det]; decide)

/-- The run of the example in which exactly request `s` is refused. -/
def Ex.flaky (s : ℕ) : C (Info × Handle Mat) × ℕ :=
  SLIP_backslashF 1 Ex.fp Ex.orderings Ex.nc true (some none) .mpq (some Ex.A) (some Ex.b) none (fun u => u == s) 0

/-- Its status. -/
def Ex.flakyStatus (s : ℕ) : Option Info :=
  match (Ex.flaky s).1 with
  | .ok r => some r.1
  | .error _ => none

/-- Both statuses of a refused request occur, and a run in which none of the 205 requests is refused succeeds. -/
example : Ex.flakyStatus 0 = some .outOfMemory ∧ Ex.flakyStatus 11 = some .incorrectInput ∧
    Ex.flakyStatus 100 = some .outOfMemory ∧ Ex.flakyStatus 204 = some .outOfMemory ∧
    Ex.flakyStatus 205 = some .ok ∧ (Ex.flaky 205).2 = 205 ∧ (Ex.flaky 100).2 = 101 := by
  decide +kernel

end Slip
