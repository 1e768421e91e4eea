import Verif.Proof.Machine4Read

/-!
# 64-bit arithmetic: SLIP_read_dense on any file
-/

namespace Slip.M64

theorem scanInt64_eq {s : Stream} (h : ∀ a ws, s.words = .int a :: ws → -2 ^ 60 ≤ a ∧ a ≤ 2 ^ 60) :
    scanInt64 s = .ok (scan Word.asInt s) := by
  obtain ⟨w, nl, e⟩ := s
  cases w with
  | nil => rfl
  | cons w ws =>
    cases w with
    | int v =>
      obtain ⟨h0, h1⟩ := h v ws rfl
      exact scanInt64_ints rfl h0 (by omega)
    | real v => rfl
    | junk => rfl

/-- The header `a b` of a dense file, as far as it is there, is within range. -/
def DimsOk (ws : List Word) : Prop :=
  ∀ a ws', ws = .int a :: ws' → (-2 ^ 60 ≤ a ∧ a ≤ 2 ^ 60) ∧
    ∀ b ws'', ws' = .int b :: ws'' → (-2 ^ 60 ≤ b ∧ b ≤ 2 ^ 60) ∧ -2 ^ 60 ≤ a * b ∧ a * b ≤ 2 ^ 60

theorem scan2_64_eq {s : Stream} (h : DimsOk s.words) : scan2_64 s = .ok (scan2 s) := by
  have h1 := scanInt64_eq (s := s) fun a ws e => (h a ws e).1
  unfold scan2_64 scan2
  rw [h1, ok_bind]
  obtain ⟨w, nl, e⟩ := s
  cases w with
  | nil => rfl
  | cons w ws =>
    cases w with
    | real v => rfl
    | junk => rfl
    | int a =>
      rw [scan_int rfl]
      dsimp only
      rw [scanInt64_eq fun b ws' e => ((h a ws rfl).2 b ws' e).1, ok_bind]
      cases ws with
      | nil => rfl
      | cons w' ws' => cases w' <;> rfl

theorem scan2_dims {s s' : Stream} {k a b : ℤ} (h : DimsOk s.words) (hs : scan2 s = (k, some a, some b, s')) :
    -2 ^ 60 ≤ a * b ∧ a * b ≤ 2 ^ 60 ∧ a ≤ 2 ^ 60 := by
  obtain ⟨w, nl, e⟩ := s
  cases w with
  | nil => cases hs
  | cons w ws =>
    cases w with
    | real v => cases hs
    | junk => cases hs
    | int a' =>
      obtain ⟨ha, hb⟩ := h a' ws rfl
      cases ws with
      | nil => cases hs
      | cons w' ws' =>
        cases w' with
        | real v => cases hs
        | junk => cases hs
        | int b' =>
          cases hs
          have := hb b ws' rfl
          exact ⟨this.2.1, this.2.2, ha.2⟩

theorem agree_readDenseBody {s : Stream} (h : DimsOk s.words) :
    Agree (readDenseBody64 true s) (readDenseBody true s) fun _ => True := by
  unfold readDenseBody64 readDenseBody
  rw [scan2_64_eq h, ok_bind]
  rcases hs : scan2 s with ⟨k, a, b, s'⟩
  cases a with
  | none => exact Agree.error _
  | some m =>
  cases b with
  | none => exact Agree.error _
  | some n =>
  obtain ⟨d0, d1, d2⟩ := scan2_dims h hs
  dsimp only
  refine Agree.ite (fun _ => Agree.error _) fun _ => ?_
  refine agree_i64 (by omega) ?_
  refine Agree.ite (fun _ => Agree.error _) fun _ => ?_
  refine Agree.bind (agree_allocate (fun _ _ _ => by omega) (fun h => by cases h)) fun A hA => ?_
  obtain ⟨-, hm, hn⟩ := hA
  refine Agree.bind (P := fun _ => True) (agree_loop (fun _ => True) trivial ?_) fun _ _ => Agree.pure _ trivial
  rintro i ⟨x, file⟩ hi0 hi1 -
  refine agree_loop (fun _ => True) trivial ?_
  rintro j ⟨x, file⟩ hj0 hj1 -
  refine ix64_agree hm hj0 hj1 d1 ⟨by omega, by omega⟩ ?_
  dsimp only
  refine Agree.ite (fun _ => Agree.error _) fun _ => ?_
  exact agree_same fun _ => Agree.pure _ trivial

theorem readDense64_eq {s : Stream} (h : DimsOk s.words) (bh : Handle Mat)
    (hu : SLIP_read_dense true bh (some s) ≠ .error .ub) :
    SLIP_read_dense64 true bh (some s) = SLIP_read_dense true bh (some s) := by
  have hb := agree_readDenseBody h
  unfold SLIP_read_dense at hu
  unfold SLIP_read_dense64 SLIP_read_dense
  dsimp only at hu ⊢
  have hne : readDenseBody true s ≠ .error .ub := by
    intro e
    rw [e] at hu
    exact hu rfl
  rw [hb.eq hne]
  rcases readDenseBody true s with e | r
  · cases e <;> rfl
  · rfl

end Slip.M64
