import Verif.Model.Machine3
import Verif.Proof.Machine2

/-!
# 64-bit arithmetic: SLIP_matrix_check
-/

namespace Slip.M64
variable {α β σ : Type}

theorem prLimit64_eq {s : Int × Int} (h0 : 0 ≤ s.2) (h1 : s.2 < 2 ^ 62) : prLimit64 s = .ok (prLimit s) := by
  unfold prLimit64 prLimit
  rw [i64_eq (by omega) (by omega)]
  rfl

theorem prLimit_snd (s : Int × Int) : (prLimit s).2 = s.2 + 1 := by
  unfold prLimit
  by_cases c : s.1 = 2 ∧ s.2 + 1 > 30
  · rw [if_pos c]
  · rw [if_neg c]

theorem agree_limit {s : Int × Int} {f' : Int × Int → C β} {m : C β} {Q : β → Prop} (h0 : 0 ≤ s.2) (h1 : s.2 < 2 ^ 62)
    (hf : Agree (f' (prLimit s)) m Q) : Agree (prLimit64 s >>= f') m Q := by
  rw [prLimit64_eq h0 h1]; exact hf

theorem agree_checkPtr {p : Arr Int} {n nz : Int} (hn : n ≤ 2 ^ 60) :
    Agree (checkPtr64 p n nz) (checkPtr p n nz) fun _ => ∀ j a b : Int, 0 ≤ j → j < n → get p j = some a →
      get p (j + 1) = some b → a ≤ b ∧ b ≤ nz := by
  unfold checkPtr64 checkPtr
  refine (agree_forRange (fun i _ => ∀ j a b : Int, 0 ≤ j → j < i → get p j = some a →
      get p (j + 1) = some b → a ≤ b ∧ b ≤ nz) (fun j a b h0 h1 => by omega) ?_).mono ?_
  · intro i s h0 h1 hI
    refine agree_rd fun a ha _ _ => ?_
    refine agree_i64 (by omega) ?_
    refine agree_rd fun b hb _ _ => ?_
    refine Agree.ite (fun _ => Agree.error _) fun c => Agree.pure _ ?_
    intro j a' b' hj0 hj1 ha' hb'
    by_cases e : j = i
    · subst e
      rw [ha] at ha'
      rw [hb] at hb'
      cases ha'
      cases hb'
      omega
    · exact hI j a' b' hj0 (by omega) ha' hb'
  · intro _ hI j a b h0 h1 ha hb
    exact hI j a b h0 (by omega) ha hb

theorem agree_checkRows {A : Mat} {p i : Arr Int} {pr nz : Int} (hn : A.n ≤ 2 ^ 60) (hz : nz ≤ 2 ^ 60)
    (hp : ∀ j a b : Int, 0 ≤ j → j < A.n → get p j = some a → get p (j + 1) = some b → a ≤ b ∧ b ≤ nz) :
    Agree (checkRows64 A p i pr) (checkRows A p i pr) fun _ => True := by
  unfold checkRows64 checkRows
  refine Agree.bind (P := fun _ => True) ((agree_forRange (fun j (s : Arr Int × Int × Int) => 0 ≤ s.2.2 ∧ ∀ a, get p j = some a →
    s.2.2 ≤ j + max a 0) ⟨le_rfl, fun a _ => by show (0 : Int) ≤ _; omega⟩ ?_).mono fun _ _ => trivial) fun _ _ => Agree.pure _ trivial
  rintro j ⟨work, s⟩ h0 h1 ⟨hs, hI⟩
  dsimp only at hs hI ⊢
  -- if the pointer of the column cannot be read, the loop fails
  cases ea : get p j with
  | none =>
    have : ∀ {γ : Type} (f : Int → C γ), (rd p j >>= f) = .error .ub := fun f => by
      unfold rd; rw [ea]; rfl
    rw [this]
    exact Or.inl rfl
  | some a =>
  have hsa := hI a ea
  cases eb : get p (j + 1) with
  | none =>
    have : ∀ {γ : Type} (f : Int → C γ), (rd p (j + 1) >>= f) = .error .ub := fun f => by
      unfold rd; rw [eb]; rfl
    rw [rd_eq ea, ok_bind, this]
    exact Or.inl rfl
  | some b =>
  obtain ⟨hab, hbz⟩ := hp j a b h0 h1 ea eb
  refine agree_limit hs (by omega) ?_
  refine agree_i64 (by omega) ?_
  rw [rd_eq ea, rd_eq eb, ok_bind, ok_bind, ok_bind, ok_bind]
  have e1 := prLimit_snd s
  refine (agree_forRange (fun t (s : Arr Int × Int × Int) => 0 ≤ s.2.2 ∧ s.2.2 ≤ j + 1 + max t 0)
    ⟨by show 0 ≤ (prLimit s).2; omega, by show (prLimit s).2 ≤ _; omega⟩ ?_).mono ?_
  · rintro t ⟨work, s⟩ ht0 ht1 ⟨hs0, hs1⟩
    dsimp only at hs0 hs1 ⊢
    refine agree_rd fun r hr hr0 _ => ?_
    refine Agree.ite (fun _ => Agree.error _) fun _ => ?_
    refine agree_rd fun w hw _ _ => ?_
    refine Agree.ite (fun _ => Agree.error _) fun _ => ?_
    refine Agree.ite (fun _ => ?_) fun _ => ?_
    · refine agree_limit hs0 (by omega) ?_
      refine agree_same fun _ => ?_
      refine agree_wr fun _ _ => Agree.pure _ ?_
      have := prLimit_snd s
      dsimp only
      omega
    · refine agree_wr fun _ _ => Agree.pure _ ?_
      dsimp only
      omega
  · rintro ⟨work, s⟩ ⟨hs0, hs1⟩
    dsimp only at hs0 hs1 ⊢
    refine ⟨hs0, fun a' ha' => ?_⟩
    cases ha'
    have : max a b = b := by omega
    rw [this] at hs1
    exact hs1

theorem agree_checkTriplets {A : Mat} {i j : Arr Int} {nz pr : Int} (hz : nz ≤ 2 ^ 60) :
    Agree (checkTriplets64 A i j nz pr) (checkTriplets A i j nz pr) fun _ => True := by
  unfold checkTriplets64 checkTriplets
  refine Agree.bind (P := fun _ => True) ((agree_forRange (fun t (s : Int × Int) => 0 ≤ s.2 ∧ s.2 ≤ t)
    ⟨by show (0 : Int) ≤ 0; exact le_rfl, by show (0 : Int) ≤ 0; exact le_rfl⟩ ?_).mono fun _ _ => trivial) fun _ _ => Agree.pure _ trivial
  rintro t s h0 h1 ⟨hs0, hs1⟩
  refine agree_same fun r => agree_same fun c => ?_
  refine Agree.ite (fun _ => Agree.error _) fun _ => ?_
  refine Agree.ite (fun _ => ?_) fun _ => Agree.pure _ ⟨hs0, by omega⟩
  refine agree_limit hs0 (by omega) ?_
  refine agree_same fun _ => Agree.pure _ ?_
  have := prLimit_snd s
  omega

theorem agree_checkDup {qs : List (Int × Int) → List (Int × Int)} {i j : Arr Int} {nz : Int} (h0 : 0 ≤ nz) (hz : nz ≤ 2 ^ 59) :
    Agree (checkDup64 qs i j nz) (checkDup qs i j nz) fun _ => True := by
  unfold checkDup64 checkDup
  refine agree_i64 (by omega) ?_
  refine agree_malloc64 (by omega) ?_
  refine Agree.bind (P := fun _ => True) (agree_loop (fun _ => True) trivial ?_) fun work _ => ?_
  · intro t work h0 h1 _
    refine agree_same fun c => agree_i64 (by omega) ?_
    refine agree_same fun r => agree_i64 (by omega) ?_
    exact Agree.pure _ trivial
  · refine agree_loop (fun _ => True) trivial ?_
    intro t _ h0 h1 _
    refine agree_i64 (by omega) (agree_i64 (by omega) ?_)
    refine agree_same fun this => agree_i64 (by omega) (agree_i64 (by omega) (agree_i64 (by omega) ?_))
    refine agree_same fun last => ?_
    exact Agree.ite (fun _ => Agree.error _) fun _ => Agree.pure _ trivial

theorem agree_checkDense {A : Mat} {pr : Int} (hm : 0 ≤ A.m) (hn : A.n ≤ 2 ^ 60) (hz : A.m * A.n ≤ 2 ^ 60) :
    Agree (checkDense64 A pr) (checkDense A pr) fun _ => True := by
  unfold checkDense64 checkDense
  refine Agree.bind (P := fun _ => True) ((agree_forRange (fun j (s : Int × Int) => 0 ≤ s.2 ∧ s.2 ≤ j + j * A.m)
    ⟨le_rfl, by simp⟩ ?_).mono fun _ _ => trivial) fun _ _ => Agree.pure _ trivial
  rintro j s h0 h1 ⟨hs0, hs1⟩
  have e1 : (j + 1) * A.m ≤ A.n * A.m := mul_le_mul_of_nonneg_right (by omega) hm
  have e2 : (j + 1) * A.m = j * A.m + A.m := by ring
  have e3 : A.n * A.m = A.m * A.n := mul_comm _ _
  have e4 : 0 ≤ j * A.m := mul_nonneg h0 hm
  refine agree_limit hs0 (by omega) ?_
  have e5 := prLimit_snd s
  refine (agree_forRange (fun i (s : Int × Int) => 0 ≤ s.2 ∧ s.2 ≤ j + 1 + j * A.m + i) ⟨by omega, by omega⟩ ?_).mono ?_
  · rintro i s hi0 hi1 ⟨hs0, hs1⟩
    refine Agree.ite (fun _ => ?_) fun _ => Agree.pure _ ⟨hs0, by omega⟩
    refine agree_limit hs0 (by omega) ?_
    refine agree_i64 (by omega) (agree_i64 (by omega) ?_)
    refine agree_same fun _ => Agree.pure _ ?_
    have := prLimit_snd s
    omega
  · rintro s ⟨hs0, hs1⟩
    have : max 0 A.m = A.m := by omega
    rw [this] at hs1
    exact ⟨hs0, by rw [e2]; omega⟩

theorem agree_checkKind {qs : List (Int × Int) → List (Int × Int)} {A : Mat} {nz pr : Int} (hm : 0 ≤ A.m) (h0 : 0 ≤ nz)
    (hn : A.n ≤ 2 ^ 60) (hz : nz ≤ 2 ^ 59) (hd : A.kind = .dense → A.m * A.n ≤ 2 ^ 60) :
    Agree (checkKind64 qs A nz pr) (checkKind qs A nz pr) fun _ => True := by
  unfold checkKind64 checkKind
  cases hk : A.kind with
  | csc =>
    have key : ∀ p0 : Int, Agree
        (if A.nzmax > 0 ∧ (A.p = none ∨ p0 ≠ 0) then .error (.ret .incorrectInput)
        else do
          checkPtr64 (deref A.p) A.n nz
          if A.nzmax > 0 ∧ (A.i = none ∨ A.x = none) then .error (.ret .incorrectInput)
          else checkRows64 A (deref A.p) (deref A.i) pr)
        (if A.nzmax > 0 ∧ (A.p = none ∨ p0 ≠ 0) then .error (.ret .incorrectInput)
        else do
          checkPtr (deref A.p) A.n nz
          if A.nzmax > 0 ∧ (A.i = none ∨ A.x = none) then .error (.ret .incorrectInput)
          else checkRows A (deref A.p) (deref A.i) pr) fun _ => True := by
      intro p0
      refine Agree.ite (fun _ => Agree.error _) fun _ => ?_
      refine Agree.bind (agree_checkPtr hn) fun _ hp => ?_
      exact Agree.ite (fun _ => Agree.error _) fun _ => agree_checkRows hn (by omega) hp
    dsimp only
    refine Agree.ite (fun _ => agree_same fun p0 => key p0) fun _ => key 0
  | triplet =>
    refine Agree.ite (fun _ => Agree.error _) fun _ => ?_
    exact Agree.bind (agree_checkTriplets (by omega)) fun _ _ => agree_checkDup h0 hz
  | dense => exact Agree.ite (fun _ => Agree.error _) fun _ => agree_checkDense hm hn (hd hk)
  | bad v => exact Agree.pure _ trivial

end Slip.M64
