import Verif.Proof.StoreApi

/-!
# `SLIP_backslash` over a heap agrees with the value model

The objects `L`, `U`, `rhos`, `pinv`, `S` and (for a result that is not exact) `x` are released before the
return. All of them have been allocated by the call, so no array that existed before the call is released.
-/

namespace Slip.Store

variable {α β γ δ : Type} {h0 h h1 : Heap}

theorem Agrees.weaken {view : Heap → β → α} {run : Except Fail β × Heap} {m : C α} (F : Frame h h1)
    (s : Agrees h1 view run m) : Agrees h view run m := ⟨F.trans s.1, s.2⟩

theorem Agrees.bind {mH : H β} {m : C α} {v : Heap → β → α} {v' : Heap → δ → γ} {fH : β → H δ}
    {f : α → C γ} (s : Agrees h v (mH h1) m)
    (k : ∀ b h2, mH h1 = (.ok b, h2) → Frame h h2 → Agrees h v' (fH b h2) (f (v h2 b))) :
    Agrees h v' ((mH >>= fH) h1) (m >>= f) := by
  obtain ⟨s1, s2⟩ := s
  rcases e : mH h1 with ⟨e1 | b, h2⟩
  · rw [bind_error e]
    rw [e] at s1 s2
    rw [← s2]
    exact ⟨s1, rfl⟩
  · rw [bind_run e]
    rw [e] at s1 s2
    rw [← s2]
    exact k b h2 e s1

/-- The computation `m` releases arrays of integers that did not exist in `h0`. -/
def Rel (h0 : Heap) (m : H Unit) : Prop :=
  ∀ h, Frame h0 h → ∃ h', m h = (.ok (), h') ∧ Frame h0 h' ∧ h'.q = h.q

theorem Rel.pure : Rel h0 (pure ()) := fun h F => ⟨h, rfl, F, rfl⟩

theorem Rel.bind {m : H Unit} {f : Unit → H Unit} (a : Rel h0 m) (b : Rel h0 (f ())) :
    Rel h0 (m >>= f) := fun h F => by
  obtain ⟨h1, e1, F1, q1⟩ := a h F
  obtain ⟨h2, e2, F2, q2⟩ := b h1 F1
  exact ⟨h2, by rw [bind_run e1]; exact e2, F2, q2.trans q1⟩

theorem Rel.free {r : Ref} (hr : h0.nz ≤ r) : Rel h0 (freeH r) := fun h F =>
  ⟨h.put r [], rfl, ⟨fun s hs => (if_neg (by omega)).trans (F.1 s hs), F.2⟩, rfl⟩

theorem Rel.freeIf {r : Option Ref} {b : Bool} (hr : ∀ s ∈ r, h0.nz ≤ s) : Rel h0 (freeIfH r b) := by
  cases r with
  | none => exact Rel.pure
  | some r =>
    unfold freeIfH
    cases b with
    | true => exact Rel.pure
    | false => exact Rel.free (hr r rfl)

theorem Rel.matrix {A : Option MatH} (hA : ∀ a ∈ A, (∀ r ∈ a.refs, h0.nz ≤ r) ∧ a.refsq = []) :
    Rel h0 (SLIP_matrix_freeH A) := by
  cases A with
  | none => exact Rel.pure
  | some A =>
    obtain ⟨ha, hq⟩ := hA A rfl
    unfold SLIP_matrix_freeH
    refine Rel.bind (Rel.freeIf fun s hs => ha s (by rw [MatH.refs, Option.mem_def.mp hs]; simp)) ?_
    refine Rel.bind (Rel.freeIf fun s hs => ha s (by rw [MatH.refs, Option.mem_def.mp hs]; simp)) ?_
    refine Rel.bind (Rel.freeIf fun s hs => ha s (by rw [MatH.refs, Option.mem_def.mp hs]; simp)) ?_
    cases e : A.x with
    | none => exact Rel.pure
    | some x =>
      cases x with
      | mpz r =>
        dsimp only
        cases A.xShallow with
        | true => exact Rel.pure
        | false => exact Rel.free (ha r (by simp [MatH.refs, e]))
      | int64 r =>
        dsimp only
        cases A.xShallow with
        | true => exact Rel.pure
        | false => exact Rel.free (ha r (by simp [MatH.refs, e]))
      | mpq r => simp [MatH.refsq, e] at hq
      | mpfr _ => exact Rel.pure
      | fp64 _ => exact Rel.pure

/-- The release of a solution. -/
theorem free_x {y : Option MatH} (hy : ∀ a ∈ y, a.refs = [] ∧ ∀ r ∈ a.refsq, h0.nq ≤ r) (h : Heap)
    (F : Frame h0 h) : ∃ h', SLIP_matrix_freeH y h = (.ok (), h') ∧ Frame h0 h' := by
  cases y with
  | none => exact ⟨h, rfl, F⟩
  | some A =>
    obtain ⟨ha, hq⟩ := hy A rfl
    have ep : A.p = none := by
      cases e : A.p with | none => rfl | some r => simp [MatH.refs, e] at ha
    have ei : A.i = none := by
      cases e : A.i with | none => rfl | some r => simp [MatH.refs, e] at ha
    have ej : A.j = none := by
      cases e : A.j with | none => rfl | some r => simp [MatH.refs, e] at ha
    rcases A with ⟨_, _, _, _, _, _, p, _, i, _, j, _, x, xs, _⟩
    obtain rfl : p = none := ep
    obtain rfl : i = none := ei
    obtain rfl : j = none := ej
    cases x with
    | none => exact ⟨h, rfl, F⟩
    | some x =>
      cases x with
      | mpz r => simp [MatH.refs] at ha
      | int64 r => simp [MatH.refs] at ha
      | mpq r =>
        cases xs with
        | true => exact ⟨h, rfl, F⟩
        | false =>
          have hr := hq r (by simp [MatH.refsq])
          exact ⟨h.putq r [], rfl, F.1, fun s hs => (if_neg (by omega)).trans (F.2.1 s hs), F.2.2⟩
      | mpfr _ => exact ⟨h, rfl, F⟩
      | fp64 _ => exact ⟨h, rfl, F⟩

theorem Agrees.release {m : H Unit} (hm : Rel h m) (F : Frame h h1) {b : β} {a : α} {v : Heap → β → α}
    (e : ∀ h', h'.q = h1.q → v h' b = a) :
    Agrees h v ((m >>= fun _ => (Pure.pure b : H β)) h1) (Pure.pure a : C α) := by
  obtain ⟨h2, e1, F2, q2⟩ := hm h1 F
  rw [bind_run e1]
  exact ⟨F2, congrArg Except.ok (e h2 q2)⟩

/-- A matrix with no integer arrays is determined by the arrays of rationals. -/
theorem view_q {A : MatH} (hA : A.refs = []) {h h' : Heap} (e : h'.q = h.q) : A.view h' = A.view h := by
  have ep : A.p = none := by
    cases e : A.p with | none => rfl | some r => simp [MatH.refs, e] at hA
  have ei : A.i = none := by
    cases e : A.i with | none => rfl | some r => simp [MatH.refs, e] at hA
  have ej : A.j = none := by
    cases e : A.j with | none => rfl | some r => simp [MatH.refs, e] at hA
  unfold MatH.view
  rw [ep, ei, ej]
  cases ex : A.x with
  | none => rfl
  | some x =>
    cases x with
    | mpz r => simp [MatH.refs, ex] at hA
    | int64 r => simp [MatH.refs, ex] at hA
    | mpq r => simp only [Option.map_some, XRef.view]; rw [e]; rfl
    | mpfr _ => rfl
    | fp64 _ => rfl

theorem Rel.back {L U R : Option MatH} {p : Option Ref} {S : Option AnalysisH}
    (hL : ∀ a ∈ L, (∀ r ∈ a.refs, h0.nz ≤ r) ∧ a.refsq = [])
    (hU : ∀ a ∈ U, (∀ r ∈ a.refs, h0.nz ≤ r) ∧ a.refsq = [])
    (hR : ∀ a ∈ R, (∀ r ∈ a.refs, h0.nz ≤ r) ∧ a.refsq = [])
    (hp : ∀ r ∈ p, h0.nz ≤ r) (hS : ∀ s ∈ S, h0.nz ≤ s.q) : Rel h0 (backFreeH L U R p S) := by
  unfold backFreeH
  refine Rel.bind (Rel.matrix hL) (Rel.bind (Rel.matrix hU) (Rel.bind (Rel.freeIf hp)
    (Rel.bind (Rel.matrix hR) (Rel.freeIf ?_))))
  intro r hr
  cases S with
  | none => cases hr
  | some S => cases hr; exact hS S rfl

/-- What is needed of the objects in the handles after `SLIP_LU_factorize`. -/
theorem out_facts {f : FactOutH} {h h' : Heap}
    (o : (f.L = some none ∧ f.U = some none ∧ f.rhos = some none ∧ f.pinv = some none) ∨
      ∃ L U R p, (f.L = some (some L) ∧ f.U = some (some U) ∧ f.rhos = some (some R) ∧
        f.pinv = some (some p)) ∧ FreshOut h h' L U R p) :
    (∀ a, (a ∈ f.L.join ∨ a ∈ f.U.join ∨ a ∈ f.rhos.join) →
      (∀ r ∈ a.refs, h.nz ≤ r ∧ r < h'.nz) ∧ a.refsq = []) ∧
    (∀ r ∈ f.pinv.join, h.nz ≤ r ∧ r < h'.nz) := by
  rcases o with ⟨e1, e2, e3, e4⟩ | ⟨L, U, R, p, ⟨e1, e2, e3, e4⟩, ⟨⟨-, hr⟩, hq⟩⟩
  · rw [e1, e2, e3, e4]
    constructor
    · rintro a (h | h | h) <;> cases h
    · intro r h; cases h
  · rw [e1, e2, e3, e4]
    obtain ⟨hq1, hq3⟩ := List.append_eq_nil_iff.mp hq
    obtain ⟨hq1, hq2⟩ := List.append_eq_nil_iff.mp hq1
    constructor
    · rintro a (h | h | h) <;> cases h
      · exact ⟨fun r h => hr r (by simp [h]), hq1⟩
      · exact ⟨fun r h => hr r (by simp [h]), hq2⟩
      · exact ⟨fun r h => hr r (by simp [h]), hq3⟩
    · intro r h; cases h
      exact hr _ (by simp)

theorem join_map (S : Handle α) (f : α → β) : (S.map (Option.map f)).join = S.join.map f := by
  rcases S with _ | _ | s <;> rfl

theorem backslashH_agrees (fp : Fp) (O : Orderings) (nc : Int → Int → ℚ → Bool) (init : Bool)
    (X : Handle XOut) (type : Ty) {A b : Option MatH} (opt : Option Options) (hO : h.Ok)
    (hA : ∀ a ∈ A, a.In h) (hb : ∀ a ∈ b, a.In h) :
    Agrees h backView (SLIP_backslashH fp O nc init X type A b opt h)
      (SLIP_backslash fp O nc init (X.map (Option.map (XOut.view h))) type (A.map (MatH.view h))
        (b.map (MatH.view h)) opt) := by
  unfold SLIP_backslashH SLIP_backslash
  simp only [requireFailsH_view, map_none]
  cases init with
  | false => exact Agrees.pure rfl
  | true =>
    simp only [Bool.not_true, Bool.false_eq_true, if_false]
    by_cases hX : X = none
    · subst hX
      exact Agrees.pure rfl
    rw [if_neg (by simpa using hX), if_neg hX]
    have ite : ∀ {c : Prop} [Decidable c] {mH : H (Info × Handle XOut)} {m : C (Info × Handle Mat)},
        (¬ c → Agrees h backView (mH h) m) →
        Agrees h backView ((if c then (Pure.pure (Info.incorrectInput, some none)) else mH) h)
          (if c then Pure.pure (Info.incorrectInput, some none) else m) := by
      intro c _ mH m hm
      by_cases hc : c
      · rw [if_pos hc, if_pos hc]; exact Agrees.pure rfl
      · rw [if_neg hc, if_neg hc]; exact hm hc
    refine ite fun _ => ite fun _ => ite fun _ => ?_
    refine Agrees.bind (analyzeH_agrees O true (some none) opt hO hA) fun rS h1 e1 F1 => ?_
    obtain ⟨i1, S⟩ := rS
    dsimp only [anaView]
    show Agrees h backView _ (if i1 ≠ .ok then _ else _)
    by_cases hi : i1 = .ok
    swap
    · rw [if_pos (show i1 ≠ .ok from hi), if_pos (show i1 ≠ .ok from hi)]
      exact ⟨F1, rfl⟩
    rw [if_neg (show ¬ (i1 ≠ .ok) from not_not.mpr hi), if_neg (show ¬ (i1 ≠ .ok) from not_not.mpr hi)]
    subst hi
    obtain ⟨S, rfl, -, hS⟩ := analyzeH_fresh O true (some none) S opt hO hA (by rw [e1])
    rw [e1] at hS
    have hS := hS S.q (List.mem_singleton.mpr rfl)
    have eA : A.map (MatH.view h) = A.map (MatH.view h1) := by
      cases A with
      | none => rfl
      | some A => exact congrArg some (view_frame F1 (hA A rfl)).symm
    have eb : ∀ h2, Frame h h2 → b.map (MatH.view h) = b.map (MatH.view h2) := by
      intro h2 F
      cases b with
      | none => rfl
      | some b => exact congrArg some (view_frame F (hb b rfl)).symm
    have hO1 := Ok_frame F1 hO
    have hA1 : ∀ a ∈ A, a.In h1 := fun a ha => In_frame F1 (hA a ha)
    have hS1 : ∀ s ∈ (some S), s.q < h1.nz := fun s hs => by cases hs; exact hS.2
    rw [join_map]
    show Agrees h backView _ (SLIP_LU_factorize nc true (some none) (some none) (some none) (some none) _
      ((some S).map (AnalysisH.view h1)) opt >>= _)
    rw [eA]
    refine Agrees.bind (Agrees.weaken F1 (factorizeH_agrees nc true (some none) (some none) (some none)
      (some none) opt hO1 hA1 hS1)) fun f h2 e2 F2 => ?_
    have F12 : Frame h1 h2 := by
      have := (factorizeH_agrees nc true (some none) (some none) (some none)
        (some none) opt hO1 hA1 hS1).1
      rw [show SLIP_LU_factorizeH nc true (some none) (some none) (some none) (some none) A (some S) opt h1 =
        _ from e2] at this
      exact this
    have hout := factorizeH_out nc true (some none) (some none) (some none) (some none) opt hO1 hA1 hS1 e2
    obtain ⟨hf1, hf2⟩ := out_facts (h := h1) (h' := h2) (f := f) (by
      rcases hout with h | h
      · exact Or.inl h.2
      · exact h)
    have hle := F1.2.2.1
    have hrel : Rel h (backFreeH f.L.join f.U.join f.rhos.join f.pinv.join (some S)) := by
      refine Rel.back (fun a ha => ?_) (fun a ha => ?_) (fun a ha => ?_) (fun r hr => hle.trans (hf2 r hr).1)
        fun s hs => by cases hs; exact hS.1
      · have := hf1 a (Or.inl ha); exact ⟨fun r hr => hle.trans (this.1 r hr).1, this.2⟩
      · have := hf1 a (Or.inr (Or.inl ha)); exact ⟨fun r hr => hle.trans (this.1 r hr).1, this.2⟩
      · have := hf1 a (Or.inr (Or.inr ha)); exact ⟨fun r hr => hle.trans (this.1 r hr).1, this.2⟩
    have hIn : ∀ a, (a ∈ f.L.join ∨ a ∈ f.U.join ∨ a ∈ f.rhos.join) → a.In h2 := fun a ha =>
      ⟨fun r hr => ((hf1 a ha).1 r hr).2, fun r hr => by rw [(hf1 a ha).2] at hr; cases hr⟩
    show Agrees h backView _ (if f.info ≠ .ok then _ else _)
    by_cases hi : f.info = .ok
    swap
    · rw [if_pos (show f.info ≠ .ok from hi), if_pos (show f.info ≠ .ok from hi)]
      exact Agrees.release hrel F2 fun _ _ => rfl
    rw [if_neg (show ¬ (f.info ≠ .ok) from not_not.mpr hi), if_neg (show ¬ (f.info ≠ .ok) from not_not.mpr hi)]
    have hO2 := Ok_frame F2 hO
    have hA2 : ∀ a ∈ A, a.In h2 := fun a ha => In_frame F2 (hA a ha)
    have hb2 : ∀ a ∈ b, a.In h2 := fun a ha => In_frame F2 (hb a ha)
    have hS2 : ∀ s ∈ (some S), s.q < h2.nz := fun s hs => by
      cases hs; exact lt_of_lt_of_le hS.2 F12.2.2.1
    have eA2 : A.map (MatH.view h1) = A.map (MatH.view h2) := by
      cases A with
      | none => rfl
      | some A => exact congrArg some (view_frame F12 (hA1 A rfl)).symm
    have eS2 : (some S).map (AnalysisH.view h1) = (some S).map (AnalysisH.view h2) := by
      have : h2.z S.q = h1.z S.q := F12.1 _ hS.2
      simp only [Option.map_some, AnalysisH.view]
      rw [this]
    show Agrees h backView _ (SLIP_LU_solve true (some none) _ _ (f.L.map (Option.map (MatH.view h2))).join
      (f.U.map (Option.map (MatH.view h2))).join (f.rhos.map (Option.map (MatH.view h2))).join
      ((some S).map (AnalysisH.view h1)) (f.pinv.map (Option.map h2.z)).join opt >>= _)
    rw [join_map, join_map, join_map, join_map, eA2, eS2, eb h2 F2]
    have hsol := solveH_agrees (h := h2) true (some none) opt hO2 hb2 hA2 (fun a ha => hIn a (Or.inl ha))
      (fun a ha => hIn a (Or.inr (Or.inl ha))) (fun a ha => hIn a (Or.inr (Or.inr ha))) hS2
      (fun r hr => (hf2 r hr).2)
    refine Agrees.bind (Agrees.weaken F2 hsol) fun rx h3 e3 F3 => ?_
    obtain ⟨i3, x⟩ := rx
    have hx : x.join = none ∨ ∃ y r, x = some (some y) ∧ y.refs = [] ∧ y.refsq = [r] ∧ h2.nq ≤ r := by
      rcases solveH_out (h := h2) true (some none) opt hO2 hb2 hA2 (fun a ha => hIn a (Or.inl ha))
        (fun a ha => hIn a (Or.inr (Or.inl ha))) (fun a ha => hIn a (Or.inr (Or.inr ha))) hS2
        (fun r hr => (hf2 r hr).2) e3 with h | h | ⟨y, r, e1, e2, e3, e4, -⟩
      · exact Or.inl (by rw [h.2]; rfl)
      · exact Or.inl (by rw [h]; rfl)
      · exact Or.inr ⟨y, r, e1, e2, e3, e4⟩
    dsimp only [solView]
    show Agrees h backView _ (if i3 ≠ .ok then _ else _)
    by_cases hi3 : i3 = .ok
    swap
    · rw [if_pos (show i3 ≠ .ok from hi3), if_pos (show i3 ≠ .ok from hi3)]
      exact Agrees.release hrel F3 fun _ _ => rfl
    rw [if_neg (show ¬ (i3 ≠ .ok) from not_not.mpr hi3), if_neg (show ¬ (i3 ≠ .ok) from not_not.mpr hi3)]
    by_cases ht : type = .mpq
    · rw [if_pos ht, if_pos ht]
      refine Agrees.release hrel F3 fun h' hq => ?_
      refine congrArg (Prod.mk Info.ok) ?_
      rcases x with _ | _ | x
      · rfl
      · rfl
      · rcases hx with h | ⟨y, r, e1, e2, -, -⟩
        · cases h
        · cases e1
          exact congrArg (fun m => some (some m)) (view_q e2 hq)
    rw [if_neg ht, if_neg ht, join_map]
    have hcp : copyH fp true type x.join opt h3 =
        (SLIP_matrix_copy fp true (some none) .dense type (x.join.map (MatH.view h3)) opt, h3) := rfl
    refine Agrees.bind (v := fun _ r => r) ⟨by rw [hcp]; exact F3, by
      rw [hcp]; cases SLIP_matrix_copy fp true (some none) .dense type (x.join.map (MatH.view h3)) opt <;> rfl⟩
      fun rc h4 e4 _ => ?_
    obtain rfl : h3 = h4 := by rw [hcp] at e4; exact (Prod.mk.inj e4).2
    obtain ⟨i4, x2⟩ := rc
    have hfx : ∀ g, Frame h g → ∃ g', SLIP_matrix_freeH x.join g = (.ok (), g') ∧ Frame h g' := by
      refine fun g Fg => free_x (fun a ha => ?_) g Fg
      rcases hx with h | ⟨y, r, e1, e2, e3, e4⟩
      · rw [h] at ha; cases ha
      · rw [e1] at ha; cases ha
        refine ⟨e2, fun s hs => ?_⟩
        rw [e3] at hs
        rw [List.mem_singleton.mp hs]
        exact F2.2.2.2.trans e4
    dsimp only
    by_cases hi4 : i4 = .ok
    · rw [if_neg (show ¬ (i4 ≠ .ok) from not_not.mpr hi4), if_neg (show ¬ (i4 ≠ .ok) from not_not.mpr hi4)]
      obtain ⟨h5, e5, F5⟩ := hfx h3 F3
      rw [bind_run e5]
      refine Agrees.release hrel F5 fun h' _ => ?_
      refine congrArg (Prod.mk Info.ok) ?_
      rcases x2 with _ | _ | x2 <;> rfl
    · rw [if_pos (show i4 ≠ .ok from hi4), if_pos (show i4 ≠ .ok from hi4)]
      obtain ⟨h5, e5, F5, -⟩ := hrel h3 F3
      rw [show (some (some S)).join = some S from rfl, bind_run e5]
      obtain ⟨h6, e6, F6⟩ := hfx h5 F5
      rw [bind_run e6]
      exact ⟨F6, rfl⟩

end Slip.Store
