import Verif.Model.StoreApi
import Verif.Proof.StoreSolve

/-!
# The user-callable functions over a heap agree with the value model
-/

namespace Slip.Store

variable {α β γ δ σ τ : Type} {h0 h : Heap}

theorem Agrees.of_sim {mH : H β} {m : C α} {R : α → β × Heap} {view : Heap → β → α}
    (s : Sim h h mH m R) (hv : ∀ a, view (R a).2 (R a).1 = a) (hF : ∀ a, Frame h (R a).2) :
    Agrees h view (mH h) m := by
  cases m with
  | ok a =>
    have s : mH h = _ := s
    unfold Agrees
    rw [s]
    refine ⟨hF a, ?_⟩
    show Except.ok (view (R a).2 (R a).1) = _
    rw [hv]
  | error e =>
    obtain ⟨h', e1, e2⟩ := s
    unfold Agrees
    rw [e1]
    exact ⟨e2, rfl⟩

theorem Agrees.pure {b : β} {a : α} {view : Heap → β → α} (e : view h b = a) :
    Agrees h view ((pure b : H β) h) (pure a : C α) :=
  ⟨Frame.refl h, by show Except.ok (view h b) = Except.ok a; rw [e]⟩

/-! ### Views -/

theorem In_p {A : MatH} (hA : A.In h) {r : Ref} (e : A.p = some r) : r < h.nz :=
  hA.1 r (by simp [MatH.refs, e])

theorem In_i {A : MatH} (hA : A.In h) {r : Ref} (e : A.i = some r) : r < h.nz :=
  hA.1 r (by simp [MatH.refs, e])

theorem In_j {A : MatH} (hA : A.In h) {r : Ref} (e : A.j = some r) : r < h.nz :=
  hA.1 r (by simp [MatH.refs, e])

theorem In_p0 {A : MatH} (hO : h.Ok) (hA : A.In h) : A.p.getD 0 < h.nz := by
  cases e : A.p with
  | none => exact hO.1
  | some r => exact In_p hA e

theorem In_i0 {A : MatH} (hO : h.Ok) (hA : A.In h) : A.i.getD 0 < h.nz := by
  cases e : A.i with
  | none => exact hO.1
  | some r => exact In_i hA e

theorem In_x0 {A : MatH} (hO : h.Ok) (hA : A.In h) : A.xz < h.nz := by
  unfold MatH.xz
  cases e : A.x with
  | none => exact hO.1
  | some r =>
    cases r with
    | mpz r => exact hA.1 r (by simp [MatH.refs, e])
    | _ => exact hO.1

theorem In_csc {A : MatH} (hO : h.Ok) (hA : A.In h) : A.toCsc.In h :=
  ⟨In_p0 hO hA, In_i0 hO hA, In_x0 hO hA⟩

theorem deref_map (hO : h.Ok) (p : Option Ref) : deref (p.map h.z) = h.z (p.getD 0) := by
  cases p with
  | none => exact hO.2.symm
  | some r => rfl

theorem view_xz (hO : h.Ok) (A : MatH) : (A.view h).xz = h.z A.xz := by
  unfold Mat.xz MatH.xz MatH.view
  cases A.x with
  | none => exact hO.2.symm
  | some r =>
    cases r <;> first | rfl | exact hO.2.symm

theorem view_csc (hO : h.Ok) (A : MatH) : A.toCsc.view h = (A.view h).toCsc := by
  unfold CscH.view Mat.toCsc MatH.toCsc
  rw [view_xz hO]
  show Csc.mk _ _ _ _ _ _ = Csc.mk _ _ _ _ _ _
  congr 1
  · exact (deref_map hO _).symm
  · exact (deref_map hO _).symm

theorem view_dense (hO : h.Ok) (A : MatH) : A.toDense.view h = (A.view h).toDense := by
  unfold DenseH.view Mat.toDense MatH.toDense
  rw [view_xz hO]
  rfl

theorem view_frame {h' : Heap} (F : Frame h h') {A : MatH} (hA : A.In h) : A.view h' = A.view h := by
  unfold MatH.view
  congr 1
  · cases e : A.p with
    | none => rfl
    | some r => exact congrArg some (F.1 r (In_p hA e))
  · cases e : A.i with
    | none => rfl
    | some r => exact congrArg some (F.1 r (In_i hA e))
  · cases e : A.j with
    | none => rfl
    | some r => exact congrArg some (F.1 r (In_j hA e))
  · cases e : A.x with
    | none => rfl
    | some r =>
      cases r with
      | mpz r => exact congrArg (fun a => some (Vals.mpz a)) (F.1 r (hA.1 r (by simp [MatH.refs, e])))
      | int64 r => exact congrArg (fun a => some (Vals.int64 a)) (F.1 r (hA.1 r (by simp [MatH.refs, e])))
      | mpq r => exact congrArg (fun a => some (Vals.mpq a)) (F.2.1 r (hA.2 r (by simp [MatH.refsq, e])))
      | mpfr a => rfl
      | fp64 a => rfl

theorem In_frame {h' : Heap} (F : Frame h h') {A : MatH} (hA : A.In h) : A.In h' :=
  ⟨fun r hr => lt_of_lt_of_le (hA.1 r hr) F.2.2.1, fun r hr => lt_of_lt_of_le (hA.2 r hr) F.2.2.2⟩

theorem Ok_frame {h' : Heap} (F : Frame h h') (hO : h.Ok) : h'.Ok :=
  ⟨lt_of_lt_of_le hO.1 F.2.2.1, by rw [F.1 0 hO.1]; exact hO.2⟩

/-! ### SLIP_matrix_nnz, SLIP_LU_analyze -/

theorem nnz_sim (init : Bool) {A : Option MatH} (hA : ∀ a ∈ A, a.In h0) (F : Frame h0 h)
    (hv : ∀ r, r < h0.nz → h.z r = h0.z r) :
    Sim h0 h (SLIP_matrix_nnzH init A) (SLIP_matrix_nnz init (A.map (MatH.view h0))) fun v => (v, h) := by
  unfold SLIP_matrix_nnzH SLIP_matrix_nnz
  refine Sim.ite (fun _ => Sim.pure rfl) fun _ => ?_
  cases A with
  | none => exact Sim.pure rfl
  | some A =>
    show Sim _ _ (match A.kind with | .csc => _ | .triplet => _ | .dense => _ | .bad _ => _)
      (match A.kind with | .csc => _ | .triplet => _ | .dense => _ | .bad _ => _) _
    cases A.kind with
    | csc =>
      show Sim _ _ (match A.p with | none => _ | some p => _)
        (match A.p.map h0.z with | none => _ | some p => _) _
      cases e : A.p with
      | none => exact Sim.pure rfl
      | some p =>
        refine Sim.ite (fun _ => Sim.pure rfl) fun _ => ?_
        exact Sim.rd' (hv p (In_p (hA A rfl) e)) F
    | triplet => exact Sim.pure rfl
    | dense => exact Sim.ite (fun _ => Sim.pure rfl) fun _ => Sim.pure rfl
    | bad _ => exact Sim.pure rfl

/-- The arrays allocated by `SLIP_LU_analyze`. -/
def anaList (opt : Option Options) (q : Arr Int) : List (Arr Int) :=
  match optOrder opt with
  | .colamd => [q, []]
  | _ => [q]

theorem colamd_sim (O : Orderings) (n Alen : Int) (q a : Arr Int) :
    Sim h0 (ext h0 [q, a] []) (colamdH O n Alen (h0.nz + 1) (h0.nz + 0))
      (Colamd.colamd (ar := Arith.exact) n n Alen a q (O.knobs n)) fun r => ((), ext h0 [r.2, []] []) := by
  have e1 : (ext h0 [q, a] []).z (h0.nz + 0) = q := ext_z rfl
  have e2 : (ext h0 [q, a] []).z (h0.nz + 1) = a := ext_z rfl
  unfold Sim colamdH
  dsimp only
  rw [e1, e2]
  cases Colamd.colamd (ar := Arith.exact) n n Alen a q (O.knobs n) with
  | ok r =>
    refine congrArg (Prod.mk _) ?_
    rw [ext_put (l := [q, a]) (j := 1) (by simp)]
    exact ext_put (l := [q, []]) (j := 0) (by simp)
  | error e =>
    refine ⟨_, rfl, ?_⟩
    rw [ext_put (l := [q, a]) (j := 1) (by simp)]
    show Frame h0 (Heap.put (ext h0 [q, []] []) _ _)
    rw [ext_put (l := [q, []]) (j := 0) (by simp)]
    exact ext_frame ..

theorem analyze_sim (O : Orderings) {A : MatH} (hO : h0.Ok) (hA : A.In h0) (opt : Option Options) :
    Sim h0 h0 (analyzeBodyH O A opt) (analyzeBody O (A.view h0) opt)
      fun a => (⟨h0.nz + 0, a.lnz, a.unz⟩, ext h0 (anaList opt a.q) []) := by
  unfold analyzeBodyH analyzeBody
  refine Sim.bind (nnz_sim true (A := some A) (fun a ha => by cases ha; exact hA) (Frame.refl _)
    fun _ _ => rfl) fun anz => ?_
  have e0 : ∀ {β α : Type} (mH : H β) (m : C α) R, Sim h0 (ext h0 [] []) mH m R → Sim h0 h0 mH m R := by
    intro _ _ _ _ _ h; rwa [ext_nil] at h
  apply e0
  refine Sim.new ?_
  refine Sim.bind (R := fun r : Arr Int × Int => (r.2, ext h0 (anaList opt r.1) [])) ?_ fun r => Sim.pure rfl
  unfold anaList
  cases optOrder opt with
  | none =>
    exact Sim.bind (Sim.for' (fun q : Arr Int => ((), ext h0 [q] [])) rfl fun i q =>
      Sim.modE (E := fun q => ext h0 [q] []) (g := fun a => Slip.wr a i i) (slot_ext [] [] []))
      fun q => Sim.pure rfl
  | amd =>
    unfold analyzeAmdH analyzeAmd
    show Sim _ _ (match A.p, A.i with | some p, some i => _ | _, _ => _)
      (match A.p.map h0.z, A.i.map h0.z with | some p, some i => _ | _, _ => _) _
    cases ep : A.p with
    | none => exact Sim.pure rfl
    | some p =>
      cases ei : A.i with
      | none => exact Sim.pure rfl
      | some i =>
        dsimp only [Option.map_some]
        have e1 : (ext h0 ([] ++ [malloc Int (A.n + 1)]) []).z p = h0.z p := ext_old (In_p hA ep)
        have e2 : (ext h0 ([] ++ [malloc Int (A.n + 1)]) []).z i = h0.z i := ext_old (In_i hA ei)
        have e3 : (ext h0 ([] ++ [malloc Int (A.n + 1)]) []).z (h0.nz + ([] : List (Arr Int)).length) =
          malloc Int (A.n + 1) := ext_z rfl
        show Sim _ _ _ (Amd.amd_order (ar := Arith.exact) A.n (h0.z p) (h0.z i) (malloc Int (A.n + 1))
          (O.amdMem A.n (h0.z p) (h0.z i)) (O.amdKnobs A.n) >>= fun r => pure (r.2.1, r.2.2)) _
        unfold Sim
        dsimp only
        rw [e1, e2, e3]
        cases Amd.amd_order (ar := Arith.exact) A.n (h0.z p) (h0.z i) (malloc Int (A.n + 1))
          (O.amdMem A.n (h0.z p) (h0.z i)) (O.amdKnobs A.n) with
        | ok r => exact congrArg (Prod.mk _) (ext_put (l := [malloc Int (A.n + 1)]) (by simp))
        | error e => exact ⟨_, rfl, ext_frame ..⟩
  | colamd =>
    refine Sim.new ?_
    refine Sim.bind (Sim.for' (fun q : Arr Int => ((), ext h0 [q, malloc Int (2 * anz + 6 * (A.n + 1) +
      6 * (A.n + 1) + A.n)] [])) rfl fun i q => ?_) fun q => ?_
    · show Sim _ _ _ (Slip.rd (deref (A.p.map h0.z)) i >>= _) _
      rw [deref_map hO]
      exact Sim.rd (ext_old (In_p0 hO hA)) (ext_frame ..) fun v =>
        Sim.modE (g := fun a => Slip.wr a i v) (slot_ext [] [_] [])
    refine Sim.bind (Sim.for' (fun a : Arr Int => ((), ext h0 [q, a] [])) rfl fun i a => ?_) fun a => ?_
    · show Sim _ _ _ (Slip.rd (deref (A.i.map h0.z)) i >>= _) _
      rw [deref_map hO]
      exact Sim.rd (ext_old (In_i0 hO hA)) (ext_frame ..) fun v =>
        Sim.modE (E := fun a => ext h0 [q, a] []) (g := fun a => Slip.wr a i v) (slot_ext [q] [] [])
    refine Sim.bind (R := fun r : Bool × Arr Int => ((), ext h0 [r.2, []] [])) ?_ fun r => ?_
    · exact colamd_sim O _ _ q a
    · exact Sim.free (j := 1) (by simp) (Sim.pure rfl)

theorem Agrees.map {mH : H β} {m : C α} {view : Heap → β → α} {view' : Heap → δ → γ} {f : β → δ}
    {g : α → γ} (s : Agrees h view (mH h) m) (hv : ∀ h b, view' h (f b) = g (view h b)) :
    Agrees h view' ((mH >>= fun b => (Pure.pure (f b) : H δ)) h) (m >>= fun a => (Pure.pure (g a) : C γ)) := by
  obtain ⟨s1, s2⟩ := s
  have e : (mH >>= fun b => (Pure.pure (f b) : H δ)) h = ((mH h).1.map f, (mH h).2) := by
    show (match mH h with
      | (.ok a, h) => (Except.ok (f a), h)
      | (.error e, h) => (Except.error e, h)) = _
    rcases mH h with ⟨_ | _, _⟩ <;> rfl
  unfold Agrees
  rw [e, ← s2]
  refine ⟨s1, ?_⟩
  cases (mH h).1 with
  | ok b => exact congrArg Except.ok (hv _ _)
  | error e => rfl

theorem Agrees.bind0 {mH : H α} {m : C α} {view : Heap → δ → γ} {fH : α → H δ} {f : α → C γ}
    (s : Sim h h mH m fun v => (v, h)) (hf : ∀ v, Agrees h view (fH v h) (f v)) :
    Agrees h view ((mH >>= fH) h) (m >>= f) := by
  cases m with
  | ok a =>
    have s : mH h = (.ok a, h) := s
    rw [bind_run s]
    exact hf a
  | error e =>
    obtain ⟨h', e1, e2⟩ := s
    have : (mH >>= fH) h = (.error e, h') := by
      show (match mH h with | (.ok a, h) => fH a h | (.error e, h) => (.error e, h)) = _
      rw [e1]
    unfold Agrees
    rw [this]
    exact ⟨e2, rfl⟩

theorem anaView_frame {h' : Heap} (F : Frame h h') {S : Handle AnalysisH}
    (hS : ∀ s ∈ S.join, s.q < h.nz) (i : Info) : anaView h' (i, S) = anaView h (i, S) := by
  rcases S with _ | _ | s
  · rfl
  · rfl
  · unfold anaView AnalysisH.view
    simp only [Option.map_some]
    rw [F.1 s.q (hS s rfl)]

theorem map_none {f : α → β} (S : Handle α) : (S.map (Option.map f) = none) ↔ (S = none) := by
  cases S <;> simp

theorem analyzeH_agrees (O : Orderings) (init : Bool) (S : Handle AnalysisH) {A : Option MatH}
    (opt : Option Options) (hO : h.Ok) (hA : ∀ a ∈ A, a.In h) :
    Agrees h anaView (SLIP_LU_analyzeH O init S A opt h)
      (SLIP_LU_analyze O init (S.map (Option.map (AnalysisH.view h))) (A.map (MatH.view h)) opt) := by
  unfold SLIP_LU_analyzeH SLIP_LU_analyze
  cases init with
  | false => exact Agrees.pure rfl
  | true =>
    cases A with
    | none => exact Agrees.pure rfl
    | some A =>
      simp only [Bool.not_true, Bool.false_eq_true, if_false, Option.map_some, map_none]
      by_cases hk : A.kind = .csc
      · rw [if_neg (not_not.mpr hk), if_neg (not_not.mpr (show (A.view h).kind = .csc from hk))]
        by_cases hc : S = none ∨ A.n ≠ A.m
        · rw [if_pos hc, if_pos (show S = none ∨ (A.view h).n ≠ (A.view h).m from hc)]
          exact Agrees.pure rfl
        · rw [if_neg hc, if_neg (show ¬ (S = none ∨ (A.view h).n ≠ (A.view h).m) from hc)]
          have hAI := hA A rfl
          refine Agrees.map (view := AnalysisH.view) ?_ fun _ _ => rfl
          refine Agrees.of_sim (analyze_sim O hO hAI opt) (fun a => ?_) fun a => ext_frame ..
          have : (ext h (anaList opt a.q) []).z (h.nz + 0) = a.q := by
            unfold anaList
            cases optOrder opt <;> exact ext_z rfl
          show Analysis.mk _ _ _ = a
          dsimp only
          rw [this]
      · rw [if_pos hk, if_pos (show (A.view h).kind ≠ .csc from hk)]
        exact Agrees.pure rfl

theorem bind_error {mH : H β} {fH : β → H δ} {e : Fail} {h' : Heap} (e1 : mH h = (.error e, h')) :
    (mH >>= fH) h = (.error e, h') := by
  show (match mH h with | (.ok a, h) => fH a h | (.error e, h) => (.error e, h)) = _
  rw [e1]

theorem sim_run_ok {mH : H β} {m : C α} {R : α → β × Heap} (s : Sim h0 h mH m R) {b : β}
    (e : (mH h).1 = .ok b) : ∃ a, m = .ok a ∧ mH h = (.ok (R a).1, (R a).2) := by
  cases m with
  | ok a => exact ⟨a, rfl, s⟩
  | error f =>
    obtain ⟨h', e1, _⟩ := s
    rw [e1] at e
    cases e

theorem analyzeH_fresh (O : Orderings) (init : Bool) (S S' : Handle AnalysisH) {A : Option MatH}
    (opt : Option Options) (hO : h.Ok) (hA : ∀ a ∈ A, a.In h)
    (hr : (SLIP_LU_analyzeH O init S A opt h).1 = Except.ok (Info.ok, S')) :
    ∃ s, S' = some (some s) ∧ Fresh h (SLIP_LU_analyzeH O init S A opt h).2 [s.q] := by
  unfold SLIP_LU_analyzeH at hr ⊢
  cases init with
  | false => cases hr
  | true =>
    cases A with
    | none => cases hr
    | some A =>
      simp only [Bool.not_true, Bool.false_eq_true, if_false] at hr ⊢
      by_cases hk : A.kind = .csc
      · rw [if_neg (not_not.mpr hk)] at hr ⊢
        by_cases hc : S = none ∨ A.n ≠ A.m
        · rw [if_pos hc] at hr; cases hr
        · rw [if_neg hc] at hr ⊢
          have s := analyze_sim O hO (hA A rfl) opt
          cases em : analyzeBody O (A.view h) opt with
          | ok a =>
            rw [em] at s
            have e1 : analyzeBodyH O A opt h = _ := s
            rw [bind_run e1] at hr ⊢
            refine ⟨_, (congrArg Prod.snd (Except.ok.inj hr)).symm, List.nodup_singleton _, fun r hr => ?_⟩
            rw [List.mem_singleton.mp hr]
            refine ⟨Nat.le_add_right .., ?_⟩
            show h.nz + 0 < h.nz + (anaList opt a.q).length
            unfold anaList
            cases optOrder opt <;> simp
          | error e =>
            rw [em] at s
            obtain ⟨h', e1, -⟩ := s
            have e2 := bind_error (fH := fun r => (Pure.pure (Info.ok, some (some r)) : H (Info × Handle AnalysisH))) e1
            have hr : ((analyzeBodyH O A opt >>= fun r => (Pure.pure (Info.ok, some (some r)) :
                H (Info × Handle AnalysisH))) h).1 = Except.ok (Info.ok, S') := hr
            rw [e2] at hr
            cases hr
      · rw [if_pos hk] at hr; cases hr

/-! ### SLIP_LU_factorize -/

theorem facs_view (h0 : Heap) (n : Int) (F : Factors) :
    FactOutH.view (WR h0 F) ⟨.ok, some (some (MatH.ofCsc (facs h0 F).L)), some (some (MatH.ofCsc (facs h0 F).U)),
      some (some (MatH.ofDenseZ n 1 (max n 1) (facs h0 F).rhos)), some (some (facs h0 F).pinv)⟩ =
    ⟨.ok, some (some (Mat.ofCsc F.L)), some (some (Mat.ofCsc F.U)),
      some (some (Mat.ofDenseZ n 1 (max n 1) F.rhos)), some (some F.pinv)⟩ := by
  have e (j : ℕ) (a : Arr Int) (he : [F.pinv, [], [], [], [], F.rhos, F.L.p, F.L.i, F.L.x, F.U.p, F.U.i,
      F.U.x, []][j]? = some a) : (WR h0 F).z (h0.nz + j) = a := ext_z he
  unfold FactOutH.view
  simp only [Option.map_some, MatH.view, MatH.ofCsc, MatH.ofDenseZ, facs, cscL, cscU, XRef.view,
    Option.map_none, Mat.ofCsc, Mat.ofDenseZ]
  rw [e 0 _ rfl, e 5 _ rfl, e 6 _ rfl, e 7 _ rfl, e 8 _ rfl, e 9 _ rfl, e 10 _ rfl, e 11 _ rfl]

theorem factWrap_agrees {A : CscH} {q : Ref} (hA : A.In h) (hq : q < h.nz)
    (nc : Int → Int → ℚ → Bool) (order : Pivot) (tol : Dbl) (n lnz unz : Int) :
    Agrees h FactOutH.view (factWrapH n (factorizeH nc order tol A q lnz unz) h)
      (factWrap n (factorize nc order tol (A.view h) (h.z q) lnz unz)) := by
  have s := factorize_sim hA hq nc order tol lnz unz
  unfold Agrees factWrapH
  cases em : factorize nc order tol (A.view h) (h.z q) lnz unz with
  | ok F =>
    rw [em] at s
    have s : factorizeH nc order tol A q lnz unz h = _ := s
    rw [s]
    exact ⟨ext_frame .., congrArg Except.ok (facs_view h n F)⟩
  | error e =>
    rw [em] at s
    obtain ⟨h', e1, e2⟩ := s
    rw [e1]
    cases e <;> exact ⟨e2, rfl⟩

theorem factorizeH_agrees (nc : Int → Int → ℚ → Bool) (init : Bool) (L U rhos : Handle MatH)
    (pinv : Handle Ref) {A : Option MatH} {S : Option AnalysisH} (opt : Option Options) (hO : h.Ok)
    (hA : ∀ a ∈ A, a.In h) (hS : ∀ s ∈ S, s.q < h.nz) :
    Agrees h FactOutH.view (SLIP_LU_factorizeH nc init L U rhos pinv A S opt h)
      (SLIP_LU_factorize nc init (L.map (Option.map (MatH.view h))) (U.map (Option.map (MatH.view h)))
        (rhos.map (Option.map (MatH.view h))) (pinv.map (Option.map h.z)) (A.map (MatH.view h))
        (S.map (AnalysisH.view h)) opt) := by
  unfold SLIP_LU_factorizeH SLIP_LU_factorize
  cases init with
  | false => exact Agrees.pure rfl
  | true =>
    cases A with
    | none => exact Agrees.pure rfl
    | some A =>
      simp only [Bool.not_true, Bool.false_eq_true, if_false, Option.map_some, map_none]
      by_cases hk : A.kind = .csc
      · rw [if_neg (not_not.mpr hk), if_neg (not_not.mpr (show (A.view h).kind = .csc from hk))]
        by_cases ht : A.type = .mpz
        · rw [if_neg (not_not.mpr ht), if_neg (not_not.mpr (show (A.view h).type = .mpz from ht))]
          refine Agrees.bind0 (nnz_sim true (A := some A) hA (Frame.refl _) fun _ _ => rfl) fun anz => ?_
          cases S with
          | none => exact Agrees.pure rfl
          | some S =>
            dsimp only [Option.map_some]
            by_cases hc : L = none ∨ U = none ∨ rhos = none ∨ pinv = none ∨ anz < 0
            · rw [if_pos hc, if_pos hc]
              exact Agrees.pure rfl
            · rw [if_neg hc, if_neg hc]
              rw [← view_csc hO]
              exact factWrap_agrees (In_csc hO (hA A rfl)) (hS S rfl) nc _ _ _ _ _
        · rw [if_pos ht, if_pos (show (A.view h).type ≠ .mpz from ht)]
          exact Agrees.pure rfl
      · rw [if_pos hk, if_pos (show (A.view h).kind ≠ .csc from hk)]
        exact Agrees.pure rfl

/-- The four objects are in newly allocated, pairwise different arrays. -/
def FreshOut (h h' : Heap) (L U R : MatH) (p : Ref) : Prop :=
  Fresh h h' (L.refs ++ U.refs ++ R.refs ++ [p]) ∧ L.refsq ++ U.refsq ++ R.refsq = []

theorem factWrap_out {A : CscH} {q : Ref} (hA : A.In h) (hq : q < h.nz)
    (nc : Int → Int → ℚ → Bool) (order : Pivot) (tol : Dbl) (n lnz unz : Int) {f : FactOutH} {h' : Heap}
    (hr : factWrapH n (factorizeH nc order tol A q lnz unz) h = (.ok f, h')) :
    (f.L = some none ∧ f.U = some none ∧ f.rhos = some none ∧ f.pinv = some none) ∨
    ∃ L U R p, (f.L = some (some L) ∧ f.U = some (some U) ∧ f.rhos = some (some R) ∧
      f.pinv = some (some p)) ∧ FreshOut h h' L U R p := by
  have s := factorize_sim hA hq nc order tol lnz unz
  unfold factWrapH at hr
  cases em : factorize nc order tol (A.view h) (h.z q) lnz unz with
  | ok F =>
    rw [em] at s
    have s : factorizeH nc order tol A q lnz unz h = _ := s
    rw [s] at hr
    obtain ⟨hr, hh⟩ := Prod.mk.inj hr
    have hr := Except.ok.inj hr
    rw [← hr, ← hh]
    refine Or.inr ⟨_, _, _, _, ⟨rfl, rfl, rfl, rfl⟩, ⟨?_, ?_⟩, rfl⟩
    · show [h.nz + 6, h.nz + 7, h.nz + 8, h.nz + 9, h.nz + 10, h.nz + 11, h.nz + 5, h.nz + 0].Nodup
      simp
    · intro r hr
      have hr : r ∈ [h.nz + 6, h.nz + 7, h.nz + 8, h.nz + 9, h.nz + 10, h.nz + 11, h.nz + 5, h.nz + 0] := hr
      show h.nz ≤ r ∧ r < h.nz + 13
      simp only [List.mem_cons, List.not_mem_nil, or_false] at hr
      omega
  | error e =>
    rw [em] at s
    obtain ⟨h', e1, e2⟩ := s
    rw [e1] at hr
    cases e with
    | ret e =>
      have hr := Except.ok.inj (Prod.mk.inj hr).1
      rw [← hr]
      exact Or.inl ⟨rfl, rfl, rfl, rfl⟩
    | ub => cases hr
    | fuel => cases hr

/-- What `SLIP_LU_factorize` leaves in its handles: what was there, NULL, or four new objects. -/
theorem factorizeH_out (nc : Int → Int → ℚ → Bool) (init : Bool) (L U rhos : Handle MatH)
    (pinv : Handle Ref) {A : Option MatH} {S : Option AnalysisH} (opt : Option Options) (hO : h.Ok)
    (hA : ∀ a ∈ A, a.In h) (hS : ∀ s ∈ S, s.q < h.nz) {f : FactOutH} {h' : Heap}
    (hr : SLIP_LU_factorizeH nc init L U rhos pinv A S opt h = (.ok f, h')) :
    (f.info ≠ .ok ∧ f.L = L ∧ f.U = U ∧ f.rhos = rhos ∧ f.pinv = pinv) ∨
    (f.L = some none ∧ f.U = some none ∧ f.rhos = some none ∧ f.pinv = some none) ∨
    ∃ L U R p, (f.L = some (some L) ∧ f.U = some (some U) ∧ f.rhos = some (some R) ∧
      f.pinv = some (some p)) ∧ FreshOut h h' L U R p := by
  have keep : ∀ {i : Info} {g : Heap}, i ≠ .ok → (Pure.pure (f := H) (⟨i, L, U, rhos, pinv⟩ : FactOutH)) g =
      (.ok f, h') → (f.info ≠ .ok ∧ f.L = L ∧ f.U = U ∧ f.rhos = rhos ∧ f.pinv = pinv) := by
    intro i g hi hr
    have hr := Except.ok.inj (Prod.mk.inj hr).1
    rw [← hr]
    exact ⟨hi, rfl, rfl, rfl, rfl⟩
  unfold SLIP_LU_factorizeH at hr
  cases init with
  | false => exact Or.inl (keep (by simp) hr)
  | true =>
    cases A with
    | none => exact Or.inl (keep (by simp) hr)
    | some A =>
      simp only [Bool.not_true, Bool.false_eq_true, if_false] at hr
      by_cases hk : A.kind = .csc
      · rw [if_neg (not_not.mpr hk)] at hr
        by_cases ht : A.type = .mpz
        · rw [if_neg (not_not.mpr ht)] at hr
          have s := nnz_sim true (A := some A) hA (Frame.refl _) fun _ _ => rfl
          cases em : SLIP_matrix_nnz true ((some A).map (MatH.view h)) with
          | error e =>
            rw [em] at s
            obtain ⟨h', e1, -⟩ := s
            rw [bind_error e1] at hr
            cases hr
          | ok anz =>
            rw [em] at s
            have s : SLIP_matrix_nnzH true (some A) h = _ := s
            rw [bind_run s] at hr
            cases S with
            | none => exact Or.inl (keep (by simp) hr)
            | some S =>
              dsimp only at hr
              by_cases hc : L = none ∨ U = none ∨ rhos = none ∨ pinv = none ∨ anz < 0
              · rw [if_pos hc] at hr
                exact Or.inl (keep (by simp) hr)
              · rw [if_neg hc] at hr
                exact Or.inr (factWrap_out (In_csc hO (hA A rfl)) (hS S rfl) nc _ _ _ _ _ hr)
        · rw [if_pos ht] at hr
          exact Or.inl (keep (by simp) hr)
      · rw [if_pos hk] at hr
        exact Or.inl (keep (by simp) hr)

theorem requireFailsH_view (A : Option MatH) (k : Kind) (t : Ty) :
    requireFails (A.map (MatH.view h)) k t = requireFailsH A k t := by
  cases A <;> rfl

/-! ### SLIP_LU_solve -/

theorem denX_view (h0 : Heap) (check : Bool) (d : Dense ℚ) :
    (MatH.ofDenseQ (denX h0 d)).view (WS h0 check d) = Mat.ofDenseQ d := by
  have e : (WS h0 check d).q (h0.nq + 1) = d.x := by
    unfold WS
    cases check <;> exact ext_q rfl
  simp only [MatH.view, MatH.ofDenseQ, Mat.ofDenseQ, denX, Option.map_some, Option.map_none, XRef.view]
  rw [e]

theorem solveWrap_agrees {A : CscH} {b : DenseH} {F : FactorsH} {q : Ref} (hA : A.In h)
    (hb : b.x < h.nz) (hF : F.In h) (hq : q < h.nz) (sA sb : ℚ) (check : Bool) :
    Agrees h solView (solveWrapH (luSolveH A sA b sb F q check) h)
      (solveWrap (luSolve (A.view h) sA (b.view h) sb (F.view h) (h.z q) check)) := by
  have s := luSolve_sim hA hb hF hq sA sb check
  unfold Agrees solveWrapH
  cases em : luSolve (A.view h) sA (b.view h) sb (F.view h) (h.z q) check with
  | ok d =>
    rw [em] at s
    have s : luSolveH A sA b sb F q check h = _ := s
    rw [s]
    refine ⟨ext_frame .., congrArg Except.ok ?_⟩
    exact congrArg (fun m => (Info.ok, some (some m))) (denX_view h check d)
  | error e =>
    rw [em] at s
    obtain ⟨h', e1, e2⟩ := s
    rw [e1]
    cases e <;> exact ⟨e2, rfl⟩

theorem solveH_agrees (init : Bool) (x : Handle MatH) {b A L U rhos : Option MatH}
    {S : Option AnalysisH} {pinv : Option Ref} (opt : Option Options) (hO : h.Ok)
    (hb : ∀ a ∈ b, a.In h) (hA : ∀ a ∈ A, a.In h) (hL : ∀ a ∈ L, a.In h) (hU : ∀ a ∈ U, a.In h)
    (hr : ∀ a ∈ rhos, a.In h) (hS : ∀ s ∈ S, s.q < h.nz) (hp : ∀ r ∈ pinv, r < h.nz) :
    Agrees h solView (SLIP_LU_solveH init x b A L U rhos S pinv opt h)
      (SLIP_LU_solve init (x.map (Option.map (MatH.view h))) (b.map (MatH.view h)) (A.map (MatH.view h))
        (L.map (MatH.view h)) (U.map (MatH.view h)) (rhos.map (MatH.view h)) (S.map (AnalysisH.view h))
        (pinv.map h.z) opt) := by
  unfold SLIP_LU_solveH SLIP_LU_solve
  simp only [requireFailsH_view, map_none]
  cases init with
  | false => exact Agrees.pure rfl
  | true =>
    simp only [Bool.not_true, Bool.false_eq_true, if_false]
    have ite : ∀ {c : Prop} [Decidable c] {mH : H (Info × Handle MatH)} {m : C (Info × Handle Mat)},
        (¬ c → Agrees h solView (mH h) m) →
        Agrees h solView ((if c then (Pure.pure (Info.incorrectInput, x)) else mH) h)
          (if c then Pure.pure (Info.incorrectInput, x.map (Option.map (MatH.view h))) else m) := by
      intro c _ mH m hm
      by_cases hc : c
      · rw [if_pos hc, if_pos hc]; exact Agrees.pure rfl
      · rw [if_neg hc, if_neg hc]; exact hm hc
    refine ite fun _ => ite fun _ => ite fun _ => ite fun _ => ite fun _ => ?_
    cases b with
    | none => exact Agrees.pure rfl
    | some b =>
    cases A with
    | none => exact Agrees.pure rfl
    | some A =>
    cases L with
    | none => exact Agrees.pure rfl
    | some L =>
    cases U with
    | none => exact Agrees.pure rfl
    | some U =>
    cases rhos with
    | none => exact Agrees.pure rfl
    | some rhos =>
    cases S with
    | none => exact Agrees.pure rfl
    | some S =>
    cases pinv with
    | none => exact Agrees.pure rfl
    | some pinv =>
    dsimp only [Option.map_some]
    refine ite fun _ => ?_
    rw [← view_csc hO A, ← view_csc hO L, ← view_csc hO U, ← view_dense hO b, view_xz hO rhos]
    exact solveWrap_agrees (In_csc hO (hA A rfl)) (In_x0 hO (hb b rfl))
      ⟨In_csc hO (hL L rfl), In_csc hO (hU U rfl), In_x0 hO (hr rhos rfl), hp pinv rfl⟩ (hS S rfl) _ _ _

theorem solveWrap_out {A : CscH} {b : DenseH} {F : FactorsH} {q : Ref} (hA : A.In h)
    (hb : b.x < h.nz) (hF : F.In h) (hq : q < h.nz) (sA sb : ℚ) (check : Bool) {i : Info} {x : Handle MatH}
    {h' : Heap} (hr : solveWrapH (luSolveH A sA b sb F q check) h = (.ok (i, x), h')) :
    x = some none ∨ ∃ y r, x = some (some y) ∧ y.refs = [] ∧ y.refsq = [r] ∧ h.nq ≤ r ∧ r < h'.nq := by
  have s := luSolve_sim hA hb hF hq sA sb check
  unfold solveWrapH at hr
  cases em : luSolve (A.view h) sA (b.view h) sb (F.view h) (h.z q) check with
  | ok d =>
    rw [em] at s
    have s : luSolveH A sA b sb F q check h = _ := s
    rw [s] at hr
    obtain ⟨hr, hh⟩ := Prod.mk.inj hr
    have hr := Except.ok.inj hr
    rw [← (Prod.mk.inj hr).2, ← hh]
    refine Or.inr ⟨_, _, rfl, rfl, rfl, Nat.le_add_right .., ?_⟩
    show h.nq + 1 < h.nq + List.length _
    cases check <;> simp
  | error e =>
    rw [em] at s
    obtain ⟨h', e1, e2⟩ := s
    rw [e1] at hr
    cases e with
    | ret e =>
      have hr := Except.ok.inj (Prod.mk.inj hr).1
      rw [← (Prod.mk.inj hr).2]
      exact Or.inl rfl
    | ub => cases hr
    | fuel => cases hr

theorem solveH_out (init : Bool) (x : Handle MatH) {b A L U rhos : Option MatH}
    {S : Option AnalysisH} {pinv : Option Ref} (opt : Option Options) (hO : h.Ok)
    (hb : ∀ a ∈ b, a.In h) (hA : ∀ a ∈ A, a.In h) (hL : ∀ a ∈ L, a.In h) (hU : ∀ a ∈ U, a.In h)
    (hr : ∀ a ∈ rhos, a.In h) (hS : ∀ s ∈ S, s.q < h.nz) (hp : ∀ r ∈ pinv, r < h.nz) {i : Info}
    {x' : Handle MatH} {h' : Heap}
    (he : SLIP_LU_solveH init x b A L U rhos S pinv opt h = (.ok (i, x'), h')) :
    (i ≠ .ok ∧ x' = x) ∨ x' = some none ∨
      ∃ y r, x' = some (some y) ∧ y.refs = [] ∧ y.refsq = [r] ∧ h.nq ≤ r ∧ r < h'.nq := by
  have keep : ∀ {j : Info} {g : Heap}, j ≠ .ok → (Pure.pure (f := H) (j, x)) g =
      (.ok (i, x'), h') → (i ≠ .ok ∧ x' = x) := by
    intro i g hi hr
    have hr := Except.ok.inj (Prod.mk.inj hr).1
    rw [← (Prod.mk.inj hr).1, ← (Prod.mk.inj hr).2]
    exact ⟨hi, rfl⟩
  unfold SLIP_LU_solveH at he
  cases init with
  | false => exact Or.inl (keep (by simp) he)
  | true =>
    simp only [Bool.not_true, Bool.false_eq_true, if_false] at he
    have ite : ∀ {c : Prop} [Decidable c] {mH : H (Info × Handle MatH)},
        (if c then (Pure.pure (Info.incorrectInput, x)) else mH) h = (.ok (i, x'), h') →
        (i ≠ .ok ∧ x' = x) ∨ mH h = (.ok (i, x'), h') := by
      intro c _ mH hm
      by_cases hc : c
      · rw [if_pos hc] at hm; exact Or.inl (keep (by simp) hm)
      · rw [if_neg hc] at hm; exact Or.inr hm
    rcases ite he with h1 | he
    · exact Or.inl h1
    rcases ite he with h1 | he
    · exact Or.inl h1
    rcases ite he with h1 | he
    · exact Or.inl h1
    rcases ite he with h1 | he
    · exact Or.inl h1
    rcases ite he with h1 | he
    · exact Or.inl h1
    cases b with
    | none => exact Or.inl (keep (by simp) he)
    | some b =>
    cases A with
    | none => exact Or.inl (keep (by simp) he)
    | some A =>
    cases L with
    | none => exact Or.inl (keep (by simp) he)
    | some L =>
    cases U with
    | none => exact Or.inl (keep (by simp) he)
    | some U =>
    cases rhos with
    | none => exact Or.inl (keep (by simp) he)
    | some rhos =>
    cases S with
    | none => exact Or.inl (keep (by simp) he)
    | some S =>
    cases pinv with
    | none => exact Or.inl (keep (by simp) he)
    | some pinv =>
    dsimp only at he
    rcases ite he with h1 | he
    · exact Or.inl h1
    exact Or.inr (solveWrap_out (In_csc hO (hA A rfl)) (In_x0 hO (hb b rfl))
      ⟨In_csc hO (hL L rfl), In_csc hO (hU U rfl), In_x0 hO (hr rhos rfl), hp pinv rfl⟩ (hS S rfl) _ _ _ he)

end Slip.Store
