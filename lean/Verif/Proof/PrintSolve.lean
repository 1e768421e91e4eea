import Verif.Model.PrintSolve

/-!
# Rules for the output of the solver (C54)
-/

namespace Slip.Out

variable {α β : Type}

/-- The two options have the same settings except, possibly, for the print level. -/
structure SameButLevel (o o' : Option Options) : Prop where
  order : optOrder o = optOrder o'
  check : optCheck o = optCheck o'
  pivot : optPivot o = optPivot o'
  tol : optTol o = optTol o'
  prec : optPrec o = optPrec o'
  round : optRound o = optRound o'

/-- `m` has the result `c` and prints `L`. -/
def Says (m : P α) (c : C α) (L : List Line) : Prop := ∀ o, m o = (c, o ++ L)

/-- `m` and `m'` have the result `c`; they print the same if the levels `p` and `p'` are 1 or more, and nothing if not. -/
def Lev (p p' : Int) (m m' : P α) (c : C α) : Prop :=
  ∃ L, Says m c (if p ≥ 1 then L else []) ∧ Says m' c (if p' ≥ 1 then L else [])

theorem Says.pure (a : α) : Says (Pure.pure a : P α) (Pure.pure a) [] := fun o => by
  show ((.ok a : C α), o) = (_, o ++ []); rw [List.append_nil]; rfl

theorem Says.lift (m : C α) : Says (Out.lift m) m [] := fun o => by
  show (m, o) = _; rw [List.append_nil]

theorem Says.say (l : Line) : Says (Out.say l) (.ok ()) [l] := fun _ => rfl

theorem bind_run (m : P α) (f : α → P β) (o : List Line) :
    (m >>= f) o = (match m o with
      | (.ok a, o') => f a o'
      | (.error e, o') => (.error e, o')) := rfl

theorem Says.bind_ok {m : P α} {f : α → P β} {a : α} {c : C β} {L L' : List Line} (h : Says m (.ok a) L)
    (h' : Says (f a) c L') : Says (m >>= f) c (L ++ L') := fun o => by
  rw [bind_run, h o]; show f a (o ++ L) = _; rw [h', List.append_assoc]

theorem Says.bind_err {m : P α} {f : α → P β} {e : Fail} {L : List Line} (h : Says m (.error e) L) :
    Says (m >>= f) (.error e) L := fun o => by rw [bind_run, h o]

/-- First a part that prints nothing. -/
theorem Says.lift_ok {m : C α} {f : α → P β} {a : α} {c : C β} {L : List Line} (h : m = .ok a)
    (h' : Says (f a) c L) : Says (Out.lift m >>= f) c L := by
  have := Says.bind_ok (h ▸ Says.lift m : Says (Out.lift m) (.ok a) []) h'
  simpa using this

theorem Says.unique {m : P α} {c c' : C α} {L L' : List Line} (h : Says m c L) (h' : Says m c' L') : c = c' ∧ L = L' := by
  have := (h []).symm.trans (h' [])
  simpa using this

variable {p p' : Int}

theorem Lev.pure (a : α) : Lev p p' (Pure.pure a : P α) (Pure.pure a) (Pure.pure a) :=
  ⟨[], by split <;> exact Says.pure a, by split <;> exact Says.pure a⟩

theorem Lev.lift (m : C α) : Lev p p' (Out.lift m) (Out.lift m) m :=
  ⟨[], by split <;> exact Says.lift m, by split <;> exact Says.lift m⟩

theorem Lev.bind {m m' : P α} {f f' : α → P β} {c : C α} {g : α → C β} (h : Lev p p' m m' c)
    (h' : ∀ a, Lev p p' (f a) (f' a) (g a)) : Lev p p' (m >>= f) (m' >>= f') (c >>= g) := by
  obtain ⟨L, h1, h2⟩ := h
  cases c with
  | error e => exact ⟨L, h1.bind_err, h2.bind_err⟩
  | ok a =>
    obtain ⟨L', h3, h4⟩ := h' a
    refine ⟨L ++ L', ?_, ?_⟩
    · have := h1.bind_ok h3
      split at this <;> rename_i hp <;> simp only [hp, if_true, if_false] at this ⊢ <;> exact this
    · have := h2.bind_ok h4
      split at this <;> rename_i hp <;> simp only [hp, if_true, if_false] at this ⊢ <;> exact this

theorem Lev.ite {q : Prop} [Decidable q] {m1 m1' m2 m2' : P α} {c1 c2 : C α} (h1 : q → Lev p p' m1 m1' c1)
    (h2 : ¬q → Lev p p' m2 m2' c2) : Lev p p' (if q then m1 else m2) (if q then m1' else m2') (if q then c1 else c2) := by
  by_cases h : q
  · simp only [if_pos h]; exact h1 h
  · simp only [if_neg h]; exact h2 h

theorem Lev.pr1 (l : Line) : Lev p p' (Out.pr1 p l) (Out.pr1 p' l) (.ok ()) := by
  refine ⟨[l], ?_, ?_⟩
  · unfold Out.pr1; split
    · exact Says.say l
    · exact Says.pure ()
  · unfold Out.pr1; split
    · exact Says.say l
    · exact Says.pure ()

theorem Lev.then {m m' : P Unit} {f f' : P β} {g : C β} (h : Lev p p' m m' (.ok ()))
    (h' : Lev p p' f f' g) : Lev p p' (m >>= fun _ => f) (m' >>= fun _ => f') g :=
  Lev.bind (g := fun _ => g) h (fun _ => h')

theorem Says.report {l₁ l₂ l₃ : Line} {f : P β} {g : C β} {L : List Line} (h : Says f g (if p ≥ 1 then L else [])) :
    Says (if p > 0 then (do Out.say l₁; Out.say l₂; Out.say l₃; f) else f) g
      (if p ≥ 1 then [l₁, l₂, l₃] ++ L else []) := by
  by_cases hp : p ≥ 1
  · rw [if_pos hp] at h ⊢
    rw [if_pos (by omega)]
    intro o
    show f (o ++ [l₁] ++ [l₂] ++ [l₃]) = _
    rw [h]; simp
  · rw [if_neg hp] at h ⊢
    rw [if_neg (by omega)]
    exact h

theorem Lev.report {l₁ l₂ l₃ : Line} {f f' : P β} {g : C β} (h' : Lev p p' f f' g) :
    Lev p p' (if p > 0 then (do Out.say l₁; Out.say l₂; Out.say l₃; f) else f)
      (if p' > 0 then (do Out.say l₁; Out.say l₂; Out.say l₃; f') else f') g := by
  obtain ⟨L, h1, h2⟩ := h'
  exact ⟨_, h1.report, h2.report⟩

/-! ## SLIP_LU_analyze -/

theorem analyzeAmd_eq (O : Orderings) (A : Mat) (q : Arr Int) :
    analyzeAmd (ar := Arith.exact) O A q = amd O A q >>= fun r => pure r.2 := by
  unfold analyzeAmd amd
  cases A.p <;> cases A.i <;> rfl

variable {o o' : Option Options}

theorem analyzeBody_lev (h : SameButLevel o o') (O : Orderings) (A : Mat) :
    Lev (optPrint o) (optPrint o') (analyzeBody O A o) (analyzeBody O A o') (Slip.analyzeBody O A o) := by
  unfold analyzeBody Slip.analyzeBody
  dsimp only
  refine Lev.bind (Lev.lift _) fun anz => ?_
  rw [← h.order]
  refine Lev.bind ?_ fun r => Lev.pure _
  cases optOrder o with
  | none => exact Lev.bind (Lev.lift _) fun _ => Lev.pure _
  | amd =>
    dsimp only
    rw [analyzeAmd_eq]
    refine Lev.bind (Lev.lift _) fun r => ?_
    obtain ⟨st, q, lnz⟩ := r
    exact Lev.report (Lev.pure _)
  | colamd =>
    dsimp only
    refine Lev.bind (Lev.lift _) fun q => Lev.bind (Lev.lift _) fun A2 => Lev.bind (Lev.lift _) fun r => ?_
    obtain ⟨ok, q⟩ := r
    exact Lev.report (Lev.pure _)

theorem analyze_lev (h : SameButLevel o o') (O : Orderings) (init : Bool) (S : Handle Analysis) (A : Option Mat) :
    Lev (optPrint o) (optPrint o') (SLIP_LU_analyze O init S A o) (SLIP_LU_analyze O init S A o')
      (Slip.SLIP_LU_analyze O init S A o) := by
  unfold SLIP_LU_analyze Slip.SLIP_LU_analyze
  refine Lev.ite (fun _ => Lev.pure _) fun _ => ?_
  cases A with
  | none => exact Lev.pure _
  | some A =>
    refine Lev.ite (fun _ => Lev.pure _) fun _ => Lev.ite (fun _ => Lev.pure _) fun _ => ?_
    exact Lev.bind (analyzeBody_lev h O A) fun _ => Lev.pure _

/-! ## SLIP_LU_solve -/

theorem check_lev (A : Csc) (x : Dense ℚ) (b : Dense Int) :
    Lev (optPrint o) (optPrint o') (slip_check_solution A x b o) (slip_check_solution A x b o')
      (Slip.slip_check_solution A x b) := by
  unfold slip_check_solution Slip.slip_check_solution
  refine Lev.bind (Lev.lift _) fun y => Lev.bind (Lev.lift _) fun ok => ?_
  refine Lev.ite (fun _ => Lev.pr1 _) fun _ => ?_
  exact Lev.then (Lev.pr1 _) (Lev.lift _)

theorem luSolve_lev (h : SameButLevel o o') (A : Csc) (sA : ℚ) (b : Dense Int) (sb : ℚ) (F : Factors) (q : Arr Int) :
    Lev (optPrint o) (optPrint o') (luSolve A sA b sb F q o) (luSolve A sA b sb F q o')
      (Slip.luSolve A sA b sb F q (optCheck o)) := by
  unfold luSolve Slip.luSolve
  dsimp only
  rw [← h.check]
  refine Lev.bind (Lev.lift _) fun b2 => Lev.bind (Lev.lift _) fun b2 => Lev.bind (Lev.lift _) fun det =>
    Lev.bind (Lev.lift _) fun b2 => Lev.bind (Lev.lift _) fun b2 => Lev.bind (Lev.lift _) fun det =>
    Lev.bind (Lev.lift _) fun x2 => Lev.bind (Lev.lift _) fun x => ?_
  refine Lev.ite (fun _ => ?_) fun _ => ?_
  · exact Lev.bind (check_lev _ _ _) fun _ => Lev.lift _
  · exact Lev.bind (Lev.pure _) fun _ => Lev.lift _

theorem Lev.wrap {m m' : P (Dense ℚ)} {c : C (Dense ℚ)} (h : Lev p p' m m' c) :
    Lev p p' (solveWrap m) (solveWrap m') (Slip.solveWrap c) := by
  obtain ⟨L, h1, h2⟩ := h
  exact ⟨L, fun o => by unfold solveWrap; rw [h1 o], fun o => by unfold solveWrap; rw [h2 o]⟩

theorem solve_lev (h : SameButLevel o o') (init : Bool) (x : Handle Mat) (b A L U rhos : Option Mat)
    (S : Option Analysis) (pinv : Option (Arr Int)) :
    Lev (optPrint o) (optPrint o') (SLIP_LU_solve init x b A L U rhos S pinv o)
      (SLIP_LU_solve init x b A L U rhos S pinv o') (Slip.SLIP_LU_solve init x b A L U rhos S pinv o) := by
  unfold SLIP_LU_solve Slip.SLIP_LU_solve
  iterate 6 refine Lev.ite (fun _ => Lev.pure _) fun _ => ?_
  rcases b with _ | b
  · exact Lev.pure _
  rcases A with _ | A
  · exact Lev.pure _
  rcases L with _ | L
  · exact Lev.pure _
  rcases U with _ | U
  · exact Lev.pure _
  rcases rhos with _ | rhos
  · exact Lev.pure _
  rcases S with _ | S
  · exact Lev.pure _
  rcases pinv with _ | pinv
  · exact Lev.pure _
  refine Lev.ite (fun _ => Lev.pure _) fun _ => ?_
  exact (luSolve_lev h ..).wrap

/-! ## SLIP_backslash -/

theorem factorize_same (h : SameButLevel o o') (nc : Int → Int → ℚ → Bool) (init : Bool) (L U rhos : Handle Mat)
    (pinv : Handle (Arr Int)) (A : Option Mat) (S : Option Analysis) :
    SLIP_LU_factorize nc init L U rhos pinv A S o' = SLIP_LU_factorize nc init L U rhos pinv A S o := by
  unfold SLIP_LU_factorize
  rw [h.pivot, h.tol]

theorem copy_same (h : SameButLevel o o') (fp : Fp) (init : Bool) (Ch : Handle Mat) (kind : Kind) (type : Ty)
    (A : Option Mat) : SLIP_matrix_copy fp init Ch kind type A o' = SLIP_matrix_copy fp init Ch kind type A o := by
  have e0 : ∀ Y X n ys xs, slip_cast_array fp o' Y X n ys xs = slip_cast_array fp o Y X n ys xs := by
    intro Y X n ys xs
    unfold slip_cast_array slip_expand_mpfr_array slip_expand_double_array
    simp only [h.prec, h.round]
  have e1 : ∀ t A, slip_cast_matrix fp o' t A = slip_cast_matrix fp o t A := by
    intro t A
    unfold slip_cast_matrix
    simp only [e0]
  have e2 : eltR o' = eltR o := by unfold eltR; rw [h.prec, h.round]
  have e : ∀ A nz, copyBody fp o' kind type A nz = copyBody fp o kind type A nz := by
    intro A nz
    unfold copyBody copyCscCsc copyTripletCsc copyDenseTriplet copyDenseCsc copyCscTriplet copyTripletTriplet copyCscDense
      copyTripletDense copyDenseDense withVals
    simp only [e0, e1, e2]
  unfold SLIP_matrix_copy
  simp only [e]

theorem backslash_lev (h : SameButLevel o o') (fp : Fp) (O : Orderings) (nc : Int → Int → ℚ → Bool) (init : Bool)
    (X : Handle Mat) (type : Ty) (A b : Option Mat) :
    Lev (optPrint o) (optPrint o') (SLIP_backslash fp O nc init X type A b o)
      (SLIP_backslash fp O nc init X type A b o') (Slip.SLIP_backslash fp O nc init X type A b o) := by
  unfold SLIP_backslash Slip.SLIP_backslash
  iterate 5 refine Lev.ite (fun _ => Lev.pure _) fun _ => ?_
  refine Lev.bind (analyze_lev h ..) fun r => ?_
  obtain ⟨info, S⟩ := r
  refine Lev.ite (fun _ => Lev.pure _) fun _ => ?_
  rw [factorize_same h]
  refine Lev.bind (Lev.lift _) fun f => Lev.ite (fun _ => Lev.pure _) fun _ => ?_
  refine Lev.bind (solve_lev h ..) fun r => ?_
  obtain ⟨info, x⟩ := r
  refine Lev.ite (fun _ => Lev.pure _) fun _ => Lev.ite (fun _ => Lev.pure _) fun _ => ?_
  rw [copy_same h]
  refine Lev.bind (Lev.lift _) fun r => ?_
  obtain ⟨info, x2⟩ := r
  exact Lev.ite (fun _ => Lev.pure _) fun _ => Lev.pure _

end Slip.Out
