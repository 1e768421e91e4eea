import Verif.Proof.PrintList

/-!
# The output of `SLIP_matrix_check`: the status, and formatting that fails
-/

namespace Slip

/-! ## The status -/

/-- `c`, which has no output but knows the print level and the number of lines, does what `m` does. -/
def Forget {α : Type} (m : Pm α) (c : Int × Int → C (α × (Int × Int))) : Prop :=
  ∀ s, s.status = .ok → (c (s.pr, s.lines) = match m s with
    | (.ok a, s') => .ok (a, (s'.pr, s'.lines))
    | (.error e, _) => .error e) ∧ (m s).2.status = .ok

section
variable {α β σ : Type}

theorem Forget.bind {m : Pm α} {f : α → Pm β} {c : Int × Int → C (α × (Int × Int))}
    {g : α × (Int × Int) → C (β × (Int × Int))} (h : Forget m c) (hf : ∀ a, Forget (f a) (fun s => g (a, s))) :
    Forget (m >>= f) (fun s => c s >>= g) := by
  intro s hs
  obtain ⟨h1, h2⟩ := h s hs
  rw [Pm.bind_run]
  dsimp only
  rw [h1]
  rcases hm : m s with ⟨_ | a, s'⟩
  · rw [hm] at h2; exact ⟨rfl, h2⟩
  · rw [hm] at h2
    exact hf a s' h2

/-- A part without a value. -/
theorem Forget.step {m : Pm Unit} {f : Pm β} {k : Int × Int → Int × Int} {c : Int × Int → C (β × (Int × Int))}
    (h : Forget m (fun s => Pure.pure ((), k s))) (hf : Forget f c) : Forget (m >>= fun _ => f) (fun s => c (k s)) := by
  have := Forget.bind h (g := fun p => c p.2) fun _ => hf
  intro s hs
  exact this s hs

theorem Forget.lift (m : C α) : Forget (Pm.lift m) (fun s => do let a ← m; pure (a, s)) := by
  intro s hs
  refine ⟨?_, hs⟩
  cases m <;> rfl

/-- A value that is computed and used. -/
theorem Forget.liftBind {m : C α} {f : α → Pm β} {g : α → Int × Int → C (β × (Int × Int))}
    (hf : ∀ a, Forget (f a) (g a)) : Forget (Pm.lift m >>= f) (fun s => m >>= fun a => g a s) := by
  intro s hs
  rw [Pm.bind_run]
  unfold Pm.lift
  cases m with
  | error e => exact ⟨rfl, hs⟩
  | ok a => exact hf a s hs

theorem Forget.pure (a : α) : Forget (Pure.pure a : Pm α) (fun s => Pure.pure (a, s)) := fun _ hs => ⟨rfl, hs⟩

theorem complain_run (e : Msg) (c : Info) (s : Pr) :
    (complain e c : Pm α) s = (.error (.ret c), (pr1 (.err e) s).2) := by
  unfold Slip.complain
  rw [Pm.bind_run]
  have : (pr1 (.err e) s).1 = .ok () := by unfold pr1; split <;> rfl
  rcases hr : pr1 (.err e) s with ⟨r, s'⟩
  rw [hr] at this
  dsimp only at this
  subst this
  rfl

theorem pr1_keeps (e : Ev) (s : Pr) : (pr1 e s).2 = { s with out := (pr1 e s).2.out } := by
  unfold pr1
  split <;> rfl

theorem pr2_keeps (e : Ev) (s : Pr) : ∃ o, pr2 e s = (.ok (), { s with out := o }) := by
  unfold pr2
  split <;> exact ⟨_, rfl⟩

theorem Forget.complain (e : Msg) : Forget (complain e .incorrectInput : Pm α) (fun _ => .error (.ret .incorrectInput)) := by
  intro s hs
  rw [complain_run]
  refine ⟨rfl, ?_⟩
  dsimp only
  rw [pr1_keeps]
  exact hs

theorem Forget.forRange {lo hi : Int} {x : σ} {f : Int → σ → Pm σ} {g : Int → σ × (Int × Int) → C (σ × (Int × Int))}
    (h : ∀ t x, Forget (f t x) (fun s => g t (x, s))) :
    Forget (forRangeP lo hi x f) (fun s => forRange lo hi (x, s) g) := by
  unfold forRangeP Slip.forRange
  generalize (hi - lo).toNat = c
  induction c generalizing lo x with
  | zero => exact fun s hs => ⟨rfl, hs⟩
  | succ c ih =>
    unfold forCntP
    have := Forget.bind (h lo x) (g := fun y => forCnt c (lo + 1) y g) fun y => ih
    intro s hs
    exact this s hs

end

theorem limit_run (s : Pr) : (limit s).1 = .ok () ∧ ((limit s).2.pr, (limit s).2.lines) = prLimit (s.pr, s.lines) ∧
    (limit s).2.status = s.status ∧ (limit s).2.calls = s.calls := by
  unfold limit prLimit
  dsimp only
  split <;> exact ⟨rfl, rfl, rfl, rfl⟩

theorem Forget.limit : Forget limit (fun s => Pure.pure ((), prLimit s)) := by
  intro s hs
  obtain ⟨h1, h2, h3, -⟩ := limit_run s
  rcases hr : Slip.limit s with ⟨r, s'⟩
  rw [hr] at h1 h2 h3
  dsimp only at h1 h2 h3
  subst h1
  refine ⟨?_, by rw [← hs]; exact h3⟩
  dsimp only
  rw [h2]
  rfl

theorem Forget.pr2 (e : Ev) : Forget (pr2 e) (fun s => Pure.pure ((), s)) := by
  intro s hs
  obtain ⟨o, ho⟩ := pr2_keeps e s
  rw [ho]
  exact ⟨rfl, hs⟩

section
variable {E : PrEnv} (hE : ∀ k, E.asp k = .ok)
include hE

theorem Forget.showVal (A : Mat) (t : Int) :
    Forget (showVal E A t) (fun s => do printVal A t; Pure.pure ((), s)) := by
  intro s hs
  have h1 := showVal_run hE A t s hs
  have h2 : printVal A t = match valAt A t with
      | none => .error .ub
      | some _ => .ok () := by
    unfold printVal valAt
    cases A.x with
    | none => rfl
    | some x => cases x <;> dsimp only <;> unfold rd <;> cases get _ t <;> rfl
  generalize (Slip.showVal E A t s).2.calls = c at h1
  rw [h1, h2]
  cases valAt A t with
  | none => exact ⟨rfl, hs⟩
  | some v =>
    obtain ⟨o, ho⟩ := pr2_keeps (.val v) { s with calls := c }
    dsimp only
    rw [ho]
    exact ⟨rfl, hs⟩

theorem Forget.showEntry (A : Mat) (e : Ev) (t : Int) (d : Bool) :
    Forget (showEntry E A e t d) (fun s => if s.1 ≥ 2 then do
        printVal A t
        Pure.pure ((), prLimit s)
      else Pure.pure ((), s)) := by
  intro s hs
  unfold Slip.showEntry
  by_cases hp : s.pr ≥ 2
  · rw [if_pos hp]
    simp only [if_pos hp]
    have hstop : Forget (stop d) (fun s => Pure.pure ((), s)) := by
      intro s hs
      unfold stop
      rw [if_pos hs]
      exact ⟨rfl, hs⟩
    have := Forget.step Forget.limit (Forget.step (Forget.pr2 e)
      (Forget.bind (Forget.showVal hE A t) (g := fun p => Pure.pure p) fun _ => hstop)) s hs
    refine ⟨?_, this.2⟩
    have h1 := this.1
    refine Eq.trans ?_ h1
    dsimp only
    cases printVal A t <;> rfl
  · rw [if_neg hp]
    simp only [if_neg hp]
    exact ⟨rfl, hs⟩

theorem Forget.rows (hm : E.mem = true) (A : Mat) (p i : Arr Int) (s : Pr) (hs : s.status = .ok) (h0 : s.lines = 0) :
    (checkRowsP E A p i s).1 = checkRows A p i s.pr := by
  have key : Forget (forRangeP 0 A.n (calloc A.m) fun j work => do
      Slip.limit
      Slip.pr2 (.column j)
      let a ← Pm.lift (rd p j)
      let b ← Pm.lift (rd p (j + 1))
      forRangeP a b work fun t work => do
        let r ← Pm.lift (rd i t)
        if r < 0 ∨ r ≥ A.m then Slip.complain (.range r j) .incorrectInput
        else do
          let w ← Pm.lift (rd work r)
          if w = j + 1 then Slip.complain (.dup r j) .incorrectInput
          else do
            Slip.showEntry E A (.row r) t false
            Pm.lift (wr work r (j + 1)))
      (fun s => Slip.forRange 0 A.n (calloc A.m, s) fun j (work, s) => do
        let s := prLimit s
        let a ← rd p j
        let b ← rd p (j + 1)
        Slip.forRange a b (work, s) fun t (work, s) => do
          let r ← rd i t
          if r < 0 ∨ r ≥ A.m then .error (.ret .incorrectInput)
          else do
            let w ← rd work r
            if w = j + 1 then .error (.ret .incorrectInput)
            else if s.1 ≥ 2 then do
              let s := prLimit s
              printVal A t
              let work ← wr work r (j + 1)
              Pure.pure (work, s)
            else do
              let work ← wr work r (j + 1)
              Pure.pure (work, s)) := by
    refine Forget.forRange fun j work => ?_
    refine Forget.step Forget.limit (Forget.step (Forget.pr2 _)
      (c := fun (s : Int × Int) => do
        let a ← rd p j
        let b ← rd p (j + 1)
        Slip.forRange a b (work, s) fun t (work, s) => do
          let r ← rd i t
          if r < 0 ∨ r ≥ A.m then .error (.ret .incorrectInput)
          else do
            let w ← rd work r
            if w = j + 1 then .error (.ret .incorrectInput)
            else if s.1 ≥ 2 then do
              let s := prLimit s
              printVal A t
              let work ← wr work r (j + 1)
              Pure.pure (work, s)
            else do
              let work ← wr work r (j + 1)
              Pure.pure (work, s)) ?_)
    refine Forget.liftBind fun a => Forget.liftBind fun b => ?_
    refine Forget.forRange fun t work => ?_
    refine Forget.liftBind fun r => ?_
    by_cases hr : r < 0 ∨ r ≥ A.m
    · simp only [if_pos hr]
      exact Forget.complain _
    simp only [if_neg hr]
    refine Forget.liftBind fun w => ?_
    by_cases hw : w = j + 1
    · simp only [if_pos hw]
      exact Forget.complain _
    simp only [if_neg hw]
    have := Forget.bind (Forget.showEntry hE A (.row r) t false) (g := fun p => do
      let a ← wr work r (j + 1)
      Pure.pure (a, p.2)) (fun _ => Forget.lift (wr work r (j + 1)))
    intro s hs
    obtain ⟨h1, h2⟩ := this s hs
    refine ⟨?_, h2⟩
    rw [← h1]
    by_cases hp : s.pr ≥ 2
    · simp only [if_pos hp]
      cases printVal A t <;> rfl
    · simp only [if_neg hp]
      rfl
  obtain ⟨h1, -⟩ := key s hs
  unfold checkRowsP checkRows
  rw [Pm.bind_run]
  rw [show needMem E s = (.ok (), s) from by unfold needMem; rw [hm]; rfl]
  dsimp only
  rw [Pm.bind_run]
  rw [h0] at h1
  dsimp only at h1
  rw [h1]
  rcases hr : forRangeP 0 A.n (calloc A.m) _ s with ⟨_ | a, s'⟩ <;> rfl

theorem Forget.triplets (A : Mat) (i j : Arr Int) (nz : Int) :
    Forget (checkTripletsP E A i j nz) (fun s => Slip.forRange 0 nz ((), s) fun t (_, s) => do
      let r ← rd i t
      let c ← rd j t
      if r < 0 ∨ r ≥ A.m ∨ c < 0 ∨ c ≥ A.n then .error (.ret .incorrectInput)
      else if s.1 ≥ 2 then do
        printVal A t
        Pure.pure ((), prLimit s)
      else Pure.pure ((), s)) := by
  unfold checkTripletsP
  refine Forget.forRange fun t _ => ?_
  refine Forget.liftBind fun r => Forget.liftBind fun c => ?_
  by_cases hr : r < 0 ∨ r ≥ A.m ∨ c < 0 ∨ c ≥ A.n
  · simp only [if_pos hr]
    exact Forget.complain _
  · simp only [if_neg hr]
    exact Forget.showEntry hE A _ t _

omit hE in
/-- A loop with an extra `()` in its state. -/
theorem forRange_unit {σ : Type} {lo hi : Int} {x : σ} {f : Int → σ → C σ} {g : Int → Unit × σ → C (Unit × σ)}
    (h : ∀ t x, g t ((), x) = f t x >>= fun y => Pure.pure ((), y)) :
    Slip.forRange lo hi ((), x) g = Slip.forRange lo hi x f >>= fun y => Pure.pure ((), y) := by
  unfold Slip.forRange
  generalize (hi - lo).toNat = c
  induction c generalizing lo x with
  | zero => rfl
  | succ c ih =>
    unfold forCnt
    rw [h]
    cases hf : f lo x with
    | error e => rfl
    | ok y => exact ih

/-- Parts that do not print. -/
def Mute (m : Pm Unit) (c : C Unit) : Prop := ∀ s, (m s).1 = c ∧ ∀ u, c = .ok u → (m s).2 = s

omit hE in
theorem Mute.forRange {lo hi : Int} {f : Int → Unit → Pm Unit} {g : Int → Unit → C Unit} (h : ∀ t x, Mute (f t x) (g t x)) :
    Mute (forRangeP lo hi () f) (Slip.forRange lo hi () g) := by
  unfold forRangeP Slip.forRange
  generalize (hi - lo).toNat = c
  induction c generalizing lo with
  | zero => exact fun s => ⟨rfl, fun _ _ => rfl⟩
  | succ c ih =>
    unfold forCntP forCnt
    intro s
    obtain ⟨h1, h2⟩ := h lo () s
    rw [Pm.bind_run]
    rcases hf : f lo () s with ⟨r, s'⟩
    rw [hf] at h1 h2
    dsimp only at h1 h2
    rw [← h1] at h2 ⊢
    cases r with
    | error e => exact ⟨rfl, fun u hu => by cases hu⟩
    | ok u =>
      have := h2 u rfl
      subst this
      exact ih (lo := lo + 1) s'

omit hE in
theorem Mute.rd {α : Type} {a : Arr α} {t : Int} {f : α → Pm Unit} {g : α → C Unit} (h : ∀ v, Mute (f v) (g v)) :
    Mute (Pm.lift (Slip.rd a t) >>= f) (Slip.rd a t >>= g) := by
  intro s
  rw [get_lift]
  unfold Slip.rd
  cases get a t with
  | none => exact ⟨rfl, fun u hu => by cases hu⟩
  | some v => exact h v s

omit hE in
theorem Mute.test {P : Prop} [Decidable P] (e : Msg) :
    Mute (if P then Slip.complain e .incorrectInput else Pure.pure ())
      (if P then .error (.ret .incorrectInput) else Pure.pure ()) := by
  intro s
  by_cases hP : P
  · rw [if_pos hP, if_pos hP, complain_run]
    exact ⟨rfl, fun u hu => by cases hu⟩
  · rw [if_neg hP, if_neg hP]
    exact ⟨rfl, fun _ _ => rfl⟩

/-- The status at every level is the one computed by the model without output. -/
theorem check_code (hm : E.mem = true) (qs : List (Int × Int) → List (Int × Int)) (init : Bool) (A : Option Mat)
    (opt : Option Options) : (SLIP_matrix_checkP E qs init A opt).1 = SLIP_matrix_check qs init A opt := by
  unfold SLIP_matrix_checkP SLIP_matrix_check
  dsimp only
  generalize hs0 : ({ pr := optPrint opt, lines := 0, status := .ok, calls := 0, out := [] } : Pr) = s0
  have hok : s0.status = .ok := by rw [← hs0]
  have hl : s0.lines = 0 := by rw [← hs0]
  have hpr : s0.pr = optPrint opt := by rw [← hs0]
  unfold checkBody
  by_cases hi : (!init) = true
  · rw [if_pos hi, if_pos hi]; rfl
  rw [if_neg hi, if_neg hi, Pm.bind_run]
  unfold Pm.lift
  cases hN : SLIP_matrix_nnz init A with
  | error e =>
    dsimp only
    have : e = .ub := by
      unfold SLIP_matrix_nnz at hN
      rw [if_neg hi] at hN
      cases A with
      | none => cases hN
      | some A =>
        dsimp only at hN
        cases hk : A.kind <;> rw [hk] at hN <;> dsimp only at hN
        · cases hp : A.p with
          | none => rw [hp] at hN; cases hN
          | some p =>
            rw [hp] at hN
            dsimp only at hN
            split at hN
            · cases hN
            · unfold rd at hN
              split at hN
              · cases hN
              · cases hN; rfl
        · cases hN
        · split at hN <;> cases hN
        · cases hN
    subst this
    rfl
  | ok N =>
    rw [ok_bind]
    dsimp only
    by_cases h0 : N < 0
    · rw [if_pos h0, if_pos h0, complain_run]; rfl
    rw [if_neg h0, if_neg h0]
    cases A with
    | none => rfl
    | some A =>
      dsimp only
      by_cases h1 : A.m < 0
      · rw [if_pos h1, if_pos h1, complain_run]; rfl
      rw [if_neg h1, if_neg h1]
      by_cases h2 : A.n < 0
      · rw [if_pos h2, if_pos h2, complain_run]; rfl
      rw [if_neg h2, if_neg h2]
      by_cases h3 : A.nzmax < 0
      · rw [if_pos h3, if_pos h3, complain_run]; rfl
      rw [if_neg h3, if_neg h3]
      by_cases h4 : (!A.type.good) = true
      · rw [if_pos h4, if_pos h4, complain_run]; rfl
      rw [if_neg h4, if_neg h4]
      have hh : ∃ s1, showHeader E A N s0 = (.ok (), s1) ∧ s1.status = .ok ∧ s1.lines = 0 ∧ s1.pr = optPrint opt := by
        have h1 : ∀ s : Pr, ∃ o, (Slip.pr2 .scaleIs >>= fun _ => format E (.scale A.scale)) s =
            (.ok (), { s with status := .ok, calls := s.calls + 1, out := o }) := by
          intro s
          obtain ⟨o, ho⟩ := pr2_keeps .scaleIs s
          rw [Pm.bind_run, ho]
          dsimp only
          rw [format_run hE]
          obtain ⟨o', ho'⟩ := pr2_keeps (.scale A.scale) { s with status := .ok, calls := s.calls + 1, out := o }
          exact ⟨o', ho'⟩
        obtain ⟨o, ho⟩ := pr2_keeps (.header A.m A.n N A.nzmax A.kind A.type) s0
        unfold showHeader
        rw [Pm.bind_run, ho]
        dsimp only
        unfold showScale
        split
        · obtain ⟨o', ho'⟩ := h1 { s0 with out := o }
          exact ⟨_, ho', rfl, hl, hpr⟩
        · exact ⟨_, rfl, hok, hl, hpr⟩
      obtain ⟨s1, hr, hok, hl, hpr⟩ := hh
      rw [Pm.bind_run, hr]
      dsimp only
      congr 1
      unfold checkKindP checkKind
      cases hk : A.kind with
      | csc =>
        dsimp only
        rw [Pm.bind_run]
        unfold Pm.lift
        have hif : ∀ f : Int → C Unit, (do
            let p0 ← if A.nzmax > 0 ∧ A.p ≠ none then rd (deref A.p) 0 else Pure.pure 0
            f p0) = (if A.nzmax > 0 ∧ A.p ≠ none then rd (deref A.p) 0 else Pure.pure 0 : C Int) >>= f := by
          intro f
          split <;> rfl
        rw [hif]
        cases (if A.nzmax > 0 ∧ A.p ≠ none then rd (deref A.p) 0 else Pure.pure 0 : C Int) with
        | error e => rfl
        | ok p0 =>
          rw [ok_bind]
          dsimp only
          by_cases hc : A.nzmax > 0 ∧ (A.p = none ∨ p0 ≠ 0)
          · rw [if_pos hc, if_pos hc, complain_run]
          rw [if_neg hc, if_neg hc, Pm.bind_run]
          have hptr : Mute (checkPtrP (deref A.p) A.n N) (checkPtr (deref A.p) A.n N) := by
            unfold checkPtrP checkPtr
            exact Mute.forRange fun t _ => Mute.rd fun a => Mute.rd fun b => Mute.test .p
          obtain ⟨q1, q2⟩ := hptr s1
          rcases hf : checkPtrP (deref A.p) A.n N s1 with ⟨r, s2⟩
          rw [hf] at q1 q2
          dsimp only at q1 q2
          rw [← q1]
          cases r with
          | error e => rfl
          | ok u =>
            have := q2 u q1.symm
            subst this
            rw [ok_bind]
            dsimp only
            by_cases hc : A.nzmax > 0 ∧ (A.i = none ∨ A.x = none)
            · rw [if_pos hc, if_pos hc, complain_run]
            rw [if_neg hc, if_neg hc, Forget.rows hE hm A _ _ _ hok hl, hpr]
      | triplet =>
        dsimp only
        by_cases hc : A.nzmax > 0 ∧ (A.i = none ∨ A.j = none ∨ A.x = none)
        · rw [if_pos hc, if_pos hc, complain_run]
        rw [if_neg hc, if_neg hc, Pm.bind_run]
        obtain ⟨q1, q2⟩ := Forget.triplets hE A (deref A.i) (deref A.j) N s1 hok
        have q3 : (checkTripletsP E A (deref A.i) (deref A.j) N s1).1 =
            checkTriplets A (deref A.i) (deref A.j) N (optPrint opt) := by
          unfold checkTriplets
          rw [hl, hpr] at q1
          dsimp only at q1
          rw [forRange_unit (f := fun t (s : Int × Int) => do
            let r ← rd (deref A.i) t
            let c ← rd (deref A.j) t
            if r < 0 ∨ r ≥ A.m ∨ c < 0 ∨ c ≥ A.n then .error (.ret .incorrectInput)
            else if s.1 ≥ 2 then do
              let s := prLimit s
              printVal A t
              Pure.pure s
            else Pure.pure s) ?_] at q1
          · rcases hf : checkTripletsP E A (deref A.i) (deref A.j) N s1 with ⟨r, s2⟩
            rw [hf] at q1
            revert q1
            cases r <;> cases Slip.forRange 0 N (optPrint opt, (0 : Int)) _ <;> intro q1 <;> cases q1 <;> rfl
          · intro t x
            cases rd (deref A.i) t with
            | error e => rfl
            | ok r =>
              cases rd (deref A.j) t with
              | error e => rfl
              | ok c =>
                simp only [ok_bind]
                split
                · rfl
                · split
                  · cases printVal A t <;> rfl
                  · rfl
        rcases hf : checkTripletsP E A (deref A.i) (deref A.j) N s1 with ⟨r, s2⟩
        rw [hf] at q3 q2
        dsimp only at q3 q2
        rw [← q3]
        cases r with
        | error e => rfl
        | ok u =>
          rw [ok_bind]
          dsimp only
          unfold checkDupP checkDup
          rw [Pm.bind_run]
          rw [show needMem E s2 = (.ok (), s2) from by unfold needMem; rw [hm]; rfl]
          dsimp only
          rw [Pm.bind_run]
          unfold Pm.lift
          cases (Slip.forRange 0 N [] fun t (work : List (Int × Int)) => do
            let c ← rd (deref A.j) t
            let r ← rd (deref A.i) t
            Pure.pure (work ++ [(c, r)])) with
          | error e => rfl
          | ok work =>
            rw [ok_bind]
            have hdup : Mute (forRangeP 1 N () fun t _ => do
                let this ← Pm.lift (rd ((qs work).map some) t)
                let last ← Pm.lift (rd ((qs work).map some) (t - 1))
                if this.1 = last.1 ∧ this.2 = last.2 then Slip.complain (.dup this.2 this.1) .incorrectInput
                else Pure.pure ())
              (Slip.forRange 1 N () fun t _ => do
                let this ← rd ((qs work).map some) t
                let last ← rd ((qs work).map some) (t - 1)
                if this.1 = last.1 ∧ this.2 = last.2 then .error (.ret .incorrectInput) else Pure.pure ()) :=
              Mute.forRange fun t _ => Mute.rd fun a => Mute.rd fun b => Mute.test _
            exact (hdup s2).1
      | dense =>
        dsimp only
        by_cases hc : A.nzmax > 0 ∧ A.x = none
        · rw [if_pos hc, if_pos hc, complain_run]
        rw [if_neg hc, if_neg hc]
        have key : Forget (checkDenseP E A) (fun s => Slip.forRange 0 A.n ((), s) fun j (_, s) =>
            Slip.forRange 0 A.m ((), prLimit s) fun i (_, s) =>
              if s.1 ≥ 2 then do
                printVal A (i + j * A.m)
                Pure.pure ((), prLimit s)
              else Pure.pure ((), s)) := by
          unfold checkDenseP
          refine Forget.forRange fun j _ => ?_
          refine Forget.step Forget.limit (Forget.step (Forget.pr2 _)
            (c := fun (s : Int × Int) => Slip.forRange 0 A.m ((), s) fun i (_, s) =>
              if s.1 ≥ 2 then do
                printVal A (i + j * A.m)
                Pure.pure ((), prLimit s)
              else Pure.pure ((), s)) ?_)
          exact Forget.forRange fun i _ => Forget.showEntry hE A _ _ _
        obtain ⟨q1, -⟩ := key s1 hok
        unfold checkDense
        rw [hl, hpr] at q1
        dsimp only at q1
        rw [forRange_unit (f := fun j (s : Int × Int) => Slip.forRange 0 A.m (prLimit s) fun i s =>
          if s.1 ≥ 2 then do
            let s := prLimit s
            printVal A (i + j * A.m)
            Pure.pure s
          else Pure.pure s) ?_] at q1
        · rcases hf : checkDenseP E A s1 with ⟨r, s2⟩
          rw [hf] at q1
          revert q1
          cases r <;> cases Slip.forRange 0 A.n (optPrint opt, (0 : Int)) _ <;> intro q1 <;> cases q1 <;> rfl
        · intro j x
          dsimp only
          rw [forRange_unit (f := fun i (s : Int × Int) =>
            if s.1 ≥ 2 then do
              let s := prLimit s
              printVal A (i + j * A.m)
              Pure.pure s
            else Pure.pure s) ?_]
          intro i x
          dsimp only
          split
          · cases printVal A (i + j * A.m) <;> rfl
          · rfl
      | bad v => rfl

end

/-! ## Formatting that fails -/

/-- The state of a run in which formatting may fail, and of one in which it does not. -/
structure RF (E : PrEnv) (s0 s : Pr) : Prop where
  pr : s.pr = s0.pr
  lines : s.lines = s0.lines
  ok : s0.status = .ok
  status : s.status = .ok ∨ ∃ k, E.asp k = s.status

/-- The same result, or a code that the formatting function has returned. -/
def FSim (E : PrEnv) {α : Type} (m0 m : Pm α) : Prop :=
  ∀ s0 s, RF E s0 s → ((m s).1 = (m0 s0).1 ∧ RF E (m0 s0).2 (m s).2) ∨
    ∃ k, E.asp k ≠ .ok ∧ (m s).1 = .error (.ret (E.asp k))

section
variable {E : PrEnv} {α β σ : Type}

theorem FSim.lift (m : C α) : FSim E (Pm.lift m) (Pm.lift m) := fun _ _ h => Or.inl ⟨rfl, h⟩

theorem FSim.pure (a : α) : FSim E (Pure.pure a : Pm α) (Pure.pure a) := fun _ _ h => Or.inl ⟨rfl, h⟩

theorem FSim.bind {m0 m : Pm α} {f0 f : α → Pm β} (h : FSim E m0 m) (hf : ∀ a, FSim E (f0 a) (f a)) :
    FSim E (m0 >>= f0) (m >>= f) := by
  intro s0 s hR
  rw [Pm.bind_run, Pm.bind_run]
  have h1 := h s0 s hR
  rcases hm0 : m0 s0 with ⟨r0, s0'⟩
  rcases hm : m s with ⟨r, s'⟩
  rw [hm0, hm] at h1
  dsimp only at h1
  rcases h1 with ⟨rfl, hR'⟩ | ⟨k, hk, rfl⟩
  · cases r with
    | ok a => exact hf a s0' s' hR'
    | error e => exact Or.inl ⟨rfl, hR'⟩
  · exact Or.inr ⟨k, hk, rfl⟩

theorem FSim.forRange {lo hi : Int} {x : σ} {f0 f : Int → σ → Pm σ} (h : ∀ t x, FSim E (f0 t x) (f t x)) :
    FSim E (forRangeP lo hi x f0) (forRangeP lo hi x f) := by
  unfold forRangeP
  generalize (hi - lo).toNat = c
  induction c generalizing lo x with
  | zero => exact FSim.pure x
  | succ c ih => exact FSim.bind (h lo x) fun _ => ih

theorem FSim.complain (e : Msg) (c : Info) : FSim E (complain e c : Pm α) (complain e c) := by
  intro s0 s h
  rw [complain_run, complain_run]
  refine Or.inl ⟨rfl, ?_⟩
  dsimp only
  rw [pr1_keeps, pr1_keeps _ s]
  exact ⟨h.pr, h.lines, h.ok, h.status⟩

theorem FSim.pr2 (e : Ev) : FSim E (pr2 e) (pr2 e) := by
  intro s0 s h
  obtain ⟨o0, ho0⟩ := pr2_keeps e s0
  obtain ⟨o, ho⟩ := pr2_keeps e s
  rw [ho0, ho]
  exact Or.inl ⟨rfl, h.pr, h.lines, h.ok, h.status⟩

theorem FSim.limit : FSim E limit limit := by
  intro s0 s h
  obtain ⟨a1, a2, a3, -⟩ := limit_run s0
  obtain ⟨b1, b2, b3, -⟩ := limit_run s
  rw [a1, b1]
  have he : (s.pr, s.lines) = (s0.pr, s0.lines) := by rw [h.pr, h.lines]
  rw [he, ← a2] at b2
  refine Or.inl ⟨rfl, congrArg Prod.fst b2, congrArg Prod.snd b2, by rw [a3]; exact h.ok, ?_⟩
  rw [b3]
  exact h.status

theorem FSim.format {E0 : PrEnv} (hE0 : ∀ k, E0.asp k = .ok) (e : Ev) : FSim E (format E0 e) (format E e) := by
  intro s0 s h
  rw [format_run hE0]
  obtain ⟨o0, ho0⟩ := pr2_keeps e { s0 with status := .ok, calls := s0.calls + 1 }
  rw [ho0]
  unfold Slip.format
  dsimp only
  split
  · rename_i hk
    obtain ⟨o, ho⟩ := pr2_keeps e { s with status := E.asp s.calls, calls := s.calls + 1 }
    rw [ho]
    exact Or.inl ⟨rfl, h.pr, h.lines, rfl, Or.inl hk⟩
  · exact Or.inl ⟨rfl, h.pr, h.lines, rfl, Or.inr ⟨s.calls, rfl⟩⟩

theorem FSim.showVal {E0 : PrEnv} (hE0 : ∀ k, E0.asp k = .ok) (A : Mat) (t : Int) :
    FSim E (showVal E0 A t) (showVal E A t) := by
  unfold Slip.showVal
  cases A.x with
  | none => exact FSim.lift _
  | some x =>
    cases x
    · exact FSim.bind (FSim.lift _) fun v => FSim.format hE0 _
    · exact FSim.bind (FSim.lift _) fun v => FSim.format hE0 _
    · exact FSim.bind (FSim.lift _) fun v => FSim.format hE0 _
    · exact FSim.bind (FSim.lift _) fun v => FSim.pr2 _
    · exact FSim.bind (FSim.lift _) fun v => FSim.pr2 _

theorem FSim.stop (d : Bool) : FSim E (stop d) (stop d) := by
  intro s0 s h
  unfold Slip.stop
  rw [if_pos h.ok]
  by_cases hs : s.status = .ok
  · rw [if_pos hs]
    exact Or.inl ⟨rfl, h⟩
  · rw [if_neg hs]
    rcases h.status with hh | ⟨k, hk⟩
    · exact absurd hh hs
    · refine Or.inr ⟨k, by rw [hk]; exact hs, ?_⟩
      rw [hk]
      cases d
      · rfl
      · simp only [if_true]
        obtain ⟨o, ho⟩ := pr2_keeps (.error s.status) s
        rw [Pm.bind_run, ho]
        rfl

theorem FSim.showEntry {E0 : PrEnv} (hE0 : ∀ k, E0.asp k = .ok) (A : Mat) (e : Ev) (t : Int) (d : Bool) :
    FSim E (showEntry E0 A e t d) (showEntry E A e t d) := by
  intro s0 s h
  unfold Slip.showEntry
  by_cases hp : s.pr ≥ 2
  · rw [if_pos hp, if_pos (by rw [← h.pr]; exact hp)]
    exact FSim.bind FSim.limit (fun _ => FSim.bind (FSim.pr2 e) fun _ => FSim.bind (FSim.showVal hE0 A t) fun _ =>
      FSim.stop d) s0 s h
  · rw [if_neg hp, if_neg (by rw [← h.pr]; exact hp)]
    exact Or.inl ⟨rfl, h⟩

theorem FSim.body {E0 : PrEnv} (hE0 : ∀ k, E0.asp k = .ok) (hm : E0.mem = E.mem)
    (qs : List (Int × Int) → List (Int × Int)) (init : Bool) (A : Option Mat) :
    FSim E (checkBody E0 qs init A) (checkBody E qs init A) := by
  unfold checkBody
  split
  · exact FSim.lift _
  refine FSim.bind (FSim.lift _) fun nz => ?_
  split
  · exact FSim.complain _ _
  split
  · exact FSim.lift _
  rename_i A
  split
  · exact FSim.complain _ _
  split
  · exact FSim.complain _ _
  split
  · exact FSim.complain _ _
  split
  · exact FSim.complain _ _
  refine FSim.bind ?_ fun _ => ?_
  · unfold showHeader
    refine FSim.bind (FSim.pr2 _) fun _ => ?_
    intro s0 s h
    unfold showScale
    by_cases hp : s.pr ≥ 2
    · rw [if_pos hp, if_pos (by rw [← h.pr]; exact hp)]
      exact FSim.bind (FSim.pr2 _) (fun _ => FSim.format hE0 _) s0 s h
    · rw [if_neg hp, if_neg (by rw [← h.pr]; exact hp)]
      exact Or.inl ⟨rfl, h⟩
  have hmem : FSim E (needMem E0) (needMem E) := by
    unfold needMem
    rw [hm]
    split
    · exact FSim.complain _ _
    · exact FSim.pure _
  unfold checkKindP
  split
  · refine FSim.bind (FSim.lift _) fun p0 => ?_
    split
    · exact FSim.complain _ _
    refine FSim.bind ?_ fun _ => ?_
    · unfold checkPtrP
      refine FSim.forRange fun t _ => ?_
      refine FSim.bind (FSim.lift _) fun a => ?_
      refine FSim.bind (FSim.lift _) fun b => ?_
      split
      · exact FSim.complain _ _
      · exact FSim.pure _
    split
    · exact FSim.complain _ _
    unfold checkRowsP
    refine FSim.bind hmem fun _ => ?_
    refine FSim.bind ?_ fun _ => FSim.pure _
    refine FSim.forRange fun j work => ?_
    refine FSim.bind FSim.limit fun _ => ?_
    refine FSim.bind (FSim.pr2 _) fun _ => ?_
    refine FSim.bind (FSim.lift _) fun a => ?_
    refine FSim.bind (FSim.lift _) fun b => ?_
    refine FSim.forRange fun t work => ?_
    refine FSim.bind (FSim.lift _) fun r => ?_
    split
    · exact FSim.complain _ _
    refine FSim.bind (FSim.lift _) fun w => ?_
    split
    · exact FSim.complain _ _
    refine FSim.bind (FSim.showEntry hE0 A _ t _) fun _ => FSim.lift _
  · split
    · exact FSim.complain _ _
    refine FSim.bind ?_ fun _ => ?_
    · unfold checkTripletsP
      refine FSim.forRange fun t _ => ?_
      refine FSim.bind (FSim.lift _) fun a => ?_
      refine FSim.bind (FSim.lift _) fun b => ?_
      split
      · exact FSim.complain _ _
      · exact FSim.showEntry hE0 A _ t _
    · unfold checkDupP
      refine FSim.bind hmem fun _ => ?_
      refine FSim.bind (FSim.lift _) fun _ => ?_
      refine FSim.forRange fun t _ => ?_
      refine FSim.bind (FSim.lift _) fun a => ?_
      refine FSim.bind (FSim.lift _) fun b => ?_
      split
      · exact FSim.complain _ _
      · exact FSim.pure _
  · split
    · exact FSim.complain _ _
    unfold checkDenseP
    refine FSim.forRange fun j _ => ?_
    refine FSim.bind FSim.limit fun _ => ?_
    refine FSim.bind (FSim.pr2 _) fun _ => ?_
    exact FSim.forRange fun i _ => FSim.showEntry hE0 A _ _ _
  · exact FSim.pure _

end

/-! ## Levels 0 and 1: nothing is formatted -/

/-- At level 1 and below the two computations are the same. -/
def QSim {α : Type} (m0 m : Pm α) : Prop := ∀ s, s.pr ≤ 1 → m s = m0 s ∧ (m0 s).2.pr ≤ 1

section
variable {α β σ : Type}

theorem QSim.refl {m : Pm α} (h : ∀ s, (m s).2.pr = s.pr) : QSim m m := fun s hs => ⟨rfl, by rw [h]; exact hs⟩

theorem QSim.lift (m : C α) : QSim (Pm.lift m) (Pm.lift m) := QSim.refl fun _ => rfl

theorem QSim.pure (a : α) : QSim (Pure.pure a : Pm α) (Pure.pure a) := QSim.refl fun _ => rfl

theorem QSim.bind {m0 m : Pm α} {f0 f : α → Pm β} (h : QSim m0 m) (hf : ∀ a, QSim (f0 a) (f a)) :
    QSim (m0 >>= f0) (m >>= f) := by
  intro s hs
  obtain ⟨h1, h2⟩ := h s hs
  rw [Pm.bind_run, Pm.bind_run, h1]
  rcases hm : m0 s with ⟨_ | a, s'⟩
  · rw [hm] at h2; exact ⟨rfl, h2⟩
  · rw [hm] at h2; exact hf a s' h2

theorem QSim.forRange {lo hi : Int} {x : σ} {f0 f : Int → σ → Pm σ} (h : ∀ t x, QSim (f0 t x) (f t x)) :
    QSim (forRangeP lo hi x f0) (forRangeP lo hi x f) := by
  unfold forRangeP
  generalize (hi - lo).toNat = c
  induction c generalizing lo x with
  | zero => exact QSim.pure x
  | succ c ih => exact QSim.bind (h lo x) fun _ => ih

theorem QSim.complain (e : Msg) (c : Info) : QSim (complain e c : Pm α) (complain e c) := by
  refine QSim.refl fun s => ?_
  rw [complain_run]
  dsimp only
  rw [pr1_keeps]

theorem QSim.pr2 (e : Ev) : QSim (pr2 e) (pr2 e) := by
  refine QSim.refl fun s => ?_
  obtain ⟨o, ho⟩ := pr2_keeps e s
  rw [ho]

theorem QSim.limit : QSim limit limit := by
  intro s hs
  refine ⟨rfl, ?_⟩
  unfold Slip.limit
  dsimp only
  split
  · exact le_rfl
  · exact hs

theorem QSim.showEntry {E0 E : PrEnv} (A : Mat) (e : Ev) (t : Int) (d : Bool) :
    QSim (showEntry E0 A e t d) (showEntry E A e t d) := by
  intro s hs
  unfold Slip.showEntry
  rw [if_neg (by omega), if_neg (by omega)]
  exact ⟨rfl, hs⟩

theorem QSim.body {E0 E : PrEnv} (hm : E0.mem = E.mem)
    (qs : List (Int × Int) → List (Int × Int)) (init : Bool) (A : Option Mat) :
    QSim (checkBody E0 qs init A) (checkBody E qs init A) := by
  unfold checkBody
  split
  · exact QSim.lift _
  refine QSim.bind (QSim.lift _) fun nz => ?_
  split
  · exact QSim.complain _ _
  split
  · exact QSim.lift _
  rename_i A
  split
  · exact QSim.complain _ _
  split
  · exact QSim.complain _ _
  split
  · exact QSim.complain _ _
  split
  · exact QSim.complain _ _
  refine QSim.bind ?_ fun _ => ?_
  · unfold showHeader
    refine QSim.bind (QSim.pr2 _) fun _ => ?_
    intro s hs
    unfold showScale
    rw [if_neg (by omega), if_neg (by omega)]
    exact ⟨rfl, hs⟩
  have hmem : QSim (needMem E0) (needMem E) := by
    unfold needMem
    rw [hm]
    split
    · exact QSim.complain _ _
    · exact QSim.pure _
  unfold checkKindP
  split
  · refine QSim.bind (QSim.lift _) fun p0 => ?_
    split
    · exact QSim.complain _ _
    refine QSim.bind ?_ fun _ => ?_
    · unfold checkPtrP
      refine QSim.forRange fun t _ => ?_
      refine QSim.bind (QSim.lift _) fun a => ?_
      refine QSim.bind (QSim.lift _) fun b => ?_
      split
      · exact QSim.complain _ _
      · exact QSim.pure _
    split
    · exact QSim.complain _ _
    unfold checkRowsP
    refine QSim.bind hmem fun _ => ?_
    refine QSim.bind ?_ fun _ => QSim.pure _
    refine QSim.forRange fun j work => ?_
    refine QSim.bind QSim.limit fun _ => ?_
    refine QSim.bind (QSim.pr2 _) fun _ => ?_
    refine QSim.bind (QSim.lift _) fun a => ?_
    refine QSim.bind (QSim.lift _) fun b => ?_
    refine QSim.forRange fun t work => ?_
    refine QSim.bind (QSim.lift _) fun r => ?_
    split
    · exact QSim.complain _ _
    refine QSim.bind (QSim.lift _) fun w => ?_
    split
    · exact QSim.complain _ _
    refine QSim.bind (QSim.showEntry A _ t _) fun _ => QSim.lift _
  · split
    · exact QSim.complain _ _
    refine QSim.bind ?_ fun _ => ?_
    · unfold checkTripletsP
      refine QSim.forRange fun t _ => ?_
      refine QSim.bind (QSim.lift _) fun a => ?_
      refine QSim.bind (QSim.lift _) fun b => ?_
      split
      · exact QSim.complain _ _
      · exact QSim.showEntry A _ t _
    · unfold checkDupP
      refine QSim.bind hmem fun _ => ?_
      refine QSim.bind (QSim.lift _) fun _ => ?_
      refine QSim.forRange fun t _ => ?_
      refine QSim.bind (QSim.lift _) fun a => ?_
      refine QSim.bind (QSim.lift _) fun b => ?_
      split
      · exact QSim.complain _ _
      · exact QSim.pure _
  · split
    · exact QSim.complain _ _
    unfold checkDenseP
    refine QSim.forRange fun j _ => ?_
    refine QSim.bind QSim.limit fun _ => ?_
    refine QSim.bind (QSim.pr2 _) fun _ => ?_
    exact QSim.forRange fun i _ => QSim.showEntry A _ _ _
  · exact QSim.pure _

end

end Slip
