import Verif.Proof.Session
import Verif.Props.Memory
import Verif.Model.MatCheck
import Verif.Model.Convert
import Verif.Model.Api
import Verif.Model.Realloc

/-!
# Properties C27 and C30 for whole histories of calls

A history is any list of calls (`Call`), made by a process which starts with the library not initialised
and all its variables NULL. Requests for memory are refused at will.
-/

namespace Slip.Mem

variable {base : Addr → Option ℕ}

/-! ## Specification -/

/-- A successful initialisation (`true`) or finalisation (`false`). -/
def event (c : Call) (r : Reply) : Option Bool :=
  match c, r with
  | .initialise, .info .ok => some true
  | .expert _, .info .ok => some true
  | .finalize, .info .ok => some false
  | _, _ => none

/-- The successful initialisations and finalisations of a history, in their order. -/
def events (cs : List Call) (rs : List Reply) : List Bool := (List.zipWith event cs rs).filterMap id

/-- The library is initialised: the last of these was an initialisation. -/
def up (cs : List Call) (rs : List Reply) : Prop := (events cs rs).getLast? = some true

/-- The functions that test whether the library is initialised, and what they must return if it is not. -/
def failure (c : Call) : Option Reply :=
  match c with
  | .allocate .. | .free _ | .copy .. | .check _ | .analyze .. | .anaFree _ | .factorize .. | .solve ..
  | .backslash .. => some (.info .panic)
  | .malloc _ => some (.pointer false)
  | .nnz _ => some (.count (-1))
  | _ => none

/-- The call uses an order of the columns that has not been written: the factorization with an analysis
that has none, or `SLIP_backslash` with AMD, when AMD is refused memory. -/
def OrderMissing (c : Call) (P : Proc) : Prop :=
  match c with
  | .factorize _ _ _ _ _ s _ => ∃ S, P.vars.ana s = some S ∧ S.filled = false
  | .backslash _ _ a _ .amd _ _ => ∃ A, P.vars.mat a = some A ∧ AmdRefused A.m.toNat P.st
  | _ => False

/-- The call uses AMD. -/
def usesAmd (c : Call) : Prop :=
  match c with
  | .analyze _ _ order => order = .amd
  | .backslash _ _ _ _ order _ _ => order = .amd
  | _ => False

/-- A process that has not yet used the library. `live` are the blocks of others. -/
structure NewProc (P : Proc) : Prop where
  down : P.st.g.init = false
  list : P.st.g.list = none
  cache : P.st.g.cache = []
  env : P.st.env.Good
  serial : ∀ p s, P.st.g.live p = some s → s < P.st.g.gen
  mats : ∀ A ∈ P.vars.mats, A = none
  anas : ∀ S ∈ P.vars.anas, S = none
  ptrs : ∀ p ∈ P.vars.ptrs, p = none

/-! ## Proofs -/

/-- The invariant. -/
structure PInv (base : Addr → Option ℕ) (P : Proc) : Prop where
  sized : P.vars.Sized
  env : P.st.env.Good
  serial : Serial P.st.g
  nlist : P.st.g.list.isSome → 0 < P.st.g.nlist
  acc : Acc base (P.vars.blocks + sys P.st.g) P.st.g
  down : P.st.g.init = false → P.st.g.list = none ∧ P.st.g.cache = []
  hooks : P.st.g.init = true → P.hooks = true

theorem sum_none {α : Type} {f : Option α → Multiset Addr} (hf : f none = 0) :
    ∀ {l : List (Option α)}, (∀ a ∈ l, a = none) → (l.map f).sum = 0 := by
  intro l
  induction l with
  | nil => intro _; rfl
  | cons a l ih =>
    intro h
    rw [List.map_cons, List.sum_cons, ih fun b hb => h b (List.mem_cons_of_mem _ hb),
      h a List.mem_cons_self, hf, add_zero]

theorem blocks_none {v : Vars} (h1 : ∀ A ∈ v.mats, A = none) (h2 : ∀ S ∈ v.anas, S = none)
    (h3 : ∀ p ∈ v.ptrs, p = none) : v.blocks = 0 := by
  unfold Vars.blocks
  rw [sum_none rfl h1, sum_none rfl h2, sum_none rfl h3]
  rfl

theorem NewProc.inv {P : Proc} (h : NewProc P) : PInv P.st.g.live P where
  sized := fun A hA => by rw [h.mats A hA]; exact matSized_none
  env := h.env
  serial := h.serial
  nlist := by rw [h.list]; nofun
  acc := by
    rw [blocks_none h.mats h.anas h.ptrs]
    unfold sys
    rw [h.list, h.cache]
    exact Acc.zero
  down := fun _ => ⟨h.list, h.cache⟩
  hooks := fun h' => by rw [h.down] at h'; cases h'

theorem PInv.start {P : Proc} (h : PInv base P) (f : ℕ) :
    PInv base { P with hooks := true, funcs := f, st := { P.st with g := { P.st.g with init := true } } } :=
  ⟨h.sized, h.env, h.serial, h.nlist, h.acc.congr rfl, nofun, fun _ => rfl⟩

theorem PInv.owns {P : Proc} (h : PInv base P) (hu : P.st.g.init = true) : Owns base P.vars.blocks P.st :=
  ⟨⟨hu, h.nlist, h.serial⟩, h.env, h.acc⟩

/-- The body of a call. -/
theorem body_cases (c : Call) {P : Proc} (h : PInv base P) (hu : P.st.g.init = true) :
    (OrderMissing c P ∧ body c P.vars P.st = .error .ub) ∨
    ∃ a st' own', body c P.vars P.st = .ok (a, st') ∧ Owns base own' st' ∧ own' = a.2.blocks ∧ a.2.Sized ∧
      OldOrders P.vars a.2 (usesAmd c) := by
  have hgen : (∀ l u r p a s pivot, c = .factorize l u r p a s pivot → ∀ S, P.vars.ana s = some S →
        S.filled ≠ false) →
      (∀ x type a b order pivot check, c ≠ .backslash x type a b order pivot check) →
      ∃ a st' own', body c P.vars P.st = .ok (a, st') ∧ Owns base own' st' ∧ own' = a.2.blocks ∧ a.2.Sized ∧
        OldOrders P.vars a.2 (usesAmd c) := by
    intro h1 h2
    obtain ⟨a, st', own', e, h3, h4, h5, h6⟩ := fine_body c h.sized h1 h2 P.st (h.owns hu) rfl
    refine ⟨a, st', own', e, h3, h4, h5, fun S k1 k2 => (h6 S k1 k2).imp_right ?_⟩
    rintro ⟨s, a, rfl⟩
    exact rfl
  cases hc : c with
  | backslash x type a b order pivot check =>
    rcases body_backslash (x := x) (type := type) (a := a) (b := b) (order := order) (pivot := pivot)
      (check := check) h.sized (h.owns hu) with ⟨rfl, h1, h2⟩ | ⟨r, st', own', e, h1, h2, h3, h4⟩
    · exact Or.inl ⟨h1, h2⟩
    · exact Or.inr ⟨r, st', own', e, h1, h2, h3, .refl h4⟩
  | factorize l u r p a s pivot =>
    by_cases hm : ∃ S, P.vars.ana s = some S ∧ S.filled = false
    · obtain ⟨S, h1, h2⟩ := hm
      have hsame : ∀ w : Reply, ∃ b st' own', (pure (w, P.vars) : M (Reply × Vars)) P.st = .ok (b, st') ∧
          Owns base own' st' ∧ own' = b.2.blocks ∧ b.2.Sized ∧
          OldOrders P.vars b.2 (usesAmd (.factorize l u r p a s pivot)) :=
        fun r => ⟨_, P.st, _, rfl, h.owns hu, rfl, h.sized, .refl rfl⟩
      unfold body
      dsimp only
      split
      · cases hA : P.vars.mat a with
        | none => exact Or.inr (hsame _)
        | some A =>
          rw [h1]
          dsimp only
          split
          · exact Or.inr (hsame _)
          · exact Or.inl ⟨⟨S, h1, h2⟩, rfl⟩
      · exact Or.inr (hsame _)
    · rw [← hc]
      refine Or.inr (hgen (fun l' u' r' p' a' s' pivot' e S h1 h2 => ?_) (by rw [hc]; nofun))
      rw [hc] at e
      cases e
      exact hm ⟨S, h1, h2⟩
  | _ =>
    rw [← hc]
    exact Or.inr (hgen (by rw [hc]; nofun) (by rw [hc]; nofun))

/-- What a call that ends has done. -/
structure Ended (base : Addr → Option ℕ) (c : Call) (P : Proc) (r : Reply) (P' : Proc) : Prop where
  inv : PInv base P'
  init : P'.st.g.init = (match event c r with | some b => b | none => P.st.g.init)
  flip : ∀ b, event c r = some b → P.st.g.init = !b
  old : OldOrders P.vars P'.vars (usesAmd c)

/-- Every call ends without undefined behaviour and preserves the invariant, unless it uses an order that
is missing. -/
theorem inv_step (c : Call) {P : Proc} (h : PInv base P) :
    (P.st.g.init = true ∧ OrderMissing c P ∧ step c P = .error .ub) ∨
      ∃ r P', step c P = .ok (r, P') ∧ Ended base c P r P' := by
  have hrest : ∀ (c : Call), c ≠ .initialise → (∀ f, c ≠ .expert f) → c ≠ .finalize →
      (∀ r, event c r = none) ∧ step c P = (if !P.st.g.init then .ok (uninitialised c, P) else (do
        let ((r, v), st) ← body c P.vars P.st
        .ok (r, { P with st := st, vars := v }))) := by
    intro c h1 h2 h3
    cases c
    all_goals first | exact absurd rfl h1 | exact absurd rfl (h2 _) | exact absurd rfl h3 | exact ⟨fun _ => rfl, rfl⟩
  have hother : ∀ (c : Call), c ≠ .initialise → (∀ f, c ≠ .expert f) → c ≠ .finalize →
      (P.st.g.init = true ∧ OrderMissing c P ∧ step c P = .error .ub) ∨
      ∃ r P', step c P = .ok (r, P') ∧ Ended base c P r P' := by
    intro c h1 h2 h3
    obtain ⟨e1, e2⟩ := hrest c h1 h2 h3
    rw [e2]
    cases hu : P.st.g.init with
    | false => exact Or.inr ⟨_, P, rfl, h, by rw [e1, hu], fun b hb => by (rw [e1] at hb; cases hb), .refl rfl⟩
    | true =>
      rcases body_cases c h hu with ⟨h4, e⟩ | ⟨⟨r, v⟩, st', own', e, ho, rfl, hs, hq⟩
      · rw [e]
        exact Or.inl ⟨rfl, h4, rfl⟩
      rw [e]
      refine Or.inr ⟨r, _, rfl, ⟨hs, ho.2.1, ho.1.2.2, ho.1.2.1, ho.2.2, ?_, fun _ => h.hooks hu⟩, ?_, ?_, hq⟩
      · intro hd
        change st'.g.init = false at hd
        rw [ho.1.1] at hd
        cases hd
      · rw [e1, hu]; exact ho.1.1
      · intro b hb
        rw [e1] at hb
        cases hb
  cases hc : c with
  | initialise =>
    unfold step SLIP_initialize
    cases hu : P.st.g.init with
    | true => exact Or.inr ⟨_, _, rfl, h, rfl, nofun, .refl rfl⟩
    | false => exact Or.inr ⟨_, _, rfl, h.start _, rfl, fun b hb => by (cases hb; exact hu), .refl rfl⟩
  | expert f =>
    unfold step SLIP_initialize_expert SLIP_initialize
    cases hu : P.st.g.init with
    | true => exact Or.inr ⟨_, _, rfl, h, rfl, nofun, .refl rfl⟩
    | false =>
      dsimp only
      rw [if_neg Bool.false_ne_true, hu, if_neg Bool.false_ne_true]
      exact Or.inr ⟨_, _, rfl, h.start _, rfl, fun b hb => by (cases hb; exact hu), .refl rfl⟩
  | finalize =>
    unfold step
    cases hu : P.st.g.init with
    | false =>
      refine Or.inr ⟨.info .panic, P, ?_, h, rfl, nofun, .refl rfl⟩
      unfold SLIP_finalize
      dsimp only
      rw [hu]
      rfl
    | true =>
      obtain ⟨g', e, h1, h2, h3, h4, h5⟩ := finalize_frame hu h.serial h.acc
      dsimp only
      rw [e]
      refine Or.inr ⟨.info .ok, _, rfl, ⟨h.sized, h.env, h2, ?_, ?_, fun _ => ⟨h5, h4⟩, ?_⟩, h1, ?_, .refl rfl⟩
      · dsimp only; rw [h5]; nofun
      · dsimp only
        unfold sys
        rw [h4, h5]
        change Acc base (P.vars.blocks + (0 + 0)) g'
        rw [add_zero, add_zero]
        exact h3
      · intro hi
        change g'.init = true at hi
        rw [h1] at hi
        cases hi
      · intro b hb
        cases hb
        exact hu
  | _ => rw [← hc]; exact hother c (by rw [hc]; nofun) (by rw [hc]; nofun) (by rw [hc]; nofun)

theorem events_cons (c : Call) (cs : List Call) (r : Reply) (rs : List Reply) :
    events (c :: cs) (r :: rs) = (event c r).toList ++ events cs rs := by
  unfold events
  rw [List.zipWith_cons_cons]
  cases event c r <;> simp

/-- What a history that ends has done. -/
structure Past (base : Addr → Option ℕ) (cs : List Call) (P : Proc) (rs : List Reply) (P' : Proc) : Prop where
  inv : PInv base P'
  length : rs.length = cs.length
  init : P'.st.g.init = (events cs rs).getLast?.getD P.st.g.init
  alternate : ∀ i b, (events cs rs)[i]? = some b → b = if i % 2 = 0 then !P.st.g.init else P.st.g.init
  old : ∀ S, some S ∈ P'.vars.anas → S.filled = false → some S ∈ P.vars.anas ∨ ∃ c ∈ cs, usesAmd c

theorem run_cons {c : Call} {cs : List Call} {P P1 : Proc} {r : Reply} (e : step c P = .ok (r, P1)) :
    run (c :: cs) P = (run cs P1 >>= fun x => .ok (r :: x.1, x.2)) := by
  show (step c P >>= fun x => _) = _
  rw [e]
  rfl

/-- Every history. -/
theorem inv_run : ∀ (cs : List Call) {P : Proc}, PInv base P →
    (∃ rs P', run cs P = .ok (rs, P') ∧ Past base cs P rs P') ∨
    ∃ cs1 c cs2 rs P1, cs = cs1 ++ c :: cs2 ∧ run cs1 P = .ok (rs, P1) ∧ Past base cs1 P rs P1 ∧
      P1.st.g.init = true ∧ OrderMissing c P1 ∧ run cs P = .error .ub := by
  intro cs
  induction cs with
  | nil =>
    intro P h
    exact Or.inl ⟨[], P, rfl, h, rfl, rfl, (fun i b hb => by simp [events] at hb), fun S h _ => Or.inl h⟩
  | cons c cs ih =>
    intro P h
    rcases inv_step c h with ⟨h1, h2, h3⟩ | ⟨r, P1, e, h1, h2, h3, h4⟩
    · refine Or.inr ⟨[], c, cs, [], P, rfl, rfl, ⟨h, rfl, rfl, (fun i b hb => by simp [events] at hb),
        fun S h _ => Or.inl h⟩, h1, h2, ?_⟩
      show (step c P >>= fun x => _) = _
      rw [h3]
      rfl
    have hcons : ∀ {cs' : List Call} {rs : List Reply} {P2 : Proc}, Past base cs' P1 rs P2 →
        Past base (c :: cs') P (r :: rs) P2 := by
      rintro cs' rs P2 ⟨k1, k2, k3, k4, k5⟩
      refine ⟨k1, by simp [k2], ?_, ?_, fun S g1 g2 => ?_⟩
      · rw [k3, events_cons, h2]
        cases he : event c r with
        | none => simp
        | some b =>
          simp only [Option.toList_some, List.singleton_append, List.getLast?_cons]
          cases (events cs' rs).getLast? <;> rfl
      · intro i b hb
        rw [events_cons] at hb
        cases he : event c r with
        | none =>
          rw [he] at hb
          have := k4 i b (by simpa using hb)
          rw [h2, he] at this
          exact this
        | some d =>
          rw [he] at hb
          have hd := h3 d he
          cases i with
          | zero =>
            obtain rfl : d = b := by simpa using hb
            rw [hd]
            cases d <;> rfl
          | succ i =>
            have := k4 i b (by simpa using hb)
            rw [h2, he] at this
            dsimp only at this
            rw [this, hd]
            by_cases hi : i % 2 = 0
            · rw [if_pos hi, if_neg (by omega)]
            · rw [if_neg hi, if_pos (by omega)]
              cases d <;> rfl
      · rcases k5 S g1 g2 with g3 | ⟨c', g3, g4⟩
        · rcases h4 S g3 g2 with g4 | g4
          · exact Or.inl g4
          · exact Or.inr ⟨c, List.mem_cons_self, g4⟩
        · exact Or.inr ⟨c', List.mem_cons_of_mem _ g3, g4⟩
    rcases ih h1 with ⟨rs, P2, e2, k⟩ | ⟨cs1, c', cs2, rs, P2, rfl, e2, k, g1, g2, g3⟩
    · refine Or.inl ⟨r :: rs, P2, ?_, hcons k⟩
      rw [run_cons e, e2]
      rfl
    · refine Or.inr ⟨c :: cs1, c', cs2, r :: rs, P2, rfl, ?_, hcons k, g1, g2, ?_⟩
      · rw [run_cons e, e2]
        rfl
      · rw [run_cons e, g3]
        rfl

/-- A history that ends. -/
theorem past_of_run {cs : List Call} {P P' : Proc} {rs : List Reply} (h : PInv base P)
    (e : run cs P = .ok (rs, P')) : Past base cs P rs P' := by
  rcases inv_run cs h with ⟨rs', P2, e2, k⟩ | ⟨_, _, _, _, _, _, _, _, _, _, e2⟩
  · rw [e] at e2
    cases e2
    exact k
  · rw [e] at e2
    cases e2

/-! ## C27 -/

/-- C27: in every history (that has no undefined behaviour, see `C30_history`), successful initialisations
and finalisations alternate, and the first is an initialisation. -/
theorem C27_alternate (P : Proc) (hP : NewProc P) (cs : List Call) (rs : List Reply) (P' : Proc)
    (h : run cs P = .ok (rs, P')) :
    rs.length = cs.length ∧ ∀ i b, (events cs rs)[i]? = some b → b = decide (i % 2 = 0) := by
  obtain ⟨h1, h2, h3, h4, -⟩ := past_of_run hP.inv h
  refine ⟨h2, fun i b hb => ?_⟩
  rw [h4 i b hb, hP.down]
  by_cases hi : i % 2 = 0
  · rw [if_pos hi, decide_eq_true hi]; rfl
  · rw [if_neg hi, decide_eq_false hi]

/-- C27: what a call does after any history.
* `SLIP_initialize` and `SLIP_initialize_expert` return SLIP_OK if the library is not initialised, and
  otherwise SLIP_PANIC without any effect;
* `SLIP_finalize` returns SLIP_OK if the library is initialised, and otherwise SLIP_PANIC without any
  effect;
* the other functions, if the library is not initialised, return their failure value without any
  effect: the memory, the state of the library and the user's variables are the same;
* while the library is initialised, GMP uses the memory functions of the library.
(The first alternative is the undefined behaviour of `C30_history`.) -/
theorem C27_protocol (P : Proc) (hP : NewProc P) (cs : List Call) (c : Call) (rs : List Reply) (P1 : Proc)
    (hrun : run cs P = .ok (rs, P1)) :
    (up cs rs ∧ OrderMissing c P1 ∧ step c P1 = .error .ub) ∨ ∃ r P2, step c P1 = .ok (r, P2) ∧
      ((c = .initialise ∨ ∃ f, c = .expert f) →
        (¬ up cs rs → r = .info .ok) ∧ (up cs rs → r = .info .panic ∧ P2 = P1)) ∧
      (c = .finalize →
        (up cs rs → r = .info .ok) ∧ (¬ up cs rs → r = .info .panic ∧ P2 = P1)) ∧
      (∀ w, failure c = some w → ¬ up cs rs → r = w ∧ P2 = P1) ∧
      (up cs rs → P1.hooks = true) := by
  obtain ⟨h1, -, h3, -, -⟩ := past_of_run hP.inv hrun
  have hup : up cs rs ↔ P1.st.g.init = true := by
    unfold up
    rw [h3, hP.down]
    cases (events cs rs).getLast? <;> simp
  have hdown : ¬ up cs rs ↔ P1.st.g.init = false := by rw [hup, Bool.not_eq_true]
  rcases inv_step c h1 with ⟨k1, k2, k3⟩ | ⟨r, P2, e2, -, k2, -, -⟩
  · exact Or.inl ⟨hup.2 k1, k2, k3⟩
  refine Or.inr ⟨r, P2, e2, ?_, ?_, ?_, fun h => h1.hooks (hup.1 h)⟩
  · rw [hup, Bool.not_eq_true]
    rintro (rfl | ⟨f, rfl⟩)
    · unfold step SLIP_initialize at e2
      refine ⟨fun h => ?_, fun h => ?_⟩ <;> rw [h] at e2 <;> cases e2
      · rfl
      · exact ⟨rfl, rfl⟩
    · unfold step SLIP_initialize_expert SLIP_initialize at e2
      refine ⟨fun h => ?_, fun h => ?_⟩ <;> simp only [h] at e2 <;> cases e2
      · rfl
      · exact ⟨rfl, rfl⟩
  · rw [hup, Bool.not_eq_true]
    rintro rfl
    unfold step at e2
    refine ⟨fun h => ?_, fun h => ?_⟩
    · obtain ⟨g', e3, -⟩ := finalize_frame h h1.serial h1.acc
      dsimp only at e2
      rw [e3] at e2
      cases e2
      rfl
    · unfold SLIP_finalize at e2
      simp only [h] at e2
      cases e2
      exact ⟨rfl, rfl⟩
  · intro w hw hd
    have hd := hdown.1 hd
    cases c <;> simp only [failure, Option.some.injEq, reduceCtorEq] at hw <;> subst hw <;>
      (unfold step at e2; simp only [hd] at e2; cases e2; exact ⟨rfl, rfl⟩)

/-! ## C30 -/

/-- What is in memory after a history: the blocks that existed before it (unchanged), those that belong to
the user's variables, each once, and those that the library keeps for itself - none if it is not
initialised. So if the user has freed all variables and finalised the library, memory is as before. -/
structure Accounted (P : Proc) (cs : List Call) (rs : List Reply) (P' : Proc) : Prop where
  acc : Acc P.st.g.live (P'.vars.blocks + sys P'.st.g) P'.st.g
  down : ¬ up cs rs → sys P'.st.g = 0
  same : ¬ up cs rs → (∀ A ∈ P'.vars.mats, A = none) → (∀ S ∈ P'.vars.anas, S = none) →
    (∀ p ∈ P'.vars.ptrs, p = none) → P'.st.g.live = P.st.g.live

theorem Past.accounted {P P' : Proc} (hP : NewProc P) {cs : List Call} {rs : List Reply}
    (h : Past P.st.g.live cs P rs P') : Accounted P cs rs P' := by
  obtain ⟨h1, -, h3, -, -⟩ := h
  have hdown : ¬ up cs rs → P'.st.g.init = false := by
    intro h
    unfold up at h
    rw [h3, hP.down]
    revert h
    cases (events cs rs).getLast? <;> simp
  have hsys : ¬ up cs rs → sys P'.st.g = 0 := by
    intro h
    obtain ⟨h4, h5⟩ := h1.down (hdown h)
    unfold sys
    rw [h4, h5]
    rfl
  refine ⟨h1.acc, hsys, fun hu h4 h5 h6 => ?_⟩
  have := h1.acc
  rw [hsys hu, blocks_none h4 h5 h6] at this
  exact Acc.zero_iff.1 this

/-- C30: in every history of calls, whatever requests are refused, there is no undefined behaviour (no
block is freed twice, no block of others is freed, no NULL pointer is followed), and at the end memory is as
`Accounted` says - except if the history comes to a call that needs the order of the columns when AMD could
not compute it for lack of memory. Up to this call, memory is as `Accounted` says. -/
theorem C30_history (P : Proc) (hP : NewProc P) (cs : List Call) :
    (∃ rs P', run cs P = .ok (rs, P') ∧ Accounted P cs rs P') ∨
    ∃ cs1 c cs2 rs P1, cs = cs1 ++ c :: cs2 ∧ run cs1 P = .ok (rs, P1) ∧ Accounted P cs1 rs P1 ∧
      OrderMissing c P1 ∧ (∃ c' ∈ cs1 ++ [c], usesAmd c') ∧ run cs P = .error .ub := by
  rcases inv_run cs hP.inv with ⟨rs, P', e, h⟩ | ⟨cs1, c, cs2, rs, P1, rfl, e, h, -, h2, h0⟩
  · exact Or.inl ⟨rs, P', e, h.accounted hP⟩
  · refine Or.inr ⟨cs1, c, cs2, rs, P1, rfl, e, h.accounted hP, h2, ?_, h0⟩
    unfold OrderMissing at h2
    split at h2
    · rename_i s _
      obtain ⟨S, h3, h4⟩ := h2
      have h5 : some S ∈ P1.vars.anas := by
        unfold Vars.ana at h3
        cases h6 : P1.vars.anas[s]? with
        | none => rw [h6] at h3; cases h3
        | some T =>
          rw [h6] at h3
          rw [← show T = some S from h3]
          exact List.mem_of_getElem? h6
      rcases h.old S h5 h4 with h6 | ⟨c', h6, h7⟩
      · cases hP.anas _ h6
      · exact ⟨c', List.mem_append_left _ h6, h7⟩
    · exact ⟨_, List.mem_append_right _ (List.mem_singleton.2 rfl), rfl⟩
    · exact h2.elim

/-- C30: without AMD there is no exception. -/
theorem C30_history_no_amd (P : Proc) (hP : NewProc P) (cs : List Call) (h : ∀ c ∈ cs, ¬ usesAmd c) :
    ∃ rs P', run cs P = .ok (rs, P') ∧ Accounted P cs rs P' := by
  rcases C30_history P hP cs with h1 | ⟨cs1, c, cs2, rs, P1, rfl, -, -, -, ⟨c', h2, h3⟩, -⟩
  · exact h1
  · refine absurd h3 (h c' ?_)
    rw [List.mem_append, List.mem_singleton] at h2
    rcases h2 with h2 | h2 <;> simp [h2]

/-! ## Examples -/

/-- A process with four variables of each kind. -/
def procEx (bad : ℕ → Bool) : Proc where
  st := { stEx bad with g := { (stEx bad).g with init := false } }
  hooks := false
  funcs := 0
  vars := ⟨List.replicate 6 none, List.replicate 2 none, List.replicate 2 none⟩

theorem procEx_fresh (bad : ℕ → Bool) : NewProc (procEx bad) where
  down := rfl
  list := rfl
  cache := rfl
  env := envEx_good
  serial := (stEx_owns bad).1.2.2
  mats := fun _ h => List.eq_of_mem_replicate h
  anas := fun _ h => List.eq_of_mem_replicate h
  ptrs := fun _ h => List.eq_of_mem_replicate h

/-- Every phase of the library is used, between an initialisation and a finalisation. -/
def sessionEx : List Call :=
  [.nnz 0, .finalize, .initialise, .initialise, .malloc 0,
   .allocate 0 .csc .mpz 1 1 1 false true, .set 0 0, .fill 0 1 0,
   .allocate 1 .dense .mpz 1 1 1 false true, .set 1 0,
   .analyze 0 0 .none, .factorize 2 3 4 1 0 0 .smallest, .solve 5 1 0 2 3 4 0 1 false,
   .free 0, .free 1, .free 2, .free 3, .free 4, .free 5, .anaFree 0, .freePtr 0, .freePtr 1, .finalize,
   .allocate 0 .csc .mpz 1 1 1 false true, .expert 1, .expert 2]

/-- What the calls returned, and whether an address is in use at the end. -/
def seenRun (r : C (List Reply × Proc)) (q : Addr) : Option (List Reply × Bool) :=
  match r with
  | .ok (rs, P) => some (rs, (P.st.g.live q).isSome)
  | _ => none

/-- All of `sessionEx` is done. -/
example : seenRun (run sessionEx (procEx fun _ => false)) 10 = some
    ([.count (-1), .info .panic, .info .ok, .info .panic, .pointer true,
      .info .ok, .info .ok, .notCalled, .info .ok, .info .ok,
      .info .ok, .info .ok, .info .ok,
      .info .ok, .info .ok, .info .ok, .info .ok, .info .ok, .info .ok, .info .ok, .pointer false,
      .pointer false, .info .ok, .info .panic, .info .ok, .info .panic], false) := by
  decide +kernel

/-- `SLIP_backslash` for the three types of result and for a type that is rejected. -/
def backEx : List Call :=
  [.initialise, .allocate 0 .csc .mpz 1 1 1 false true, .set 0 0, .fill 0 1 0,
   .allocate 1 .dense .mpz 1 1 1 false true, .set 1 0,
   .backslash 2 .mpq 0 1 .none .smallest false, .backslash 3 .fp64 0 1 .none .smallest true,
   .backslash 4 .mpfr 0 1 .colamd .diagonal false, .backslash 5 .mpz 0 1 .none .smallest false,
   .nnz 2, .nnz 3, .nnz 4, .nnz 5, .free 2, .free 3, .free 4, .free 0, .free 1, .finalize]

/-- All of `backEx` is done, and nothing is left in use. -/
example : seenRun (run backEx (procEx fun _ => false)) 10 = some
    ([.info .ok, .info .ok, .info .ok, .notCalled, .info .ok, .info .ok, .info .ok, .info .ok, .info .ok,
      .info .incorrectInput, .count 1, .count 1, .count 1, .count (-1), .info .ok, .info .ok, .info .ok,
      .info .ok, .info .ok, .info .ok], false) := by
  decide +kernel

/-- A block that is made smaller may move. -/
example : ∃ (g : G) (p q : Addr) (g' : G), p ≠ q ∧ (g.live p).isSome ∧ slipShrink p g = .ok q g' ∧
    (g'.live p).isNone ∧ (g'.live q).isSome := by
  refine ⟨{ (stEx fun _ => false).g with 
    live := (fun a => if a = 5 then some 0 else none)
    ask := (fun _ => some 7)
    init := true }, 5, 7, _, by decide, rfl, rfl, rfl, rfl⟩

/-- The environment decides about each GMP call separately: no two calls have the same number. -/
theorem calls_numbered (x : Obj) (st : St) :
    (∀ r st', call x st = .ok (r, st') → st'.calls = st.calls + 1) ∧
    (∀ r st', Mem.init x st = .ok (r, st') → st'.calls = st.calls + 1) ∧
    (∀ w r st', query (σ := ℕ) w st = .ok (r, st') → st'.calls = st.calls + 1) := by
  refine ⟨fun r st' h => ?_, fun r st' h => ?_, fun w r st' h => ?_⟩
  · unfold call at h
    split at h
    · cases h; rfl
    · cases h
  · unfold Mem.init at h
    split at h
    · cases h; rfl
    · cases h
  · unfold query at h
    split at h
    · cases h; rfl
    · cases h

/-- A block is passed to the C library whenever its size changes. -/
theorem shrink_asks {nnew nold : ℕ} (h1 : 1 ≤ nnew) (h2 : nnew < nold) {p : Addr} {st st' : St}
    {r : Option Addr} (hi : st.g.init = true) (h : mShrink nnew nold (some p) st = .ok (r, st')) :
    st'.g.tick = st.g.tick + 1 := by
  unfold mShrink slipShrink at h
  dsimp only at h
  rw [if_neg (by omega), hi] at h
  simp only [Bool.not_true, Bool.false_eq_true, if_false] at h
  split at h
  · rename_i q g e
    cases h
    split at e
    · cases e
    · split at e
      · cases e; rfl
      · split at e <;> cases e <;> rfl
  · cases h

/-- An analysis with AMD, and a factorization that uses it. -/
def amdEx : List Call :=
  [.initialise, .allocate 0 .csc .mpz 1 1 1 false true, .set 0 0, .fill 0 1 0,
   .analyze 0 0 .amd, .factorize 2 3 4 1 0 0 .smallest]

/-- The last statuses, or `none` for undefined behaviour. -/
def seenLast (r : C (List Reply × Proc)) : Option (List Reply) :=
  match r with
  | .ok (rs, _) => some (rs.drop 4)
  | _ => none

/-- C30, refuted for AMD: a request inside of AMD is refused, the analysis returns SLIP_OK, and the
factorization uses an array that has not been written. Without the refusal the history is as it should be. -/
theorem C30_amd_history_refuted :
    seenLast (run (amdEx.take 5) (procEx fun t => t = 15)) = some [.info .ok] ∧
    seenLast (run amdEx (procEx fun t => t = 15)) = none ∧
    seenLast (run amdEx (procEx fun _ => false)) = some [.info .ok, .info .ok] := by
  refine ⟨?_, ?_, ?_⟩ <;> decide +kernel

/-! ## What is not true: functions without the test -/

/-- `SLIP_FREE` and the GMP functions that free memory have no effect when the library is not initialised:
nothing is freed. -/
theorem free_down (p : Option Addr) (st : St) (h : st.g.init = false) : mFree p st = .ok ((), st) := by
  unfold mFree slipFree
  rw [h]
  rfl

theorem clear_down : ∀ (x : Obj) (st : St), st.g.init = false →
    ∃ st', clear x st = .ok ((), st') ∧ st'.g.live = st.g.live := by
  intro x
  induction x with
  | nil => intro st _; exact ⟨st, rfl, rfl⟩
  | cons p x ih =>
    intro st h
    cases p with
    | none => exact ih st h
    | some p =>
      have key : ∃ g', slip_gmp_free (some p) st.g = .ok () g' ∧ g'.live = st.g.live ∧ g'.init = false := by
        have gen : ∀ g1 : G, g1.live = st.g.live → g1.init = false →
            ∃ g', safeFree (some p) g1 = .ok () g' ∧ g'.live = st.g.live ∧ g'.init = false := by
          intro g1 e1 e2
          unfold safeFree
          dsimp only
          have hu : ∀ g2 : G, g2 = unarchive p g1 → g2.live = st.g.live ∧ g2.init = false := by
            rintro g2 rfl
            unfold unarchive
            split <;> exact ⟨e1, e2⟩
          obtain ⟨f1, f2⟩ := hu _ rfl
          unfold slipFree
          rw [f2]
          exact ⟨_, rfl, f1, f2⟩
        unfold slip_gmp_free
        cases st.g.list with
        | none => exact gen st.g rfl h
        | some l => exact gen { st.g with used := removeFirst p st.g.used, list := some l } rfl h
      obtain ⟨g', e, h1, h2⟩ := key
      obtain ⟨st', e2, h3⟩ := ih { st with g := g' } h2
      refine ⟨st', ?_, h3.trans h1⟩
      unfold clear
      show ((match slip_gmp_free (some p) st.g with
        | .ok _ g => Except.ok ((), { st with g := g })
        | _ => Except.error .ub) >>= fun r => clear x r.2) = _
      rw [e]
      exact e2

/-- A pointer from `SLIP_malloc` which is still in use when the library is finalised. -/
def lateEx : List Call := [.initialise, .malloc 0, .finalize]

/-- The pointer in variable 0, and whether it is in use. -/
def seenPtr (r : C (List Reply × Proc)) : Option (Option Addr × Bool × Bool) :=
  match r with
  | .ok (_, P) => some (P.vars.ptr 0, (P.st.g.live 10).isSome, P.st.g.init)
  | _ => none

/-- C27, refuted for `SLIP_FREE`, which a user may call too: after `SLIP_finalize` it does not free the
block (and then sets the pointer to NULL, so that the block is lost), without an error. -/
theorem C27_free_unguarded_refuted :
    ∃ rs P', run lateEx (procEx fun _ => false) = .ok (rs, P') ∧ P'.vars.ptr 0 = some 10 ∧
      (P'.st.g.live 10).isSome ∧ mFree (P'.vars.ptr 0) P'.st = .ok ((), P'.st) := by
  have h : seenPtr (run lateEx (procEx fun _ => false)) = some (some 10, true, false) := by decide +kernel
  match e : run lateEx (procEx fun _ => false), h with
  | .ok (rs, P'), h =>
    simp only [seenPtr, Option.some.injEq, Prod.mk.injEq] at h
    exact ⟨rs, P', rfl, h.1, h.2.1, free_down _ _ h.2.2⟩

/-- The status of a call to initialise a number. -/
def seenInit (r : C ((Info × Obj) × St)) : Option (Info × ℕ) :=
  match r with
  | .ok ((r, _), st) => some (r, st.g.tick)
  | _ => none

/-- C27, refuted for the wrapped GMP functions: they do not return SLIP_PANIC when the library is not
initialised. `SLIP_mpz_init` returns SLIP_OUT_OF_MEMORY, although the C library has not been asked for
memory; and the functions that clear a number return normally and free nothing. -/
theorem C27_gmp_unguarded_refuted :
    (∃ x' st', Mem.init [none] (procEx fun _ => false).st = .ok ((.outOfMemory, x'), st') ∧
      st'.g.tick = (procEx fun _ => false).st.g.tick) ∧
    ∀ (x : Obj) (st : St), st.g.init = false →
      ∃ st', clear x st = .ok ((), st') ∧ st'.g.live = st.g.live := by
  refine ⟨?_, clear_down⟩
  have h : seenInit (Mem.init [none] (procEx fun _ => false).st) = some (.outOfMemory, 0) := by decide +kernel
  match e : Mem.init [none] (procEx fun _ => false).st, h with
  | .ok ((r, x'), st'), h =>
    simp only [seenInit, Option.some.injEq, Prod.mk.injEq] at h
    obtain ⟨rfl, h2⟩ := h
    exact ⟨x', st', rfl, h2⟩

end Slip.Mem

namespace Slip

/-- C27, for the models of the functions that compute values: with the library not initialised
(`false`), each returns its failure value at once, and what its handles point to is the same, for all
other arguments. -/
theorem C27_uninitialised (fp : Fp) (O : Orderings) (nc : Int → Int → ℚ → Bool)
    (qs : List (Int × Int) → List (Int × Int)) (S : Handle Analysis) (X L U rhos : Handle Mat)
    (pinv : Handle (Arr Int)) (A b L' U' rhos' : Option Mat) (S' : Option Analysis) (pinv' : Option (Arr Int))
    (opt : Option Options) (kind : Kind) (type : Ty) :
    SLIP_LU_analyze O false S A opt = .ok (.panic, S) ∧
    SLIP_LU_factorize nc false L U rhos pinv A S' opt = .ok ⟨.panic, L, U, rhos, pinv⟩ ∧
    SLIP_LU_solve false X b A L' U' rhos' S' pinv' opt = .ok (.panic, X) ∧
    SLIP_backslash fp O nc false X type A b opt = .ok (.panic, X) ∧
    SLIP_matrix_copy fp false X kind type A opt = .ok (.panic, X) ∧
    SLIP_matrix_check qs false A opt = .ok .panic ∧
    SLIP_matrix_nnz false A = .ok (-1) ∧
    SLIP_create_default_options false = none :=
  ⟨rfl, rfl, rfl, rfl, rfl, rfl, rfl, rfl⟩

/-- C27, for `SLIP_malloc`, `SLIP_calloc`, `SLIP_realloc` and `SLIP_free` on memory with contents: with the
library not initialised there is no result, and memory and the old pointer are the same. -/
theorem C27_uninitialised_memory (h : Mem.Bytes) (n s : ℕ) (nnew nold : ℤ) (p reply : Option Mem.Ptr) :
    Mem.SLIP_malloc false h n reply = (none, h) ∧ Mem.SLIP_calloc false h n s reply = (none, h) ∧
    Mem.SLIP_realloc false h nnew nold s p reply = .ok (p, false, h) ∧ Mem.SLIP_free false h p = .ok h :=
  ⟨rfl, rfl, rfl, rfl⟩

end Slip
