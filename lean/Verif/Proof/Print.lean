import Verif.Model.Print
import Verif.Proof.MatCheck

/-!
# The output of `SLIP_matrix_check`: levels compared
-/

namespace Slip

/-! ## Specification of the levels -/

/-- Error messages: the only thing printed at level 1. -/
def Ev.isErr : Ev → Bool
  | .err _ => true
  | _ => false

/-- The lines that are counted: one for each column and one for each entry. -/
def Ev.isStart : Ev → Bool
  | .column _ => true
  | .row _ => true
  | .pair _ _ => true
  | _ => false

/-- An output with all after the first `k` counted lines replaced by "..."; an error message is kept. -/
def cut : ℕ → List Ev → List Ev
  | _, [] => []
  | k, e :: l =>
    if e.isStart then
      match k with
      | 0 => .dots :: l.filter Ev.isErr
      | k + 1 => e :: cut k l
    else e :: cut k l

/-- What is shown at print level `L` of the complete output: nothing; errors only; errors and the first 30 lines; all. -/
def view (L : Int) (out : List Ev) : List Ev :=
  if L ≤ 0 then [] else if L = 1 then out.filter Ev.isErr else if L = 2 then cut 30 out else out

/-- The number of counted lines. -/
def starts (l : List Ev) : ℕ := l.countP Ev.isStart

theorem cut_append_err (k : ℕ) (l : List Ev) {e : Ev} (he : e.isErr = true) : cut k (l ++ [e]) = cut k l ++ [e] := by
  have hs : e.isStart = false := by cases e <;> simp_all [Ev.isErr, Ev.isStart]
  induction l generalizing k with
  | nil => simp [cut, hs]
  | cons a l ih =>
    simp only [List.cons_append, cut]
    split
    · cases k with
      | zero => simp [List.filter_append, he]
      | succ k => simp [ih]
    · simp [ih]

theorem cut_append_low {k : ℕ} {l : List Ev} (e : Ev) (h : starts l ≤ k) (he : e.isStart = false ∨ starts l < k) :
    cut k (l ++ [e]) = cut k l ++ [e] := by
  induction l generalizing k with
  | nil =>
    simp only [List.nil_append, cut]
    rcases he with he | he
    · simp [he]
    · cases k with
      | zero => simp [starts] at he
      | succ k => split <;> rfl
  | cons a l ih =>
    simp only [List.cons_append, cut]
    simp only [starts, List.countP_cons] at h he
    by_cases ha : a.isStart = true
    · simp only [ha, if_true] at h he ⊢
      cases k with
      | zero => omega
      | succ k =>
        dsimp only
        rw [ih (k := k) (by unfold starts; omega) (by unfold starts; rcases he with he | he; exact Or.inl he; right; omega)]
        rfl
    · simp only [ha, if_false, Bool.false_eq_true] at h he ⊢
      rw [ih (k := k) (by unfold starts; omega) (by unfold starts; rcases he with he | he; exact Or.inl he; right; omega)]
      rfl

theorem cut_append_dots {k : ℕ} {l : List Ev} {e : Ev} (h : starts l = k) (he : e.isStart = true) :
    cut k (l ++ [e]) = cut k l ++ [.dots] := by
  induction l generalizing k with
  | nil =>
    simp only [starts, List.countP_nil] at h
    subst h
    simp [cut, he]
  | cons a l ih =>
    simp only [List.cons_append, cut]
    simp only [starts, List.countP_cons] at h
    by_cases ha : a.isStart = true
    · simp only [ha, if_true] at h ⊢
      cases k with
      | zero => omega
      | succ k =>
        dsimp only
        rw [ih (k := k) (by unfold starts; omega)]
        rfl
    · simp only [ha, if_false, Bool.false_eq_true] at h ⊢
      rw [ih (k := k) (by unfold starts; omega)]
      rfl

theorem cut_append_high {k : ℕ} {l : List Ev} {e : Ev} (h : k < starts l) (he : e.isErr = false) :
    cut k (l ++ [e]) = cut k l := by
  induction l generalizing k with
  | nil => simp [starts] at h
  | cons a l ih =>
    simp only [List.cons_append, cut]
    simp only [starts, List.countP_cons] at h
    by_cases ha : a.isStart = true
    · simp only [ha, if_true] at h ⊢
      cases k with
      | zero => simp [List.filter_append, he]
      | succ k =>
        dsimp only
        rw [ih (k := k) (by unfold starts; omega)]
    · simp only [ha, if_false, Bool.false_eq_true] at h ⊢
      rw [ih (k := k) (by unfold starts; omega)]

theorem starts_append (l : List Ev) (e : Ev) : starts (l ++ [e]) = starts l + if e.isStart then 1 else 0 := by
  simp [starts, List.countP_append, List.countP_cons]

/-! ## The relation -/

/-- The state at level `L` and the state of the same computation at level 3 or above. -/
structure RL (L : Int) (s3 s : Pr) : Prop where
  full : 3 ≤ s3.pr
  ok3 : s3.status = .ok
  ok : s.status = .ok
  out : s.out = view L s3.out
  other : L ≠ 2 → s.pr = L
  low : L = 2 → starts s3.out ≤ 30 → s.pr = 2 ∧ s.lines = starts s3.out
  high : L = 2 → 30 < starts s3.out → s.pr = 1

/-- The computation `m` does at level `L` what `m3` does at level 3. -/
def PSim (L : Int) {α : Type} (m3 m : Pm α) : Prop :=
  ∀ s3 s, RL L s3 s → (m3 s3).1 ≠ .error .ub → (m s).1 = (m3 s3).1 ∧ RL L (m3 s3).2 (m s).2

section
variable {L : Int} {α β σ : Type}

theorem PSim.lift (m : C α) : PSim L (Pm.lift m) (Pm.lift m) := fun _ _ h _ => ⟨rfl, h⟩

theorem PSim.pure (a : α) : PSim L (Pure.pure a : Pm α) (Pure.pure a) := fun _ _ h _ => ⟨rfl, h⟩

theorem Pm.bind_run (m : Pm α) (f : α → Pm β) (s : Pr) :
    (m >>= f) s = match m s with
      | (.ok a, s') => f a s'
      | (.error e, s') => (.error e, s') := rfl

theorem PSim.bind {m3 m : Pm α} {f3 f : α → Pm β} (h : PSim L m3 m) (hf : ∀ a, PSim L (f3 a) (f a)) :
    PSim L (m3 >>= f3) (m >>= f) := by
  intro s3 s hR hne
  rw [Pm.bind_run] at hne ⊢
  rw [Pm.bind_run]
  have h1 := h s3 s hR
  rcases hm3 : m3 s3 with ⟨r3, s3'⟩
  rcases hm : m s with ⟨r, s'⟩
  rw [hm3, hm] at h1
  rw [hm3] at hne
  cases r3 with
  | ok a =>
    obtain ⟨e, hR'⟩ := h1 (by simp)
    dsimp only at e hR' hne ⊢
    subst e
    exact hf a s3' s' hR' hne
  | error e =>
    dsimp only at hne
    have hne' : e ≠ .ub := by rintro rfl; exact hne rfl
    obtain ⟨e', hR'⟩ := h1 (by simpa using hne')
    dsimp only at e' hR' ⊢
    subst e'
    exact ⟨rfl, hR'⟩

theorem PSim.forRange {lo hi : Int} {s : σ} {f3 f : Int → σ → Pm σ} (h : ∀ t s, PSim L (f3 t s) (f t s)) :
    PSim L (forRangeP lo hi s f3) (forRangeP lo hi s f) := by
  unfold forRangeP
  generalize (hi - lo).toNat = c
  induction c generalizing lo s with
  | zero => exact PSim.pure s
  | succ c ih => exact PSim.bind (h lo s) fun s' => ih

/-- An error message. -/
theorem RL.err {s3 s : Pr} (h : RL L s3 s) {e : Ev} (he : e.isErr = true) :
    RL L (pr1 e s3).2 (pr1 e s).2 := by
  have hs : e.isStart = false := by cases e <;> simp_all [Ev.isErr, Ev.isStart]
  have h3 := h.full
  have e3 : (pr1 e s3).2 = { s3 with out := s3.out ++ [e] } := by
    unfold pr1
    rw [if_pos (show s3.pr ≥ 1 by omega)]
    rfl
  rw [e3]
  unfold pr1
  by_cases h1 : s.pr ≥ 1
  · rw [if_pos h1]
    refine ⟨h3, h.ok3, h.ok, ?_, h.other, ?_, ?_⟩
    · show s.out ++ [e] = _
      rw [h.out]
      unfold view
      by_cases hL : L = 2
      · subst hL
        simp [cut_append_err _ _ he]
      · have := h.other hL
        have h0 : ¬ L ≤ 0 := by omega
        by_cases hL1 : L = 1
        · simp [hL1, he, List.filter_append]
        · simp [hL1, hL, h0]
    · intro hL; show starts (s3.out ++ [e]) ≤ 30 → _
      rw [starts_append, hs]; exact h.low hL
    · intro hL; show 30 < starts (s3.out ++ [e]) → _
      rw [starts_append, hs]; exact h.high hL
  · rw [if_neg h1]
    have hL2 : L ≠ 2 := by
      intro hL
      by_cases hc : starts s3.out ≤ 30
      · have := (h.low hL hc).1; omega
      · have := h.high hL (by omega); omega
    have hp := h.other hL2
    refine ⟨h3, h.ok3, h.ok, ?_, h.other, fun h => absurd h hL2, fun h => absurd h hL2⟩
    show s.out = _
    rw [h.out]
    unfold view
    rw [if_pos (by omega), if_pos (by omega)]

/-- Something that is not shown at this level. -/
theorem RL.skip {s3 s : Pr} (h : RL L s3 s) (hp : s.pr < 2) {e : Ev} (he : e.isErr = false) {l : Int} {c : ℕ} :
    RL L { s3 with out := s3.out ++ [e], lines := l, calls := c, status := .ok } s := by
  refine ⟨h.full, rfl, h.ok, ?_, h.other, ?_, ?_⟩
  · show s.out = view L (s3.out ++ [e])
    rw [h.out]
    unfold view
    by_cases hL : L = 2
    · subst hL
      have : 30 < starts s3.out := by
        by_contra hc
        have := (h.low rfl (by omega)).1
        omega
      simp [cut_append_high this he]
    · have := h.other hL
      by_cases h0 : L ≤ 0
      · simp [h0]
      · have : L = 1 := by omega
        subst this
        simp [he, List.filter_append]
  · intro hL hc
    exfalso
    have hc : starts (s3.out ++ [e]) ≤ 30 := hc
    rw [starts_append] at hc
    have := (h.low hL (by omega)).1
    omega
  · intro hL _
    have : 30 < starts s3.out := by
      by_contra hc
      have := (h.low hL (by omega)).1
      omega
    exact h.high hL this

/-- Something that does not begin a line, and is shown. -/
theorem RL.more {s3 s : Pr} (h : RL L s3 s) (hp : 2 ≤ s.pr) {e : Ev} (he : e.isStart = false) {l : Int} {c c' : ℕ} :
    RL L { s3 with out := s3.out ++ [e], lines := l, calls := c, status := .ok }
      { s with out := s.out ++ [e], calls := c', status := .ok } := by
  refine ⟨h.full, rfl, rfl, ?_, h.other, ?_, ?_⟩
  · show s.out ++ [e] = view L (s3.out ++ [e])
    rw [h.out]
    unfold view
    by_cases hL : L = 2
    · subst hL
      have : starts s3.out ≤ 30 := by
        by_contra hc
        have := h.high rfl (by omega)
        omega
      simp [cut_append_low e this (Or.inl he)]
    · have := h.other hL
      rw [if_neg (by omega), if_neg (by omega), if_neg hL, if_neg (by omega), if_neg (by omega), if_neg hL]
  · intro hL
    show starts (s3.out ++ [e]) ≤ 30 → s.pr = 2 ∧ s.lines = (starts (s3.out ++ [e]) : ℤ)
    rw [starts_append, he]
    exact h.low hL
  · intro hL
    show 30 < starts (s3.out ++ [e]) → _
    rw [starts_append, he]
    exact h.high hL

/-- Something that begins a line. -/
theorem RL.start {s3 s : Pr} (h : RL L s3 s) {e : Ev} (he : e.isStart = true) {l : Int} :
    RL L { s3 with out := s3.out ++ [e], lines := l } ((limit >>= fun _ => pr2 e) s).2 := by
  have her : e.isErr = false := by cases e <;> simp_all [Ev.isErr, Ev.isStart]
  rw [Pm.bind_run]
  unfold limit
  dsimp only
  by_cases hL : L = 2
  · subst hL
    by_cases hc : starts s3.out ≤ 30
    · obtain ⟨h2, hl⟩ := h.low rfl hc
      by_cases h30 : starts s3.out = 30
      · rw [if_pos ⟨h2, by omega⟩]
        dsimp only
        rw [show pr2 e { s with lines := s.lines + 1, out := s.out ++ [.dots], pr := 1 } =
          (.ok (), { s with lines := s.lines + 1, out := s.out ++ [.dots], pr := 1 }) from if_neg (by simp)]
        refine ⟨h.full, h.ok3, h.ok, ?_, fun hh => absurd rfl hh, ?_, fun _ _ => rfl⟩
        · show s.out ++ [.dots] = view 2 (s3.out ++ [e])
          rw [h.out]
          simp [view, cut_append_dots h30 he]
        · intro _ hh
          exfalso
          have hh : starts (s3.out ++ [e]) ≤ 30 := hh
          rw [starts_append, he] at hh
          simp at hh; omega
      · rw [if_neg (by omega)]
        dsimp only
        rw [show pr2 e { s with lines := s.lines + 1 } = (.ok (), { s with lines := s.lines + 1, out := s.out ++ [e] }) from
          if_pos (show s.pr ≥ 2 by omega)]
        refine ⟨h.full, h.ok3, h.ok, ?_, fun hh => absurd rfl hh, ?_, ?_⟩
        · show s.out ++ [e] = view 2 (s3.out ++ [e])
          rw [h.out]
          simp [view, cut_append_low e hc (Or.inr (by omega))]
        · intro _ _
          refine ⟨h2, ?_⟩
          show s.lines + 1 = (starts (s3.out ++ [e]) : ℤ)
          rw [starts_append, he, hl]
          simp
        · intro _ hh
          exfalso
          have hh : 30 < starts (s3.out ++ [e]) := hh
          rw [starts_append, he] at hh
          simp at hh; omega
    · have h1 := h.high rfl (by omega)
      rw [if_neg (by omega)]
      dsimp only
      rw [show pr2 e { s with lines := s.lines + 1 } = (.ok (), { s with lines := s.lines + 1 }) from
        if_neg (show ¬ s.pr ≥ 2 by omega)]
      have := h.skip (by omega) her (l := l) (c := s3.calls)
      refine ⟨h.full, h.ok3, h.ok, ?_, fun hh => absurd rfl hh, ?_, fun _ _ => h1⟩
      · exact this.out
      · intro hh h2
        exfalso
        have := (this.low hh h2).1
        omega
  · have hp := h.other hL
    rw [if_neg (by omega)]
    dsimp only
    by_cases h2 : s.pr ≥ 2
    · rw [show pr2 e { s with lines := s.lines + 1 } = (.ok (), { s with lines := s.lines + 1, out := s.out ++ [e] }) from
        if_pos h2]
      refine ⟨h.full, h.ok3, h.ok, ?_, fun _ => hp, fun h => absurd h hL, fun h => absurd h hL⟩
      show s.out ++ [e] = view L (s3.out ++ [e])
      rw [h.out]
      unfold view
      rw [if_neg (by omega), if_neg (by omega), if_neg hL, if_neg (by omega), if_neg (by omega), if_neg hL]
    · rw [show pr2 e { s with lines := s.lines + 1 } = (.ok (), { s with lines := s.lines + 1 }) from if_neg h2]
      have := h.skip (by omega) her (l := l) (c := s3.calls)
      exact ⟨h.full, h.ok3, h.ok, this.out, fun _ => hp, fun h => absurd h hL, fun h => absurd h hL⟩

theorem PSim.complain (e : Msg) (c : Info) : PSim L (complain e c : Pm α) (complain e c) := by
  intro s3 s h _
  have := h.err (e := .err e) rfl
  have key : ∀ s : Pr, (Slip.complain e c : Pm α) s = (.error (.ret c), (pr1 (.err e) s).2) := by
    intro s
    unfold Slip.complain
    rw [Pm.bind_run]
    have : (pr1 (.err e) s).1 = .ok () := by unfold pr1; split <;> rfl
    rcases hr : pr1 (.err e) s with ⟨r, s'⟩
    rw [hr] at this
    dsimp only at this
    subst this
    rfl
  rw [key, key]
  exact ⟨rfl, this⟩

theorem run_start3 {s3 : Pr} (h : 3 ≤ s3.pr) (e : Ev) :
    (limit >>= fun _ => pr2 e) s3 = (.ok (), { s3 with out := s3.out ++ [e], lines := s3.lines + 1 }) := by
  rw [Pm.bind_run]
  unfold limit
  dsimp only
  rw [if_neg (by omega)]
  dsimp only
  exact if_pos (show s3.pr ≥ 2 by omega)

theorem pr2_ok (e : Ev) (s : Pr) : (pr2 e s).1 = .ok () := by
  unfold pr2
  split <;> rfl

theorem start_ok (e : Ev) (s : Pr) : ((limit >>= fun _ => pr2 e) s).1 = .ok () := by
  rw [Pm.bind_run]
  have : ∃ s', limit s = (.ok (), s') := by
    unfold limit
    dsimp only
    split <;> exact ⟨_, rfl⟩
  obtain ⟨s', hs⟩ := this
  rw [hs]
  exact pr2_ok e s'

theorem PSim.start {e : Ev} (he : e.isStart = true) :
    PSim L (limit >>= fun _ => pr2 e) (limit >>= fun _ => pr2 e) := by
  intro s3 s h _
  rw [start_ok, start_ok]
  refine ⟨rfl, ?_⟩
  rw [run_start3 h.full]
  exact h.start he

end

/-! ## Values -/

/-- The value of entry `t`, as it is printed. -/
def valAt (A : Mat) (t : Int) : Option Num :=
  match A.x with
  | none => none
  | some (.mpz a) => (get a t).map .mpz
  | some (.mpq a) => (get a t).map .mpq
  | some (.mpfr a) => (get a t).map .mpfr
  | some (.int64 a) => (get a t).map .int64
  | some (.fp64 a) => (get a t).map .fp64

theorem get_lift {α β : Type} (a : Arr α) (t : Int) (f : α → Pm β) (s : Pr) :
    (Pm.lift (rd a t) >>= f) s = match get a t with
      | none => (.error .ub, s)
      | some v => f v s := by
  rw [Pm.bind_run]
  unfold Pm.lift rd
  cases get a t <;> rfl

theorem format_run {E : PrEnv} (hE : ∀ k, E.asp k = .ok) (e : Ev) (s : Pr) :
    format E e s = pr2 e { s with status := .ok, calls := s.calls + 1 } := by
  unfold format
  dsimp only
  rw [hE, if_pos rfl]

/-- With formatting that succeeds, printing a value. -/
theorem showVal_run {E : PrEnv} (hE : ∀ k, E.asp k = .ok) (A : Mat) (t : Int) (s : Pr) (hs : s.status = .ok) :
    showVal E A t s = match valAt A t with
      | none => (.error .ub, s)
      | some v => pr2 (.val v) { s with calls := (showVal E A t s).2.calls } := by
  have hc : ∀ (e : Ev) (s : Pr), (pr2 e s).2.calls = s.calls := by
    intro e s; unfold pr2; split <;> rfl
  have hse : ∀ c, ({ s with status := .ok, calls := c } : Pr) = { s with calls := c } := by
    intro c; rw [← hs]
  unfold showVal valAt
  cases hx : A.x with
  | none => rfl
  | some x =>
    cases x <;> dsimp only <;> rw [get_lift] <;> cases get _ t <;>
      simp only [Option.map_none, Option.map_some, format_run hE, hc, hse]

theorem showEntry_run3 {E : PrEnv} (hE : ∀ k, E.asp k = .ok) (A : Mat) (e : Ev) (t : Int) (d : Bool) {s : Pr}
    (h : 3 ≤ s.pr) (hs : s.status = .ok) :
    ∃ c s', showEntry E A e t d s = match valAt A t with
      | none => (.error .ub, s')
      | some v => (.ok (), { s with lines := s.lines + 1, calls := c, out := s.out ++ [e] ++ [.val v] }) := by
  unfold showEntry
  rw [if_pos (by omega)]
  rw [show (do limit; pr2 e; showVal E A t; stop d : Pm Unit) =
    ((limit >>= fun _ => pr2 e) >>= fun _ => (showVal E A t >>= fun _ => stop d)) from by
      funext s
      simp only [Pm.bind_run]
      rcases limit s with ⟨_ | _, s'⟩ <;> rfl]
  rw [Pm.bind_run, run_start3 h]
  dsimp only
  rw [Pm.bind_run, showVal_run hE A t { s with out := s.out ++ [e], lines := s.lines + 1 } hs]
  generalize (showVal E A t _).2.calls = c
  refine ⟨c, { s with out := s.out ++ [e], lines := s.lines + 1 }, ?_⟩
  cases valAt A t with
  | none => rfl
  | some v =>
    dsimp only
    rw [show pr2 (.val v) { s with out := s.out ++ [e], lines := s.lines + 1, calls := c } =
      (.ok (), { s with out := s.out ++ [e] ++ [.val v], lines := s.lines + 1, calls := c }) from
        if_pos (show s.pr ≥ 2 by omega)]
    dsimp only
    exact if_pos hs

section
variable {L : Int} {E : PrEnv} (hE : ∀ k, E.asp k = .ok)
include hE

theorem PSim.entry (A : Mat) {e : Ev} (he : e.isStart = true) (t : Int) (d : Bool) :
    PSim L (showEntry E A e t d) (showEntry E A e t d) := by
  have her : e.isErr = false := by cases e <;> simp_all [Ev.isErr, Ev.isStart]
  intro s3 s h hne
  obtain ⟨c, s3', e3⟩ := showEntry_run3 hE A e t d h.full h.ok3
  rw [e3] at hne ⊢
  cases hv : valAt A t with
  | none => rw [hv] at hne; exact absurd rfl hne
  | some v =>
    dsimp only
    unfold showEntry
    by_cases hp : s.pr ≥ 2
    · rw [if_pos hp]
      have h1 := h.start he (l := s3.lines + 1)
      have hok := start_ok e s
      rcases hr : (limit >>= fun _ => pr2 e) s with ⟨r, s1⟩
      rw [hr] at h1 hok
      dsimp only at h1 hok
      subst hok
      rw [show (do limit; pr2 e; showVal E A t; stop d : Pm Unit) =
        ((limit >>= fun _ => pr2 e) >>= fun _ => (showVal E A t >>= fun _ => stop d)) from by
          funext s
          simp only [Pm.bind_run]
          rcases limit s with ⟨_ | _, s'⟩ <;> rfl]
      rw [Pm.bind_run, hr]
      dsimp only
      rw [Pm.bind_run, showVal_run hE A t s1 h1.ok]
      generalize (showVal E A t _).2.calls = c'
      rw [hv]
      dsimp only
      by_cases hp1 : s1.pr ≥ 2
      · rw [show pr2 (.val v) { s1 with calls := c' } = (.ok (), { s1 with calls := c', out := s1.out ++ [.val v] }) from
          if_pos hp1]
        dsimp only
        rw [show stop d { s1 with calls := c', out := s1.out ++ [.val v] } = (.ok (), _) from if_pos h1.ok]
        refine ⟨rfl, ?_⟩
        have := h1.more hp1 (e := .val v) rfl (l := s3.lines + 1) (c := c) (c' := c')
        rw [← h1.ok3] at this
        have e2 := h1.ok
        have e1 := h1.ok3
        dsimp only at e1 this
        rw [e1, ← e2] at this
        rw [e2, ← e1] at this
        convert this using 2
        rw [e2, e1]
      · rw [show pr2 (.val v) { s1 with calls := c' } = (.ok (), { s1 with calls := c' }) from if_neg hp1]
        dsimp only
        rw [show stop d { s1 with calls := c' } = (.ok (), { s1 with calls := c' }) from if_pos h1.ok]
        refine ⟨rfl, ?_⟩
        have := h1.skip (by omega) (e := .val v) rfl (l := s3.lines + 1) (c := c)
        have e1 := h1.ok3
        dsimp only at e1 this
        exact ⟨this.full, e1, this.ok, this.out, this.other, this.low, this.high⟩
    · rw [if_neg hp]
      refine ⟨rfl, ?_⟩
      have := (h.skip (by omega) her (l := s3.lines + 1) (c := c)).skip (by omega) (e := .val v) rfl (l := s3.lines + 1)
        (c := c)
      exact ⟨this.full, h.ok3, this.ok, this.out, this.other, this.low, this.high⟩

theorem PSim.header (A : Mat) (nz : Int) : PSim L (showHeader E A nz) (showHeader E A nz) := by
  have hf : ∀ (e : Ev), e.isStart = false → e.isErr = false → PSim L (pr2 e) (pr2 e) := by
    intro e h1 h2 s3 s h _
    rw [pr2_ok, pr2_ok]
    refine ⟨rfl, ?_⟩
    unfold pr2
    have h3 := h.full
    rw [if_pos (show s3.pr ≥ 2 by omega)]
    by_cases hp : s.pr ≥ 2
    · rw [if_pos hp]
      have := h.more hp h1 (l := s3.lines) (c := s3.calls) (c' := s.calls)
      exact ⟨this.full, h.ok3, h.ok, this.out, this.other, this.low, this.high⟩
    · rw [if_neg hp]
      have := h.skip (by omega) h2 (l := s3.lines) (c := s3.calls)
      exact ⟨this.full, h.ok3, h.ok, this.out, this.other, this.low, this.high⟩
  unfold showHeader
  refine PSim.bind (hf _ rfl rfl) fun _ => ?_
  intro s3 s h _
  have h3 := h.full
  unfold showScale
  rw [if_pos (show s3.pr ≥ 2 by omega)]
  rw [show (do pr2 .scaleIs; format E (.scale A.scale) : Pm Unit) s3 =
    (.ok (), { s3 with out := s3.out ++ [.scaleIs] ++ [.scale A.scale], calls := s3.calls + 1, status := .ok }) from by
      rw [Pm.bind_run]
      rw [show pr2 .scaleIs s3 = (.ok (), { s3 with out := s3.out ++ [.scaleIs] }) from if_pos (by omega)]
      dsimp only
      rw [format_run hE]
      exact if_pos (show s3.pr ≥ 2 by omega)]
  by_cases hp : s.pr ≥ 2
  · rw [if_pos hp]
    rw [show (do pr2 .scaleIs; format E (.scale A.scale) : Pm Unit) s =
      (.ok (), { s with out := s.out ++ [.scaleIs] ++ [.scale A.scale], calls := s.calls + 1, status := .ok }) from by
        rw [Pm.bind_run]
        rw [show pr2 .scaleIs s = (.ok (), { s with out := s.out ++ [.scaleIs] }) from if_pos (by omega)]
        dsimp only
        rw [format_run hE]
        exact if_pos (show s.pr ≥ 2 by omega)]
    refine ⟨rfl, ?_⟩
    exact (h.more hp (e := .scaleIs) rfl (l := s3.lines) (c := s3.calls) (c' := s.calls)).more hp (e := .scale A.scale) rfl
      (l := s3.lines) (c := s3.calls + 1) (c' := s.calls + 1)
  · rw [if_neg hp]
    refine ⟨rfl, ?_⟩
    exact (h.skip (by omega) (e := .scaleIs) rfl (l := s3.lines) (c := s3.calls)).skip (by omega) (e := .scale A.scale) rfl
      (l := s3.lines) (c := s3.calls + 1)

/-- The whole function. -/
theorem PSim.body (qs : List (Int × Int) → List (Int × Int)) (init : Bool) (A : Option Mat) :
    PSim L (checkBody E qs init A) (checkBody E qs init A) := by
  unfold checkBody
  split
  · exact PSim.lift _
  refine PSim.bind (PSim.lift _) fun nz => ?_
  split
  · exact PSim.complain _ _
  split
  · exact PSim.lift _
  rename_i A
  split
  · exact PSim.complain _ _
  split
  · exact PSim.complain _ _
  split
  · exact PSim.complain _ _
  split
  · exact PSim.complain _ _
  refine PSim.bind (PSim.header hE A nz) fun _ => ?_
  have hmem : PSim L (needMem E) (needMem E) := by
    unfold needMem
    split
    · exact PSim.complain _ _
    · exact PSim.pure _
  have hassoc : ∀ {β : Type} (e : Ev) (k : Pm β), (limit >>= fun _ => pr2 e >>= fun _ => k) =
      ((limit >>= fun _ => pr2 e) >>= fun _ => k) := by
    intro β e k
    funext s
    simp only [Pm.bind_run]
    rcases limit s with ⟨_ | _, s'⟩ <;> rfl
  unfold checkKindP
  split
  · refine PSim.bind (PSim.lift _) fun p0 => ?_
    split
    · exact PSim.complain _ _
    refine PSim.bind ?_ fun _ => ?_
    · unfold checkPtrP
      refine PSim.forRange fun t _ => ?_
      refine PSim.bind (PSim.lift _) fun a => ?_
      refine PSim.bind (PSim.lift _) fun b => ?_
      split
      · exact PSim.complain _ _
      · exact PSim.pure _
    split
    · exact PSim.complain _ _
    unfold checkRowsP
    refine PSim.bind hmem fun _ => ?_
    refine PSim.bind ?_ fun _ => PSim.pure _
    refine PSim.forRange fun j work => ?_
    rw [hassoc]
    refine PSim.bind (PSim.start rfl) fun _ => ?_
    refine PSim.bind (PSim.lift _) fun a => ?_
    refine PSim.bind (PSim.lift _) fun b => ?_
    refine PSim.forRange fun t work => ?_
    refine PSim.bind (PSim.lift _) fun r => ?_
    split
    · exact PSim.complain _ _
    refine PSim.bind (PSim.lift _) fun w => ?_
    split
    · exact PSim.complain _ _
    refine PSim.bind (PSim.entry hE A rfl t _) fun _ => PSim.lift _
  · split
    · exact PSim.complain _ _
    refine PSim.bind ?_ fun _ => ?_
    · unfold checkTripletsP
      refine PSim.forRange fun t _ => ?_
      refine PSim.bind (PSim.lift _) fun a => ?_
      refine PSim.bind (PSim.lift _) fun b => ?_
      split
      · exact PSim.complain _ _
      · exact PSim.entry hE A rfl t _
    · unfold checkDupP
      refine PSim.bind hmem fun _ => ?_
      refine PSim.bind (PSim.lift _) fun _ => ?_
      refine PSim.forRange fun t _ => ?_
      refine PSim.bind (PSim.lift _) fun a => ?_
      refine PSim.bind (PSim.lift _) fun b => ?_
      split
      · exact PSim.complain _ _
      · exact PSim.pure _
  · split
    · exact PSim.complain _ _
    unfold checkDenseP
    refine PSim.forRange fun j _ => ?_
    rw [hassoc]
    refine PSim.bind (PSim.start rfl) fun _ => ?_
    exact PSim.forRange fun i _ => PSim.entry hE A rfl _ _
  · exact PSim.pure _

end

end Slip
