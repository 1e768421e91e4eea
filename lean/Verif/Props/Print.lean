import Verif.Proof.PrintCode
import Verif.Props.MatCheck

/-!
# Property C50: what `SLIP_matrix_check` prints

The specification: `listing` (`Verif/Proof/PrintList.lean`) is the complete listing of a matrix, `Msg.says` what an error
message claims, and `view L` (`Verif/Proof/Print.lean`) what of the complete output is shown at print level `L`: nothing at
level 0 and below, error messages at level 1, at most 30 lines at level 2, everything at level 3 and above.
-/

namespace Slip

/-- An environment in which the conversion of numbers to text succeeds. -/
def PrEnv.Formats (E : PrEnv) : Prop := ∀ k, E.asp k = .ok

theorem check_not_ub {E : PrEnv} {qs : List (Int × Int) → List (Int × Int)} {A : Option Mat} {init : Bool}
    {o : Option Options} (h : (SLIP_matrix_checkP E qs init A o).1 ≠ .error .ub) :
    (checkBody E qs init A { pr := optPrint o, lines := 0, status := .ok, calls := 0, out := [] }).1 ≠ .error .ub := by
  intro hc
  apply h
  unfold SLIP_matrix_checkP
  dsimp only
  rw [hc]
  rfl

/-- C50, levels: the print level decides only how much is printed.  For every argument and every level the status is the
same as at level 3, and what is printed is the part of the output at level 3 that belongs to the level. -/
theorem C50_levels {E : PrEnv} (hE : E.Formats) (qs : List (Int × Int) → List (Int × Int)) (init : Bool) (A : Option Mat)
    (o3 o : Option Options) (h3 : 3 ≤ optPrint o3) (hub : (SLIP_matrix_checkP E qs init A o3).1 ≠ .error .ub) :
    SLIP_matrix_checkP E qs init A o =
      ((SLIP_matrix_checkP E qs init A o3).1, view (optPrint o) (SLIP_matrix_checkP E qs init A o3).2) := by
  have hR : RL (optPrint o) { pr := optPrint o3, lines := 0, status := .ok, calls := 0, out := [] }
      { pr := optPrint o, lines := 0, status := .ok, calls := 0, out := [] } := by
    refine ⟨h3, rfl, rfl, ?_, fun _ => rfl, fun h _ => ⟨h, rfl⟩, fun _ h => by simp [starts] at h⟩
    unfold view
    split_ifs <;> rfl
  obtain ⟨h1, h2⟩ := PSim.body hE qs init A _ _ hR (check_not_ub hub)
  unfold SLIP_matrix_checkP
  dsimp only
  rw [h1, h2.out]

/-- C50, status: the status is the one of C23, at every level. -/
theorem C50_status {E : PrEnv} (hE : E.Formats) (hm : E.mem = true) (qs : List (Int × Int) → List (Int × Int))
    (init : Bool) (A : Option Mat) (o : Option Options) :
    (SLIP_matrix_checkP E qs init A o).1 = SLIP_matrix_check qs init A o :=
  check_code hE hm qs init A o

/-- C50, output: for every matrix on which the check is defined at level 3, and every print level, the output is the
listing of the matrix, as far as the level shows it - complete if SLIP_OK is returned, and otherwise the beginning of the
listing followed by one error message, which is true and belongs to the code returned. -/
theorem C50_output {E : PrEnv} (hE : E.Formats) {qs : List (Int × Int) → List (Int × Int)} (hq : QsortOk qs) {A : Mat}
    {N : Int} (hN : SLIP_matrix_nnz true (some A) = .ok N) (o3 o : Option Options) (h3 : 3 ≤ optPrint o3)
    (hub : (SLIP_matrix_checkP E qs true (some A) o3).1 ≠ .error .ub) :
    SLIP_matrix_checkP E qs true (some A) o = (.ok .ok, view (optPrint o) (listing A N)) ∨
    ∃ msg pre, SLIP_matrix_checkP E qs true (some A) o = (.ok msg.code, view (optPrint o) (pre ++ [.err msg])) ∧
      pre <+: listing A N ∧ msg.says E A N := by
  rw [C50_levels hE qs true (some A) o3 o h3 hub]
  have h := wpP_body hE hq hN (s := { pr := optPrint o3, lines := 0, status := .ok, calls := 0, out := [] })
    ⟨h3, rfl, rfl⟩
  have hub' := check_not_ub hub
  unfold SLIP_matrix_checkP
  dsimp only
  unfold wpP at h
  rcases hr : checkBody E qs true (some A) { pr := optPrint o3, lines := 0, status := .ok, calls := 0, out := [] }
    with ⟨e | u, s⟩
  · rw [hr] at h hub'
    rcases h with h | ⟨msg, pre, rfl, h2, h3, h4⟩
    · exact absurd (by rw [h]) hub'
    · right
      refine ⟨msg, pre, ?_, h3, h4⟩
      dsimp only
      rw [h2]
      rfl
  · rw [hr] at h
    left
    dsimp only
    rw [h.out]
    rfl

theorem listing_no_err (A : Mat) (N : Int) : ∀ e ∈ listing A N, Ev.isErr e = false := by
  have hent : ∀ e t, Ev.isErr e = false → ∀ x ∈ entry A e t, Ev.isErr x = false := by
    intro e t he x hx
    unfold entry at hx
    rcases List.mem_cons.1 hx with rfl | hx
    · exact he
    · simp only [Option.mem_toList, Option.mem_def, Option.map_eq_some_iff] at hx
      obtain ⟨v, -, rfl⟩ := hx
      rfl
  intro e he
  unfold listing at he
  rcases List.mem_append.1 he with he | he
  · simp only [List.mem_cons, List.not_mem_nil, or_false] at he
    rcases he with rfl | rfl | rfl <;> rfl
  · unfold listBody at he
    split at he
    · obtain ⟨j, -, he⟩ := List.mem_flatMap.1 he
      rcases List.mem_cons.1 he with rfl | he
      · rfl
      · obtain ⟨t, -, he⟩ := List.mem_flatMap.1 he
        exact hent _ _ rfl e he
    · obtain ⟨t, -, he⟩ := List.mem_flatMap.1 he
      exact hent _ _ rfl e he
    · obtain ⟨j, -, he⟩ := List.mem_flatMap.1 he
      rcases List.mem_cons.1 he with rfl | he
      · rfl
      · obtain ⟨t, -, he⟩ := List.mem_flatMap.1 he
        exact hent _ _ rfl e he
    · simp at he

/-- C50, levels 0 and 1: on a matrix whose arrays are as large as it says nothing at all is printed at level 0; at level 1
nothing is printed if the matrix is well formed, and exactly one message, which is true, if it is not. -/
theorem C50_quiet_levels {E : PrEnv} (hE : E.Formats) (hm : E.mem = true) {qs : List (Int × Int) → List (Int × Int)}
    (hq : QsortOk qs) {A : Mat} {N : Int} (hN : SLIP_matrix_nnz true (some A) = .ok N) (hr : Readable 3 A)
    (hz : A.nzmax ≠ 0) (o : Option Options) :
    (optPrint o ≤ 0 → (SLIP_matrix_checkP E qs true (some A) o).2 = []) ∧
    (optPrint o = 1 →
      (WellFormed A ∧ SLIP_matrix_checkP E qs true (some A) o = (.ok .ok, [])) ∨
      (¬ WellFormed A ∧ ∃ msg, SLIP_matrix_checkP E qs true (some A) o = (.ok .incorrectInput, [.err msg]) ∧
        msg.says E A N)) := by
  have hr3 : ∀ L, Readable L A := fun L => ⟨hr.p, hr.i, hr.j, fun _ => hr.x (by omega)⟩
  obtain ⟨o3, ho3⟩ : ∃ o3 : Option Options, optPrint o3 = 3 :=
    ⟨some { pivot := .smallest, order := .colamd, tol := .fin 1, printLevel := 3, prec := 128, round := 0, check := false }, rfl⟩
  have hub : (SLIP_matrix_checkP E qs true (some A) o3).1 ≠ .error .ub := by
    rw [C50_status hE hm]
    rcases C23_check_exact hq o3 A (hr3 _) hz with ⟨h, -⟩ | ⟨h, -⟩ <;> rw [h] <;> simp
  have hx := C23_check_exact hq o A (hr3 _) hz
  rw [← C50_status hE hm qs true (some A) o] at hx
  have hout := C50_output hE hq hN o3 o (by omega) hub
  refine ⟨fun h0 => ?_, fun h1 => ?_⟩
  · rcases hout with h | ⟨msg, pre, h, -, -⟩ <;> rw [h] <;> simp [view, h0]
  · have hnil : ∀ l : List Ev, l <+: listing A N → l.filter Ev.isErr = [] := by
      intro l hl
      rw [List.filter_eq_nil_iff]
      intro e he
      rw [listing_no_err A N e (hl.subset he)]
      simp
    rcases hout with h | ⟨msg, pre, h, hp, hs⟩
    · rw [h] at hx ⊢
      rcases hx with ⟨-, hW⟩ | ⟨hc, -⟩
      · left
        refine ⟨hW, ?_⟩
        rw [h1]
        simp [view, hnil _ (List.prefix_refl _)]
      · cases hc
    · rw [h] at hx ⊢
      rcases hx with ⟨hc, hW⟩ | ⟨hc, hW⟩
      · exfalso
        cases msg <;> cases hc
      · right
        refine ⟨hW, msg, ?_, hs⟩
        rw [show msg.code = .incorrectInput from by injection hc, h1]
        simp [view, List.filter_append, hnil _ hp, Ev.isErr]

theorem starts_cut (k : ℕ) (l : List Ev) : starts (cut k l) ≤ k := by
  induction l generalizing k with
  | nil => simp [cut, starts]
  | cons e l ih =>
    unfold cut
    by_cases he : e.isStart = true
    · rw [if_pos he]
      cases k with
      | zero =>
        simp only [starts, List.countP_cons, Ev.isStart]
        have : List.countP Ev.isStart (l.filter Ev.isErr) = 0 := by
          rw [List.countP_eq_zero]
          intro x hx
          have := (List.mem_filter.1 hx).2
          cases x <;> simp_all [Ev.isErr, Ev.isStart]
        simp [this]
      | succ k =>
        simp only [starts, List.countP_cons, he, if_true]
        have := ih k
        unfold starts at this
        omega
    · rw [if_neg he]
      simp only [starts, List.countP_cons, he]
      have := ih k
      unfold starts at this
      simpa using this

/-- C50, terse: at level 2 at most 30 lines about columns and entries are printed, however large the matrix. -/
theorem C50_terse {E : PrEnv} (hE : E.Formats) (qs : List (Int × Int) → List (Int × Int)) (init : Bool) (A : Option Mat)
    (o3 o : Option Options) (h3 : 3 ≤ optPrint o3) (hub : (SLIP_matrix_checkP E qs init A o3).1 ≠ .error .ub)
    (h2 : optPrint o = 2) :
    (SLIP_matrix_checkP E qs init A o).2.countP Ev.isStart ≤ 30 := by
  rw [C50_levels hE qs init A o3 o h3 hub, h2]
  exact starts_cut 30 _

/-- C50, no library: before SLIP_initialize nothing is printed; a NULL matrix gives its message at level 1 and above. -/
theorem C50_null (E : PrEnv) (qs : List (Int × Int) → List (Int × Int)) (A : Option Mat) (o : Option Options) :
    SLIP_matrix_checkP E qs false A o = (.ok .panic, []) ∧
    SLIP_matrix_checkP E qs true none o = (.ok .incorrectInput, if 1 ≤ optPrint o then [.err .nz] else []) := by
  refine ⟨rfl, ?_⟩
  unfold SLIP_matrix_checkP checkBody
  simp only [Bool.not_true, Bool.false_eq_true, if_false]
  rw [Pm.bind_run]
  unfold Pm.lift SLIP_matrix_nnz
  simp only [Bool.not_true, Bool.false_eq_true, if_false]
  show (codeOf ((complain .nz .incorrectInput : Pm Unit) _).1, ((complain .nz .incorrectInput : Pm Unit) _).2.out) = _
  rw [complain_run]
  unfold pr1
  by_cases h : 1 ≤ optPrint o
  · rw [if_pos h, if_pos h]; rfl
  · rw [if_neg h, if_neg h]; rfl

/-- C50, no memory: if the workspace cannot be allocated, a CSC or triplet matrix is never accepted: the output ends with a
message at every level but 0, and the code is the one of that message. -/
theorem C50_no_memory {E : PrEnv} (hE : E.Formats) (hm : E.mem = false) {qs : List (Int × Int) → List (Int × Int)}
    (hq : QsortOk qs) {A : Mat} (hk : A.kind = .csc ∨ A.kind = .triplet)
    {N : Int} (hN : SLIP_matrix_nnz true (some A) = .ok N) (o3 o : Option Options) (h3 : 3 ≤ optPrint o3)
    (hub : (SLIP_matrix_checkP E qs true (some A) o3).1 ≠ .error .ub) :
    ∃ msg pre, SLIP_matrix_checkP E qs true (some A) o = (.ok msg.code, view (optPrint o) (pre ++ [.err msg])) ∧
      pre <+: listing A N ∧ msg.says E A N := by
  have fail : ∀ (m : Pm Unit) (f : Unit → Pm Unit) (s : Pr), (∀ u s, (f u s).1 ≠ .ok ()) → ((m >>= f) s).1 ≠ .ok () := by
    intro m f s h
    rw [Pm.bind_run]
    rcases m s with ⟨e | u, s'⟩
    · simp
    · exact h u s'
  have hcomp : ∀ msg c (s : Pr), ((complain msg c : Pm Unit) s).1 ≠ .ok () := by
    intro msg c s
    rw [complain_run]
    simp
  have hneed : ∀ (f : Unit → Pm Unit) (s : Pr), ((needMem E >>= f) s).1 ≠ .ok () := by
    intro f s
    rw [Pm.bind_run]
    unfold needMem
    rw [if_pos hm, complain_run]
    simp
  have hkind : ∀ N s, (checkKindP E qs A N s).1 ≠ .ok () := by
    intro N s
    unfold checkKindP
    rcases hk with hk | hk <;> rw [hk] <;> dsimp only
    · rw [Pm.bind_run]
      rcases Pm.lift _ s with ⟨e | p0, s'⟩
      · simp
      · dsimp only
        split
        · exact hcomp _ _ _
        · refine fail _ _ _ fun u s => ?_
          split
          · exact hcomp _ _ _
          · exact hneed _ s
    · split
      · exact hcomp _ _ _
      · exact fail _ _ _ fun u s => hneed _ s
  have hbody : ∀ s, (checkBody E qs true (some A) s).1 ≠ .ok () := by
    intro s
    unfold checkBody
    simp only [Bool.not_true, Bool.false_eq_true, if_false]
    rw [Pm.bind_run]
    rcases Pm.lift _ s with ⟨e | N, s'⟩
    · simp
    · dsimp only
      split
      · exact hcomp _ _ _
      split
      · exact hcomp _ _ _
      split
      · exact hcomp _ _ _
      split
      · exact hcomp _ _ _
      split
      · exact hcomp _ _ _
      exact fail _ _ _ fun u s => hkind N s
  rcases C50_output hE hq hN o3 o h3 hub with h | h
  · exfalso
    have hl := C50_levels hE qs true (some A) o3 o h3 hub
    rw [h] at hl
    have hc : (SLIP_matrix_checkP E qs true (some A) o3).1 = .ok .ok := (congrArg Prod.fst hl).symm
    have hw := wpP_body hE hq hN (s := { pr := optPrint o3, lines := 0, status := .ok, calls := 0, out := [] })
      ⟨h3, rfl, rfl⟩
    have hb := hbody { pr := optPrint o3, lines := 0, status := .ok, calls := 0, out := [] }
    unfold SLIP_matrix_checkP at hc
    dsimp only at hc
    unfold wpP at hw
    rcases hr : checkBody E qs true (some A) { pr := optPrint o3, lines := 0, status := .ok, calls := 0, out := [] }
      with ⟨e | u, s⟩
    · rw [hr] at hw hc
      rcases hw with rfl | ⟨msg, pre, rfl, -, -, -⟩
      · cases hc
      · cases msg <;> cases hc
    · rw [hr] at hb
      exact hb rfl
  · exact h

/-- C50, formatting: if the conversion of a number to text fails, the status is the one without that failure or the code of
a failed conversion - nothing else happens. -/
theorem C50_format_failure (E : PrEnv) (qs : List (Int × Int) → List (Int × Int)) (init : Bool) (A : Option Mat)
    (o : Option Options) (hm : E.mem = true) :
    (SLIP_matrix_checkP E qs init A o).1 = SLIP_matrix_check qs init A o ∨
    ∃ k, E.asp k ≠ .ok ∧ (SLIP_matrix_checkP E qs init A o).1 = .ok (E.asp k) := by
  have h0 : PrEnv.Formats ⟨true, fun _ => .ok⟩ := fun _ => rfl
  have := FSim.body (E := E) (E0 := ⟨true, fun _ => .ok⟩) h0 hm.symm qs init A
    { pr := optPrint o, lines := 0, status := .ok, calls := 0, out := [] }
    { pr := optPrint o, lines := 0, status := .ok, calls := 0, out := [] } ⟨rfl, rfl, rfl, Or.inl rfl⟩
  rcases this with ⟨h, -⟩ | ⟨k, hk, h⟩
  · left
    rw [← C50_status h0 rfl qs init A o]
    unfold SLIP_matrix_checkP
    dsimp only
    rw [h]
  · right
    refine ⟨k, hk, ?_⟩
    unfold SLIP_matrix_checkP
    dsimp only
    rw [h]
    rfl

/-- C50, formatting at level 0 and 1: no number is converted, so neither the status nor the output depends on it. -/
theorem C50_format_quiet (E E' : PrEnv) (hm : E.mem = E'.mem) (qs : List (Int × Int) → List (Int × Int)) (init : Bool)
    (A : Option Mat) (o : Option Options) (h : optPrint o ≤ 1) :
    SLIP_matrix_checkP E qs init A o = SLIP_matrix_checkP E' qs init A o := by
  have := (QSim.body (E := E') (E0 := E) hm qs init A
    { pr := optPrint o, lines := 0, status := .ok, calls := 0, out := [] } h).1
  unfold SLIP_matrix_checkP
  dsimp only
  rw [this]

/-! ### Concrete cases -/

namespace Ex

/-- Options with this print level. -/
def level (L : Int) : Option Options :=
  some { pivot := .smallest, order := .colamd, tol := .fin 1, printLevel := L, prec := 128, round := 0, check := false }

/-- Everything succeeds. -/
def fine : PrEnv := ⟨true, fun _ => .ok⟩

/-- A matrix with 20 columns and one entry in each: 40 lines. -/
def wide : Mat :=
  { m := 1, n := 20, nzmax := 20, nz := 0, kind := .csc, type := .int64,
    p := some ((List.range 21).map fun (k : ℕ) => some (k : Int)), pShallow := false,
    i := some ((List.range 20).map fun _ => some 0), iShallow := false, j := none, jShallow := false,
    x := some (.int64 ((List.range 20).map fun (k : ℕ) => some (k : Int))), xShallow := false, scale := 1 }

/-- The last entry is out of range. -/
def wideBad : Mat := { wide with i := some ((List.range 20).map fun (k : ℕ) => some (if k = 19 then 1 else 0)) }

/-- Conversions fail from the first on. -/
def noText : PrEnv := ⟨true, fun k => if k = 0 then .outOfMemory else .ok⟩

end Ex

/-- The output for a triplet matrix at level 3, and with a duplicate at all levels. -/
example :
    SLIP_matrix_checkP Ex.fine Ex.qs true (some Ex.T) (Ex.level 3) = (.ok .ok,
      [.header 2 2 3 3 .triplet .fp64, .scaleIs, .scale 1, .pair 0 1, .val (.fp64 (.fin 2)), .pair 1 0,
        .val (.fp64 (.fin (1 / 2))), .pair 1 1, .val (.fp64 (.fin 0))]) ∧
    SLIP_matrix_checkP Ex.fine Ex.qs true (some { Ex.T with j := some [some 1, some 1, some 1] }) (Ex.level 1) =
      (.ok .incorrectInput, [.err (.dup 1 1)]) ∧
    SLIP_matrix_checkP Ex.fine Ex.qs true (some { Ex.T with j := some [some 1, some 1, some 1] }) (Ex.level 0) =
      (.ok .incorrectInput, []) :=
  ⟨by decide +kernel, by decide +kernel, by decide +kernel⟩

/-- The hypotheses of `C50_quiet_levels` are met by this matrix. -/
example : Ex.fine.Formats ∧ SLIP_matrix_nnz true (some Ex.T) = .ok 3 ∧ Readable 3 Ex.T ∧ Ex.T.nzmax ≠ 0 := by
  refine ⟨fun _ => rfl, rfl, ⟨Ex.T_readable.p, Ex.T_readable.i, Ex.T_readable.j, ?_⟩, by decide⟩
  intro _ N hN x hx t h0 h1
  cases hN
  cases hx
  have : t = 0 ∨ t = 1 ∨ t = 2 := by change t < 3 at h1; omega
  rcases this with rfl | rfl | rfl <;> exact rfl

/-- A matrix with 40 lines: at level 2 the output stops after 30 of them, and a late error is still reported. -/
example :
    ((SLIP_matrix_checkP Ex.fine Ex.qs true (some Ex.wide) (Ex.level 3)).2.countP Ev.isStart = 40) ∧
    ((SLIP_matrix_checkP Ex.fine Ex.qs true (some Ex.wide) (Ex.level 2)).2.countP Ev.isStart = 30) ∧
    (SLIP_matrix_checkP Ex.fine Ex.qs true (some Ex.wide) (Ex.level 2)).2.getLast? = some .dots ∧
    (SLIP_matrix_checkP Ex.fine Ex.qs true (some Ex.wideBad) (Ex.level 2)).2.drop 48 =
      [.dots, .err (.range 1 19)] :=
  ⟨by decide +kernel, by decide +kernel, by decide +kernel, by decide +kernel⟩

/-- Without memory for the workspace. -/
example : SLIP_matrix_checkP ⟨false, fun _ => .ok⟩ Ex.qs true (some Ex.A) (Ex.level 1) =
    (.ok .outOfMemory, [.err .memory]) := by decide +kernel

/-- C50 is false without the assumption on the conversions: if the scale factor cannot be converted, that failure is
returned when the first entry of a matrix of type int64 has been printed - although nothing is wrong with that entry - while
for a matrix of type mpz the failure is forgotten. -/
theorem C50_stale_status_refuted :
    (SLIP_matrix_checkP Ex.noText Ex.qs true (some Ex.wide) (Ex.level 3) = (.ok .outOfMemory,
      [.header 1 20 20 20 .csc .int64, .scaleIs, .column 0, .row 0, .val (.int64 0), .error .outOfMemory])) ∧
    (SLIP_matrix_checkP Ex.noText Ex.qs true (some Ex.wide) (Ex.level 1)).1 = .ok .ok ∧
    (SLIP_matrix_checkP Ex.noText Ex.qs true (some Ex.A) (Ex.level 3)).1 = .ok .ok :=
  ⟨by decide +kernel, by decide +kernel, by decide +kernel⟩

end Slip
