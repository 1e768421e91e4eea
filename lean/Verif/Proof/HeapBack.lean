import Verif.Proof.HeapCopy

/-!
# SLIP_backslash
-/

namespace Slip.Mem

variable {base : Addr → Option ℕ} {own rest : Multiset Addr} {n : ℕ} {P : Prop}

/-- The blocks of the variables of `SLIP_backslash` (`out` only receives the result at the end). -/
def BackVars.cells (w : BackVars) : Multiset Addr :=
  matBlks w.L + matBlks w.U + blk w.pinv + matBlks w.rhos + anaBlks w.S + matBlks w.x + matBlks w.out

structure BackVars.Ready (w : BackVars) : Prop where
  L : matSized w.L
  U : matSized w.U
  rhos : matSized w.rhos
  x : matSized w.x
  out : w.out = none

/-- The work variables can be freed, the result is there. -/
structure BackVars.Done (J : Option HMat → Prop) (w : BackVars) : Prop where
  L : matSized w.L
  U : matSized w.U
  rhos : matSized w.rhos
  x : w.x = none
  out : J w.out

/-- The second step of `SLIP_backslash`. -/
def backFact (pivot : Pivot) (m : ℕ) : Step BackVars := fun w => match w.S with
  | none => ub
  | some S => if S.filled = false then ub else do
    let (r, L, U, rhos, pinv) ← luFactorize pivot m S.lnz S.unz
    pure (r, { w with L := L, U := U, rhos := rhos, pinv := pinv })

theorem does_backFact {pivot : Pivot} {m : ℕ} {S : HAna} (hS : S.Usable m) :
    Does base (anaBlks (some S) + own) n (backFact pivot m ⟨none, none, none, none, some S, none, none⟩)
      (fun a own' n' => own' = a.2.cells + own ∧ a.2.Ready ∧ a.2.x = none ∧ (a.1 = .ok → n' = n)) := by
  unfold backFact
  dsimp only
  rw [if_neg (by rw [hS.filled]; nofun)]
  refine Does.bind (does_luFactorize hS.lnz hS.unz) ?_
  rintro ⟨r, L, U, rhos, pinv⟩ own' n' ⟨e, h1, h2⟩
  dsimp only at e h1 h2 ⊢
  refine Does.pure ⟨?_, ?_, rfl, fun h => (h2 h).2.2.2.2⟩
  · rw [e]
    unfold BackVars.cells
    simp only [matBlks_none, add_zero]
    abel
  · by_cases hr : r = .ok
    · obtain ⟨⟨_, h3⟩, ⟨_, h4⟩, h5, _⟩ := h2 hr
      exact ⟨h3.sized, h4.sized, h5.sized, matSized_none, rfl⟩
    · cases h1 hr
      exact ⟨matSized_none, matSized_none, matSized_none, matSized_none, rfl⟩

/-- What `SLIP_backslash` does after the analysis. -/
def backRest (pivot : Pivot) (check : Bool) (type : Ty) (m k : ℕ) (a : Info × Option HAna) :
    M (Info × Option HMat) := do
  let (r, w) ← (if a.1 = .ok then seq (σ := BackVars)
    [backFact pivot m,
     at! x (fun _ => luSolve check m k),
     fun w =>
      if type = .mpq then pure (.ok, { w with out := w.x, x := none })
      else match w.x with
      | none => ub
      | some x => do
        let (r, x2) ← matCopy .dense type x
        if r ≠ .ok then pure (r, w)
        else do
          matFree w.x
          pure (.ok, { w with out := x2, x := none })] ⟨none, none, none, none, a.2, none, none⟩
    else pure (a.1, ⟨none, none, none, none, a.2, none, none⟩))
  if r ≠ .ok then do
    backFreeWork w
    matFree w.x
    pure (r, none)
  else do
    backFreeWork w
    pure (.ok, w.out)

theorem run_bind {α β : Type} {m : M α} {k : α → M β} {st st1 : St} {a : α} (h : m st = .ok (a, st1)) :
    (m >>= k) st = k a st1 := by
  show (m st >>= fun r => k r.1 r.2) = _
  rw [h]
  rfl

theorem error_bind {α β : Type} {m : M α} {k : α → M β} {st : St} {e : Fail} (h : m st = .error e) :
    (m >>= k) st = .error e := by
  show (m st >>= fun r => k r.1 r.2) = _
  rw [h]
  rfl

theorem bind_congr_run {α β : Type} {m m' : M α} {k : α → M β} {st st1 : St} (h : m st = m' st1) :
    (m >>= k) st = (m' >>= k) st1 := by
  show (m st >>= fun r => k r.1 r.2) = (m' st1 >>= fun r => k r.1 r.2)
  rw [h]

theorem backslash_eq {order : ColOrder} {pivot : Pivot} {check : Bool} {type : Ty} {m k : ℕ} {st st1 : St}
    {a : Info × Option HAna} (h : luAnalyze order m st = .ok (a, st1)) :
    backslash order pivot check type m k st = backRest pivot check type m k a st1 := by
  obtain ⟨r, S⟩ := a
  have h1 : (at! S (fun _ => luAnalyze order m)) (⟨none, none, none, none, none, none, none⟩ : BackVars) st =
      .ok ((r, ⟨none, none, none, none, S, none, none⟩), st1) := run_bind h
  unfold backslash backRest
  by_cases hr : r = .ok
  · subst hr
    rw [if_pos rfl]
    unfold seq
    exact bind_congr_run (run_bind h1)
  · rw [if_neg hr]
    unfold seq
    refine bind_congr_run ((run_bind h1).trans ?_)
    dsimp only
    rw [if_neg hr]

theorem does_backRest {pivot : Pivot} {check : Bool} {type : Ty} {m k n0 : ℕ} {a : Info × Option HAna}
    (h1 : a.1 ≠ .ok → a.2 = none) (h2 : a.1 = .ok → n = n0 ∧ ∃ S, a.2 = some S ∧ S.Usable m) :
    Does base (anaBlks a.2 + own) n (backRest pivot check type m k a) (fun a own' n' =>
      own' = matBlks a.2 + own ∧ (a.1 ≠ .ok → a.2 = none) ∧
      (a.1 = .ok → Deep .dense type m k a.2 ∧ n' = n0)) := by
  unfold backRest
  set D := Deep .dense type m k with hD
  refine Does.bind (Q := fun a own' n' => own' = a.2.cells + own ∧ (a.1 ≠ .ok → a.2.Ready) ∧
    (a.1 = .ok → a.2.Done D ∧ n' = n0)) ?_ ?_
  · obtain ⟨r, S⟩ := a
    dsimp only at h1 h2 ⊢
    split
    swap
    · rename_i hr
      refine Does.pure ⟨?_, fun _ => ⟨matSized_none, matSized_none, matSized_none, matSized_none, rfl⟩,
        fun h => absurd h hr⟩
      unfold BackVars.cells
      simp only [matBlks_none, blk_none, zero_add, add_zero]
    rename_i hr
    obtain ⟨rfl, S, rfl, hS⟩ := h2 hr
    unfold seq
    refine Does.bind (Q := fun a own' n' => own' = a.2.cells + own ∧ a.2.Ready ∧ a.2.x = none ∧
      (a.1 = .ok → n' = n)) ?_ ?_
    · exact does_backFact hS
    rintro ⟨r, w⟩ own' n2 ⟨rfl, hR, hx, h3⟩
    dsimp only at hR hx h3 ⊢
    split
    swap
    · rename_i hr
      exact Does.pure ⟨rfl, fun _ => hR, fun h => absurd h hr⟩
    rename_i hr
    obtain rfl := h3 hr
    unfold seq
    refine Does.bind (Q := fun a own' n' => own' = a.2.cells + own ∧ a.2.Ready ∧
      (a.1 = .ok → PtrTo (Full .dense .mpq m k (capacity .dense m k 0)) a.2.x ∧ n' = n2)) ?_ ?_
    · refine Does.bind (makes_luSolve (P := True) (w.cells + own) n2) ?_
      rintro ⟨r, x⟩ own' n' ⟨rfl, h1, h2⟩
      dsimp only at h1 h2 ⊢
      refine Does.pure ⟨?_, ?_, fun h => ⟨(h2 h).1, (h2 h).2 trivial⟩⟩
      · unfold BackVars.cells
        dsimp only
        rw [hx, matBlks_none]
        abel
      · refine ⟨hR.L, hR.U, hR.rhos, ?_, hR.out⟩
        by_cases hr : r = .ok
        · exact (h2 hr).1.sized
        · rw [h1 hr]
          exact matSized_none
    rintro ⟨r, w⟩ own' n3 ⟨rfl, hR, h3⟩
    dsimp only at hR h3 ⊢
    split
    swap
    · rename_i hr
      exact Does.pure ⟨rfl, fun _ => hR, fun h => absurd h hr⟩
    rename_i hr
    obtain ⟨⟨x, hx, hF⟩, rfl⟩ := h3 hr
    unfold seq
    refine Does.bind (Q := fun a own' n' => own' = a.2.cells + own ∧ (a.1 ≠ .ok → a.2.Ready) ∧
      (a.1 = .ok → a.2.Done D ∧ n' = n3)) ?_ ?_
    · split
      · rename_i ht
        refine Does.pure ⟨?_, fun h => absurd rfl h, fun _ => ⟨⟨hR.L, hR.U, hR.rhos, rfl, ?_⟩, rfl⟩⟩
        · unfold BackVars.cells
          dsimp only
          rw [hR.out, matBlks_none]
          abel
        · rw [hD, ht]
          exact ⟨_, x, hx, hF⟩
      · dsimp only
        rw [hx]
        dsimp only
        have hc : Clean .dense type x := by
          refine ⟨Or.inl hF.1.kind, fun h => ?_⟩
          rcases h.2 with h | h <;> rw [hF.1.type] at h <;> cases h
        have hd : 0 < x.nnz → 0 < x.m * x.n := by
          unfold HMat.nnz
          rw [hF.1.kind]
          dsimp only
          split <;> omega
        refine Does.bind (makes_matCopy (P := True) rfl (by rw [hF.1.kind]; rfl) (fun _ => hc) hd (w.cells + own) n3) ?_
        rintro ⟨r, x2⟩ own' n' ⟨rfl, h1, h2⟩
        dsimp only at h1 h2 ⊢
        split
        · rename_i hr
          rw [h1 hr, matBlks_none, zero_add]
          exact Does.pure ⟨rfl, fun _ => hR, fun h => absurd h hr⟩
        · rename_i hr
          rw [not_not] at hr
          obtain ⟨h3, h4⟩ := h2 hr
          refine (does_matFree (hx ▸ hR.x) (rest := BackVars.cells { w with out := x2, x := none } + own) ?_).pass fun _ => ?_
          · unfold BackVars.cells
            dsimp only
            rw [hR.out, matBlks_none, hx]
            abel
          refine Does.pure ⟨rfl, fun h => absurd rfl h, fun _ => ⟨⟨hR.L, hR.U, hR.rhos, rfl, ?_⟩, h4 trivial⟩⟩
          rw [hD, ← hF.1.rows, ← hF.1.cols]
          exact h3
    rintro ⟨r, w⟩ own' n4 ⟨rfl, h1, h2⟩
    dsimp only at h1 h2 ⊢
    split
    · rename_i hr
      exact Does.pure ⟨rfl, fun h => absurd rfl h, fun _ => h2 hr⟩
    · rename_i hr
      exact Does.pure ⟨rfl, h1, fun h => absurd h hr⟩
  · rintro ⟨r, w⟩ own' n1 ⟨rfl, hR, hD'⟩
    dsimp only at hR hD' ⊢
    have hfree : matSized w.L → matSized w.U → matSized w.rhos → Does base (w.cells + own) n1 (backFreeWork w)
        (fun _ own2 n2 => own2 = matBlks w.x + (matBlks w.out + own) ∧ n2 = n1) := by
      intro h1 h2 h3
      unfold backFreeWork
      refine Does.congr (own' := matBlks w.L + (matBlks w.U + (blk w.pinv + (matBlks w.rhos + (anaBlks w.S +
        (matBlks w.x + (matBlks w.out + own))))))) (by unfold BackVars.cells; abel) ?_
      exact (does_matFree h1 rfl).pass fun _ => (does_matFree h2 rfl).pass fun _ => (does_free rfl).pass fun _ =>
        (does_matFree h3 rfl).pass fun _ => does_anaFree rfl
    split
    · rename_i hr
      have h := hR hr
      refine (hfree h.L h.U h.rhos).pass fun _ => (does_matFree h.x rfl).pass fun _ => ?_
      refine Does.pure ⟨?_, fun _ => rfl, fun h => absurd h hr⟩
      rw [h.out]
    · rename_i hr
      rw [not_not] at hr
      obtain ⟨h, rfl⟩ := hD' hr
      refine (hfree h.L h.U h.rhos).pass fun _ => ?_
      refine Does.pure ⟨?_, fun h => absurd rfl h, fun _ => ⟨h.out, rfl⟩⟩
      rw [h.x, matBlks_none, zero_add]

/-- A run of `SLIP_backslash`: either as it should be, or AMD was refused memory. -/
theorem backslash_cases {order : ColOrder} {pivot : Pivot} {check : Bool} {type : Ty} {m k : ℕ} {st : St}
    (hst : Owns base own st) :
    (order = .amd ∧ 0 < m ∧ (∃ S st1, luAnalyze .amd m st = .ok ((.ok, some S), st1) ∧ S.filled = false ∧
      st.g.refused < st1.g.refused) ∧ backslash order pivot check type m k st = .error .ub) ∨
    ∃ a st' own', backslash order pivot check type m k st = .ok (a, st') ∧ Owns base own' st' ∧
      own' = matBlks a.2 + own ∧ (a.1 ≠ .ok → a.2 = none) ∧
      (a.1 = .ok → Deep .dense type m k a.2 ∧ st'.g.refused = st.g.refused) := by
  obtain ⟨a, st1, own1, e, h1, rfl, h2, h3⟩ := does_luAnalyze (order := order) (m := m) st hst rfl
  rw [backslash_eq e]
  by_cases hb : order = .amd ∧ 0 < m ∧ a.1 = .ok ∧ ∃ S, a.2 = some S ∧ S.filled = false ∧
      st.g.refused < st1.g.refused
  · obtain ⟨rfl, hm, hr, S, hS, hf, hn⟩ := hb
    obtain ⟨r, S'⟩ := a
    dsimp only at hr hS
    subst hr hS
    refine Or.inl ⟨rfl, hm, ⟨S, st1, e, hf, hn⟩, ?_⟩
    have h4 : backFact pivot m ⟨none, none, none, none, some S, none, none⟩ st1 = .error .ub := by
      unfold backFact
      dsimp only
      rw [if_pos hf]
      rfl
    unfold backRest
    rw [if_pos rfl]
    unfold seq
    exact error_bind (error_bind h4)
  · refine Or.inr (does_backRest (n0 := st.g.refused) h2 (fun hr => ?_) st1 h1 rfl)
    obtain ⟨S, hS, h4 | h4⟩ := h3 hr
    · exact ⟨h4.1, S, hS, h4.2⟩
    · exact absurd ⟨h4.1, h4.2.1, hr, S, hS, h4.2.2⟩ hb

end Slip.Mem
