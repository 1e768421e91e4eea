import Verif.Model.CostCheck
import Verif.Proof.CostCopy2

/-! # Counting the work of SLIP_matrix_check -/

namespace Slip

variable {α β γ : ℕ}

theorem forCnt_unit_ok {f : Int → Unit → C Unit} : ∀ (c : ℕ) (lo : Int), forCnt c lo () f = .ok () →
    ∀ t : ℕ, t < c → f (lo + t) () = .ok ()
  | 0, _, _, t, ht => absurd ht (Nat.not_lt_zero t)
  | c + 1, lo, h, t, ht => by
    change (f lo () >>= fun s => forCnt c (lo + 1) s f) = _ at h
    cases e : f lo () with
    | error x => rw [e] at h; cases h
    | ok u =>
      rw [e] at h
      cases t with
      | zero => simpa using e
      | succ t =>
        have := forCnt_unit_ok c (lo + 1) h t (by omega)
        rw [show lo + ((t + 1 : ℕ) : ℤ) = lo + 1 + (t : ℤ) by push_cast; ring]
        exact this

/-- What the successful test of the pointers says. -/
theorem checkPtr_ptrs {p : Arr Int} {n N : ℕ} {nz : Int} (h : checkPtr p n nz = .ok ()) (h0 : get p 0 = some 0)
    (hN : get p (n : ℤ) = some (N : ℤ)) : Ptrs n N p := by
  have key : ∀ t : ℕ, t < n → ∃ a b : ℤ, get p (t : ℤ) = some a ∧ get p ((t : ℤ) + 1) = some b ∧ a ≤ b := by
    intro t ht
    unfold checkPtr forRange at h
    have := forCnt_unit_ok _ _ h t (by omega)
    rw [zero_add] at this
    cases ea : rd p (t : ℤ) with
    | error x => rw [ea] at this; cases this
    | ok a =>
      rw [ea] at this
      cases eb : rd p ((t : ℤ) + 1) with
      | error x => simp only [eb] at this; cases this
      | ok b =>
        change (rd p ((t : ℤ) + 1) >>= fun b => _) = _ at this
        rw [eb] at this
        change (if b < a ∨ b > nz then (.error (.ret .incorrectInput) : C Unit) else pure ()) = _ at this
        by_cases hc : b < a ∨ b > nz
        · rw [if_pos hc] at this; cases this
        · exact ⟨a, b, rd_ok ea, rd_ok eb, by omega⟩
  have hg : ∀ t ≤ n, ∃ a, get p (t : ℤ) = some a := by
    intro t ht
    rcases Nat.lt_or_ge t n with h1 | h1
    · obtain ⟨a, b, ha, -, -⟩ := key t h1
      exact ⟨a, ha⟩
    · obtain rfl : t = n := by omega
      exact ⟨_, hN⟩
  refine ⟨fun t => (get p (t : ℤ)).getD 0, ?_, fun t ht => ?_, ?_, fun t ht => ?_⟩
  · simp only [Nat.cast_zero, h0, Option.getD_some]
  · obtain ⟨a, b, ha, hb, hab⟩ := key t ht
    simp only [Nat.cast_add, Nat.cast_one, ha, hb, Option.getD_some]
    exact hab
  · simp only [hN, Option.getD_some]
  · obtain ⟨a, ha⟩ := hg t ht
    simp only [ha, Option.getD_some]

theorem checkPtrT_lin (p : Arr Int) (n : ℕ) (nz : Int) :
    Lin α β γ 0 n 0 (checkPtrT β p n nz) (checkPtr p n nz) := by
  unfold checkPtrT checkPtr
  refine (Lin.forRange (a := 0) (b := 0) (c := 0) fun i s _ _ => Lin.lift _).mono ?_ ?_ ?_ <;> simp

/-- As `colLoop_lin`, with something done to the state at the start of every column. -/
theorem colLoop2_lin {δ : Type} {k n N : ℕ} {p : Arr Int} (hp : Ptrs n N p) {g' : Int → Int → δ → W δ}
    {g : Int → Int → δ → C δ} {s : δ} (c0 : δ → δ) (h : ∀ j t s, Lin α β γ k 0 0 (g' j t s) (g j t s)) :
    Lin α β γ (N * k) (n + N) 0
      (forRangeT β 0 n s fun j s => do
        let a ← W.lift (rd p j)
        let b ← W.lift (rd p (j + 1))
        forRangeT β a b (c0 s) (g' j))
      (forRange 0 n s fun j s => do
        let a ← rd p j
        let b ← rd p (j + 1)
        forRange a b (c0 s) (g j)) := by
  obtain ⟨f, h0, hmono, hN, hget⟩ := hp
  refine (Lin.forRangeSum (a := fun t => (f (t + 1) - f t).toNat * k) (b := fun t => (f (t + 1) - f t).toNat)
    (c := fun _ => 0) fun t s ht => ?_).mono ?_ ?_ ?_
  · refine Lin.liftBind fun a ha => Lin.liftBind fun b hb => ?_
    have ha' := rd_ok ha
    have hb' := rd_ok hb
    rw [hget t (by omega)] at ha'
    have e : ((t : ℤ) + 1) = ((t + 1 : ℕ) : ℤ) := by push_cast; rfl
    rw [e, hget (t + 1) (by omega)] at hb'
    cases ha'
    cases hb'
    refine (Lin.forRange (a := k) (b := 0) (c := 0) fun i s _ _ => h _ _ _).mono le_rfl ?_ ?_ <;> simp
  · rw [← Finset.sum_mul]
    have := sum_ptrs h0 hmono
    rw [hN] at this
    rw [Nat.cast_inj.1 this]
  · rw [Finset.sum_add_distrib]
    have := sum_ptrs h0 hmono
    rw [hN] at this
    rw [Nat.cast_inj.1 this]
    simp
  · simp

theorem checkRowsT_lin {A : Mat} {m n N : ℕ} (hm : A.m = m) (hn : A.n = n) {p : Arr Int} (hp : Ptrs n N p) (i : Arr Int)
    (pr : Int) : Lin α β γ N (n + N) m (checkRowsT α β γ A p i pr) (checkRows A p i pr) := by
  unfold checkRowsT checkRows
  rw [hn]
  have := Lin.tickC (γ := γ) (k := A.m.toNat) ((colLoop2_lin (α := α) (β := β) (γ := γ) (k := 1) hp
    (s := (calloc A.m, ((pr, 0) : Int × Int))) (fun s => (s.1, prLimit s.2))
    (g' := fun j t s => do
      let r ← W.lift (rd i t)
      if r < 0 ∨ r ≥ A.m then W.lift (.error (.ret .incorrectInput))
      else do
        let w ← W.lift (rd s.1 r)
        if w = j + 1 then W.lift (.error (.ret .incorrectInput))
        else if s.2.1 ≥ 2 then do
          tick α
          W.lift (printVal A t)
          let work ← W.lift (wr s.1 r (j + 1))
          pure (work, prLimit s.2)
        else do
          let work ← W.lift (wr s.1 r (j + 1))
          pure (work, s.2))
    (g := fun j t s => do
      let r ← rd i t
      if r < 0 ∨ r ≥ A.m then .error (.ret .incorrectInput)
      else do
        let w ← rd s.1 r
        if w = j + 1 then .error (.ret .incorrectInput)
        else if s.2.1 ≥ 2 then do
          printVal A t
          let work ← wr s.1 r (j + 1)
          pure (work, prLimit s.2)
        else do
          let work ← wr s.1 r (j + 1)
          pure (work, s.2)) fun j t s => by
      refine Lin.liftBind fun r _ => Lin.ite (fun _ => (Lin.lift _).mono ?_ ?_ ?_) fun _ =>
        Lin.liftBind fun w _ => Lin.ite (fun _ => (Lin.lift _).mono ?_ ?_ ?_) fun _ =>
        Lin.ite (fun _ => ?_) fun _ => (Lin.liftBind fun work _ => Lin.pure _).mono ?_ ?_ ?_
      case refine_7 =>
        exact Lin.tick1 (Lin.liftBind fun _ _ => Lin.liftBind fun work _ => Lin.pure _)
      all_goals simp).bind fun s _ => Lin.pure ())
  exact this.mono (by omega) (by omega) (by omega)

theorem checkTripletsT_lin (A : Mat) (i j : Arr Int) (N : ℕ) (pr : Int) :
    Lin α β γ N N 0 (checkTripletsT α β A i j N pr) (checkTriplets A i j N pr) := by
  unfold checkTripletsT checkTriplets
  refine ((Lin.forRange (a := 1) (b := 0) (c := 0) fun t s _ _ => ?_).bind fun s _ => Lin.pure ()).mono ?_ ?_ ?_
  · refine Lin.liftBind fun r _ => Lin.liftBind fun c _ => Lin.ite (fun _ => (Lin.lift _).mono ?_ ?_ ?_) fun _ =>
      Lin.ite (fun _ => ?_) fun _ => (Lin.pure _).mono ?_ ?_ ?_
    case refine_4 => exact Lin.tick1 (Lin.liftBind fun _ _ => Lin.pure _)
    all_goals simp
  all_goals simp

theorem checkDupT_lin (qs : List (Int × Int) → List (Int × Int)) (i j : Arr Int) (N : ℕ) :
    Lin α β γ 0 (2 * N) (2 * N) (checkDupT β γ qs i j N) (checkDup qs i j N) := by
  unfold checkDupT checkDup
  refine (Lin.tickC ((Lin.forRange (a := 0) (b := 0) (c := 0) fun t s _ _ => Lin.lift _).bind fun s _ =>
    Lin.forRange (a := 0) (b := 0) (c := 0) fun t s _ _ => Lin.lift _)).mono ?_ ?_ ?_ <;> omega

theorem checkDenseT_lin {A : Mat} {m n : ℕ} (hm : A.m = m) (hn : A.n = n) (pr : Int) :
    Lin α β γ (m * n) (n + m * n) 0 (checkDenseT α β A pr) (checkDense A pr) := by
  unfold checkDenseT checkDense
  rw [hm, hn]
  refine ((Lin.forRange (a := m) (b := m) (c := 0) fun j s _ _ =>
    (Lin.forRange (a := 1) (b := 0) (c := 0) fun i s _ _ => Lin.ite (fun _ =>
      Lin.tick1 (Lin.liftBind fun _ _ => Lin.pure _)) fun _ => (Lin.pure _).mono ?_ ?_ ?_).mono ?_ ?_ ?_).bind
    fun s _ => Lin.pure ()).mono ?_ ?_ ?_
  all_goals simp [Nat.mul_comm, Nat.mul_add]

theorem checkKind_csc (qs : List (Int × Int) → List (Int × Int)) {A : Mat} (hk : A.kind = .csc) (nz pr : Int) :
    checkKind qs A nz pr = ((if A.nzmax > 0 ∧ A.p ≠ none then rd (deref A.p) 0 else pure 0 : C Int) >>= fun p0 =>
      if A.nzmax > 0 ∧ (A.p = none ∨ p0 ≠ 0) then .error (.ret .incorrectInput)
      else checkPtr (deref A.p) A.n nz >>= fun _ =>
        if A.nzmax > 0 ∧ (A.i = none ∨ A.x = none) then .error (.ret .incorrectInput)
        else checkRows A (deref A.p) (deref A.i) pr) := by
  unfold checkKind
  rw [hk]
  by_cases h : A.nzmax > 0 ∧ A.p ≠ none
  · simp only [if_pos h]
  · simp only [if_neg h]

theorem checkKindT_lin (qs : List (Int × Int) → List (Int × Int)) {A : Mat} {m n N : ℕ} (hm : A.m = m) (hn : A.n = n)
    (hz : 0 < A.nzmax) (hN : SLIP_matrix_nnz true (some A) = .ok (N : ℤ)) (pr : Int) :
    Lin α β γ N (2 * n + 3 * N) (m + 2 * N) (checkKindT α β γ qs A N pr) (checkKind qs A N pr) := by
  have hbad : ∀ e : Fail, Lin α β γ N (2 * n + 3 * N) (m + 2 * N) (W.lift (.error e : C Unit)) (.error e) := fun e =>
    (Lin.lift _).mono (Nat.zero_le _) (Nat.zero_le _) (Nat.zero_le _)
  cases hk : A.kind with
  | csc =>
    rw [checkKind_csc qs hk]
    unfold checkKindT
    rw [hk]
    refine Lin.liftBind fun p0 hp0 => ?_
    refine Lin.ite (fun _ => hbad _) fun hc => ?_
    rw [hn]
    have hpn : A.p ≠ none := fun e => hc ⟨hz, Or.inl e⟩
    have h00 : p0 = 0 := by
      by_contra e
      exact hc ⟨hz, Or.inr e⟩
    rw [if_pos ⟨hz, hpn⟩, h00] at hp0
    have hget : get (deref A.p) (n : ℤ) = some (N : ℤ) := by
      unfold SLIP_matrix_nnz at hN
      simp only [Bool.not_true, Bool.false_eq_true, if_false, hk] at hN
      cases e : A.p with
      | none => exact absurd e hpn
      | some p =>
        rw [e] at hN
        simp only at hN
        rw [if_neg (by omega), hn] at hN
        exact rd_ok hN
    refine ((checkPtrT_lin _ n _).bind (a2 := N) (b2 := n + N) (c2 := m) fun u hu => Lin.ite (fun _ =>
      (Lin.lift _).mono (Nat.zero_le _) (Nat.zero_le _) (Nat.zero_le _)) fun _ =>
      checkRowsT_lin hm hn (checkPtr_ptrs hu (rd_ok hp0) hget) _ _).mono ?_ ?_ ?_ <;> omega
  | triplet =>
    unfold checkKindT checkKind
    rw [hk]
    refine Lin.ite (fun _ => hbad _) fun _ => ?_
    refine ((checkTripletsT_lin A _ _ N pr).bind fun u _ => checkDupT_lin qs _ _ N).mono ?_ ?_ ?_ <;> omega
  | dense =>
    unfold checkKindT checkKind
    rw [hk]
    refine Lin.ite (fun _ => hbad _) fun _ => ?_
    have : N = m * n := by
      unfold SLIP_matrix_nnz at hN
      simp only [Bool.not_true, Bool.false_eq_true, if_false, hk] at hN
      rw [if_neg (by omega), hm, hn] at hN
      have := Except.ok.inj hN
      exact_mod_cast this.symm
    refine (checkDenseT_lin hm hn pr).mono ?_ ?_ ?_ <;> omega
  | bad k =>
    unfold checkKindT checkKind
    rw [hk]
    exact (Lin.pure _).mono (Nat.zero_le _) (Nat.zero_le _) (Nat.zero_le _)

theorem codeOfT_lin {a b c : ℕ} {m' : W Unit} {m : C Unit} (h : Lin α β γ a b c m' m) :
    Lin α β γ a b c (codeOfT m') (codeOf m) := by
  intro w
  obtain ⟨w', e, hw⟩ := h w
  refine ⟨w', ?_, hw⟩
  unfold codeOfT
  rw [e]

theorem SLIP_matrix_checkT_lin (qs : List (Int × Int) → List (Int × Int)) {A : Mat} {m n N : ℕ} (hm : A.m = m) (hn : A.n = n)
    (hz : 0 < A.nzmax) (hN : SLIP_matrix_nnz true (some A) = .ok (N : ℤ)) (opt : Option Options) :
    Lin α β γ N (2 * n + 3 * N) (m + 2 * N) (SLIP_matrix_checkT α β γ qs true (some A) opt)
      (SLIP_matrix_check qs true (some A) opt) := by
  unfold SLIP_matrix_checkT SLIP_matrix_check
  have hp : ∀ i : Info, Lin α β γ N (2 * n + 3 * N) (m + 2 * N) (pure i : W Info) (pure i) := fun i =>
    (Lin.pure _).mono (Nat.zero_le _) (Nat.zero_le _) (Nat.zero_le _)
  simp only [Bool.not_true, Bool.false_eq_true, if_false]
  refine Lin.liftBind fun nz hnz => Lin.ite (fun _ => hp _) fun _ => Lin.ite (fun _ => hp _) fun _ =>
    Lin.ite (fun _ => hp _) fun _ => Lin.ite (fun _ => hp _) fun _ => Lin.ite (fun _ => hp _) fun _ => codeOfT_lin ?_
  rw [hN] at hnz
  cases hnz
  exact checkKindT_lin qs hm hn hz hN _

end Slip
