import Verif.Proof.PrintSolve2

/-!
# What SLIP_LU_solve prints for arbitrary arguments (C54)
-/

namespace Slip.Out

variable {α β σ : Type}

/-- `m` does not return an error code, and if it ends normally the result satisfies `Q`. -/
def Np (m : C α) (Q : α → Prop) : Prop := wp m Q fun f => ∀ e, f ≠ .ret e

theorem Np.mono {m : C α} {Q Q' : α → Prop} (h : Np m Q) (hQ : ∀ a, Q a → Q' a) : Np m Q' := wp_post h hQ
theorem Np.any {m : C α} {Q : α → Prop} (h : Np m Q) : Np m fun _ => True := h.mono fun _ _ => trivial
theorem Np.pure {a : α} {Q : α → Prop} (h : Q a) : Np (Pure.pure a) Q := h
theorem Np.bind {m : C α} {f : α → C β} {Q : β → Prop} {R : α → Prop} (h : Np m R) (hf : ∀ a, R a → Np (f a) Q) :
    Np (m >>= f) Q := wp_bind_ok h hf
theorem Np.ite {p : Prop} [Decidable p] {c d : C α} {Q : α → Prop} (h : Np c Q) (h' : Np d Q) :
    Np (if p then c else d) Q := by split; exact h; exact h'
theorem Np.rd (a : Arr α) (i : Int) : Np (Slip.rd a i) fun _ => True := by
  unfold Slip.rd; split
  · trivial
  · exact fun _ => nofun
theorem Np.wr (a : Arr α) (i : Int) (v : α) : Np (Slip.wr a i v) fun _ => True := by
  unfold Slip.wr; split
  · trivial
  · exact fun _ => nofun
theorem Np.divexact (a b : Int) : Np (Slip.divexact a b) fun _ => True := by
  unfold Slip.divexact; split
  · exact fun _ => nofun
  · trivial
theorem Np.mpqDiv (a b : ℚ) : Np (Slip.mpqDiv a b) fun _ => True := by
  unfold Slip.mpqDiv; split
  · exact fun _ => nofun
  · trivial

/-- All elements are initialised, and there are `n` of them. -/
def Full (n : ℕ) (a : Arr α) : Prop := a.length = n ∧ ∀ t : ℤ, 0 ≤ t → t < n → ∃ v, get a t = some v

theorem Np.zset' (a : Arr α) (i : Int) (v : α) : Np (Slip.zset a i v) fun _ => True := by
  unfold Slip.zset; exact Np.bind (Np.rd _ _) fun _ _ => Np.wr _ _ _

theorem Np.zset {n : ℕ} {a : Arr α} (h : Full n a) (i : Int) (v : α) : Np (Slip.zset a i v) (Full n) := by
  have := Np.zset' a i v
  unfold Np wp at this ⊢
  split
  · rename_i b e
    have hb : ∃ w, get a i = some w := by
      unfold Slip.zset at e
      cases hr : Slip.rd a i with
      | error e' => rw [hr] at e; cases e
      | ok w => exact ⟨w, rd_ok hr⟩
    obtain ⟨w, hw⟩ := hb
    have hB := get_bounds hw
    rw [zset_eq hw] at e
    cases e
    refine ⟨by rw [length_upd]; exact h.1, fun t h0 h1 => ?_⟩
    rw [get_upd hB.1 hB.2]
    split
    · exact ⟨_, rfl⟩
    · exact h.2 t h0 h1
  · rename_i f e
    rw [e] at this
    exact this

theorem Np.forCnt {I : σ → Prop} {f : ℤ → σ → C σ} (h : ∀ i s, I s → Np (f i s) I) :
    ∀ (c : ℕ) (lo : ℤ) (s : σ), I s → Np (Slip.forCnt c lo s f) I
  | 0, _, _, hs => hs
  | c + 1, lo, s, hs => Np.bind (h lo s hs) fun s' hs' => Np.forCnt h c _ s' hs'

theorem Np.forRange {I : σ → Prop} {f : ℤ → σ → C σ} {lo hi : ℤ} {s : σ} (hs : I s) (h : ∀ i s, I s → Np (f i s) I) :
    Np (Slip.forRange lo hi s f) I := Np.forCnt h _ _ _ hs

theorem Np.forDownCnt {I : σ → Prop} {f : ℤ → σ → C σ} (h : ∀ i s, I s → Np (f i s) I) :
    ∀ (c : ℕ) (lo : ℤ) (s : σ), I s → Np (Slip.forDownCnt c lo s f) I
  | 0, _, _, hs => hs
  | c + 1, lo, s, hs => Np.bind (h _ s hs) fun s' hs' => Np.forDownCnt h c _ s' hs'

theorem Np.forDown {I : σ → Prop} {f : ℤ → σ → C σ} {lo hi : ℤ} {s : σ} (hs : I s) (h : ∀ i s, I s → Np (f i s) I) :
    Np (Slip.forDown lo hi s f) I := Np.forDownCnt h _ _ _ hs

/-- Discharges `Np` for straight-line code, if nothing is to be shown of the result. -/
syntax "nps" : tactic
macro_rules | `(tactic| nps) => `(tactic| repeat' first
  | exact Np.rd _ _ | exact Np.wr _ _ _ | exact Np.zset' _ _ _ | exact Np.divexact _ _ | exact Np.mpqDiv _ _
  | exact Np.pure trivial
  | refine Np.ite ?_ ?_
  | refine Np.forRange trivial fun _ _ _ => ?_
  | refine Np.forDown trivial fun _ _ _ => ?_
  | refine Np.bind (R := fun _ => True) ?_ fun _ _ => ?_)

theorem permute_b_np (b : Dense Int) (pinv : Arr Int) :
    Np (slip_permute_b b pinv) fun y => y.m = b.m ∧ y.n = b.n := by
  unfold slip_permute_b
  refine Np.bind (R := fun _ => True) (by nps) fun _ _ => Np.pure ⟨rfl, rfl⟩

theorem hist_np (rhos x : Arr Int) (j hj s : Int) : Np (histUpdate rhos x j hj s) fun _ => True := by
  unfold histUpdate; nps

theorem fwdUpdate_np (rhos h x : Arr Int) (ij ii i lji : Int) : Np (fwdUpdate rhos h x ij ii i lji) fun _ => True := by
  unfold fwdUpdate
  refine Np.bind (Np.rd _ _) fun _ _ => Np.bind (R := fun _ => True) ?_ fun _ _ => ?_
  · refine Np.ite (by nps) ?_
    refine Np.bind (Np.rd _ _) fun _ _ => Np.bind (hist_np _ _ _ _ _) fun _ _ => ?_
    nps
  · nps

theorem forward_np (L : Csc) (x : Dense Int) (rhos : Arr Int) :
    Np (slip_forward_sub L x rhos) fun y => y.m = x.m ∧ y.n = x.n := by
  unfold slip_forward_sub
  refine Np.bind (R := fun _ => True) (by nps) fun _ _ => Np.bind (R := fun _ => True) ?_ fun _ _ => Np.pure ⟨rfl, rfl⟩
  refine Np.forRange trivial fun _ _ _ => Np.forRange trivial fun _ _ _ => ?_
  unfold fwdStep
  refine Np.bind (Np.rd _ _) fun _ _ => Np.bind (Np.rd _ _) fun _ _ => Np.ite (Np.pure trivial) ?_
  refine Np.bind (hist_np _ _ _ _ _) fun _ _ => Np.bind (Np.rd _ _) fun _ _ => Np.bind (Np.rd _ _) fun _ _ => ?_
  refine Np.forRange trivial fun _ _ _ => Np.bind (Np.rd _ _) fun _ _ => Np.bind (Np.rd _ _) fun _ _ => ?_
  exact Np.ite (Np.pure trivial) (Np.ite (fwdUpdate_np _ _ _ _ _ _ _) (Np.pure trivial))

theorem mul_np (x : Dense Int) (s : Int) : Np (slip_matrix_mul x s) fun y => y.m = x.m ∧ y.n = x.n := by
  unfold slip_matrix_mul
  exact Np.bind (R := fun _ => True) (by nps) fun _ _ => Np.pure ⟨rfl, rfl⟩

theorem back_np (U : Csc) (x : Dense Int) : Np (slip_back_sub U x) fun y => y.m = x.m ∧ y.n = x.n := by
  unfold slip_back_sub
  refine Np.bind (R := fun _ => True) ?_ fun _ _ => Np.pure ⟨rfl, rfl⟩
  unfold backStep backInner
  nps

theorem div_np (x : Dense Int) (s : Int) : Np (slip_matrix_div x s) fun y => y.m = x.m ∧ y.n = x.n := by
  unfold slip_matrix_div
  exact Np.bind (R := fun _ => True) (by nps) fun _ _ => Np.pure ⟨rfl, rfl⟩

theorem full_replicate [Zero α] (n : ℕ) : Full n (List.replicate n (some (0 : α)) : Arr α) :=
  ⟨List.length_replicate, fun t h0 h1 => ⟨0, by
    unfold get
    rw [if_neg (by omega), List.getElem?_replicate, if_pos (by omega)]; rfl⟩⟩

theorem permute_x_np (x2 : Dense ℚ) (q : Arr Int) :
    Np (slip_permute_x x2 q) fun y => y.m = x2.m ∧ y.n = x2.n ∧ y.nzmax = max (x2.m * x2.n) 1 ∧
      Full (max (x2.m * x2.n) 1).toNat y.x := by
  unfold slip_permute_x
  refine Np.bind (R := Full (max (x2.m * x2.n) 1).toNat) ?_ fun _ h => Np.pure ⟨rfl, rfl, rfl, h⟩
  refine Np.forRange (full_replicate _) fun _ _ h => Np.forRange h fun _ _ h => ?_
  exact Np.bind (Np.rd _ _) fun _ _ => Np.bind (Np.rd _ _) fun _ _ => Np.zset h _ _

theorem scale_np (x : Dense ℚ) (sA sb : ℚ) : Np (scaleSolution x sA sb) fun _ => True := by
  unfold scaleSolution
  nps

theorem checkMul_np (A : Csc) (x : Dense ℚ) (m n : Int) (b2 : Arr ℚ) : Np (checkMul A x m n b2) fun _ => True := by
  unfold checkMul; nps

theorem checkCmp_np (b : Dense Int) (b2 : Arr ℚ) : Np (checkCmp b b2) fun _ => True := by
  unfold checkCmp; nps

/-- What `SLIP_LU_solve` prints, given its result. -/
def Prints (opt : Option Options) (m : P (Dense ℚ)) : Prop :=
  ∃ c L, Says m c L ∧
    (∀ x, c = .ok x → L = if optCheck opt = true ∧ optPrint opt ≥ 1 then [.verified] else []) ∧
    (∀ e, c = .error (.ret e) → e = .incorrect ∧ optCheck opt = true ∧ L = if optPrint opt ≥ 1 then [.wrong] else [])

theorem Prints.lift {opt : Option Options} {m : C α} {f : α → P (Dense ℚ)} {Q : α → Prop} (h : Np m Q)
    (hf : ∀ a, Prints opt (f a)) : Prints opt (Out.lift m >>= f) := by
  cases m with
  | ok a => exact hf a
  | error e =>
    refine ⟨.error e, [], (Says.lift _).bind_err, nofun, fun e' he => ?_⟩
    cases he
    exact absurd rfl (h e')

/-- After the check: nothing more is printed. -/
theorem Prints.last {opt : Option Options} {m : C (Dense ℚ)} (h : Np m fun _ => True) {pre : P Unit} {L : List Line}
    (hp : Says pre (.ok ()) L) (hL : L = if optCheck opt = true ∧ optPrint opt ≥ 1 then [.verified] else []) :
    Prints opt (pre >>= fun _ => Out.lift m) := by
  refine ⟨m, L ++ [], hp.bind_ok (Says.lift m), fun _ _ => by rw [List.append_nil, hL], fun e he => ?_⟩
  rw [he] at h
  exact absurd rfl (h e)

theorem check_says (A : Csc) (x : Dense ℚ) (b : Dense Int) (opt : Option Options) :
    ∃ L, Says (slip_check_solution A x b opt) (Slip.slip_check_solution A x b) L ∧
      (Slip.slip_check_solution A x b = .ok () → L = if optPrint opt ≥ 1 then [.verified] else []) ∧
      (∀ e, Slip.slip_check_solution A x b = .error (.ret e) → e = .incorrect ∧
        L = if optPrint opt ≥ 1 then [.wrong] else []) := by
  unfold slip_check_solution Slip.slip_check_solution
  dsimp only
  have h1 := checkMul_np A x b.m b.n (allocDense ℚ b.m b.n).x
  cases e1 : checkMul A x b.m b.n (allocDense ℚ b.m b.n).x with
  | error e =>
    rw [e1] at h1
    simp only [error_bind]
    refine ⟨[], (Says.lift _).bind_err, nofun, fun e' he => ?_⟩
    cases he
    exact absurd rfl (h1 e')
  | ok y =>
    simp only [lift_ok_bind, ok_bind]
    have h2 := checkCmp_np b y
    cases e2 : checkCmp b y with
    | error e =>
      rw [e2] at h2
      simp only [error_bind]
      refine ⟨[], (Says.lift _).bind_err, nofun, fun e' he => ?_⟩
      cases he
      exact absurd rfl (h2 e')
    | ok r =>
      simp only [lift_ok_bind, ok_bind]
      cases r with
      | true =>
        simp only [if_true]
        refine ⟨if optPrint opt ≥ 1 then [.verified] else [], ?_, fun _ => rfl, nofun⟩
        unfold pr1
        split
        · exact Says.say _
        · exact Says.pure _
      | false =>
        simp only [Bool.false_eq_true, if_false]
        refine ⟨if optPrint opt ≥ 1 then [.wrong] else [], ?_, nofun, fun e he => ?_⟩
        · unfold pr1
          split
          · exact (Says.say _).bind_ok (Says.lift _)
          · exact (Says.pure _).bind_ok (Says.lift _)
        · cases he
          exact ⟨rfl, rfl⟩

theorem luSolve_prints (A : Csc) (sA : ℚ) (b : Dense Int) (sb : ℚ) (F : Factors) (q : Arr Int) (opt : Option Options) :
    Prints opt (luSolve A sA b sb F q opt) := by
  unfold luSolve
  dsimp only
  refine Prints.lift (permute_b_np _ _) fun _ => Prints.lift (forward_np _ _ _) fun _ => Prints.lift (Np.rd _ _) fun _ =>
    Prints.lift (mul_np _ _) fun _ => Prints.lift (back_np _ _) fun _ => Prints.lift (Np.rd _ _) fun _ =>
    Prints.lift (div_np _ _) fun _ => Prints.lift (permute_x_np _ _) fun x => ?_
  by_cases hc : optCheck opt = true
  · simp only [hc, if_true]
    obtain ⟨L, h1, h2, h3⟩ := check_says A x b opt
    cases he : Slip.slip_check_solution A x b with
    | ok u =>
      rw [he] at h1
      exact Prints.last (scale_np _ _ _) h1 (by rw [h2 he]; simp [hc])
    | error e =>
      rw [he] at h1
      refine ⟨.error e, L, h1.bind_err, nofun, fun e' hE => ?_⟩
      cases hE
      exact ⟨(h3 _ he).1, hc, (h3 _ he).2⟩
  · simp only [hc]
    exact Prints.last (scale_np _ _ _) (Says.pure ()) (by simp [hc])

/-- The result of the solve with checking: some matrix passed the check, and it was then scaled. -/
theorem luSolve_checked (A : Csc) (sA : ℚ) (b : Dense Int) (sb : ℚ) (F : Factors) (q : Arr Int) :
    ∀ y, Slip.luSolve A sA b sb F q true = .ok y → ∃ x : Dense ℚ, x.m = b.m ∧ x.n = b.n ∧
      x.nzmax = max (b.m * b.n) 1 ∧ Full (max (b.m * b.n) 1).toNat x.x ∧
      Slip.slip_check_solution A x b = .ok () ∧ scaleSolution x sA sb = .ok y := by
  intro y
  have step : ∀ {α β : Type} {m : C α} {f : α → C β} {Q : α → Prop}, Np m Q → ∀ {z : β}, (m >>= f) = .ok z →
      ∃ a, Q a ∧ f a = .ok z := by
    intro α β m f Q h z e
    cases m with
    | error e' => cases e
    | ok a => exact ⟨a, h, e⟩
  unfold Slip.luSolve
  dsimp only
  intro e
  obtain ⟨b1, h1, e⟩ := step (permute_b_np _ _) e
  obtain ⟨b2, h2, e⟩ := step (forward_np _ _ _) e
  obtain ⟨_, -, e⟩ := step (Np.rd _ _) e
  obtain ⟨b3, h3, e⟩ := step (mul_np _ _) e
  obtain ⟨b4, h4, e⟩ := step (back_np _ _) e
  obtain ⟨_, -, e⟩ := step (Np.rd _ _) e
  obtain ⟨b5, h5, e⟩ := step (div_np _ _) e
  obtain ⟨x, h6, e⟩ := step (permute_x_np _ _) e
  have dm : b5.m = b.m := by rw [h5.1, h4.1, h3.1, h2.1, h1.1]
  have dn : b5.n = b.n := by rw [h5.2, h4.2, h3.2, h2.2, h1.2]
  rw [dm, dn] at h6
  simp only [if_true] at e
  cases hc : Slip.slip_check_solution A x b with
  | error e' => rw [hc] at e; cases e
  | ok u =>
    rw [hc, ok_bind] at e
    exact ⟨x, h6.1, h6.2.1, h6.2.2.1, h6.2.2.2, hc, e⟩

end Slip.Out

namespace Slip.Out

/-- Either the arguments are rejected or the system is solved. -/
theorem solve_cases (init : Bool) (x : Handle Mat) (b A L U rhos : Option Mat) (S : Option Analysis)
    (pinv : Option (Arr Int)) (opt : Option Options) :
    (∃ e, (e = .panic ∨ e = .incorrectInput) ∧ SLIP_LU_solve init x b A L U rhos S pinv opt = pure (e, x) ∧
      Slip.SLIP_LU_solve init x b A L U rhos S pinv opt = pure (e, x)) ∨
    ∃ b' A' F q, b = some b' ∧ A = some A' ∧
      SLIP_LU_solve init x b A L U rhos S pinv opt =
        solveWrap (luSolve A'.toCsc A'.scale b'.toDense b'.scale F q opt) ∧
      Slip.SLIP_LU_solve init x b A L U rhos S pinv opt =
        Slip.solveWrap (Slip.luSolve A'.toCsc A'.scale b'.toDense b'.scale F q (optCheck opt)) := by
  unfold SLIP_LU_solve Slip.SLIP_LU_solve
  by_cases h0 : (!init) = true
  · simp only [h0, if_true]
    exact Or.inl ⟨_, Or.inl rfl, rfl, rfl⟩
  simp only [if_neg h0]
  by_cases h1 : requireFails b .dense .mpz = true
  · simp only [h1, if_true]
    exact Or.inl ⟨_, Or.inr rfl, rfl, rfl⟩
  simp only [if_neg h1]
  by_cases h2 : requireFails A .csc .mpz = true
  · simp only [h2, if_true]
    exact Or.inl ⟨_, Or.inr rfl, rfl, rfl⟩
  simp only [if_neg h2]
  by_cases h3 : requireFails L .csc .mpz = true
  · simp only [h3, if_true]
    exact Or.inl ⟨_, Or.inr rfl, rfl, rfl⟩
  simp only [if_neg h3]
  by_cases h4 : requireFails U .csc .mpz = true
  · simp only [h4, if_true]
    exact Or.inl ⟨_, Or.inr rfl, rfl, rfl⟩
  simp only [if_neg h4]
  by_cases h5 : requireFails rhos .dense .mpz = true
  · simp only [h5, if_true]
    exact Or.inl ⟨_, Or.inr rfl, rfl, rfl⟩
  simp only [if_neg h5]
  rcases b with _ | b
  · exact Or.inl ⟨_, Or.inr rfl, rfl, rfl⟩
  rcases A with _ | A
  · exact Or.inl ⟨_, Or.inr rfl, rfl, rfl⟩
  rcases L with _ | L
  · exact Or.inl ⟨_, Or.inr rfl, rfl, rfl⟩
  rcases U with _ | U
  · exact Or.inl ⟨_, Or.inr rfl, rfl, rfl⟩
  rcases rhos with _ | rhos
  · exact Or.inl ⟨_, Or.inr rfl, rfl, rfl⟩
  rcases S with _ | S
  · exact Or.inl ⟨_, Or.inr rfl, rfl, rfl⟩
  rcases pinv with _ | pinv
  · exact Or.inl ⟨_, Or.inr rfl, rfl, rfl⟩
  dsimp only
  by_cases h6 : x = none ∨ L.m ≠ A.m ∨ L.n ≠ U.m ∨ U.n ≠ A.n ∨ A.n ≠ A.m ∨ A.m ≠ b.m
  · rw [if_pos h6, if_pos h6]
    exact Or.inl ⟨_, Or.inr rfl, rfl, rfl⟩
  · rw [if_neg h6, if_neg h6]
    exact Or.inr ⟨b, A, _, _, rfl, rfl, rfl, rfl⟩

/-- The output of `SLIP_LU_solve` for any arguments. -/
theorem solve_says (init : Bool) (x : Handle Mat) (b A L U rhos : Option Mat) (S : Option Analysis)
    (pinv : Option (Arr Int)) (opt : Option Options) :
    ∃ c out, Says (SLIP_LU_solve init x b A L U rhos S pinv opt) c out ∧
      (∀ h, c = .ok (.ok, h) → out = if optCheck opt = true ∧ optPrint opt ≥ 1 then [.verified] else []) ∧
      (∀ h, c = .ok (.incorrect, h) → optCheck opt = true ∧ out = if optPrint opt ≥ 1 then [.wrong] else []) ∧
      (∀ e h, c = .ok (e, h) → e ≠ .ok → e ≠ .incorrect → out = []) := by
  rcases solve_cases init x b A L U rhos S pinv opt with ⟨e, he, h, -⟩ | ⟨b', A', F, q, -, -, h, -⟩
  · rw [h]
    refine ⟨_, _, Says.pure _, fun h h' => ?_, fun h h' => ?_, fun _ _ _ _ _ => rfl⟩ <;>
      cases h' <;> rcases he with he | he <;> cases he
  · rw [h]
    obtain ⟨c, out, hs, h1, h2⟩ := luSolve_prints A'.toCsc A'.scale b'.toDense b'.scale F q opt
    refine ⟨Slip.solveWrap c, out, fun o => by unfold solveWrap; rw [hs o], ?_, ?_, ?_⟩
    · intro h he
      rcases c with (_ | _ | e) | y
      · cases he
      · cases he
      · obtain ⟨rfl, -⟩ := h2 e rfl
        cases he
      · exact h1 y rfl
    · intro h he
      rcases c with (_ | _ | e) | y
      · cases he
      · cases he
      · exact ⟨(h2 e rfl).2.1, (h2 e rfl).2.2⟩
      · cases he
    · intro e h he n1 n2
      rcases c with (_ | _ | e') | y
      · cases he
      · cases he
      · obtain ⟨rfl, -⟩ := h2 e' rfl
        cases he
        exact absurd rfl n2
      · cases he
        exact absurd rfl n1

end Slip.Out
