import Verif.Model.Session
import Verif.Proof.HeapBack

/-!
# Histories of calls
-/

namespace Slip.Mem

variable {α : Type} {base : Addr → Option ℕ} {own rest : Multiset Addr} {n : ℕ}

/-! ## Variables -/

theorem isFree_iff {l : List (Option α)} {k : ℕ} : isFree l k = true ↔ l[k]? = some none := by
  unfold isFree
  rcases l[k]? with _ | _ | a <;> simp

theorem isFree_set {l : List (Option α)} {k j : ℕ} {a : Option α} (h : isFree l k = true) (hj : j ≠ k) :
    isFree (l.set j a) k = true := by
  rw [isFree_iff] at *
  rw [List.getElem?_set_ne hj]
  exact h

theorem sum_set {f : Option α → Multiset Addr} : ∀ {l : List (Option α)} {k : ℕ} {b : Option α},
    l[k]? = some b → ∃ R, (l.map f).sum = f b + R ∧ ∀ a, ((l.set k a).map f).sum = f a + R := by
  intro l
  induction l with
  | nil => intro k b h; cases h
  | cons c l ih =>
    intro k b h
    cases k with
    | zero =>
      cases h
      exact ⟨(l.map f).sum, by simp, fun a => by simp⟩
    | succ k =>
      obtain ⟨R, h1, h2⟩ := ih (k := k) (by simpa using h)
      refine ⟨f c + R, ?_, fun a => ?_⟩
      · rw [List.map_cons, List.sum_cons, h1]; abel
      · rw [List.set_cons_succ, List.map_cons, List.sum_cons, h2]; abel

theorem sum_set_free {f : Option α → Multiset Addr} (hf : f none = 0) {l : List (Option α)} {k : ℕ}
    (h : isFree l k = true) (a : Option α) : ((l.set k a).map f).sum = f a + (l.map f).sum := by
  obtain ⟨R, h1, h2⟩ := sum_set (f := f) (isFree_iff.1 h)
  rw [h2, h1, hf, zero_add]

theorem sum_clear {f : Option α → Multiset Addr} (hf : f none = 0) (l : List (Option α)) (k : ℕ) :
    (l.map f).sum = f l[k]?.join + ((l.set k none).map f).sum := by
  cases h : l[k]? with
  | none =>
    rw [List.set_eq_of_length_le (by simpa using h)]
    simp [hf]
  | some b =>
    obtain ⟨R, h1, h2⟩ := sum_set (f := f) h
    rw [h1, h2, hf, zero_add]
    rfl

theorem sum_put {f : Option α → Multiset Addr} (hf : f none = 0) {l : List (Option α)} {k : ℕ} {b : α}
    (h : l[k]?.join = some b) (a : Option α) :
    ((l.set k a).map f).sum = f a + ((l.set k none).map f).sum := by
  cases h' : l[k]? with
  | none => rw [h'] at h; cases h
  | some b =>
    obtain ⟨R, h1, h2⟩ := sum_set (f := f) h'
    rw [h2, h2, hf, zero_add]

/-- The blocks that belong to the user's variables. -/
def Vars.blocks (v : Vars) : Multiset Addr :=
  (v.mats.map matBlks).sum + (v.anas.map anaBlks).sum + (v.ptrs.map blk).sum

/-- The user's matrices are as `SLIP_matrix_free` needs them. -/
def Vars.Sized (v : Vars) : Prop := ∀ A ∈ v.mats, matSized A

theorem Vars.Sized.mat {v : Vars} (h : v.Sized) (k : ℕ) : matSized (v.mat k) := by
  unfold Vars.mat
  cases e : v.mats[k]? with
  | none => exact matSized_none
  | some A => exact h A (List.mem_of_getElem? e)

theorem Vars.Sized.put {l : List (Option HMat)} (h : ∀ A ∈ l, matSized A) {k : ℕ} {A : Option HMat}
    (hA : matSized A) : ∀ B ∈ l.set k A, matSized B := by
  intro B hB
  rcases List.mem_or_eq_of_mem_set hB with h1 | rfl
  · exact h B h1
  · exact hA

/-- The only new analyses without an order are those made in the case `K`. -/
def OldOrders (v v' : Vars) (K : Prop) : Prop :=
  ∀ S, some S ∈ v'.anas → S.filled = false → some S ∈ v.anas ∨ K

/-- What every call does: no undefined behaviour, and afterwards the blocks in memory are those of the
user's variables. `K` is the case that this is an analysis with AMD. -/
def Fine (base : Addr → Option ℕ) (v : Vars) (K : Prop) (n : ℕ) (m : M (Reply × Vars)) : Prop :=
  Does base v.blocks n m (fun a own' _ => own' = a.2.blocks ∧ a.2.Sized ∧ OldOrders v a.2 K)

theorem OldOrders.refl {v v' : Vars} {K : Prop} (h : v'.anas = v.anas) : OldOrders v v' K :=
  fun S h1 _ => Or.inl (h ▸ h1)

theorem Fine.same {v : Vars} {K : Prop} {n : ℕ} {r : Reply} (h : v.Sized) : Fine base v K n (pure (r, v)) :=
  Does.pure ⟨rfl, h, .refl rfl⟩

theorem blocks_setMat {v : Vars} {k : ℕ} (h : isFree v.mats k = true) (A : Option HMat) :
    ({ v with mats := v.mats.set k A } : Vars).blocks = matBlks A + v.blocks := by
  unfold Vars.blocks
  rw [sum_set_free rfl h]
  abel

theorem does_matCheck {A : Option HMat} :
    Does base own n (matCheck A) (fun _ own' _ => own' = own) := by
  unfold matCheck
  cases A with
  | none => exact Does.pure rfl
  | some A =>
    dsimp only
    split
    · exact Does.pure rfl
    refine does_choose.bind ?_
    rintro c own1 n1 ⟨rfl, rfl⟩
    split
    · exact Does.pure rfl
    split
    · exact Does.pure rfl
    refine does_malloc.bind ?_
    rintro w own2 n2 ⟨rfl, -⟩
    cases w with
    | none => exact Does.pure (by rw [blk_none, zero_add])
    | some w =>
      refine does_choose.bind ?_
      rintro c own3 n3 ⟨rfl, rfl⟩
      refine (does_free rfl).bind ?_
      rintro _ own4 n4 ⟨rfl, rfl⟩
      split <;> exact Does.pure rfl

theorem fine_makes {v : Vars} {K : Prop} {k : ℕ} {f : M (Info × Option HMat)} {J : Option HMat → Prop} (hv : v.Sized)
    (hk : isFree v.mats k = true) (hf : Makes base False J f) (hJ : ∀ o, J o → matSized o) :
    Fine base v K n (do
      let (r, A) ← f
      pure (.info r, { v with mats := v.mats.set k A })) := by
  refine (hf _ _).bind ?_
  rintro ⟨r, A⟩ own' n' ⟨rfl, h1, h2⟩
  refine Does.pure ⟨(blocks_setMat hk A).symm, Vars.Sized.put hv ?_, .refl rfl⟩
  by_cases hr : r = .ok
  · exact hJ _ (h2 hr).1
  · rw [show A = none from h1 hr]
    exact matSized_none

theorem NewShallow.sized {κ : Kind} {τ : Ty} {m n nzmax : ℤ} {A : HMat} (h : NewShallow κ τ m n nzmax A) :
    A.Sized := fun h' => by rw [h.shallow.2.2.2] at h'; cases h'

theorem does_onScale {A : HMat} :
    Does base (A.blocks + rest) n (onScale call A) (fun a own' _ => own' = a.2.blocks + rest ∧
      (A.Sized → a.2.Sized)) := by
  have h : Tri base HMat.blocks False (fun B => B.Sized ∨ ¬ A.Sized) (fun B => B.Sized ∨ ¬ A.Sized)
      (fun _ => True) (onScale call) :=
    Tri.on (ca := blks) (Ia := fun _ => True) [] blocks_scale (fun _ => rfl) Tri.call'
      (fun _ _ => trivial) (fun B x hB _ => hB) (fun _ _ _ _ _ => trivial)
  refine (h A rest n (Classical.em _)).mono ?_
  rintro ⟨r, B⟩ own' n' ⟨e, h1, -⟩
  exact ⟨e, fun hA => h1.resolve_right (not_not.2 hA)⟩

theorem does_entrySet {A : HMat} {i : ℕ} (h1 : A.xShallow = false) (h2 : A.x.isSome) (h3 : i < A.xs.length)
    (h4 : A.Sized) :
    Does base (A.blocks + rest) n (entry i call A) (fun a own' _ => own' = a.2.blocks + rest ∧ a.2.Sized) := by
  have h : Tri base HMat.blocks False
      (fun B => B.x.isSome ∧ B.xShallow = false ∧ i < B.xs.length ∧ B.Sized)
      HMat.Sized (fun _ => True) (entry i call) := by
    refine Tri.entry (Ia := fun _ => True) Tri.call' ?_ ?_ ?_
    · rintro B ⟨g1, g2, g3, -⟩
      exact ⟨g1, g2, B.xs[i], List.getElem?_eq_getElem g3, trivial⟩
    · rintro B o ⟨-, -, -, g4⟩ hs
      have := g4 hs
      dsimp only at *
      rw [List.length_set]
      exact this
    · exact fun _ _ _ => trivial
  refine (h A rest n ⟨h2, h1, h3, h4⟩).mono ?_
  rintro ⟨r, B⟩ own' n' ⟨e, h1, -⟩
  exact ⟨e, h1⟩

theorem fine_put {v : Vars} {K : Prop} {a : ℕ} {A : HMat} (hv : v.Sized) (hA : v.mat a = some A)
    {f : M (Info × HMat)} (hf : ∀ rest, Does base (A.blocks + rest) n f
      (fun a own' _ => own' = a.2.blocks + rest ∧ a.2.Sized)) :
    Fine base v K n (do
      let (r, A) ← f
      pure (.info r, { v with mats := v.mats.set a (some A) })) := by
  have e : v.blocks = A.blocks + (((v.mats.set a none).map matBlks).sum + (v.anas.map anaBlks).sum +
      (v.ptrs.map blk).sum) := by
    unfold Vars.blocks
    rw [sum_clear (f := matBlks) rfl v.mats a, show v.mats[a]?.join = some A from hA]
    show A.blocks + _ + _ + _ = _
    abel
  unfold Fine
  rw [e]
  refine (hf _).bind ?_
  rintro ⟨r, B⟩ own' n' ⟨rfl, h1⟩
  refine Does.pure ⟨?_, Vars.Sized.put hv (matSized_some h1), .refl rfl⟩
  unfold Vars.blocks
  dsimp only
  rw [sum_put (f := matBlks) rfl hA (some B)]
  show _ = B.blocks + _ + _ + _
  abel

/-- All calls but `SLIP_backslash`, and `SLIP_LU_factorize` if the order is there. -/
theorem fine_body (c : Call) {v : Vars} (hv : v.Sized)
    (hf : ∀ l u r p a s pivot, c = .factorize l u r p a s pivot → ∀ S, v.ana s = some S → S.filled ≠ false)
    (hb : ∀ x type a b order pivot check, c ≠ .backslash x type a b order pivot check) :
    Fine base v (∃ s a, c = .analyze s a .amd) n (body c v) := by
  cases c with
  | initialise | expert _ | finalize => exact Fine.same hv
  | allocate k kind type m n' nzmax shallow init =>
    unfold body
    dsimp only
    split
    · rename_i hk
      refine does_matAllocate.bind ?_
      rintro ⟨r, A⟩ own' n' ⟨rfl, h1, h2⟩
      refine Does.pure ⟨(blocks_setMat hk A).symm, Vars.Sized.put hv ?_, .refl rfl⟩
      by_cases hr : r = .ok
      · obtain ⟨_, _, _, _, _, B, hB, h3, h4⟩ := h1 hr
        rw [show A = some B from hB]
        refine matSized_some ?_
        cases shallow with
        | false => exact (h3 rfl).mat.sized
        | true => exact (h4 rfl).sized
      · rw [show A = none from h2 hr]
        exact matSized_none
    · exact Fine.same hv
  | free k =>
    unfold body
    dsimp only
    refine (does_matFree (hv.mat k) (rest := ({ v with mats := v.mats.set k none } : Vars).blocks) ?_).bind ?_
    · unfold Vars.blocks
      rw [sum_clear (f := matBlks) rfl v.mats k]
      show matBlks (v.mat k) + _ + _ + _ = _
      abel
    · rintro _ own' n' ⟨rfl, rfl⟩
      exact Does.pure ⟨rfl, Vars.Sized.put hv matSized_none, .refl rfl⟩
  | copy k kind type a =>
    unfold body
    dsimp only
    split
    · rename_i hk
      split
      · exact Fine.same hv
      rename_i A hA
      split
      · exact Fine.same hv
      rename_i hb
      simp only [not_or, Bool.not_eq_true, not_lt] at hb
      split
      · exact Fine.same hv
      rename_i hd
      have h2 : A.kind.isBad = false := by
        by_contra h
        unfold HMat.nnz at hb
        cases e : A.kind <;> rw [e] at hb h <;> simp [Kind.isBad] at hb h
      exact fine_makes hv hk (makes_matCopy hb.2.2.1 h2 nofun fun h => by
        by_contra h'
        exact hd ⟨h, not_lt.1 h'⟩) fun o h => h.sized
    · exact Fine.same hv
  | nnz a => exact Fine.same hv
  | check a =>
    unfold body
    refine does_matCheck.bind ?_
    rintro r own' n' rfl
    exact Does.pure ⟨rfl, hv, .refl rfl⟩
  | analyze s a order =>
    unfold body
    dsimp only
    split
    · rename_i hk
      split
      · exact Fine.same hv
      split
      · exact Fine.same hv
      refine does_luAnalyze.bind ?_
      rintro ⟨r, S⟩ own' n' ⟨rfl, h1, h2⟩
      refine Does.pure ⟨?_, hv, fun S' hS' hf' => ?_⟩
      · unfold Vars.blocks
        dsimp only
        rw [sum_set_free (f := anaBlks) rfl hk]
        abel
      · rcases List.mem_or_eq_of_mem_set hS' with h | h
        · exact Or.inl h
        · by_cases hr : r = .ok
          · obtain ⟨S2, h3, h4 | h4⟩ := h2 hr
            · dsimp only at h3
              rw [h3, Option.some.injEq] at h
              rw [h, h4.2.filled] at hf'
              cases hf'
            · exact Or.inr ⟨s, a, by rw [h4.1]⟩
          · rw [show S = none from h1 hr] at h
            cases h
    · exact Fine.same hv
  | anaFree s =>
    unfold body
    dsimp only
    refine (does_anaFree (rest := ({ v with anas := v.anas.set s none } : Vars).blocks) ?_).bind ?_
    · unfold Vars.blocks
      rw [sum_clear (f := anaBlks) rfl v.anas s]
      show _ + (anaBlks (v.ana s) + _) + _ = _
      abel
    · rintro _ own' n' ⟨rfl, rfl⟩
      refine Does.pure ⟨rfl, hv, fun S' hS' _ => ?_⟩
      rcases List.mem_or_eq_of_mem_set hS' with h | h
      · exact Or.inl h
      · cases h
  | factorize l u r p a s pivot =>
    unfold body
    dsimp only
    split
    · rename_i hk
      simp only [Bool.and_eq_true, decide_eq_true_eq] at hk
      obtain ⟨⟨⟨⟨⟨⟨k1, k2⟩, k3⟩, k4⟩, k5⟩, k6⟩, k7⟩ := hk
      split
      · rename_i A S hA hSv
        split
        · exact Fine.same hv
        rw [if_neg (hf _ _ _ _ _ _ _ rfl S hSv)]
        split
        · exact Fine.same hv
        rename_i _ hS
        simp only [not_or, not_and, not_lt] at hS
        refine (does_luFactorize (fun h => (hS.2 h).1) (fun h => (hS.2 h).2)).bind ?_
        rintro ⟨i, L, U, rhos, pinv⟩ own' n' ⟨rfl, h1, h2⟩
        refine Does.pure ⟨?_, ?_, .refl rfl⟩
        · unfold Vars.blocks
          dsimp only
          rw [sum_set_free (f := matBlks) rfl (isFree_set (isFree_set k3 k7) k6),
            sum_set_free (f := matBlks) rfl (isFree_set k2 k5), sum_set_free (f := matBlks) rfl k1,
            sum_set_free (f := blk) rfl k4]
          abel
        · have : matSized L ∧ matSized U ∧ matSized rhos := by
            by_cases hr : i = .ok
            · obtain ⟨⟨_, g1⟩, ⟨_, g2⟩, g3, _⟩ := h2 hr
              exact ⟨g1.sized, g2.sized, g3.sized⟩
            · cases h1 hr
              exact ⟨matSized_none, matSized_none, matSized_none⟩
          exact Vars.Sized.put (Vars.Sized.put (Vars.Sized.put hv this.1) this.2.1) this.2.2
      · exact Fine.same hv
    · exact Fine.same hv
  | solve x b a l u r s p check =>
    unfold body
    dsimp only
    split
    · rename_i hk
      split
      · exact Fine.same hv
      split
      · split
        · exact Fine.same hv
        split
        · exact Fine.same hv
        exact fine_makes hv hk makes_luSolve fun o h => h.sized
      · exact Fine.same hv
    · exact Fine.same hv
  | backslash x type a b order pivot check => exact absurd rfl (hb _ _ _ _ _ _ _)
  | malloc k =>
    unfold body
    dsimp only
    split
    · rename_i hk
      refine does_malloc.bind ?_
      rintro p own' n' ⟨rfl, -⟩
      refine Does.pure ⟨?_, hv, .refl rfl⟩
      unfold Vars.blocks
      dsimp only
      rw [sum_set_free (f := blk) rfl hk]
      abel
    · exact Fine.same hv
  | freePtr k =>
    unfold body
    dsimp only
    refine (does_free (rest := ({ v with ptrs := v.ptrs.set k none } : Vars).blocks) ?_).bind ?_
    · unfold Vars.blocks
      rw [sum_clear (f := blk) rfl v.ptrs k]
      show _ + _ + (blk (v.ptr k) + _) = _
      abel
    · rintro _ own' n' ⟨rfl, rfl⟩
      exact Does.pure ⟨rfl, hv, .refl rfl⟩
  | set a i =>
    unfold body
    dsimp only
    split
    · exact Fine.same hv
    rename_i A hA
    split
    · rename_i h
      exact fine_put hv hA fun rest => does_entrySet h.1 h.2.1 h.2.2 (hv.mat a A hA)
    · exact Fine.same hv
  | setScale a =>
    unfold body
    dsimp only
    split
    · exact Fine.same hv
    rename_i A hA
    exact fine_put hv hA fun rest => does_onScale.mono fun _ _ _ h => ⟨h.1, h.2 (hv.mat a A hA)⟩
  | fill a pn nz =>
    unfold body
    dsimp only
    split
    · exact Fine.same hv
    rename_i A hA
    refine Does.pure ⟨?_, Vars.Sized.put hv (matSized_some (hv.mat a A hA)), .refl rfl⟩
    unfold Vars.blocks
    dsimp only
    rw [sum_put (f := matBlks) rfl hA (some _), sum_clear (f := matBlks) rfl v.mats a,
      show v.mats[a]?.join = some A from hA]
    rfl

/-- `SLIP_backslash` in one memory: as it should be, or AMD was refused memory. -/
theorem body_backslash {x : ℕ} {type : Ty} {a b : ℕ} {order : ColOrder} {pivot : Pivot} {check : Bool} {v : Vars}
    {st : St} (hv : v.Sized) (hst : Owns base v.blocks st) :
    (order = .amd ∧ (∃ A, v.mat a = some A ∧ AmdRefused A.m.toNat st) ∧
      body (.backslash x type a b order pivot check) v st = .error .ub) ∨
    ∃ r st' own', body (.backslash x type a b order pivot check) v st = .ok (r, st') ∧ Owns base own' st' ∧
      own' = r.2.blocks ∧ r.2.Sized ∧ r.2.anas = v.anas := by
  have hsame : ∀ r : Reply, ∃ r' st' own', (pure (r, v) : M (Reply × Vars)) st = .ok (r', st') ∧
      Owns base own' st' ∧ own' = r'.2.blocks ∧ r'.2.Sized ∧ r'.2.anas = v.anas :=
    fun r => ⟨_, st, _, rfl, hst, rfl, hv, rfl⟩
  unfold body
  dsimp only
  split
  · rename_i hk
    split
    · exact Or.inr (hsame _)
    split
    · exact Or.inr (hsame _)
    cases hA : v.mat a with
    | none => exact Or.inr (hsame _)
    | some A => cases hB : v.mat b with
    | none => exact Or.inr (hsame _)
    | some B =>
      dsimp only
      split
      · exact Or.inr (hsame _)
      rename_i hd
      simp only [not_or, not_not] at hd
      split
      · exact Or.inr (hsame _)
      rcases backslash_cases (order := order) (pivot := pivot) (check := check) (type := type) (m := B.m.toNat)
        (k := B.n.toNat) hst with ⟨h1, -, h2, h3⟩ | ⟨⟨r, X⟩, st', own', e, hown, rfl, h1, h2⟩
      · refine Or.inl ⟨h1, ⟨A, rfl, ?_⟩, error_bind h3⟩
        rw [hd.2.1]
        exact h2
      · refine Or.inr ⟨_, st', _, (run_bind e).trans rfl, hown, (blocks_setMat hk X).symm, Vars.Sized.put hv ?_, rfl⟩
        by_cases hr : r = .ok
        · exact (h2 hr).1.sized
        · rw [show X = none from h1 hr]
          exact matSized_none
  · exact Or.inr (hsame _)

/-! ## Finalisation -/

theorem gmpFree_frame {g : G} {p : Addr} (hi : g.init = true) (hp : (g.live p).isSome) :
    ∃ g', slip_gmp_free (some p) g = .ok () g' ∧ g'.live = Function.update g.live p none ∧
      g'.init = true ∧ g'.list = g.list ∧ g'.gen = g.gen := by
  have gen : ∀ g1 : G, g1.live = g.live → g1.init = g.init → g1.list = g.list → g1.gen = g.gen →
      ∃ g', safeFree (some p) g1 = .ok () g' ∧ g'.live = Function.update g.live p none ∧
      g'.init = true ∧ g'.list = g.list ∧ g'.gen = g.gen := by
    intro g1 e1 e2 e3 e4
    unfold safeFree
    dsimp only
    have hu : ∀ g2 : G, g2 = unarchive p g1 → g2.live = g.live ∧ g2.init = g.init ∧ g2.list = g.list ∧
        g2.gen = g.gen := by
      rintro g2 rfl
      unfold unarchive
      split <;> exact ⟨e1, e2, e3, e4⟩
    obtain ⟨f1, f2, f3, f4⟩ := hu _ rfl
    rw [slipFree_some (by rw [f2, hi]) (by rw [f1]; exact hp)]
    exact ⟨_, rfl, by rw [f1], by rw [f2, hi], f3, f4⟩
  unfold slip_gmp_free
  cases hl : g.list with
  | none =>
    have := gen g rfl rfl rfl rfl
    rw [hl] at this
    exact this
  | some l =>
    have := gen { g with used := removeFirst p g.used, list := some l } rfl rfl hl.symm rfl
    rw [hl] at this
    exact this

/-- Every live block has been handed out. -/
def Serial (g : G) : Prop := ∀ p s, g.live p = some s → s < g.gen

theorem freeCache_frame : ∀ {c : List Addr} {g : G}, g.init = true → Serial g →
    Acc base ((c : Multiset Addr) + rest) g →
    ∃ g', freeCache c g = .ok () g' ∧ g'.init = true ∧ Serial g' ∧ Acc base rest g' ∧ g'.cache = [] ∧
      g'.list = g.list := by
  intro c
  induction c with
  | nil =>
    intro g hi hs hA
    exact ⟨_, rfl, hi, hs, by simpa using hA.congr (g' := { g with cache := [] }) rfl, rfl, rfl⟩
  | cons p c ih =>
    intro g hi hs hA
    have e : ((p :: c : List Addr) : Multiset Addr) + rest = p ::ₘ ((c : Multiset Addr) + rest) := by
      rw [← Multiset.cons_coe, Multiset.cons_add]
    rw [e] at hA
    have hm : p ∈ p ::ₘ ((c : Multiset Addr) + rest) := Multiset.mem_cons_self _ _
    obtain ⟨g1, h1, h2, h3, h4, h5⟩ := gmpFree_frame hi (hA.live hm)
    have hA1 := hA.free hm h2
    rw [Multiset.erase_cons_head] at hA1
    have hs1 : Serial g1 := by
      unfold Serial
      rw [h2, h5]
      exact gen_none hs
    obtain ⟨g2, k1, k2, k3, k4, k5, k6⟩ := ih h3 hs1 hA1
    refine ⟨g2, ?_, k2, k3, k4, k5, k6.trans h4⟩
    show (slip_gmp_free (some p) g).bind _ = _
    rw [h1]
    exact k1

theorem finalize_frame {g : G} (hi : g.init = true) (hs : Serial g) (hA : Acc base (own + sys g) g) :
    ∃ g', SLIP_finalize g = .ok .ok g' ∧ g'.init = false ∧ Serial g' ∧ Acc base own g' ∧ g'.cache = [] ∧
      g'.list = none := by
  unfold SLIP_finalize SLIP_mpfr_free_cache
  rw [if_neg (by simp [hi])]
  have e : own + sys g = ((g.cache : List Addr) : Multiset Addr) + (own + blk g.list) := by
    unfold sys; abel
  rw [e] at hA
  obtain ⟨g1, h1, h2, h3, h4, h5, h6⟩ := freeCache_frame (g := { g with arch := false, obj := [], used := [] })
    (c := g.cache) hi hs (hA.congr rfl)
  rw [h1]
  dsimp only [Out.bind]
  unfold slip_gmp_finalize
  dsimp only at h6 ⊢
  rw [h6]
  cases hl : g.list with
  | none =>
    rw [slipFree_none]
    rw [hl, blk_none, add_zero] at h4
    exact ⟨_, rfl, rfl, h3, h4.congr rfl, h5, rfl⟩
  | some l =>
    rw [hl, blk_some, add_comm, Multiset.singleton_add] at h4
    have hm : l ∈ l ::ₘ own := Multiset.mem_cons_self _ _
    rw [slipFree_some (g := { g1 with list := some l, nlist := 0, used := [], arch := false, obj := [] }) h2
      (h4.live hm)]
    refine ⟨_, rfl, rfl, ?_, ?_, h5, rfl⟩
    · exact gen_none h3
    · have := h4.free (g' := { g1 with live := Function.update g1.live l none }) hm rfl
      rw [Multiset.erase_cons_head] at this
      exact this.congr rfl

end Slip.Mem
