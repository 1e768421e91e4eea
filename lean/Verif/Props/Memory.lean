import Verif.Proof.HeapBack

/-!
# Properties C26 and C30: memory, when any request can be refused

`Owns base own st` says: memory consists of the blocks `own` (of the caller's objects), of the blocks
that the library holds for itself between calls, and of exactly the blocks in `base`. The environment of
`st` decides which requests are refused, which addresses are handed out, what the GMP functions do, and
what the values make the functions do. `M` computations end with an error if a block is freed that is not
live, if a NULL pointer is followed, or if an array is accessed out of bounds.
-/

namespace Slip.Mem

variable {base : Addr → Option ℕ} {own : Multiset Addr} {st : St}

/-- The run of `m` has no undefined behaviour and ends as `Q` says. -/
def Runs {α : Type} (m : M α) (st : St) (Q : α → St → Prop) : Prop :=
  ∃ a st', m st = .ok (a, st') ∧ Q a st'

/-- From the rules. -/
theorem Does.runs {α : Type} {m : M α} {Q : α → Multiset Addr → ℕ → Prop} (h : Does base own st.g.refused m Q)
    (hst : Owns base own st) {R : α → St → Prop}
    (hR : ∀ a st' own', Owns base own' st' → Q a own' st'.g.refused → R a st') : Runs m st R := by
  obtain ⟨a, st', own', e, h1, h2⟩ := h st hst rfl
  exact ⟨a, st', e, hR a st' own' h1 h2⟩

/-! ## C26 -/

/-- C26: `SLIP_matrix_allocate` ends without undefined behaviour for all arguments and all memory
failures.
* If the status is SLIP_OK, the arguments are valid, the new matrix is as described by `NewMatrix`
  (or `NewShallow`), its blocks have been added to memory and nothing else has, and no request was
  refused.
* Otherwise the handle is NULL and all blocks that were obtained have been freed. -/
theorem C26_allocate (hst : Owns base own st) (κ : Kind) (τ : Ty) (m n nzmax : ℤ) (shallow init : Bool) :
    Runs (matAllocate κ τ m n nzmax shallow init) st fun a st' =>
      (a.1 = .ok → 0 ≤ m ∧ 0 ≤ n ∧ κ.isBad = false ∧ τ.isBad = false ∧ st'.g.refused = st.g.refused ∧
        ∃ A, a.2 = some A ∧ Owns base (A.blocks + own) st' ∧
          (shallow = false → NewMatrix κ τ m n nzmax init A) ∧
          (shallow = true → NewShallow κ τ m n nzmax A)) ∧
      (a.1 ≠ .ok → a.2 = none ∧ Owns base own st') := by
  refine does_matAllocate.runs hst ?_
  rintro ⟨r, A⟩ st' own' hown ⟨rfl, h1, h2⟩
  refine ⟨fun hr => ?_, fun hr => ?_⟩
  · obtain ⟨h3, h4, h5, h6, h7, B, rfl, h8⟩ := h1 hr
    exact ⟨h4, h5, h6, h7, h3, B, rfl, hown, h8⟩
  · obtain rfl : A = none := h2 hr
    exact ⟨rfl, by simpa [matBlks] using hown⟩

/-- C26: with a negative dimension or a kind or type that does not exist, the status is
SLIP_INCORRECT_INPUT and nothing happens. -/
theorem C26_allocate_invalid (κ : Kind) (τ : Ty) (m n nzmax : ℤ) (shallow init : Bool)
    (h : m < 0 ∨ n < 0 ∨ κ.isBad = true ∨ τ.isBad = true) :
    matAllocate κ τ m n nzmax shallow init st = .ok ((.incorrectInput, none), st) := by
  unfold matAllocate
  rw [if_pos h]
  rfl

/-- C26: `SLIP_matrix_free` frees exactly the blocks that belong to the matrix, each once, for every
matrix whose array of values is as long as `nzmax` says, whichever components are shallow, missing, or
have been initialised. -/
theorem C26_free (A : Option HMat) (hA : matSized A) (hst : Owns base (matBlks A + own) st) :
    Runs (matFree A) st fun _ st' => Owns base own st' ∧ st'.g.refused = st.g.refused :=
  (does_matFree hA rfl).runs hst fun _ _ _ h1 h2 => by
    obtain ⟨rfl, h2⟩ := h2
    exact ⟨h1, h2⟩

theorem NewMatrix.sized {κ : Kind} {τ : Ty} {m n nzmax : ℤ} {init : Bool} {A : HMat}
    (h : NewMatrix κ τ m n nzmax init A) : A.Sized := h.mat.sized

/-- C26: allocating a matrix and freeing it leaves memory as it was, whatever is refused. -/
theorem C26_allocate_free (hst : Owns base own st) (κ : Kind) (τ : Ty) (m n nzmax : ℤ) (shallow init : Bool) :
    Runs (do
      let (_, A) ← matAllocate κ τ m n nzmax shallow init
      matFree A) st fun _ st' => Owns base own st' := by
  refine Does.runs (Q := fun _ own' _ => own' = own) (Does.bind does_matAllocate ?_) hst ?_
  · rintro ⟨r, A⟩ own' n' ⟨rfl, h1, h2⟩
    have hs : matSized A := by
      by_cases hr : r = .ok
      · obtain ⟨_, _, _, _, _, B, hB, h3, h4⟩ := h1 hr
        dsimp only at hB
        subst hB
        refine matSized_some ?_
        cases shallow with
        | false => exact (h3 rfl).sized
        | true => exact fun h => by rw [(h4 rfl).shallow.2.2.2] at h; cases h
      · rw [show A = none from h2 hr]
        exact matSized_none
    exact (does_matFree hs rfl).mono fun _ _ _ h => h.1
  · rintro _ st' own' h rfl
    exact h

/-! ## C30 -/

/-- A dense result. -/
def DenseResult (τ : Ty) (m n : ℤ) (A : HMat) : Prop := Built .dense τ m n A ∧ A.Sized

/-- C30, analyze: no block is lost or freed twice. If the status is not SLIP_OK, the handle is NULL and
everything has been freed; on success exactly the blocks of the analysis have been added. If a request is
refused, the status is not SLIP_OK - except when it is refused inside of AMD, whose status is ignored. In
that case, and in no other, the analysis cannot be used. -/
theorem C30_analyze (hst : Owns base own st) (order : ColOrder) (n : ℕ) :
    Runs (luAnalyze order n) st fun a st' =>
      (a.1 = .ok → ∃ S, a.2 = some S ∧ Owns base (anaBlks (some S) + own) st' ∧
        ((st'.g.refused = st.g.refused ∧ S.Usable n) ∨
          (order = .amd ∧ 0 < n ∧ st.g.refused < st'.g.refused ∧ S.filled = false))) ∧
      (a.1 ≠ .ok → a.2 = none ∧ Owns base own st') := by
  refine does_luAnalyze.runs hst ?_
  rintro ⟨r, S⟩ st' own' hown ⟨rfl, h1, h2⟩
  refine ⟨fun hr => ?_, fun hr => ?_⟩
  · obtain ⟨S', rfl, h4⟩ := h2 hr
    exact ⟨S', rfl, hown, h4.imp_right fun h => ⟨h.1, h.2.1, h.2.2.2, h.2.2.1⟩⟩
  · obtain rfl : S = none := h1 hr
    exact ⟨rfl, by simpa [anaBlks] using hown⟩

/-- C30, factorize, for every analysis made by `SLIP_LU_analyze` (`C30_analyze`): if a request is refused
- for the arrays, for the growth of L or U, or inside of any GMP call - the status is not SLIP_OK. Then
all four handles are NULL and everything has been freed. On success exactly the blocks of L, U, rhos and
pinv have been added. -/
theorem C30_factorize (hst : Owns base own st) (pivot : Pivot) (n : ℕ) (S : HAna) (hS : S.Usable n) :
    Runs (luFactorize pivot n S.lnz S.unz) st fun a st' =>
      (a.1 = .ok → st'.g.refused = st.g.refused ∧ ∃ L U rhos p, a.2 = (some L, some U, some rhos, some p) ∧
        (Built .csc .mpz n n L ∧ L.Sized) ∧ (Built .csc .mpz n n U ∧ U.Sized) ∧ DenseResult .mpz n 1 rhos ∧
        Owns base (L.blocks + U.blocks + rhos.blocks + {p} + own) st') ∧
      (a.1 ≠ .ok → a.2 = (none, none, none, none) ∧ Owns base own st') := by
  refine (does_luFactorize hS.lnz hS.unz).runs hst ?_
  rintro ⟨r, L, U, rhos, p⟩ st' own' hown ⟨rfl, h1, h2⟩
  dsimp only at hown h1 h2 ⊢
  refine ⟨fun hr => ?_, fun hr => ?_⟩
  · obtain ⟨⟨_, L, rfl, hL⟩, ⟨_, U, rfl, hU⟩, ⟨R, rfl, hR⟩, hp, hn⟩ := h2 hr
    obtain ⟨p, rfl⟩ := Option.isSome_iff_exists.1 hp
    exact ⟨hn, L, U, R, p, rfl, ⟨hL.1, hL.sized⟩, ⟨hU.1, hU.sized⟩, ⟨hR.1, hR.sized⟩, by
      rw [blk_some] at hown; exact hown⟩
  · cases h1 hr
    refine ⟨rfl, ?_⟩
    simpa only [matBlks_none, blk_none, zero_add] using hown

/-- The common shape of the other functions. -/
theorem Makes.runs {τ : Ty} {κ : Kind} {m n : ℤ} {P : Prop} {f : M (Info × Option HMat)}
    (h : Makes base P (Deep κ τ m n) f) (hst : Owns base own st) :
    Runs f st fun a st' =>
      (a.1 = .ok → (P → st'.g.refused = st.g.refused) ∧ ∃ A, a.2 = some A ∧ (Built κ τ m n A ∧ A.Sized) ∧
        Owns base (A.blocks + own) st') ∧
      (a.1 ≠ .ok → a.2 = none ∧ Owns base own st') := by
  refine (h own _).runs hst ?_
  rintro ⟨r, A⟩ st' own' hown ⟨rfl, h1, h2⟩
  refine ⟨fun hr => ?_, fun hr => ?_⟩
  · obtain ⟨⟨_, B, hB, h3⟩, h4⟩ := h2 hr
    dsimp only at hB
    subst hB
    exact ⟨h4, B, rfl, ⟨h3.1, h3.sized⟩, hown⟩
  · obtain rfl : A = none := h1 hr
    exact ⟨rfl, by simpa only [matBlks_none, zero_add] using hown⟩

/-- C30, solve: if a request is refused, the status is not SLIP_OK. If the status is not SLIP_OK, the handle
is NULL and everything has been freed. On success exactly the blocks of the solution have been added. -/
theorem C30_solve (hst : Owns base own st) (check : Bool) (m n : ℕ) :
    Runs (luSolve check m n) st fun a st' =>
      (a.1 = .ok → st'.g.refused = st.g.refused ∧ ∃ x, a.2 = some x ∧ DenseResult .mpq m n x ∧
        Owns base (x.blocks + own) st') ∧
      (a.1 ≠ .ok → a.2 = none ∧ Owns base own st') := by
  have h : Makes base True (Deep .dense .mpq m n) (luSolve check m n) := fun own k =>
    (makes_luSolve (P := True) own k).mono fun a own' n' ⟨h1, h2, h3⟩ =>
      ⟨h1, h2, fun hr => ⟨⟨_, (h3 hr).1⟩, (h3 hr).2⟩⟩
  obtain ⟨a, st', e, h1, h2⟩ := h.runs hst
  exact ⟨a, st', e, fun hr => ⟨(h1 hr).1 trivial, (h1 hr).2⟩, h2⟩

/-- C30, backslash: the same for the whole pipeline of analysis, factorization, solution and conversion of
the result, unless AMD is used and is refused memory. In that case, and only then, the factorization uses
an array that has not been written. -/
theorem C30_backslash (hst : Owns base own st) (order : ColOrder) (pivot : Pivot) (check : Bool) (type : Ty)
    (m n : ℕ) (h : order = .amd → ¬ AmdRefused m st) :
    Runs (backslash order pivot check type m n) st fun a st' =>
      (a.1 = .ok → st'.g.refused = st.g.refused ∧ ∃ x, a.2 = some x ∧ DenseResult type m n x ∧
        Owns base (x.blocks + own) st') ∧
      (a.1 ≠ .ok → a.2 = none ∧ Owns base own st') := by
  rcases backslash_cases (order := order) (pivot := pivot) (check := check) (type := type) (m := m) (k := n) hst with
    ⟨h1, -, h2, -⟩ | ⟨⟨r, x⟩, st', own', e, hown, rfl, h1, h2⟩
  · exact absurd h2 (h h1)
  refine ⟨_, st', e, fun hr => ?_, fun hr => ?_⟩
  · obtain ⟨⟨_, B, hB, h3⟩, h4⟩ := h2 hr
    dsimp only at hB
    subst hB
    exact ⟨h4, B, rfl, ⟨h3.1, h3.sized⟩, hown⟩
  · obtain rfl : x = none := h1 hr
    exact ⟨rfl, by simpa only [matBlks_none, zero_add] using hown⟩

/-- C30, refuted for AMD: whenever a request inside of AMD is refused, `SLIP_backslash` goes on with an
order of the columns that has not been written (undefined behaviour), for every choice of the other options
and every memory. -/
theorem C30_amd_refuted (pivot : Pivot) (check : Bool) (type : Ty) (m n : ℕ) (h : AmdRefused m st) :
    backslash .amd pivot check type m n st = .error .ub := by
  obtain ⟨S, st1, e1, hf, -⟩ := h
  rw [backslash_eq e1]
  have h4 : backFact pivot m ⟨none, none, none, none, some S, none, none⟩ st1 = .error .ub := by
    unfold backFact
    dsimp only
    rw [if_pos hf]
    rfl
  unfold backRest
  rw [if_pos rfl]
  unfold seq
  exact error_bind (error_bind h4)

/-- C30, copy: nothing leaks and nothing is freed twice, in all cases. A refused request always gives an
error status in the cases `Clean`; in the others, see `C30_copy_scale_refuted` and
`C30_copy_zeros_refuted`. (`A` is any matrix with entries only if it has rows and columns.) -/
theorem C30_copy (hst : Owns base own st) (kind : Kind) (type : Ty) (A : HMat) (h1 : kind.isBad = false)
    (h2 : A.kind.isBad = false) (hA : 0 < A.nnz → 0 < A.m * A.n) :
    Runs (matCopy kind type A) st fun a st' =>
      (a.1 = .ok → (Clean kind type A → st'.g.refused = st.g.refused) ∧ ∃ B, a.2 = some B ∧
        (Built kind type A.m A.n B ∧ B.Sized) ∧ Owns base (B.blocks + own) st') ∧
      (a.1 ≠ .ok → a.2 = none ∧ Owns base own st') :=
  (makes_matCopy h1 h2 id hA).runs hst

/-! ## A machine: the hypotheses are met, and what is not true -/

/-- A GMP which uses a temporary block in each call and gives each new number one block. -/
def envEx : Env where
  upd := fun _ _ _ => .alloc fun t => .free (some t) .done
  ini := fun _ w _ => if w = 0 then .done else .alloc fun q => .store 0 (some q) .done
  dec := fun _ => 1

theorem envEx_good : envEx.Good := by
  refine ⟨fun k x c hn => ?_, fun k w c hn => ?_⟩
  · refine ⟨Multiset.le_add_left _ _, ⟨(Multiset.nodup_add.1 hn).1, fun p hp => ?_⟩, fun q hq => ?_⟩
    · rcases Multiset.mem_add.1 hp with h | h
      · exact Or.inl (mem_blks.1 h)
      · exact Or.inr (by simpa using h)
    · refine ⟨Multiset.mem_cons_self _ _, ?_⟩
      rw [Multiset.erase_cons_head]
      have e : nulled q x = x := by
        unfold nulled
        rw [List.map_congr_left (g := id), List.map_id]
        intro f hf
        rw [if_neg]
        · rfl
        · rintro rfl
          exact hq (Multiset.mem_add.2 (Or.inl (mem_blks.2 hf)))
      rw [e]
      exact ⟨Multiset.le_add_left _ _, rfl⟩
  · show Gmp.TidyInit (if w = 0 then _ else _) w c
    split
    · subst_vars
      exact ⟨le_refl _, (zero_add _).symm⟩
    · obtain ⟨v, rfl⟩ := Nat.exists_eq_succ_of_ne_zero ‹_›
      refine ⟨le_refl _, ⟨?_, fun p hp => by simpa using hp⟩, fun q hq => ⟨?_, ?_, ?_⟩⟩
      · rw [blks_nulls]
        exact Multiset.nodup_zero
      · rintro p ⟨⟩
        exact Multiset.mem_cons_self _ _
      · exact Multiset.le_cons_self _ _
      · show q ::ₘ (c : Multiset Addr) = blks ((nulls (v + 1)).set 0 (some q)) + _
        rw [show (nulls (v + 1)).set 0 (some q) = some q :: nulls v from rfl, blks_cons_some, blks_nulls,
          add_zero, Multiset.singleton_add]

/-- A machine with one foreign block, which refuses the requests `bad`. -/
def stEx (bad : ℕ → Bool) : St where
  g := {
    live := fun a => if a = 3 then some 0 else none
    gen := 1
    tick := 0
    ask := fun t => if bad t then none else some (10 + t)
    refused := 0
    init := true
    list := none
    nlist := 0
    used := []
    ntrials := -1
    arch := false
    obj := []
    cache := [] }
  env := envEx
  calls := 0
  draws := 0

/-- The foreign block. -/
def baseStEx : Addr → Option ℕ := fun a => if a = 3 then some 0 else none

theorem stEx_owns (bad : ℕ → Bool) : Owns baseStEx 0 (stEx bad) := by
  refine ⟨⟨rfl, nofun, fun p s h => ?_⟩, envEx_good, Multiset.nodup_zero, fun p hp => ?_, fun p _ => rfl⟩
  · change (if p = 3 then some 0 else none) = some s at h
    split at h
    · cases h
      exact Nat.one_pos
    · cases h
  · exact absurd hp (Multiset.notMem_zero p)

/-- What can be seen from outside: the status, whether there is a result, the number of refused requests. -/
def seen (r : C ((Info × Option HMat) × St)) : Option (Info × Bool × ℕ) :=
  match r with
  | .ok ((r, A), st) => some (r, A.isSome, st.g.refused)
  | _ => none

theorem seen_some {c : C ((Info × Option HMat) × St)} {r : Info} {b : Bool} {k : ℕ}
    (h : seen c = some (r, b, k)) : ∃ A st', c = .ok ((r, A), st') ∧ A.isSome = b ∧ st'.g.refused = k := by
  match c, h with
  | .ok ((r', A), st'), h =>
    simp only [seen, Option.some.injEq, Prod.mk.injEq] at h
    obtain ⟨rfl, h1, h2⟩ := h
    exact ⟨A, st', rfl, h1, h2⟩

/-- A run of the whole pipeline that meets the hypotheses of `C30_backslash` and succeeds, after 185
requests for memory. -/
example : Owns baseStEx 0 (stEx fun _ => false) ∧
    seen (backslash .colamd .tolSmallest true .mpz 2 1 (stEx fun _ => false)) = some (.ok, true, 0) :=
  ⟨stEx_owns _, by decide +kernel⟩

/-- The same run when one request, in the middle of the factorization, is refused. -/
example : Owns baseStEx 0 (stEx fun t => t = 100) ∧
    seen (backslash .colamd .tolSmallest true .mpz 2 1 (stEx fun t => t = 100)) = some (.outOfMemory, false, 1) :=
  ⟨stEx_owns _, by decide +kernel⟩

/-- What the analysis returns: the status, whether the order has been written, the refused requests. -/
def seenAna (r : C ((Info × Option HAna) × St)) : Option (Info × Bool × ℕ) :=
  match r with
  | .ok ((r, some S), st) => some (r, S.filled, st.g.refused)
  | _ => none

/-- A machine on which AMD is refused the last of its five requests, and everything before and after it is
granted; and the same without a refused request, on which the whole pipeline succeeds with AMD. -/
example : Owns baseStEx 0 (stEx fun t => t = 6) ∧ AmdRefused 2 (stEx fun t => t = 6) ∧
    Owns baseStEx 0 (stEx fun _ => false) ∧ ¬ AmdRefused 2 (stEx fun _ => false) ∧
    seen (backslash .amd .tolSmallest true .mpz 2 1 (stEx fun _ => false)) = some (.ok, true, 0) := by
  refine ⟨stEx_owns _, ?_, stEx_owns _, ?_, by decide +kernel⟩
  · have h : seenAna (luAnalyze .amd 2 (stEx fun t => t = 6)) = some (.ok, false, 1) := by decide +kernel
    match e : luAnalyze .amd 2 (stEx fun t => t = 6), h with
    | .ok ((r, some S), st1), h =>
      simp only [seenAna, Option.some.injEq, Prod.mk.injEq] at h
      obtain ⟨rfl, h1, h2⟩ := h
      exact ⟨S, st1, e, h1, by rw [h2]; exact Nat.one_pos⟩
  · rintro ⟨S, st1, e, hf, -⟩
    have h : seenAna (luAnalyze .amd 2 (stEx fun _ => false)) = some (.ok, true, 0) := by decide +kernel
    rw [e] at h
    simp only [seenAna, Option.some.injEq, Prod.mk.injEq] at h
    rw [hf] at h
    cases h.2.1

/-- C26, refuted: if there is no memory for one of the arrays, the status is not SLIP_OUT_OF_MEMORY, as
documented, but SLIP_INCORRECT_INPUT although the arguments are correct. -/
theorem C26_out_of_memory_refuted :
    ∃ st st' : St, Owns baseStEx 0 st ∧ st'.g.refused = st.g.refused + 1 ∧
      matAllocate .dense .int64 2 1 0 false true st = .ok ((.incorrectInput, none), st') := by
  have h : seen (matAllocate .dense .int64 2 1 0 false true (stEx fun t => t = 4)) =
      some (.incorrectInput, false, 1) := by decide +kernel
  obtain ⟨A, st', e, h1, h2⟩ := seen_some h
  rw [Option.isSome_eq_false_iff, Option.isNone_iff_eq_none] at h1
  subst h1
  exact ⟨_, st', stEx_owns _, h2, e⟩

/-- A dense matrix with two `double` entries. -/
def denseEx : HMat where
  hdr := 1
  m := 2
  n := 1
  nzmax := 2
  nz := 0
  pn := 0
  kind := .dense
  type := .fp64
  p := none
  pShallow := true
  i := none
  iShallow := true
  j := none
  jShallow := true
  x := some 3
  xShallow := true
  xs := []
  scale := [none, none]
  sval := 1

/-- C30, refuted for `SLIP_matrix_copy` when the kind changes: a request is refused in
`SLIP_mpq_set (C->scale, Y->scale)`, whose status is ignored (SLIP_matrix_copy.c lines 127, 262, 476, 560),
and the status of the copy is SLIP_OK. -/
theorem C30_copy_scale_refuted :
    ∃ (A : HMat) (st st' : St) (B : Option HMat), Owns baseStEx 0 st ∧ A.kind = .dense ∧ A.type = .mpq ∧
      matCopy .csc .mpz A st = .ok ((.ok, B), st') ∧ st'.g.refused = st.g.refused + 1 := by
  have h : seen (matCopy .csc .mpz { denseEx with type := .mpq } (stEx fun t => t = 38)) =
      some (.ok, true, 1) := by decide +kernel
  obtain ⟨B, st', e, h1, h2⟩ := seen_some h
  exact ⟨_, _, st', B, stEx_owns _, rfl, rfl, e, h2⟩

/-- The choices for a matrix of zeros. -/
def stZero (bad : ℕ → Bool) : St := { stEx bad with env := { envEx with dec := fun _ => 0 } }

theorem stZero_owns (bad : ℕ → Bool) : Owns baseStEx 0 (stZero bad) :=
  ⟨(stEx_owns bad).1, ⟨envEx_good.upd, envEx_good.ini⟩, (stEx_owns bad).2.2⟩

/-- C30, refuted for `SLIP_matrix_copy` of a floating-point matrix whose entries are all zero to a matrix
of integers: the last call of slip_expand_double_array.c (line 111) is not checked. -/
theorem C30_copy_zeros_refuted :
    ∃ (A : HMat) (st st' : St) (B : Option HMat), Owns baseStEx 0 st ∧ A.kind = .dense ∧ A.type = .fp64 ∧
      matCopy .dense .mpz A st = .ok ((.ok, B), st') ∧ st'.g.refused = st.g.refused + 1 := by
  have h : seen (matCopy .dense .mpz denseEx (stZero fun t => t = 24)) = some (.ok, true, 1) := by
    decide +kernel
  obtain ⟨B, st', e, h1, h2⟩ := seen_some h
  exact ⟨_, _, st', B, stZero_owns _, rfl, rfl, e, h2⟩

/-- A copy for which every status is checked. -/
example : Clean .dense .mpq denseEx ∧
    seen (matCopy .dense .mpq denseEx (stEx fun _ => false)) = some (.ok, true, 0) ∧
    seen (matCopy .dense .mpq denseEx (stEx fun t => t = 7)) = some (.outOfMemory, false, 1) :=
  ⟨⟨Or.inl rfl, fun h => nomatch h.1⟩, by decide +kernel, by decide +kernel⟩

end Slip.Mem
