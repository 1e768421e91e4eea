import Verif.Proof.StoreCopy6
import Verif.Example

/-!
# C51: `SLIP_matrix_copy` makes an independent deep copy

The functions are those of `Verif/Model/StoreCopy.lean`: arrays are in a heap, matrices hold pointers, and `slip_cast_matrix`
makes an object that shares an array with the original. Nothing is assumed about which pointers of the original are equal or
which of its arrays are shallow. `A.view h` is the matrix as a value: every pointer replaced by what it points to in `h`.
-/

namespace Slip.Copy

variable {h h' : Heap}

/-! ## Specification -/

/-- The object owns its arrays: `SLIP_matrix_free` frees them. -/
def MatK.Owner (C : MatK) : Prop :=
  C.pShallow = false ∧ C.iShallow = false ∧ C.jShallow = false ∧ C.xShallow = false

/-- The array behind a pointer, if the matrix owns it (the flag `shallow` is not set). -/
def ownedArr (p : Option ℕ) (shallow : Bool) : Option ℕ := if shallow then none else p

/-- The arrays a matrix owns. -/
def MatK.owned (C : MatK) : List ℕ :=
  (ownedArr C.p C.pShallow).toList ++ (ownedArr C.i C.iShallow).toList ++ (ownedArr C.j C.jShallow).toList ++
    (ownedArr C.x C.xShallow).toList

/-- `h'` differs from `h` at most in the arrays `rs`: some of them may have been overwritten or freed. -/
def OnlyOn (h h' : Heap) (rs : List ℕ) : Prop := ∀ r, r ∉ rs → h'.a r = h.a r

/-! ## Theorems -/

/-- For all kinds, types, options and matrices, `SLIP_matrix_copy` over the heap does exactly what the function on values does
(`Verif/Model/Convert.lean`, about which the other properties are proved), and no array that existed before the call is changed or
freed, whether it succeeds or fails: the original, and everything that shares arrays with it, stays as it is. -/
theorem C51_copy_keeps (fp : Fp) (init : Bool) (Ch : Handle MatK) (kind : Kind) (type : Ty) (A : Option MatK)
    (opt : Option Options) (ok : h.Ok) (l : ∀ M ∈ A, M.Live h) :
    match SLIP_matrix_copy fp init (Ch.map (Option.map (MatK.view h))) kind type (A.map (MatK.view h)) opt,
      SLIP_matrix_copyK fp init Ch kind type A opt h with
    | .ok v, (.ok w, h') => copyView h' w = v ∧ Keeps h h'
    | .error e, (.error e', h') => e' = e ∧ Keeps h h'
    | _, _ => False := by
  have s := matrix_copy_sim fp init Ch kind type A opt ok l
  unfold Sim at s
  cases ev : SLIP_matrix_copy fp init (Ch.map (Option.map (MatK.view h))) kind type (A.map (MatK.view h)) opt with
  | ok v =>
    rw [ev] at s
    obtain ⟨w, h', e1, q1, q2⟩ := s
    rw [e1]
    refine ⟨q1, ?_⟩
    rcases q2 with ⟨c, cK, -, q⟩ | ⟨-, q⟩
    · exact q.adds.keeps
    · exact q
  | error e =>
    rw [ev] at s
    obtain ⟨h', e1, k⟩ := s
    rw [e1]
    exact ⟨rfl, k⟩

/-- If the copy succeeds, then the arrays of the new matrix are all new and pairwise different, they belong to it, and they are all
that the call has left behind: in particular it shares no array with the original, and all the workspace has been freed. -/
theorem C51_copy_new (fp : Fp) (init : Bool) (Ch : Handle MatK) (kind : Kind) (type : Ty) (A : Option MatK)
    (opt : Option Options) (ok : h.Ok) (l : ∀ M ∈ A, M.Live h) {C : MatK}
    (e : SLIP_matrix_copyK fp init Ch kind type A opt h = (.ok (.ok, some (some C)), h')) :
    Adds h h' C.refs ∧ C.Owner := by
  have s := matrix_copy_sim fp init Ch kind type A opt ok l
  unfold Sim at s
  cases ev : SLIP_matrix_copy fp init (Ch.map (Option.map (MatK.view h))) kind type (A.map (MatK.view h)) opt with
  | ok v =>
    rw [ev] at s
    obtain ⟨w, h2, e1, q1, q2⟩ := s
    rw [e] at e1
    cases e1
    rcases q2 with ⟨c, cK, e2, q⟩ | ⟨q | q, -⟩
    · cases e2
      exact ⟨q.adds, q.own⟩
    · exact absurd rfl q.1
    · cases q
  | error f =>
    rw [ev] at s
    obtain ⟨h2, e1, -⟩ := s
    rw [e] at e1
    cases e1

/-- Views only depend on the arrays of the object. -/
theorem view_congr {C : MatK} (e1 : ∀ s ∈ C.refs, h'.a s = h.a s) : C.view h' = C.view h := by
  have e2 : ∀ {p : Option ℕ}, (∀ s ∈ p, s ∈ C.refs) →
      (p.map fun r => arr accI h' (some r)) = p.map fun r => arr accI h (some r) := fun {p} hp => by
    cases p with
    | none => rfl
    | some s =>
      show some (((h'.a s).bind accI.get).getD []) = some (((h.a s).bind accI.get).getD [])
      rw [e1 s (hp s rfl)]
  have e3 : C.x.bind h'.a = C.x.bind h.a := by
    cases hx : C.x with
    | none => rfl
    | some s => exact e1 s (by unfold MatK.refs; rw [hx]; simp)
  unfold MatK.view
  rw [e2 (p := C.p), e2 (p := C.i), e2 (p := C.j), e3]
  all_goals
    intro s hs
    unfold MatK.refs
    simp only [List.mem_append, Option.mem_toList]
    tauto

/-- Whatever is done afterwards to the arrays of the original or of any other object that existed before the copy (overwritten, freed),
the copy does not change. -/
theorem C51_copy_independent (fp : Fp) (init : Bool) (Ch : Handle MatK) (kind : Kind) (type : Ty) (A : Option MatK)
    (opt : Option Options) (ok : h.Ok) (l : ∀ M ∈ A, M.Live h) {C : MatK}
    (e : SLIP_matrix_copyK fp init Ch kind type A opt h = (.ok (.ok, some (some C)), h')) {B : MatK} (lB : B.Live h)
    {g : Heap} (hg : OnlyOn h' g B.refs) : C.view g = C.view h' ∧ C.Live g := by
  obtain ⟨a, -⟩ := C51_copy_new fp init Ch kind type A opt ok l e
  have d : ∀ s ∈ C.refs, g.a s = h'.a s := fun s hs => hg s fun c => by
    have h1 := live_lt ok (lB s c)
    have h2 := (a.2.2.1 s hs).1
    omega
  exact ⟨view_congr d, fun s hs => by rw [d s hs]; exact (a.2.2.1 s hs).2.2⟩

/-- Whatever is done afterwards to the arrays of the copy, the original and every other object that existed before the copy do not
change. -/
theorem C51_original_independent (fp : Fp) (init : Bool) (Ch : Handle MatK) (kind : Kind) (type : Ty) (A : Option MatK)
    (opt : Option Options) (ok : h.Ok) (l : ∀ M ∈ A, M.Live h) {C : MatK}
    (e : SLIP_matrix_copyK fp init Ch kind type A opt h = (.ok (.ok, some (some C)), h')) {B : MatK} (lB : B.Live h)
    {g : Heap} (hg : OnlyOn h' g C.refs) : B.view g = B.view h ∧ B.Live g := by
  obtain ⟨a, -⟩ := C51_copy_new fp init Ch kind type A opt ok l e
  have d : ∀ s ∈ B.refs, g.a s = h.a s := fun s hs => by
    have h1 := live_lt ok (lB s hs)
    rw [hg s fun c => by have h2 := (a.2.2.1 s c).1; omega]
    exact a.keeps.2 s h1
  exact ⟨view_congr d, fun s hs => by rw [d s hs]; exact lB s hs⟩

/-- `SLIP_matrix_free` touches only the arrays of its argument. -/
theorem C51_free_local {B : MatK} {r : Except Fail Unit} (e : SLIP_matrix_freeK (some B) h = (r, h')) : OnlyOn h h' B.refs := by
  have f1 : ∀ {p : Option ℕ} {b : Bool} {g g' : Heap} {u : Except Fail Unit}, freeIfK p b g = (u, g') →
      ∀ s, (p ≠ some s) → g'.a s = g.a s := by
    intro p b g g' u e s hs
    unfold freeIfK at e
    by_cases c : b = true
    · rw [if_pos c] at e
      cases e
      rfl
    · rw [if_neg c] at e
      cases p with
      | none => cases e; rfl
      | some q =>
        unfold freeK at e
        by_cases d : (g.a q).isSome = true
        · simp only [if_pos d] at e
          cases e
          rw [put_a, if_neg (fun c => hs (by rw [c]))]
        · simp only [if_neg d] at e
          cases e
          rfl
  have f2 : ∀ {m : K Unit} {k : Unit → K Unit} {g g' : Heap} {u : Except Fail Unit} {s : ℕ}, (m >>= k) g = (u, g') →
      (∀ {v g1}, m g = (v, g1) → g1.a s = g.a s) → (∀ {g1 v g2}, k () g1 = (v, g2) → g2.a s = g1.a s) → g'.a s = g.a s := by
    intro m k g g' u s e h1 h2
    cases em : m g with
    | mk v g1 =>
      cases v with
      | ok a =>
        rw [bind_run em] at e
        exact (h2 e).trans (h1 em)
      | error f =>
        rw [bind_err em] at e
        cases e
        exact h1 em
  intro s hs
  unfold MatK.refs at hs
  simp only [List.mem_append, Option.mem_toList, not_or] at hs
  obtain ⟨⟨⟨hp, hi⟩, hj⟩, hx⟩ := hs
  refine f2 e (fun e => f1 e s hx) fun e => ?_
  refine f2 e (fun e => f1 e s hp) fun e => ?_
  exact f2 e (fun e => f1 e s hi) fun e => f1 e s hj

/-- Freeing the original, or any object that existed before the copy, leaves the copy as it is; freeing the copy succeeds and
leaves the heap as it was before the copy. -/
theorem C51_free (fp : Fp) (init : Bool) (Ch : Handle MatK) (kind : Kind) (type : Ty) (A : Option MatK)
    (opt : Option Options) (ok : h.Ok) (l : ∀ M ∈ A, M.Live h) {C : MatK}
    (e : SLIP_matrix_copyK fp init Ch kind type A opt h = (.ok (.ok, some (some C)), h')) :
    (∀ (B : MatK) (r : Except Fail Unit) (g : Heap), B.Live h → SLIP_matrix_freeK (some B) h' = (r, g) → C.view g = C.view h' ∧ C.Live g) ∧
    ∃ g, SLIP_matrix_freeK (some C) h' = (.ok (), g) ∧ g.a = h.a := by
  obtain ⟨a, o⟩ := C51_copy_new fp init Ch kind type A opt ok l e
  refine ⟨fun B r g lB eg => C51_copy_independent fp init Ch kind type A opt ok l e lB (C51_free_local eg), ?_⟩
  obtain ⟨g, e1, -, e3⟩ := free_mat o a.2.1 fun s hs => (a.2.2.1 s hs).2.2
  refine ⟨g, e1, funext fun s => ?_⟩
  rw [e3]
  by_cases c : s ∈ C.refs
  · rw [if_pos c]
    exact (ok s (a.2.2.1 s c).1).symm
  · rw [if_neg c, a.2.2.2 s c]

/-- `SLIP_matrix_free` of any matrix, whatever its shallow flags, frees exactly the arrays the matrix owns (they must exist and be
different): each shallow array, and everything else in the heap, is left as it is. -/
theorem C51_free_exact {B : MatK} (nd : B.owned.Nodup) (l : ∀ r ∈ B.owned, (h.a r).isSome) :
    ∃ g, SLIP_matrix_freeK (some B) h = (.ok (), g) ∧ ∀ s, g.a s = if s ∈ B.owned then none else h.a s := by
  have e : ∀ (p : Option ℕ) (b : Bool), freeIfK p b = freeIfK (ownedArr p b) false := by
    intro p b
    cases b <;> rfl
  obtain ⟨g, e1, -, e2⟩ := free_mat (h := h) (A := { B with
    p := ownedArr B.p B.pShallow, pShallow := false, i := ownedArr B.i B.iShallow, iShallow := false,
    j := ownedArr B.j B.jShallow, jShallow := false, x := ownedArr B.x B.xShallow, xShallow := false })
    ⟨rfl, rfl, rfl, rfl⟩ nd l
  refine ⟨g, ?_, e2⟩
  rw [← e1]
  unfold SLIP_matrix_freeK
  dsimp only
  rw [e B.x, e B.p, e B.i, e B.j]

/-! ## A case that meets the hypotheses -/

namespace Ex

/-- A heap with the arrays of a 2 by 2 matrix in CSC form, (3 0 ; 5 7). -/
def heap : Heap :=
  { a := fun r => match r with
      | 0 => some (.int64 [some 0, some 2, some 3])
      | 1 => some (.int64 [some 0, some 1, some 1])
      | 2 => some (.mpz [some 3, some 5, some 7])
      | _ => none
    next := 3 }

/-- The matrix; its values are shallow. -/
def A : MatK :=
  { m := 2, n := 2, nzmax := 3, nz := 0, kind := .csc, type := .mpz, p := some 0, pShallow := false, i := some 1, iShallow := false,
    j := none, jShallow := false, x := some 2, xShallow := true, scale := 1 }

theorem heap_ok : heap.Ok := fun r hr => by
  have hr : 3 ≤ r := hr
  obtain ⟨k, rfl⟩ := Nat.exists_eq_add_of_le' hr
  rfl

theorem A_live : A.Live heap := by
  show ∀ r ∈ [0, 1, 2], _
  decide

/-- The dense copy; its array is number 3. (`Y` shares array 2 with `A`.) -/
example (fp : Fp) : ∃ h', SLIP_matrix_copyK fp true (some none) .dense .mpz (some A) none heap =
    (.ok (.ok, some (some (MatK.mk 2 2 4 0 .dense .mpz none false none false none false (some 3) false 1))), h') ∧
    h'.a 3 = some (.mpz [some 3, some 5, some 0, some 7]) := ⟨_, rfl, rfl⟩

/-- The copy as `int64_t` in triplet form; `Y` is not needed. -/
example (fp : Fp) : ∃ h', SLIP_matrix_copyK fp true (some none) .triplet .int64 (some A) none heap =
    (.ok (.ok, some (some (MatK.mk 2 2 3 3 .triplet .int64 none false (some 3) false (some 4) false (some 5) false 1))), h') ∧
    h'.a 4 = some (.int64 [some 0, some 0, some 1]) := ⟨_, rfl, rfl⟩

/-- Freeing `A` frees its pointers and row indices, but not its shallow values. -/
example : ∃ g, SLIP_matrix_freeK (some A) heap = (.ok (), g) ∧ ∀ s, g.a s = if s ∈ [0, 1] then none else heap.a s :=
  C51_free_exact (B := A) (show [0, 1].Nodup by decide) (show ∀ r ∈ [0, 1], (heap.a r).isSome = true by decide)

/-- A call that fails: there is nothing to copy to. -/
example (fp : Fp) : SLIP_matrix_copyK fp true none .dense .mpz (some A) none heap = (.ok (.incorrectInput, none), heap) := rfl

end Ex

end Slip.Copy
