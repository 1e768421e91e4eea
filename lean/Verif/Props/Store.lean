import Verif.Proof.StoreBack
import Verif.Example

/-!
# C49: inputs are not modified, shared arrays are harmless, outputs are new objects

The functions of this file work on a heap of arrays, and matrices hold references (`Verif/Model/Store.lean`,
`Verif/Model/StoreApi.lean`). Nothing is assumed about which references are equal: any two arrays of the
inputs may be the same one. `Agrees h view run m`: after the call every array that existed before has the
contents it had (also when the call fails), and the result is, up to references, what the function on values
(`Verif/Model/Api.lean`, about which the other properties are proved) gives.
-/

namespace Slip.Store

variable {h : Heap}

/-! ## Specification -/

/-- The output handles of `SLIP_LU_factorize` hold four objects, whose arrays have all been allocated by the
call and are pairwise different. -/
structure NewFactors (h h' : Heap) (f : FactOutH) (L U rhos : MatH) (pinv : Ref) : Prop where
  hL : f.L = some (some L)
  hU : f.U = some (some U)
  hrhos : f.rhos = some (some rhos)
  hpinv : f.pinv = some (some pinv)
  fresh : Fresh h h' (L.refs ++ U.refs ++ rhos.refs ++ [pinv])
  noq : L.refsq ++ U.refsq ++ rhos.refsq = []

/-- The arrays that `SLIP_matrix_free` may release. -/
def MatH.owned (A : MatH) : List Ref :=
  (if A.pShallow then [] else A.p.toList) ++ (if A.iShallow then [] else A.i.toList) ++
    (if A.jShallow then [] else A.j.toList) ++
    (if A.xShallow then [] else match A.x with | some (.mpz r) => [r] | some (.int64 r) => [r] | _ => [])

/-- The arrays of rationals that `SLIP_matrix_free` may release. -/
def MatH.ownedq (A : MatH) : List Ref :=
  if A.xShallow then [] else match A.x with | some (.mpq r) => [r] | _ => []

/-- A program that solves with the same factors for a list of right-hand sides, and keeps all solutions. -/
def solveSeqH (init : Bool) (A L U rhos : Option MatH) (S : Option AnalysisH) (pinv : Option Ref)
    (opt : Option Options) : List (Option MatH) → H (List (Info × Handle MatH))
  | [] => pure []
  | b :: bs => do
    let r ← SLIP_LU_solveH init (some none) b A L U rhos S pinv opt
    let rs ← solveSeqH init A L U rhos S pinv opt bs
    pure (r :: rs)

/-- The same program on values. -/
def solveSeq (init : Bool) (A L U rhos : Option Mat) (S : Option Analysis) (pinv : Option (Arr Int))
    (opt : Option Options) : List (Option Mat) → C (List (Info × Handle Mat))
  | [] => pure []
  | b :: bs => do
    let r ← SLIP_LU_solve init (some none) b A L U rhos S pinv opt
    let rs ← solveSeq init A L U rhos S pinv opt bs
    pure (r :: rs)

/-! ## Theorems -/

/-- `SLIP_LU_analyze`. -/
theorem C49_analyze (O : Orderings) (init : Bool) (S : Handle AnalysisH) {A : Option MatH}
    (opt : Option Options) (hO : h.Ok) (hA : ∀ a ∈ A, a.In h) :
    Agrees h anaView (SLIP_LU_analyzeH O init S A opt h)
      (SLIP_LU_analyze O init (S.map (Option.map (AnalysisH.view h))) (A.map (MatH.view h)) opt) :=
  analyzeH_agrees O init S opt hO hA

/-- The array of the analysis is new. -/
theorem C49_analyze_new (O : Orderings) (init : Bool) (S S' : Handle AnalysisH) {A : Option MatH}
    (opt : Option Options) (hO : h.Ok) (hA : ∀ a ∈ A, a.In h) {h' : Heap}
    (hr : SLIP_LU_analyzeH O init S A opt h = (.ok (.ok, S'), h')) :
    ∃ s, S' = some (some s) ∧ Fresh h h' [s.q] := by
  have := analyzeH_fresh O init S S' opt hO hA (by rw [hr])
  rwa [hr] at this

/-- `SLIP_LU_factorize`. -/
theorem C49_factorize (nc : Int → Int → ℚ → Bool) (init : Bool) (L U rhos : Handle MatH)
    (pinv : Handle Ref) {A : Option MatH} {S : Option AnalysisH} (opt : Option Options) (hO : h.Ok)
    (hA : ∀ a ∈ A, a.In h) (hS : ∀ s ∈ S, s.q < h.nz) :
    Agrees h FactOutH.view (SLIP_LU_factorizeH nc init L U rhos pinv A S opt h)
      (SLIP_LU_factorize nc init (L.map (Option.map (MatH.view h))) (U.map (Option.map (MatH.view h)))
        (rhos.map (Option.map (MatH.view h))) (pinv.map (Option.map h.z)) (A.map (MatH.view h))
        (S.map (AnalysisH.view h)) opt) :=
  factorizeH_agrees nc init L U rhos pinv opt hO hA hS

/-- The arrays of `L`, `U`, `rhos` and `pinv` are new and pairwise different: no factor shares an array with an
input or with another factor. -/
theorem C49_factorize_new (nc : Int → Int → ℚ → Bool) (init : Bool) (L U rhos : Handle MatH)
    (pinv : Handle Ref) {A : Option MatH} {S : Option AnalysisH} (opt : Option Options) (hO : h.Ok)
    (hA : ∀ a ∈ A, a.In h) (hS : ∀ s ∈ S, s.q < h.nz) {f : FactOutH} {h' : Heap}
    (hr : SLIP_LU_factorizeH nc init L U rhos pinv A S opt h = (.ok f, h')) (hi : f.info = .ok)
    (hL : f.L ≠ some none) : ∃ L U R p, NewFactors h h' f L U R p := by
  rcases factorizeH_out nc init L U rhos pinv opt hO hA hS hr with h | h | ⟨L, U, R, p, ⟨a, b, c, d⟩, e, g⟩
  · exact absurd hi h.1
  · exact absurd h.1 hL
  · exact ⟨L, U, R, p, a, b, c, d, e, g⟩

/-- `SLIP_LU_solve`. -/
theorem C49_solve (init : Bool) (x : Handle MatH) {b A L U rhos : Option MatH}
    {S : Option AnalysisH} {pinv : Option Ref} (opt : Option Options) (hO : h.Ok)
    (hb : ∀ a ∈ b, a.In h) (hA : ∀ a ∈ A, a.In h) (hL : ∀ a ∈ L, a.In h) (hU : ∀ a ∈ U, a.In h)
    (hr : ∀ a ∈ rhos, a.In h) (hS : ∀ s ∈ S, s.q < h.nz) (hp : ∀ r ∈ pinv, r < h.nz) :
    Agrees h solView (SLIP_LU_solveH init x b A L U rhos S pinv opt h)
      (SLIP_LU_solve init (x.map (Option.map (MatH.view h))) (b.map (MatH.view h)) (A.map (MatH.view h))
        (L.map (MatH.view h)) (U.map (MatH.view h)) (rhos.map (MatH.view h)) (S.map (AnalysisH.view h))
        (pinv.map h.z) opt) :=
  solveH_agrees init x opt hO hb hA hL hU hr hS hp

/-- The array of the solution is new. -/
theorem C49_solve_new (init : Bool) (x : Handle MatH) {b A L U rhos : Option MatH}
    {S : Option AnalysisH} {pinv : Option Ref} (opt : Option Options) (hO : h.Ok)
    (hb : ∀ a ∈ b, a.In h) (hA : ∀ a ∈ A, a.In h) (hL : ∀ a ∈ L, a.In h) (hU : ∀ a ∈ U, a.In h)
    (hr : ∀ a ∈ rhos, a.In h) (hS : ∀ s ∈ S, s.q < h.nz) (hp : ∀ r ∈ pinv, r < h.nz)
    {y : MatH} {h' : Heap}
    (he : SLIP_LU_solveH init x b A L U rhos S pinv opt h = (.ok (.ok, some (some y)), h')) :
    y.refs = [] ∧ ∃ r, y.refsq = [r] ∧ h.nq ≤ r ∧ r < h'.nq := by
  rcases solveH_out init x opt hO hb hA hL hU hr hS hp he with h | h | ⟨y, r, e, a, b, c, d⟩
  · exact absurd rfl h.1
  · cases h
  · cases e
    exact ⟨a, r, b, c, d⟩

/-- `SLIP_backslash`. All the objects it releases are its own. -/
theorem C49_backslash (fp : Fp) (O : Orderings) (nc : Int → Int → ℚ → Bool) (init : Bool)
    (X : Handle XOut) (type : Ty) {A b : Option MatH} (opt : Option Options) (hO : h.Ok)
    (hA : ∀ a ∈ A, a.In h) (hb : ∀ a ∈ b, a.In h) :
    Agrees h backView (SLIP_backslashH fp O nc init X type A b opt h)
      (SLIP_backslash fp O nc init (X.map (Option.map (XOut.view h))) type (A.map (MatH.view h))
        (b.map (MatH.view h)) opt) :=
  backslashH_agrees fp O nc init X type opt hO hA hb

/-- Sharing is not observable: inputs that are stored in different heaps, with different sharing, and have the
same contents give the same solution. -/
theorem C49_backslash_sharing (fp : Fp) (O : Orderings) (nc : Int → Int → ℚ → Bool) (init : Bool)
    (type : Ty) {h h' : Heap} {A b A' b' : MatH} (opt : Option Options) (hO : h.Ok)
    (hO' : h'.Ok) (hA : A.In h) (hb : b.In h) (hA' : A'.In h') (hb' : b'.In h')
    (eA : A.view h = A'.view h') (eb : b.view h = b'.view h') :
    (SLIP_backslashH fp O nc init (some none) type (some A) (some b) opt h).1.map
        (backView (SLIP_backslashH fp O nc init (some none) type (some A) (some b) opt h).2) =
      (SLIP_backslashH fp O nc init (some none) type (some A') (some b') opt h').1.map
        (backView (SLIP_backslashH fp O nc init (some none) type (some A') (some b') opt h').2) := by
  rw [(C49_backslash fp O nc init (some none) type opt hO (fun a ha => by cases ha; exact hA)
      fun a ha => by cases ha; exact hb).2,
    (C49_backslash fp O nc init (some none) type opt hO' (fun a ha => by cases ha; exact hA')
      fun a ha => by cases ha; exact hb').2]
  simp only [Option.map_some, Option.map_none, eA, eb]

/-- Any number of solves with the same factors: each solution is what it would be if it were the only one,
the factors keep their contents, and no solution is changed by a later solve. -/
theorem C49_solve_sequence (init : Bool) {A L U rhos : Option MatH}
    {S : Option AnalysisH} {pinv : Option Ref} (opt : Option Options)
    (bs : List (Option MatH)) (hO : h.Ok)
    (hb : ∀ b ∈ bs, ∀ a ∈ b, a.In h) (hA : ∀ a ∈ A, a.In h) (hL : ∀ a ∈ L, a.In h)
    (hU : ∀ a ∈ U, a.In h) (hr : ∀ a ∈ rhos, a.In h) (hS : ∀ s ∈ S, s.q < h.nz)
    (hp : ∀ r ∈ pinv, r < h.nz) :
    Agrees h (fun h' => List.map (solView h')) (solveSeqH init A L U rhos S pinv opt bs h)
      (solveSeq init (A.map (MatH.view h)) (L.map (MatH.view h)) (U.map (MatH.view h))
        (rhos.map (MatH.view h)) (S.map (AnalysisH.view h)) (pinv.map h.z) opt
        (bs.map (Option.map (MatH.view h)))) := by
  induction bs generalizing h with
  | nil => exact Agrees.pure rfl
  | cons b bs ih =>
    have hb0 := hb b (List.mem_cons_self ..)
    have ob : ∀ {M : Option MatH} {h' : Heap}, (∀ a ∈ M, a.In h) → Frame h h' →
        M.map (MatH.view h) = M.map (MatH.view h') := by
      intro M h' hM F
      cases M with
      | none => rfl
      | some M => exact congrArg some (view_frame F (hM M rfl)).symm
    refine Agrees.bind (solveH_agrees init (some none) opt hO hb0 hA hL hU hr hS hp) fun r h1 e1 F1 => ?_
    have eS : S.map (AnalysisH.view h) = S.map (AnalysisH.view h1) := by
      cases S with
      | none => rfl
      | some S =>
        have := F1.1 _ (hS S rfl)
        simp only [Option.map_some, AnalysisH.view]
        rw [this]
    have ep : pinv.map h.z = pinv.map h1.z := by
      cases pinv with
      | none => rfl
      | some p => exact congrArg some (F1.1 _ (hp p rfl)).symm
    have ebs : bs.map (Option.map (MatH.view h)) = bs.map (Option.map (MatH.view h1)) :=
      List.map_congr_left fun b hb' => ob (hb b (List.mem_cons_of_mem _ hb')) F1
    rw [ob hA F1, ob hL F1, ob hU F1, ob hr F1, eS, ep, ebs]
    refine Agrees.bind (Agrees.weaken F1 (ih (h := h1) (Ok_frame F1 hO)
      (fun b hb' a ha => In_frame F1 (hb b (List.mem_cons_of_mem _ hb') a ha))
      (fun a ha => In_frame F1 (hA a ha)) (fun a ha => In_frame F1 (hL a ha))
      (fun a ha => In_frame F1 (hU a ha)) (fun a ha => In_frame F1 (hr a ha))
      (fun s hs => lt_of_lt_of_le (hS s hs) F1.2.2.1) fun r hr => lt_of_lt_of_le (hp r hr) F1.2.2.1))
      fun rs h2 e2 F2 => ?_
    have F12 : Frame h1 h2 := by
      have := (ih (h := h1) (Ok_frame F1 hO)
        (fun b hb' a ha => In_frame F1 (hb b (List.mem_cons_of_mem _ hb') a ha))
        (fun a ha => In_frame F1 (hA a ha)) (fun a ha => In_frame F1 (hL a ha))
        (fun a ha => In_frame F1 (hU a ha)) (fun a ha => In_frame F1 (hr a ha))
        (fun s hs => lt_of_lt_of_le (hS s hs) F1.2.2.1) fun r hr => lt_of_lt_of_le (hp r hr) F1.2.2.1).1
      rwa [e2] at this
    refine ⟨F2, congrArg Except.ok ?_⟩
    obtain ⟨i, x⟩ := r
    have hx : solView h2 (i, x) = solView h1 (i, x) := by
      have key : x = some none ∨ ∃ y, x = some (some y) ∧ y.In h1 := by
        rcases solveH_out init (some none) opt hO hb0 hA hL hU hr hS hp e1 with h | h | ⟨y, r, e, a, b, c, d⟩
        · exact Or.inl h.2
        · exact Or.inl h
        · refine Or.inr ⟨y, e, fun r hr => ?_, fun s hs => ?_⟩
          · rw [a] at hr; cases hr
          · rw [b] at hs; rw [List.mem_singleton.mp hs]; exact d
      rcases key with rfl | ⟨y, rfl, hy⟩
      · rfl
      · exact congrArg (fun m => (i, some (some m))) (view_frame F12 hy)
    show solView h2 (i, x) :: List.map (solView h2) rs = _
    rw [hx]

/-- `SLIP_matrix_free` releases the arrays of the matrix that are not shallow, and changes no other array. -/
theorem C49_matrix_free (A : MatH) :
    ∃ h', SLIP_matrix_freeH (some A) h = (.ok (), h') ∧
      (∀ r, h'.z r = if r ∈ A.owned then [] else h.z r) ∧
      (∀ r, h'.q r = if r ∈ A.ownedq then [] else h.q r) ∧ h'.nz = h.nz ∧ h'.nq = h.nq := by
  have fi : ∀ (p : Option Ref) (s : Bool) (g : Heap), ∃ g', freeIfH p s g = (.ok (), g') ∧
      (∀ r, g'.z r = if r ∈ (if s then [] else p.toList) then [] else g.z r) ∧ g'.q = g.q ∧ g'.nz = g.nz ∧
      g'.nq = g.nq := by
    intro p s g
    cases p with
    | none => exact ⟨g, rfl, fun r => by simp, rfl, rfl, rfl⟩
    | some p =>
      cases s with
      | true => exact ⟨g, rfl, fun r => by simp, rfl, rfl, rfl⟩
      | false => exact ⟨g.put p [], rfl, fun r => by simp [Heap.put], rfl, rfl, rfl⟩
  obtain ⟨h1, e1, a1, b1, c1, d1⟩ := fi A.p A.pShallow h
  obtain ⟨h2, e2, a2, b2, c2, d2⟩ := fi A.i A.iShallow h1
  obtain ⟨h3, e3, a3, b3, c3, d3⟩ := fi A.j A.jShallow h2
  have e : SLIP_matrix_freeH (some A) h = (match A.x with
    | some (.mpz r) => if A.xShallow then pure () else freeH r
    | some (.int64 r) => if A.xShallow then pure () else freeH r
    | some (.mpq r) => if A.xShallow then pure () else freeqH r
    | _ => pure () : H Unit) h3 := by
    unfold SLIP_matrix_freeH
    dsimp only
    rw [bind_run e1, bind_run e2, bind_run e3]
    rfl
  rw [e]
  have hz : ∀ r, h3.z r = if r ∈ (if A.pShallow then [] else A.p.toList) ++
      (if A.iShallow then [] else A.i.toList) ++ (if A.jShallow then [] else A.j.toList) then [] else
      h.z r := by
    intro r
    rw [a3, a2, a1]
    simp only [List.mem_append]
    generalize (if A.pShallow then [] else A.p.toList) = l1
    generalize (if A.iShallow then [] else A.i.toList) = l2
    generalize (if A.jShallow then [] else A.j.toList) = l3
    by_cases k1 : r ∈ l1 <;> by_cases k2 : r ∈ l2 <;> by_cases k3 : r ∈ l3 <;> simp [k1, k2, k3]
  have hq : h3.q = h.q := b3.trans (b2.trans b1)
  have hn : h3.nz = h.nz := c3.trans (c2.trans c1)
  have hm : h3.nq = h.nq := d3.trans (d2.trans d1)
  unfold MatH.owned MatH.ownedq
  cases ex : A.x with
  | none => exact ⟨h3, rfl, fun r => by simpa using hz r, fun r => by simp [hq], hn, hm⟩
  | some x =>
    cases hs : A.xShallow with
    | true =>
      refine ⟨h3, ?_, fun r => by simpa using hz r, fun r => by simp [hq], hn, hm⟩
      cases x <;> rfl
    | false =>
      cases x with
      | mpz s =>
        refine ⟨h3.put s [], rfl, fun r => ?_, fun r => by simp [hq, Heap.put], hn, hm⟩
        show (if r = s then [] else h3.z r) = _
        rw [hz]
        by_cases k : r = s <;> simp [k]
      | int64 s =>
        refine ⟨h3.put s [], rfl, fun r => ?_, fun r => by simp [hq, Heap.put], hn, hm⟩
        show (if r = s then [] else h3.z r) = _
        rw [hz]
        by_cases k : r = s <;> simp [k]
      | mpq s =>
        refine ⟨h3.putq s [], rfl, fun r => by simpa [Heap.putq] using hz r, fun r => ?_, hn, hm⟩
        show (if r = s then [] else h3.q r) = _
        rw [hq]
        simp
      | mpfr _ => exact ⟨h3, rfl, fun r => by simpa using hz r, fun r => by simp [hq], hn, hm⟩
      | fp64 _ => exact ⟨h3, rfl, fun r => by simpa using hz r, fun r => by simp [hq], hn, hm⟩

/-! ## The hypotheses can be met -/

/-- A heap with the arrays of the matrix `Ex.A` (1, 2, 3) and a column permutation (4). -/
def exHeap : Heap where
  z r := match r with
    | 1 => deref Ex.A.p
    | 2 => deref Ex.A.i
    | 3 => Ex.A.xz
    | 4 => Ex.S.q
    | _ => []
  q _ := []
  nz := 5
  nq := 1

/-- `Ex.A`, with its arrays in the heap. -/
def exA : MatH :=
  { m := 3, n := 3, nzmax := 6, nz := 0, kind := .csc, type := .mpz, p := some 1, pShallow := false,
    i := some 2, iShallow := false, j := none, jShallow := false, x := some (.mpz 3), xShallow := false,
    scale := 3 }

/-- A right-hand side with two columns whose values are the array of values of the matrix: `b->x == A->x`. -/
def exb : MatH :=
  { m := 3, n := 2, nzmax := 6, nz := 0, kind := .dense, type := .mpz, p := none, pShallow := false,
    i := none, iShallow := false, j := none, jShallow := false, x := some (.mpz 3), xShallow := true,
    scale := 5 }

/-- The analysis. -/
def exS : AnalysisH := { q := 4, lnz := 5, unz := 5 }

theorem exA_view : exA.view exHeap = Ex.A := rfl
theorem exHeap_ok : exHeap.Ok := ⟨by decide, rfl⟩
theorem exA_in : exA.In exHeap := ⟨by decide, by decide⟩
theorem exb_in : exb.In exHeap := ⟨by decide, by decide⟩

/-- The factorization of the example in the heap succeeds, with new factors. -/
theorem ex_factorize : ∃ f h' L U R p,
    SLIP_LU_factorizeH Ex.nc true (some none) (some none) (some none) (some none) (some exA) (some exS) none
      exHeap = (.ok f, h') ∧ f.info = .ok ∧ NewFactors exHeap h' f L U R p ∧ L.view h' = Ex.L ∧
      Frame exHeap h' := by
  have hA : ∀ a ∈ (some exA), a.In exHeap := fun a ha => by cases ha; exact exA_in
  have hS : ∀ s ∈ (some exS), s.q < exHeap.nz := fun s hs => by cases hs; decide
  have a := C49_factorize Ex.nc true (some none) (some none) (some none) (some none) none exHeap_ok hA hS
  rcases e : SLIP_LU_factorizeH Ex.nc true (some none) (some none) (some none) (some none) (some exA)
    (some exS) none exHeap with ⟨e1 | f, h'⟩
  · obtain ⟨-, a⟩ := a
    rw [e] at a
    have b : SLIP_LU_factorize Ex.nc true (some none) (some none) (some none) (some none) (some Ex.A)
      (some Ex.S) none = _ := Ex.factorize_ok
    have a := a.trans b
    cases a
  · obtain ⟨F, a⟩ := a
    rw [e] at a F
    have b : SLIP_LU_factorize Ex.nc true (some none) (some none) (some none) (some none) (some Ex.A)
      (some Ex.S) none = _ := Ex.factorize_ok
    have a : f.view h' = _ := Except.ok.inj (a.trans b)
    have hi : f.info = .ok := congrArg FactOut.info a
    have hL : f.L.map (Option.map (MatH.view h')) = some (some Ex.L) := congrArg FactOut.L a
    obtain ⟨L, U, R, p, N⟩ := C49_factorize_new Ex.nc true _ _ _ _ none exHeap_ok hA hS e hi (by
      intro h; rw [h] at hL; cases hL)
    refine ⟨f, h', L, U, R, p, rfl, hi, N, ?_, F⟩
    rw [N.hL] at hL
    exact Option.some.inj (Option.some.inj hL)

/-- The aliased right-hand side satisfies the hypotheses of `C49_backslash`, and so does the matrix. -/
example (fp : Fp) (O : Orderings) :
    Agrees exHeap backView (SLIP_backslashH fp O Ex.nc true (some none) .mpq (some exA) (some exb) none exHeap)
      (SLIP_backslash fp O Ex.nc true (some none) .mpq (some Ex.A) (some (exb.view exHeap)) none) :=
  C49_backslash fp O Ex.nc true (some none) .mpq none exHeap_ok (fun a ha => by cases ha; exact exA_in)
    fun a ha => by cases ha; exact exb_in

/-- `b` is a shallow copy: releasing it leaves the values of `A`. -/
example : ∃ h', SLIP_matrix_freeH (some exb) exHeap = (.ok (), h') ∧ h'.z 3 = Ex.A.xz := by
  obtain ⟨h', e, hz, -⟩ := C49_matrix_free (h := exHeap) exb
  exact ⟨h', e, hz 3⟩

end Slip.Store
