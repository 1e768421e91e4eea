import Verif.Proof.StoreCast

/-!
# `SLIP_matrix_copy` over a heap: the parts
-/

namespace Slip.Copy

variable {α β γ δ σ τ : Type} {h0 h : Heap}

theorem Keeps.trans {a b c : Heap} (h : Keeps a b) (g : Keeps b c) : Keeps a c :=
  ⟨h.1.trans g.1, fun r hr => (g.2 r (lt_of_lt_of_le hr h.1)).trans (h.2 r hr)⟩

theorem bind_run {mK : K β} {fK : β → K δ} {h h' : Heap} {b : β} (e : mK h = (.ok b, h')) : (mK >>= fK) h = fK b h' := by
  show (match mK h with | (.ok a, h) => fK a h | (.error e, h) => (.error e, h)) = _
  rw [e]

theorem bind_err {mK : K β} {fK : β → K δ} {h h' : Heap} {f : Fail} (e : mK h = (.error f, h')) :
    (mK >>= fK) h = (.error f, h') := by
  show (match mK h with | (.ok a, h) => fK a h | (.error e, h) => (.error e, h)) = _
  rw [e]

theorem Sim.weaken {h1 : Heap} {mK : K β} {m : C α} {Q : α → β → Heap → Prop} (k : Keeps h0 h1)
    (s : Sim h1 h mK m Q) : Sim h0 h mK m Q := by
  cases m with
  | ok a => exact s
  | error e =>
    obtain ⟨h', e1, e2⟩ := s
    exact ⟨h', e1, k.trans e2⟩

theorem arr_keeps (T : Acc α) (k : Keeps h0 h) {p : Option ℕ} (hp : ∀ r ∈ p, r < h0.next) :
    arr T h p = arr T h0 p := by
  cases p with
  | none => rfl
  | some r =>
    show ((h.a r).bind T.get).getD [] = ((h0.a r).bind T.get).getD []
    rw [k.2 r (hp r rfl)]

theorem deref_view (p : Option ℕ) : deref (p.map fun r => arr accI h (some r)) = arr accI h p := by
  cases p <;> rfl

theorem live_lt (ok : h.Ok) {r : ℕ} (e : (h.a r).isSome) : r < h.next := by
  by_contra c
  rw [ok r (by omega)] at e
  cases e

/-- The pointers of a live object have been handed out. -/
structure Below (h : Heap) (A : MatK) : Prop where
  p : ∀ r ∈ A.p, r < h.next
  i : ∀ r ∈ A.i, r < h.next
  j : ∀ r ∈ A.j, r < h.next
  x : ∀ r ∈ A.x, r < h.next

theorem Live.below (ok : h.Ok) {A : MatK} (l : A.Live h) : Below h A := by
  constructor
  all_goals
    intro r hr
    refine live_lt ok (l r ?_)
    simp only [MatK.refs, List.mem_append, Option.mem_toList]
    tauto

theorem Live.x {A : MatK} (l : A.Live h) : ∀ r ∈ A.x, (h.a r).isSome := fun r hr => l r (by
  unfold MatK.refs
  simp only [List.mem_append, Option.mem_toList]
  exact Or.inr hr)

theorem nnz_sim (init : Bool) (A : Option MatK) (k : Keeps h0 h) :
    Sim h0 h (SLIP_matrix_nnzK init A) (SLIP_matrix_nnz init (A.map (MatK.view h))) fun v w h' => w = v ∧ h' = h := by
  unfold SLIP_matrix_nnzK SLIP_matrix_nnz
  refine Sim.ite (fun _ => Sim.pure ⟨rfl, rfl⟩) fun _ => ?_
  cases A with
  | none => exact Sim.pure ⟨rfl, rfl⟩
  | some A =>
    obtain ⟨m, n, nzmax, nz, kind, type, p, pS, i, iS, j, jS, x, xS, scale⟩ := A
    cases kind with
    | csc =>
      cases p with
      | none => exact Sim.pure ⟨rfl, rfl⟩
      | some p => exact Sim.ite (fun _ => Sim.pure ⟨rfl, rfl⟩) fun _ => Sim.rd' rfl k
    | triplet => exact Sim.pure ⟨rfl, rfl⟩
    | dense => exact Sim.ite (fun _ => Sim.pure ⟨rfl, rfl⟩) fun _ => Sim.pure ⟨rfl, rfl⟩
    | bad _ => exact Sim.pure ⟨rfl, rfl⟩

theorem newVals_ok {type : Ty} (ht : type.ok = true) (n : Int) (b : Bool) : ∃ v, newVals type n b = some v := by
  cases type <;> first | exact ⟨_, rfl⟩ | cases ht

/-- The object made by `SLIP_matrix_allocate`. -/
def mkK (kind : Kind) (type : Ty) (m n N : Int) (s : Bool) (p i j x : Option ℕ) : MatK :=
  { m := m, n := n, nzmax := N, nz := 0, kind := kind, type := type,
    p := p, pShallow := s, i := i, iShallow := s, j := j, jShallow := s, x := x, xShallow := s, scale := 1 }

/-- The object made by `SLIP_matrix_allocate`, as a value. -/
def mkM (kind : Kind) (type : Ty) (m n N : Int) (s : Bool) (p i j : Option (Arr Int)) (x : Option Vals) : Mat :=
  { m := m, n := n, nzmax := N, nz := 0, kind := kind, type := type,
    p := p, pShallow := s, i := i, iShallow := s, j := j, jShallow := s, x := x, xShallow := s, scale := 1 }

theorem alloc_csc {type : Ty} (ht : type.ok = true) {m n nz : Int} (k : Keeps h0 h) :
    Sim h0 h (allocateK .csc type m n nz false true) (allocate .csc type m n nz false true) fun c cK h' =>
      ∃ v, c = mkM .csc type m n (max nz 1) false (some (calloc (n + 1))) (some (calloc (max nz 1))) none (some v) ∧
        cK = mkK .csc type m n (max nz 1) false (some h.next) (some (h.next + 1)) none (some (h.next + 2)) ∧
        h' = ((h.add (.int64 (calloc (n + 1)))).add (.int64 (calloc (max nz 1)))).add v := by
  unfold allocateK allocate
  refine Sim.ite (fun _ => Sim.error k) fun _ => ?_
  obtain ⟨v, ev⟩ := newVals_ok ht (max nz 1) true
  have e : (if Kind.csc = Kind.dense then m * n else nz) = nz := if_neg (by decide)
  simp only [e, ev, if_neg (show ¬(false = true) by decide)]
  refine Sim.step (b := some h.next) (h' := h.add (.int64 (calloc (n + 1)))) rfl ?_
  refine Sim.step (b := some (h.next + 1)) (h' := (h.add (.int64 (calloc (n + 1)))).add (.int64 (calloc (max nz 1)))) rfl ?_
  refine Sim.step (b := none) rfl ?_
  refine Sim.step (b := some (h.next + 2)) rfl ?_
  exact Sim.pure ⟨v, rfl, rfl, rfl⟩

theorem alloc_triplet {type : Ty} (ht : type.ok = true) {m n nz : Int} (k : Keeps h0 h) :
    Sim h0 h (allocateK .triplet type m n nz false true) (allocate .triplet type m n nz false true) fun c cK h' =>
      ∃ v, c = mkM .triplet type m n (max nz 1) false none (some (calloc (max nz 1))) (some (calloc (max nz 1))) (some v) ∧
        cK = mkK .triplet type m n (max nz 1) false none (some h.next) (some (h.next + 1)) (some (h.next + 2)) ∧
        h' = ((h.add (.int64 (calloc (max nz 1)))).add (.int64 (calloc (max nz 1)))).add v := by
  unfold allocateK allocate
  refine Sim.ite (fun _ => Sim.error k) fun _ => ?_
  obtain ⟨v, ev⟩ := newVals_ok ht (max nz 1) true
  have e : (if Kind.triplet = Kind.dense then m * n else nz) = nz := if_neg (by decide)
  simp only [e, ev, if_neg (show ¬(false = true) by decide)]
  refine Sim.step (b := none) rfl ?_
  refine Sim.step (b := some h.next) (h' := h.add (.int64 (calloc (max nz 1)))) rfl ?_
  refine Sim.step (b := some (h.next + 1)) (h' := (h.add (.int64 (calloc (max nz 1)))).add (.int64 (calloc (max nz 1)))) rfl ?_
  refine Sim.step (b := some (h.next + 2)) rfl ?_
  exact Sim.pure ⟨v, rfl, rfl, rfl⟩

theorem alloc_dense {type : Ty} (ht : type.ok = true) {m n nz : Int} (k : Keeps h0 h) :
    Sim h0 h (allocateK .dense type m n nz false true) (allocate .dense type m n nz false true) fun c cK h' =>
      ∃ v, c = mkM .dense type m n (max (m * n) 1) false none none none (some v) ∧
        cK = mkK .dense type m n (max (m * n) 1) false none none none (some h.next) ∧ h' = h.add v := by
  unfold allocateK allocate
  refine Sim.ite (fun _ => Sim.error k) fun _ => ?_
  obtain ⟨v, ev⟩ := newVals_ok ht (max (m * n) 1) true
  simp only [if_true, ev, if_neg (show ¬(false = true) by decide)]
  refine Sim.step (b := none) rfl ?_
  refine Sim.step (b := none) rfl ?_
  refine Sim.step (b := none) rfl ?_
  refine Sim.step (b := some h.next) rfl ?_
  exact Sim.pure ⟨v, rfl, rfl, rfl⟩

theorem alloc_shallow {type : Ty} {m n nz : Int} (k : Keeps h0 h) :
    Sim h0 h (allocateK .dense type m n nz true true) (allocate .dense type m n nz true true) fun c cK h' =>
      c = mkM .dense type m n (max (m * n) 1) true none none none none ∧
        cK = mkK .dense type m n (max (m * n) 1) true none none none none ∧ h' = h := by
  unfold allocateK allocate
  refine Sim.ite (fun _ => Sim.error k) fun _ => ?_
  have e : (if Kind.dense = Kind.dense then m * n else nz) = m * n := if_pos rfl
  simp only [e, if_true]
  exact Sim.pure ⟨rfl, rfl, rfl⟩

/-- What is known of `Y` after `slip_cast_matrix`, called in `h`, has returned it in `h1`; `y` are its values. `ow` are the arrays that
`Y` owns: none if `Y` is shallow. -/
structure IsY (h : Heap) (A Y : MatK) (y : Option Vals) (h1 : Heap) (ow : List ℕ) : Prop where
  ok : h1.Ok
  nx : h.next ≤ h1.next
  vals : Y.x.bind h1.a = y
  live : ∀ r ∈ Y.x, (h1.a r).isSome
  low : ∀ r ∈ ow, h.next ≤ r ∧ r < h1.next
  src : ∀ r ∈ Y.x, r ∈ ow ∨ r ∈ A.x
  same : ∀ s, s ∉ ow → h1.a s = h.a s
  release : ∀ H : Heap, (∀ r ∈ Y.x, (H.a r).isSome) →
    ∃ H', SLIP_matrix_freeK (some Y) H = (.ok (), H') ∧ H'.next = H.next ∧ ∀ s, H'.a s = if s ∈ ow then none else H.a s

theorem IsY.keeps {A Y : MatK} {y : Option Vals} {h1 : Heap} {ow : List ℕ} (q : IsY h A Y y h1 ow) : Keeps h h1 :=
  ⟨q.nx, fun r hr => q.same r fun c => by have := (q.low r c).1; omega⟩

theorem cast_matrix_sim (fp : Fp) (opt : Option Options) {type : Ty} (ht : type.ok = true) {A : MatK} {B : Mat} (k : Keeps h0 h)
    (ok : h.Ok) (l : ∀ r ∈ A.x, (h.a r).isSome) (eB : A.view h = B) :
    Sim h0 h (slip_cast_matrixK fp opt type A) (slip_cast_matrix fp opt type B) fun p Y h1 =>
      Y.scale = p.2 ∧ ∃ ow, IsY h A Y p.1 h1 ow := by
  subst eB
  unfold slip_cast_matrixK slip_cast_matrix
  refine Sim.bind (nnz_sim true (some A) k) ?_
  rintro nz w h' ⟨rfl, rfl⟩
  by_cases e : type = A.type
  · have e' : type = (A.view h').type := e
    rw [decide_eq_true e, decide_eq_true e']
    simp only [if_pos e, if_pos e']
    refine Sim.bind (alloc_shallow k) ?_
    rintro c Y h1 ⟨rfl, rfl, rfl⟩
    refine Sim.pure ⟨rfl, [], ?_⟩
    constructor
    · exact ok
    · exact le_rfl
    · rfl
    · exact l
    · intro r hr; cases hr
    · intro r hr; exact Or.inr hr
    · intro s _; rfl
    · intro H _
      exact ⟨H, rfl, rfl, fun s => rfl⟩
  · have e' : ¬type = (A.view h').type := e
    rw [decide_eq_false e, decide_eq_false e']
    simp only [if_neg e, if_neg e']
    refine Sim.bind (alloc_dense ht k) ?_
    rintro c Y h1 ⟨v, rfl, rfl, rfl⟩
    have ev : (h'.add v).a h'.next = some v := by rw [add_a, if_pos rfl]
    have nx : A.x ≠ some h'.next := fun c => by
      have := live_lt ok (l _ c); omega
    have lx : ∀ s ∈ A.x, ((h'.add v).a s).isSome := fun s hs => by
      rw [add_a, if_neg (fun c => nx (by rw [← c]; exact hs))]; exact l s hs
    have ex : A.x.bind (h'.add v).a = (A.view h').x := by
      show _ = A.x.bind h'.a
      cases eAx : A.x with
      | none => rfl
      | some s =>
        show (h'.add v).a s = h'.a s
        rw [add_a, if_neg (fun c => nx (by rw [eAx, c]))]
    refine Sim.bind (f := fun p => (pure (some p.1, p.2) : C (Option Vals × ℚ))) (ex ▸ cast_array_sim fp opt (v := v) k.1
      (Ok.add ok v) (k.add v) ev lx nx) ?_
    rintro ⟨v', s⟩ t h1 ⟨rfl, j, rfl⟩
    refine Sim.pure ⟨rfl, [h'.next], ?_⟩
    have ea : ∀ s, (((h'.add v).put h'.next (some v')).grow j).a s = if s = h'.next then some v' else h'.a s := by
      intro s
      rw [grow_a, put_a, add_a]
      by_cases c : s = h'.next <;> simp [c]
    constructor
    · intro r hr
      have hr : h'.next + 1 + j ≤ r := hr
      rw [ea, if_neg (by omega)]; exact ok r (by omega)
    · show h'.next ≤ h'.next + 1 + j; omega
    · show (((h'.add v).put h'.next (some v')).grow j).a h'.next = _
      rw [ea, if_pos rfl]
    · intro r hr
      cases hr
      rw [ea, if_pos rfl]; rfl
    · intro r hr
      rw [List.mem_singleton] at hr
      subst hr
      exact ⟨le_rfl, by show h'.next < h'.next + 1 + j; omega⟩
    · intro r hr
      cases hr
      exact Or.inl (List.mem_singleton.2 rfl)
    · intro s hs
      rw [ea, if_neg (fun c => hs (by rw [c]; exact List.mem_singleton.2 rfl))]
    · intro H hH
      refine ⟨H.put h'.next none, ?_, rfl, fun s => ?_⟩
      · show SLIP_matrix_freeK (some _) H = _
        unfold SLIP_matrix_freeK
        have e1 : freeIfK (some h'.next) false H = (.ok (), H.put h'.next none) := free_run (hH _ rfl)
        refine (bind_run e1).trans ?_
        rfl
      · rw [put_a]
        simp only [List.mem_singleton]

end Slip.Copy
