import Verif.Proof.StoreCopy4

/-!
# `SLIP_matrix_copy` over a heap: the cases with a work matrix
-/

namespace Slip.Copy

variable {α β γ δ σ τ : Type} {h0 h : Heap}

theorem view_keeps (k : Keeps h0 h) {A : MatK} (b : Below h0 A) : A.view h = A.view h0 := by
  have e : ∀ {p : Option ℕ}, (∀ r ∈ p, r < h0.next) →
      (p.map fun r => arr accI h (some r)) = p.map fun r => arr accI h0 (some r) := fun {p} hp => by
    cases p with
    | none => rfl
    | some r => exact congrArg some (arr_keeps accI k fun s hs => by cases hs; exact hp r rfl)
  unfold MatK.view
  rw [e b.p, e b.i, e b.j, bind_keeps k b.x]

theorem copyCscDense_sim (fp : Fp) (opt : Option Options) {type : Ty} (ht : type.ok = true) {A : MatK} {nz : Int} (ok : h.Ok)
    (l : A.Live h) : Sim h h (copyCscDenseK fp opt type A nz) (copyCscDense fp opt type (A.view h) nz) (Post h) := by
  have bl := Live.below ok l
  have nep : ∀ {p : Option ℕ}, (∀ r ∈ p, r < h.next) → p ≠ some h.next := fun hp c => lt_irrefl _ (hp _ c)
  unfold copyCscDenseK copyCscDense
  refine Sim.bind (alloc_dense ht (Keeps.refl h)) ?_
  rintro c cK h1 ⟨v, rfl, rfl, rfl⟩
  have k1 : Keeps h (h.add v) := (Keeps.refl h).add _
  have ok1 : Heap.Ok (h.add v) := Ok.add ok _
  refine Sim.bind (cast_matrix_sim fp opt ht k1 ok1 (live_keeps k1 ok (Live.x l)) (view_keeps k1 bl)) ?_
  rintro ⟨y, s⟩ Y h2 ⟨es, ow, q⟩
  have ek : h2.a h.next = some v := (q.keeps.2 _ (by simp only [add_next]; omega)).trans (by rw [add_a, if_pos rfl])
  have k2 : Keeps h h2 := k1.trans q.keeps
  have nY : Y.x ≠ some h.next := fun c => by
    rcases q.src _ c with c | c
    · have := (q.low _ c).1
      simp only [add_next] at this
      omega
    · exact nep bl.x c
  refine Sim.bind (withVals_sim (Cx := some h.next) (Q := fun s _ h' => h' = h2.put h.next (some s.1)) k2
    (fun r hr => by cases hr; rw [ek]; rfl) q.live ek q.vals ?_) ?_
  · intro α T e ca ya e1 e2
    refine Sim.bindPure (scatterCsc_sim (x := h.next) (Ap := A.p) (Ai := A.i) (Yx := Y.x) le_rfl k2 (ek.trans e1) ?_ ?_ ?_
      (nep bl.p) (nep bl.i) nY) ?_
    · exact (arr_keeps accI k2 bl.p).trans (deref_view _).symm
    · exact (arr_keeps accI k2 bl.i).trans (deref_view _).symm
    · have := q.vals.trans e2
      unfold arr
      rw [this]
      show (T.get _).getD _ = _
      rw [T.get_of]; rfl
    rintro x - h' rfl
    exact Sim.pure rfl
  rintro ⟨x, -⟩ t h3 rfl
  obtain ⟨H', f1, f2, f3⟩ := q.release (h2.put h.next (some x)) fun r hr => by
    rw [put_a, if_neg (fun c => nY (by rw [← c]; exact hr))]; exact q.live r hr
  refine Sim.step f1 ?_
  have hn := q.nx
  simp only [add_next] at hn
  dsimp only at es
  rw [es]
  refine Sim.pure (post_dense ?_ ?_ ?_ ?_)
  · rw [f2]; simp only [put_next]; omega
  · rw [f3, if_neg, put_a, if_pos rfl]
    intro c
    have := (q.low _ c).1
    simp only [add_next] at this
    omega
  · rw [f2]; simp only [put_next]; omega
  · intro r hr
    rw [f3]
    by_cases c : r ∈ ow
    · rw [if_pos c]
      have := (q.low _ c).1
      simp only [add_next] at this
      exact (ok r (by omega)).symm
    · rw [if_neg c, put_a, if_neg hr, q.same r c, add_a, if_neg hr]

theorem copyTripletDense_sim (fp : Fp) (opt : Option Options) {type : Ty} (ht : type.ok = true) {A : MatK} {nz : Int} (ok : h.Ok)
    (l : A.Live h) : Sim h h (copyTripletDenseK fp opt type A nz) (copyTripletDense fp opt type (A.view h) nz) (Post h) := by
  have bl := Live.below ok l
  have nep : ∀ {p : Option ℕ}, (∀ r ∈ p, r < h.next) → p ≠ some h.next := fun hp c => lt_irrefl _ (hp _ c)
  unfold copyTripletDenseK copyTripletDense
  refine Sim.bind (alloc_dense ht (Keeps.refl h)) ?_
  rintro c cK h1 ⟨v, rfl, rfl, rfl⟩
  have k1 : Keeps h (h.add v) := (Keeps.refl h).add _
  have ok1 : Heap.Ok (h.add v) := Ok.add ok _
  refine Sim.bind (cast_matrix_sim fp opt ht k1 ok1 (live_keeps k1 ok (Live.x l)) (view_keeps k1 bl)) ?_
  rintro ⟨y, s⟩ Y h2 ⟨es, ow, q⟩
  have ek : h2.a h.next = some v := (q.keeps.2 _ (by simp only [add_next]; omega)).trans (by rw [add_a, if_pos rfl])
  have k2 : Keeps h h2 := k1.trans q.keeps
  have nY : Y.x ≠ some h.next := fun c => by
    rcases q.src _ c with c | c
    · have := (q.low _ c).1
      simp only [add_next] at this
      omega
    · exact nep bl.x c
  refine Sim.bind (withVals_sim (Cx := some h.next) (Q := fun s _ h' => h' = h2.put h.next (some s.1)) k2
    (fun r hr => by cases hr; rw [ek]; rfl) q.live ek q.vals ?_) ?_
  · intro α T e ca ya e1 e2
    refine Sim.bindPure (scatterTriplet_sim (x := h.next) (Ai := A.i) (Aj := A.j) (Yx := Y.x) le_rfl k2 (ek.trans e1) ?_ ?_ ?_
      (nep bl.i) (nep bl.j) nY) ?_
    · exact (arr_keeps accI k2 bl.i).trans (deref_view _).symm
    · exact (arr_keeps accI k2 bl.j).trans (deref_view _).symm
    · have := q.vals.trans e2
      unfold arr
      rw [this]
      show (T.get _).getD _ = _
      rw [T.get_of]; rfl
    rintro x - h' rfl
    exact Sim.pure rfl
  rintro ⟨x, -⟩ t h3 rfl
  obtain ⟨H', f1, f2, f3⟩ := q.release (h2.put h.next (some x)) fun r hr => by
    rw [put_a, if_neg (fun c => nY (by rw [← c]; exact hr))]; exact q.live r hr
  refine Sim.step f1 ?_
  have hn := q.nx
  simp only [add_next] at hn
  dsimp only at es
  rw [es]
  refine Sim.pure (post_dense ?_ ?_ ?_ ?_)
  · rw [f2]; simp only [put_next]; omega
  · rw [f3, if_neg, put_a, if_pos rfl]
    intro c
    have := (q.low _ c).1
    simp only [add_next] at this
    omega
  · rw [f2]; simp only [put_next]; omega
  · intro r hr
    rw [f3]
    by_cases c : r ∈ ow
    · rw [if_pos c]
      have := (q.low _ c).1
      simp only [add_next] at this
      exact (ok r (by omega)).symm
    · rw [if_neg c, put_a, if_neg hr, q.same r c, add_a, if_neg hr]

end Slip.Copy
