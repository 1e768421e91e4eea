import Verif.Proof.StoreCopy3

/-!
# `SLIP_matrix_copy` over a heap: the nine cases
-/

namespace Slip.Copy

variable {α β γ δ σ τ : Type} {h0 h : Heap}

theorem vals_run' {p : Option ℕ} (l : ∀ r ∈ p, (h.a r).isSome) : valsK p h = (.ok (p.bind h.a), h) := by
  cases p with
  | none => rfl
  | some r =>
    obtain ⟨v, e⟩ := Option.isSome_iff_exists.1 (l r rfl)
    rw [vals_run e]
    show _ = (Except.ok (h.a r), h)
    rw [e]

theorem withVals_sim {opt : Option Options} {Cx Yx : Option ℕ} {c y : Option Vals}
    {f : {α : Type} → Elt α → Arr α → Arr α → C (Arr α × β)} {fK : {α : Type} → Acc α → Elt α → K δ}
    {Q : Vals × β → δ → Heap → Prop} (k : Keeps h0 h) (lc : ∀ r ∈ Cx, (h.a r).isSome) (ly : ∀ r ∈ Yx, (h.a r).isSome)
    (ec : Cx.bind h.a = c) (ey : Yx.bind h.a = y)
    (hs : ∀ {α : Type} (T : Acc α) (e : Elt α) (ca ya : Arr α), c = some (T.of ca) → y = some (T.of ya) →
      Sim h0 h (fK T e) (f e ca ya) fun s t h' => Q (T.of s.1, s.2) t h') :
    Sim h0 h (withValsK opt Cx Yx fK) (withVals opt c y f) Q := by
  unfold withValsK
  refine Sim.step (vals_run' lc) (Sim.step (vals_run' ly) ?_)
  rw [ec, ey]
  have key : ∀ {α : Type} (T : Acc α) (e : Elt α) (ca ya : Arr α), c = some (T.of ca) → y = some (T.of ya) →
      Sim h0 h (fK T e) (f e ca ya >>= fun s => (pure (T.of s.1, s.2) : C (Vals × β))) Q := by
    intro α T e ca ya h1 h2
    refine Sim.bindPure (hs T e ca ya h1 h2) ?_
    rintro ⟨a, b⟩ t h' q
    exact Sim.pure q
  have bad : Sim h0 h (Copy.lift (.error .ub) : K δ) (.error .ub : C (Vals × β)) Q := Sim.error k
  cases c with
  | none => cases y <;> exact bad
  | some c =>
    cases y with
    | none => cases c <;> exact bad
    | some y =>
      cases c with
      | mpz c => cases y with
        | mpz y => exact key accZ eltZ c y rfl rfl
        | _ => exact bad
      | mpq c => cases y with
        | mpq y => exact key accQ eltQ c y rfl rfl
        | _ => exact bad
      | mpfr c => cases y with
        | mpfr y => exact key accR (eltR opt) c y rfl rfl
        | _ => exact bad
      | int64 c => cases y with
        | int64 y => exact key accI eltZ c y rfl rfl
        | _ => exact bad
      | fp64 c => cases y with
        | fp64 y => exact key accD eltD c y rfl rfl
        | _ => exact bad

/-- What the copying functions achieve, started in `h`: the object `cK` consists of new arrays of its own, and its value is `c`. -/
structure Post (h : Heap) (c : Mat) (cK : MatK) (h' : Heap) : Prop where
  adds : Adds h h' cK.refs
  view : cK.view h' = c
  own : cK.pShallow = false ∧ cK.iShallow = false ∧ cK.jShallow = false ∧ cK.xShallow = false

theorem post_csc {h h' : Heap} {type : Ty} {m n N : Int} {s : ℚ} {r1 r2 r3 : ℕ} {p i : Arr Int} {x : Vals} (nx : h.next ≤ h'.next)
    (e1 : h'.a r1 = some (.int64 p)) (e2 : h'.a r2 = some (.int64 i)) (e3 : h'.a r3 = some x)
    (b1 : h.next ≤ r1 ∧ r1 < h'.next) (b2 : h.next ≤ r2 ∧ r2 < h'.next) (b3 : h.next ≤ r3 ∧ r3 < h'.next)
    (n12 : r1 ≠ r2) (n13 : r1 ≠ r3) (n23 : r2 ≠ r3) (eo : ∀ q, q ≠ r1 → q ≠ r2 → q ≠ r3 → h'.a q = h.a q) :
    Post h (Mat.mk m n N 0 .csc type (some p) false (some i) false none false (some x) false s)
      (MatK.mk m n N 0 .csc type (some r1) false (some r2) false none false (some r3) false s) h' := by
  refine ⟨⟨nx, ?_, ?_, ?_⟩, ?_, rfl, rfl, rfl, rfl⟩
  · show [r1, r2, r3].Nodup
    simp [n12, n13, n23]
  · show ∀ r ∈ [r1, r2, r3], _
    simp only [List.mem_cons, List.not_mem_nil, or_false]
    rintro r (rfl | rfl | rfl)
    · exact ⟨b1.1, b1.2, by rw [e1]; rfl⟩
    · exact ⟨b2.1, b2.2, by rw [e2]; rfl⟩
    · exact ⟨b3.1, b3.2, by rw [e3]; rfl⟩
  · show ∀ r, r ∉ [r1, r2, r3] → _
    simp only [List.mem_cons, List.not_mem_nil, or_false, not_or]
    rintro r ⟨a, b, c⟩
    exact eo r a b c
  · have g1 := arr_of accI e1
    have g2 := arr_of accI e2
    show Mat.mk m n N 0 .csc type (some (arr accI h' (some r1))) false (some (arr accI h' (some r2))) false none false (h'.a r3) false s = _
    rw [g1, g2, e3]

theorem post_triplet {h h' : Heap} {type : Ty} {m n N nz : Int} {s : ℚ} {r1 r2 r3 : ℕ} {i j : Arr Int} {x : Vals}
    (nx : h.next ≤ h'.next)
    (e1 : h'.a r1 = some (.int64 i)) (e2 : h'.a r2 = some (.int64 j)) (e3 : h'.a r3 = some x)
    (b1 : h.next ≤ r1 ∧ r1 < h'.next) (b2 : h.next ≤ r2 ∧ r2 < h'.next) (b3 : h.next ≤ r3 ∧ r3 < h'.next)
    (n12 : r1 ≠ r2) (n13 : r1 ≠ r3) (n23 : r2 ≠ r3) (eo : ∀ q, q ≠ r1 → q ≠ r2 → q ≠ r3 → h'.a q = h.a q) :
    Post h (Mat.mk m n N nz .triplet type none false (some i) false (some j) false (some x) false s)
      (MatK.mk m n N nz .triplet type none false (some r1) false (some r2) false (some r3) false s) h' := by
  refine ⟨⟨nx, ?_, ?_, ?_⟩, ?_, rfl, rfl, rfl, rfl⟩
  · show [r1, r2, r3].Nodup
    simp [n12, n13, n23]
  · show ∀ r ∈ [r1, r2, r3], _
    simp only [List.mem_cons, List.not_mem_nil, or_false]
    rintro r (rfl | rfl | rfl)
    · exact ⟨b1.1, b1.2, by rw [e1]; rfl⟩
    · exact ⟨b2.1, b2.2, by rw [e2]; rfl⟩
    · exact ⟨b3.1, b3.2, by rw [e3]; rfl⟩
  · show ∀ r, r ∉ [r1, r2, r3] → _
    simp only [List.mem_cons, List.not_mem_nil, or_false, not_or]
    rintro r ⟨a, b, c⟩
    exact eo r a b c
  · have g1 := arr_of accI e1
    have g2 := arr_of accI e2
    show Mat.mk m n N nz .triplet type none false (some (arr accI h' (some r1))) false (some (arr accI h' (some r2))) false (h'.a r3) false s = _
    rw [g1, g2, e3]

theorem post_dense {h h' : Heap} {type : Ty} {m n N : Int} {s : ℚ} {r : ℕ} {x : Vals}
    (nx : h.next ≤ h'.next) (e : h'.a r = some x) (b : h.next ≤ r ∧ r < h'.next) (eo : ∀ q, q ≠ r → h'.a q = h.a q) :
    Post h (Mat.mk m n N 0 .dense type none false none false none false (some x) false s)
      (MatK.mk m n N 0 .dense type none false none false none false (some r) false s) h' := by
  refine ⟨⟨nx, ?_, ?_, ?_⟩, ?_, rfl, rfl, rfl, rfl⟩
  · show [r].Nodup
    simp
  · show ∀ q ∈ [r], _
    simp only [List.mem_singleton]
    rintro q rfl
    exact ⟨b.1, b.2, by rw [e]; rfl⟩
  · show ∀ q, q ∉ [r] → _
    simp only [List.mem_singleton]
    exact eo
  · show Mat.mk m n N 0 .dense type none false none false none false (h'.a r) false s = _
    rw [e]

theorem bind_keeps (k : Keeps h0 h) {p : Option ℕ} (hp : ∀ r ∈ p, r < h0.next) : p.bind h.a = p.bind h0.a := by
  cases p with
  | none => rfl
  | some r => exact k.2 r (hp r rfl)

theorem live_keeps (k : Keeps h0 h) (ok : h0.Ok) {p : Option ℕ} (hp : ∀ r ∈ p, (h0.a r).isSome) : ∀ r ∈ p, (h.a r).isSome :=
  fun r hr => by rw [k.2 r (live_lt ok (hp r hr))]; exact hp r hr

theorem cast_array_sim' (fp : Fp) (opt : Option Options) {r : ℕ} {x : Option ℕ} {v : Vals} {n : Int} {ys xs : ℚ}
    (hr : h0.next ≤ r) (ok0 : h0.Ok) (ok : h.Ok) (k : Keeps h0 h) (ey : h.a r = some v) (hx : ∀ s ∈ x, (h0.a s).isSome) :
    Sim h0 h (slip_cast_arrayK fp opt (some r) x n ys xs) (slip_cast_array fp opt (some v) (x.bind h0.a) n ys xs)
      (Casts h r) := by
  have hlt : ∀ s ∈ x, s < h0.next := fun s hs => live_lt ok0 (hx s hs)
  rw [← bind_keeps k hlt]
  refine cast_array_sim fp opt hr ok k ey (live_keeps k ok0 hx) fun c => ?_
  have := hlt r c
  omega

theorem copyCscCsc_sim (fp : Fp) (opt : Option Options) {type : Ty} (ht : type.ok = true) {A : MatK} {nz : Int} (ok : h.Ok)
    (l : A.Live h) : Sim h h (copyCscCscK fp opt type A nz) (copyCscCsc fp opt type (A.view h) nz) (Post h) := by
  have bl := Live.below ok l
  have nep : ∀ {p : Option ℕ}, (∀ r ∈ p, r < h.next) → ∀ j, p ≠ some (h.next + j) := fun hp j c => by
    have := hp _ c; omega
  unfold copyCscCscK copyCscCsc
  refine Sim.bind (alloc_csc ht (Keeps.refl h)) ?_
  rintro c cK h1 ⟨v, rfl, rfl, rfl⟩
  have k1 : Keeps h (((h.add (.int64 (calloc ((A.view h).n + 1)))).add (.int64 (calloc (max nz 1)))).add v) :=
    (((Keeps.refl h).add _).add _).add _
  have ok1 : Heap.Ok (((h.add (.int64 (calloc ((A.view h).n + 1)))).add (.int64 (calloc (max nz 1)))).add v) :=
    Ok.add (Ok.add (Ok.add ok _) _) _
  refine Sim.bind (copyInts_sim (r := h.next) (x := A.p) le_rfl k1 (by simp [add_a, Nat.add_assoc]; rfl) ?_ (nep bl.p 0)) ?_
  · exact (arr_keeps accI k1 bl.p).trans (deref_view _).symm
  rintro p - h2 rfl
  have k2 := k1.put le_rfl (some (.int64 p))
  refine Sim.bind (copyInts_sim (r := h.next + 1) (x := A.i) (Nat.le_add_right _ _) k2 (by simp [put_a, add_a]; rfl) ?_ (nep bl.i 1)) ?_
  · exact (arr_keeps accI k2 bl.i).trans (deref_view _).symm
  rintro i - h3 rfl
  have k3 := k2.put (Nat.le_add_right _ 1) (some (.int64 i))
  refine Sim.bind (cast_array_sim' fp opt (r := h.next + 2) (x := A.x) (v := v) (Nat.le_add_right _ _) ok ?_ k3 (by simp [put_a, add_a]) (Live.x l)) ?_
  · exact Ok.put (Ok.put ok1 (by simp only [add_next]; omega) _) (by simp only [add_next, put_next]; omega) _
  rintro ⟨x, s⟩ t h4 ⟨rfl, j, rfl⟩
  refine Sim.pure (post_csc ?_ ?_ ?_ ?_ ?_ ?_ ?_ ?_ ?_ ?_ ?_)
  all_goals try simp only [grow_a, put_a, add_a, grow_next, put_next, add_next]
  · omega
  · simp
  · simp
  · simp
  · omega
  · omega
  · omega
  · omega
  · omega
  · omega
  · intro q a b c
    simp [a, b, c]

theorem copyDenseDense_sim (fp : Fp) (opt : Option Options) {type : Ty} (ht : type.ok = true) {A : MatK} {nz : Int} (ok : h.Ok)
    (l : A.Live h) : Sim h h (copyDenseDenseK fp opt type A nz) (copyDenseDense fp opt type (A.view h) nz) (Post h) := by
  unfold copyDenseDenseK copyDenseDense
  refine Sim.bind (alloc_dense ht (Keeps.refl h)) ?_
  rintro c cK h1 ⟨v, rfl, rfl, rfl⟩
  refine Sim.bind (cast_array_sim' fp opt (r := h.next) (x := A.x) (v := v) le_rfl ok (Ok.add ok _) ((Keeps.refl h).add _)
    (by simp [add_a]) (Live.x l)) ?_
  rintro ⟨x, s⟩ t h4 ⟨rfl, j, rfl⟩
  refine Sim.pure (post_dense ?_ ?_ ?_ ?_)
  all_goals try simp only [grow_a, put_a, add_a, grow_next, put_next, add_next]
  · omega
  · simp
  · omega
  · intro q a
    simp [a]

theorem copyTripletTriplet_sim (fp : Fp) (opt : Option Options) {type : Ty} (ht : type.ok = true) {A : MatK} {nz : Int} (ok : h.Ok)
    (l : A.Live h) : Sim h h (copyTripletTripletK fp opt type A nz) (copyTripletTriplet fp opt type (A.view h) nz) (Post h) := by
  have bl := Live.below ok l
  have nep : ∀ {p : Option ℕ}, (∀ r ∈ p, r < h.next) → ∀ j, p ≠ some (h.next + j) := fun hp j c => by
    have := hp _ c; omega
  unfold copyTripletTripletK copyTripletTriplet
  refine Sim.bind (alloc_triplet ht (Keeps.refl h)) ?_
  rintro c cK h1 ⟨v, rfl, rfl, rfl⟩
  have k1 : Keeps h (((h.add (.int64 (calloc (max nz 1)))).add (.int64 (calloc (max nz 1)))).add v) :=
    (((Keeps.refl h).add _).add _).add _
  have ok1 : Heap.Ok (((h.add (.int64 (calloc (max nz 1)))).add (.int64 (calloc (max nz 1)))).add v) :=
    Ok.add (Ok.add (Ok.add ok _) _) _
  refine Sim.bind (copyInts_sim (r := h.next + 1) (x := A.j) (Nat.le_add_right _ _) k1 (by simp [add_a]; rfl) ?_ (nep bl.j 1)) ?_
  · exact (arr_keeps accI k1 bl.j).trans (deref_view _).symm
  rintro p - h2 rfl
  have k2 := k1.put (Nat.le_add_right _ 1) (some (.int64 p))
  refine Sim.bind (copyInts_sim (r := h.next) (x := A.i) le_rfl k2 (by simp [put_a, add_a, Nat.add_assoc]; rfl) ?_ (nep bl.i 0)) ?_
  · exact (arr_keeps accI k2 bl.i).trans (deref_view _).symm
  rintro i - h3 rfl
  have k3 := k2.put (le_refl _) (some (.int64 i))
  refine Sim.bind (cast_array_sim' fp opt (r := h.next + 2) (x := A.x) (v := v) (Nat.le_add_right _ _) ok ?_ k3 (by simp [put_a, add_a]) (Live.x l)) ?_
  · exact Ok.put (Ok.put ok1 (by simp only [add_next]; omega) _) (by simp only [add_next, put_next]; omega) _
  rintro ⟨x, s⟩ t h4 ⟨rfl, j, rfl⟩
  refine Sim.pure (post_triplet ?_ ?_ ?_ ?_ ?_ ?_ ?_ ?_ ?_ ?_ ?_)
  all_goals try simp only [grow_a, put_a, add_a, grow_next, put_next, add_next]
  · omega
  · simp
  · simp
  · simp
  · omega
  · omega
  · omega
  · omega
  · omega
  · omega
  · intro q a b c
    simp [a, b, c]

theorem copyCscTriplet_sim (fp : Fp) (opt : Option Options) {type : Ty} (ht : type.ok = true) {A : MatK} {nz : Int} (ok : h.Ok)
    (l : A.Live h) : Sim h h (copyCscTripletK fp opt type A nz) (copyCscTriplet fp opt type (A.view h) nz) (Post h) := by
  have bl := Live.below ok l
  have nep : ∀ {p : Option ℕ}, (∀ r ∈ p, r < h.next) → ∀ j, p ≠ some (h.next + j) := fun hp j c => by
    have := hp _ c; omega
  unfold copyCscTripletK copyCscTriplet
  refine Sim.bind (alloc_triplet ht (Keeps.refl h)) ?_
  rintro c cK h1 ⟨v, rfl, rfl, rfl⟩
  have k1 : Keeps h (((h.add (.int64 (calloc (max nz 1)))).add (.int64 (calloc (max nz 1)))).add v) :=
    (((Keeps.refl h).add _).add _).add _
  have ok1 : Heap.Ok (((h.add (.int64 (calloc (max nz 1)))).add (.int64 (calloc (max nz 1)))).add v) :=
    Ok.add (Ok.add (Ok.add ok _) _) _
  refine Sim.bind (cast_array_sim' fp opt (r := h.next + 2) (x := A.x) (v := v) (Nat.le_add_right _ _) ok ok1 k1 (by simp [add_a]) (Live.x l)) ?_
  rintro ⟨x, s⟩ t h4 ⟨rfl, g, rfl⟩
  have k2 := (k1.put (Nat.le_add_right _ 2) (some x)).grow g
  refine Sim.bind (copyInts_sim (r := h.next) (x := A.i) le_rfl k2 (by simp [put_a, add_a, Nat.add_assoc]; rfl) ?_ (nep bl.i 0)) ?_
  · exact (arr_keeps accI k2 bl.i).trans (deref_view _).symm
  rintro i - h3 rfl
  have k3 := k2.put (le_refl _) (some (.int64 i))
  refine Sim.bind (cols_sim (x := h.next + 1) (Ap := A.p) (Nat.le_add_right _ _) k3 (by simp [put_a, add_a]; rfl) ?_ (nep bl.p 1)) ?_
  · exact (arr_keeps accI k3 bl.p).trans (deref_view _).symm
  rintro j - h3 rfl
  refine Sim.pure (post_triplet ?_ ?_ ?_ ?_ ?_ ?_ ?_ ?_ ?_ ?_ ?_)
  all_goals try simp only [grow_a, put_a, add_a, grow_next, put_next, add_next]
  · omega
  · simp
  · simp
  · simp
  · omega
  · omega
  · omega
  · omega
  · omega
  · omega
  · intro q a b c
    simp [a, b, c]

end Slip.Copy
