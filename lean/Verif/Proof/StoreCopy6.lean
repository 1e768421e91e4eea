import Verif.Proof.StoreCopy5

/-!
# `SLIP_matrix_copy` over a heap: to CSC form, and the whole function
-/

namespace Slip.Copy

variable {α β γ δ σ τ : Type} {h0 h : Heap}

theorem arr_vals {T : Acc α} {p : Option ℕ} {a : Arr α} (e : p.bind h.a = some (T.of a)) : arr T h p = a := by
  unfold arr
  rw [e]
  show (T.get _).getD _ = _
  rw [T.get_of]; rfl

theorem copyDenseCsc_sim (fp : Fp) (opt : Option Options) {type : Ty} (ht : type.ok = true) {A : MatK} {nz : Int} (ok : h.Ok)
    (l : A.Live h) : Sim h h (copyDenseCscK fp opt type A nz) (copyDenseCsc fp opt type (A.view h) nz) (Post h) := by
  have bl := Live.below ok l
  unfold copyDenseCscK copyDenseCsc
  refine Sim.bind (cast_matrix_sim fp opt ht (Keeps.refl h) ok (Live.x l) rfl) ?_
  rintro ⟨y, s⟩ Y h1 ⟨es, ow, q⟩
  have yl : ∀ r ∈ Y.x, r < h1.next := fun r hr => live_lt q.ok (q.live r hr)
  have hn := q.nx
  refine Sim.weaken q.keeps ?_
  dsimp only
  refine Sim.bind (withVals_sim (Q := fun s t h' => t = s.2 ∧ h' = h1) (Keeps.refl h1) q.live q.live q.vals q.vals ?_) ?_
  · intro α T e ca ya e1 e2
    refine Sim.bindPure (countNz_sim (Keeps.refl h1) (arr_vals (q.vals.trans e2))) ?_
    rintro a b h' ⟨rfl, rfl⟩
    exact Sim.pure ⟨rfl, rfl⟩
  rintro ⟨-, actual⟩ t h2 ⟨rfl, rfl⟩
  dsimp only
  refine Sim.bind (alloc_csc ht (Keeps.refl h2)) ?_
  rintro c cK h3 ⟨v, rfl, rfl, rfl⟩
  have k3 : Keeps h2 (((h2.add (.int64 (calloc (A.n + 1)))).add (.int64 (calloc (max t 1)))).add v) :=
    (((Keeps.refl h2).add _).add _).add _
  generalize eg : ((h2.add (.int64 (calloc (A.n + 1)))).add (.int64 (calloc (max t 1)))).add v = g3 at k3 ⊢
  have e1 : g3.a h2.next = some (.int64 (calloc (A.n + 1))) := by rw [← eg]; simp [add_a, Nat.add_assoc]
  have e2 : g3.a (h2.next + 1) = some (.int64 (calloc (max t 1))) := by rw [← eg]; simp [add_a, Nat.add_assoc]
  have e3 : g3.a (h2.next + 2) = some v := by rw [← eg]; simp [add_a, Nat.add_assoc]
  have e4 : ∀ r, r ≠ h2.next → r ≠ h2.next + 1 → r ≠ h2.next + 2 → g3.a r = h2.a r := by
    intro r a b c
    rw [← eg]; simp [add_a, Nat.add_assoc, a, b, c]
  have e5 : g3.next = h2.next + 3 := by rw [← eg]; rfl
  have ey : Y.x.bind g3.a = y := (bind_keeps k3 yl).trans q.vals
  refine Sim.bind (withVals_sim (Cx := some (h2.next + 2)) (Q := fun s _ h' => h' = g3.put3 h2.next (.int64 s.2.1)
    (h2.next + 1) (.int64 s.2.2) (h2.next + 2) s.1) k3 (fun r hr => by cases hr; rw [e3]; rfl) (live_keeps k3 q.ok q.live) e3 ey ?_) ?_
  · intro α T e ca ya c1 c2
    refine buildFromDense_sim le_rfl (Nat.le_add_right _ _) (Nat.le_add_right _ _) k3 e1 e2 (e3.trans c1) (by omega) (by omega)
      (by omega) (arr_vals (ey.trans c2)) fun r hr => ?_
    have := yl r hr
    omega
  rintro ⟨x, p, i⟩ u h4 rfl
  obtain ⟨H', f1, f2, f3⟩ := q.release (g3.put3 h2.next (.int64 p) (h2.next + 1) (.int64 i) (h2.next + 2) x) fun r hr => by
    have := yl r hr
    rw [put3_a, if_neg (by omega), if_neg (by omega), if_neg (by omega), e4 r (by omega) (by omega) (by omega)]
    exact q.live r hr
  refine Sim.step f1 ?_
  have f2 : H'.next = h2.next + 3 := f2.trans e5
  have no : ∀ r, h2.next ≤ r → r ∉ ow := fun r hr c => by
    have := (q.low r c).2
    omega
  dsimp only at es
  rw [es]
  refine Sim.pure (post_csc (r1 := h2.next) (r2 := h2.next + 1) (r3 := h2.next + 2) ?_ ?_ ?_ ?_ ?_ ?_ ?_ ?_ ?_ ?_ ?_)
  · omega
  · rw [f3, if_neg (no _ le_rfl), put3_a]; simp
  · rw [f3, if_neg (no _ (by omega)), put3_a]; simp
  · rw [f3, if_neg (no _ (by omega)), put3_a]; simp
  · omega
  · omega
  · omega
  · omega
  · omega
  · omega
  · intro r a b c
    rw [f3]
    by_cases d : r ∈ ow
    · rw [if_pos d]
      exact (ok r (q.low r d).1).symm
    · rw [if_neg d, put3_a, if_neg c, if_neg b, if_neg a, e4 r a b c, q.same r d]

theorem copyTripletCsc_sim (fp : Fp) (opt : Option Options) {type : Ty} (ht : type.ok = true) {A : MatK} {nz : Int} (ok : h.Ok)
    (l : A.Live h) : Sim h h (copyTripletCscK fp opt type A nz) (copyTripletCsc fp opt type (A.view h) nz) (Post h) := by
  have bl := Live.below ok l
  unfold copyTripletCscK copyTripletCsc
  refine Sim.bind (cast_matrix_sim fp opt ht (Keeps.refl h) ok (Live.x l) rfl) ?_
  rintro ⟨y, s⟩ Y h2 ⟨es, ow, q⟩
  have yl : ∀ r ∈ Y.x, r < h2.next := fun r hr => live_lt q.ok (q.live r hr)
  have hn := q.nx
  refine Sim.weaken q.keeps ?_
  dsimp only
  refine Sim.new ?_
  refine Sim.bind (alloc_csc ht ((Keeps.refl h2).add _)) ?_
  rintro c cK h3 ⟨v, rfl, rfl, rfl⟩
  have k3 : Keeps h2 ((((h2.add (.int64 (calloc A.n))).add (.int64 (calloc (A.n + 1)))).add (.int64 (calloc (max nz 1)))).add v) :=
    ((((Keeps.refl h2).add _).add _).add _).add _
  generalize eg : (((h2.add (.int64 (calloc A.n))).add (.int64 (calloc (A.n + 1)))).add (.int64 (calloc (max nz 1)))).add v = g3 at k3 ⊢
  have e0 : g3.a h2.next = some (.int64 (calloc A.n)) := by rw [← eg]; simp [add_a, Nat.add_assoc]
  have e1 : g3.a (h2.next + 1) = some (.int64 (calloc (A.n + 1))) := by rw [← eg]; simp [add_a, Nat.add_assoc]
  have e2 : g3.a (h2.next + 1 + 1) = some (.int64 (calloc (max nz 1))) := by rw [← eg]; simp [add_a, Nat.add_assoc]
  have e3 : g3.a (h2.next + 1 + 2) = some v := by rw [← eg]; simp [add_a, Nat.add_assoc]
  have e4 : ∀ r, r ≠ h2.next → r ≠ h2.next + 1 → r ≠ h2.next + 1 + 1 → r ≠ h2.next + 1 + 2 → g3.a r = h2.a r := by
    intro r a b c d
    rw [← eg]; simp [add_a, Nat.add_assoc] at *; simp [a, b, c, d]
  have e5 : g3.next = h2.next + 4 := by rw [← eg]; rfl
  simp only [add_next]
  have eA : ∀ {H : Heap} {p : Option ℕ}, Keeps h2 H → (∀ r ∈ p, r < h.next) →
      arr accI H p = deref (p.map fun r => arr accI h (some r)) := fun k hp =>
    (arr_keeps accI (q.keeps.trans k) hp).trans (deref_view _).symm
  refine Sim.bind (count_sim (W := h2.next) (Aj := A.j) le_rfl k3 e0 (eA k3 bl.j) (fun c => ?_)) ?_
  · have := bl.j _ c; omega
  rintro w - h4 rfl
  have k4 := k3.put le_rfl (some (.int64 w))
  refine Sim.bind (cumsum_sim (r := h2.next + 1) (c := h2.next) (by omega) (by omega) k4
    (by rw [put_a, if_neg (by omega)]; exact e1) (by rw [put_a, if_pos rfl]) (by omega)) ?_
  rintro ⟨p, w'⟩ - h5 rfl
  have k5 := k4.put2 (r1 := h2.next + 1) (r2 := h2.next) (by omega) (by omega) (.int64 p) (.int64 w')
  generalize eg5 : (g3.put h2.next (some (.int64 w))).put2 (h2.next + 1) (.int64 p) h2.next (.int64 w') = g5 at k5 ⊢
  have c0 : g5.a h2.next = some (.int64 w') := by rw [← eg5, put2_a, if_pos rfl]
  have c1 : g5.a (h2.next + 1) = some (.int64 p) := by rw [← eg5, put2_a, if_neg (by omega), if_pos rfl]
  have c2 : g5.a (h2.next + 1 + 1) = some (.int64 (calloc (max nz 1))) := by
    rw [← eg5, put2_a, if_neg (by omega), if_neg (by omega), put_a, if_neg (by omega)]; exact e2
  have c3 : g5.a (h2.next + 1 + 2) = some v := by
    rw [← eg5, put2_a, if_neg (by omega), if_neg (by omega), put_a, if_neg (by omega)]; exact e3
  have c4 : ∀ r, r ≠ h2.next → r ≠ h2.next + 1 → r ≠ h2.next + 1 + 1 → r ≠ h2.next + 1 + 2 → g5.a r = h2.a r := by
    intro r a b c d
    rw [← eg5, put2_a, if_neg a, if_neg b, put_a, if_neg a]; exact e4 r a b c d
  have c5 : g5.next = h2.next + 4 := by rw [← eg5]; exact e5
  have ey : Y.x.bind g5.a = y := (bind_keeps k5 yl).trans q.vals
  dsimp only
  refine Sim.bind (withVals_sim (Cx := some (h2.next + 1 + 2)) (Q := fun s _ h' => ∃ w'', h' = g5.put3 h2.next w''
    (h2.next + 1 + 1) (.int64 s.2) (h2.next + 1 + 2) s.1) k5 (fun r hr => by cases hr; rw [c3]; rfl) (live_keeps k5 q.ok q.live) c3 ey ?_) ?_
  · intro α T e ca ya d1 d2
    refine buildCsc_sim (W := h2.next) (i := h2.next + 1 + 1) (x := h2.next + 1 + 2) (Ai := A.i) (Aj := A.j) (Yx := Y.x)
      le_rfl (by omega) (by omega) k5 c0 c2 (c3.trans d1) (by omega) (by omega)
      (by omega) (eA k5 bl.i) (eA k5 bl.j) (arr_vals (ey.trans d2)) (fun r hr => ?_) (fun r hr => ?_) (fun r hr => ?_)
    · have := bl.i r hr
      omega
    · have := bl.j r hr
      omega
    · have := yl r hr
      omega
  rintro ⟨x, i⟩ u h4 ⟨w'', rfl⟩
  obtain ⟨H', f1, f2, f3⟩ := q.release (g5.put3 h2.next w'' (h2.next + 1 + 1) (.int64 i) (h2.next + 1 + 2) x) fun r hr => by
    have := yl r hr
    rw [put3_a, if_neg (by omega), if_neg (by omega), if_neg (by omega), c4 r (by omega) (by omega) (by omega) (by omega)]
    exact q.live r hr
  have f2 : H'.next = h2.next + 4 := f2.trans c5
  have no : ∀ r, h2.next ≤ r → r ∉ ow := fun r hr c => by
    have := (q.low r c).2
    omega
  refine Sim.step f1 (Sim.free ?_ ?_)
  · rw [f3, if_neg (no _ le_rfl), put3_a, if_neg (by omega), if_neg (by omega), if_pos rfl]; rfl
  dsimp only at es
  rw [es]
  refine Sim.pure (post_csc (r1 := h2.next + 1) (r2 := h2.next + 1 + 1) (r3 := h2.next + 1 + 2) ?_ ?_ ?_ ?_ ?_ ?_ ?_ ?_ ?_ ?_ ?_)
  all_goals try simp only [put_next]
  · omega
  · rw [put_a, if_neg (by omega), f3, if_neg (no _ (by omega)), put3_a, if_neg (by omega), if_neg (by omega), if_neg (by omega)]
    exact c1
  · rw [put_a, if_neg (by omega), f3, if_neg (no _ (by omega)), put3_a, if_neg (by omega), if_pos rfl]
  · rw [put_a, if_neg (by omega), f3, if_neg (no _ (by omega)), put3_a, if_pos rfl]
  · omega
  · omega
  · omega
  · omega
  · omega
  · omega
  · intro r a b c
    rw [put_a]
    by_cases z : r = h2.next
    · rw [if_pos z]
      exact (ok r (by omega)).symm
    rw [if_neg z, f3]
    by_cases d : r ∈ ow
    · rw [if_pos d]
      exact (ok r (q.low r d).1).symm
    · rw [if_neg d, put3_a, if_neg c, if_neg b, if_neg z, c4 r z a b c, q.same r d]

/-! ## Freeing -/

theorem freeIf_run {p : Option ℕ} (l : ∀ r ∈ p, (h.a r).isSome) :
    ∃ h', freeIfK p false h = (.ok (), h') ∧ h'.next = h.next ∧ ∀ s, h'.a s = if p = some s then none else h.a s := by
  cases p with
  | none => exact ⟨h, rfl, rfl, fun s => (if_neg (by simp)).symm⟩
  | some r =>
    refine ⟨h.put r none, free_run (l r rfl), rfl, fun s => ?_⟩
    rw [put_a]
    by_cases e : s = r
    · rw [if_pos e, if_pos (by rw [e])]
    · rw [if_neg e, if_neg (fun c => e (by cases c; rfl))]

/-- Freeing an object that owns its arrays. -/
theorem free_mat {A : MatK} (own : A.pShallow = false ∧ A.iShallow = false ∧ A.jShallow = false ∧ A.xShallow = false)
    (nd : A.refs.Nodup) (l : A.Live h) :
    ∃ h', SLIP_matrix_freeK (some A) h = (.ok (), h') ∧ h'.next = h.next ∧ ∀ s, h'.a s = if s ∈ A.refs then none else h.a s := by
  obtain ⟨m, n, nzmax, nz, kind, type, p, pS, i, iS, j, jS, x, xS, scale⟩ := A
  obtain ⟨rfl, rfl, rfl, rfl⟩ := own
  have nd : (p.toList ++ i.toList ++ j.toList ++ x.toList).Nodup := nd
  have l : ∀ r ∈ p.toList ++ i.toList ++ j.toList ++ x.toList, (h.a r).isSome := l
  show ∃ h', (do freeIfK x false; freeIfK p false; freeIfK i false; freeIfK j false : K Unit) h = (.ok (), h') ∧ h'.next = h.next ∧
    ∀ s, h'.a s = if s ∈ p.toList ++ i.toList ++ j.toList ++ x.toList then none else h.a s
  simp only [List.nodup_append, List.mem_append, Option.mem_toList] at nd l ⊢
  obtain ⟨⟨⟨-, -, dpi⟩, -, dj⟩, -, dx⟩ := nd
  obtain ⟨h1, r1, n1, a1⟩ := freeIf_run (h := h) (p := x) fun r hr => l r (Or.inr hr)
  obtain ⟨h2, r2, n2, a2⟩ := freeIf_run (h := h1) (p := p) fun r hr => by
    rw [a1, if_neg (fun c => dx r (Or.inl (Or.inl hr)) r c rfl)]; exact l r (Or.inl (Or.inl (Or.inl hr)))
  obtain ⟨h3, r3, n3, a3⟩ := freeIf_run (h := h2) (p := i) fun r hr => by
    rw [a2, if_neg (fun c => dpi r c r hr rfl), a1, if_neg (fun c => dx r (Or.inl (Or.inr hr)) r c rfl)]
    exact l r (Or.inl (Or.inl (Or.inr hr)))
  obtain ⟨h4, r4, n4, a4⟩ := freeIf_run (h := h3) (p := j) fun r hr => by
    rw [a3, if_neg (fun c => dj r (Or.inr c) r hr rfl), a2, if_neg (fun c => dj r (Or.inl c) r hr rfl), a1,
      if_neg (fun c => dx r (Or.inr hr) r c rfl)]
    exact l r (Or.inl (Or.inr hr))
  refine ⟨h4, ?_, by rw [n4, n3, n2, n1], fun s => ?_⟩
  · rw [bind_run r1, bind_run r2, bind_run r3, r4]
  · rw [a4, a3, a2, a1]
    by_cases c1 : j = some s <;> by_cases c2 : i = some s <;> by_cases c3 : p = some s <;> by_cases c4 : x = some s <;> simp [c1, c2, c3, c4]

theorem Adds.keeps {h h' : Heap} {rs : List ℕ} (a : Adds h h' rs) : Keeps h h' :=
  ⟨a.1, fun r hr => a.2.2.2 r fun c => by have := (a.2.2.1 r c).1; omega⟩

theorem Adds.ok {h h' : Heap} {rs : List ℕ} (a : Adds h h' rs) (o : h.Ok) : h'.Ok := fun r hr => by
  rw [a.2.2.2 r fun c => by have := (a.2.2.1 r c).2.1; omega]
  exact o r (a.1.trans hr)

theorem Post.live {c : Mat} {cK : MatK} {h' : Heap} (p : Post h c cK h') : cK.Live h' := fun r hr => (p.adds.2.2.1 r hr).2.2

theorem copyDenseTriplet_sim (fp : Fp) (opt : Option Options) {type : Ty} (ht : type.ok = true) {A : MatK} {nz : Int} (ok : h.Ok)
    (l : A.Live h) : Sim h h (copyDenseTripletK fp opt type A nz) (copyDenseTriplet fp opt type (A.view h) nz) (Post h) := by
  unfold copyDenseTripletK copyDenseTriplet
  refine Sim.bind (copyDenseCsc_sim fp opt ht ok l) ?_
  rintro t tK h1 q
  refine Sim.weaken q.adds.keeps ?_
  obtain rfl := q.view
  refine Sim.bind (nnz_sim true (some tK) (Keeps.refl h1)) ?_
  rintro tnz w h2 ⟨rfl, rfl⟩
  have ok1 := q.adds.ok ok
  refine Sim.bind (copyCscTriplet_sim fp opt ht ok1 q.live) ?_
  rintro c cK h3 r
  have kl : ∀ s ∈ tK.refs, s < h2.next := fun s hs => (q.adds.2.2.1 s hs).2.1
  obtain ⟨h4, f1, f2, f3⟩ := free_mat (h := h3) q.own q.adds.2.1 fun s hs => by
    rw [r.adds.keeps.2 s (kl s hs)]; exact q.live s hs
  refine Sim.step f1 (Sim.pure ?_)
  have nt : ∀ s, h2.next ≤ s → s ∉ tK.refs := fun s hs c => by have := kl s c; omega
  have n1 := q.adds.1
  refine ⟨⟨?_, r.adds.2.1, fun s hs => ?_, fun s hs => ?_⟩, ?_, r.own⟩
  · rw [f2]; exact q.adds.1.trans r.adds.1
  · obtain ⟨b1, b2, b3⟩ := r.adds.2.2.1 s hs
    exact ⟨n1.trans b1, by rw [f2]; exact b2, by rw [f3, if_neg (nt s b1)]; exact b3⟩
  · rw [f3]
    by_cases d : s ∈ tK.refs
    · rw [if_pos d]
      exact (ok s (q.adds.2.2.1 s d).1).symm
    · rw [if_neg d, r.adds.2.2.2 s hs, q.adds.2.2.2 s d]
  · have e : MatK.view h4 cK = c := by
      rw [← r.view]
      have e1 : ∀ s ∈ cK.refs, h4.a s = h3.a s := fun s hs => by rw [f3, if_neg (nt s (r.adds.2.2.1 s hs).1)]
      have e2 : ∀ {p : Option ℕ}, (∀ s ∈ p, s ∈ cK.refs) →
          (p.map fun r => arr accI h4 (some r)) = p.map fun r => arr accI h3 (some r) := fun {p} hp => by
        cases p with
        | none => rfl
        | some s =>
          show some (((h4.a s).bind accI.get).getD []) = some (((h3.a s).bind accI.get).getD [])
          rw [e1 s (hp s rfl)]
      have e3 : cK.x.bind h4.a = cK.x.bind h3.a := by
        cases hx : cK.x with
        | none => rfl
        | some s => exact e1 s (by unfold MatK.refs; rw [hx]; simp)
      unfold MatK.view
      rw [e2 (p := cK.p), e2 (p := cK.i), e2 (p := cK.j), e3]
      all_goals
        intro s hs
        unfold MatK.refs
        simp only [List.mem_append, Option.mem_toList]
        tauto
    rw [← e]
    rfl

theorem copyBody_sim (fp : Fp) (opt : Option Options) {kind : Kind} {type : Ty} (ht : type.ok = true) {A : MatK} {nz : Int} (ok : h.Ok)
    (l : A.Live h) : Sim h h (copyBodyK fp opt kind type A nz) (copyBody fp opt kind type (A.view h) nz) (Post h) := by
  have bad : Sim h h (Copy.lift (.error .ub) : K MatK) (.error .ub : C Mat) (Post h) := Sim.error (Keeps.refl h)
  have ek : (A.view h).kind = A.kind := rfl
  unfold copyBodyK copyBody
  rw [ek]
  cases kind with
  | csc => cases A.kind with
    | csc => exact copyCscCsc_sim fp opt ht ok l
    | triplet => exact copyTripletCsc_sim fp opt ht ok l
    | dense => exact copyDenseCsc_sim fp opt ht ok l
    | bad _ => exact bad
  | triplet => cases A.kind with
    | csc => exact copyCscTriplet_sim fp opt ht ok l
    | triplet => exact copyTripletTriplet_sim fp opt ht ok l
    | dense => exact copyDenseTriplet_sim fp opt ht ok l
    | bad _ => exact bad
  | dense => cases A.kind with
    | csc => exact copyCscDense_sim fp opt ht ok l
    | triplet => exact copyTripletDense_sim fp opt ht ok l
    | dense => exact copyDenseDense_sim fp opt ht ok l
    | bad _ => exact bad
  | bad _ => exact bad

/-- What `SLIP_matrix_copy` achieves. -/
def CopyPost (h : Heap) (Ch : Handle MatK) (v : Info × Handle Mat) (w : Info × Handle MatK) (h' : Heap) : Prop :=
  copyView h' w = v ∧ ((∃ c cK, w = (.ok, some (some cK)) ∧ Post h c cK h') ∨
    ((w.1 ≠ .ok ∧ w.2 = Ch ∨ w.2 = some none) ∧ Keeps h h'))

theorem matrix_copy_sim (fp : Fp) (init : Bool) (Ch : Handle MatK) (kind : Kind) (type : Ty) (A : Option MatK) (opt : Option Options)
    (ok : h.Ok) (l : ∀ M ∈ A, M.Live h) :
    Sim h h (SLIP_matrix_copyK fp init Ch kind type A opt)
      (SLIP_matrix_copy fp init (Ch.map (Option.map (MatK.view h))) kind type (A.map (MatK.view h)) opt) (CopyPost h Ch) := by
  unfold SLIP_matrix_copyK SLIP_matrix_copy
  refine Sim.ite (fun _ => Sim.pure ⟨rfl, Or.inr ⟨Or.inl ⟨Info.noConfusion, rfl⟩, Keeps.refl h⟩⟩) fun hi => ?_
  refine Sim.bind (nnz_sim init A (Keeps.refl h)) ?_
  rintro nz w h' ⟨rfl, rfl⟩
  cases A with
  | none => exact Sim.pure ⟨rfl, Or.inr ⟨Or.inl ⟨Info.noConfusion, rfl⟩, Keeps.refl h'⟩⟩
  | some A =>
    have e : (Ch.isNone = true ∨ w < 0 ∨ A.type.ok = false ∨ kind.ok = false ∨ type.ok = false) ↔
        (Ch.map (Option.map (MatK.view h')) = none ∨ w < 0 ∨ (A.view h').type.ok = false ∨ kind.ok = false ∨ type.ok = false) := by
      have : (A.view h').type = A.type := rfl
      rw [this]
      cases Ch <;> simp
    show Sim h' h' (if _ then _ else _) (if _ then _ else _) _
    by_cases c : Ch.isNone = true ∨ w < 0 ∨ A.type.ok = false ∨ kind.ok = false ∨ type.ok = false
    · rw [if_pos c, if_pos (e.1 c)]
      exact Sim.pure ⟨rfl, Or.inr ⟨Or.inl ⟨Info.noConfusion, rfl⟩, Keeps.refl h'⟩⟩
    · rw [if_neg c, if_neg (fun d => c (e.2 d))]
      have ht : type.ok = true := by
        cases e : type.ok with
        | true => rfl
        | false => exact absurd (Or.inr (Or.inr (Or.inr (Or.inr e)))) c
      have s := copyBody_sim fp opt (kind := kind) ht (nz := w) ok (l A rfl)
      unfold copyWrapK
      unfold Sim at s ⊢
      cases ev : copyBody fp opt kind type (A.view h') w with
      | ok v =>
        rw [ev] at s
        obtain ⟨cK, h2, e1, q⟩ := s
        refine ⟨(.ok, some (some cK)), h2, ?_, ?_, Or.inl ⟨v, cK, rfl, q⟩⟩
        · simp only [e1]
        · show (Info.ok, some (some (cK.view h2))) = _
          rw [q.view]
      | error f =>
        rw [ev] at s
        obtain ⟨h2, e1, q⟩ := s
        cases f with
        | ret i =>
          refine ⟨(i, some none), h2, ?_, rfl, Or.inr ⟨Or.inr rfl, q⟩⟩
          simp only [e1]
        | ub => exact ⟨h2, by simp only [e1], q⟩
        | fuel => exact ⟨h2, by simp only [e1], q⟩

end Slip.Copy
