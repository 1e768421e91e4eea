import Verif.Proof.HeapAlloc

/-!
# The functions behind SLIP_LU_solve
-/

namespace Slip.Mem

variable {α β σ : Type} {base : Addr → Option ℕ} {own rest : Multiset Addr} {n : ℕ}

/-- The statement keeps account and the condition `I`. -/
abbrev Keeps (base : Addr → Option ℕ) (cells : σ → Multiset Addr) (P : Prop) (I : σ → Prop) (s : Step σ) :
    Prop := Tri base cells P I I I s

section
variable {cells : σ → Multiset Addr} {P : Prop} {I : σ → Prop} {s t : Step σ}

theorem Keeps.query : Keeps base cells P I Mem.query := Tri.query fun _ h => ⟨h, h⟩
theorem Keeps.skip : Keeps base cells P I (fun w => Pure.pure (.ok, w)) := Tri.skip fun _ h => ⟨h, h⟩
theorem Keeps.nil : Keeps base cells P I (seq []) := Keeps.skip
theorem Keeps.cons {l : List (Step σ)} (h : Keeps base cells P I s) (hl : Keeps base cells P I (seq l)) :
    Keeps base cells P I (seq (s :: l)) := Tri.cons h hl
theorem Keeps.maybe (h : Keeps base cells P I s) : Keeps base cells P I (maybe s) :=
  Tri.maybe h fun _ h => ⟨h, h⟩
theorem Keeps.anyTimes (h : Keeps base cells P I s) : Keeps base cells P I (anyTimes s) :=
  Tri.anyTimes (fun _ h => h) h
theorem Keeps.forN {c : ℕ} {s : ℕ → Step σ} (h : ∀ i, i < c → Keeps base cells P I (s i)) :
    Keeps base cells P I (forN c s) := Tri.loop (fun _ h => h) h
theorem Keeps.when {c : Bool} (h : Keeps base cells P I s) : Keeps base cells P I (when (fun _ => c) s) :=
  Tri.when (h.mono (fun _ h => h.1) (fun _ h => h) (fun _ h => h) id) fun _ h _ => ⟨h, h⟩
end

section
variable {P : Prop} {κ : Kind} {τ : Ty} {m k : ℤ} {N : ℕ}

/-- All entries of the matrix are initialised. -/
abbrev Full (κ : Kind) (τ : Ty) (m k : ℤ) (N : ℕ) : HMat → Prop := Mat κ τ m k N N

theorem Keeps.entryCall {i : ℕ} (hm : isMp τ = true) (hi : i < N) :
    Keeps base HMat.blocks P (Full κ τ m k N) (entry i call) := Tri.entryCall hm hi hi

theorem Keeps.entryAny {c : ℕ} (hm : isMp τ = true) (hc : 0 < c) (hN : c ≤ N) :
    Keeps base HMat.blocks P (Full κ τ m k N) (entryAny c call) := Tri.entryAny hm hc hN hN

theorem Keeps.there {I : HMat → Prop} {s : Step HMat} (h : Keeps base HMat.blocks P I s) :
    Keeps base matBlks P (PtrTo I) (there s) := Tri.there h

end

/-- After `SLIP_FREE_ALL` and `return (info)`, or a return of the result. -/
theorem Tri.result {P : Prop} {I J : Option HMat → Prop} {s : Step (Option HMat)}
    (hs : Tri base matBlks P I matSized J s) {o : Option HMat} (ho : I o) :
    Does base (matBlks o + own) n (do
      let (r, b) ← s o
      if r ≠ .ok then do
        matFree b
        pure (r, none)
      else pure (.ok, b)) (fun a own' n' => own' = matBlks a.2 + own ∧ (a.1 ≠ .ok → a.2 = none) ∧
        (a.1 = .ok → J a.2 ∧ (P → n' = n))) := by
  refine (hs o own n ho).bind ?_
  rintro ⟨r, b⟩ own' n' ⟨e, hK, hJ⟩
  dsimp only at *
  split
  · rename_i hr
    refine (does_matFree hK e).pass fun _ => ?_
    exact Does.pure ⟨(zero_add _).symm, fun _ => rfl, fun h => absurd h hr⟩
  · rename_i hr
    rw [not_not] at hr
    exact Does.pure ⟨e, fun h => absurd rfl h, fun _ => hJ hr⟩

/-- A function that creates a matrix which satisfies `J`. -/
def Makes (base : Addr → Option ℕ) (P : Prop) (J : Option HMat → Prop) (f : M (Info × Option HMat)) : Prop :=
  ∀ own n, Does base own n f (fun a own' n' => own' = matBlks a.2 + own ∧ (a.1 ≠ .ok → a.2 = none) ∧
    (a.1 = .ok → J a.2 ∧ (P → n' = n)))

theorem Tri.makes {P : Prop} {J K : Option HMat → Prop} {f : M (Info × Option HMat)} (hf : Makes base P J f)
    (hK : ∀ o, J o → K o) (h0 : K none) : Tri base matBlks P (fun o => matBlks o = 0) K J (fun _ => f) := by
  intro o rest n ho
  rw [ho, zero_add]
  refine (hf rest n).mono ?_
  rintro ⟨r, o'⟩ own' n' ⟨e, h1, h2⟩
  dsimp only at *
  by_cases hr : r = .ok
  · exact ⟨e, hK _ (h2 hr).1, h2⟩
  · rw [h1 hr] at e ⊢
    exact ⟨e, h0, fun h => absurd h hr⟩

theorem cap_dense (m k : ℕ) (nz : ℤ) : m * k ≤ capacity .dense m k nz := by
  unfold capacity
  rw [if_pos rfl]
  have : ((m * k : ℕ) : ℤ) = (m : ℤ) * k := by push_cast; rfl
  omega

variable {P : Prop}

theorem makes_permute {τ : Ty} {m k : ℕ} (hm : isMp τ = true) :
    Makes base P (PtrTo (Full .dense τ m k (capacity .dense m k 0))) (slip_permute τ m k) := by
  intro own n
  refine Does.congr (own' := matBlks none + own) (zero_add _).symm ?_
  refine Tri.result (I := fun o => matBlks o = 0) ?_ rfl
  refine Tri.cons Tri.alloc ?_
  refine Tri.cons ?_ (Tri.nil fun w h => ⟨h.sized, h⟩)
  refine Tri.mono (Keeps.forN fun i hi => Keeps.there (Keeps.entryAny hm (by omega) (cap_dense m k 0)))
    (fun _ h => h) (fun _ h => h.sized) (fun _ h => h) id

theorem keeps_mul {m k N : ℕ} {κ : Kind} {τ : Ty} {a b : ℤ} (hm : isMp τ = true) (hN : m * k ≤ N) :
    Keeps base HMat.blocks P (Full κ τ a b N) (slip_matrix_mul m k) :=
  Keeps.forN fun i hi => Keeps.entryCall hm (by omega)

theorem keeps_back {m k N : ℕ} {κ : Kind} {τ : Ty} {a b : ℤ} (hm : isMp τ = true) (hN : m * k ≤ N) :
    Keeps base HMat.blocks P (Full κ τ a b N) (slip_back_sub m k) := by
  refine Keeps.forN fun i hi => ?_
  have h0 : 0 < m * k := by rw [mul_comm]; omega
  have he := Keeps.entryAny (base := base) (P := P) (κ := κ) (m := a) (k := b) hm h0 hN
  exact Keeps.query.cons ((he.cons (((Keeps.query.cons (he.maybe.cons .nil)).anyTimes).cons .nil)).maybe.cons .nil)

/-! ## slip_forward_sub -/

def FwdVars.cells (w : FwdVars) : Multiset Addr := matBlks w.h + w.x.blocks

def FwdVars.I (ph : Option HMat → Prop) (px : HMat → Prop) (w : FwdVars) : Prop := ph w.h ∧ px w.x

theorem FwdVars.on_h {ph J K : Option HMat → Prop} {px : HMat → Prop} {s : Step (Option HMat)}
    (hs : Tri base matBlks P ph K J s) :
    Tri base FwdVars.cells P (FwdVars.I ph px) (FwdVars.I K px) (FwdVars.I J px) (at! h s) :=
  Tri.on none (fun w a => by unfold FwdVars.cells; exact (by rw [show matBlks none = 0 from rfl, zero_add]))
    (fun _ => rfl) hs (fun w h => h.1) (fun w a h h1 => ⟨h1, h.2⟩) (fun w a h _ h1 => ⟨h1, h.2⟩)

theorem FwdVars.on_x {ph : Option HMat → Prop} {px J K : HMat → Prop} {s : Step HMat}
    (hs : Tri base HMat.blocks P px K J s) :
    Tri base FwdVars.cells P (FwdVars.I ph px) (FwdVars.I ph K) (FwdVars.I ph J) (at! x s) := by
  rintro ⟨h, x⟩ rest n ⟨h1, h2⟩
  refine Does.congr (own' := x.blocks + (matBlks h + rest)) (by unfold FwdVars.cells; abel) ?_
  refine (hs x _ n h2).bind ?_
  rintro ⟨r, a⟩ own' n' ⟨e, hK', hJ'⟩
  refine Does.pure ⟨?_, ⟨h1, hK'⟩, fun hr => ⟨⟨h1, (hJ' hr).1⟩, (hJ' hr).2⟩⟩
  rw [e]
  unfold FwdVars.cells
  dsimp only
  abel

theorem keeps_forward {m k N : ℕ} {κ : Kind} {τ : Ty} {a b : ℤ} (hm : isMp τ = true) (hN : m * k ≤ N) :
    Keeps base HMat.blocks P (Full κ τ a b N) (slip_forward_sub m k) := by
  intro x rest n hx
  have hs : Tri base FwdVars.cells P (FwdVars.I (fun o => matBlks o = 0) (Full κ τ a b N))
      (FwdVars.I matSized (Full κ τ a b N)) (FwdVars.I matSized (Full κ τ a b N))
      (seq (σ := FwdVars)
    [at! h (allocTo .dense .int64 m k (m * k) false true),
     Mem.forN (k * m) (fun _ => seq
       [query, maybe (seq
         [maybe (seq [at! x (entryAny (m * k) call), maybe (at! x (entryAny (m * k) call))]),
          anyTimes (seq [query, maybe (seq [query, anyTimes (at! x (entryAny (m * k) call))])])])])]) := by
    refine Tri.cons (L := FwdVars.I matSized (Full κ τ a b N)) ?_ ?_
    · exact (FwdVars.on_h Tri.alloc).mono (fun _ h => h) (fun _ h => h) (fun _ h => ⟨h.1.sized, h.2⟩) id
    · refine Keeps.cons (Keeps.forN fun i hi => ?_) .nil
      have h0 : 0 < m * k := by rw [mul_comm]; omega
      have he := FwdVars.on_x (ph := matSized)
        (Keeps.entryAny (base := base) (P := P) (κ := κ) (m := a) (k := b) hm h0 hN)
      have h1 : Keeps base FwdVars.cells P (FwdVars.I matSized (Full κ τ a b N))
        (at! x (entryAny (m * k) call)) := he
      exact Keeps.query.cons (.cons (.maybe (.cons (.maybe (.cons h1 (.cons h1.maybe .nil)))
        (.cons (.anyTimes (.cons .query (.cons (.maybe (.cons .query (.cons h1.anyTimes .nil))) .nil))) .nil))) .nil)
  unfold slip_forward_sub
  refine Does.congr (own' := FwdVars.cells ⟨none, x⟩ + rest) (by
    unfold FwdVars.cells; rw [show matBlks none = 0 from rfl, zero_add]) ?_
  refine (hs ⟨none, x⟩ rest n ⟨rfl, hx⟩).bind ?_
  rintro ⟨r, w⟩ own' n' ⟨e, hK, hJ⟩
  dsimp only at *
  refine (does_matFree (rest := w.x.blocks + rest) hK.1 (by rw [e]; unfold FwdVars.cells; rw [add_assoc])).pass
    fun _ => ?_
  exact Does.pure ⟨rfl, hK.2, fun hr => ⟨(hJ hr).1.2, (hJ hr).2⟩⟩

/-! ## slip_matrix_div, slip_check_solution -/

def DivVars.cells (w : DivVars) : Multiset Addr := blks w.scalar2 + matBlks w.x2

def DivVars.I (ps : Obj → Prop) (px : Option HMat → Prop) (w : DivVars) : Prop := ps w.scalar2 ∧ px w.x2

theorem DivVars.on_scalar2 {px kx : Option HMat → Prop} {ps ks J K : Obj → Prop} {s : Step Obj}
    (hs : Tri base blks P ps K J s) (h1 : ∀ o, K o → ks o) (h2 : ∀ o, px o → kx o) :
    Tri base DivVars.cells P (DivVars.I ps px) (DivVars.I ks kx) (DivVars.I J px) (at! scalar2 s) :=
  Tri.on [] (fun w a => by unfold DivVars.cells; exact (by rw [blks_nil, zero_add]))
    (fun _ => rfl) hs (fun w h => h.1) (fun w a h h3 => ⟨h1 _ h3, h2 _ h.2⟩) (fun w a h _ h1 => ⟨h1, h.2⟩)

theorem DivVars.on_x2 {px kx J K : Option HMat → Prop} {ps ks : Obj → Prop} {s : Step (Option HMat)}
    (hs : Tri base matBlks P px K J s) (h1 : ∀ o, ps o → ks o) (h2 : ∀ o, K o → kx o) :
    Tri base DivVars.cells P (DivVars.I ps px) (DivVars.I ks kx) (DivVars.I ps J) (at! x2 s) :=
  Tri.on none (fun w a => by
      unfold DivVars.cells; dsimp only; rw [show matBlks none = 0 from rfl, add_zero, add_comm])
    (fun _ => rfl) hs (fun w h => h.2) (fun w a h h3 => ⟨h1 _ h.1, h2 _ h3⟩) (fun w a h _ h1 => ⟨h.1, h1⟩)

/-- Any object. -/
abbrev Any : Obj → Prop := fun _ => True

/-- An object without blocks. -/
abbrev Blank : Obj → Prop := fun x => blks x = 0

/-- A pointer to nothing. -/
abbrev NoMat : Option HMat → Prop := fun o => matBlks o = 0

/-- Like `Tri.alloc` with the invariants of full matrices. -/
theorem Tri.allocFull {κ : Kind} {τ : Ty} {m k nz : ℤ} :
    Tri base matBlks P NoMat matSized (PtrTo (Full κ τ m k (capacity κ m k nz)))
      (allocTo κ τ m k nz false true) := Tri.alloc

theorem makes_div {m k : ℕ} :
    Makes base P (PtrTo (Full .dense .mpq m k (capacity .dense m k 0))) (slip_matrix_div m k) := by
  intro own n
  set J := PtrTo (Full .dense .mpq m k (capacity .dense m k 0)) with hJ0
  have hs : Tri base DivVars.cells P (DivVars.I Blank NoMat) (DivVars.I Any matSized) (DivVars.I Any J)
      (seq (σ := DivVars)
        [at! scalar2 init, at! scalar2 call, at! x2 (allocTo .dense .mpq m k 0 false true),
         forN (m * k) (fun i => seq [at! x2 (there (entry i call)), at! x2 (there (entry i call))])]) := by
    have hn : ∀ o, NoMat o → matSized o := by
      intro o ho B hB
      subst hB
      have : B.hdr ∈ matBlks (some B) := by unfold matBlks HMat.blocks; simp
      rw [ho] at this
      exact absurd this (Multiset.notMem_zero _)
    refine Tri.cons (DivVars.on_scalar2 Tri.init' (fun _ _ => trivial) hn) ?_
    refine Tri.cons (DivVars.on_scalar2 Tri.call' (fun _ _ => trivial) hn) ?_
    refine Tri.cons (DivVars.on_x2 Tri.allocFull (fun _ _ => trivial) (fun _ h => h)) ?_
    refine Tri.cons ?_ (Tri.nil fun w h => ⟨⟨h.1, h.2.sized⟩, h⟩)
    refine Tri.mono (Keeps.forN (I := DivVars.I Any J) fun i hi => ?_) (fun _ h => h) (fun _ h => ⟨h.1, h.2.sized⟩)
      (fun _ h => h) id
    have he : Keeps base DivVars.cells P (DivVars.I Any J) (at! x2 (there (entry i call))) :=
      DivVars.on_x2 (Keeps.there (Keeps.entryCall rfl (lt_of_lt_of_le hi (cap_dense m k 0)))) (fun _ h => h) (fun _ h => h)
    exact .cons he (.cons he .nil)
  unfold slip_matrix_div
  refine Does.congr (own' := DivVars.cells ⟨nulls 2, none⟩ + own) (by
    unfold DivVars.cells; rw [blks_nulls, show matBlks none = 0 from rfl, zero_add, zero_add]) ?_
  refine (hs _ own n ⟨blks_nulls 2, rfl⟩).bind ?_
  rintro ⟨r, w⟩ own' n' ⟨e, hK, hJ⟩
  dsimp only at *
  refine (does_clear (rest := matBlks w.x2 + own) (by rw [e]; unfold DivVars.cells; rw [add_assoc])).pass fun _ => ?_
  split
  · rename_i hr
    refine (does_matFree hK.2 rfl).pass fun _ => ?_
    exact Does.pure ⟨(zero_add _).symm, fun _ => rfl, fun h => absurd h hr⟩
  · rename_i hr
    rw [not_not] at hr
    exact Does.pure ⟨rfl, fun h => absurd rfl h, fun _ => ⟨(hJ hr).1.2, (hJ hr).2⟩⟩

theorem matBlks_none : matBlks none = 0 := rfl

theorem NoMat.sized {o : Option HMat} (ho : NoMat o) : matSized o := by
  intro B hB
  subst hB
  have : B.hdr ∈ matBlks (some B) := by unfold matBlks HMat.blocks; simp
  rw [ho] at this
  exact absurd this (Multiset.notMem_zero _)

theorem NoMat.none : NoMat none := rfl

/-- `return (SLIP_OK)` or an error code which depends on the values. -/
theorem does_verdict {r : Info} (hr : r ≠ .ok) :
    Does base own n (do let c ← choose; if c = 0 then pure r else pure .ok) (fun _ own' n' => own' = own ∧ n' = n) := by
  refine does_choose.pass fun c => ?_
  split
  · exact Does.pure ⟨rfl, rfl⟩
  · exact Does.pure ⟨rfl, rfl⟩

theorem neutral_check {m k : ℕ} : Neutral base P (slip_check_solution m k) := by
  intro own n
  have hs : Tri base DivVars.cells P (DivVars.I Blank NoMat) (DivVars.I Any matSized) (DivVars.I Any matSized)
      (seq (σ := DivVars)
        [at! scalar2 init, at! x2 (allocTo .dense .mpq m k (m * k) false true),
         forN (k * m) (fun _ => anyTimes (seq
           [at! scalar2 call, at! scalar2 call, at! x2 (there (entryAny (m * k) call))])),
         anyTimes (seq [at! scalar2 call, query])]) := by
    set J := PtrTo (Full .dense .mpq m k (capacity .dense m k (m * k))) with hJ0
    have hc : Keeps base DivVars.cells P (DivVars.I Any J) (at! scalar2 call) :=
      DivVars.on_scalar2 Tri.call' (fun _ h => h) (fun _ h => h)
    refine Tri.cons (DivVars.on_scalar2 Tri.init' (fun _ _ => trivial) fun _ h => h.sized) ?_
    refine Tri.cons (DivVars.on_x2 Tri.allocFull (fun _ _ => trivial) (fun _ h => h)) ?_
    refine Tri.mono (Keeps.cons (I := DivVars.I Any J) (Keeps.forN fun i hi => ?_)
      (.cons (.anyTimes (.cons hc (.cons .query .nil))) .nil)) (fun _ h => h)
      (fun _ h => ⟨h.1, h.2.sized⟩) (fun _ h => ⟨h.1, h.2.sized⟩) id
    have h0 : 0 < m * k := by rw [mul_comm]; omega
    have he : Keeps base DivVars.cells P (DivVars.I Any J) (at! x2 (there (entryAny (m * k) call))) :=
      DivVars.on_x2 (Keeps.there (Keeps.entryAny rfl h0 (cap_dense m k (m * k)))) (fun _ h => h) (fun _ h => h)
    exact .anyTimes (.cons hc (.cons hc (.cons he .nil)))
  unfold slip_check_solution
  refine Does.congr (own' := DivVars.cells ⟨nulls 2, none⟩ + own) (by
    unfold DivVars.cells; rw [blks_nulls, matBlks_none, zero_add, zero_add]) ?_
  refine (hs _ own n ⟨blks_nulls 2, rfl⟩).bind ?_
  rintro ⟨r, w⟩ own' n' ⟨e, hK, hJ⟩
  dsimp only at *
  refine (does_clear (rest := matBlks w.x2 + own) (by rw [e]; unfold DivVars.cells; rw [add_assoc])).pass fun _ => ?_
  refine (does_matFree hK.2 rfl).pass fun _ => ?_
  split
  · rename_i hr
    exact Does.pure ⟨rfl, fun h => absurd h hr⟩
  · rename_i hr
    rw [not_not] at hr
    refine (does_verdict (by decide)).mono ?_
    rintro a own' n2 ⟨rfl, rfl⟩
    exact ⟨rfl, fun _ => (hJ hr).2⟩

/-! ## SLIP_LU_solve -/

def SolveVars.cells (w : SolveVars) : Multiset Addr :=
  blks w.scale + matBlks w.x + matBlks w.x2 + matBlks w.b2

def SolveVars.I (ps : Obj → Prop) (px px2 pb2 : Option HMat → Prop) (w : SolveVars) : Prop :=
  ps w.scale ∧ px w.x ∧ px2 w.x2 ∧ pb2 w.b2

section
variable {ps : Obj → Prop} {px px2 pb2 : Option HMat → Prop} {K J : Option HMat → Prop} {KO JO : Obj → Prop}
    {s : Step (Option HMat)} {so : Step Obj}

/-- What is needed to return: -/
abbrev SolveVars.Ready : SolveVars → Prop := SolveVars.I Any matSized matSized matSized

theorem SolveVars.on_scale (hs : Tri base blks P ps KO JO so) (h1 : ∀ o, px o → matSized o)
    (h2 : ∀ o, px2 o → matSized o) (h3 : ∀ o, pb2 o → matSized o) :
    Tri base SolveVars.cells P (SolveVars.I ps px px2 pb2) SolveVars.Ready (SolveVars.I JO px px2 pb2)
      (at! scale so) :=
  Tri.on [] (fun w a => by unfold SolveVars.cells; dsimp only; rw [blks_nil]; abel)
    (fun _ => rfl) hs (fun w h => h.1) (fun w a h h4 => ⟨trivial, h1 _ h.2.1, h2 _ h.2.2.1, h3 _ h.2.2.2⟩)
    (fun w a h _ h1 => ⟨h1, h.2⟩)

theorem SolveVars.on_x (hs : Tri base matBlks P px K J s) (h1 : ∀ o, K o → matSized o)
    (h2 : ∀ o, px2 o → matSized o) (h3 : ∀ o, pb2 o → matSized o) :
    Tri base SolveVars.cells P (SolveVars.I ps px px2 pb2) SolveVars.Ready (SolveVars.I ps J px2 pb2)
      (at! x s) :=
  Tri.on none (fun w a => by unfold SolveVars.cells; dsimp only; rw [matBlks_none]; abel)
    (fun _ => rfl) hs (fun w h => h.2.1) (fun w a h h4 => ⟨trivial, h1 _ h4, h2 _ h.2.2.1, h3 _ h.2.2.2⟩)
    (fun w a h _ h1 => ⟨h.1, h1, h.2.2⟩)

theorem SolveVars.on_x2 (hs : Tri base matBlks P px2 K J s) (h1 : ∀ o, K o → matSized o)
    (h2 : ∀ o, px o → matSized o) (h3 : ∀ o, pb2 o → matSized o) :
    Tri base SolveVars.cells P (SolveVars.I ps px px2 pb2) SolveVars.Ready (SolveVars.I ps px J pb2)
      (at! x2 s) :=
  Tri.on none (fun w a => by unfold SolveVars.cells; dsimp only; rw [matBlks_none]; abel)
    (fun _ => rfl) hs (fun w h => h.2.2.1) (fun w a h h4 => ⟨trivial, h2 _ h.2.1, h1 _ h4, h3 _ h.2.2.2⟩)
    (fun w a h _ h1 => ⟨h.1, h.2.1, h1, h.2.2.2⟩)

theorem SolveVars.on_b2 (hs : Tri base matBlks P pb2 K J s) (h1 : ∀ o, K o → matSized o)
    (h2 : ∀ o, px o → matSized o) (h3 : ∀ o, px2 o → matSized o) :
    Tri base SolveVars.cells P (SolveVars.I ps px px2 pb2) SolveVars.Ready (SolveVars.I ps px px2 J)
      (at! b2 s) :=
  Tri.on none (fun w a => by unfold SolveVars.cells; dsimp only; rw [matBlks_none]; abel)
    (fun _ => rfl) hs (fun w h => h.2.2.2) (fun w a h h4 => ⟨trivial, h2 _ h.2.1, h3 _ h.2.2.1, h1 _ h4⟩)
    (fun w a h _ h1 => ⟨h.1, h.2.1, h.2.2.1, h1⟩)

end

/-- `SLIP_matrix_free (&A)` as a statement. -/
theorem Tri.free : Tri base matBlks P matSized NoMat NoMat (fun o => do
    matFree o
    pure (.ok, none)) := by
  intro o rest n ho
  refine (does_matFree ho rfl).pass fun _ => ?_
  exact Does.pure ⟨(zero_add _).symm, rfl, fun _ => ⟨rfl, fun _ => rfl⟩⟩

theorem makes_luSolve {check : Bool} {m k : ℕ} :
    Makes base P (PtrTo (Full .dense .mpq m k (capacity .dense m k 0))) (luSolve check m k) := by
  intro own n
  set J := PtrTo (Full .dense .mpq m k (capacity .dense m k 0)) with hJ0
  set B := PtrTo (Full .dense .mpz m k (capacity .dense m k 0)) with hB0
  have hJs : ∀ o, J o → matSized o := fun _ h => h.sized
  have hBs : ∀ o, B o → matSized o := fun _ h => h.sized
  have hN : ∀ o, NoMat o → matSized o := fun _ h => h.sized
  have hS : ∀ o, matSized o → matSized o := fun _ h => h
  have hs : Tri base SolveVars.cells P (SolveVars.I Blank NoMat NoMat NoMat) SolveVars.Ready
      (SolveVars.I Any J NoMat B) (seq (σ := SolveVars)
    [at! b2 (fun _ => slip_permute .mpz m k),
     at! b2 (there (slip_forward_sub m k)),
     at! b2 (there (slip_matrix_mul m k)),
     at! b2 (there (slip_back_sub m k)),
     at! x2 (fun _ => slip_matrix_div m k),
     at! x (fun _ => slip_permute .mpq m k),
     at! x2 (fun x2 => do
       matFree x2
       pure (.ok, none)),
     when (fun _ => check) (just (slip_check_solution m k)),
     at! scale init, at! scale call, query,
     maybe (forN (m * k) (fun i => at! x (there (entry i call))))]) := by
    refine Tri.cons (SolveVars.on_b2 (Tri.makes (makes_permute rfl) hBs matSized_none) hS hN hN) ?_
    refine Tri.cons (SolveVars.on_b2 (Keeps.there (keeps_forward rfl (cap_dense m k 0))) hBs hN hN) ?_
    refine Tri.cons (SolveVars.on_b2 (Keeps.there (keeps_mul rfl (cap_dense m k 0))) hBs hN hN) ?_
    refine Tri.cons (SolveVars.on_b2 (Keeps.there (keeps_back rfl (cap_dense m k 0))) hBs hN hN) ?_
    refine Tri.cons (SolveVars.on_x2 (Tri.makes makes_div hJs matSized_none) hS hN hBs) ?_
    refine Tri.cons (SolveVars.on_x (Tri.makes (makes_permute rfl) hJs matSized_none) hS hJs hBs) ?_
    refine Tri.cons (SolveVars.on_x2 (Tri.free.mono hJs (fun _ h => h) (fun _ h => h) id) hN hJs hBs) ?_
    have hR : ∀ {p : Obj → Prop}, ∀ w, SolveVars.I p J NoMat B w → SolveVars.Ready w :=
      fun w h => ⟨trivial, hJs _ h.2.1, hN _ h.2.2.1, hBs _ h.2.2.2⟩
    refine Tri.cons (L := SolveVars.I Blank J NoMat B) (Tri.when (Tri.just neutral_check fun w h => ⟨hR w h.1, h.1⟩)
      fun w h _ => ⟨hR w h, h⟩) ?_
    refine Tri.cons (SolveVars.on_scale Tri.init' hJs hN hBs) ?_
    refine Tri.cons (SolveVars.on_scale Tri.call' hJs hN hBs) ?_
    refine Tri.cons (Tri.query fun w h => ⟨hR w h, h⟩) ?_
    refine Tri.cons (L := SolveVars.I Any J NoMat B) (Tri.maybe (Tri.loop hR fun i hi => ?_)
      fun w h => ⟨hR w h, h⟩) (Tri.nil fun w h => ⟨hR w h, h⟩)
    exact SolveVars.on_x (Keeps.there (Keeps.entryCall rfl (lt_of_lt_of_le hi (cap_dense m k 0)))) hJs hN hBs
  unfold luSolve
  refine Does.congr (own' := SolveVars.cells ⟨nulls 2, none, none, none⟩ + own) (by
    unfold SolveVars.cells; rw [blks_nulls, matBlks_none]; simp only [zero_add]) ?_
  refine (hs _ own n ⟨blks_nulls 2, rfl, rfl, rfl⟩).bind ?_
  rintro ⟨r, w⟩ own' n' ⟨e, hK, hJ⟩
  dsimp only at *
  have hfree : Does base own' n' (solveFreeWork w) (fun _ own2 n2 => own2 = matBlks w.x + own ∧ n2 = n') := by
    unfold solveFreeWork
    refine (does_matFree hK.2.2.2 (rest := matBlks w.x2 + (blks w.scale + (matBlks w.x + own))) (by
      rw [e]; unfold SolveVars.cells; abel)).pass fun _ => ?_
    exact (does_matFree hK.2.2.1 rfl).pass fun _ => does_clear rfl
  split
  · rename_i hr
    refine hfree.pass fun _ => (does_matFree hK.2.1 rfl).pass fun _ => ?_
    exact Does.pure ⟨(zero_add _).symm, fun _ => rfl, fun h => absurd h hr⟩
  · rename_i hr
    rw [not_not] at hr
    refine hfree.pass fun _ => ?_
    exact Does.pure ⟨rfl, fun h => absurd rfl h, fun _ => ⟨(hJ hr).1.2.1, (hJ hr).2⟩⟩

end Slip.Mem
