import Verif.Proof.HeapMat

/-!
# Freeing and allocating matrices
-/

namespace Slip.Mem

variable {α β σ : Type} {base : Addr → Option ℕ} {own rest : Multiset Addr} {n : ℕ}

theorem Does.pass {m : M α} {k : α → M β} {R : β → Multiset Addr → ℕ → Prop}
    (h : Does base own n m (fun _ own' n' => own' = rest ∧ n' = n))
    (hk : ∀ a, Does base rest n (k a) R) : Does base own n (m >>= k) R := by
  refine h.bind ?_
  rintro a own' n' ⟨rfl, rfl⟩
  exact hk a

theorem Does.congr {m : M α} {Q : α → Multiset Addr → ℕ → Prop} {own' : Multiset Addr} (e : own = own')
    (h : Does base own' n m Q) : Does base own n m Q := e ▸ h

theorem does_unless {s : Bool} {c : M Unit} {b : Multiset Addr}
    (h : ∀ own, own = b + rest → Does base own n c (fun _ own' n' => own' = rest ∧ n' = n))
    (ho : own = (if s then 0 else b) + rest) :
    Does base own n (unlessShallow s c) (fun _ own' n' => own' = rest ∧ n' = n) := by
  cases s with
  | false => exact h own ho
  | true => exact Does.pure ⟨by rw [ho]; exact zero_add _, rfl⟩

theorem does_matFree {A : Option HMat} (hA : matSized A) (h : own = matBlks A + rest) :
    Does base own n (matFree A) (fun _ own' n' => own' = rest ∧ n' = n) := by
  cases A with
  | none => exact Does.pure ⟨by rw [h]; exact zero_add _, rfl⟩
  | some A =>
    have hs := hA A rfl
    have e : own = (if A.pShallow then 0 else blk A.p) + ((if A.iShallow then 0 else blk A.i) +
        ((if A.jShallow then 0 else blk A.j) + ((if A.xShallow then 0 else blk A.x + arrBlks A.xs) +
        (blks A.scale + (blk (some A.hdr) + rest))))) := by
      rw [h, blk_some]
      show A.blocks + rest = _
      unfold HMat.blocks
      generalize (if A.pShallow then 0 else blk A.p) = a
      generalize (if A.iShallow then 0 else blk A.i) = b
      generalize (if A.jShallow then 0 else blk A.j) = c
      generalize (if A.xShallow then 0 else blk A.x + arrBlks A.xs) = d
      abel
    unfold matFree
    dsimp only
    refine (does_unless (fun _ => does_free) e).pass fun _ => ?_
    refine (does_unless (fun _ => does_free) rfl).pass fun _ => ?_
    refine (does_unless (fun _ => does_free) rfl).pass fun _ => ?_
    refine Does.pass (rest := blks A.scale + (blk (some A.hdr) + rest)) ?_
      fun _ => (does_clear rfl).pass fun _ => does_free rfl
    cases hx : A.xShallow with
    | true => exact Does.pure ⟨zero_add _, rfl⟩
    | false =>
      obtain ⟨hb, hl⟩ := hs hx
      rw [Bool.false_or, hb]
      refine (does_clearArr hl (rest := blk A.x + (blks A.scale + (blk (some A.hdr) + rest))) ?_).pass
        fun _ => does_free rfl
      rw [if_neg nofun]
      abel

/-! ## Well-formed matrices -/

/-- Moreover, it has `N` entries, and the entries from `k` on have not been initialised. -/
def Mat (κ : Kind) (τ : Ty) (m n : ℤ) (N k : ℕ) (A : HMat) : Prop :=
  Built κ τ m n A ∧ A.nzmax = N ∧ A.xs.length = (if isMp τ then N else 0) ∧ BlankFrom k A.xs

theorem Mat.sized {κ : Kind} {τ : Ty} {m n : ℤ} {N k : ℕ} {A : HMat} (h : Mat κ τ m n N k A) : A.Sized := by
  intro _
  refine ⟨h.1.type ▸ h.1.good, ?_⟩
  rw [h.2.2.1, h.1.type, h.1.hasX, h.2.1, Bool.and_true]

theorem Mat.mono {κ : Kind} {τ : Ty} {m n : ℤ} {N k k' : ℕ} {A : HMat} (h : Mat κ τ m n N k A) (hk : k ≤ k') :
    Mat κ τ m n N k' A := ⟨h.1, h.2.1, h.2.2.1, h.2.2.2.mono hk⟩

/-- A pointer to a matrix that satisfies `I`. -/
def PtrTo (I : HMat → Prop) (o : Option HMat) : Prop := ∃ A, o = some A ∧ I A

theorem matSized_none : matSized none := fun _ h => by cases h

theorem matSized_some {A : HMat} (h : A.Sized) : matSized (some A) := by
  intro B hB
  cases hB
  exact h

theorem PtrTo.sized {κ : Kind} {τ : Ty} {m n : ℤ} {N k : ℕ} {o : Option HMat} (h : PtrTo (Mat κ τ m n N k) o) :
    matSized o := by
  obtain ⟨A, rfl, h⟩ := h
  exact matSized_some h.sized

/-! ## Statements on a matrix -/

theorem Tri.call' {P : Prop} : Tri base blks P (fun _ => True) (fun _ => True) (fun _ => True) Mem.call :=
  fun _ _ _ _ => (does_call rfl).mono fun _ _ _ ⟨e, _, hr⟩ => ⟨e, trivial, fun h => ⟨trivial, fun _ => hr h⟩⟩

theorem Tri.init' {P : Prop} : Tri base blks P (fun x => blks x = 0) (fun _ => True) (fun _ => True) Mem.init := by
  intro x rest n h0
  rw [h0, zero_add]
  exact does_init.mono fun _ _ _ ⟨e, _, hr, _⟩ => ⟨e, trivial, fun h => ⟨trivial, fun _ => hr h⟩⟩

section
variable {P : Prop} {κ : Kind} {τ : Ty} {m n : ℤ} {N k : ℕ} {K : HMat → Prop}

/-- The blocks of a matrix, with the entries apart. -/
theorem blocks_xs {A : HMat} (hx : A.xShallow = false) (xs : List Obj) :
    ({ A with xs := xs } : HMat).blocks = arrBlks xs + ({ A with xs := [] } : HMat).blocks := by
  unfold HMat.blocks
  simp only [hx]
  rw [arrBlks_nil]
  simp only [Bool.false_eq_true, if_false]
  abel

theorem Tri.entry {i : ℕ} {s : Step Obj} {Ia : Obj → Prop} {I J : HMat → Prop}
    (hs : Tri base blks P Ia (fun _ => True) (fun _ => True) s)
    (hx : ∀ A, I A → A.x.isSome ∧ A.xShallow = false ∧ ∃ o, A.xs[i]? = some o ∧ Ia o)
    (hK : ∀ A o, I A → K { A with xs := A.xs.set i o })
    (hJ : ∀ A o, I A → J { A with xs := A.xs.set i o }) :
    Tri base HMat.blocks P I K J (entry i s) := by
  intro A rest c hA
  obtain ⟨h1, h2, o, h3, h4⟩ := hx A hA
  unfold Mem.entry
  obtain ⟨x, hx⟩ := Option.isSome_iff_exists.1 h1
  rw [hx]
  dsimp only
  have e : A.blocks + rest = arrBlks A.xs + (({ A with xs := [] } : HMat).blocks + rest) := by
    rw [← add_assoc, ← blocks_xs h2]
  rw [e]
  have h5 := Tri.item (base := base) (P := P) (N := 0) (i := i) (I := fun xs => xs = A.xs)
    (K := fun xs => ∃ o, xs = A.xs.set i o) (J := fun _ => True) hs
    (by rintro xs rfl; exact ⟨o, h3, h4⟩) (by rintro xs o rfl _; exact ⟨o, rfl⟩) (fun _ _ _ _ _ => trivial)
  refine (h5 A.xs _ c rfl).bind ?_
  rintro ⟨r, xs⟩ own' n' ⟨e, ⟨o', rfl⟩, hr⟩
  refine Does.pure ⟨?_, hK A o' hA, fun h => ⟨hJ A o' hA, (hr h).2⟩⟩
  dsimp only
  rw [e, ← add_assoc, ← blocks_xs h2]

theorem Mat.getElem {i : ℕ} {A : HMat} (h : Mat κ τ m n N k A) (hm : isMp τ = true) (hi : i < N) :
    ∃ o, A.xs[i]? = some o ∧ (k ≤ i → blks o = 0) := by
  have hl := h.2.2.1
  rw [hm, if_pos rfl] at hl
  have hi' : i < A.xs.length := by omega
  exact ⟨A.xs[i], List.getElem?_eq_getElem hi', fun hk => h.2.2.2 i _ hk (List.getElem?_eq_getElem hi')⟩

theorem Mat.put {i : ℕ} {A : HMat} (h : Mat κ τ m n N k A) (hi : i < k) (o : Obj) :
    Mat κ τ m n N k { A with xs := A.xs.set i o } := by
  refine ⟨⟨h.1.1, h.1.2, h.1.3, h.1.4, h.1.5, h.1.6, h.1.7, h.1.8, h.1.9, h.1.10, h.1.11, h.1.12, h.1.13, h.1.14⟩,
    h.2.1, ?_, h.2.2.2.set hi o⟩
  dsimp only
  rw [List.length_set]
  exact h.2.2.1

/-- A wrapped call on an entry that is initialised. -/
theorem Tri.entryCall {i : ℕ} (hm : isMp τ = true) (hi : i < N) (hk : i < k) :
    Tri base HMat.blocks P (Mat κ τ m n N k) (Mat κ τ m n N k) (Mat κ τ m n N k) (Mem.entry i Mem.call) := by
  refine Tri.entry (Ia := fun _ => True) Tri.call' (fun A hA => ⟨hA.1.hasX, hA.1.deepX, ?_⟩) ?_ ?_
  · obtain ⟨o, h, _⟩ := hA.getElem hm hi
    exact ⟨o, h, trivial⟩
  · exact fun A o hA => hA.put hk o
  · exact fun A o hA => hA.put hk o

/-- The first entry that is not initialised is initialised. -/
theorem Tri.entryInit (hm : isMp τ = true) (hk : k < N) :
    Tri base HMat.blocks P (Mat κ τ m n N k) (Mat κ τ m n N (k + 1)) (Mat κ τ m n N (k + 1)) (Mem.entry k Mem.init) := by
  refine Tri.entry (Ia := fun x => blks x = 0) Tri.init' (fun A hA => ⟨hA.1.hasX, hA.1.deepX, ?_⟩) ?_ ?_
  · obtain ⟨o, h, h0⟩ := hA.getElem hm hk
    exact ⟨o, h, h0 le_rfl⟩
  · exact fun A o hA => (hA.mono (Nat.le_succ k)).put (Nat.lt_succ_self k) o
  · exact fun A o hA => (hA.mono (Nat.le_succ k)).put (Nat.lt_succ_self k) o

theorem Tri.entryAny {c : ℕ} (hm : isMp τ = true) (hc : 0 < c) (hN : c ≤ N) (hk : c ≤ k) :
    Tri base HMat.blocks P (Mat κ τ m n N k) (Mat κ τ m n N k) (Mat κ τ m n N k) (Mem.entryAny c Mem.call) :=
  Tri.choose (f := fun i => Mem.entry (i % c) Mem.call) fun i =>
    Tri.entryCall hm ((Nat.mod_lt i hc).trans_le hN) ((Nat.mod_lt i hc).trans_le hk)

theorem blocks_scale (A : HMat) (x : Obj) :
    ({ A with scale := x } : HMat).blocks = blks x + ({ A with scale := [] } : HMat).blocks := by
  unfold HMat.blocks
  rw [blks_nil]
  abel

/-- A wrapped call on the scale. -/
theorem Tri.scaleCall : Tri base HMat.blocks P (Mat κ τ m n N k) (Mat κ τ m n N k) (Mat κ τ m n N k)
    (onScale Mem.call) := by
  refine Tri.on (ca := blks) (Ia := fun x => x.length = 2) [] blocks_scale (fun _ => rfl) Tri.call
    (fun A hA => hA.1.scale) ?_ ?_
  · exact fun A x h hx => ⟨⟨h.1.1, h.1.2, h.1.3, h.1.4, h.1.5, h.1.6, h.1.7, h.1.8, h.1.9, h.1.10, h.1.11, h.1.12,
      hx, h.1.14⟩, h.2.1, h.2.2.1, h.2.2.2⟩
  · exact fun A x h hx _ => ⟨⟨h.1.1, h.1.2, h.1.3, h.1.4, h.1.5, h.1.6, h.1.7, h.1.8, h.1.9, h.1.10, h.1.11, h.1.12,
      hx, h.1.14⟩, h.2.1, h.2.2.1, h.2.2.2⟩

theorem Tri.there {I J : HMat → Prop} {s : Step HMat} (hs : Tri base HMat.blocks P I K J s) :
    Tri base matBlks P (PtrTo I) (PtrTo K) (PtrTo J) (Mem.there s) := by
  rintro _ rest c ⟨A, rfl, hA⟩
  unfold Mem.there
  dsimp only
  refine Does.congr (own' := A.blocks + rest) rfl ((hs A rest c hA).bind ?_)
  rintro ⟨r, A'⟩ own' n' ⟨e, hK, hr⟩
  exact Does.pure ⟨e, ⟨A', rfl, hK⟩, fun h => ⟨⟨A', rfl, (hr h).1⟩, (hr h).2⟩⟩

end

/-! ## Arrays -/

/-- While an array is being initialised: only the first `k` entries have blocks. -/
theorem does_create {w c : ℕ} :
    Does base own n (slip_create_array w c) (fun a own' n' =>
      own' = blk a.1 + arrBlks a.2 + own ∧ (a.1.isSome → n' = n ∧ a.2.length = c ∧ Wide w a.2) ∧
      (a.1 = none → a.2 = [])) := by
  unfold slip_create_array
  split
  · exact Does.pure ⟨by rw [blk_none, arrBlks_nil, zero_add, zero_add], nofun, fun _ => rfl⟩
  refine does_malloc.bind ?_
  rintro x own' n' ⟨rfl, hx⟩
  cases x with
  | none =>
    exact Does.pure ⟨by rw [blk_none, zero_add, zero_add, arrBlks_nil, zero_add], nofun, fun _ => rfl⟩
  | some q =>
    rw [if_neg (by simp)]
    have hloop : Tri base arrBlks True (fun xs => xs.length = c ∧ BlankFrom 0 xs ∧ Wide w xs)
        (fun xs => xs.length = c) (fun xs => xs.length = c ∧ BlankFrom c xs ∧ Wide w xs)
        (Mem.forN c (fun i xs => do
          let (r, xs) ← item i init xs
          if r = .ok then Pure.pure (r, xs)
          else Pure.pure (r, xs.set i (nulls w)))) := by
      refine Tri.forN (Inv := fun k xs => xs.length = c ∧ BlankFrom k xs ∧ Wide w xs) (fun _ h => h.1)
        fun i hi => ?_
      rintro xs rest n ⟨hl, hb, hw⟩
      have hi' : i < xs.length := by omega
      obtain ⟨fr, e1, e2⟩ := arrBlks_split (List.getElem?_eq_getElem hi')
      have h0 := hb i _ le_rfl (List.getElem?_eq_getElem hi')
      unfold item
      beta_reduce
      rw [List.getElem?_eq_getElem hi', e1, h0, zero_add]
      refine Does.bind (Q := fun a own' n' => ∃ o, a.2 = xs.set i o ∧ own' = blks o + (fr + rest) ∧
        (a.1 = .ok → n' = n) ∧ (a.1 ≠ .ok → blks o = 0) ∧ o.length = w) ?_ ?_
      · refine (does_init (x := xs[i])).bind ?_
        rintro ⟨r, o⟩ own' n' ⟨e, h3, h1, h2⟩
        exact Does.pure ⟨o, rfl, e, h1, h2, h3.trans (hw _ (List.getElem_mem hi'))⟩
      · rintro ⟨r, _⟩ own' n' ⟨o, rfl, e, h1, h2, h3⟩
        dsimp only at *
        split
        · rename_i hr
          refine Does.pure ⟨?_, ?_, fun _ => ⟨⟨?_, ?_, hw.set h3⟩, fun _ => h1 hr⟩⟩ <;> dsimp only
          · rw [e, e2, add_assoc]
          · rw [List.length_set, hl]
          · rw [List.length_set, hl]
          · exact (hb.mono (Nat.le_succ i)).set (Nat.lt_succ_self i) o
        · rename_i hr
          refine Does.pure ⟨?_, ?_, fun h => absurd h hr⟩ <;> dsimp only
          · rw [e, List.set_set, e2, h2 hr, blks_nulls, add_assoc]
          · rw [List.length_set, List.length_set, hl]
    have h0 := hloop (List.replicate c (nulls w)) (blk (some q) + own) n'
      ⟨List.length_replicate, blankFrom_nulls _ _ _, wide_nulls _ _⟩
    rw [arrBlks_nulls, zero_add] at h0
    refine h0.bind ?_
    rintro ⟨r, xs⟩ own' n2 ⟨e, hl, hr⟩
    dsimp only at *
    split
    · rename_i hok
      refine Does.pure ⟨?_, fun _ => ⟨?_, hl, (hr hok).1.2.2⟩, nofun⟩
      · rw [e]; dsimp only; abel
      · rw [(hr hok).2 trivial, hx rfl]
    · refine (does_clearArr hl e).pass fun _ => (does_free rfl).pass fun _ => ?_
      exact Does.pure ⟨by rw [blk_none, arrBlks_nil, zero_add, zero_add], nofun, fun _ => rfl⟩

/-! ## SLIP_matrix_allocate -/

/-- What a matrix that is being allocated is like: everything belongs to it, and what is not there yet is
NULL. -/
structure Raw (A : HMat) : Prop where
  deepP : A.pShallow = false
  deepI : A.iShallow = false
  deepJ : A.jShallow = false
  deepX : A.xShallow = false
  good : A.type.isBad = false

theorem Raw.blocks {A : HMat} (h : Raw A) :
    A.blocks = {A.hdr} + blk A.p + blk A.i + blk A.j + (blk A.x + arrBlks A.xs) + blks A.scale := by
  unfold HMat.blocks
  rw [h.deepP, h.deepI, h.deepJ, h.deepX]
  simp only [Bool.false_eq_true, if_false]

/-- The fields of a matrix that its kind does not decide. -/
theorem does_pattern {A : HMat} (hA : Raw A) (hp : A.p = none) (hi : A.i = none) (hj : A.j = none)
    (h : own = A.blocks + rest) :
    Does base own n (matPattern A) (fun a own' n' => own' = a.1.blocks + rest ∧
      (∃ p i j, a.1 = { A with p := p, i := i, j := j } ∧ (a.2 = true → n' = n ∧
        p.isSome = decide (A.kind = .csc) ∧ i.isSome = (decide (A.kind = .csc) || decide (A.kind = .triplet)) ∧
        j.isSome = decide (A.kind = .triplet)))) := by
  rw [hA.blocks, hp, hi, hj] at h
  obtain ⟨hdr, m, k, nzmax, nz, pn, kind, type, p, _, i, _, j, _, x, _, xs, scale, sval⟩ := A
  dsimp only at hp hi hj h
  subst hp hi hj
  have hb : ∀ p i j, HMat.blocks
      { hdr := hdr, m := m, n := k, nzmax := nzmax, nz := nz, pn := pn, kind := kind, type := type, p := p,
        pShallow := _, i := i, iShallow := _, j := j, jShallow := _, x := x, xShallow := _, xs := xs,
        scale := scale, sval := sval } =
      {hdr} + blk p + blk i + blk j + (blk x + arrBlks xs) + blks scale :=
    fun p i j => Raw.blocks ⟨hA.1, hA.2, hA.3, hA.4, hA.5⟩
  unfold matPattern
  dsimp only
  cases kind with
  | csc =>
    dsimp only
    refine does_malloc.bind ?_
    rintro p own1 n1 ⟨rfl, h1⟩
    refine does_malloc.bind ?_
    rintro i own2 n2 ⟨rfl, h2⟩
    refine Does.pure ⟨?_, p, i, none, rfl, ?_⟩
    · dsimp only
      rw [hb, h]
      simp only [blk_none]
      abel
    · intro hok
      rw [Bool.and_eq_true] at hok
      refine ⟨by rw [h2 hok.2, h1 hok.1], by rw [hok.1]; rfl, by rw [hok.2]; rfl, rfl⟩
  | triplet =>
    dsimp only
    refine does_malloc.bind ?_
    rintro i own1 n1 ⟨rfl, h1⟩
    refine does_malloc.bind ?_
    rintro j own2 n2 ⟨rfl, h2⟩
    refine Does.pure ⟨?_, none, i, j, rfl, ?_⟩
    · dsimp only
      rw [hb, h]
      simp only [blk_none]
      abel
    · intro hok
      rw [Bool.and_eq_true] at hok
      refine ⟨by rw [h2 hok.2, h1 hok.1], rfl, by rw [hok.1]; rfl, by rw [hok.2]; rfl⟩
  | dense =>
    refine Does.pure ⟨?_, none, none, none, rfl, fun _ => ⟨rfl, rfl, rfl, rfl⟩⟩
    dsimp only
    rw [hb, h]
  | bad b =>
    refine Does.pure ⟨?_, none, none, none, rfl, fun _ => ⟨rfl, rfl, rfl, rfl⟩⟩
    dsimp only
    rw [hb, h]

theorem does_values {A : HMat} {ini : Bool} (hA : Raw A) (hx : A.x = none) (hxs : A.xs = [])
    (h : own = A.blocks + rest) :
    Does base own n (matValues ini A) (fun a own' n' => own' = a.blocks + rest ∧
      ∃ x xs, a = { A with x := x, xs := xs } ∧
        xs.length = (if isMp A.type && x.isSome then A.nzmax else 0) ∧ Wide (width A.type) xs ∧
        (ini = false → BlankFrom 0 xs) ∧ (x.isSome → n' = n)) := by
  have hb : ∀ x xs, ({ A with x := x, xs := xs } : HMat).blocks =
      {A.hdr} + blk A.p + blk A.i + blk A.j + (blk x + arrBlks xs) + blks A.scale := fun p i =>
    Raw.blocks ⟨hA.1, hA.2, hA.3, hA.4, hA.5⟩
  rw [hA.blocks, hx, hxs, blk_none, arrBlks_nil, add_zero, add_zero] at h
  unfold matValues
  split
  · rename_i hc
    rw [Bool.and_eq_true] at hc
    refine does_create.bind ?_
    rintro ⟨x, xs⟩ own' n' ⟨rfl, h1, h2⟩
    dsimp only at h1 h2 ⊢
    refine Does.pure ⟨?_, x, xs, rfl, ?_, ?_, (fun h => by rw [hc.2] at h; cases h), fun h => (h1 h).1⟩
    · rw [hb, h]; abel
    · cases x with
      | none => rw [h2 rfl, Option.isSome_none, Bool.and_false]; rfl
      | some x => rw [hc.1]; exact (h1 rfl).2.1
    · cases x with
      | none => rw [h2 rfl]; exact fun _ h => absurd h List.not_mem_nil
      | some x => exact (h1 rfl).2.2
  · refine does_malloc.bind ?_
    rintro x own' n' ⟨rfl, h1⟩
    refine Does.pure ⟨?_, x, _, rfl, ?_, ?_, ?_, h1⟩
    · rw [hb, h]
      have : arrBlks (if (isMp A.type && x.isSome) = true then List.replicate A.nzmax (nulls (width A.type))
          else []) = 0 := by
        split
        · exact arrBlks_nulls _ _
        · rfl
      rw [this, add_zero]
      abel
    · split
      · exact List.length_replicate
      · rfl
    · split
      · exact wide_nulls _ _
      · exact fun _ h => absurd h List.not_mem_nil
    · intro _
      split
      · exact blankFrom_nulls _ _ _
      · exact fun j o _ h => by cases h

theorem does_matAllocate {κ : Kind} {τ : Ty} {m k nz : ℤ} {sh ini : Bool} :
    Does base own n (matAllocate κ τ m k nz sh ini) (fun a own' n' => own' = matBlks a.2 + own ∧
      (a.1 = .ok → n' = n ∧ 0 ≤ m ∧ 0 ≤ k ∧ κ.isBad = false ∧ τ.isBad = false ∧ ∃ A, a.2 = some A ∧
        (sh = false → NewMatrix κ τ m k nz ini A) ∧ (sh = true → NewShallow κ τ m k nz A)) ∧
      (a.1 ≠ .ok → a.2 = none)) := by
  unfold matAllocate
  split
  · exact Does.pure ⟨(zero_add _).symm, nofun, fun _ => rfl⟩
  rename_i hbad
  simp only [not_or, not_lt, Bool.not_eq_true] at hbad
  obtain ⟨hm, hk, hbk, hbt⟩ := hbad
  refine does_malloc.bind ?_
  rintro hdr own1 n1 ⟨rfl, h1⟩
  cases hdr with
  | none => exact Does.pure ⟨rfl, nofun, fun _ => rfl⟩
  | some hdr =>
    dsimp only
    set A0 : HMat :=
        { hdr := hdr, m := m, n := k, nzmax := (max (if κ = .dense then m * k else nz) 1).toNat,
          nz := 0, pn := 0, kind := κ, type := τ, p := none, pShallow := false, i := none,
          iShallow := false, j := none, jShallow := false, x := none, xShallow := false, xs := [],
          scale := nulls 2, sval := 0 } with hA0
    have hseq : Tri base HMat.blocks True (fun A => A = A0)
        (fun A => (∃ s v, A = { A0 with scale := s, sval := v }) ∧ True)
        (fun A => ∃ s, s.length = 2 ∧ A = { A0 with scale := s, sval := 1 })
        (seq [onScale Mem.init, onScale call, fun A => pure (.ok, { A with sval := 1 })]) := by
      refine Tri.cons (L := fun A => ∃ s, s.length = 2 ∧ A = { A0 with scale := s }) ?_
        (Tri.cons (L := fun A => ∃ s, s.length = 2 ∧ A = { A0 with scale := s }) ?_
          (Tri.cons (L := fun A => ∃ s, s.length = 2 ∧ A = { A0 with scale := s, sval := 1 }) ?_ (Tri.nil ?_)))
      · refine Tri.on (ca := blks) [] blocks_scale (fun _ => rfl) (Tri.init (w := 2)) ?_ ?_ ?_
        · rintro _ rfl
          exact ⟨rfl, blks_nulls 2⟩
        · rintro _ a rfl _
          exact ⟨⟨a, 0, rfl⟩, trivial⟩
        · rintro _ a rfl ha _
          exact ⟨a, ha, rfl⟩
      · refine Tri.on (ca := blks) [] blocks_scale (fun _ => rfl) (Tri.call (w := 2)) ?_ ?_ ?_
        · rintro _ ⟨s, hs, rfl⟩
          exact hs
        · rintro _ a ⟨s, hs, rfl⟩ _
          exact ⟨⟨a, 0, rfl⟩, trivial⟩
        · rintro _ a ⟨s, hs, rfl⟩ ha _
          exact ⟨a, ha, rfl⟩
      · rintro _ rest n ⟨s, hs, rfl⟩
        exact Does.pure ⟨rfl, ⟨⟨s, 1, rfl⟩, trivial⟩, fun _ => ⟨⟨s, hs, rfl⟩, fun _ => rfl⟩⟩
      · rintro _ ⟨s, hs, rfl⟩
        exact ⟨⟨⟨s, 1, rfl⟩, trivial⟩, s, hs, rfl⟩
    have hraw : ∀ s v, Raw ({ A0 with scale := s, sval := v } : HMat) := fun s v => ⟨rfl, rfl, rfl, rfl, hbt⟩
    have h2 := hseq A0 own n1 rfl
    have e0 : A0.blocks = blk (some hdr) := by
      rw [Raw.blocks ⟨rfl, rfl, rfl, rfl, hbt⟩]
      show ({hdr} : Multiset Addr) + 0 + 0 + 0 + (0 + 0) + blks (nulls 2) = _
      rw [blks_nulls]
      simp only [add_zero]
      rfl
    rw [e0] at h2
    refine h2.bind ?_
    rintro ⟨r, A⟩ own2 n2 ⟨e, hK, hJ⟩
    dsimp only at e hK hJ ⊢
    split
    · rename_i hr
      obtain ⟨⟨s, v, rfl⟩, _⟩ := hK
      have hsz : matSized (some ({ A0 with scale := s, sval := v } : HMat)) :=
        matSized_some fun _ => ⟨hbt, by simp [A0]⟩
      refine (does_matFree hsz e).pass fun _ => ?_
      exact Does.pure ⟨(zero_add _).symm, fun h => absurd h hr, fun _ => rfl⟩
    rename_i hr
    rw [not_not] at hr
    obtain ⟨⟨s, hs, rfl⟩, h3⟩ := hJ hr
    have hn : n2 = n := by rw [h3 trivial, h1 rfl]
    split
    · rename_i hsh
      refine Does.pure ⟨?_, fun _ => ⟨hn, hm, hk, hbk, hbt, _, rfl, fun h => ?_, fun _ => ?_⟩, fun h => absurd rfl h⟩
      · rw [e, (hraw s 1).blocks]
        show _ = HMat.blocks _ + _
        unfold HMat.blocks
        dsimp only
        simp only [if_true, A0, blk_none, arrBlks_nil, add_zero]
      · rw [hsh] at h; cases h
      · exact ⟨rfl, rfl, rfl, rfl, rfl, rfl, ⟨rfl, rfl, rfl, rfl⟩, ⟨rfl, rfl, rfl, rfl⟩, hs, rfl⟩
    · rename_i hsh
      rw [Bool.not_eq_true] at hsh
      refine (does_pattern (hraw s 1) rfl rfl rfl e).bind ?_
      rintro ⟨A, ok⟩ own3 n3 ⟨e3, p, i, j, rfl, h4⟩
      dsimp only at e3 h4 ⊢
      refine (does_values ⟨rfl, rfl, rfl, rfl, hbt⟩ rfl rfl e3).bind ?_
      rintro A own4 n4 ⟨e4, x, xs, rfl, h5, h6, h7, h8⟩
      dsimp only at e4 h5 h6 h7 ⊢
      split
      · rename_i hok
        rw [Bool.and_eq_true] at hok
        obtain ⟨h9, h10, h11, h12⟩ := h4 hok.1
        rw [hok.2, Bool.and_true] at h5
        refine Does.pure ⟨e4, fun _ => ⟨by rw [h8 hok.2, h9, hn], hm, hk, hbk, hbt, _, rfl, fun _ => ?_, fun h => ?_⟩,
          fun h => absurd rfl h⟩
        · exact ⟨⟨rfl, rfl, rfl, rfl, rfl, rfl, rfl, rfl, h10, h11, h12, hok.2, hs, hbt⟩, rfl, rfl, h5, h6,
            fun hi o ho => by
              obtain ⟨j, hj⟩ := List.getElem?_of_mem ho
              exact h7 hi j o (Nat.zero_le _) hj, rfl⟩
        · rw [hsh] at h; cases h
      · refine (does_matFree (matSized_some fun _ => ⟨hbt, h5⟩) e4).pass fun _ => ?_
        exact Does.pure ⟨(zero_add _).symm, nofun, fun _ => rfl⟩

theorem NewMatrix.mat {κ : Kind} {τ : Ty} {m k nz : ℤ} {ini : Bool} {A : HMat} (h : NewMatrix κ τ m k nz ini A) :
    Mat κ τ m k (capacity κ m k nz) (if ini then capacity κ m k nz else 0) A := by
  have hl := h.length
  rw [h.cap] at hl
  refine ⟨h.toBuilt, h.cap, hl, ?_⟩
  cases ini with
  | true =>
    intro j o hj ho
    obtain ⟨hj', _⟩ := List.getElem?_eq_some_iff.1 ho
    rw [if_pos rfl] at hj
    split at hl <;> omega
  | false => exact fun j o _ ho => h.blank rfl o (List.mem_of_getElem? ho)

/-- `SLIP_matrix_allocate (&A, ...)` when nothing is lost with the old value of `A`. -/
theorem Tri.alloc {P : Prop} {κ : Kind} {τ : Ty} {m k nz : ℤ} {ini : Bool} :
    Tri base matBlks P (fun o => matBlks o = 0) matSized
      (PtrTo (Mat κ τ m k (capacity κ m k nz) (if ini then capacity κ m k nz else 0)))
      (allocTo κ τ m k nz false ini) := by
  intro o rest n ho
  rw [ho, zero_add]
  refine does_matAllocate.mono ?_
  rintro ⟨r, o'⟩ own' n' ⟨e, h1, h2⟩
  dsimp only at e h1 h2 ⊢
  by_cases hr : r = .ok
  · obtain ⟨hn, _, _, _, _, A, rfl, hA, _⟩ := h1 hr
    have hA := (hA rfl).mat
    exact ⟨e, matSized_some hA.sized, fun _ => ⟨⟨A, rfl, hA⟩, fun _ => hn⟩⟩
  · rw [h2 hr] at e ⊢
    exact ⟨e, matSized_none, fun h => absurd h hr⟩

end Slip.Mem
