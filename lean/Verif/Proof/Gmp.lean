import Verif.SpecMem
import Mathlib.Algebra.Order.Group.Multiset
import Mathlib.Tactic.Abel
import Mathlib.Data.List.ReduceOption

/-!
# Proofs about the memory functions given to GMP
-/

namespace Slip.Mem

variable {base : Addr → Option ℕ} {L0 : Addr → Option ℕ} {own old rest : Multiset Addr}
  {g g' : G} {p q : Addr}

theorem Acc.nodup (h : Acc base own g) : own.Nodup := h.1
theorem Acc.live (h : Acc base own g) (hp : p ∈ own) : (g.live p).isSome := (h.2.1 p hp).1

theorem Acc.congr (h : Acc base own g) (hl : g'.live = g.live) : Acc base own g' := by
  unfold Acc at *; rw [hl]; exact h

theorem Acc.notMem (h : Acc base own g) (hq : g.live q = none) : q ∉ own := fun hm => by
  have := h.live hm
  rw [hq] at this
  cases this

theorem Acc.alloc (h : Acc base own g) (hq : g.live q = none) {s : ℕ}
    (hl : g'.live = Function.update g.live q (some s)) : Acc base (q ::ₘ own) g' := by
  have hn := h.notMem hq
  refine ⟨Multiset.nodup_cons.2 ⟨hn, h.1⟩, fun p hp => ?_, fun p hp => ?_⟩
  · rw [hl]
    rcases Multiset.mem_cons.1 hp with e | hp1
    · subst e
      rw [Function.update_self]
      exact ⟨rfl, by rw [← h.2.2 p hn, hq]⟩
    · rw [Function.update_of_ne (by rintro rfl; exact hn hp1)]
      exact h.2.1 p hp1
  · have h1 : p ≠ q := by rintro rfl; exact hp (Multiset.mem_cons_self _ _)
    have h2 : p ∉ own := fun hm => hp (Multiset.mem_cons_of_mem hm)
    rw [hl, Function.update_of_ne h1, h.2.2 p h2]

theorem Acc.free (h : Acc base own g) (hp : p ∈ own)
    (hl : g'.live = Function.update g.live p none) : Acc base (own.erase p) g' := by
  refine ⟨h.1.erase p, fun a ha => ?_, fun a ha => ?_⟩
  · obtain ⟨h1, h2⟩ := h.1.mem_erase_iff.1 ha
    rw [hl, Function.update_of_ne h1]
    exact h.2.1 a h2
  · rw [hl]
    by_cases e : a = p
    · subst e
      rw [Function.update_self, (h.2.1 a hp).2]
    · rw [Function.update_of_ne e]
      exact h.2.2 a fun hm => ha (h.1.mem_erase_iff.2 ⟨e, hm⟩)

theorem Acc.zero : Acc g.live 0 g := ⟨Multiset.nodup_zero, by simp, fun _ _ => rfl⟩

theorem Acc.zero_iff : Acc base 0 g ↔ g.live = base :=
  ⟨fun h => funext fun p => h.2.2 p (by simp), fun h => h ▸ Acc.zero⟩

/-! ## The C library -/

theorem cAlloc_spec (g : G) :
    (∃ g', cAlloc g = (none, g') ∧ g' = { g with tick := g.tick + 1, refused := g.refused + 1 }) ∨
    ∃ q, g.live q = none ∧ cAlloc g = (some q, { g with
      tick := g.tick + 1, gen := g.gen + 1, live := Function.update g.live q (some g.gen) }) := by
  unfold cAlloc
  cases g.ask g.tick with
  | none => exact Or.inl ⟨_, rfl, rfl⟩
  | some q =>
    dsimp only
    split
    · exact Or.inl ⟨_, rfl, rfl⟩
    · rename_i h
      exact Or.inr ⟨q, by simpa using h, rfl⟩

theorem slipMalloc_spec (hi : g.init = true) :
    (slipMalloc g = (none, { g with tick := g.tick + 1, refused := g.refused + 1 })) ∨
    ∃ q, g.live q = none ∧ slipMalloc g = (some q, { g with
      tick := g.tick + 1, gen := g.gen + 1, live := Function.update g.live q (some g.gen) }) := by
  have e : slipMalloc g = cAlloc g := by unfold slipMalloc; rw [hi]; rfl
  rw [e]
  rcases cAlloc_spec g with ⟨g', h, rfl⟩ | h
  · exact Or.inl h
  · exact Or.inr h

theorem slipRealloc_spec (hi : g.init = true) (hp : (g.live p).isSome) :
    (slipRealloc p g = .ok (p, false) { g with tick := g.tick + 1, refused := g.refused + 1 }) ∨
    ∃ q, Function.update g.live p none q = none ∧ slipRealloc p g = .ok (q, true) { g with
      tick := g.tick + 1, gen := g.gen + 1
      live := Function.update (Function.update g.live p none) q (some g.gen) } := by
  unfold slipRealloc
  rw [if_neg (by simp [hi]), if_neg (by rw [Option.isNone_iff_eq_none]; intro h; simp [h] at hp)]
  cases g.ask g.tick with
  | none => exact Or.inl rfl
  | some q =>
    dsimp only
    split
    · exact Or.inl rfl
    · rename_i hq
      refine Or.inr ⟨q, ?_, rfl⟩
      by_cases e : q = p
      · subst e; exact Function.update_self ..
      · rw [Function.update_of_ne e]
        simp only [not_and, e, ne_eq, not_false_eq_true, forall_true_left] at hq
        simpa using hq

theorem slipFree_some (hi : g.init = true) (hp : (g.live p).isSome) :
    slipFree (some p) g = .ok () { g with live := Function.update g.live p none } := by
  unfold slipFree
  rw [hi]
  simp [hp]

theorem slipFree_none : slipFree none g = .ok () g := by
  unfold slipFree
  split <;> rfl

/-! ## The list of blocks -/

/-- The invariant of the memory functions inside a wrapped call that began with the ledger `L0` at
serial number `s0`. -/
structure Inv (base : Addr → Option ℕ) (old : Multiset Addr) (s0 : ℕ) (L0 : Addr → Option ℕ) (g : G) : Prop where
  init : g.init = true
  acc : Acc base (old + ((g.used : List Addr) : Multiset Addr) + blk g.list) g
  nolist : g.list = none → g.used = []
  room : g.list.isSome → 0 < g.nlist ∧ g.used.length ≤ g.nlist
  gen : ∀ p s, g.live p = some s → s < g.gen
  s0le : s0 ≤ g.gen
  new : ∀ p ∈ g.used, ∃ s, g.live p = some s ∧ s0 ≤ s
  notNew : ∀ p s, p ∉ g.used → g.list ≠ some p → g.live p = some s → L0 p = some s

theorem blk_some (p : Addr) : blk (some p) = {p} := rfl
theorem blk_none : blk none = 0 := rfl

/-- Making room in the list. -/
theorem ensureList_spec {s0 : ℕ} (h : Inv base old s0 L0 g) :
    (∃ g', ensureList g = .ok () g' ∧ Inv base old s0 L0 g' ∧ g'.used = g.used ∧ g'.obj = g.obj ∧
      g'.arch = g.arch ∧ g'.cache = g.cache ∧ g'.refused = g.refused ∧
      g'.list.isSome ∧ g'.used.length < g'.nlist) ∨
    ∃ g', ensureList g = .jump g' ∧ Inv base old s0 L0 g' ∧ g'.used = g.used ∧ g'.obj = g.obj ∧
      g'.arch = g.arch ∧ g'.cache = g.cache := by
  unfold ensureList
  cases hl : g.list with
  | none =>
    have hu := h.nolist hl
    dsimp only
    unfold slip_gmp_init
    rcases slipMalloc_spec (g := { g with used := [], nlist := 32 }) h.init with e | ⟨q, hq, e⟩
    · rw [e]
      refine Or.inr ⟨_, rfl, ⟨h.init, ?_, fun _ => rfl, nofun, h.gen, h.s0le, nofun, ?_⟩, hu.symm,
        rfl, rfl, rfl⟩
      · have := h.acc
        rw [hu, hl] at this
        exact this.congr rfl
      · intro p s _ _ hs
        exact h.notNew p s (by simp [hu]) (by simp [hl]) hs
    · rw [e]
      have hq : g.live q = none := hq
      have ha := h.acc
      rw [hu, hl] at ha
      refine Or.inl ⟨_, rfl, ⟨h.init, ?_, nofun, fun _ => ⟨(by decide : 0 < 32), by simp⟩, ?_, ?_, nofun, ?_⟩,
        hu.symm, rfl, rfl, rfl, rfl, rfl, by simp⟩
      · have := ha.alloc (g' := { g with live := Function.update g.live q (some g.gen) }) hq rfl
        simp only [Multiset.coe_nil, add_zero, blk_none, blk_some] at this ⊢
        rw [add_comm, Multiset.singleton_add]
        exact this.congr rfl
      · intro p s hs
        dsimp only at hs ⊢
        by_cases e : p = q
        · subst e; rw [Function.update_self] at hs; cases hs; omega
        · rw [Function.update_of_ne e] at hs
          have := h.gen p s hs; omega
      · have := h.s0le; dsimp only; omega
      · intro p s _ hne hs
        dsimp only at hs hne
        have e : p ≠ q := by rintro rfl; exact hne rfl
        rw [Function.update_of_ne e] at hs
        exact h.notNew p s (by simp [hu]) (by simp [hl]) hs
  | some l =>
    dsimp only
    split
    · rename_i hfull
      have hll : (g.live l).isSome := h.acc.live (by rw [hl, blk_some]; simp)
      rcases slipRealloc_spec h.init hll with e | ⟨q, hqf, e⟩
      · rw [e]
        refine Or.inr ⟨_, rfl, ⟨h.init, ?_, nofun, fun _ => h.room (by simp [hl]), h.gen, h.s0le, h.new, ?_⟩,
          rfl, rfl, rfl, rfl⟩
        · have := h.acc; rw [hl] at this; exact this.congr rfl
        · intro p s h1 h2 h3; exact h.notNew p s h1 (by rw [hl]; exact h2) h3
      · rw [e]
        have hacc := h.acc
        rw [hl, blk_some] at hacc
        have ha1 : Acc base (old + ((g.used : List Addr) : Multiset Addr))
            { g with live := Function.update g.live l none } := by
          have := hacc.free (p := l) (g' := { g with live := Function.update g.live l none })
            (by simp) rfl
          rwa [Multiset.add_comm, Multiset.singleton_add, Multiset.erase_cons_head] at this
        have ha2 := ha1.alloc (q := q) (s := g.gen)
          (g' := { g with live := Function.update (Function.update g.live l none) q (some g.gen) }) hqf rfl
        have hqu : q ∉ g.used := fun hm => ha1.notMem (q := q) hqf (by simp [hm])
        have hlu : l ∉ g.used := fun hm => by
          have := hacc.nodup
          rw [Multiset.add_comm, Multiset.singleton_add, Multiset.nodup_cons] at this
          exact this.1 (by simp [hm])
        refine Or.inl ⟨_, rfl, ⟨h.init, ?_, nofun, fun _ => ?_, ?_, ?_, ?_, ?_⟩, rfl, rfl, rfl, rfl,
          rfl, rfl, ?_⟩
        · dsimp only
          rw [blk_some, Multiset.add_comm, Multiset.singleton_add]
          exact ha2.congr rfl
        · have := h.room (by simp [hl]); dsimp only; omega
        · intro p s hs
          dsimp only at hs ⊢
          by_cases e : p = q
          · subst e; rw [Function.update_self] at hs; cases hs; omega
          · rw [Function.update_of_ne e] at hs
            by_cases e2 : p = l
            · subst e2; rw [Function.update_self] at hs; cases hs
            · rw [Function.update_of_ne e2] at hs
              have := h.gen p s hs; omega
        · have := h.s0le; dsimp only; omega
        · intro p hp
          dsimp only at hp ⊢
          rw [Function.update_of_ne (by rintro rfl; exact hqu hp),
            Function.update_of_ne (by rintro rfl; exact hlu hp)]
          exact h.new p hp
        · intro p s h1 h2 hs
          dsimp only at h1 h2 hs
          have e : p ≠ q := by rintro rfl; exact h2 rfl
          rw [Function.update_of_ne e] at hs
          by_cases e2 : p = l
          · subst e2; rw [Function.update_self] at hs; cases hs
          · rw [Function.update_of_ne e2] at hs
            exact h.notNew p s h1 (by rw [hl]; intro h; exact e2 (Option.some.inj h).symm) hs
        · have := h.room (by simp [hl]); dsimp only; omega
    · rename_i hnf
      have := h.room (by simp [hl])
      exact Or.inl ⟨g, rfl, h, rfl, rfl, rfl, rfl, rfl, by simp [hl], by omega⟩

theorem Inv.ntrials {s0 : ℕ} (h : Inv base old s0 L0 g) (t : Int) : Inv base old s0 L0 { g with ntrials := t } :=
  ⟨h.init, h.acc.congr rfl, h.nolist, h.room, h.gen, h.s0le, h.new, h.notNew⟩

theorem slip_gmp_allocate_spec {s0 : ℕ} (h : Inv base old s0 L0 g) :
    (∃ q g', slip_gmp_allocate g = .ok q g' ∧ Inv base old s0 L0 g' ∧
      q ∉ old + ((g.used : List Addr) : Multiset Addr) ∧ g'.used = g.used ++ [q] ∧ g'.obj = g.obj ∧
      g'.arch = g.arch ∧ g'.cache = g.cache ∧ g'.refused = g.refused) ∨
    ∃ g', slip_gmp_allocate g = .jump g' ∧ Inv base old s0 L0 g' ∧ g'.used = g.used ∧ g'.obj = g.obj ∧
      g'.arch = g.arch ∧ g'.cache = g.cache := by
  unfold slip_gmp_allocate
  split
  · exact Or.inr ⟨g, rfl, h, rfl, rfl, rfl, rfl⟩
  dsimp only
  set gt := (if g.ntrials > 0 then { g with ntrials := g.ntrials - 1 } else g) with hgt
  have ht : Inv base old s0 L0 gt ∧ gt.used = g.used ∧ gt.obj = g.obj ∧ gt.arch = g.arch ∧
      gt.cache = g.cache ∧ gt.refused = g.refused := by
    rw [hgt]
    split
    · exact ⟨h.ntrials _, rfl, rfl, rfl, rfl, rfl⟩
    · exact ⟨h, rfl, rfl, rfl, rfl, rfl⟩
  obtain ⟨hi, t1, t2, t3, t4, t5⟩ := ht
  rcases ensureList_spec hi with ⟨g1, e, h1, u1, u2, u3, u4, u5, u6, u7⟩ | ⟨g1, e, h1, u1, u2, u3, u4⟩
  · rw [e]
    simp only [Out.bind]
    rcases slipMalloc_spec h1.init with e2 | ⟨q, hq, e2⟩
    · rw [e2]
      refine Or.inr ⟨_, rfl, ⟨h1.init, h1.acc.congr rfl, h1.nolist, h1.room, h1.gen, h1.s0le, h1.new,
        h1.notNew⟩, by rw [← t1, ← u1], by rw [← t2, ← u2], by rw [← t3, ← u3], by rw [← t4, ← u4]⟩
    · rw [e2]
      dsimp only
      rw [if_pos u7]
      have hqn := h1.acc.notMem hq
      obtain ⟨l, hl⟩ := Option.isSome_iff_exists.1 u6
      refine Or.inl ⟨q, _, rfl, ⟨h1.init, ?_, ?_, ?_, ?_, ?_, ?_, ?_⟩, ?_, by rw [← t1, ← u1],
        by rw [← t2, ← u2], by rw [← t3, ← u3], by rw [← t4, ← u4], by rw [← t5, ← u5]⟩
      · have := h1.acc.alloc (q := q) (s := g1.gen)
          (g' := { g1 with live := Function.update g1.live q (some g1.gen) }) hq rfl
        dsimp only
        rw [← Multiset.coe_add, Multiset.coe_singleton, ← add_assoc, add_right_comm,
          add_comm _ ({q} : Multiset Addr), Multiset.singleton_add]
        exact this.congr rfl
      · dsimp only; intro hn; rw [hl] at hn; cases hn
      · dsimp only; intro _
        have := h1.room u6
        simp only [List.length_append, List.length_singleton]
        omega
      · intro p s hs
        dsimp only at hs ⊢
        by_cases e : p = q
        · subst e; rw [Function.update_self] at hs; cases hs; omega
        · rw [Function.update_of_ne e] at hs
          have := h1.gen p s hs; omega
      · have := h1.s0le; dsimp only; omega
      · intro p hp
        dsimp only at hp ⊢
        by_cases e : p = q
        · subst e; rw [Function.update_self]; exact ⟨_, rfl, h1.s0le⟩
        · rw [Function.update_of_ne e]
          rcases List.mem_append.1 hp with hp | hp
          · exact h1.new p hp
          · exact absurd (List.mem_singleton.1 hp) e
      · intro p s h2 h3 hs
        dsimp only at h2 h3 hs
        have e : p ≠ q := by rintro rfl; exact h2 (by simp)
        rw [Function.update_of_ne e] at hs
        exact h1.notNew p s (fun hm => h2 (by simp [hm])) h3 hs
      · intro hm
        apply hqn
        rw [← t1, ← u1] at hm
        exact Multiset.mem_add.2 (Or.inl hm)
  · rw [e]
    exact Or.inr ⟨g1, rfl, h1, by rw [u1, t1], by rw [u2, t2], by rw [u3, t3], by rw [u4, t4]⟩

theorem removeFirst_perm (p : Addr) (l : List Addr) : (removeFirst p l).Perm (l.erase p) := by
  unfold removeFirst
  cases h : l.idxOf? p with
  | none =>
    rw [List.idxOf?_eq_none_iff] at h
    dsimp only
    rw [List.erase_of_not_mem h]
  | some i =>
    dsimp only
    rw [List.idxOf?, List.findIdx?_eq_some_iff_getElem] at h
    obtain ⟨hi, h1, h2⟩ := h
    have hp : l[i] = p := by simpa using h1
    have hsplit : l = l.take i ++ p :: l.drop (i + 1) := by
      rw [← hp, List.cons_getElem_drop_succ, List.take_append_drop]
    have hnot : p ∉ l.take i := by
      intro hm
      obtain ⟨j, hj, e⟩ := List.mem_iff_getElem.1 hm
      have hj' : j < i := by simp at hj; omega
      have := h2 j hj'
      rw [List.getElem_take] at e
      simp [e] at this
    have hlen : (l.take i).length = i := by rw [List.length_take]; omega
    generalize l.take i = l1 at hsplit hnot hlen
    generalize l.drop (i + 1) = l2 at hsplit
    subst hsplit
    rw [List.erase_append_right _ hnot, List.erase_cons_head, List.set_append_right _ _ (by omega), hlen,
      Nat.sub_self, List.set_cons_zero]
    rcases List.eq_nil_or_concat l2 with rfl | ⟨l3, z, rfl⟩
    · simp
    · rw [List.concat_eq_append]
      have e1 : (l1 ++ p :: (l3 ++ [z])).getLast? = some z := by
        rw [← List.cons_append, ← List.append_assoc, List.getLast?_concat]
      rw [e1, Option.getD_some, ← List.cons_append, ← List.append_assoc, List.dropLast_concat]
      exact List.Perm.append_left _ (List.perm_append_singleton z l3).symm

theorem mem_nulled {x : List (Option Addr)} : some q ∈ nulled p x ↔ some q ∈ x ∧ q ≠ p := by
  unfold nulled
  rw [List.mem_map]
  constructor
  · rintro ⟨f, hf, e⟩
    split at e
    · cases e
    · rename_i hne
      subst e
      exact ⟨hf, fun h => hne (by rw [h])⟩
  · rintro ⟨h1, h2⟩
    exact ⟨some q, h1, if_neg fun e => h2 (Option.some.inj e)⟩

theorem erase_add3 {a b c : Multiset Addr} (hn : (a + b + c).Nodup) (hp : p ∈ a + b) :
    (a + b + c).erase p = a.erase p + b.erase p + c := by
  rw [Multiset.erase_add_left_pos _ hp]
  have hd := Multiset.nodup_add.1 (Multiset.nodup_add.1 hn).1
  rcases Multiset.mem_add.1 hp with h | h
  · rw [Multiset.erase_add_left_pos _ h,
      Multiset.erase_of_notMem (fun hb => Multiset.disjoint_left.1 hd.2.2 h hb)]
  · rw [Multiset.erase_add_right_pos _ h,
      Multiset.erase_of_notMem (s := a) (fun ha => Multiset.disjoint_left.1 hd.2.2 ha h)]

theorem erase_add2 {a b c : Multiset Addr} (hn : (a + b + c).Nodup) (hp : p ∈ a + b) :
    (a + b).erase p = a.erase p + b.erase p := by
  have := erase_add3 (c := 0) (a := a) (b := b) (by simpa using (Multiset.nodup_add.1 hn).1) hp
  simpa using this

/-- A block of the call is freed. -/
theorem slip_gmp_free_spec {s0 : ℕ} (h : Inv base old s0 L0 g) (harch : g.arch = true)
    (hp : p ∈ old + ((g.used : List Addr) : Multiset Addr)) :
    ∃ g', slip_gmp_free (some p) g = .ok () g' ∧ Inv base (old.erase p) s0 L0 g' ∧
      ((g'.used : List Addr) : Multiset Addr) = ((g.used : List Addr) : Multiset Addr).erase p ∧
      g'.obj = nulled p g.obj ∧ g'.arch = true ∧ g'.cache = g.cache ∧ g'.refused = g.refused ∧
      g'.list = g.list := by
  have hlive : (g.live p).isSome := h.acc.live (Multiset.mem_add.2 (Or.inl hp))
  have hfree : ∀ u, safeFree (some p) { g with used := u } = .ok () { g with
      used := u, obj := nulled p g.obj, live := Function.update g.live p none } := by
    intro u
    unfold safeFree unarchive
    dsimp only
    rw [if_pos harch, slipFree_some (by exact h.init) (by exact hlive)]
    rfl
  have hacc := h.acc.free (p := p) (g' := { g with live := Function.update g.live p none })
    (Multiset.mem_add.2 (Or.inl hp)) rfl
  rw [erase_add3 h.acc.nodup hp] at hacc
  have hpl : g.list ≠ some p := by
    intro e
    have := h.acc.nodup
    rw [e, blk_some] at this
    exact Multiset.disjoint_left.1 (Multiset.nodup_add.1 this).2.2 hp (by simp)
  have hun : (g.used : List Addr).Nodup := by
    have := (Multiset.nodup_add.1 (Multiset.nodup_add.1 h.acc.nodup).1).2.1
    simpa using this
  have key : ∀ u : List Addr, (u : Multiset Addr) = ((g.used : List Addr) : Multiset Addr).erase p →
      (g.list = none → u = []) →
      Inv base (old.erase p) s0 L0 { g with
        used := u, obj := nulled p g.obj, live := Function.update g.live p none } := by
    intro u hu hnone
    have mem : ∀ a, a ∈ u ↔ a ≠ p ∧ a ∈ g.used := by
      intro a
      rw [← Multiset.mem_coe, hu, Multiset.coe_erase, Multiset.mem_coe, hun.mem_erase_iff]
    refine ⟨h.init, ?_, hnone, fun hs => ⟨(h.room hs).1, ?_⟩, ?_, h.s0le, ?_, ?_⟩
    · dsimp only
      rw [hu]
      exact hacc.congr rfl
    · dsimp only
      have e1 : u.length = (u : Multiset Addr).card := rfl
      rw [e1, hu, Multiset.coe_erase, Multiset.coe_card]
      exact le_trans (List.erase_sublist.length_le) (h.room hs).2
    · intro a s hs
      dsimp only at hs ⊢
      by_cases e : a = p
      · subst e; rw [Function.update_self] at hs; cases hs
      · rw [Function.update_of_ne e] at hs; exact h.gen a s hs
    · intro a ha
      dsimp only at ha ⊢
      obtain ⟨h1, h2⟩ := (mem a).1 ha
      rw [Function.update_of_ne h1]
      exact h.new a h2
    · intro a s h1 h2 hs
      dsimp only at h1 h2 hs
      by_cases e : a = p
      · subst e; rw [Function.update_self] at hs; cases hs
      · rw [Function.update_of_ne e] at hs
        exact h.notNew a s (fun hm => h1 ((mem a).2 ⟨e, hm⟩)) h2 hs
  cases hl : g.list with
  | none =>
    have hu := h.nolist hl
    have e : slip_gmp_free (some p) g = safeFree (some p) { g with used := g.used } := by
      unfold slip_gmp_free; rw [hl]
    rw [e, hfree]
    have hu2 : ((g.used : List Addr) : Multiset Addr) = ((g.used : List Addr) : Multiset Addr).erase p := by
      rw [hu]; rfl
    refine ⟨_, rfl, key _ hu2 (fun _ => hu), hu2, rfl, harch, rfl, rfl, hl⟩
  | some l =>
    have e : slip_gmp_free (some p) g = safeFree (some p) { g with used := removeFirst p g.used } := by
      unfold slip_gmp_free; rw [hl]
    rw [e, hfree]
    have hu2 : ((removeFirst p g.used : List Addr) : Multiset Addr) =
        ((g.used : List Addr) : Multiset Addr).erase p := by
      rw [Multiset.coe_erase]
      exact Multiset.coe_eq_coe.2 (removeFirst_perm p g.used)
    refine ⟨_, rfl, key _ hu2 (fun hn => by rw [hl] at hn; cases hn), hu2, rfl, harch, rfl, rfl, hl⟩

/-! ## A GMP function -/

/-- The blocks the GMP function owns. -/
abbrev ownOf (old : Multiset Addr) (g : G) : Multiset Addr := old + ((g.used : List Addr) : Multiset Addr)

/-- State of a run of a GMP function. -/
structure RunInv (base : Addr → Option ℕ) (old0 old : Multiset Addr) (s0 : ℕ) (L0 : Addr → Option ℕ)
    (g : G) : Prop where
  inv : Inv base old s0 L0 g
  arch : g.arch = true
  fields : ∀ p, some p ∈ g.obj → p ∈ ownOf old g
  le : old ≤ old0

theorem RunInv.congr {old0 : Multiset Addr} {s0 : ℕ} (h : RunInv base old0 old s0 L0 g)
    (hi : Inv base old s0 L0 g') (hu : g'.used = g.used) (ho : g'.obj = g.obj) (ha : g'.arch = g.arch) :
    RunInv base old0 old s0 L0 g' :=
  ⟨hi, ha.trans h.arch, by unfold ownOf; rw [hu, ho]; exact h.fields, h.le⟩

theorem RunInv.alloc {old0 : Multiset Addr} {s0 : ℕ} (h : RunInv base old0 old s0 L0 g)
    (hi : Inv base old s0 L0 g') (hu : g'.used = g.used ++ [q]) (ho : g'.obj = g.obj) (ha : g'.arch = g.arch) :
    RunInv base old0 old s0 L0 g' ∧ ownOf old g' = q ::ₘ ownOf old g := by
  have e : ownOf old g' = q ::ₘ ownOf old g := by
    unfold ownOf
    rw [hu, ← Multiset.coe_add, Multiset.coe_singleton, ← add_assoc, add_comm _ ({q} : Multiset Addr),
      Multiset.singleton_add]
  refine ⟨⟨hi, ha.trans h.arch, fun p hp => ?_, h.le⟩, e⟩
  rw [e]
  exact Multiset.mem_cons_of_mem (h.fields p (ho ▸ hp))

theorem RunInv.free {old0 : Multiset Addr} {s0 : ℕ} (h : RunInv base old0 old s0 L0 g) (hp : p ∈ ownOf old g) :
    ∃ g', slip_gmp_free (some p) g = .ok () g' ∧ RunInv base old0 (old.erase p) s0 L0 g' ∧
      ownOf (old.erase p) g' = (ownOf old g).erase p ∧ g'.obj = nulled p g.obj ∧ g'.cache = g.cache ∧
      g'.refused = g.refused := by
  obtain ⟨g', e, hi, hu, ho, ha, hc, hr, -⟩ := slip_gmp_free_spec h.inv h.arch hp
  have hown : ownOf (old.erase p) g' = (ownOf old g).erase p := by
    unfold ownOf
    rw [hu, erase_add2 h.inv.acc.nodup hp]
  refine ⟨g', e, ⟨hi, ha, fun a hm => ?_, (Multiset.erase_le _ _).trans h.le⟩, hown, ho, hc, hr⟩
  rw [ho, mem_nulled] at hm
  rw [hown, (Multiset.nodup_add.1 h.inv.acc.nodup).1.mem_erase_iff]
  exact ⟨hm.2, h.fields a hm.1⟩

theorem Out.bind_ok {α β : Type} (a : α) (g : G) (k : α → G → Out β) : (Out.ok a g).bind k = k a g := rfl
theorem Out.bind_jump {α β : Type} (g : G) (k : α → G → Out β) : (Out.jump g).bind k = .jump g := rfl

theorem nulled_length (p : Addr) (x : List (Option Addr)) : (nulled p x).length = x.length := by
  unfold nulled; simp

/-- Running a fair GMP function: it returns with `Q`, or it is left by `longjmp` with `A`. -/
theorem run_spec {A Q : Cond} (f : Gmp) : ∀ {old0 old : Multiset Addr} {s0 : ℕ} {g : G},
    RunInv base old0 old s0 L0 g → f.Fair A Q (ownOf old g) old g.obj g.cache →
    (∃ g' old', f.run g = .ok () g' ∧ RunInv base old0 old' s0 L0 g' ∧
      ((g'.cache : List Addr) : Multiset Addr) ≤ ownOf old' g' ∧ Q (ownOf old' g') old' g'.obj g'.cache ∧
      g'.refused = g.refused ∧ g'.obj.length = g.obj.length) ∨
    ∃ g' old', f.run g = .jump g' ∧ RunInv base old0 old' s0 L0 g' ∧
      ((g'.cache : List Addr) : Multiset Addr) ≤ ownOf old' g' ∧ A (ownOf old' g') old' g'.obj g'.cache ∧
      g'.obj.length = g.obj.length := by
  induction f with
  | done =>
    intro old0 old s0 g h hf
    exact Or.inl ⟨g, old, rfl, h, hf.1, hf.2, rfl, rfl⟩
  | alloc k ih =>
    intro old0 old s0 g h hf
    obtain ⟨h1, h2, h3⟩ := hf
    rw [Gmp.run]
    rcases slip_gmp_allocate_spec h.inv with ⟨q, g', e, hi, hq, hu, ho, ha, hc, hr⟩ | ⟨g', e, hi, hu, ho, ha, hc⟩
    · rw [e, Out.bind_ok]
      obtain ⟨hR, hown⟩ := h.alloc hi hu ho ha
      have := ih q hR (by rw [hown, ho, hc]; exact h3 q hq)
      rw [hr, ho] at this
      exact this
    · rw [e, Out.bind_jump]
      refine Or.inr ⟨g', old, rfl, h.congr hi hu ho ha, ?_, ?_, by rw [ho]⟩
      · unfold ownOf; rw [hu, hc]; exact h1
      · unfold ownOf; rw [hu, hc, ho]; exact h2
  | free p k ih =>
    intro old0 old s0 g h hf
    rw [Gmp.run]
    cases p with
    | none =>
      have e : slip_gmp_free none g = .ok () g := by unfold slip_gmp_free; rfl
      rw [e, Out.bind_ok]
      exact ih h hf
    | some p =>
      obtain ⟨hp, hf⟩ := hf
      obtain ⟨g', e, hR, hown, ho, hc, hr⟩ := h.free hp
      rw [e, Out.bind_ok]
      have := ih hR (by rw [hown, ho, hc]; exact hf)
      rw [hr, ho, nulled_length] at this
      exact this
  | realloc p z k ih =>
    intro old0 old s0 g h hf
    rw [Gmp.run]
    unfold slip_gmp_reallocate
    cases p with
    | none =>
      obtain ⟨h1, h2, h3⟩ := hf
      dsimp only
      rcases slip_gmp_allocate_spec h.inv with ⟨q, g', e, hi, hq, hu, ho, ha, hc, hr⟩ | ⟨g', e, hi, hu, ho, ha, hc⟩
      · rw [e, Out.bind_ok, Out.bind_ok]
        obtain ⟨hR, hown⟩ := h.alloc hi hu ho ha
        have := ih (some q) hR (by rw [hown, ho, hc]; exact h3 q hq)
        rw [hr, ho] at this
        exact this
      · rw [e, Out.bind_jump, Out.bind_jump]
        refine Or.inr ⟨g', old, rfl, h.congr hi hu ho ha, ?_, ?_, by rw [ho]⟩
        · unfold ownOf; rw [hu, hc]; exact h1
        · unfold ownOf; rw [hu, hc, ho]; exact h2
    | some p =>
      cases z with
      | true =>
        obtain ⟨hp, hf⟩ := hf
        obtain ⟨g', e, hR, hown, ho, hc, hr⟩ := h.free hp
        simp only [if_true]
        rw [e, Out.bind_ok, Out.bind_ok]
        have := ih none hR (by rw [hown, ho, hc]; exact hf)
        rw [hr, ho, nulled_length] at this
        exact this
      | false =>
        obtain ⟨hp, h1, h2, h3⟩ := hf
        simp only [Bool.false_eq_true, if_false]
        rcases slip_gmp_allocate_spec h.inv with ⟨q, g', e, hi, hq, hu, ho, ha, hc, hr⟩ | ⟨g', e, hi, hu, ho, ha, hc⟩
        · rw [e, Out.bind_ok]
          obtain ⟨hR, hown⟩ := h.alloc hi hu ho ha
          obtain ⟨g2, e2, hR2, hown2, ho2, hc2, hr2⟩ := hR.free (p := p)
            (by rw [hown]; exact Multiset.mem_cons_of_mem hp)
          rw [e2, Out.bind_ok, Out.bind_ok]
          have := ih (some q) hR2 (by rw [hown2, hown, ho2, ho, hc2, hc]; exact h3 q hq)
          rw [hr2, hr, ho2, nulled_length, ho] at this
          exact this
        · rw [e, Out.bind_jump, Out.bind_jump]
          refine Or.inr ⟨g', old, rfl, h.congr hi hu ho ha, ?_, ?_, by rw [ho]⟩
          · unfold ownOf; rw [hu, hc]; exact h1
          · unfold ownOf; rw [hu, hc, ho]; exact h2
  | store f v k ih =>
    intro old0 old s0 g h hf
    rw [Gmp.run]
    have := ih (g := { g with obj := g.obj.set f v }) (old0 := old0) (s0 := s0) ⟨?_, h.arch, ?_, h.le⟩ hf.2
    · simpa using this
    · exact ⟨h.inv.init, h.inv.acc.congr rfl, h.inv.nolist, h.inv.room, h.inv.gen, h.inv.s0le, h.inv.new,
        h.inv.notNew⟩
    · intro p hp
      rcases List.mem_or_eq_of_mem_set hp with hm | e
      · exact h.fields p hm
      · exact hf.1 p e.symm
  | setCache c k ih =>
    intro old0 old s0 g h hf
    rw [Gmp.run]
    exact ih (g := { g with cache := c }) ⟨⟨h.inv.init, h.inv.acc.congr rfl, h.inv.nolist, h.inv.room,
      h.inv.gen, h.inv.s0le, h.inv.new, h.inv.notNew⟩, h.arch, h.fields, h.le⟩ hf

/-! ## Failure -/

theorem freeCache_spec {old0 : Multiset Addr} {s0 : ℕ} (c : List Addr) : ∀ {old : Multiset Addr} {g : G},
    RunInv base old0 old s0 L0 g → (c : Multiset Addr) ≤ ownOf old g →
    ∃ g', freeCache c g = .ok () g' ∧ RunInv base old0 (old - (c : Multiset Addr)) s0 L0 g' ∧
      ownOf (old - (c : Multiset Addr)) g' = ownOf old g - (c : Multiset Addr) ∧ g'.cache = [] ∧
      (∀ p, some p ∈ g'.obj ↔ some p ∈ g.obj ∧ p ∉ c) ∧ g'.obj.length = g.obj.length ∧
      g'.obj = c.foldl (fun x p => nulled p x) g.obj := by
  induction c with
  | nil =>
    intro old g h _
    refine ⟨_, rfl, ?_, by simp [ownOf], rfl, by simp, rfl, rfl⟩
    rw [Multiset.coe_nil, tsub_zero]
    exact ⟨⟨h.inv.init, h.inv.acc.congr rfl, h.inv.nolist, h.inv.room, h.inv.gen, h.inv.s0le, h.inv.new,
      h.inv.notNew⟩, h.arch, h.fields, h.le⟩
  | cons p c ih =>
    intro old g h hc
    rw [← Multiset.cons_coe] at hc
    have hp : p ∈ ownOf old g := Multiset.mem_of_le hc (Multiset.mem_cons_self _ _)
    obtain ⟨g1, e, hR, hown, ho, -, -⟩ := h.free hp
    have hc1 : (c : Multiset Addr) ≤ ownOf (old.erase p) g1 := by
      rw [hown, ← Multiset.erase_cons_head p (c : Multiset Addr)]
      exact Multiset.erase_le_erase p hc
    obtain ⟨g2, e2, hR2, hown2, hcc, hm, hlen, hfold⟩ := ih hR hc1
    refine ⟨g2, ?_, ?_, ?_, hcc, ?_, ?_, ?_⟩
    · rw [freeCache, e, Out.bind_ok, e2]
    · rw [← Multiset.cons_coe, Multiset.sub_cons]; exact hR2
    · rw [← Multiset.cons_coe, Multiset.sub_cons, Multiset.sub_cons, hown2, hown]
    · intro a
      rw [hm, ho, mem_nulled]
      simp only [List.mem_cons, not_or]
      tauto
    · rw [hlen, ho]; unfold nulled; simp
    · rw [hfold, ho]; rfl

theorem freeList_spec (l : List Addr) : ∀ {rest : Multiset Addr} {g : G}, g.init = true → g.arch = true →
    Acc base ((l : Multiset Addr) + rest) g →
    ∃ g', freeList l g = .ok () g' ∧ Acc base rest g' ∧ g'.init = true ∧ g'.cache = g.cache ∧
      g'.list = g.list ∧ g'.gen = g.gen ∧ (∀ p s, g'.live p = some s → g.live p = some s) ∧
      g'.refused = g.refused ∧
      g'.obj = l.foldl (fun x p => nulled p x) g.obj := by
  induction l with
  | nil =>
    intro rest g hi _ h
    exact ⟨g, rfl, by simpa using h, hi, rfl, rfl, rfl, fun _ _ h => h, rfl, rfl⟩
  | cons p l ih =>
    intro rest g hi ha h
    rw [← Multiset.cons_coe, Multiset.cons_add] at h
    have hlive := h.live (Multiset.mem_cons_self p _)
    have e : safeFree (some p) g = .ok () { g with
        obj := nulled p g.obj, live := Function.update g.live p none } := by
      unfold safeFree unarchive
      dsimp only
      rw [if_pos ha, slipFree_some (by exact hi) (by exact hlive)]
      rfl
    have hacc := h.free (p := p) (g' := { g with
        obj := nulled p g.obj, live := Function.update g.live p none }) (Multiset.mem_cons_self p _) rfl
    rw [Multiset.erase_cons_head] at hacc
    obtain ⟨g', e2, h1, h2, h3, h4, h5, h6, h7, h8⟩ := ih (by exact hi) (by exact ha) hacc
    refine ⟨g', by rw [freeList, e, Out.bind_ok, e2], h1, h2, h3, h4, h5, fun a s hs => ?_, h7, h8⟩
    have := h6 a s hs
    dsimp only at this
    by_cases e : a = p
    · subst e; rw [Function.update_self] at this; cases this
    · rwa [Function.update_of_ne e] at this

theorem mem_foldl_nulled (l : List Addr) : ∀ (x : List (Option Addr)),
    some q ∈ l.foldl (fun x p => nulled p x) x ↔ some q ∈ x ∧ q ∉ l := by
  induction l with
  | nil => simp
  | cons p l ih =>
    intro x
    rw [List.foldl_cons, ih, mem_nulled]
    simp only [List.mem_cons, not_or]
    tauto

theorem reduceOption_nulled (p : Addr) (x : List (Option Addr)) :
    (nulled p x).reduceOption.Sublist x.reduceOption := by
  induction x with
  | nil => exact List.Sublist.slnil
  | cons a x ih =>
    unfold nulled at *
    rw [List.map_cons]
    cases a with
    | none =>
      rw [if_neg nofun, List.reduceOption_cons_of_none, List.reduceOption_cons_of_none]
      exact ih
    | some a =>
      split
      · rw [List.reduceOption_cons_of_none, List.reduceOption_cons_of_some]
        exact ih.cons _
      · rw [List.reduceOption_cons_of_some, List.reduceOption_cons_of_some]
        exact ih.cons_cons _

theorem nulled_le (p : Addr) (x : List (Option Addr)) : blks (nulled p x) ≤ blks x :=
  Multiset.coe_le.2 (reduceOption_nulled p x).subperm

theorem foldl_nulled_le (l : List Addr) : ∀ x : List (Option Addr),
    blks (l.foldl (fun x p => nulled p x) x) ≤ blks x ∧
      (l.foldl (fun x p => nulled p x) x).length = x.length := by
  induction l with
  | nil => intro x; exact ⟨le_refl _, rfl⟩
  | cons p l ih =>
    intro x
    have := ih (nulled p x)
    rw [List.foldl_cons]
    exact ⟨this.1.trans (nulled_le p x), this.2.trans (by unfold nulled; simp)⟩

theorem mem_blks {x : List (Option Addr)} : p ∈ blks x ↔ some p ∈ x := by
  unfold blks
  rw [Multiset.mem_coe, List.reduceOption_mem_iff]

theorem slip_gmp_failure_spec {old0 : Multiset Addr} {s0 : ℕ} (h : RunInv base old0 old s0 L0 g)
    (hc : ((g.cache : List Addr) : Multiset Addr) ≤ ownOf old g) :
    ∃ g', slip_gmp_failure g = .ok () g' ∧ Idle g' ∧ g'.list = none ∧ g'.cache = [] ∧ g'.used = [] ∧
      g'.arch = false ∧ Acc base (old - ((g.cache : List Addr) : Multiset Addr)) g' ∧
      (∀ p s, g'.live p = some s → L0 p = some s) ∧
      (∀ p, some p ∈ g'.obj ↔ some p ∈ g.obj ∧ p ∈ old - ((g.cache : List Addr) : Multiset Addr)) ∧
      blks g'.obj ≤ blks g.obj ∧ g'.obj.length = g.obj.length := by
  obtain ⟨g1, e1, hR, hown, hcc, hm, -, hf1⟩ := freeCache_spec g.cache h hc
  unfold slip_gmp_failure
  rw [e1, Out.bind_ok]
  set O := old - ((g.cache : List Addr) : Multiset Addr) with hO
  have hacc := hR.inv.acc
  -- the list is emptied
  have step : ∃ g2, freeListed g1 = .ok () g2 ∧ Acc base (O + blk g1.list) g2 ∧
      g2.init = true ∧ g2.cache = [] ∧ g2.list = g1.list ∧ g2.gen = g1.gen ∧
      (∀ p s, g2.live p = some s → g1.live p = some s) ∧
      g2.obj = g1.used.foldl (fun x p => nulled p x) g1.obj := by
    unfold freeListed
    cases hl : g1.list with
    | none =>
      have hu := hR.inv.nolist hl
      refine ⟨g1, rfl, ?_, hR.inv.init, hcc, hl, rfl, fun _ _ h => h, by rw [hu]; rfl⟩
      rw [hu, hl] at hacc
      simpa using hacc
    | some l =>
      have : Acc base (((g1.used : List Addr) : Multiset Addr) + (O + blk (some l))) g1 := by
        rw [hl] at hacc
        convert hacc using 1
        abel
      obtain ⟨g2, e2, a1, a2, a3, a4, a5, a6, a7, a8⟩ := freeList_spec g1.used hR.inv.init hR.arch this
      exact ⟨g2, e2, a1, a2, a3.trans hcc, a4.trans hl, a5, a6, a8⟩
  obtain ⟨g2, e2, a1, a2, a3, a4, a5, a6, a8⟩ := step
  rw [e2, Out.bind_ok]
  unfold slip_gmp_finalize
  have hdis : ∀ p ∈ g1.used, p ∉ O + blk g1.list := by
    intro p hp hm
    have h1 : (((g1.used : List Addr) : Multiset Addr) + (O + blk g1.list)).Nodup := by
      convert hacc.nodup using 1
      abel
    exact Multiset.disjoint_left.1 (Multiset.nodup_add.1 h1).2.2 (by simpa using hp) hm
  -- what is live now was live at the start
  have hback : ∀ p s, g2.live p = some s → g1.list ≠ some p → L0 p = some s := by
    intro p s hs hne
    refine hR.inv.notNew p s (fun hm => ?_) hne (a6 p s hs)
    have hb : base p = none := (hacc.2.1 p (by
      rw [Multiset.mem_add, Multiset.mem_add]
      exact Or.inl (Or.inr (by simpa using hm)))).2
    rw [a1.2.2 p (hdis p hm), hb] at hs
    cases hs
  have hobj : ∀ p, some p ∈ g2.obj ↔ some p ∈ g.obj ∧ p ∈ O := by
    intro p
    rw [a8, mem_foldl_nulled]
    constructor
    · rintro ⟨h1, h2⟩
      refine ⟨((hm p).1 h1).1, ?_⟩
      rcases Multiset.mem_add.1 (hR.fields p h1) with h3 | h3
      · exact h3
      · exact absurd (by simpa using h3) h2
    · rintro ⟨h1, h2⟩
      have hnc : p ∉ g.cache := by
        intro hmem
        have hn : (ownOf old g).Nodup := (Multiset.nodup_add.1 h.inv.acc.nodup).1
        have hn2 : old.Nodup := (Multiset.nodup_add.1 hn).1
        rw [hO, Multiset.mem_sub_of_nodup hn2] at h2
        exact h2.2 (by simpa using hmem)
      refine ⟨(hm p).2 ⟨h1, hnc⟩, fun hu => hdis p hu (Multiset.mem_add.2 (Or.inl h2))⟩
  have hobj2 : blks g2.obj ≤ blks g.obj ∧ g2.obj.length = g.obj.length := by
    have b1 := foldl_nulled_le g1.used g1.obj
    have b2 := foldl_nulled_le g.cache g.obj
    rw [← a8] at b1
    rw [← hf1] at b2
    exact ⟨b1.1.trans b2.1, b1.2.trans b2.2⟩
  cases hl : g2.list with
  | none =>
    rw [slipFree_none, Out.bind_ok]
    refine ⟨_, rfl, ⟨a2, nofun, ?_⟩, rfl, a3, rfl, rfl, ?_, ?_, hobj, hobj2⟩
    · intro p s hs
      have := hR.inv.gen p s (a6 p s hs)
      dsimp only; omega
    · rw [← a4, hl, blk_none, add_zero] at a1
      exact a1.congr rfl
    · intro p s hs
      exact hback p s hs (by rw [← a4, hl]; nofun)
  | some l =>
    rw [← a4, hl, blk_some] at a1
    rw [slipFree_some (by exact a2) (by exact a1.live (by simp)), Out.bind_ok]
    refine ⟨_, rfl, ⟨a2, nofun, ?_⟩, rfl, a3, rfl, rfl, ?_, ?_, hobj, hobj2⟩
    · intro p s hs
      dsimp only at hs ⊢
      by_cases e : p = l
      · subst e; rw [Function.update_self] at hs; cases hs
      · rw [Function.update_of_ne e] at hs
        have := hR.inv.gen p s (a6 p s hs)
        omega
    · have := a1.free (p := l) (g' := { g2 with live := Function.update g2.live l none }) (by simp) rfl
      rw [add_comm, Multiset.singleton_add, Multiset.erase_cons_head] at this
      exact this.congr rfl
    · intro p s hs
      dsimp only at hs
      by_cases e : p = l
      · subst e; rw [Function.update_self] at hs; cases hs
      · rw [Function.update_of_ne e] at hs
        exact hback p s hs (by rw [← a4, hl]; intro h; exact e (Option.some.inj h).symm)

/-! ## A wrapped call -/

theorem RunInv.start {x : List (Option Addr)} (hI : Idle g) (hacc : Acc base (own + blk g.list) g)
    (hx : ∀ p, some p ∈ x → p ∈ own) :
    RunInv base own own g.gen g.live { g with arch := true, obj := x, used := [] } :=
  ⟨⟨hI.1, by simpa [Acc] using hacc, fun _ => rfl, fun h => ⟨hI.2.1 h, Nat.zero_le _⟩, hI.2.2, le_refl _,
    nofun, fun _ _ _ _ h => h⟩, rfl, by simpa [ownOf] using hx, le_refl _⟩

theorem wrapped_spec {A Q : Cond} {x : List (Option Addr)} {f : Gmp} (hI : Idle g)
    (hacc : Acc base (own + blk g.list) g) (hx : ∀ p, some p ∈ x → p ∈ own)
    (hf : f.Fair A Q own own x g.cache) :
    (∃ x' g', wrapped true x f g = .ok ((.ok, x'), g') ∧ Idle g' ∧ g'.refused = g.refused ∧
      ∃ own' old', Acc base (own' + blk g'.list) g' ∧ ((g'.cache : List Addr) : Multiset Addr) ≤ own' ∧
        (∀ p, some p ∈ x' → p ∈ own') ∧ Q own' old' x' g'.cache ∧ x'.length = x.length) ∨
    ∃ x' g', wrapped true x f g = .ok ((.outOfMemory, x'), g') ∧ Idle g' ∧
      g'.list = none ∧ g'.cache = [] ∧ (∀ p s, g'.live p = some s → g.live p = some s) ∧
      ∃ own1 old1 x1 c1, A own1 old1 x1 c1 ∧ old1 ≤ own ∧ Acc base (old1 - (c1 : Multiset Addr)) g' ∧
        (∀ p, some p ∈ x' ↔ some p ∈ x1 ∧ p ∈ old1 - (c1 : Multiset Addr)) ∧
        blks x' ≤ blks x1 ∧ x'.length = x.length := by
  have hst := RunInv.start hI hacc hx
  unfold wrapped
  rcases run_spec f hst (by simpa [ownOf] using hf) with
    ⟨g', old', e, hR, hc, hQ, hr, hlen⟩ | ⟨g', old', e, hR, hc, hA, hlen⟩
  · rw [e]
    refine Or.inl ⟨_, _, rfl, ⟨hR.inv.init, fun h => (hR.inv.room h).1, hR.inv.gen⟩, hr,
      ownOf old' g', old', hR.inv.acc.congr rfl, hc, hR.fields, hQ, hlen⟩
  · rw [e]
    dsimp only
    obtain ⟨g2, e2, b1, b2, b3, b4, b5, b6, b7, b8, b9, b10⟩ := slip_gmp_failure_spec hR hc
    rw [e2]
    exact Or.inr ⟨_, _, rfl, ⟨b1.1, b1.2.1, b1.2.2⟩, b2, b3, b7, _, _, _, _, hA, hR.le, b6.congr rfl, b8, b9, b10.trans hlen⟩

theorem wrapped_tidy {x : List (Option Addr)} {f : Gmp} (hI : Idle g)
    (hacc : Acc base (blks x + sys g) g) (hf : f.Tidy x g.cache) :
    ∃ r x' g', wrapped true x f g = .ok ((r, x'), g') ∧ Idle g' ∧ Acc base (blks x' + sys g') g' ∧
      x'.length = x.length ∧ (r = .ok ∧ g'.refused = g.refused ∨ r = .outOfMemory) := by
  unfold sys at hacc
  rw [← add_assoc] at hacc
  rcases wrapped_spec hI hacc (fun p hp => Multiset.mem_add.2 (Or.inl (mem_blks.2 hp))) hf with
    ⟨x', g', e, h1, h2, own', old', h3, h4, h5, h6, h7⟩ |
    ⟨x', g', e, h1, h2, h3, h4, own1, old1, x1, c1, h5, h6, h7, h8, h9, h10⟩
  · refine ⟨_, _, _, e, h1, ?_, h7, Or.inl ⟨rfl, h2⟩⟩
    unfold sys
    rw [← add_assoc, ← h6]
    exact h3
  · refine ⟨_, _, _, e, h1, ?_, h10, Or.inr rfl⟩
    unfold sys
    rw [h2, h3, blk_none, Multiset.coe_nil, add_zero, add_zero]
    have hn1 : old1.Nodup := Multiset.nodup_of_le h6 (Multiset.nodup_add.1 hacc.nodup).1
    have : blks x' = old1 - (c1 : Multiset Addr) := by
      refine (Multiset.Nodup.ext (Multiset.nodup_of_le h9 h5.1) h7.nodup).2 fun p => ?_
      rw [mem_blks, h8]
      refine ⟨fun h => h.2, fun h => ⟨?_, h⟩⟩
      have h' := (Multiset.mem_sub_of_nodup hn1).1 h
      exact (h5.2 p h'.1).resolve_right (by simpa using h'.2)
    rw [this]
    exact h7

/-! ## Framing -/

/-- The ledger `base` with the blocks `rest` as they are now. -/
def withRest (base : Addr → Option ℕ) (rest : Multiset Addr) (g : G) : Addr → Option ℕ :=
  fun p => if p ∈ rest then g.live p else base p

theorem Acc.frame (h : Acc base (own + rest) g) : Acc (withRest base rest g) own g := by
  obtain ⟨hn, h1, h2⟩ := h
  have hd := Multiset.nodup_add.1 hn
  refine ⟨hd.1, fun p hp => ⟨(h1 p (Multiset.mem_add.2 (Or.inl hp))).1, ?_⟩, fun p hp => ?_⟩
  · unfold withRest
    rw [if_neg (fun hr => Multiset.disjoint_left.1 hd.2.2 hp hr)]
    exact (h1 p (Multiset.mem_add.2 (Or.inl hp))).2
  · unfold withRest
    split
    · rfl
    · rename_i hr
      exact h2 p fun hm => (Multiset.mem_add.1 hm).elim hp hr

theorem Acc.unframe {own' : Multiset Addr} (h0 : Acc base (own + rest) g)
    (h : Acc (withRest base rest g) own' g') : Acc base (own' + rest) g' := by
  obtain ⟨hn, h1, h2⟩ := h
  have hrest : ∀ p ∈ rest, (g.live p).isSome ∧ base p = none := fun p hp =>
    h0.2.1 p (Multiset.mem_add.2 (Or.inr hp))
  have hdis : ∀ p ∈ own', p ∉ rest := by
    intro p hp hr
    have := (h1 p hp).2
    unfold withRest at this
    rw [if_pos hr] at this
    have h3 := (hrest p hr).1
    rw [this] at h3
    cases h3
  refine ⟨Multiset.nodup_add.2 ⟨hn, (Multiset.nodup_add.1 h0.1).2.1, Multiset.disjoint_left.2 @hdis⟩,
    fun p hp => ?_, fun p hp => ?_⟩
  · rcases Multiset.mem_add.1 hp with hm | hm
    · have := h1 p hm
      unfold withRest at this
      rw [if_neg (hdis p hm)] at this
      exact this
    · rw [h2 p (fun ho => hdis p ho hm)]
      unfold withRest
      rw [if_pos hm]
      exact hrest p hm
  · rw [Multiset.mem_add, not_or] at hp
    rw [h2 p hp.1]
    unfold withRest
    rw [if_neg hp.2]

/-- `wrapped_tidy` in the presence of other blocks. -/
theorem wrapped_frame {x : List (Option Addr)} {f : Gmp} (hI : Idle g)
    (hacc : Acc base (blks x + rest + sys g) g) (hf : f.Tidy x g.cache) :
    ∃ r x' g', wrapped true x f g = .ok ((r, x'), g') ∧ Idle g' ∧ Acc base (blks x' + rest + sys g') g' ∧
      x'.length = x.length ∧ (r = .ok ∧ g'.refused = g.refused ∨ r = .outOfMemory) := by
  have h0 : Acc base (blks x + sys g + rest) g := by
    convert hacc using 1
    abel
  obtain ⟨r, x', g', e, h1, h2, h3, h4⟩ := wrapped_tidy hI h0.frame hf
  refine ⟨r, x', g', e, h1, ?_, h3, h4⟩
  convert h0.unframe h2 using 1
  abel

end Slip.Mem
