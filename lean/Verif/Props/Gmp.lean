import Verif.Proof.Gmp

/-!
# Property C28: GMP memory bookkeeping

`wrapped true x f g` is a call of a wrapper such as `SLIP_mpz_mul` for an object whose pointers are `x`,
where the GMP function does `f`; `f` is an arbitrary program which depends on the addresses it gets.
`base` are all blocks which belong neither to the object nor to the cache nor to the library.
-/

namespace Slip.Mem

variable {base : Addr → Option ℕ} {own rest : Multiset Addr} {g : G} {x : List (Option Addr)} {f : Gmp}

/-- No condition. -/
abbrev always : Cond := fun _ _ _ _ => True

/-- C28: at every moment of a wrapped call (every prefix of a program is a program; a failing
allocation ends it with `jump`), the list contains exactly the blocks which were allocated during the
call and are live, other than the list itself; and it has no duplicates. -/
theorem C28_list_exact (hI : Idle g) (hacc : Acc base (own + blk g.list) g)
    (hx : ∀ p, some p ∈ x → p ∈ own) (hf : f.Fair always always own own x g.cache) :
    ∃ g', (f.run { g with arch := true, obj := x, used := [] } = .ok () g' ∨
        f.run { g with arch := true, obj := x, used := [] } = .jump g') ∧
      g'.used.Nodup ∧
      ∀ p, p ∈ g'.used ↔ (∃ s, g'.live p = some s ∧ g.gen ≤ s) ∧ g'.list ≠ some p := by
  have key : ∀ old g', RunInv base own old g.gen g.live g' → g'.used.Nodup ∧
      ∀ p, p ∈ g'.used ↔ (∃ s, g'.live p = some s ∧ g.gen ≤ s) ∧ g'.list ≠ some p := by
    intro old g' h
    have hn := h.inv.acc.nodup
    refine ⟨by simpa using (Multiset.nodup_add.1 (Multiset.nodup_add.1 hn).1).2.1, fun p => ⟨fun hp => ?_, ?_⟩⟩
    · refine ⟨h.inv.new p hp, fun e => ?_⟩
      rw [e, blk_some] at hn
      exact Multiset.disjoint_left.1 (Multiset.nodup_add.1 hn).2.2
        (Multiset.mem_add.2 (Or.inr (by simpa using hp))) (by simp)
    · rintro ⟨⟨s, h1, h2⟩, h3⟩
      by_contra hp
      have := hI.2.2 p s (h.inv.notNew p s hp h3 h1)
      omega
  rcases run_spec f (RunInv.start hI hacc hx) (by simpa [ownOf] using hf) with
    ⟨g', old', e, hR, -⟩ | ⟨g', old', e, hR, -⟩
  · exact ⟨g', Or.inl e, key _ _ hR⟩
  · exact ⟨g', Or.inr e, key _ _ hR⟩

/-- C28: a wrapped call of any GMP function which uses memory correctly has no undefined behaviour (no
block is freed twice), and it returns `SLIP_OK` or `SLIP_OUT_OF_MEMORY`. If it fails,
* no block that was allocated during the call is left: every live block is one that was live before;
* no block is freed which belongs to somebody else: not to the object, the cache or the library;
* every pointer left in the object points to a live block;
* the list is empty and the library is ready for the next call. -/
theorem C28_failure (hI : Idle g) (hacc : Acc base (own + blk g.list) g)
    (hx : ∀ p, some p ∈ x → p ∈ own) (hf : f.Fair always always own own x g.cache) :
    ∃ r x' g', wrapped true x f g = .ok ((r, x'), g') ∧ Idle g' ∧ (r = .ok ∨ r = .outOfMemory) ∧
      (∀ p, p ∉ own → g.list ≠ some p → (g.live p).isSome → g'.live p = g.live p) ∧
      (∀ p, some p ∈ x' → (g'.live p).isSome) ∧
      (r = .outOfMemory → g'.list = none ∧ g'.cache = [] ∧
        ∀ p s, g'.live p = some s → g.live p = some s) := by
  have hb : ∀ p, p ∉ own → g.list ≠ some p → g.live p = base p := by
    intro p h1 h2
    refine hacc.2.2 p fun hm => ?_
    rcases Multiset.mem_add.1 hm with h | h
    · exact h1 h
    · cases hl : g.list with
      | none => rw [hl, blk_none] at h; simp at h
      | some l =>
        rw [hl, blk_some, Multiset.mem_singleton] at h
        exact h2 (by rw [hl, h])
  have hkeep : ∀ {own' : Multiset Addr} {g' : G}, Acc base own' g' →
      ∀ p, p ∉ own → g.list ≠ some p → (g.live p).isSome → g'.live p = g.live p := by
    intro own' g' ha p h1 h2 h3
    rw [hb p h1 h2] at h3 ⊢
    refine ha.2.2 p fun hm => ?_
    rw [(ha.2.1 p hm).2] at h3
    cases h3
  rcases wrapped_spec hI hacc hx hf with
    ⟨x', g', e, h1, h2, own', old', h3, h4, h5, h6, h7⟩ |
    ⟨x', g', e, h1, h2, h3, h4, own1, old1, x1, c1, h5, h6, h7, h8, h9, h10⟩
  · exact ⟨_, _, _, e, h1, Or.inl rfl, hkeep h3,
      fun p hp => h3.live (Multiset.mem_add.2 (Or.inl (h5 p hp))), nofun⟩
  · exact ⟨_, _, _, e, h1, Or.inr rfl, hkeep h7, fun p hp => h7.live ((h8 p).1 hp).2,
      fun _ => ⟨h2, h3, h4⟩⟩

/-- C28: if moreover the GMP function keeps the blocks it was given in the object (or the cache) while it
requests memory, and leaves no block behind, nothing leaks: success or failure, memory afterwards
consists of the blocks of the object, those the library holds, and everybody else's blocks. -/
theorem C28_no_leak (hI : Idle g) (hacc : Acc base (blks x + sys g) g) (hf : f.Tidy x g.cache) :
    ∃ r x' g', wrapped true x f g = .ok ((r, x'), g') ∧ Idle g' ∧ Acc base (blks x' + sys g') g' ∧
      x'.length = x.length ∧ (r = .ok ∧ g'.refused = g.refused ∨ r = .outOfMemory) :=
  wrapped_tidy hI hacc hf

/-! ## Histories -/

/-- C28: whatever the GMP function does, once a wrapped call is over, with either status, no archive pointer is
left behind (a later `SLIP_GMP_WRAPPER_START` without an object does not write into an object of an earlier call)
and the list has no entries. -/
theorem C28_archive_cleared {archived : Bool} {r : Info} {x' : List (Option Addr)} {g' : G}
    (h : wrapped archived x f g = .ok ((r, x'), g')) : g'.arch = false ∧ g'.obj = [] ∧ g'.used = [] := by
  unfold wrapped at h
  cases hr : f.run { g with arch := archived, obj := x, used := [] } with
  | ub => rw [hr] at h; cases h
  | ok a g1 =>
    rw [hr] at h
    cases h
    exact ⟨rfl, rfl, rfl⟩
  | jump g1 =>
    rw [hr] at h
    dsimp only at h
    cases hf : slip_gmp_failure g1 with
    | ub => rw [hf] at h; cases h
    | jump g2 => rw [hf] at h; cases h
    | ok a g2 =>
      rw [hf] at h
      cases h
      have key : ∀ g3 : G, slip_gmp_finalize g3 = .ok a g2 → g2.arch = false ∧ g2.used = [] := by
        intro g3 h3
        unfold slip_gmp_finalize slipFree at h3
        split at h3
        · cases h3; exact ⟨rfl, rfl⟩
        · split at h3
          · cases h3; exact ⟨rfl, rfl⟩
          · split at h3
            · cases h3; exact ⟨rfl, rfl⟩
            · cases h3
      unfold slip_gmp_failure at hf
      cases h1 : freeCache g1.cache g1 with
      | ub => rw [h1] at hf; cases hf
      | jump g3 => rw [h1] at hf; cases hf
      | ok a3 g3 =>
        rw [h1] at hf
        simp only [Out.bind] at hf
        cases h2 : freeListed g3 with
        | ub => rw [h2] at hf; cases hf
        | jump g4 => rw [h2] at hf; cases hf
        | ok a4 g4 =>
          rw [h2] at hf
          exact ⟨(key g4 hf).1, rfl, (key g4 hf).2⟩

/-- A history of wrapped calls: each is made for one of the user's objects, and the GMP function may
depend on the pointers in that object and on the cache. The status codes are ignored, as a user may do. -/
def session : List (ℕ × (List (Option Addr) → List Addr → Gmp)) → List (List (Option Addr)) → G →
    C (List (List (Option Addr)) × G)
  | [], xs, g => .ok (xs, g)
  | (i, f) :: cs, xs, g =>
    match xs[i]? with
    | none => session cs xs g
    | some x => do
      let ((_, x), g) ← wrapped true x (f x g.cache) g
      session cs (xs.set i x) g

/-- All blocks of the user's objects. -/
def allBlks (xs : List (List (Option Addr))) : Multiset Addr := (xs.map blks).sum

/-- C28: through every history of wrapped calls, whatever allocations fail, nothing is freed twice,
nothing leaks, no pointer in an object dangles, and everybody else's blocks are unchanged. -/
theorem C28_history (cs : List (ℕ × (List (Option Addr) → List Addr → Gmp)))
    (hcs : ∀ c ∈ cs, ∀ x k, (blks x + ((k : List Addr) : Multiset Addr)).Nodup → (c.2 x k).Tidy x k) : ∀ (xs : List (List (Option Addr))) (g : G), Idle g →
    Acc base (allBlks xs + sys g) g →
    ∃ xs' g', session cs xs g = .ok (xs', g') ∧ Idle g' ∧ Acc base (allBlks xs' + sys g') g' ∧
      xs'.length = xs.length := by
  induction cs with
  | nil => intro xs g hI ha; exact ⟨xs, g, rfl, hI, ha, rfl⟩
  | cons c cs ih =>
    intro xs g hI ha
    obtain ⟨i, f⟩ := c
    rw [session]
    cases hx : xs[i]? with
    | none => exact ih (fun c hc => hcs c (by simp [hc])) xs g hI ha
    | some x =>
      obtain ⟨hi, hxi⟩ := List.getElem?_eq_some_iff.1 hx
      have hsplit : ∀ y, allBlks (xs.set i y) = blks y + (allBlks (xs.take i) + allBlks (xs.drop (i + 1))) := by
        intro y
        unfold allBlks
        rw [List.set_eq_take_append_cons_drop, if_pos hi, List.map_append, List.map_cons, List.sum_append,
          List.sum_cons]
        abel
      have h0 := hsplit x
      rw [← hxi, List.set_getElem_self, hxi] at h0
      rw [h0] at ha
      obtain ⟨r, x', g', e, h1, h2, h3, -⟩ := wrapped_frame hI ha (hcs (i, f) (by simp) x g.cache (by
        refine Multiset.nodup_of_le ?_ ha.nodup
        unfold sys
        rw [Multiset.le_iff_exists_add]
        exact ⟨allBlks (xs.take i) + allBlks (xs.drop (i + 1)) + blk g.list, by abel⟩))
      rw [← hsplit] at h2
      obtain ⟨xs', g'', e', h4, h5, h6⟩ := ih (fun c hc => hcs c (by simp [hc])) _ g' h1 h2
      refine ⟨xs', g'', ?_, h4, h5, by rw [h6, List.length_set]⟩
      dsimp only
      rw [e]
      exact e'

/-! ## GMP functions that are covered -/

theorem blks_one (a : Addr) : blks [some a] = {a} := rfl

/-- `mpz_init` (of an object without a block): the hypotheses of `C28_no_leak` are met. -/
example (c : List Addr) : (Gmp.alloc fun q => .store 0 (some q) .done).Tidy [none] c := by
  have e : blks [none] + (c : Multiset Addr) = c := zero_add _
  unfold Gmp.Tidy
  rw [e]
  refine ⟨le_refl _, ⟨by decide, fun p hp => Or.inr (by simpa using hp)⟩, fun q hq => ⟨?_, ?_, ?_⟩⟩
  · rintro p ⟨⟩; exact Multiset.mem_cons_self _ _
  · exact Multiset.le_cons_self _ _
  · exact (Multiset.singleton_add _ _).symm

/-- `mpq_init`: two blocks. -/
example (c : List Addr) : (Gmp.alloc fun q => .store 0 (some q) <| .alloc fun r =>
    .store 1 (some r) .done).Tidy [none, none] c := by
  have e : blks [none, none] + (c : Multiset Addr) = c := zero_add _
  unfold Gmp.Tidy
  rw [e]
  refine ⟨le_refl _, ⟨by decide, fun p hp => Or.inr (by simpa using hp)⟩, fun q hq => ⟨?_, ?_,
    ⟨?_, fun p hp => Or.inr (by simpa using hp)⟩, fun r hr => ⟨?_, ?_, ?_⟩⟩⟩
  · rintro p ⟨⟩; exact Multiset.mem_cons_self _ _
  · exact Multiset.le_cons_self _ _
  · exact Multiset.nodup_singleton q
  · rintro p ⟨⟩; exact Multiset.mem_cons_self _ _
  · exact (Multiset.le_cons_self _ _).trans (Multiset.le_cons_self _ _)
  · change r ::ₘ q ::ₘ (c : Multiset Addr) = q ::ₘ r ::ₘ 0 + (c : Multiset Addr)
    rw [Multiset.cons_add, Multiset.cons_add, zero_add, Multiset.cons_swap]

/-- An object grows (as in `mpz_mul`) while a temporary block is in use. -/
example (p : Addr) (c : List Addr) : (Gmp.alloc fun t => .realloc (some p) false fun q =>
    .store 0 q <| .free (some t) .done).Tidy [some p] c := by
  have hA : ∀ a ∈ ({p} + (c : Multiset Addr)), some a ∈ [some p] ∨ a ∈ c := by
    intro a ha
    rcases Multiset.mem_add.1 ha with h | h
    · exact Or.inl (by simpa using h)
    · exact Or.inr (by simpa using h)
  unfold Gmp.Tidy
  rw [blks_one]
  refine ⟨Multiset.le_add_left _ _, ⟨Multiset.nodup_singleton p, hA⟩, fun t ht => ⟨?_, ?_,
    ⟨Multiset.nodup_singleton p, hA⟩, fun q hq => ⟨?_, ?_, ?_⟩⟩⟩
  · exact Multiset.mem_cons_of_mem (by simp)
  · exact (Multiset.le_add_left _ _).trans (Multiset.le_cons_self _ _)
  · rintro a ⟨⟩
    have : q ≠ p := by rintro rfl; exact hq (by simp)
    rw [Multiset.mem_erase_of_ne this]
    exact Multiset.mem_cons_self _ _
  · have : t ≠ p := by rintro rfl; exact ht (by simp)
    rw [Multiset.mem_erase_of_ne this]
    exact Multiset.mem_cons_of_mem (Multiset.mem_cons_self _ _)
  · have htp : t ≠ p := by rintro rfl; exact ht (by simp)
    have hqp : q ≠ p := by rintro rfl; exact hq (by simp)
    have hqt : q ≠ t := by rintro rfl; exact hq (by simp)
    have e1 : ((q ::ₘ t ::ₘ ({p} + (c : Multiset Addr))).erase p).erase t = {q} + (c : Multiset Addr) := by
      rw [Multiset.singleton_add, Multiset.singleton_add, Multiset.erase_cons_tail _ hqp,
        Multiset.erase_cons_tail _ htp, Multiset.erase_cons_head, Multiset.erase_cons_tail _ hqt,
        Multiset.erase_cons_head]
    have e2 : nulled t ((nulled p [some p]).set 0 (some q)) = [some q] := by
      simp [nulled, hqt]
    rw [e1, e2]
    exact ⟨Multiset.le_add_left _ _, rfl⟩

/-- MPFR puts a block into its cache. -/
example (x : List (Option Addr)) (hx : (blks x).Nodup) (c : List Addr) :
    (Gmp.alloc fun q => .setCache (q :: c) .done).Tidy x c := by
  refine ⟨Multiset.le_add_left _ _, ⟨hx, fun p hp => ?_⟩, fun q _ => ⟨?_, ?_⟩⟩
  · rcases Multiset.mem_add.1 hp with h | h
    · exact Or.inl (mem_blks.1 h)
    · exact Or.inr (by simpa using h)
  · rw [← Multiset.cons_coe]
    exact Multiset.cons_le_cons _ (Multiset.le_add_left _ _)
  · beta_reduce
    rw [← Multiset.cons_coe, Multiset.add_cons]

/-! ## Limits of the bookkeeping -/

/-- Memory with three blocks: the list at address 1, one block of the user's object at address 5, a
foreign block at address 3. The first request is answered with address 7, the second is refused. -/
def memEx : G where
  live := fun a => if a = 1 then some 0 else if a = 5 then some 1 else if a = 3 then some 2 else none
  gen := 3
  tick := 0
  ask := fun t => if t = 0 then some 7 else none
  refused := 0
  init := true
  list := some 1
  nlist := 32
  used := []
  ntrials := -1
  arch := false
  obj := []
  cache := []

theorem memEx_idle : Idle memEx := by
  refine ⟨rfl, fun _ => by decide, fun p s h => ?_⟩
  change (if p = 1 then some 0 else if p = 5 then some 1 else if p = 3 then some 2 else none) = some s at h
  change s < 3
  split at h
  · cases h; omega
  · split at h
    · cases h; omega
    · split at h
      · cases h; omega
      · cases h

/-- The ledger of the foreign block. -/
def baseEx : Addr → Option ℕ := fun a => if a = 3 then some 2 else none

theorem memEx_acc : Acc baseEx (blks [some 5] + sys memEx) memEx := by
  have e : blks [some 5] + sys memEx = {5, 1} := rfl
  rw [e]
  refine ⟨by decide, fun p hp => ?_, fun p hp => ?_⟩
  · rcases Multiset.mem_cons.1 hp with rfl | hp
    · exact ⟨rfl, rfl⟩
    · rw [Multiset.mem_singleton] at hp; subst hp; exact ⟨rfl, rfl⟩
  · simp only [Multiset.insert_eq_cons, Multiset.mem_cons, Multiset.mem_singleton, not_or] at hp
    change (if p = 1 then some 0 else if p = 5 then some 1 else if p = 3 then some 2 else none) = _
    rw [if_neg hp.2, if_neg hp.1]
    rfl

/-- An object grows and then more memory is requested: what `gmp_fscanf ("%Zd", x)` does. -/
def growThenAlloc : Gmp := .realloc (some 5) false fun q => .store 0 q <| .alloc fun t =>
  .free (some t) .done

theorem growThenAlloc_tidy : growThenAlloc.Tidy [some 5] [] := by
  refine ⟨by decide, by decide, ⟨by decide, by decide⟩, fun q hq => ⟨?_, ?_, ⟨?_, ?_⟩, fun t ht => ⟨?_, ?_, ?_⟩⟩⟩
  · rintro p ⟨⟩
    have : q ≠ 5 := by rintro rfl; exact hq (by decide)
    rw [Multiset.mem_erase_of_ne this]
    exact Multiset.mem_cons_self _ _
  · exact Multiset.zero_le _
  · simp [nulled, blks]
  · intro p hp
    exact absurd hp (by simp [blks])
  · exact Multiset.mem_cons_self _ _
  · exact Multiset.zero_le _
  · have h5 : q ≠ 5 := by rintro rfl; exact hq (by decide)
    have e : (q ::ₘ (blks [some 5] + ((([] : List Addr)) : Multiset Addr))).erase 5 = {q} := by
      change (q ::ₘ {5}).erase 5 = {q}
      rw [Multiset.erase_cons_tail _ h5]
      rfl
    have hqt : q ≠ t := by
      rintro rfl
      exact ht (by rw [e]; simp)
    rw [e, Multiset.erase_cons_head]
    simp [nulled, hqt, blks]

/-- The observable part of a result: status, pointers, whether address `a` is live, and whether freeing
`a` is undefined. -/
def observe (c : C ((Info × List (Option Addr)) × G)) (a : Addr) :
    Option (Info × List (Option Addr) × Bool × Bool) :=
  match c with
  | .ok ((r, x), g) => some (r, x, (g.live a).isSome, match slip_gmp_free (some a) g with
    | .ub => true
    | _ => false)
  | _ => none

theorem observe_some {c : C ((Info × List (Option Addr)) × G)} {a : Addr} {r : Info}
    {x : List (Option Addr)} {b1 b2 : Bool} (h : observe c a = some (r, x, b1, b2)) :
    ∃ g', c = .ok ((r, x), g') ∧ (g'.live a).isSome = b1 ∧
      (b2 = true → slip_gmp_free (some a) g' = .ub) := by
  match c, h with
  | .ok ((r', x'), g'), h =>
    simp only [observe, Option.some.injEq, Prod.mk.injEq] at h
    obtain ⟨rfl, rfl, h3, h4⟩ := h
    refine ⟨g', rfl, h3, fun hb => ?_⟩
    rw [hb] at h4
    cases hs : slip_gmp_free (some a) g' with
    | ub => rfl
    | jump g2 => rw [hs] at h4; cases h4
    | ok u g2 => rw [hs] at h4; cases h4

/-- C28, refuted for the wrappers which do not archive their object (`SLIP_gmp_fscanf`,
`SLIP_mpfr_asprintf` and the other functions which use `SLIP_GMP_WRAPPER_START` alone): after
`SLIP_OUT_OF_MEMORY` the user's object contains a pointer to a block that has been freed, so that
clearing the object frees it twice. With the archive the same call leaves NULL. -/
theorem C28_unarchived_refuted :
    (∃ g', wrapped false [some 5] growThenAlloc memEx = .ok ((.outOfMemory, [some 7]), g') ∧
      (g'.live 7).isSome = false ∧ slip_gmp_free (some 7) g' = .ub) ∧
    ∃ g', wrapped true [some 5] growThenAlloc memEx = .ok ((.outOfMemory, [none]), g') := by
  have h1 : observe (wrapped false [some 5] growThenAlloc memEx) 7 =
      some (.outOfMemory, [some 7], false, true) := by decide +kernel
  have h2 : observe (wrapped true [some 5] growThenAlloc memEx) 7 =
      some (.outOfMemory, [none], false, true) := by decide +kernel
  obtain ⟨g1, e1, l1, f1⟩ := observe_some h1
  obtain ⟨g2, e2, -⟩ := observe_some h2
  exact ⟨⟨g1, e1, l1, f1 rfl⟩, ⟨g2, e2⟩⟩

/-- A GMP function which stores a new block into its object while it still uses the old one, and which
then requests more memory before it frees the old block: `mpz_mul (w, w, v)` when it multiplies large
operands (`free_me` in GMP's mpz/mul.c). -/
def freeMe : Gmp := .alloc fun q => .store 0 (some q) <| .alloc fun t => .free (some t) <|
  .free (some 5) .done

theorem freeMe_fair : freeMe.Fair always always {5} {5} [some 5] [] := by
  refine ⟨by decide, trivial, fun q hq => ⟨?_, ?_, trivial, fun t ht => ⟨?_, ?_, ?_, trivial⟩⟩⟩
  · rintro p ⟨⟩; exact Multiset.mem_cons_self _ _
  · exact Multiset.zero_le _
  · exact Multiset.mem_cons_self _ _
  · rw [Multiset.erase_cons_head]; simp
  · exact Multiset.zero_le _

/-- C28, the literal claim "none leaks" is refuted for such functions: after `SLIP_OUT_OF_MEMORY` the old
block of the object is live, but the object's pointer is NULL, so nobody can free it. (It was not
allocated during the call; `C28_failure` applies.) -/
theorem C28_old_block_leak_refuted :
    freeMe.Fair always always {5} {5} [some 5] [] ∧
    ∃ g', wrapped true [some 5] freeMe memEx = .ok ((.outOfMemory, [none]), g') ∧
      (g'.live 5).isSome ∧ g'.list = none ∧ g'.cache = [] := by
  have h1 : observe (wrapped true [some 5] freeMe memEx) 5 =
      some (.outOfMemory, [none], true, false) := by decide +kernel
  obtain ⟨g1, e1, l1, -⟩ := observe_some h1
  have hacc : Acc baseEx ({5} + blk memEx.list) memEx := memEx_acc
  obtain ⟨r, x', g', e, -, -, -, -, h⟩ := C28_failure memEx_idle hacc (x := [some 5])
    (fun p hp => by simpa using hp) freeMe_fair
  rw [e1] at e
  cases e
  exact ⟨freeMe_fair, g1, e1, l1, (h rfl).1, (h rfl).2.1⟩

/-- The hypotheses of `C28_failure` and `C28_no_leak` are met by these examples. -/
example : Idle memEx ∧ Acc baseEx (blks [some 5] + sys memEx) memEx ∧
    growThenAlloc.Tidy [some 5] memEx.cache ∧ freeMe.Fair always always {5} {5} [some 5] memEx.cache :=
  ⟨memEx_idle, memEx_acc, growThenAlloc_tidy, freeMe_fair⟩

end Slip.Mem
