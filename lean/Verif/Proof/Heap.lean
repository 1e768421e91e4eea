import Verif.SpecHeap
import Verif.Proof.Gmp
import Mathlib.Tactic.Abel

/-!
# Rules for the functions of `Verif/Model/Memory.lean`
-/

namespace Slip.Mem

variable {α β σ : Type} {base : Addr → Option ℕ} {own rest : Multiset Addr} {n : ℕ}

/-- If `m` starts when the blocks `own` are owned and `n` requests have been refused, then it ends
with a value, the blocks owned and the number of refused requests as in `Q`. -/
def Does (base : Addr → Option ℕ) (own : Multiset Addr) (n : ℕ) (m : M α)
    (Q : α → Multiset Addr → ℕ → Prop) : Prop :=
  ∀ st, Owns base own st → st.g.refused = n →
    ∃ a st' own', m st = .ok (a, st') ∧ Owns base own' st' ∧ Q a own' st'.g.refused

theorem Does.pure {a : α} {Q : α → Multiset Addr → ℕ → Prop} (h : Q a own n) :
    Does base own n (pure a) Q := fun st h1 h2 => ⟨a, st, own, rfl, h1, h2 ▸ h⟩

theorem Does.bind {m : M α} {k : α → M β} {Q : α → Multiset Addr → ℕ → Prop}
    {R : β → Multiset Addr → ℕ → Prop} (h : Does base own n m Q)
    (hk : ∀ a own' n', Q a own' n' → Does base own' n' (k a) R) : Does base own n (m >>= k) R := by
  intro st h1 h2
  obtain ⟨a, st', own', e, h3, h4⟩ := h st h1 h2
  obtain ⟨b, st2, own2, e2, h5, h6⟩ := hk a own' _ h4 st' h3 rfl
  refine ⟨b, st2, own2, ?_, h5, h6⟩
  show (m st >>= fun p => k p.1 p.2) = _
  rw [e]
  exact e2

theorem Does.mono {m : M α} {Q R : α → Multiset Addr → ℕ → Prop} (h : Does base own n m Q)
    (hk : ∀ a own' n', Q a own' n' → R a own' n') : Does base own n m R := by
  intro st h1 h2
  obtain ⟨a, st', own', e, h3, h4⟩ := h st h1 h2
  exact ⟨a, st', own', e, h3, hk _ _ _ h4⟩

theorem does_choose : Does base own n choose (fun _ own' n' => own' = own ∧ n' = n) :=
  fun st h1 h2 => ⟨_, { st with draws := st.draws + 1 }, own, rfl, h1, rfl, h2⟩

theorem gen_update {g : G} {q : Addr} (h : ∀ p s, g.live p = some s → s < g.gen)
    (p : Addr) (s : ℕ) (hs : Function.update g.live q (some g.gen) p = some s) : s < g.gen + 1 := by
  by_cases e : p = q
  · subst e
    rw [Function.update_self] at hs
    cases hs
    omega
  · rw [Function.update_of_ne e] at hs
    have := h p s hs
    omega

theorem gen_none {g : G} {q : Addr} (h : ∀ p s, g.live p = some s → s < g.gen)
    (p : Addr) (s : ℕ) (hs : Function.update g.live q none p = some s) : s < g.gen := by
  by_cases e : p = q
  · subst e
    rw [Function.update_self] at hs
    cases hs
  · rw [Function.update_of_ne e] at hs
    exact h p s hs

theorem sys_congr {g g' : G} (h1 : g'.cache = g.cache) (h2 : g'.list = g.list) : sys g' = sys g := by
  unfold sys; rw [h1, h2]

theorem does_malloc : Does base own n mMalloc
    (fun p own' n' => own' = blk p + own ∧ (p.isSome → n' = n)) := by
  rintro st ⟨hI, hG, hA⟩ rfl
  unfold mMalloc
  rcases slipMalloc_spec hI.1 with e | ⟨q, hq, e⟩
  · rw [e]
    exact ⟨_, _, own, rfl, ⟨⟨hI.1, hI.2.1, hI.2.2⟩, hG, hA.congr rfl⟩, by rw [blk_none, zero_add], nofun⟩
  · rw [e]
    refine ⟨_, _, q ::ₘ own, rfl, ⟨⟨hI.1, hI.2.1, gen_update hI.2.2⟩, hG, ?_⟩, ?_, fun _ => rfl⟩
    · rw [Multiset.cons_add]
      exact hA.alloc hq rfl
    · rw [blk_some, Multiset.singleton_add]

/-- The same, with the refused request. -/
theorem does_malloc' : Does base own n mMalloc
    (fun p own' n' => own' = blk p + own ∧ (p.isSome → n' = n) ∧ (p.isNone → n' = n + 1)) := by
  rintro st ⟨hI, hG, hA⟩ rfl
  unfold mMalloc
  rcases slipMalloc_spec hI.1 with e | ⟨q, hq, e⟩
  · rw [e]
    exact ⟨_, _, own, rfl, ⟨⟨hI.1, hI.2.1, hI.2.2⟩, hG, hA.congr rfl⟩, by rw [blk_none, zero_add], nofun,
      fun _ => rfl⟩
  · rw [e]
    refine ⟨_, _, q ::ₘ own, rfl, ⟨⟨hI.1, hI.2.1, gen_update hI.2.2⟩, hG, ?_⟩, ?_, fun _ => rfl, nofun⟩
    · rw [Multiset.cons_add]
      exact hA.alloc hq rfl
    · rw [blk_some, Multiset.singleton_add]

theorem does_free {p : Option Addr} (h : own = blk p + rest) :
    Does base own n (mFree p) (fun _ own' n' => own' = rest ∧ n' = n) := by
  rintro st ⟨hI, hG, hA⟩ rfl
  unfold mFree
  cases p with
  | none =>
    rw [slipFree_none]
    rw [blk_none, zero_add] at h
    exact ⟨_, _, own, rfl, ⟨hI, hG, hA⟩, h, rfl⟩
  | some p =>
    have hp : p ∈ own + sys st.g := by
      rw [h, blk_some]; simp
    rw [slipFree_some hI.1 (hA.live hp)]
    refine ⟨_, _, rest, rfl, ⟨⟨hI.1, hI.2.1, gen_none hI.2.2⟩, hG, ?_⟩, rfl, rfl⟩
    have := hA.free (g' := { st.g with live := Function.update st.g.live p none }) hp rfl
    rw [h, blk_some, add_assoc, Multiset.singleton_add, Multiset.erase_cons_head] at this
    exact this

theorem does_grow {p : Option Addr} (h : own = blk p + rest) :
    Does base own n (mGrow p) (fun a own' n' => own' = blk a.1 + rest ∧ (a.2 = true → n' = n) ∧
      (p.isSome → a.1.isSome)) := by
  rintro st ⟨hI, hG, hA⟩ rfl
  unfold mGrow
  cases p with
  | none =>
    rw [blk_none, zero_add] at h
    subst h
    obtain ⟨a, st', own', e, h1, h2, h3⟩ := does_malloc (base := base) st ⟨hI, hG, hA⟩ rfl
    unfold mMalloc at e
    dsimp only
    cases e
    exact ⟨_, _, own', rfl, h1, h2, h3, nofun⟩
  | some p =>
    have hp : p ∈ own + sys st.g := by
      rw [h, blk_some]; simp
    dsimp only
    rcases slipRealloc_spec hI.1 (hA.live hp) with e | ⟨q, hq, e⟩
    · rw [e]
      exact ⟨_, _, own, rfl, ⟨⟨hI.1, hI.2.1, hI.2.2⟩, hG, hA.congr rfl⟩, h, nofun, fun _ => rfl⟩
    · rw [e]
      have := hA.free (g' := { st.g with live := Function.update st.g.live p none }) hp rfl
      rw [h, blk_some, add_assoc, Multiset.singleton_add, Multiset.erase_cons_head] at this
      refine ⟨_, _, q ::ₘ rest, rfl, ⟨⟨hI.1, hI.2.1, ?_⟩, hG, ?_⟩, ?_, fun _ => rfl, fun _ => rfl⟩
      · exact gen_update (g := { st.g with live := Function.update st.g.live p none }) (gen_none hI.2.2)
      · rw [Multiset.cons_add]
        exact this.alloc hq rfl
      · rw [blk_some, Multiset.singleton_add]

theorem slipShrink_spec {g : G} {p : Addr} (hi : g.init = true) (hp : (g.live p).isSome) :
    (slipShrink p g = .ok p { g with tick := g.tick + 1 }) ∨
    ∃ q, Function.update g.live p none q = none ∧ slipShrink p g = .ok q { g with
      tick := g.tick + 1, gen := g.gen + 1
      live := Function.update (Function.update g.live p none) q (some g.gen) } := by
  unfold slipShrink
  rw [if_neg (by simp [hi]), if_neg (by rw [Option.isNone_iff_eq_none]; intro h; simp [h] at hp)]
  cases g.ask g.tick with
  | none => exact Or.inl rfl
  | some q =>
    dsimp only
    split
    · exact Or.inl rfl
    · rename_i hq
      refine Or.inr ⟨q, ?_, rfl⟩
      by_cases e : q = p
      · subst e; exact Function.update_self ..
      · rw [Function.update_of_ne e]
        simp only [not_and, e, ne_eq, not_false_eq_true, forall_true_left] at hq
        simpa using hq

theorem does_shrink {p : Option Addr} {nnew nold : ℕ} (h : own = blk p + rest) (hp : p.isSome) :
    Does base own n (mShrink nnew nold p) (fun a own' n' => own' = blk a + rest ∧ n' = n ∧ a.isSome) := by
  rintro st ⟨hI, hG, hA⟩ rfl
  unfold mShrink
  cases p with
  | none => cases hp
  | some p =>
    have hp : p ∈ own + sys st.g := by
      rw [h, blk_some]; simp
    dsimp only
    split
    · exact ⟨_, _, own, rfl, ⟨hI, hG, hA⟩, h, rfl, rfl⟩
    · rcases slipShrink_spec hI.1 (hA.live hp) with e | ⟨q, hq, e⟩
      · rw [e]
        exact ⟨_, _, own, rfl, ⟨⟨hI.1, hI.2.1, hI.2.2⟩, hG, hA.congr rfl⟩, h, rfl, rfl⟩
      · rw [e]
        have := hA.free (g' := { st.g with live := Function.update st.g.live p none }) hp rfl
        rw [h, blk_some, add_assoc, Multiset.singleton_add, Multiset.erase_cons_head] at this
        refine ⟨_, _, q ::ₘ rest, rfl, ⟨⟨hI.1, hI.2.1, ?_⟩, hG, ?_⟩, ?_, rfl, rfl⟩
        · exact gen_update (g := { st.g with live := Function.update st.g.live p none }) (gen_none hI.2.2)
        · rw [Multiset.cons_add]
          exact this.alloc hq rfl
        · rw [blk_some, Multiset.singleton_add]

/-! ## GMP calls -/

theorem blks_nil : blks [] = 0 := rfl

theorem cache_nodup {g : G} (h : Acc base (own + sys g) g) : ((g.cache : List Addr) : Multiset Addr).Nodup := by
  have h1 := (Multiset.nodup_add.1 h.nodup).2.1
  exact (Multiset.nodup_add.1 h1).1

theorem obj_cache_nodup {g : G} {x : Obj} (h : Acc base (blks x + rest + sys g) g) :
    (blks x + ((g.cache : List Addr) : Multiset Addr)).Nodup := by
  refine Multiset.nodup_of_le ?_ h.nodup
  unfold sys
  refine add_le_add ?_ ?_
  · exact Multiset.le_add_right _ _
  · exact Multiset.le_add_right _ _

theorem does_call {x : Obj} (h : own = blks x + rest) :
    Does base own n (call x) (fun a own' n' => own' = blks a.2 + rest ∧ a.2.length = x.length ∧
      (a.1 = .ok → n' = n)) := by
  rintro st ⟨hI, hG, hA⟩ rfl
  rw [h] at hA
  unfold call
  obtain ⟨r, x', g', e, h1, h2, h3, h4⟩ := wrapped_frame hI hA (hG.upd st.calls x st.g.cache (obj_cache_nodup hA))
  rw [e]
  refine ⟨_, _, blks x' + rest, rfl, ⟨h1, hG, h2⟩, rfl, h3, fun hr => ?_⟩
  rcases h4 with h4 | h4
  · exact h4.2
  · rw [h4] at hr; cases hr

theorem does_query {w : σ} :
    Does base own n (query w) (fun a own' n' => own' = own ∧ a.2 = w ∧ (a.1 = .ok → n' = n)) := by
  rintro st ⟨hI, hG, hA⟩ rfl
  have hA' : Acc base (blks [] + own + sys st.g) st.g := by rw [blks_nil, zero_add]; exact hA
  unfold query
  obtain ⟨r, x', g', e, h1, h2, h3, h4⟩ := wrapped_frame hI hA' (hG.upd st.calls [] st.g.cache (obj_cache_nodup hA'))
  rw [e]
  have : x' = [] := List.length_eq_zero_iff.1 h3
  subst this
  rw [blks_nil, zero_add] at h2
  refine ⟨_, _, own, rfl, ⟨h1, hG, h2⟩, rfl, rfl, fun hr => ?_⟩
  rcases h4 with h4 | h4
  · exact h4.2
  · rw [h4] at hr; cases hr

theorem blks_nulls (w : ℕ) : blks (nulls w) = 0 := by
  unfold blks nulls
  rw [List.reduceOption_replicate_none]
  rfl

/-- An initialisation that fails leaves no pointer in the object. -/
theorem wrapped_init {f : Gmp} {w : ℕ} {g : G} (hI : Idle g)
    (hacc : Acc base (own + sys g) g) (hf : f.TidyInit w g.cache) :
    ∃ r x' g', wrapped true (nulls w) f g = .ok ((r, x'), g') ∧ Idle g' ∧
      Acc base (blks x' + own + sys g') g' ∧
      x'.length = w ∧ (r = .ok ∧ g'.refused = g.refused ∨ r = .outOfMemory ∧ blks x' = 0) := by
  have h0 : Acc base (((g.cache : List Addr) : Multiset Addr) + blk g.list + own) g := by
    convert hacc using 1
    unfold sys
    abel
  have hx : ∀ p, some p ∈ nulls w → p ∈ ((g.cache : List Addr) : Multiset Addr) := by
    intro p hp
    unfold nulls at hp
    have := List.eq_of_mem_replicate hp
    cases this
  have hlen : (nulls w).length = w := by simp [nulls]
  rcases wrapped_spec hI h0.frame hx hf with
    ⟨x', g', e, h1, h2, own', old', h3, h4, h5, h6, h7⟩ |
    ⟨x', g', e, h1, h2, h3, h4, own1, old1, x1, c1, h5, h6, h7, h8, h9, h10⟩
  · refine ⟨_, _, _, e, h1, ?_, h7.trans hlen, Or.inl ⟨rfl, h2⟩⟩
    rw [h6] at h3
    convert h0.unframe h3 using 1
    unfold sys
    abel
  · have hb : blks x' = 0 := by
      refine Multiset.eq_zero_of_forall_notMem fun p hp => ?_
      have h11 := (h8 p).1 (mem_blks.1 hp)
      have hn1 : old1.Nodup := Multiset.nodup_of_le h6 (cache_nodup hacc)
      have h12 := (Multiset.mem_sub_of_nodup hn1).1 h11.2
      exact h12.2 (by simpa using h5.2 p h12.1)
    have hz : old1 - (c1 : Multiset Addr) = 0 := by
      refine Multiset.eq_zero_of_forall_notMem fun p hp => ?_
      have hn1 : old1.Nodup := Multiset.nodup_of_le h6 (cache_nodup hacc)
      have h12 := (Multiset.mem_sub_of_nodup hn1).1 hp
      exact h12.2 (by simpa using h5.2 p h12.1)
    refine ⟨_, _, _, e, h1, ?_, h10.trans hlen, Or.inr ⟨rfl, hb⟩⟩
    rw [hz] at h7
    have := h0.unframe h7
    unfold sys
    rw [hb, h2, h3, blk_none]
    simpa using this

theorem map_none (x : Obj) : (x.map fun _ => (none : Option Addr)) = nulls x.length := by
  unfold nulls
  exact List.map_const' ..

theorem does_init {x : Obj} :
    Does base own n (init x) (fun a own' n' => own' = blks a.2 + own ∧ a.2.length = x.length ∧
      (a.1 = .ok → n' = n) ∧ (a.1 ≠ .ok → blks a.2 = 0)) := by
  rintro st ⟨hI, hG, hA⟩ rfl
  unfold init
  rw [map_none]
  obtain ⟨r, x', g', e, h1, h2, h3, h4⟩ := wrapped_init hI hA (hG.ini st.calls x.length st.g.cache (cache_nodup hA))
  rw [e]
  refine ⟨_, _, _, rfl, ⟨h1, hG, h2⟩, rfl, h3, fun hr => ?_, fun hr => ?_⟩
  · rcases h4 with h4 | h4
    · exact h4.2
    · rw [h4.1] at hr; cases hr
  · rcases h4 with h4 | h4
    · exact absurd h4.1 hr
    · exact h4.2

theorem blks_cons_none (x : Obj) : blks (none :: x) = blks x := by
  unfold blks; rw [List.reduceOption_cons_of_none]

theorem blks_cons_some (p : Addr) (x : Obj) : blks (some p :: x) = {p} + blks x := by
  unfold blks; rw [List.reduceOption_cons_of_some]; rfl

theorem does_clear : ∀ {x : Obj} {own : Multiset Addr}, own = blks x + rest →
    Does base own n (clear x) (fun _ own' n' => own' = rest ∧ n' = n) := by
  intro x
  induction x with
  | nil =>
    intro own h
    rw [blks_nil, zero_add] at h
    exact Does.pure ⟨h, rfl⟩
  | cons p x ih =>
    intro own h
    cases p with
    | none =>
      rw [blks_cons_none] at h
      exact ih h
    | some p =>
      rw [blks_cons_some] at h
      unfold clear
      refine Does.bind (Q := fun _ own' n' => own' = blks x + rest ∧ n' = n) ?_ ?_
      · rintro st ⟨hI, hG, hA⟩ rfl
        have hp : p ∈ own + sys st.g := by rw [h]; simp
        have key : ∃ g', slip_gmp_free (some p) st.g = .ok () g' ∧
            g'.live = Function.update st.g.live p none ∧ g'.init = st.g.init ∧ g'.list = st.g.list ∧
            g'.nlist = st.g.nlist ∧ g'.cache = st.g.cache ∧ g'.gen = st.g.gen ∧
            g'.refused = st.g.refused := by
          have gen : ∀ g1 : G, g1.live = st.g.live → g1.init = st.g.init → g1.list = st.g.list →
              g1.nlist = st.g.nlist → g1.cache = st.g.cache → g1.gen = st.g.gen →
              g1.refused = st.g.refused → ∃ g', safeFree (some p) g1 = .ok () g' ∧
              g'.live = Function.update st.g.live p none ∧ g'.init = st.g.init ∧ g'.list = st.g.list ∧
              g'.nlist = st.g.nlist ∧ g'.cache = st.g.cache ∧ g'.gen = st.g.gen ∧
              g'.refused = st.g.refused := by
            intro g1 e1 e2 e3 e4 e5 e6 e7
            unfold safeFree
            dsimp only
            have hu : ∀ g2 : G, g2 = unarchive p g1 → g2.live = st.g.live ∧ g2.init = st.g.init ∧
                g2.list = st.g.list ∧ g2.nlist = st.g.nlist ∧ g2.cache = st.g.cache ∧ g2.gen = st.g.gen ∧
                g2.refused = st.g.refused := by
              rintro g2 rfl
              unfold unarchive
              split <;> exact ⟨e1, e2, e3, e4, e5, e6, e7⟩
            obtain ⟨f1, f2, f3, f4, f5, f6, f7⟩ := hu _ rfl
            rw [slipFree_some (by rw [f2, hI.1]) (by rw [f1]; exact hA.live hp)]
            exact ⟨_, rfl, by rw [f1], f2, f3, f4, f5, f6, f7⟩
          unfold slip_gmp_free
          cases hl : st.g.list with
          | none =>
            have := gen st.g rfl rfl rfl rfl rfl rfl rfl
            rw [hl] at this
            exact this
          | some l =>
            have := gen { st.g with used := removeFirst p st.g.used, list := some l } rfl rfl hl.symm rfl
              rfl rfl rfl
            rw [hl] at this
            exact this
        obtain ⟨g', e, k1, k2, k3, k4, k5, k6, k7⟩ := key
        beta_reduce
        rw [e]
        refine ⟨_, _, blks x + rest, rfl, ⟨⟨k2.trans hI.1, ?_, ?_⟩, hG, ?_⟩, rfl, k7⟩
        · dsimp only
          rw [k3, k4]; exact hI.2.1
        · dsimp only
          rw [k1, k6]; exact gen_none hI.2.2
        · have := hA.free hp k1
          dsimp only
          rw [sys_congr k5 k3]
          rw [h, add_assoc, add_assoc, Multiset.singleton_add, Multiset.erase_cons_head, ← add_assoc] at this
          exact this
      · rintro _ own' n' ⟨e, rfl⟩
        exact ih e

theorem arrBlks_nil : arrBlks [] = 0 := rfl
theorem arrBlks_cons (o : Obj) (xs : List Obj) : arrBlks (o :: xs) = blks o + arrBlks xs := by
  unfold arrBlks; simp

theorem does_clearArr : ∀ {xs : List Obj} {c : ℕ} {own : Multiset Addr}, xs.length = c → own = arrBlks xs + rest →
    Does base own n (clearArr c xs) (fun _ own' n' => own' = rest ∧ n' = n) := by
  intro xs
  induction xs with
  | nil =>
    rintro c own rfl h
    rw [arrBlks_nil, zero_add] at h
    exact Does.pure ⟨h, rfl⟩
  | cons o xs ih =>
    rintro c own rfl h
    rw [arrBlks_cons, add_assoc] at h
    rw [List.length_cons]
    unfold clearArr
    refine (does_clear h).bind ?_
    rintro _ own' n' ⟨e, rfl⟩
    exact ih rfl e

end Slip.Mem
