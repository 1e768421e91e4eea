import Verif.Proof.ColInit

/-!
# COLAMD: the state after the matrix has been read
-/

namespace Slip.Colamd

set_option linter.unusedSectionVars false

variable [Arith]
variable {n m Al nnz : ℤ} {s : Mem} {F : Sh} {P A0 : ℤ → ℤ}

/-- Every position lies in some block. -/
theorem cover {S : ℤ → ℤ} {k i : ℤ} (hk : 0 ≤ k) (h0 : S 0 ≤ i) (h1 : i < S k) :
    ∃ r, 0 ≤ r ∧ r < k ∧ S r ≤ i ∧ i < S (r + 1) := by
  have key : ∀ k : ℕ, i < S k → ∃ r, 0 ≤ r ∧ r < (k : ℤ) ∧ S r ≤ i ∧ i < S (r + 1) := by
    intro k
    induction k with
    | zero => intro h; simp at h; omega
    | succ k ih =>
      intro h
      by_cases hh : i < S k
      · obtain ⟨r, r0, r1, r2⟩ := ih hh
        exact ⟨r, r0, by push_cast; omega, r2⟩
      · exact ⟨k, by omega, by push_cast; omega, by omega, by push_cast at h; exact h⟩
  have := key k.toNat (by rwa [show ((k.toNat : ℕ) : ℤ) = k by omega])
  rwa [show ((k.toNat : ℕ) : ℤ) = k by omega] at this

/-- The state after `resetRows`, and at the end. -/
structure I4 (n m nnz Al : ℤ) (P A0 : ℤ → ℤ) (s : Mem) (F : Sh) : Prop where
  rp : Rm n m Al (2 * nnz) s F
  cs : ∀ c, 0 ≤ c → c < n → F .cs c = P c ∧ F .cl c = P (c + 1) - P c ∧ F .c1 c = 1
  rl : ∀ r, 0 ≤ r → r < m → F .rl r = cnt A0 r nnz ∧ F .rs r = St nnz A0 r ∧ F .r2 r = 0 ∧
    F .r1 r = F .rl r
  rel : ∀ r, 0 ≤ r → r < m → ∀ c, c ∈ seg (F .A) (St nnz A0 r) (cnt A0 r nnz) ↔
    0 ≤ c ∧ c < n ∧ ∃ t, P c ≤ t ∧ t < P (c + 1) ∧ A0 t = r
  rnd : ∀ r, 0 ≤ r → r < m → (seg (F .A) (St nnz A0 r) (cnt A0 r nnz)).Nodup
  cel : ∀ c, 0 ≤ c → c < n → ∀ r, r ∈ seg (F .A) (P c) (P (c + 1) - P c) ↔
    ∃ t, P c ≤ t ∧ t < P (c + 1) ∧ A0 t = r
  cnd : ∀ c, 0 ≤ c → c < n → (seg (F .A) (P c) (P (c + 1) - P c)).Nodup

theorem I4.IR (hg : Good n m nnz Al P A0) (h : I4 n m nnz Al P A0 s F) : IR n m nnz Al s F := by
  have hnn := hg.nnz0
  have ec : ∀ c, 0 ≤ c → c < n → colL F c = seg (F .A) (P c) (P (c + 1) - P c) := by
    intro c c0 c1; unfold colL; rw [(h.cs c c0 c1).1, (h.cs c c0 c1).2.1]
  have er : ∀ r, 0 ≤ r → r < m → rowL F r = seg (F .A) (St nnz A0 r) (cnt A0 r nnz) := by
    intro r r0 r1; unfold rowL; rw [(h.rl r r0 r1).1, (h.rl r r0 r1).2.1]
  have ok : ∀ c, 0 ≤ c → c < n → ∀ r ∈ seg (F .A) (P c) (P (c + 1) - P c), 0 ≤ r ∧ r < m := by
    intro c c0 c1 r hr
    obtain ⟨t, t0, t1, rfl⟩ := (h.cel c c0 c1 r).1 hr
    have hp := hg.pos c0 c1 t0 t1
    exact hg.ok t hp.1 hp.2
  refine ⟨h.rp, ?_, ?_, ?_, ?_, ?_, ?_, ?_, ?_, ?_, ?_⟩
  · refine ⟨hnn, le_rfl, by omega, ?_, ?_, ?_, ?_, ?_⟩
    · rintro c ⟨c0, c1, _⟩
      rw [(h.cs c c0 c1).1, (h.cs c c0 c1).2.1]
      have a := hg.mono c c0 c1
      have b := P_mono hg.mono (by omega : 0 ≤ c + 1) (by omega : c + 1 ≤ n) le_rfl
      rw [hg.e] at b
      constructor <;> omega
    · rintro c c' ⟨c0, c1, _⟩ ⟨c0', c1', _⟩ hlt
      rw [(h.cs c c0 c1).1, (h.cs c c0 c1).2.1, (h.cs c' c0' c1').1]
      have := P_mono hg.mono (by omega : 0 ≤ c + 1) (by omega : c + 1 ≤ c') (by omega)
      omega
    · rintro r ⟨r0, r1, _⟩
      rw [(h.rl r r0 r1).1, (h.rl r r0 r1).2.1]
      exact ⟨by omega, St_ge _, hg.top r1⟩
    · rintro r r' ⟨r0, r1, _⟩ ⟨r0', r1', _⟩ hne
      rw [(h.rl r r0 r1).1, (h.rl r r0 r1).2.1, (h.rl r' r0' r1').1, (h.rl r' r0' r1').2.1]
      rcases lt_or_gt_of_ne hne with h | h
      · exact Or.inl (St_lt h)
      · exact Or.inr (St_lt h)
    · intro i i0 i1
      by_cases hi : i < nnz
      · obtain ⟨c, c0, c1, a, b⟩ := cover (S := P) (i := i) hg.n0 (by rw [hg.z]; exact i0)
          (by rw [hg.e]; exact hi)
        exact (ok c c0 c1 (F .A i) (mem_seg.2 ⟨i, a, by omega, rfl⟩)).1
      · obtain ⟨r, r0, r1, a, b⟩ := cover (S := St nnz A0) (i := i) hg.m0
          (by rw [St_zero fun t t0 t1 => (hg.ok t t0 t1).1]; omega)
          (by rw [St_top hnn fun t t0 t1 => (hg.ok t t0 t1).2]; omega)
        rw [St_succ] at b
        exact ((h.rel r r0 r1 (F .A i)).1 (mem_seg.2 ⟨i, a, b, rfl⟩)).1
  · intro c c0 c1
    rw [(h.cs c c0 c1).1]
    have := P_mono hg.mono (le_refl 0) c0 (by omega : c ≤ n)
    rw [hg.z] at this
    exact this
  · exact fun r r0 r1 => (h.rl r r0 r1).2.2.1
  · intro c c0 c1 r hr
    rw [ec c c0 c1] at hr
    exact ok c c0 c1 r hr
  · intro r r0 r1 c hc
    rw [er r r0 r1] at hc
    have := (h.rel r r0 r1 c).1 hc
    exact ⟨this.1, this.2.1⟩
  · intro c c0 c1; rw [ec c c0 c1]; exact h.cnd c c0 c1
  · intro r r0 r1; rw [er r r0 r1]; exact h.rnd r r0 r1
  · intro c r c0 c1 r0 r1
    rw [ec c c0 c1, er r r0 r1, h.cel c c0 c1, h.rel r r0 r1]
    exact ⟨fun hh => ⟨c0, c1, hh⟩, fun hh => hh.2.2⟩
  · exact fun c c0 c1 => (h.cs c c0 c1).2.2
  · exact fun r r0 r1 => (h.rl r r0 r1).2.2.2

theorem resetRows_spec (hg : Good n m nnz Al P A0) (h : I3 n m nnz Al P A0 n nnz s F) :
    wp (resetRows m s) (fun s' => ∃ F', I4 n m nnz Al P A0 s' F' ∧
      ∀ i, 0 ≤ i → i ≤ n → F' .p i = P i) (fun _ => False) := by
  unfold resetRows
  have hnn := hg.nnz0
  have dom : Rm n m Al (2 * nnz) s F := by
    refine h.rp.mono fun f i hi => ?_
    cases f <;> simp only [Dom] at hi <;> simp only [DI] <;> try exact hi
    by_cases hin : i < nnz
    · exact Or.inl ⟨hi.1, hin⟩
    · right
      obtain ⟨r, r0, r1, a, b⟩ := cover (S := St nnz A0) (i := i) hg.m0
        (by rw [St_zero fun t t0 t1 => (hg.ok t t0 t1).1]; omega)
        (by rw [St_top hnn fun t t0 t1 => (hg.ok t t0 t1).2]; omega)
      rw [St_succ] at b
      exact ⟨r, r0, r1, a, b⟩
  refine wp_post (wp_forRange (fun k (s' : Mem) => ∃ F', Rm n m Al (2 * nnz) s' F' ∧
    (∀ f, f ≠ .r1 → f ≠ .r2 → F' f = F f) ∧
    (∀ r, 0 ≤ r → r < k → F' .r2 r = 0 ∧ F' .r1 r = F .rl r)) hg.m0
    ⟨F, dom, fun _ _ _ => rfl, fun r r0 r1 => by omega⟩ ?_) ?_
  · rintro r s r0 r1 ⟨F', g, he, hr⟩
    obtain ⟨s1, e1, g1⟩ := g.wr (f := .r2) (i := r) ⟨r0, r1⟩ 0
    rw [e1, ok_bind, g1.rd (f := .rl) (show 0 ≤ r ∧ r < m from ⟨r0, r1⟩), ok_bind]
    obtain ⟨s2, e2, g2⟩ := g1.wr (f := .r1) (i := r) ⟨r0, r1⟩ (set F' .r2 r 0 .rl r)
    rw [e2, wp_ok]
    refine ⟨_, g2, ?_, ?_⟩
    · intro f h1 h2; rw [set_ne _ h1, set_ne _ h2, he f h1 h2]
    · intro x x0 x1
      by_cases hx : x = r
      · subst hx; simp [set_apply, he .rl (by decide) (by decide)]
      · have := hr x x0 (by omega)
        simp [set_apply, hx, this]
  · rintro s' ⟨F', g, he, hr⟩
    have eA : F' .A = F .A := he _ (by decide) (by decide)
    have es : ∀ c, 0 ≤ c → c < n → seg (F .A) (P c) (P (c + 1) - P c)
        = seg A0 (P c) (P (c + 1) - P c) := by
      intro c c0 c1
      apply seg_congr
      intro i i0 i1
      have := hg.pos c0 c1 i0 (by omega)
      exact h.eA i this.1 this.2
    refine ⟨F', ⟨g, ?_, ?_, ?_, ?_, ?_, ?_⟩, ?_⟩
    · rw [he _ (by decide) (by decide), he _ (by decide) (by decide), he _ (by decide) (by decide)]
      exact h.cs
    · intro r r0 r1
      rw [he .rl (by decide) (by decide), he .rs (by decide) (by decide), (hr r r0 r1).1,
        (hr r r0 r1).2]
      exact ⟨(h.rl r r0 r1).1, (h.rl r r0 r1).2, rfl, rfl⟩
    · intro r r0 r1 c
      rw [eA, h.el r r0 r1]
      constructor
      · rintro ⟨a, b, t, t0, t1, t2, t3⟩; exact ⟨a, b, t, t0, t1, t3⟩
      · rintro ⟨a, b, t, t0, t1, t3⟩
        exact ⟨a, b, t, t0, t1, (hg.pos a b t0 t1).2, t3⟩
    · rw [eA]; exact h.nd
    · intro c c0 c1 r
      rw [eA, es c c0 c1, mem_seg]
      constructor
      · rintro ⟨t, t0, t1, t3⟩; exact ⟨t, t0, by omega, t3⟩
      · rintro ⟨t, t0, t1, t3⟩; exact ⟨t, t0, by omega, t3⟩
    · intro c c0 c1
      rw [eA, es c c0 c1, seg_nodup]
      intro i j i0 i1 j0 j1 e
      exact hg.nodup c c0 c1 i j i0 (by omega) j0 (by omega) e
    · rw [he _ (by decide) (by decide)]; exact h.ep

/-! ## The columns of a jumbled matrix -/

/-- The columns while they are rebuilt: the rows below `r` are done, and the columns of `pre` of
row `r`. -/
structure RB (n m nnz Al : ℤ) (P A0 : ℤ → ℤ) (F0 : Sh) (r : ℤ) (pre : List ℤ) (s : Mem) (F : Sh) :
    Prop where
  rp : Rm n m Al (2 * nnz) s F
  eq : ∀ f, f ≠ .A → f ≠ .p → F f = F0 f
  hi : ∀ i, nnz ≤ i → F .A i = F0 .A i
  pb : ∀ c, 0 ≤ c → c < n → P c ≤ F .p c
  mem : ∀ c, 0 ≤ c → c < n → ∀ x, x ∈ seg (F .A) (P c) (F .p c - P c) ↔
    (x < r ∨ (x = r ∧ c ∈ pre)) ∧ ∃ t, P c ≤ t ∧ t < P (c + 1) ∧ A0 t = x
  nd : ∀ c, 0 ≤ c → c < n → (seg (F .A) (P c) (F .p c - P c)).Nodup

theorem RB.le {F0 : Sh} {r : ℤ} {pre : List ℤ} (h : RB n m nnz Al P A0 F0 r pre s F) {c : ℤ}
    (c0 : 0 ≤ c) (c1 : c < n) (mono : P c ≤ P (c + 1)) : F .p c ≤ P (c + 1) := by
  have hs : seg (F .A) (P c) (F .p c - P c) ⊆ seg A0 (P c) (P (c + 1) - P c) := by
    intro x hx
    obtain ⟨_, t, t0, t1, t2⟩ := (h.mem c c0 c1 x).1 hx
    exact mem_seg.2 ⟨t, t0, by omega, t2⟩
  have := (List.subperm_of_subset (h.nd c c0 c1) hs).length_le
  rw [length_seg, length_seg] at this
  have := h.pb c c0 c1
  omega

theorem rebuild_entry {F0 : Sh} {r : ℤ} {pre : List ℤ} {c i : ℤ} (hg : Good n m nnz Al P A0)
    (h : RB n m nnz Al P A0 F0 r pre s F) (c0 : 0 ≤ c) (c1 : c < n)
    (hi : nnz ≤ i) (hi2 : i < 2 * nnz) (hA : F0 .A i = c) (hc : c ∉ pre)
    (ht : ∃ t, P c ≤ t ∧ t < P (c + 1) ∧ A0 t = r) :
    wp (do let col ← s.rd .A i
           let t ← s.rd .p col
           let s ← s.wr .A t r
           let t ← ck (t + 1)
           s.wr .p col t) (fun s' => ∃ F', RB n m nnz Al P A0 F0 r (pre ++ [c]) s' F')
      (fun _ => False) := by
  have hnn := hg.nnz0
  rw [h.rp.rd (f := .A) (show 0 ≤ i ∧ i < 2 * nnz from ⟨by omega, hi2⟩), ok_bind, h.hi i hi, hA,
    h.rp.rd (f := .p) (show 0 ≤ c ∧ c < n + 1 from ⟨c0, by omega⟩), ok_bind]
  have hlt : F .p c < P (c + 1) := by
    have hs : r :: seg (F .A) (P c) (F .p c - P c) ⊆ seg A0 (P c) (P (c + 1) - P c) := by
      intro x hx
      rcases List.mem_cons.1 hx with rfl | hx
      · obtain ⟨t, t0, t1, t2⟩ := ht
        exact mem_seg.2 ⟨t, t0, by omega, t2⟩
      · obtain ⟨_, t, t0, t1, t2⟩ := (h.mem c c0 c1 x).1 hx
        exact mem_seg.2 ⟨t, t0, by omega, t2⟩
    have hnd : (r :: seg (F .A) (P c) (F .p c - P c)).Nodup := by
      refine List.nodup_cons.2 ⟨fun hr => ?_, h.nd c c0 c1⟩
      rcases ((h.mem c c0 c1 r).1 hr).1 with h | h
      · omega
      · exact hc h.2
    have := (List.subperm_of_subset hnd hs).length_le
    rw [List.length_cons, length_seg, length_seg] at this
    have := h.pb c c0 c1
    omega
  have hpb := h.pb c c0 c1
  have hp := hg.pos c0 c1 hpb hlt
  obtain ⟨s1, e1, g1⟩ := h.rp.wr (f := .A) (i := F .p c)
    (show 0 ≤ F .p c ∧ F .p c < 2 * nnz from ⟨hp.1, by omega⟩) r
  rw [e1, ok_bind]
  have hal := hg.al
  cks h.rp
  obtain ⟨s2, e2, g2⟩ := g1.wr (f := .p) (i := c)
    (show 0 ≤ c ∧ c < n + 1 from ⟨c0, by omega⟩) (F .p c + 1)
  rw [e2, wp_ok]
  refine ⟨_, g2, ?_, ?_, ?_, ?_, ?_⟩
  · intro f h1 h2; rw [set_ne _ h2, set_ne _ h1, h.eq f h1 h2]
  · intro x hx
    rw [set_ne _ (by decide), set_same, Function.update_of_ne (by omega)]
    exact h.hi x hx
  · intro x x0 x1
    rw [set_apply]
    have := h.pb x x0 x1
    split_ifs with hh
    · obtain ⟨_, rfl⟩ := hh; omega
    · rw [set_ne _ (by decide)]; exact this
  all_goals
    have same : seg (set (set F .A (F .p c) r) .p c (F .p c + 1) .A) (P c)
        (set (set F .A (F .p c) r) .p c (F .p c + 1) .p c - P c)
        = seg (F .A) (P c) (F .p c - P c) ++ [r] := by
      rw [set_ne _ (show Fld.A ≠ .p by decide), set_same, set_same, Function.update_self,
        show F .p c + 1 - P c = (F .p c - P c) + 1 by ring, seg_succ _ (by omega)]
      congr 1
      · apply seg_congr
        intro i i0 i1
        rw [Function.update_of_ne (by omega)]
      · rw [show P c + (F .p c - P c) = F .p c by ring, Function.update_self]
    have other : ∀ x, 0 ≤ x → x < n → x ≠ c →
        seg (set (set F .A (F .p c) r) .p c (F .p c + 1) .A) (P x)
        (set (set F .A (F .p c) r) .p c (F .p c + 1) .p x - P x)
        = seg (F .A) (P x) (F .p x - P x) := by
      intro x x0 x1 hx
      rw [set_ne _ (show Fld.A ≠ .p by decide), set_same, set_same, Function.update_of_ne hx,
        set_ne _ (by decide)]
      apply seg_congr
      intro i i0 i1
      rw [Function.update_of_ne]
      have := h.le x0 x1 (hg.mono x x0 x1)
      rcases lt_or_gt_of_ne hx with hh | hh
      · have := P_mono hg.mono (by omega) (by omega : x + 1 ≤ c) (by omega)
        omega
      · have := P_mono hg.mono (by omega) (by omega : c + 1 ≤ x) (by omega)
        omega
  · intro x x0 x1 y
    by_cases hx : x = c
    · subst hx
      rw [same, List.mem_append, h.mem x x0 x1, List.mem_singleton]
      constructor
      · rintro (⟨h1 | h1, h2⟩ | rfl)
        · exact ⟨Or.inl h1, h2⟩
        · exact ⟨Or.inr ⟨h1.1, by simp [h1.2]⟩, h2⟩
        · exact ⟨Or.inr ⟨rfl, by simp⟩, ht⟩
      · rintro ⟨h1 | h1, h2⟩
        · exact Or.inl ⟨Or.inl h1, h2⟩
        · exact Or.inr h1.1
    · rw [other x x0 x1 hx, h.mem x x0 x1]
      simp [hx]
  · intro x x0 x1
    by_cases hx : x = c
    · subst hx
      rw [same]
      refine List.Nodup.append (h.nd x x0 x1) (List.nodup_singleton _) ?_
      intro y hy hz
      rw [List.mem_singleton] at hz
      subst hz
      rcases ((h.mem x x0 x1 y).1 hy).1 with h | h
      · omega
      · exact hc h.2
    · rw [other x x0 x1 hx]; exact h.nd x x0 x1

theorem rebuildCols_spec (hg : Good n m nnz Al P A0) (h : I4 n m nnz Al P A0 s F)
    (hp : ∀ i, 0 ≤ i → i ≤ n → F .p i = P i) :
    wp (rebuildCols n m s) (fun s' => ∃ F', I4 n m nnz Al P A0 s' F') (fun _ => False) := by
  unfold rebuildCols
  have hnn := hg.nnz0
  have n0 := hg.n0
  obtain ⟨s1, e1, g1⟩ := h.rp.wrx (f := .cs) (i := 0) 0 le_rfl (show 0 < n + 1 by omega)
  rw [e1, ok_bind]
  obtain ⟨s2, e2, g2⟩ := g1.wrx (f := .p) (i := 0) 0 le_rfl (show 0 < n + 1 by omega)
  rw [e2, ok_bind]
  have hF : ∀ f i, Dom n m (2 * nnz) f i → F f i = set (set F .cs 0 0) .p 0 0 f i := by
    intro f i hi
    rw [set_apply, set_apply]
    split_ifs with h1 h2
    · obtain ⟨rfl, rfl⟩ := h1; rw [hp 0 le_rfl n0, hg.z]
    · obtain ⟨rfl, rfl⟩ := h2
      simp only [Dom] at hi
      rw [(h.cs 0 hi.1 hi.2).1, hg.z]
    · rfl
  have g3 : Rm n m Al (2 * nnz) s2 F :=
    (g2.mono (D' := Dom n m (2 * nnz)) fun f i hi => Or.inr (Or.inr hi)).congr hF
  rw [wp_bind]
  have first : wp (forRange 1 n s2 fun col s => do
      let c1 ← ck (col - 1)
      let a ← s.rd .cs c1
      let l ← s.rd .cl c1
      let a ← ck (a + l)
      let s ← s.wr .cs col a
      s.wr .p col a) (fun s' => Rm n m Al (2 * nnz) s' F) (fun _ => False) := by
    by_cases hn1 : n ≤ 1
    · rw [forRange_empty hn1]; exact g3
    · refine wp_forRange (fun _ (s : Mem) => Rm n m Al (2 * nnz) s F) (by omega) g3 ?_
      intro i s i0 i1 g
      cks g
      rw [g.rd (f := .cs) (show 0 ≤ i - 1 ∧ i - 1 < n from ⟨by omega, by omega⟩), ok_bind,
        g.rd (f := .cl) (show 0 ≤ i - 1 ∧ i - 1 < n from ⟨by omega, by omega⟩), ok_bind,
        (h.cs (i - 1) (by omega) (by omega)).1, (h.cs (i - 1) (by omega) (by omega)).2.1,
        show i - 1 + 1 = i by omega, show P (i - 1) + (P i - P (i - 1)) = P i by omega]
      have hP1 := P_mono hg.mono (le_refl 0) (by omega : 0 ≤ i) i1.le
      have hP2 := P_mono hg.mono (by omega : 0 ≤ i) i1.le le_rfl
      rw [hg.z] at hP1
      rw [hg.e] at hP2
      have hal := hg.al
      cks g
      obtain ⟨t1, e1, g1⟩ := g.wr (f := .cs) (i := i) ⟨by omega, i1⟩ (P i)
      rw [e1, ok_bind]
      obtain ⟨t2, e2, g2⟩ := g1.wr (f := .p) (i := i)
        (show 0 ≤ i ∧ i < n + 1 from ⟨by omega, by omega⟩) (P i)
      rw [e2, wp_ok]
      refine g2.congr fun f j hj => ?_
      rw [set_apply, set_apply]
      split_ifs with h1 h2
      · obtain ⟨rfl, rfl⟩ := h1; rw [hp j (by omega) (by omega)]
      · obtain ⟨rfl, rfl⟩ := h2; rw [(h.cs j (by omega) i1).1]
      · rfl
  refine wp_post first ?_
  intro s3 g4
  refine wp_post (wp_forRange (fun r (s : Mem) => ∃ F', RB n m nnz Al P A0 F r [] s F') hg.m0
    ⟨F, g4, fun _ _ _ => rfl, fun _ _ => rfl, ?_, ?_, ?_⟩ ?_) ?_
  · intro c c0 c1; rw [hp c c0 (by omega)]
  · intro c c0 c1 x
    rw [hp c c0 (by omega)]
    simp only [sub_self, seg_zero, List.not_mem_nil, and_false, or_false, false_iff]
    rintro ⟨hx, t, t0, t1, rfl⟩
    have := hg.pos c0 c1 t0 t1
    have := (hg.ok t this.1 this.2).1
    omega
  · intro c c0 c1
    rw [hp c c0 (by omega)]; simp
  · rintro r s r0 r1 ⟨F', g⟩
    rw [g.rp.rd (f := .rs) (show 0 ≤ r ∧ r < m from ⟨r0, r1⟩), ok_bind,
      g.rp.rd (f := .rl) (show 0 ≤ r ∧ r < m from ⟨r0, r1⟩), ok_bind,
      g.eq .rs (by decide) (by decide), g.eq .rl (by decide) (by decide),
      (h.rl r r0 r1).1, (h.rl r r0 r1).2.1]
    have htop := hg.top r1
    have hge := St_ge (nnz := nnz) (A0 := A0) r
    refine wp_post (wp_seg (A := F .A) (l := (cnt A0 r nnz : ℤ)) (by omega)
      (fun pre (s : Mem) => ∃ F', RB n m nnz Al P A0 F r pre s F') ⟨F', g⟩ ?_) ?_
    · rintro pre x post s hs hx hl ⟨F', g⟩
      have hx' : x ∈ seg (F .A) (St nnz A0 r) (cnt A0 r nnz) := by rw [hs]; simp
      obtain ⟨x0, x1, ht⟩ := (h.rel r r0 r1 x).1 hx'
      refine rebuild_entry hg g x0 x1 (by omega) (by omega) hx ?_ ht
      have := h.rnd r r0 r1
      rw [hs] at this
      rw [List.nodup_append] at this
      intro hh
      exact this.2.2 x hh x (by simp) rfl
    · rintro s ⟨F', g⟩
      refine ⟨F', g.rp, g.eq, g.hi, g.pb, ?_, g.nd⟩
      intro c c0 c1 x
      rw [g.mem c c0 c1, h.rel r r0 r1]
      constructor
      · rintro ⟨h1 | h1, h2⟩
        · exact ⟨Or.inl (by omega), h2⟩
        · exact ⟨Or.inl (by omega), h2⟩
      · rintro ⟨h1 | h1, h2⟩
        · by_cases hxr : x = r
          · subst hxr; exact ⟨Or.inr ⟨rfl, c0, c1, h2⟩, h2⟩
          · exact ⟨Or.inl (by omega), h2⟩
        · simp at h1
  · rintro s ⟨F', g⟩
    have mem : ∀ c, 0 ≤ c → c < n → ∀ x, x ∈ seg (F' .A) (P c) (F' .p c - P c) ↔
        ∃ t, P c ≤ t ∧ t < P (c + 1) ∧ A0 t = x := by
      intro c c0 c1 x
      rw [g.mem c c0 c1]
      refine ⟨fun hh => hh.2, ?_⟩
      rintro ⟨t, t0, t1, rfl⟩
      have hp := hg.pos c0 c1 t0 t1
      exact ⟨Or.inl (hg.ok t hp.1 hp.2).2, t, t0, t1, rfl⟩
    have len : ∀ c, 0 ≤ c → c < n → F' .p c = P (c + 1) := by
      intro c c0 c1
      have hm := hg.mono c c0 c1
      have hle := g.le c0 c1 hm
      have hs : seg A0 (P c) (P (c + 1) - P c) ⊆ seg (F' .A) (P c) (F' .p c - P c) := by
        intro x hx
        obtain ⟨t, t0, t1, t2⟩ := mem_seg.1 hx
        exact (mem c c0 c1 x).2 ⟨t, t0, by omega, t2⟩
      have hnd : (seg A0 (P c) (P (c + 1) - P c)).Nodup := by
        rw [seg_nodup]
        intro i j i0 i1 j0 j1 e
        exact hg.nodup c c0 c1 i j i0 (by omega) j0 (by omega) e
      have := (List.subperm_of_subset hnd hs).length_le
      rw [length_seg, length_seg] at this
      have := g.pb c c0 c1
      omega
    have er : ∀ r, 0 ≤ r → r < m → seg (F' .A) (St nnz A0 r) (cnt A0 r nnz)
        = seg (F .A) (St nnz A0 r) (cnt A0 r nnz) := by
      intro r r0 r1
      apply seg_congr
      intro i i0 i1
      have := St_ge (nnz := nnz) (A0 := A0) r
      exact g.hi i (by omega)
    refine ⟨F', g.rp, ?_, ?_, ?_, ?_, ?_, ?_⟩
    · rw [g.eq _ (by decide) (by decide), g.eq _ (by decide) (by decide),
        g.eq _ (by decide) (by decide)]; exact h.cs
    · rw [g.eq _ (by decide) (by decide), g.eq _ (by decide) (by decide),
        g.eq _ (by decide) (by decide), g.eq _ (by decide) (by decide)]; exact h.rl
    · intro r r0 r1; rw [er r r0 r1]; exact h.rel r r0 r1
    · intro r r0 r1; rw [er r r0 r1]; exact h.rnd r r0 r1
    · intro c c0 c1 x
      have := mem c c0 c1 x
      rw [len c c0 c1] at this
      exact this
    · intro c c0 c1
      have := g.nd c c0 c1
      rw [len c c0 c1] at this
      exact this

theorem init_rows_cols_spec (hm : Mat n m nnz P) (hnd : NoDup n P A0) (hal : 2 * nnz ≤ Al)
    (hck : ∀ c, 0 ≤ c → c < n → ck (P (c + 1) - P c) = .ok (P (c + 1) - P c))
    (h : I1 n m nnz Al P A0 0 0 s F) :
    wp (init_rows_cols n m s) (fun s' => Valid n m nnz P A0 ∧ ∃ F', IR n m nnz Al s' F')
      (Rej n m nnz P A0) := by
  unfold init_rows_cols
  rw [wp_bind]
  refine wp_post (initCols_spec hm.n0 hck h) ?_
  rintro s1 ⟨F1, h1⟩
  rw [wp_bind]
  refine wp_post (initRows_spec hm.m0 h1) ?_
  rintro s2 ⟨F2, h2⟩
  rw [wp_bind]
  refine wp_post (scanCols_spec hm h2) ?_
  rintro ⟨s3, j⟩ ⟨F3, h3⟩
  dsimp only at h3 ⊢
  have hg : Good n m nnz Al P A0 := ⟨hm, h2.mono, h3.ok, hnd, hal⟩
  have hv : Valid n m nnz P A0 := ⟨h2.mono, h3.ok⟩
  refine wp_mono (E := fun _ => False) ?_ (fun _ h => h) (fun _ h => h.elim)
  rw [wp_bind]
  refine wp_post (rowStarts_spec hg h3) ?_
  rintro s4 ⟨F4, h4⟩
  rw [wp_bind]
  refine wp_post (fillRows_spec j hg h4) ?_
  rintro s5 ⟨F5, h5⟩
  rw [wp_bind]
  refine wp_post (resetRows_spec hg h5) ?_
  rintro s6 ⟨F6, h6, hp⟩
  split_ifs
  · refine wp_post (rebuildCols_spec hg h6 hp) ?_
    rintro s7 ⟨F7, h7⟩
    exact ⟨hv, F7, h7.IR hg⟩
  · rw [wp_pure]
    exact ⟨hv, F6, h6.IR hg⟩

/-- An invalid matrix is rejected, whatever its entries. -/
theorem init_rows_cols_invalid (hm : Mat n m nnz P) (hinv : ¬ Valid n m nnz P A0)
    (hck : ∀ c, 0 ≤ c → c < n → ck (P (c + 1) - P c) = .ok (P (c + 1) - P c))
    (h : I1 n m nnz Al P A0 0 0 s F) : init_rows_cols n m s = .error (.ret .incorrectInput) := by
  have key : wp (init_rows_cols n m s) (fun _ => False) (Rej n m nnz P A0) := by
    unfold init_rows_cols
    rw [wp_bind]
    refine wp_post (initCols_spec hm.n0 hck h) ?_
    rintro s1 ⟨F1, h1⟩
    rw [wp_bind]
    refine wp_post (initRows_spec hm.m0 h1) ?_
    rintro s2 ⟨F2, h2⟩
    rw [wp_bind]
    refine wp_post (scanCols_spec hm h2) ?_
    rintro ⟨s3, j⟩ ⟨F3, h3⟩
    exact absurd ⟨h2.mono, h3.ok⟩ hinv
  cases hr : init_rows_cols n m s with
  | ok s' => rw [hr] at key; exact key.elim
  | error e => rw [hr] at key; rw [key.1]

end Slip.Colamd
