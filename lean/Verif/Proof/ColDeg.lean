import Verif.Proof.ColInv

/-!
# COLAMD: the degree lists
-/

namespace Slip.Colamd

set_option linter.unusedSectionVars false

variable [Arith]
variable {n m Al L : ℤ} {s : Mem} {F : Sh} {S : ℤ → Prop} {rk : ℤ → ℕ}

theorem DL.congr {F' : Sh} {S' : ℤ → Prop} (h : DL n F S rk) (hS : ∀ c, S' c ↔ S c)
    (hp : ∀ d, 0 ≤ d → d ≤ n → F' .p d = F .p d)
    (h2 : ∀ c, S c → F' .c2 c = F .c2 c) (h3 : ∀ c, S c → F' .c3 c = F .c3 c)
    (h4 : ∀ c, S c → F' .c4 c = F .c4 c) : DL n F' S' rk := by
  have e : S' = S := funext fun c => propext (hS c)
  subst e
  constructor
  · intro c hc; rw [h2 c hc]; exact h.rg c hc
  · intro d h0 h1
    rw [hp d h0 h1]
    rcases h.hd d h0 h1 with e | ⟨a, b, c⟩
    · exact Or.inl e
    · exact Or.inr ⟨a, by rw [h2 _ a]; exact b, by rw [h3 _ a]; exact c⟩
  · intro c hc
    have hr := h.rg c hc
    rw [h3 c hc, h2 c hc, hp _ hr.2.2.1 hr.2.2.2]
    rcases h.pv c hc with e | ⟨a, b, c', d⟩
    · exact Or.inl e
    · exact Or.inr ⟨a, by rw [h4 _ a]; exact b, by rw [h2 _ a]; exact c', d⟩
  · intro c hc
    rw [h4 c hc, h2 c hc]
    rcases h.nx c hc with e | ⟨a, b, c'⟩
    · exact Or.inl e
    · exact Or.inr ⟨a, by rw [h3 _ a]; exact b, by rw [h2 _ a]; exact c'⟩

/-- Take `c` off its list. -/
def unlink (F : Sh) (c : ℤ) : Sh :=
  let F1 := if F .c3 c = -1 then set F .p (F .c2 c) (F .c4 c) else set F .c4 (F .c3 c) (F .c4 c)
  if F .c4 c ≠ -1 then set F1 .c3 (F .c4 c) (F .c3 c) else F1

theorem unlink_ne (F : Sh) (c : ℤ) {f : Fld} (h : f ≠ .p) (h3 : f ≠ .c3) (h4 : f ≠ .c4) :
    unlink F c f = F f := by
  unfold unlink
  split_ifs <;> simp [set_ne _ h, set_ne _ h3, set_ne _ h4]

theorem unlink_p (F : Sh) (c d : ℤ) : unlink F c .p d =
    if F .c3 c = -1 ∧ d = F .c2 c then F .c4 c else F .p d := by
  unfold unlink
  split_ifs <;> simp_all [set_apply]

theorem unlink_c4 (F : Sh) (c x : ℤ) : unlink F c .c4 x =
    if F .c3 c ≠ -1 ∧ x = F .c3 c then F .c4 c else F .c4 x := by
  unfold unlink
  split_ifs <;> simp_all [set_apply]

theorem unlink_c3 (F : Sh) (c x : ℤ) : unlink F c .c3 x =
    if F .c4 c ≠ -1 ∧ x = F .c4 c then F .c3 c else F .c3 x := by
  unfold unlink
  split_ifs <;> simp_all [set_apply]

theorem DL.del (h : DL n F S rk) {c : ℤ} (hc : S c) :
    DL n (unlink F c) (fun x => S x ∧ x ≠ c) rk := by
  have hg := h.rg c hc
  have e2 : unlink F c .c2 = F .c2 := unlink_ne F c (by decide) (by decide) (by decide)
  have hn1 : ∀ x, S x → x ≠ -1 := fun x hx => by have := h.rg x hx; omega
  have hpc := h.pv c hc
  have hnc := h.nx c hc
  have hself : F .c3 c ≠ c := by
    intro e
    rcases hpc with ⟨a, _⟩ | ⟨_, _, _, d⟩
    · omega
    · rw [e] at d; omega
  have hself4 : F .c4 c ≠ c := by
    intro e
    rcases hnc with a | ⟨_, b, _⟩
    · omega
    · rw [e] at b; exact hself b
  constructor
  · intro x hx; rw [e2]; exact h.rg x hx.1
  · intro d h0 h1
    rw [unlink_p]
    split_ifs with hh
    · rcases hnc with a | ⟨a, b, c'⟩
      · exact Or.inl a
      · refine Or.inr ⟨⟨a, hself4⟩, ?_, ?_⟩
        · rw [e2, c']; exact hh.2.symm
        · rw [unlink_c3, if_pos ⟨hn1 _ a, rfl⟩]; exact hh.1
    · rcases h.hd d h0 h1 with a | ⟨a, b, c'⟩
      · exact Or.inl a
      · have hne : F .p d ≠ c := by
          intro e; rw [e] at b c'; exact hh ⟨c', b.symm⟩
        refine Or.inr ⟨⟨a, hne⟩, by rw [e2]; exact b, ?_⟩
        rw [unlink_c3, if_neg]
        · exact c'
        · rintro ⟨h4, e⟩
          rcases hnc with a' | ⟨_, b', _⟩
          · exact h4 a'
          · rw [← e, c'] at b'; omega
  · intro x ⟨hx, hxc⟩
    rw [e2, unlink_c3]
    have hgx := h.rg x hx
    split_ifs with hh
    · obtain ⟨h4, e⟩ := hh
      rcases hnc with a' | ⟨a', b', c'⟩
      · exact absurd a' h4
      · rw [← e] at a' b' c'
        rcases hpc with ⟨a, b⟩ | ⟨a, b, d, f⟩
        · refine Or.inl ⟨a, ?_⟩
          rw [unlink_p, if_pos ⟨a, c'⟩, e]
        · refine Or.inr ⟨⟨a, hself⟩, ?_, ?_, ?_⟩
          · rw [unlink_c4, if_pos ⟨hn1 _ a, rfl⟩, e]
          · rw [d, c']
          · rcases h.pv x hx with ⟨u, _⟩ | ⟨_, _, _, u⟩
            · omega
            · rw [b'] at u; omega
    · have hnot : F .c3 x ≠ c := by
        intro e
        rcases h.pv x hx with ⟨u, _⟩ | ⟨_, u, _, _⟩
        · omega
        · rw [e] at u; exact hh ⟨by rw [u]; exact hn1 _ hx, u.symm⟩
      rcases h.pv x hx with ⟨a, b⟩ | ⟨a, b, d, f⟩
      · refine Or.inl ⟨a, ?_⟩
        rw [unlink_p, if_neg]
        · exact b
        · rintro ⟨u, v⟩
          rcases hpc with ⟨u', v'⟩ | ⟨u', _⟩
          · rw [v, v'] at b; exact hxc b.symm
          · exact hn1 _ u' u
      · refine Or.inr ⟨⟨a, hnot⟩, ?_, d, f⟩
        rw [unlink_c4, if_neg]
        · exact b
        · rintro ⟨u, v⟩
          rcases hpc with ⟨u', v'⟩ | ⟨_, u', _⟩
          · exact u u'
          · rw [← v, b] at u'; exact hxc u'
  · intro x ⟨hx, hxc⟩
    rw [e2, unlink_c4]
    split_ifs with hh
    · obtain ⟨h3, e⟩ := hh
      rcases hpc with ⟨u, _⟩ | ⟨a, b, d, f⟩
      · exact absurd u h3
      · rcases hnc with a' | ⟨a', b', c'⟩
        · exact Or.inl a'
        · refine Or.inr ⟨⟨a', hself4⟩, ?_, ?_⟩
          · rw [unlink_c3, if_pos ⟨hn1 _ a', rfl⟩, e]
          · rw [c', ← d, e]
    · have hnot : F .c4 x ≠ c := by
        intro e
        rcases h.nx x hx with u | ⟨_, u, _⟩
        · rw [e] at u; omega
        · rw [e] at u; exact hh ⟨by rw [u]; exact hn1 _ hx, u.symm⟩
      rcases h.nx x hx with a | ⟨a, b, d⟩
      · exact Or.inl a
      · refine Or.inr ⟨⟨a, hnot⟩, ?_, d⟩
        rw [unlink_c3, if_neg]
        · exact b
        · rintro ⟨u, v⟩
          rcases hnc with u' | ⟨_, u', _⟩
          · exact u u'
          · rw [← v, b] at u'; exact hxc u'

/-- Put `c` at the front of the list `d`. -/
def link (F : Sh) (c d : ℤ) : Sh :=
  let F1 := set (set F .c3 c (-1)) .c4 c (F .p d)
  set (if F .p d ≠ -1 then set F1 .c3 (F .p d) c else F1) .p d c

theorem link_ne (F : Sh) (c d : ℤ) {f : Fld} (h : f ≠ .p) (h3 : f ≠ .c3) (h4 : f ≠ .c4) :
    link F c d f = F f := by
  unfold link
  split_ifs <;> simp [set_ne _ h, set_ne _ h3, set_ne _ h4]

theorem link_p (F : Sh) (c d x : ℤ) : link F c d .p x = if x = d then c else F .p x := by
  unfold link
  split_ifs <;> simp_all [set_apply]

theorem link_c4 (F : Sh) (c d x : ℤ) : link F c d .c4 x = if x = c then F .p d else F .c4 x := by
  unfold link
  split_ifs <;> simp_all [set_apply]

theorem link_c3 (F : Sh) (c d x : ℤ) : link F c d .c3 x =
    if F .p d ≠ -1 ∧ x = F .p d then c else if x = c then -1 else F .c3 x := by
  unfold link
  split_ifs <;> simp_all [set_apply]

theorem DL.ins (h : DL n F S rk) {c : ℤ} (hc : ¬ S c) (h0 : 0 ≤ c) (h1 : c < n)
    (h20 : 0 ≤ F .c2 c) (h21 : F .c2 c ≤ n) :
    DL n (link F c (F .c2 c)) (fun x => S x ∨ x = c) (fun x => if x = c then 0 else rk x + 1) := by
  have e2 : link F c (F .c2 c) .c2 = F .c2 := link_ne F c _ (by decide) (by decide) (by decide)
  have hn1 : ∀ x, S x → x ≠ -1 := fun x hx => by have := h.rg x hx; omega
  have hne : ∀ x, S x → x ≠ c := fun x hx e => hc (e ▸ hx)
  have hhd := h.hd (F .c2 c) h20 h21
  constructor
  · intro x hx; rw [e2]
    rcases hx with hx | rfl
    · exact h.rg x hx
    · exact ⟨h0, h1, h20, h21⟩
  · intro d hd0 hd1
    rw [link_p]
    split_ifs with hd
    · refine Or.inr ⟨Or.inr rfl, by rw [e2]; exact hd.symm, ?_⟩
      rw [link_c3, if_neg, if_pos rfl]
      rintro ⟨u, v⟩
      rcases hhd with a | ⟨a, _⟩
      · exact u a
      · exact hne _ a v.symm
    · rcases h.hd d hd0 hd1 with a | ⟨a, b, c'⟩
      · exact Or.inl a
      · refine Or.inr ⟨Or.inl a, by rw [e2]; exact b, ?_⟩
        rw [link_c3, if_neg, if_neg (hne _ a)]
        · exact c'
        · rintro ⟨u, v⟩
          rcases hhd with a' | ⟨a', b', _⟩
          · exact u a'
          · rw [v, b'] at b; exact hd b.symm
  · intro x hx
    rw [e2, link_c3]
    by_cases hxc : x = c
    · subst hxc
      rw [if_neg, if_pos rfl]
      · exact Or.inl ⟨rfl, by rw [link_p, if_pos rfl]⟩
      · rintro ⟨u, v⟩
        rcases hhd with a | ⟨a, _⟩
        · exact u a
        · exact hne _ a v.symm
    · have hx : S x := by tauto
      by_cases hh : F .p (F .c2 c) ≠ -1 ∧ x = F .p (F .c2 c)
      · rw [if_pos hh]
        refine Or.inr ⟨Or.inr rfl, ?_, ?_, ?_⟩
        · rw [link_c4, if_pos rfl, hh.2]
        · rcases hhd with a' | ⟨a', b', _⟩
          · exact absurd a' hh.1
          · rw [hh.2, b']
        · simp [hxc]
      · rw [if_neg hh, if_neg hxc]
        rcases h.pv x hx with ⟨a, b⟩ | ⟨a, b, d, f⟩
        · refine Or.inl ⟨a, ?_⟩
          rw [link_p, if_neg]
          · exact b
          · intro e; rw [e] at b; exact hh ⟨by rw [b]; exact hn1 _ hx, b.symm⟩
        · refine Or.inr ⟨Or.inl a, ?_, d, ?_⟩
          · rw [link_c4, if_neg (hne _ a)]; exact b
          · simp [hne _ a, hxc, f]
  · intro x hx
    rw [e2, link_c4]
    by_cases hxc : x = c
    · subst hxc
      rw [if_pos rfl]
      rcases hhd with a | ⟨a, b, d⟩
      · exact Or.inl a
      · refine Or.inr ⟨Or.inl a, ?_, b⟩
        rw [link_c3, if_pos ⟨hn1 _ a, rfl⟩]
    · have hx : S x := by tauto
      rw [if_neg hxc]
      rcases h.nx x hx with a | ⟨a, b, d⟩
      · exact Or.inl a
      · refine Or.inr ⟨Or.inl a, ?_, d⟩
        rw [link_c3, if_neg, if_neg (hne _ a)]
        · exact b
        · rintro ⟨u, v⟩
          rcases hhd with a' | ⟨a', _, c'⟩
          · exact u a'
          · rw [← v, b] at c'; have := h.rg x hx; omega

/-- A column in the lists keeps its list from being empty. -/
theorem DL.head_ne (h : DL n F S rk) {c : ℤ} (hc : S c) : F .p (F .c2 c) ≠ -1 := by
  have key : ∀ k : ℕ, ∀ c, S c → rk c = k → F .p (F .c2 c) ≠ -1 := by
    intro k
    induction k using Nat.strong_induction_on with
    | _ k ih =>
      intro c hc hk
      rcases h.pv c hc with ⟨_, b⟩ | ⟨a, _, d, f⟩
      · rw [b]; have := h.rg c hc; omega
      · rw [← d]; exact ih _ (by omega) _ a rfl
  exact key _ c hc rfl

theorem insertDeg_spec (h : Rm n m Al L s F) {c d : ℤ} (h0 : 0 ≤ c) (h1 : c < n) (hd0 : 0 ≤ d)
    (hd1 : d ≤ n) (hp : F .p d = -1 ∨ (0 ≤ F .p d ∧ F .p d < n)) :
    ∃ s', insertDeg c d s = .ok s' ∧ Rm n m Al L s' (link F c d) := by
  unfold insertDeg link
  dsimp only
  rw [h.rd (f := .p) (show 0 ≤ d ∧ d < n + 1 from ⟨hd0, by omega⟩), ok_bind]
  obtain ⟨s1, e1, g1⟩ := h.wr (f := .c3) (i := c) ⟨h0, h1⟩ (-1)
  rw [e1, ok_bind]
  obtain ⟨s2, e2, g2⟩ := g1.wr (f := .c4) (i := c) ⟨h0, h1⟩ (F .p d)
  rw [e2, ok_bind]
  split_ifs with hh
  · obtain ⟨s3, e3, g3⟩ := g2.wr (f := .c3) (i := F .p d) (by rcases hp with a | a; exact absurd a hh; exact a) c
    rw [e3, ok_bind]
    exact g3.wr (f := .p) (i := d) ⟨hd0, by omega⟩ c
  · rw [pure_bind']
    exact g2.wr (f := .p) (i := d) ⟨hd0, by omega⟩ c

/-- The common part of `removeDeg` and `selectPivot`. -/
theorem removeDeg_spec (h : Rm n m Al L s F) {c : ℤ} (h0 : 0 ≤ c) (h1 : c < n)
    (h20 : 0 ≤ F .c2 c) (h21 : F .c2 c ≤ n)
    (h3 : F .c3 c = -1 ∨ (0 ≤ F .c3 c ∧ F .c3 c < n))
    (h4 : F .c4 c = -1 ∨ (0 ≤ F .c4 c ∧ F .c4 c < n)) (h5 : -n ≤ F .c1 c ∧ F .c1 c ≤ n) :
    ∃ s', removeDeg c s = .ok (s', -(F .c1 c)) ∧
      Rm n m Al L s' (unlink (set F .c1 c (-(F .c1 c))) c) := by
  unfold removeDeg unlink
  dsimp only
  rw [h.rd (f := .c1) (show 0 ≤ c ∧ c < n from ⟨h0, h1⟩), ok_bind]
  cks h
  obtain ⟨s1, e1, g1⟩ := h.wr (f := .c1) (i := c) ⟨h0, h1⟩ (-(F .c1 c))
  rw [e1, ok_bind]
  have e2 : set F .c1 c (-(F .c1 c)) .c2 = F .c2 := set_ne _ (by decide) _ _
  have e3 : set F .c1 c (-(F .c1 c)) .c3 = F .c3 := set_ne _ (by decide) _ _
  have e4 : set F .c1 c (-(F .c1 c)) .c4 = F .c4 := set_ne _ (by decide) _ _
  rw [g1.rd (f := .c2) (show 0 ≤ c ∧ c < n from ⟨h0, h1⟩), ok_bind,
    g1.rd (f := .c3) (show 0 ≤ c ∧ c < n from ⟨h0, h1⟩), ok_bind,
    g1.rd (f := .c4) (show 0 ≤ c ∧ c < n from ⟨h0, h1⟩), ok_bind, e2, e3, e4]
  by_cases hp : F .c3 c = -1
  · rw [if_pos hp, if_pos hp]
    obtain ⟨s2, e2, g2⟩ := g1.wr (f := .p) (i := F .c2 c) ⟨h20, by omega⟩ (F .c4 c)
    rw [e2, ok_bind]
    split_ifs with hn
    · obtain ⟨s3, e3, g3⟩ := g2.wr (f := .c3) (i := F .c4 c) (by
        rcases h4 with a | a; exact absurd a hn; exact a) (F .c3 c)
      rw [e3, ok_bind]; exact ⟨s3, rfl, g3⟩
    · exact ⟨s2, rfl, g2⟩
  · rw [if_neg hp, if_neg hp]
    obtain ⟨s2, e2, g2⟩ := g1.wr (f := .c4) (i := F .c3 c) (by
        rcases h3 with a | a; exact absurd a hp; exact a) (F .c4 c)
    rw [e2, ok_bind]
    split_ifs with hn
    · obtain ⟨s3, e3, g3⟩ := g2.wr (f := .c3) (i := F .c4 c) (by
        rcases h4 with a | a; exact absurd a hn; exact a) (F .c3 c)
      rw [e3, ok_bind]; exact ⟨s3, rfl, g3⟩
    · exact ⟨s2, rfl, g2⟩

/-- The scan for a nonempty list succeeds if there is one. -/
theorem scanMin_spec (h : Rm n m Al L s F) {d : ℤ} (hd : d ≤ n) (hne : F .p d ≠ -1) :
    ∀ (fuel : ℕ) (ms : ℤ), 0 ≤ ms → ms ≤ d → (d - ms).toNat < fuel →
      (∀ x, 0 ≤ x → x < ms → F .p x = -1) →
      ∃ ms', scanMin n fuel ms s = .ok ms' ∧ ms' ≤ d ∧ ms ≤ ms' ∧ F .p ms' ≠ -1 ∧
        ∀ x, 0 ≤ x → x < ms' → F .p x = -1
  | 0, _, _, _, hf, _ => by omega
  | fuel + 1, ms, h0, h1, hf, hb => by
    unfold scanMin
    rw [h.rd (f := .p) (show 0 ≤ ms ∧ ms < n + 1 from ⟨h0, by omega⟩), ok_bind]
    by_cases hh : F .p ms = -1
    · have : ms < d := by
        rcases lt_or_eq_of_le h1 with a | a
        · exact a
        · rw [a] at hh; exact absurd hh hne
      rw [if_pos ⟨hh, by omega⟩]
      cks h
      obtain ⟨ms', a, b, c, d', e⟩ := scanMin_spec h hd hne fuel (ms + 1) (by omega) (by omega)
        (by omega) (by
          intro x hx0 hx1
          by_cases hx : x = ms
          · rw [hx]; exact hh
          · exact hb x hx0 (by omega))
      exact ⟨ms', a, b, by omega, d', e⟩
    · rw [if_neg (by tauto)]
      exact ⟨ms, rfl, h1, le_rfl, hh, hb⟩

end Slip.Colamd
