import Verif.Proof.AmdBase

/-!
# AMD: the degree lists
-/

namespace Slip.Amd

variable [Arith]

variable {n Al L : ℤ} {s : Mem} {F : Sh} {S : ℤ → Prop} {rk : ℤ → ℕ}

theorem DL.congr {F' : Sh} {S' : ℤ → Prop} (h : DL n F S rk) (hS : ∀ c, S' c ↔ S c)
    (hp : ∀ d, 0 ≤ d → d < n → F' .hd d = F .hd d)
    (h2 : ∀ c, S c → F' .dg c = F .dg c) (h3 : ∀ c, S c → F' .la c = F .la c)
    (h4 : ∀ c, S c → F' .nx c = F .nx c) : DL n F' S' rk := by
  have e : S' = S := funext fun c => propext (hS c)
  subst e
  constructor
  · intro c hc; rw [h2 c hc]; exact h.rg c hc
  · intro d h0 h1
    rw [hp d h0 h1]
    rcases h.hd d h0 h1 with e | ⟨a, b, c⟩
    · exact Or.inl e
    · exact Or.inr ⟨a, by rw [h2 _ a]; exact b, by rw [h3 _ a]; exact c⟩
  · intro c hc
    have hr := h.rg c hc
    rw [h3 c hc, h2 c hc, hp _ hr.2.2.1 hr.2.2.2]
    rcases h.pv c hc with e | ⟨a, b, c', d⟩
    · exact Or.inl e
    · exact Or.inr ⟨a, by rw [h4 _ a]; exact b, by rw [h2 _ a]; exact c', d⟩
  · intro c hc
    rw [h4 c hc, h2 c hc]
    rcases h.nx c hc with e | ⟨a, b, c'⟩
    · exact Or.inl e
    · exact Or.inr ⟨a, by rw [h3 _ a]; exact b, by rw [h2 _ a]; exact c'⟩

/-- Take `c` off its list. -/
def unlink (F : Sh) (c : ℤ) : Sh :=
  let F1 := if F .la c = -1 then set F .hd (F .dg c) (F .nx c) else set F .nx (F .la c) (F .nx c)
  if F .nx c ≠ -1 then set F1 .la (F .nx c) (F .la c) else F1

theorem unlink_ne (F : Sh) (c : ℤ) {f : Fld} (h : f ≠ .hd) (h3 : f ≠ .la) (h4 : f ≠ .nx) :
    unlink F c f = F f := by
  unfold unlink
  split_ifs <;> simp [set_ne _ h, set_ne _ h3, set_ne _ h4]

theorem unlink_hd (F : Sh) (c d : ℤ) : unlink F c .hd d =
    if F .la c = -1 ∧ d = F .dg c then F .nx c else F .hd d := by
  unfold unlink
  split_ifs <;> simp_all [set_apply]

theorem unlink_nx (F : Sh) (c x : ℤ) : unlink F c .nx x =
    if F .la c ≠ -1 ∧ x = F .la c then F .nx c else F .nx x := by
  unfold unlink
  split_ifs <;> simp_all [set_apply]

theorem unlink_la (F : Sh) (c x : ℤ) : unlink F c .la x =
    if F .nx c ≠ -1 ∧ x = F .nx c then F .la c else F .la x := by
  unfold unlink
  split_ifs <;> simp_all [set_apply]

theorem DL.del (h : DL n F S rk) {c : ℤ} (hc : S c) :
    DL n (unlink F c) (fun x => S x ∧ x ≠ c) rk := by
  have hg := h.rg c hc
  have e2 : unlink F c .dg = F .dg := unlink_ne F c (by decide) (by decide) (by decide)
  have hn1 : ∀ x, S x → x ≠ -1 := fun x hx => by have := h.rg x hx; omega
  have hpc := h.pv c hc
  have hnc := h.nx c hc
  have hself : F .la c ≠ c := by
    intro e
    rcases hpc with ⟨a, _⟩ | ⟨_, _, _, d⟩
    · omega
    · rw [e] at d; omega
  have hself4 : F .nx c ≠ c := by
    intro e
    rcases hnc with a | ⟨_, b, _⟩
    · omega
    · rw [e] at b; exact hself b
  constructor
  · intro x hx; rw [e2]; exact h.rg x hx.1
  · intro d h0 h1
    rw [unlink_hd]
    split_ifs with hh
    · rcases hnc with a | ⟨a, b, c'⟩
      · exact Or.inl a
      · refine Or.inr ⟨⟨a, hself4⟩, ?_, ?_⟩
        · rw [e2, c']; exact hh.2.symm
        · rw [unlink_la, if_pos ⟨hn1 _ a, rfl⟩]; exact hh.1
    · rcases h.hd d h0 h1 with a | ⟨a, b, c'⟩
      · exact Or.inl a
      · have hne : F .hd d ≠ c := by
          intro e; rw [e] at b c'; exact hh ⟨c', b.symm⟩
        refine Or.inr ⟨⟨a, hne⟩, by rw [e2]; exact b, ?_⟩
        rw [unlink_la, if_neg]
        · exact c'
        · rintro ⟨h4, e⟩
          rcases hnc with a' | ⟨_, b', _⟩
          · exact h4 a'
          · rw [← e, c'] at b'; omega
  · intro x ⟨hx, hxc⟩
    rw [e2, unlink_la]
    have hgx := h.rg x hx
    split_ifs with hh
    · obtain ⟨h4, e⟩ := hh
      rcases hnc with a' | ⟨a', b', c'⟩
      · exact absurd a' h4
      · rw [← e] at a' b' c'
        rcases hpc with ⟨a, b⟩ | ⟨a, b, d, f⟩
        · refine Or.inl ⟨a, ?_⟩
          rw [unlink_hd, if_pos ⟨a, c'⟩, e]
        · refine Or.inr ⟨⟨a, hself⟩, ?_, ?_, ?_⟩
          · rw [unlink_nx, if_pos ⟨hn1 _ a, rfl⟩, e]
          · rw [d, c']
          · rcases h.pv x hx with ⟨u, _⟩ | ⟨_, _, _, u⟩
            · omega
            · rw [b'] at u; omega
    · have hnot : F .la x ≠ c := by
        intro e
        rcases h.pv x hx with ⟨u, _⟩ | ⟨_, u, _, _⟩
        · omega
        · rw [e] at u; exact hh ⟨by rw [u]; exact hn1 _ hx, u.symm⟩
      rcases h.pv x hx with ⟨a, b⟩ | ⟨a, b, d, f⟩
      · refine Or.inl ⟨a, ?_⟩
        rw [unlink_hd, if_neg]
        · exact b
        · rintro ⟨u, v⟩
          rcases hpc with ⟨u', v'⟩ | ⟨u', _⟩
          · rw [v, v'] at b; exact hxc b.symm
          · exact hn1 _ u' u
      · refine Or.inr ⟨⟨a, hnot⟩, ?_, d, f⟩
        rw [unlink_nx, if_neg]
        · exact b
        · rintro ⟨u, v⟩
          rcases hpc with ⟨u', v'⟩ | ⟨_, u', _⟩
          · exact u u'
          · rw [← v, b] at u'; exact hxc u'
  · intro x ⟨hx, hxc⟩
    rw [e2, unlink_nx]
    split_ifs with hh
    · obtain ⟨h3, e⟩ := hh
      rcases hpc with ⟨u, _⟩ | ⟨a, b, d, f⟩
      · exact absurd u h3
      · rcases hnc with a' | ⟨a', b', c'⟩
        · exact Or.inl a'
        · refine Or.inr ⟨⟨a', hself4⟩, ?_, ?_⟩
          · rw [unlink_la, if_pos ⟨hn1 _ a', rfl⟩, e]
          · rw [c', ← d, e]
    · have hnot : F .nx x ≠ c := by
        intro e
        rcases h.nx x hx with u | ⟨_, u, _⟩
        · rw [e] at u; omega
        · rw [e] at u; exact hh ⟨by rw [u]; exact hn1 _ hx, u.symm⟩
      rcases h.nx x hx with a | ⟨a, b, d⟩
      · exact Or.inl a
      · refine Or.inr ⟨⟨a, hnot⟩, ?_, d⟩
        rw [unlink_la, if_neg]
        · exact b
        · rintro ⟨u, v⟩
          rcases hnc with u' | ⟨_, u', _⟩
          · exact u u'
          · rw [← v, b] at u'; exact hxc u'

/-- Put `c` at the front of the list `d`. -/
def link (F : Sh) (c d : ℤ) : Sh :=
  let F1 := set (set F .la c (-1)) .nx c (F .hd d)
  set (if F .hd d ≠ -1 then set F1 .la (F .hd d) c else F1) .hd d c

theorem link_ne (F : Sh) (c d : ℤ) {f : Fld} (h : f ≠ .hd) (h3 : f ≠ .la) (h4 : f ≠ .nx) :
    link F c d f = F f := by
  unfold link
  split_ifs <;> simp [set_ne _ h, set_ne _ h3, set_ne _ h4]

theorem link_hd (F : Sh) (c d x : ℤ) : link F c d .hd x = if x = d then c else F .hd x := by
  unfold link
  split_ifs <;> simp_all [set_apply]

theorem link_nx (F : Sh) (c d x : ℤ) : link F c d .nx x = if x = c then F .hd d else F .nx x := by
  unfold link
  split_ifs <;> simp_all [set_apply]

theorem link_la (F : Sh) (c d x : ℤ) : link F c d .la x =
    if F .hd d ≠ -1 ∧ x = F .hd d then c else if x = c then -1 else F .la x := by
  unfold link
  split_ifs <;> simp_all [set_apply]

theorem DL.ins (h : DL n F S rk) {c : ℤ} (hc : ¬ S c) (h0 : 0 ≤ c) (h1 : c < n)
    (h20 : 0 ≤ F .dg c) (h21 : F .dg c < n) :
    DL n (link F c (F .dg c)) (fun x => S x ∨ x = c) (fun x => if x = c then 0 else rk x + 1) := by
  have e2 : link F c (F .dg c) .dg = F .dg := link_ne F c _ (by decide) (by decide) (by decide)
  have hn1 : ∀ x, S x → x ≠ -1 := fun x hx => by have := h.rg x hx; omega
  have hne : ∀ x, S x → x ≠ c := fun x hx e => hc (e ▸ hx)
  have hhd := h.hd (F .dg c) h20 h21
  constructor
  · intro x hx; rw [e2]
    rcases hx with hx | rfl
    · exact h.rg x hx
    · exact ⟨h0, h1, h20, h21⟩
  · intro d hd0 hd1
    rw [link_hd]
    split_ifs with hd
    · refine Or.inr ⟨Or.inr rfl, by rw [e2]; exact hd.symm, ?_⟩
      rw [link_la, if_neg, if_pos rfl]
      rintro ⟨u, v⟩
      rcases hhd with a | ⟨a, _⟩
      · exact u a
      · exact hne _ a v.symm
    · rcases h.hd d hd0 hd1 with a | ⟨a, b, c'⟩
      · exact Or.inl a
      · refine Or.inr ⟨Or.inl a, by rw [e2]; exact b, ?_⟩
        rw [link_la, if_neg, if_neg (hne _ a)]
        · exact c'
        · rintro ⟨u, v⟩
          rcases hhd with a' | ⟨a', b', _⟩
          · exact u a'
          · rw [v, b'] at b; exact hd b.symm
  · intro x hx
    rw [e2, link_la]
    by_cases hxc : x = c
    · subst hxc
      rw [if_neg, if_pos rfl]
      · exact Or.inl ⟨rfl, by rw [link_hd, if_pos rfl]⟩
      · rintro ⟨u, v⟩
        rcases hhd with a | ⟨a, _⟩
        · exact u a
        · exact hne _ a v.symm
    · have hx : S x := by tauto
      by_cases hh : F .hd (F .dg c) ≠ -1 ∧ x = F .hd (F .dg c)
      · rw [if_pos hh]
        refine Or.inr ⟨Or.inr rfl, ?_, ?_, ?_⟩
        · rw [link_nx, if_pos rfl, hh.2]
        · rcases hhd with a' | ⟨a', b', _⟩
          · exact absurd a' hh.1
          · rw [hh.2, b']
        · simp [hxc]
      · rw [if_neg hh, if_neg hxc]
        rcases h.pv x hx with ⟨a, b⟩ | ⟨a, b, d, f⟩
        · refine Or.inl ⟨a, ?_⟩
          rw [link_hd, if_neg]
          · exact b
          · intro e; rw [e] at b; exact hh ⟨by rw [b]; exact hn1 _ hx, b.symm⟩
        · refine Or.inr ⟨Or.inl a, ?_, d, ?_⟩
          · rw [link_nx, if_neg (hne _ a)]; exact b
          · simp [hne _ a, hxc, f]
  · intro x hx
    rw [e2, link_nx]
    by_cases hxc : x = c
    · subst hxc
      rw [if_pos rfl]
      rcases hhd with a | ⟨a, b, d⟩
      · exact Or.inl a
      · refine Or.inr ⟨Or.inl a, ?_, b⟩
        rw [link_la, if_pos ⟨hn1 _ a, rfl⟩]
    · have hx : S x := by tauto
      rw [if_neg hxc]
      rcases h.nx x hx with a | ⟨a, b, d⟩
      · exact Or.inl a
      · refine Or.inr ⟨Or.inl a, ?_, d⟩
        rw [link_la, if_neg, if_neg (hne _ a)]
        · exact b
        · rintro ⟨u, v⟩
          rcases hhd with a' | ⟨a', _, c'⟩
          · exact u a'
          · rw [← v, b] at c'; have := h.rg x hx; omega

/-- A variable in the lists keeps its list from being empty. -/
theorem DL.head_ne (h : DL n F S rk) {c : ℤ} (hc : S c) : F .hd (F .dg c) ≠ -1 := by
  have key : ∀ k : ℕ, ∀ c, S c → rk c = k → F .hd (F .dg c) ≠ -1 := by
    intro k
    induction k using Nat.strong_induction_on with
    | _ k ih =>
      intro c hc hk
      rcases h.pv c hc with ⟨_, b⟩ | ⟨a, _, d, f⟩
      · rw [b]; have := h.rg c hc; omega
      · rw [← d]; exact ih _ (by omega) _ a rfl
  exact key _ c hc rfl


/-- What `insertDeg` does: `Last [c]` is not set. -/
def lnk (F : Sh) (c d : ℤ) : Sh :=
  set (set (if F .hd d ≠ -1 then set F .la (F .hd d) c else F) .nx c (F .hd d)) .hd d c

theorem link_of_lnk (F : Sh) {c d : ℤ} (h : F .hd d ≠ c) : link F c d = set (lnk F c d) .la c (-1) := by
  unfold link lnk
  funext f x
  split_ifs <;> simp only [set_apply] <;> split_ifs <;> simp_all

theorem link_of_lnk' (F : Sh) {c d : ℤ} (h : F .hd d ≠ c) (hl : F .la c = -1) :
    link F c d = lnk F c d := by
  rw [link_of_lnk F h]
  funext f x
  rw [set_apply]
  split_ifs with hh
  · rw [hh.1, hh.2]
    unfold lnk
    split_ifs <;> simp only [set_apply] <;> split_ifs <;> simp_all
  · rfl

theorem insertDeg_spec (h : Rm n Al L s F) {c d : ℤ} (h0 : 0 ≤ c) (h1 : c < n) (hd0 : 0 ≤ d)
    (hd1 : d < n) (hp : F .hd d = -1 ∨ (0 ≤ F .hd d ∧ F .hd d < n)) :
    ∃ s', insertDeg c d s = .ok s' ∧ Rm n Al L s' (lnk F c d) := by
  unfold insertDeg lnk
  rw [h.rdn .hd (by decide) hd0 hd1, ok_bind]
  by_cases hh : F .hd d ≠ -1
  · rw [if_pos hh, if_pos hh]
    have hp' : 0 ≤ F .hd d ∧ F .hd d < n := by tauto
    obtain ⟨s1, e1, g1⟩ := h.wrn .la (by decide) hp'.1 hp'.2 c
    rw [e1, ok_bind]
    obtain ⟨s2, e2, g2⟩ := g1.wrn .nx (by decide) h0 h1 (F .hd d)
    rw [e2, ok_bind]
    exact g2.wrn .hd (by decide) hd0 hd1 c
  · rw [if_neg hh, if_neg hh, pure_bind']
    obtain ⟨s2, e2, g2⟩ := h.wrn .nx (by decide) h0 h1 (F .hd d)
    rw [e2, ok_bind]
    exact g2.wrn .hd (by decide) hd0 hd1 c

theorem removeDeg_spec (h : Rm n Al L s F) {c : ℤ} (h0 : 0 ≤ c) (h1 : c < n)
    (h20 : 0 ≤ F .dg c) (h21 : F .dg c < n)
    (h3 : F .la c = -1 ∨ (0 ≤ F .la c ∧ F .la c < n))
    (h4 : F .nx c = -1 ∨ (0 ≤ F .nx c ∧ F .nx c < n)) :
    ∃ s' F', removeDeg c s = .ok s' ∧ Rm n Al L s' F' ∧ F' = unlink F c := by
  unfold removeDeg
  rw [h.rdn .la (by decide) h0 h1, ok_bind, h.rdn .nx (by decide) h0 h1, ok_bind]
  have key : ∀ (s1 : Mem) (F1 : Sh), Rm n Al L s1 F1 → F1 .dg = F .dg →
      ∃ s', (if F .la c ≠ -1 then s1.wr .nx (F .la c) (F .nx c) else do
        let d ← s1.rd .dg c
        s1.wr .hd d (F .nx c)) = .ok s' ∧ Rm n Al L s'
          (if F .la c = -1 then set F1 .hd (F .dg c) (F .nx c) else set F1 .nx (F .la c) (F .nx c)) := by
    intro s1 F1 g1 e
    by_cases hp : F .la c = -1
    · rw [if_neg (by tauto), if_pos hp, g1.rdn .dg (by decide) h0 h1, ok_bind, e]
      exact g1.wrn .hd (by decide) h20 h21 _
    · rw [if_pos hp, if_neg hp]
      have : 0 ≤ F .la c ∧ F .la c < n := by tauto
      exact g1.wrn .nx (by decide) this.1 this.2 _
  by_cases hn : F .nx c ≠ -1
  · rw [if_pos hn]
    have : 0 ≤ F .nx c ∧ F .nx c < n := by tauto
    obtain ⟨s1, e1, g1⟩ := h.wrn .la (by decide) this.1 this.2 (F .la c)
    rw [e1, ok_bind]
    obtain ⟨s2, e2, g2⟩ := key s1 _ g1 (set_ne _ (by decide) _ _)
    refine ⟨s2, _, e2, g2, ?_⟩
    unfold unlink
    dsimp only
    rw [if_pos hn]
    funext f x
    split_ifs <;> simp only [set_apply] <;> split_ifs <;> simp_all
  · rw [if_neg hn, pure_bind']
    obtain ⟨s2, e2, g2⟩ := key s _ h rfl
    refine ⟨s2, _, e2, g2, ?_⟩
    unfold unlink
    dsimp only
    rw [if_neg hn]

/-- The scan for a nonempty list succeeds if there is one. -/
theorem scanMin_spec (h : Rm n Al L s F) {d : ℤ} (hd : d < n) (hne : F .hd d ≠ -1) :
    ∀ (fuel : ℕ) (ms : ℤ), 0 ≤ ms → ms ≤ d → (d - ms).toNat < fuel →
      (∀ x, 0 ≤ x → x < ms → F .hd x = -1) →
      ∃ ms', scanMin n fuel ms s = .ok (ms', F .hd ms') ∧ ms' ≤ d ∧ ms ≤ ms' ∧ F .hd ms' ≠ -1 ∧
        ∀ x, 0 ≤ x → x < ms' → F .hd x = -1
  | 0, _, _, _, hf, _ => by omega
  | fuel + 1, ms, h0, h1, hf, hb => by
    unfold scanMin
    rw [if_pos (by omega), h.rdn .hd (by decide) h0 (by omega), ok_bind]
    by_cases hh : F .hd ms = -1
    · have : ms < d := by
        rcases lt_or_eq_of_le h1 with a | a
        · exact a
        · rw [a] at hh; exact absurd hh hne
      rw [if_neg (by tauto)]
      obtain ⟨ms', a, b, c, d', e⟩ := scanMin_spec h hd hne fuel (ms + 1) (by omega) (by omega)
        (by omega) (by
          intro x hx0 hx1
          by_cases hx : x = ms
          · rw [hx]; exact hh
          · exact hb x hx0 (by omega))
      exact ⟨ms', a, b, by omega, d', e⟩
    · rw [if_pos (by tauto)]
      exact ⟨ms, rfl, h1, le_rfl, hh, hb⟩

end Slip.Amd
