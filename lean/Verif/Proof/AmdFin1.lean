import Verif.Proof.AmdInit

/-!
# AMD: after the last pivot; the paths to the principal variables are compressed
-/

namespace Slip.Amd

variable [Arith]

/-- The assembly tree after the selection of the pivots: `pe` is the parent. -/
structure Fo (n : ℤ) (pe ν root : ℤ → ℤ) (t : ℤ → ℕ) : Prop where
  nn : ∀ x, 0 ≤ x → x < n → 0 ≤ ν x
  rr : ∀ x, 0 ≤ x → x < n → 0 ≤ root x ∧ root x < n
  a : ∀ x, 0 ≤ x → x < n → ν x ≠ 0 → root x = x
  cd : ∀ x, 0 ≤ x → x < n → ν x ≠ 0 → (((Finset.Ico 0 n).filter (root · = x)).card : ℤ) = ν x
  b : ∀ x, 0 ≤ x → x < n → ν x = 0 → (pe x = -1 ∧ root x = x) ∨
    (0 ≤ pe x ∧ pe x < n ∧ root (pe x) = root x ∧ ν (root x) ≠ 0 ∧ t x < t (pe x))
  c : ∀ x, 0 ≤ x → x < n → ν x ≠ 0 → pe x = -1 ∨ (0 ≤ pe x ∧ pe x < n ∧ ν (pe x) ≠ 0 ∧ t x < t (pe x))

variable {n nz Al L : ℤ} {s : Mem} {F : Sh}

/-- When all pivots are eliminated. -/
theorem LI.done {z : Ord} (h : LI n nz Al z F) (hn : n ≤ z.nel) :
    (∀ x, 0 ≤ x → x < n → F .pe x < 0) ∧ (∀ x, 0 ≤ x → x < n → F .nv x ≠ 0 → F .el x ≤ -2) := by
  have hV : ∀ x, ¬ LV n F x := by
    intro x hx
    have h1 := psum_le_one (f := F .nv) hx hx.1 hx.2.1 (fun y _ _ hy => hy.2.2.1.le)
    have h2 := h.nl
    have h3 := hx.2.2.1
    omega
  have hE : ∀ x, ¬ LE n F x := by
    intro x hx
    obtain ⟨i, hi, _⟩ := h.gr.ne x hx
    exact hV i hi
  refine ⟨?_, ?_⟩
  · intro x x0 x1
    by_contra hc
    rcases (h.o x x0 x1).2 (by omega) with h' | h'
    · exact hV x h'
    · exact hE x h'
  · intro x x0 x1 hx
    obtain ⟨root, t, ht⟩ := h.tr
    have h1 := ht.nn x x0 x1
    have h2 := h.e1 x x0 x1
    by_contra hc
    by_cases he : F .el x = -1
    · exact hx (h2.1 he)
    · exact hV x ⟨x0, x1, by omega, by omega⟩

theorem Tr.fo {pe el ν root pe' : ℤ → ℤ} {t : ℤ → ℕ} (h : Tr n pe el ν root t)
    (hp : ∀ x, 0 ≤ x → x < n → pe x < 0) (hpe : ∀ x, 0 ≤ x → x < n → pe' x = flip (pe x)) :
    Fo n pe' ν root t := by
  refine ⟨h.nn, h.rr, h.a, h.cd, ?_, ?_⟩
  · intro x x0 x1 hx
    rw [hpe x x0 x1]
    rcases h.b x x0 x1 hx with ⟨a, b⟩ | ⟨p, a, p0, p1, b, c, d⟩
    · refine Or.inl ⟨?_, b⟩
      rw [a]; rfl
    · have : flip (pe x) = p := by rw [a]; unfold flip; ring
      rw [this]
      exact Or.inr ⟨p0, p1, b, c, d⟩
  · intro x x0 x1 hx
    rw [hpe x x0 x1]
    by_cases he : pe x = -1
    · left; rw [he]; rfl
    · obtain ⟨p, a, p0, p1, b, _, d⟩ := h.c x x0 x1 hx (by have := hp x x0 x1; omega)
      have : flip (pe x) = p := by rw [a]; unfold flip; ring
      rw [this]
      exact Or.inr ⟨p0, p1, b, d⟩

theorem unflip_spec (hR : Rm n Al L s F) (hn : 0 ≤ n)
    (hb : ∀ x, 0 ≤ x → x < n → (-n - 2 ≤ F .pe x ∧ F .pe x < n) ∧ -n - 2 ≤ F .el x ∧ F .el x < n) :
    wp (unflip n s) (fun s' => ∃ F', Rm n Al L s' F' ∧
      (∀ x, 0 ≤ x → x < n → F' .pe x = flip (F .pe x) ∧ F' .el x = flip (F .el x)) ∧
      ∀ f, f ≠ .pe → f ≠ .el → F' f = F f) (fun _ => False) := by
  unfold unflip
  refine wb (wp_mono (wp_forRange (fun k (s : Mem) => ∃ F', Rm n Al L s F' ∧
    (∀ x, 0 ≤ x → x < n → F' .pe x = if x < k then flip (F .pe x) else F .pe x) ∧
      ∀ f, f ≠ .pe → F' f = F f) hn ?_ ?_) ?_ (fun _ h => h))
  · exact ⟨F, hR, fun x x0 _ => by rw [if_neg (by omega)], fun _ _ => rfl⟩
  · rintro k s1 k0 k1 ⟨F1, g, h1, h2⟩
    rw [g.rdn .pe (by decide) k0 k1, ok_bind, h1 k k0 k1, if_neg (lt_irrefl k)]
    have := hb k k0 k1
    cks g
    obtain ⟨s2, e2, g2⟩ := g.wrn .pe (by decide) k0 k1 (flip (F .pe k))
    rw [e2]
    refine wok ⟨_, g2, ?_, ?_⟩
    · intro x x0 x1
      by_cases hx : x = k
      · subst hx; rw [set_at, if_pos (by omega)]
      · rw [set_nei _ _ _ _ hx, h1 x x0 x1]
        by_cases hk : x < k
        · rw [if_pos hk, if_pos (by omega)]
        · rw [if_neg hk, if_neg (by omega)]
    · intro f hf; rw [set_ne _ hf]; exact h2 f hf
  rintro s1 ⟨F1, g, h1, h2⟩
  refine wp_mono (wp_forRange (fun k (s : Mem) => ∃ F', Rm n Al L s F' ∧
    (∀ x, 0 ≤ x → x < n → F' .el x = if x < k then flip (F .el x) else F .el x) ∧
      ∀ f, f ≠ .el → F' f = F1 f) hn ?_ ?_) ?_ (fun _ h => h)
  · exact ⟨F1, g, fun x x0 _ => by rw [if_neg (by omega), h2 _ (by decide)], fun _ _ => rfl⟩
  · rintro k s1 k0 k1 ⟨F1, g, h1, h2⟩
    rw [g.rdn .el (by decide) k0 k1, ok_bind, h1 k k0 k1, if_neg (lt_irrefl k)]
    have := hb k k0 k1
    cks g
    obtain ⟨s2, e2, g2⟩ := g.wrn .el (by decide) k0 k1 (flip (F .el k))
    rw [e2]
    refine wok ⟨_, g2, ?_, ?_⟩
    · intro x x0 x1
      by_cases hx : x = k
      · subst hx; rw [set_at, if_pos (by omega)]
      · rw [set_nei _ _ _ _ hx, h1 x x0 x1]
        by_cases hk : x < k
        · rw [if_pos hk, if_pos (by omega)]
        · rw [if_neg hk, if_neg (by omega)]
    · intro f hf; rw [set_ne _ hf]; exact h2 f hf
  · rintro s2 ⟨F2, g2, h3, h4⟩
    refine ⟨F2, g2, ?_, ?_⟩
    · intro x x0 x1
      rw [h4 _ (by decide), h1 x x0 x1, if_pos x1, h3 x x0 x1, if_pos x1]
      exact ⟨rfl, rfl⟩
    · intro f f1 f2; rw [h4 _ f2, h2 _ f1]

/-! ## Paths -/

/-- The number of nodes above `x`. -/
def mea (n : ℤ) (t : ℤ → ℕ) (x : ℤ) : ℕ := ((Finset.Ico 0 n).filter (t x < t ·)).card

theorem mea_lt {t : ℤ → ℕ} {x y : ℤ} (h : t x < t y) (y0 : 0 ≤ y) (y1 : y < n) : mea n t y < mea n t x := by
  unfold mea
  apply Finset.card_lt_card
  rw [Finset.ssubset_iff_of_subset]
  · refine ⟨y, ?_, ?_⟩
    · rw [Finset.mem_filter, Finset.mem_Ico]; exact ⟨⟨y0, y1⟩, h⟩
    · rw [Finset.mem_filter]; exact fun h' => lt_irrefl _ h'.2
  · intro z hz
    rw [Finset.mem_filter] at hz ⊢
    exact ⟨hz.1, h.trans hz.2⟩

theorem mea_le (t : ℤ → ℕ) (x : ℤ) : mea n t x ≤ n.toNat := by
  unfold mea
  refine le_trans (Finset.card_filter_le _ _) ?_
  rw [Int.card_Ico]; simp

variable {pe ν root : ℤ → ℤ} {t : ℤ → ℕ}

/-- A node that is absorbed lies below its principal variable. -/
theorem Fo.up (h : Fo n pe ν root t) {x : ℤ} (x0 : 0 ≤ x) (x1 : x < n) (hx : ν x = 0) (hr : ν (root x) ≠ 0) :
    t x < t (root x) := by
  have key : ∀ m : ℕ, ∀ x, 0 ≤ x → x < n → ν x = 0 → ν (root x) ≠ 0 → mea n t x = m → t x < t (root x) := by
    intro m
    induction m using Nat.strong_induction_on with
    | _ m ih =>
      intro x x0 x1 hx hr hm
      rcases h.b x x0 x1 hx with ⟨_, e⟩ | ⟨p0, p1, e, _, ht⟩
      · rw [e] at hr; exact absurd hx hr
      · by_cases hp : ν (pe x) = 0
        · have := ih _ (by rw [← hm]; exact mea_lt ht p0 p1) (pe x) p0 p1 hp (by rw [e]; exact hr) rfl
          rw [e] at this; omega
        · have := h.a _ p0 p1 hp
          rw [← e, this]; exact ht
  exact key _ x x0 x1 hx hr rfl

theorem findElem_spec (hR : Rm n Al L s F) (h : Fo n (F .pe) (F .nv) root t) : ∀ (fuel : ℕ) (j : ℤ), 0 ≤ j → j < n →
    F .nv (root j) ≠ 0 → mea n t j < fuel → findElem s fuel j = .ok (root j)
  | 0, _, _, _, _, hf => by omega
  | fuel + 1, j, j0, j1, hr, hf => by
    unfold findElem
    rw [hR.rdn .nv (by decide) j0 j1, ok_bind]
    by_cases hj : F .nv j = 0
    · rw [if_pos hj, hR.rdn .pe (by decide) j0 j1, ok_bind]
      rcases h.b j j0 j1 hj with ⟨_, e⟩ | ⟨p0, p1, e, _, ht⟩
      · rw [e] at hr; exact absurd hj hr
      · rw [findElem_spec hR h fuel _ p0 p1 (by rw [e]; exact hr) (by have := mea_lt ht p0 p1; omega), e]
    · rw [if_neg hj, h.a j j0 j1 hj]; rfl

theorem Fo.point (h : Fo n (F .pe) (F .nv) root t) {j : ℤ} (j0 : 0 ≤ j) (j1 : j < n) (hj : F .nv j = 0)
    (hr : F .nv (root j) ≠ 0) : Fo n (set F .pe j (root j) .pe) (set F .pe j (root j) .nv) root t := by
  rw [set_ne F (show Fld.nv ≠ .pe by decide)]
  refine ⟨h.nn, h.rr, h.a, h.cd, ?_, ?_⟩
  · intro x x0 x1 hx
    by_cases hxj : x = j
    · subst hxj
      rw [set_at]
      have := h.rr x x0 x1
      exact Or.inr ⟨this.1, this.2, h.a _ this.1 this.2 hr, hr, h.up x0 x1 hx hr⟩
    · rw [set_nei _ _ _ _ hxj]; exact h.b x x0 x1 hx
  · intro x x0 x1 hx
    have hxj : x ≠ j := by rintro rfl; exact hx hj
    rw [set_nei _ _ _ _ hxj]; exact h.c x x0 x1 hx

theorem compress_spec : ∀ (fuel : ℕ) (j : ℤ) (s : Mem) (F : Sh), Rm n Al L s F → Fo n (F .pe) (F .nv) root t →
    0 ≤ j → j < n → F .nv (root j) ≠ 0 → mea n t j < fuel →
    ∃ s' F', compress (root j) fuel j s = .ok s' ∧ Rm n Al L s' F' ∧ Fo n (F' .pe) (F' .nv) root t ∧
      (∀ f, f ≠ .pe → F' f = F f) ∧ (∀ x, F' .pe x = F .pe x ∨ (F .nv x = 0 ∧ F' .pe x = root x)) ∧
      (F .nv j = 0 → F' .pe j = root j)
  | 0, _, _, _, _, _, _, _, _, hf => by omega
  | fuel + 1, j, s, F, hR, h, j0, j1, hr, hf => by
    unfold compress
    rw [hR.rdn .nv (by decide) j0 j1, ok_bind]
    by_cases hj : F .nv j = 0
    · rw [if_pos hj, hR.rdn .pe (by decide) j0 j1, ok_bind]
      obtain ⟨s1, e1, g1⟩ := hR.wrn .pe (by decide) j0 j1 (root j)
      rw [e1, ok_bind]
      rcases h.b j j0 j1 hj with ⟨_, e⟩ | ⟨p0, p1, e, _, ht⟩
      · rw [e] at hr; exact absurd hj hr
      · obtain ⟨s2, F2, e2, g2, h2, h3, h4, h5⟩ := compress_spec fuel (F .pe j) s1 _ g1 (h.point j0 j1 hj hr) p0 p1
          (by rw [e, set_ne _ (by decide)]; exact hr) (by have := mea_lt ht p0 p1; omega)
        rw [e] at e2
        have hpj : F2 .pe j = root j := by
          rcases h4 j with h | ⟨_, h⟩
          · rw [h, set_at]
          · exact h
        refine ⟨s2, F2, e2, g2, h2, ?_, ?_, ?_⟩
        · intro f hf; rw [h3 f hf, set_ne _ hf]
        · intro x
          by_cases hx : x = j
          · subst hx; exact Or.inr ⟨hj, hpj⟩
          · have := h4 x
            rw [set_nei _ _ _ _ hx, set_ne _ (by decide)] at this
            exact this
        · intro _; exact hpj
    · rw [if_neg hj]
      exact ⟨s, F, rfl, hR, h, fun _ _ => rfl, fun _ => Or.inl rfl, fun h' => absurd h' hj⟩

theorem compressAll_spec (hR : Rm n Al L s F) (h : Fo n (F .pe) (F .nv) root t) (hn : 0 ≤ n) :
    wp (compressAll n s) (fun s' => ∃ F', Rm n Al L s' F' ∧ Fo n (F' .pe) (F' .nv) root t ∧
      (∀ f, f ≠ .pe → F' f = F f) ∧
      ∀ x, 0 ≤ x → x < n → F .nv x = 0 → (F' .pe x = -1 ∧ root x = x) ∨
        (F' .pe x = root x ∧ F .nv (root x) ≠ 0)) (fun _ => False) := by
  unfold compressAll
  refine wp_forRange (fun k (s : Mem) => ∃ F', Rm n Al L s F' ∧ Fo n (F' .pe) (F' .nv) root t ∧
      (∀ f, f ≠ .pe → F' f = F f) ∧
      ∀ x, 0 ≤ x → x < k → F .nv x = 0 → (F' .pe x = -1 ∧ root x = x) ∨
        (F' .pe x = root x ∧ F .nv (root x) ≠ 0)) hn ?_ ?_
  · exact ⟨F, hR, h, fun _ _ => rfl, fun x x0 x1 => by omega⟩
  · rintro i s1 i0 i1 ⟨F1, g1, h1, h2, h3⟩
    rw [g1.rdn .nv (by decide) i0 i1, ok_bind]
    have env : F1 .nv = F .nv := h2 _ (by decide)
    by_cases hi : F1 .nv i = 0
    · rw [if_pos hi, g1.rdn .pe (by decide) i0 i1, ok_bind]
      by_cases hp : F1 .pe i = -1
      · rw [if_pos hp]
        refine wpr ⟨F1, g1, h1, h2, fun x x0 x1 hx => ?_⟩
        by_cases hxi : x = i
        · subst hxi
          rcases h1.b x x0 i1 hi with a | a
          · exact Or.inl a
          · omega
        · exact h3 x x0 (by omega) hx
      · rw [if_neg hp]
        rcases h1.b i i0 i1 hi with a | ⟨p0, p1, e, hr, ht⟩
        · exact absurd a.1 hp
        · have hm := mea_le (n := n) t (F1 .pe i)
          have hm2 := mea_le (n := n) t i
          rw [findElem_spec g1 h1 _ _ p0 p1 (by rw [e]; exact hr) (by omega), ok_bind, e]
          obtain ⟨s2, F2, e2, g2, h4, h5, h6, h7⟩ := compress_spec (n.toNat + 1) i s1 F1 g1 h1 i0 i1 hr (by omega)
          rw [e2]
          refine wok ⟨F2, g2, h4, ?_, ?_⟩
          · intro f hf; rw [h5 f hf, h2 f hf]
          · intro x x0 x1 hx
            by_cases hxi : x = i
            · subst hxi; exact Or.inr ⟨h7 hi, by rw [← env]; exact hr⟩
            · rcases h6 x with a | ⟨_, a⟩
              · rw [a]; exact h3 x x0 (by omega) hx
              · rcases h3 x x0 (by omega) hx with b | b
                · left
                  have h8 := h4.b x x0 (by omega) (by rw [h5 _ (by decide), env]; exact hx)
                  rcases h8 with c | c
                  · exact c
                  · have := c.2.2.2.1
                    rw [b.2, h5 _ (by decide), env] at this
                    exact absurd hx this
                · exact Or.inr ⟨a, b.2⟩
    · rw [if_neg hi]
      refine wpr ⟨F1, g1, h1, h2, fun x x0 x1 hx => ?_⟩
      have hxi : x ≠ i := by rintro rfl; rw [env] at hi; exact hi hx
      exact h3 x x0 (by omega) hx

end Slip.Amd
