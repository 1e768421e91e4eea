import Verif.Proof.AmdBase

/-!
# AMD: the garbage collection
-/

namespace Slip.Amd

open Slip.Colamd (seg mem_seg seg_congr seg_succ length_seg seg_zero wp_seg csum)

variable [Arith]

variable {n Al L : ℤ} {s : Mem} {F : Sh}

/-- The objects `O` lie in `Iw` below `top` and do not overlap. -/
structure Lay (n top : ℤ) (F : Sh) (O : ℤ → Prop) : Prop where
  rg : ∀ x, O x → 0 ≤ x ∧ x < n
  pos : ∀ x, O x → 0 ≤ F .pe x ∧ 0 < F .ln x ∧ F .pe x + F .ln x ≤ top
  dj : ∀ x y, O x → O y → x ≠ y → F .pe x + F .ln x ≤ F .pe y ∨ F .pe y + F .ln y ≤ F .pe x

/-- The state after the objects below `k` have been marked. -/
structure Marked (F : Sh) (O : ℤ → Prop) (k : ℤ) (F1 : Sh) : Prop where
  mkd : ∀ j, O j → j < k → F1 .pe j = F .iw (F .pe j) ∧ F1 .iw (F .pe j) = flip j
  un : ∀ j, ¬ (O j ∧ j < k) → F1 .pe j = F .pe j
  iw : ∀ p, (∀ j, O j → j < k → F .pe j ≠ p) → F1 .iw p = F .iw p
  oth : ∀ f, f ≠ .pe → f ≠ .iw → F1 f = F f

theorem gcMark_spec {O : ℤ → Prop} {top : ℤ} (h : Rm n Al L s F) (hl : Lay n top F O) (hn : 0 ≤ n)
    (ht : top ≤ L) (hO : ∀ x, 0 ≤ x → x < n → (O x ↔ 0 ≤ F .pe x)) :
    wp (gcMark n s) (fun s' => ∃ F1, Rm n Al L s' F1 ∧ Marked F O n F1) (fun _ => False) := by
  unfold gcMark
  refine wp_forRange (fun k (s : Mem) => ∃ F1, Rm n Al L s F1 ∧ Marked F O k F1) hn ?_ ?_
  · refine ⟨F, h, ⟨fun j hj hk => ?_, fun _ _ => rfl, fun _ _ => rfl, fun _ _ _ => rfl⟩⟩
    have := (hl.rg j hj).1
    omega
  · rintro k s h0 h1 ⟨F1, hR, M⟩
    have hpe : F1 .pe k = F .pe k := M.un k (by omega)
    rw [hR.rdn .pe (by decide) h0 h1, ok_bind, hpe]
    by_cases hk : F .pe k ≥ 0
    · have hOk : O k := (hO k h0 h1).2 hk
      obtain ⟨_, p2, p3⟩ := hl.pos k hOk
      rw [if_pos hk]
      have hiw : F1 .iw (F .pe k) = F .iw (F .pe k) := M.iw _ fun j hj hjk e => by
        obtain ⟨_, q2, _⟩ := hl.pos j hj
        have := hl.dj j k hj hOk (by omega)
        omega
      rw [hR.rdi hk (by omega), ok_bind]
      obtain ⟨s1, e1, g1⟩ := hR.wrn .pe (by decide) h0 h1 (F1 .iw (F .pe k))
      rw [e1, ok_bind]
      cks g1
      obtain ⟨s2, e2, g2⟩ := g1.wri hk (by omega) (flip k)
      rw [e2]
      refine wok ⟨_, g2, ?_, ?_, ?_, ?_⟩
      · intro j hj hjk
        by_cases e : j = k
        · subst e
          rw [set_ne _ (by decide), set_at, set_at]
          exact ⟨hiw, rfl⟩
        · have := M.mkd j hj (by omega)
          rw [set_ne _ (by decide), set_nei _ _ _ _ e, set_nei, set_ne _ (by decide)]
          · exact this
          · have h1 := hl.dj j k hj hOk e
            have h2 := hl.pos j hj
            omega
      · intro j hj
        rw [set_ne _ (by decide), set_nei]
        · exact M.un j fun h' => hj ⟨h'.1, by omega⟩
        · rintro rfl; exact hj ⟨hOk, by omega⟩
      · intro p hp
        rw [set_nei _ _ _ _ (Ne.symm (hp k hOk (by omega))), set_ne _ (by decide)]
        exact M.iw p fun j hj hjk => hp j hj (by omega)
      · intro f hf1 hf2
        rw [set_ne _ hf2, set_ne _ hf1]; exact M.oth f hf1 hf2
    · have hOk : ¬ O k := fun h' => hk ((hO k h0 h1).1 h')
      rw [if_neg hk]
      refine wpr ⟨F1, hR, fun j hj hjk => M.mkd j hj ?_, fun j hj => M.un j fun h' => hj ⟨h'.1, by omega⟩,
        fun p hp => M.iw p fun j hj hjk => hp j hj (by omega), M.oth⟩
      have : j ≠ k := fun e => hOk (e ▸ hj)
      omega

/-- The state in the middle of the moves: the objects before `psrc` have been moved. -/
structure Moving (n : ℤ) (F : Sh) (O : ℤ → Prop) (F1 : Sh) (psrc pdst : ℤ) (F2 : Sh) : Prop where
  le : 0 ≤ pdst ∧ pdst ≤ psrc
  sum : pdst ≤ psum n (fun x => O x ∧ F .pe x < psrc) (F .ln)
  un : ∀ j, ¬ (O j ∧ F .pe j < psrc) → F2 .pe j = F1 .pe j
  iw : ∀ p, psrc ≤ p → F2 .iw p = F1 .iw p
  oth : ∀ f, f ≠ .pe → f ≠ .iw → F2 f = F f
  bd : ∀ x, O x → F .pe x < psrc → F .pe x + F .ln x ≤ psrc
  mv : ∀ x, O x → F .pe x < psrc → 0 ≤ F2 .pe x ∧ F2 .pe x + F .ln x ≤ pdst ∧
    ∀ t, 0 ≤ t → t < F .ln x → F2 .iw (F2 .pe x + t) = F .iw (F .pe x + t)
  dj : ∀ x y, O x → O y → F .pe x < psrc → F .pe y < psrc → x ≠ y →
    F2 .pe x + F .ln x ≤ F2 .pe y ∨ F2 .pe y + F .ln y ≤ F2 .pe x
  nn : ∀ p, 0 ≤ p → p < pdst → ∃ q, 0 ≤ q ∧ q < psrc ∧ F2 .iw p = F .iw q

/-- The inner loop: copy `l` elements downwards. -/
theorem copyDown_spec {F : Sh} (h : Rm n Al L s F) {l psrc pdst : ℤ} (hl : 0 ≤ l) (h0 : 0 ≤ pdst)
    (h1 : pdst ≤ psrc) (hL : psrc + l ≤ L) (hn : 0 ≤ n) :
    wp (forRange 0 l (s, psrc, pdst) fun _ (s, psrc, pdst) => do
          let x ← s.rd .iw psrc
          let s ← s.wr .iw pdst x
          let psrc ← ck (psrc + 1)
          let pdst ← ck (pdst + 1)
          pure (s, psrc, pdst))
      (fun z => z.2.1 = psrc + l ∧ z.2.2 = pdst + l ∧ ∃ F', Rm n Al L z.1 F' ∧
        (∀ t, 0 ≤ t → t < l → F' .iw (pdst + t) = F .iw (psrc + t)) ∧
        (∀ p, p < pdst ∨ psrc + l ≤ p → F' .iw p = F .iw p) ∧ ∀ f, f ≠ .iw → F' f = F f)
      (fun _ => False) := by
  refine wp_post (wp_forRange (fun k (z : Mem × ℤ × ℤ) => z.2.1 = psrc + k ∧ z.2.2 = pdst + k ∧
      ∃ F', Rm n Al L z.1 F' ∧
        (∀ t, 0 ≤ t → t < k → F' .iw (pdst + t) = F .iw (psrc + t)) ∧
        (∀ p, p < pdst ∨ psrc + k ≤ p → F' .iw p = F .iw p) ∧ ∀ f, f ≠ .iw → F' f = F f) hl ?_ ?_)
    fun z hz => hz
  · exact ⟨by simp, by simp, F, h, fun t h0 h1 => by omega, fun _ _ => rfl, fun _ _ => rfl⟩
  · rintro k ⟨s, a, b⟩ hk0 hk1 ⟨ha, hb, F', hR, h2, h3, h4⟩
    dsimp only at ha hb hR ⊢
    subst ha hb
    rw [hR.rdi (by omega) (by omega), ok_bind]
    obtain ⟨s1, e1, g1⟩ := hR.wri (i := pdst + k) (by omega) (by omega) (F' .iw (psrc + k))
    rw [e1, ok_bind]
    cks g1
    cks g1
    refine wpr ⟨by ring, by ring, _, g1, ?_, ?_, ?_⟩
    · intro t ht0 ht1
      by_cases e : t = k
      · rw [e, set_at]; exact h3 _ (by omega)
      · rw [set_nei _ _ _ _ (by omega)]; exact h2 t ht0 (by omega)
    · intro p hp
      rw [set_nei _ _ _ _ (by omega)]; exact h3 p (by omega)
    · intro f hf; rw [set_ne _ hf]; exact h4 f hf

theorem gcMove_spec {O : ℤ → Prop} {top : ℤ} {F1 : Sh} (hl : Lay n top F O)
    (ht : top ≤ L) (M : Marked F O n F1) (hpos : ∀ p, 0 ≤ p → p < top → 0 ≤ F .iw p ∧ F .iw p < n) :
    ∀ (fuel : ℕ) (psrc pdst : ℤ) (s : Mem) (F2 : Sh), psrc ≤ top → (top - psrc).toNat < fuel →
      Rm n Al L s F2 → Moving n F O F1 psrc pdst F2 →
      wp (gcMove (top - 1) fuel psrc pdst s)
        (fun z => ∃ F3, Rm n Al L z.1 F3 ∧ Moving n F O F1 top z.2 F3) (fun _ => False)
  | 0, _, _, _, _, _, hf, _, _ => by omega
  | fuel + 1, psrc, pdst, s, F2, hpt, hf, hR, V => by
    unfold gcMove
    have hle := V.le
    by_cases hh : psrc ≤ top - 1
    · rw [if_pos hh, hR.rdi (by omega) (by omega), ok_bind, V.iw psrc le_rfl]
      dsimp only
      by_cases hob : ∃ j, O j ∧ F .pe j = psrc
      · obtain ⟨j, hj, ej⟩ := hob
        have hjr := hl.rg j hj
        obtain ⟨q1, q2, q3⟩ := hl.pos j hj
        have hmk := M.mkd j hj hjr.2
        have hfl : flip (F1 .iw psrc) = j := by rw [← ej, hmk.2]; unfold flip; ring
        have hpe : F2 .pe j = F .iw psrc := by
          rw [V.un j (by omega), hmk.1, ej]
        cks hR
        rw [hfl]
        cks hR
        rw [if_pos hjr.1, hR.rdn .pe (by decide) hjr.1 hjr.2, ok_bind, hpe]
        obtain ⟨s1, e1, g1⟩ := hR.wri (i := pdst) (by omega) (by omega) (F .iw psrc)
        rw [e1, ok_bind]
        obtain ⟨s2, e2, g2⟩ := g1.wrn .pe (by decide) hjr.1 hjr.2 pdst
        have hln : ∀ f, f ≠ .pe → f ≠ .iw →
            set (set F2 .iw pdst (F .iw psrc)) .pe j pdst f = F f := by
          intro f a b; rw [set_ne _ a, set_ne _ b]; exact V.oth f a b
        rw [e2, ok_bind]
        cks g2
        rw [g2.rdn .ln (by decide) hjr.1 hjr.2, ok_bind, hln .ln (by decide) (by decide)]
        cks g2
        rw [show F .ln j - 2 + 1 = F .ln j - 1 by ring]
        refine wb (wp_post (copyDown_spec g2 (by omega) (by omega) (by omega) (by omega) (by omega)) ?_)
        rintro ⟨s3, a, b⟩ ⟨ha, hb, F3, hR3, c1, c2, c3⟩
        dsimp only at ha hb hR3 ⊢
        subst ha hb
        refine gcMove_spec hl ht M hpos fuel _ _ s3 F3 (by omega) (by omega) hR3 ?_
        have esrc : psrc + 1 + (F .ln j - 1) = psrc + F .ln j := by ring
        have edst : pdst + 1 + (F .ln j - 1) = pdst + F .ln j := by ring
        rw [esrc, edst]
        have hothers : ∀ x, O x → F .pe x < psrc + F .ln j → x = j ∨ F .pe x < psrc := by
          intro x hx hlt
          by_cases e : x = j
          · exact Or.inl e
          · have := hl.dj x j hx hj e
            have := hl.pos x hx
            omega
        have hpe3 : F3 .pe = set (set F2 .iw pdst (F .iw psrc)) .pe j pdst .pe := c3 .pe (by decide)
        have hpej : F3 .pe j = pdst := by rw [hpe3, set_at]
        have hpen : ∀ x, x ≠ j → F3 .pe x = F2 .pe x := by
          intro x hx
          rw [hpe3, set_nei _ _ _ _ hx, set_ne _ (by decide)]
        have hlow : ∀ p, p < pdst → F3 .iw p = F2 .iw p := by
          intro p hp
          rw [c2 p (by omega), set_ne _ (by decide), set_nei _ _ _ _ (by omega)]
        have hnew : ∀ t, 0 ≤ t → t < F .ln j → F3 .iw (pdst + t) = F .iw (psrc + t) := by
          intro t ht0 ht1
          by_cases ht : t = 0
          · subst ht
            rw [add_zero, add_zero, c2 pdst (by omega), set_ne _ (by decide), set_at]
          · have := c1 (t - 1) (by omega) (by omega)
            have e1 : pdst + 1 + (t - 1) = pdst + t := by ring
            have e2 : psrc + 1 + (t - 1) = psrc + t := by ring
            rw [e1, e2, set_ne _ (by decide), set_nei _ _ _ _ (by omega), V.iw _ (by omega)] at this
            rw [this]
            apply M.iw
            intro y hy _ e
            by_cases exy : y = j
            · rw [exy, ej] at e; omega
            · have := hl.dj j y hj hy (Ne.symm exy)
              have := hl.pos y hy
              omega
        constructor
        · omega
        · have hs := V.sum
          rw [psum_erase (O := fun x => O x ∧ F .pe x < psrc + F .ln j) (e := j) ⟨hj, by omega⟩ hjr.1
            hjr.2]
          have : psum n (fun x => O x ∧ F .pe x < psrc) (F .ln) ≤
              psum n (fun x => (O x ∧ F .pe x < psrc + F .ln j) ∧ x ≠ j) (F .ln) :=
            psum_mono (fun x _ _ hx => ⟨⟨hx.1, by omega⟩, by rintro rfl; omega⟩) (fun _ _ _ _ => le_rfl)
              fun x _ _ hx => (hl.pos x hx.1.1).2.1.le
          omega
        · intro x hx
          have : x ≠ j := fun e => hx ⟨e ▸ hj, by rw [e]; omega⟩
          rw [hpen x this]
          exact V.un x fun h' => hx ⟨h'.1, by omega⟩
        · intro p hp
          rw [c2 p (by omega), set_ne _ (by decide), set_nei _ _ _ _ (by omega)]
          exact V.iw p (by omega)
        · intro f a b; rw [c3 f b]; exact hln f a b
        · intro x hx hlt
          rcases hothers x hx hlt with rfl | h'
          · omega
          · have := V.bd x hx h'; omega
        · intro x hx hlt
          rcases hothers x hx hlt with rfl | h'
          · rw [hpej]
            exact ⟨by omega, le_rfl, fun t ht0 ht1 => by rw [hnew t ht0 ht1, ej]⟩
          · obtain ⟨a1, a2, a3⟩ := V.mv x hx h'
            have hxj : x ≠ j := by rintro rfl; omega
            rw [hpen x hxj]
            refine ⟨a1, by omega, fun t ht0 ht1 => ?_⟩
            rw [hlow _ (by omega)]; exact a3 t ht0 ht1
        · intro x y hx hy hlx hly hxy
          rcases hothers x hx hlx with rfl | hx'
          · rcases hothers y hy hly with rfl | hy'
            · exact absurd rfl hxy
            · have := V.mv y hy hy'
              rw [hpej, hpen y (Ne.symm hxy)]; omega
          · rcases hothers y hy hly with rfl | hy'
            · have := V.mv x hx hx'
              rw [hpej, hpen x hxy]; omega
            · rw [hpen x (by rintro rfl; omega), hpen y (by rintro rfl; omega)]
              exact V.dj x y hx hy hx' hy' hxy
        · intro p hp0 hp1
          by_cases hp : p < pdst
          · obtain ⟨q, q0, q1, q2⟩ := V.nn p hp0 hp
            exact ⟨q, q0, by omega, by rw [hlow p hp, q2]⟩
          · have := hnew (p - pdst) (by omega) (by omega)
            rw [show pdst + (p - pdst) = p by ring] at this
            exact ⟨_, by omega, by omega, this⟩
      · have hv : F1 .iw psrc = F .iw psrc := M.iw psrc fun j hj _ e => hob ⟨j, hj, e⟩
        have := hpos psrc (by omega) (by omega)
        rw [hv]
        cks hR
        cks hR
        rw [if_neg (by unfold flip; omega)]
        refine gcMove_spec hl ht M hpos fuel _ _ s F2 (by omega) (by omega) hR ?_
        have hothers : ∀ x, O x → (F .pe x < psrc + 1 ↔ F .pe x < psrc) := by
          intro x hx
          have : F .pe x ≠ psrc := fun e => hob ⟨x, hx, e⟩
          omega
        constructor
        · omega
        · rw [psum_congr (O' := fun x => O x ∧ F .pe x < psrc) (g := F .ln) (fun x _ _ => ?_)
            fun _ _ _ _ => rfl]
          · exact V.sum
          · exact and_congr_right fun hx => hothers x hx
        · intro j hj; exact V.un j fun h' => hj ⟨h'.1, by omega⟩
        · intro p hp; exact V.iw p (by omega)
        · exact V.oth
        · intro x hx hlt
          have := V.bd x hx ((hothers x hx).1 hlt); omega
        · intro x hx hlt; exact V.mv x hx ((hothers x hx).1 hlt)
        · intro x y hx hy a b; exact V.dj x y hx hy ((hothers x hx).1 a) ((hothers y hy).1 b)
        · intro p hp0 hp1
          obtain ⟨q, q0, q1, q2⟩ := V.nn p hp0 hp1
          exact ⟨q, q0, by omega, q2⟩
    · have e : psrc = top := by omega
      subst e
      rw [if_neg hh]
      exact wpr ⟨F2, hR, V⟩

/-- The shift of the new element. -/
theorem shift_spec {F : Sh} {a b pd : ℤ} (h : Rm n Al b s F) (hab : a ≤ b) (h0 : 0 ≤ pd)
    (h1 : pd ≤ a) (hn : 0 ≤ n) :
    wp (forRange a b (s, pd) fun psrc (s, pdst) => do
          let x ← s.rd .iw psrc
          let s ← s.wr .iw pdst x
          let pdst ← ck (pdst + 1)
          pure (s, pdst))
      (fun z => z.2 = pd + (b - a) ∧ ∃ F', Rm n Al b z.1 F' ∧
        (∀ t, 0 ≤ t → t < b - a → F' .iw (pd + t) = F .iw (a + t)) ∧
        (∀ p, p < pd → F' .iw p = F .iw p) ∧ ∀ f, f ≠ .iw → F' f = F f)
      (fun _ => False) := by
  refine wp_post (wp_forRange (fun k (z : Mem × ℤ) => z.2 = pd + (k - a) ∧
      ∃ F', Rm n Al b z.1 F' ∧
        (∀ t, 0 ≤ t → t < k - a → F' .iw (pd + t) = F .iw (a + t)) ∧
        (∀ p, p < pd ∨ k ≤ p → F' .iw p = F .iw p) ∧ ∀ f, f ≠ .iw → F' f = F f) hab ?_ ?_)
    fun z ⟨hz, F', h1, h2, h3, h4⟩ => ⟨hz, F', h1, h2, fun p hp => h3 p (Or.inl hp), h4⟩
  · exact ⟨by simp, F, h, fun t h0 h1 => by omega, fun _ _ => rfl, fun _ _ => rfl⟩
  · rintro k ⟨s, c⟩ hk0 hk1 ⟨hc, F', hR, h2, h3, h4⟩
    dsimp only at hc hR ⊢
    subst hc
    rw [hR.rdi (by omega) (by omega), ok_bind]
    obtain ⟨s1, e1, g1⟩ := hR.wri (i := pd + (k - a)) (by omega) (by omega) (F' .iw k)
    rw [e1, ok_bind]
    cks g1
    refine wpr ⟨by ring, _, g1, ?_, ?_, ?_⟩
    · intro t ht0 ht1
      by_cases e : t = k - a
      · have e2 : a + (k - a) = k := by ring
        rw [e, set_at, e2]; exact h3 _ (by omega)
      · rw [set_nei _ _ _ _ (by omega)]; exact h2 t ht0 (by omega)
    · intro p hp
      rw [set_nei _ _ _ _ (by omega)]; exact h3 p (by omega)
    · intro f hf; rw [set_ne _ hf]; exact h4 f hf

/-- What the garbage collection guarantees: the objects are below `p1`, with the same lists. -/
structure GCd (n : ℤ) (F : Sh) (O : ℤ → Prop) (p1 : ℤ) (F' : Sh) : Prop where
  lay : Lay n p1 F' O
  eq : ∀ x, O x → ∀ t, 0 ≤ t → t < F .ln x → F' .iw (F' .pe x + t) = F .iw (F .pe x + t)
  un : ∀ x, ¬ O x → F' .pe x = F .pe x
  oth : ∀ f, f ≠ .pe → f ≠ .iw → F' f = F f
  sum : p1 ≤ psum n O (F .ln)

/-- The compression without the update of `me` and `e`. -/
theorem compact_spec {O : ℤ → Prop} {top : ℤ} (h : Rm n Al L s F) (hl : Lay n top F O) (hn : 0 ≤ n)
    (h0 : 0 ≤ top) (ht : top ≤ L) (hO : ∀ x, 0 ≤ x → x < n → (O x ↔ 0 ≤ F .pe x))
    (hpos : ∀ p, 0 ≤ p → p < top → 0 ≤ F .iw p ∧ F .iw p < n) :
    wp (do
        let s ← gcMark n s
        let (s, pdst) ← gcMove (top - 1) (top.toNat + 1) 0 0 s
        let p1 := pdst
        let (s, pdst) ← forRange top L (s, pdst) fun psrc (s, pdst) => do
          let x ← s.rd .iw psrc
          let s ← s.wr .iw pdst x
          let pdst ← ck (pdst + 1)
          pure (s, pdst)
        pure (s, p1, pdst))
      (fun z => 0 ≤ z.2.1 ∧ z.2.1 ≤ top ∧ z.2.2 = z.2.1 + (L - top) ∧ ∃ F', Rm n Al z.2.2 z.1 F' ∧
        GCd n F O z.2.1 F' ∧
        (∀ p, 0 ≤ p → p < z.2.1 → ∃ q, 0 ≤ q ∧ q < top ∧ F' .iw p = F .iw q) ∧ ∀ t, 0 ≤ t → t < L - top → F' .iw (z.2.1 + t) = F .iw (top + t))
      (fun _ => False) := by
  refine wb (wp_post (gcMark_spec h hl hn ht hO) ?_)
  rintro s1 ⟨F1, hR1, M⟩
  refine wb (wp_post (gcMove_spec hl ht M hpos _ 0 0 s1 F1 h0 (by omega) hR1 ?_) ?_)
  · have hno : ∀ x, ¬ (O x ∧ F .pe x < 0) := by
      rintro x ⟨hx, h'⟩
      have := (hl.pos x hx).1
      omega
    constructor
    · omega
    · apply le_of_eq
      symm
      exact psum_zero fun x _ _ => hno x
    · intros; rfl
    · intros; rfl
    · exact M.oth
    · intro x hx h'; exact absurd ⟨hx, h'⟩ (hno x)
    · intro x hx h'; exact absurd ⟨hx, h'⟩ (hno x)
    · intro x y hx _ h'; exact absurd ⟨hx, h'⟩ (hno x)
    · intro p _ _; omega
  · rintro ⟨s2, pd⟩ ⟨F2, hR2, V⟩
    dsimp only at hR2 V ⊢
    have hle := V.le
    refine wb (wp_post (shift_spec hR2 ht hle.1 hle.2 hn) ?_)
    rintro ⟨s3, pe⟩ ⟨hpe, F3, hR3, c1, c2, c3⟩
    dsimp only at hpe hR3 ⊢
    have hlt : ∀ x, O x → F .pe x < top := fun x hx => by have := hl.pos x hx; omega
    have epe : F3 .pe = F2 .pe := c3 .pe (by decide)
    have eo : ∀ f, f ≠ .pe → f ≠ .iw → F3 f = F f := fun f a b => by rw [c3 f b]; exact V.oth f a b
    have eln : F3 .ln = F .ln := eo .ln (by decide) (by decide)
    refine wpr ⟨hle.1, hle.2, hpe, F3, hR3.shrink (show pe ≤ L by omega), ⟨⟨hl.rg, ?_, ?_⟩, ?_, ?_, eo, ?_⟩, ?_, ?_⟩
    · intro x hx
      obtain ⟨a1, a2, a3⟩ := V.mv x hx (hlt x hx)
      rw [epe, eln]
      exact ⟨a1, (hl.pos x hx).2.1, a2⟩
    · intro x y hx hy hxy
      rw [epe, eln]
      exact V.dj x y hx hy (hlt x hx) (hlt y hy) hxy
    · intro x hx t ht0 ht1
      obtain ⟨a1, a2, a3⟩ := V.mv x hx (hlt x hx)
      rw [epe, c2 _ (by omega)]; exact a3 t ht0 ht1
    · intro x hx
      rw [epe, V.un x fun h' => hx h'.1, M.un x fun h' => hx h'.1]
    · have := V.sum
      rwa [psum_congr (O' := O) (g := F .ln) (fun x _ _ => ⟨fun h => h.1, fun h => ⟨h, hlt x h⟩⟩)
        fun _ _ _ _ => rfl] at this
    · intro p hp0 hp1
      obtain ⟨q, q0, q1, q2⟩ := V.nn p hp0 hp1
      exact ⟨q, q0, q1, by rw [c2 p hp1, q2]⟩
    · intro t ht0 ht1
      rw [c1 t ht0 ht1, V.iw _ (by omega)]
      apply M.iw
      intro j hj _ e
      have := hlt j hj
      omega

end Slip.Amd
