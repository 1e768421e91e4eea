import Verif.Proof.AmdBuild2

/-!
# AMD: the new element
-/

namespace Slip.Amd

open Slip.Colamd (seg mem_seg seg_congr seg_succ length_seg seg_zero wp_seg wp_list csum seg_ext)

variable [Arith]

variable {n Al L : ℤ} {s : Mem} {F F0 : Sh} {nz : ℤ} {O V : ℤ → Prop}
  {P : List ℤ} {pme1 pfree : ℤ} {rk : ℤ → ℕ}

theorem buildInPlace_spec {me : ℤ} (hR : Rm n Al pfree s F) (hlay : Lay n pfree F O)
    (hiw : ∀ p, 0 ≤ p → p < pfree → 0 ≤ F .iw p ∧ F .iw p < n) (hB : BL n F V [] rk F)
    (hme : O me) (hent : ∀ x ∈ obL F me, 0 < F .nv x ↔ V x) (hVn : ∀ x, V x → 0 < F .nv x)
    (hV : ∀ x, V x → 0 ≤ x ∧ x < n ∧ x ≠ me) (hVs : psum n V (F .nv) ≤ n) :
    wp (buildInPlace me s)
      (fun y => ∃ F' P, Rm n Al pfree y.1 F' ∧ BL n F V P rk F' ∧ y.2.1 = F .pe me ∧
        y.2.2.1 = F .pe me + P.length ∧ (P.length : ℤ) ≤ F .ln me ∧ y.2.2.2 = (P.map (F .nv)).sum ∧
        (∀ x, x ∈ P ↔ x ∈ obL F me ∧ V x) ∧ seg (F' .iw) (F .pe me) P.length = P ∧
        (∀ p, p < F .pe me ∨ F .pe me + F .ln me ≤ p → F' .iw p = F .iw p) ∧
        (∀ p, 0 ≤ p → p < pfree → 0 ≤ F' .iw p ∧ F' .iw p < n) ∧
        (∀ f, f ≠ .iw → f ≠ .nv → f ≠ .hd → f ≠ .la → f ≠ .nx → F' f = F f))
      (fun _ => False) := by
  have hmr := hlay.rg me hme
  obtain ⟨mp0, mp1, mp2⟩ := hlay.pos me hme
  unfold buildInPlace
  rw [hR.rdn .pe (by decide) hmr.1 hmr.2, ok_bind, hR.rdn .ln (by decide) hmr.1 hmr.2, ok_bind]
  have hVr : ∀ x, V x → 0 ≤ x ∧ x < n ∧ 0 < F .nv x := fun x hx => ⟨(hV x hx).1, (hV x hx).2.1, hVn x hx⟩
  cks hR
  refine wb (wp_post (wp_seg (A := F .iw) mp1.le (fun pre (y : Mem × ℤ × ℤ) =>
      ∃ F' P, Rm n Al pfree y.1 F' ∧ BL n F V P rk F' ∧
        y.2.1 = F .pe me + P.length ∧ P.length ≤ pre.length ∧ y.2.2 = (P.map (F .nv)).sum ∧
        (∀ x, x ∈ P ↔ x ∈ pre ∧ V x) ∧ seg (F' .iw) (F .pe me) P.length = P ∧
        (∀ p, p < F .pe me ∨ F .pe me + pre.length ≤ p → F' .iw p = F .iw p) ∧
        (∀ p, 0 ≤ p → p < pfree → 0 ≤ F' .iw p ∧ F' .iw p < n) ∧
        (∀ f, f ≠ .iw → f ≠ .nv → f ≠ .hd → f ≠ .la → f ≠ .nx → F' f = F f)) ?_ ?_) ?_)
  · exact ⟨F, [], hR, hB, by simp, by simp, by simp, by simp, by simp, fun _ _ => rfl, hiw,
      fun _ _ _ _ _ _ => rfl⟩
  · rintro pre x post ⟨s1, q, deg⟩ hpre hx hlt ⟨F1, P1, hR1, hB1, hq, hle, hd, hP, hsP, hf, hi1, ho⟩
    dsimp only at hR1 hq hd ⊢
    have hxv : F1 .iw (F .pe me + pre.length) = x := by rw [hf _ (Or.inr le_rfl)]; exact hx
    have hxr := hi1 (F .pe me + pre.length) (by omega) (by omega)
    rw [hxv] at hxr
    rw [hR1.rdi (by omega) (by omega), ok_bind, hxv, hR1.rdn .nv (by decide) hxr.1 hxr.2, ok_bind]
    have hnv := hB1.nv x
    have i2 := hent x (by unfold obL; rw [hpre]; simp)
    have hiff : F1 .nv x > 0 ↔ V x ∧ x ∉ P1 := by
      rw [hnv]
      by_cases hiP : x ∈ P1
      · have := hVn x (hB1.pv x hiP)
        rw [if_pos hiP]
        constructor
        · intro; omega
        · intro h; exact absurd hiP h.2
      · rw [if_neg hiP]
        constructor
        · intro h; exact ⟨i2.1 h, hiP⟩
        · intro h; exact i2.2 h.1
    by_cases hnz : F1 .nv x > 0
    · rw [if_pos hnz]
      obtain ⟨hxV, hxP⟩ := hiff.1 hnz
      obtain ⟨s3, F3, e3, hR3, hB3, hiw3, hfr3⟩ := take_spec hR1 hB1 hxV hxP (q := q) (L' := pfree)
        fun s F h => h.wri (by omega) (by omega) x
      have hnvi : F1 .nv x = F .nv x := by rw [hnv, if_neg hxP]
      have hs1 := sum_le_of_sub (n := n) (V := V) (f := F .nv) (P := P1) hB1.nd hB1.pv hVr
      have hs2 := sum_le_of_sub (n := n) (V := V) (f := F .nv) (P := x :: P1) (List.nodup_cons.2 ⟨hxP, hB1.nd⟩)
        (fun y hy => by
          rcases List.mem_cons.1 hy with rfl | hy
          · exact hxV
          · exact hB1.pv y hy) hVr
      rw [List.map_cons, List.sum_cons] at hs2
      have hpos := hVn x hxV
      cks hR1
      cks hR1
      have hck : ck (q + 1) = .ok (q + 1) := hR1.ck (by intros; omega)
      have : (do
          let s ← s1.wr .nv x (-F1 .nv x)
          let q' ← ck (q + 1)
          let s ← s.wr .iw q x
          let s ← removeDeg x s
          pure (s, q', deg + F1 .nv x)) = ((do
            let s ← s1.wr .nv x (-F1 .nv x)
            let s ← s.wr .iw q x
            removeDeg x s) >>= fun s => (pure (s, q + 1, deg + F1 .nv x) : C (Mem × ℤ × ℤ))) := by
          simp only [bind_assoc, hck, ok_bind]
      rw [this, e3, ok_bind]
      have hlow : ∀ p, p ≠ q → F3 .iw p = F1 .iw p := fun p hp => by
        rw [hiw3, set_nei _ _ _ _ hp]
      have hlenP : ((P1 ++ [x]).length : ℤ) = P1.length + 1 := by simp
      refine wpr ⟨F3, P1 ++ [x], hR3, hB3, ?_, by simp; omega, ?_, ?_, ?_, ?_, ?_, ?_⟩
      · show q + 1 = _; omega
      · show deg + F1 .nv x = _
        rw [hnv, if_neg hxP, hd]; simp
      · intro y
        simp only [List.mem_append, List.mem_singleton, hP y]
        constructor
        · rintro (h | h)
          · exact ⟨Or.inl h.1, h.2⟩
          · subst h; exact ⟨Or.inr rfl, hxV⟩
        · rintro ⟨h | h, h'⟩
          · exact Or.inl ⟨h, h'⟩
          · exact Or.inr h
      · rw [hlenP, seg_succ _ (by omega), ← hq, hiw3, set_at, ← hiw3]
        congr 1
        conv_rhs => rw [← hsP]
        apply seg_congr
        intro p a b
        exact hlow p (by omega)
      · intro p hp
        simp only [List.length_append, List.length_singleton] at hp
        push_cast at hp
        rw [hlow p (by omega)]; exact hf p (by omega)
      · intro p a b
        by_cases hp : p = q
        · rw [hp, hiw3, set_at]; exact hxr
        · rw [hlow p hp]; exact hi1 p a b
      · intro f a b c d e
        rw [hfr3 f a b c d e]; exact ho f a b c d e
    · rw [if_neg hnz]
      refine wpr ⟨F1, P1, hR1, hB1, hq, by simp; omega, hd, ?_, hsP, ?_, hi1, ho⟩
      · intro y
        simp only [List.mem_append, List.mem_singleton, hP y]
        constructor
        · rintro h
          exact ⟨Or.inl h.1, h.2⟩
        · rintro ⟨h | h, h'⟩
          · exact ⟨h, h'⟩
          · subst h
            have : y ∈ P1 := by
              by_contra hc
              exact hnz (hiff.2 ⟨h', hc⟩)
            exact (hP y).1 this
      · intro p hp
        simp only [List.length_append, List.length_singleton] at hp
        push_cast at hp
        exact hf p (by omega)
  · rintro ⟨s1, q, deg⟩ ⟨F1, P1, hR1, hB1, hq, hle, hd, hP, hsP, hf, hi1, ho⟩
    rw [length_seg] at hle hf
    refine wpr ⟨F1, P1, hR1, hB1, rfl, hq, by omega, hd, hP, hsP, fun p hp => hf p (by omega), hi1, ho⟩

/-- The state when the new element `me` has been built; `F` is the state before. -/
structure Elem (n nz me : ℤ) (O V : ℤ → Prop) (F : Sh) (P : List ℤ) (rk : ℤ → ℕ) (pme1 pfree : ℤ)
    (F' : Sh) : Prop where
  lay : Lay n pfree F' (fun x => (O x ∧ x ≠ me ∧ x ∉ elL F me) ∨ (x = me ∧ P ≠ []))
  ob : ∀ x, O x → x ≠ me → x ∉ elL F me → obL F' x = obL F x ∧ F' .ln x = F .ln x
  sum : psum n (fun x => (O x ∧ x ≠ me ∧ x ∉ elL F me) ∨ (x = me ∧ P ≠ [])) (F' .ln) ≤ nz
  iw : ∀ p, 0 ≤ p → p < pfree → 0 ≤ F' .iw p ∧ F' .iw p < n
  obm : obL F' me = P
  pem : F' .pe me = pme1
  lnm : F' .ln me = P.length
  p0 : 0 ≤ pme1 ∧ pme1 + P.length ≤ pfree
  mem : ∀ x, x ∈ P ↔ V x ∧ (x ∈ vaL F me ∨ ∃ e ∈ elL F me, x ∈ obL F e)
  w : ∀ x, F' .w x = if x ∈ elL F me then 0 else F .w x
  pe : ∀ x, x ≠ me → (x ∈ elL F me → F' .pe x = flip me) ∧ (x ∉ elL F me → ¬ O x → F' .pe x = F .pe x)
  nv : ∀ x, F' .nv x = if x ∈ P then -F .nv x else F .nv x
  dl : DL n F' (fun x => V x ∧ x ∉ P) rk
  nd : P.Nodup
  pv : ∀ x ∈ P, V x
  dg : ∀ x, x ≠ me → F' .dg x = F .dg x
  el : ∀ x, x ≠ me → F' .el x = F .el x

theorem newElement_spec {me q degme nvpiv : ℤ} (hR : Rm n Al L s F) (hm : 0 ≤ me ∧ me < n)
    (hq : 0 ≤ q - pme1 ∧ q - pme1 ≤ Al) (hd : 0 ≤ nvpiv + degme ∧ nvpiv + degme ≤ n) :
    ∃ s' F', newElement me pme1 q degme nvpiv s = .ok s' ∧ Rm n Al L s' F' ∧
      F' .dg me = degme ∧ F' .pe me = pme1 ∧ F' .ln me = q - pme1 ∧ F' .el me = flip (nvpiv + degme) ∧
      (∀ f x, x ≠ me → F' f x = F f x) ∧ ∀ f, f ≠ .dg → f ≠ .pe → f ≠ .ln → f ≠ .el → F' f = F f := by
  unfold newElement
  obtain ⟨s1, e1, g1⟩ := hR.wrn .dg (by decide) hm.1 hm.2 degme
  rw [e1, ok_bind]
  obtain ⟨s2, e2, g2⟩ := g1.wrn .pe (by decide) hm.1 hm.2 pme1
  rw [e2, ok_bind]
  cks hR
  obtain ⟨s3, e3, g3⟩ := g2.wrn .ln (by decide) hm.1 hm.2 (q - pme1)
  rw [e3, ok_bind]
  cks hR
  cks hR
  obtain ⟨s4, e4, g4⟩ := g3.wrn .el (by decide) hm.1 hm.2 (flip (nvpiv + degme))
  refine ⟨s4, _, e4, g4, ?_, ?_, ?_, ?_, ?_, ?_⟩
  · rw [set_ne _ (by decide), set_ne _ (by decide), set_ne _ (by decide), set_at]
  · rw [set_ne _ (by decide), set_ne _ (by decide), set_at]
  · rw [set_ne _ (by decide), set_at]
  · rw [set_at]
  · intro f x hx; simp only [set_nei _ _ _ _ hx]
  · intro f a b c d; rw [set_ne _ d, set_ne _ c, set_ne _ b, set_ne _ a]

theorem build_spec {me elenme nvpiv : ℤ}
    (hR : Rm n Al pfree s F) (hlay : Lay n pfree F O) (h0 : 0 ≤ pfree)
    (hO : ∀ x, 0 ≤ x → x < n → (O x ↔ 0 ≤ F .pe x)) (hsum : psum n O (F .ln) ≤ nz)
    (hiw : ∀ p, 0 ≤ p → p < pfree → 0 ≤ F .iw p ∧ F .iw p < n) (hdl : DL n F V rk)
    (hme : O me) (hel : elenme = F .el me) (hel0 : 0 ≤ elenme) (hel1 : elenme ≤ F .ln me)
    (helO : ∀ e ∈ elL F me, O e ∧ e ≠ me) (hnd : (elL F me).Nodup)
    (hent : ∀ e ∈ elL F me, ∀ x ∈ obL F e, 0 < F .nv x ↔ V x)
    (hent2 : ∀ x ∈ vaL F me, 0 < F .nv x ↔ V x)
    (hV : ∀ x, V x → 0 ≤ x ∧ x < n ∧ x ≠ me) (hVn : ∀ x, V x → 0 < F .nv x) (hAl : nz + n ≤ Al)
    (hp0 : 0 ≤ nvpiv) (hVs : psum n V (F .nv) + nvpiv ≤ n) :
    wp (do
        let (s, pme1, q, degme, pfree) ← build n Al me elenme pfree s
        let s ← newElement me pme1 q degme nvpiv s
        pure (s, pme1, q, degme, pfree))
      (fun y => ∃ F' P, Rm n Al y.2.2.2.2 y.1 F' ∧ Elem n nz me O V F P rk y.2.1 y.2.2.2.2 F' ∧
        y.2.2.1 = y.2.1 + P.length ∧ y.2.2.2.1 = (P.map (F .nv)).sum ∧ F' .dg me = y.2.2.2.1 ∧
        F' .el me = flip (nvpiv + y.2.2.2.1) ∧ (elenme ≠ 0 → y.2.2.2.2 = y.2.1 + P.length))
      (fun _ => False) := by
  have hmr := hlay.rg me hme
  obtain ⟨mp0, mp1, mp2⟩ := hlay.pos me hme
  have hB : BL n F V [] rk F := by
    refine ⟨by simp, ?_, by simp, by simp, rfl, rfl⟩
    have : (fun x => V x ∧ x ∉ ([] : List ℤ)) = V := by funext x; simp
    rw [this]; exact hdl
  have hVr : ∀ x, V x → 0 ≤ x ∧ x < n ∧ 0 < F .nv x := fun x hx => ⟨(hV x hx).1, (hV x hx).2.1, hVn x hx⟩
  have htop := hR.top
  have hal := hR.fit.al
  unfold build
  by_cases he : elenme = 0
  · rw [if_pos he]
    have hE : elL F me = [] := by unfold elL; rw [← hel, he, seg_zero]
    have hobv : obL F me = vaL F me := by unfold obL vaL; rw [← hel, he]; simp
    simp only [bind_assoc, pure_bind']
    refine wb (wp_post (buildInPlace_spec hR hlay hiw hB hme (by rw [hobv]; exact hent2) hVn hV (by omega)) ?_)
    rintro ⟨s1, p1, q, deg⟩ ⟨F1, P, hR1, hB1, e1, e2, e3, e4, e5, e6, e7, e8, e9⟩
    dsimp only at e1 e2 e4 hR1 ⊢
    obtain ⟨s2, F2, r1, r2, r3, r4, r5, r6, r7, r8⟩ :=
      newElement_spec (pme1 := p1) (q := q) (degme := deg) (nvpiv := nvpiv) hR1 hmr (by omega)
        (by have := sum_le_of_sub (n := n) (V := V) (f := F .nv) (P := P) hB1.nd hB1.pv hVr; omega)
    rw [r1, ok_bind]
    have hfr : ∀ f x, x ≠ me → f ≠ .iw → f ≠ .nv → f ≠ .hd → f ≠ .la → f ≠ .nx → F2 f x = F f x := by
      intro f x hx a b c d e
      rw [r7 f x hx, e9 f a b c d e]
    have hpe : ∀ x, x ≠ me → F2 .pe x = F .pe x := fun x hx =>
      hfr .pe x hx (by decide) (by decide) (by decide) (by decide) (by decide)
    have hln : ∀ x, x ≠ me → F2 .ln x = F .ln x := fun x hx =>
      hfr .ln x hx (by decide) (by decide) (by decide) (by decide) (by decide)
    have i2 : F2 .iw = F1 .iw := r8 .iw (by decide) (by decide) (by decide) (by decide)
    have hlnm : F2 .ln me = P.length := by rw [r5]; omega
    refine wpr ⟨F2, P, r2, ⟨⟨?_, ?_, ?_⟩, ?_, ?_, ?_, ?_, r4, hlnm, ?_, ?_, ?_, ?_, ?_, ?_, hB1.nd, hB1.pv, ?_, ?_⟩, ?_, e4,
      r3, r6, fun h => absurd he h⟩
    · rintro x (h | h)
      · exact hlay.rg x h.1
      · rw [h.1]; exact hmr
    · rintro x (⟨h, hx, _⟩ | ⟨rfl, h⟩)
      · rw [hpe x hx, hln x hx]; exact hlay.pos x h
      · have : 0 < P.length := List.length_pos_iff.2 h
        rw [r4, hlnm]
        exact ⟨by omega, by omega, show p1 + (P.length : ℤ) ≤ pfree by omega⟩
    · have key : ∀ x, O x → x ≠ me → F2 .pe x + F2 .ln x ≤ F .pe me ∨ F .pe me + F .ln me ≤ F2 .pe x := by
        intro x h hx
        rw [hpe x hx, hln x hx]
        exact hlay.dj x me h hme hx
      rintro x y (⟨h, hx, _⟩ | ⟨rfl, h⟩) (⟨h', hy, _⟩ | ⟨rfl, h'⟩) hxy
      · rw [hpe x hx, hln x hx, hpe y hy, hln y hy]; exact hlay.dj x y h h' hxy
      · have := key x h hx
        rw [r4, hlnm]; omega
      · have := key y h' hy
        rw [r4, hlnm]; omega
      · exact absurd rfl hxy
    · intro x h hx _
      refine ⟨?_, hln x hx⟩
      unfold obL
      rw [hpe x hx, hln x hx, i2]
      apply seg_congr
      intro p a b
      have := hlay.dj x me h hme hx
      exact e7 p (by omega)
    · refine le_trans (psum_mono (O' := O) (g := F .ln) ?_ ?_ ?_) hsum
      · rintro x _ _ (h | h)
        · exact h.1
        · rw [h.1]; exact hme
      · rintro x _ _ (⟨_, hx, _⟩ | ⟨rfl, h⟩)
        · rw [hln x hx]
        · rw [hlnm]; exact e3
      · intro x _ _ h; exact (hlay.pos x h).2.1.le
    · rw [i2]; exact e8
    · unfold obL; rw [r4, hlnm, i2, e1]; exact e6
    · show 0 ≤ p1 ∧ p1 + (P.length : ℤ) ≤ pfree; omega
    · intro x
      rw [e5 x, hobv, hE]
      simp [and_comm]
    · intro x
      rw [hE, r8 .w (by decide) (by decide) (by decide) (by decide),
        e9 .w (by decide) (by decide) (by decide) (by decide) (by decide)]
      simp
    · intro x hx
      rw [hE]
      exact ⟨by simp, fun _ _ => hpe x hx⟩
    · rw [r8 .nv (by decide) (by decide) (by decide) (by decide)]; exact hB1.nv
    · refine hB1.dl.congr (fun _ => Iff.rfl) ?_ (fun c hc => r7 _ _ (hV c hc.1).2.2) ?_ ?_
      · rw [r8 .hd (by decide) (by decide) (by decide) (by decide)]; intros; rfl
      · rw [r8 .la (by decide) (by decide) (by decide) (by decide)]; intros; rfl
      · rw [r8 .nx (by decide) (by decide) (by decide) (by decide)]; intros; rfl
    · intro x hx; exact hfr .dg x hx (by decide) (by decide) (by decide) (by decide) (by decide)
    · intro x hx; exact hfr .el x hx (by decide) (by decide) (by decide) (by decide) (by decide)
    · show q = p1 + _; omega
  · rw [if_neg he]
    simp only [bind_assoc, pure_bind']
    refine wb (wp_post (buildNew_spec hR hlay h0 hO hsum hiw hB hme hel (by omega) hel1 helO hnd hent
      hent2 hV hVn hAl (by omega)) ?_)
    rintro ⟨s1, p1, pf, deg⟩ ⟨F1, P, hR1, hB1, e4, T⟩
    dsimp only at e4 hR1 T ⊢
    obtain ⟨s2, F2, r1, r2, r3, r4, r5, r6, r7, r8⟩ :=
      newElement_spec (pme1 := p1) (q := pf) (degme := deg) (nvpiv := nvpiv) hR1 hmr
        (by have := T.pf; have := T.p0; have := hR1.top; constructor <;> omega)
        (by have := sum_le_of_sub (n := n) (V := V) (f := F .nv) (P := P) hB1.nd hB1.pv hVr; omega)
    rw [r1, ok_bind]
    have i2 : F2 .iw = F1 .iw := r8 .iw (by decide) (by decide) (by decide) (by decide)
    have hpf := T.pf
    have hp0 := T.p0
    have hlnm : F2 .ln me = P.length := by rw [r5]; omega
    refine wpr ⟨F2, P, r2, ⟨⟨?_, ?_, ?_⟩, ?_, ?_, ?_, ?_, r4, hlnm, ?_, T.mem, ?_, ?_, ?_, ?_, hB1.nd, hB1.pv, ?_, ?_⟩, hpf, e4,
      r3, r6, fun _ => hpf⟩
    · rintro x (h | h)
      · exact T.lay.rg x h
      · rw [h.1]; exact hmr
    · rintro x (h | ⟨rfl, h⟩)
      · have := T.lay.pos x h
        rw [r7 _ _ h.2.1, r7 _ _ h.2.1]
        exact ⟨this.1, this.2.1, show _ ≤ pf by omega⟩
      · have : 0 < P.length := List.length_pos_iff.2 h
        rw [r4, hlnm]
        exact ⟨hp0, by omega, hpf.ge⟩
    · rintro x y (h | ⟨rfl, h⟩) (h' | ⟨rfl, h'⟩) hxy
      · rw [r7 _ _ h.2.1, r7 _ _ h.2.1, r7 _ _ h'.2.1, r7 _ _ h'.2.1]; exact T.lay.dj x y h h' hxy
      · have := T.lay.pos x h
        rw [r7 _ _ h.2.1, r7 _ _ h.2.1, r4, hlnm]; omega
      · have := T.lay.pos y h'
        rw [r7 _ _ h'.2.1, r7 _ _ h'.2.1, r4, hlnm]; omega
      · exact absurd rfl hxy
    · intro x h hx hx'
      have := T.ob x h hx hx'
      refine ⟨?_, by rw [r7 _ _ hx]; exact this.2⟩
      rw [← this.1]
      unfold obL
      rw [r7 _ _ hx, r7 _ _ hx, i2]
    · have hs := T.sum
      by_cases hP : P = []
      · rw [psum_congr (O' := fun x => O x ∧ x ≠ me ∧ x ∉ elL F me) (g := F1 .ln)
          (fun x _ _ => by simp [hP]) (fun x _ _ h => by
            rcases h with h | h
            · exact r7 _ _ h.2.1
            · exact absurd hP h.2)]
        omega
      · rw [psum_erase (e := me) (Or.inr ⟨rfl, hP⟩) hmr.1 hmr.2, hlnm]
        rw [psum_congr (O' := fun x => O x ∧ x ≠ me ∧ x ∉ elL F me) (g := F1 .ln)
          (fun x _ _ => ?_) (fun x _ _ h => r7 _ _ h.2)]
        · omega
        · constructor
          · rintro ⟨h | h, h'⟩
            · exact h
            · exact absurd h.1 h'
          · intro h; exact ⟨Or.inl h, h.2.1⟩
    · rw [i2]; exact T.iw
    · unfold obL; rw [r4, hlnm, i2]; exact T.sP
    · exact ⟨hp0, hpf.ge⟩
    · rw [r8 .w (by decide) (by decide) (by decide) (by decide)]; exact T.w
    · intro x hx; rw [r7 _ _ hx]; exact T.pe x hx
    · rw [r8 .nv (by decide) (by decide) (by decide) (by decide)]; exact hB1.nv
    · refine hB1.dl.congr (fun _ => Iff.rfl) ?_ (fun c hc => r7 _ _ (hV c hc.1).2.2) ?_ ?_
      · rw [r8 .hd (by decide) (by decide) (by decide) (by decide)]; intros; rfl
      · rw [r8 .la (by decide) (by decide) (by decide) (by decide)]; intros; rfl
      · rw [r8 .nx (by decide) (by decide) (by decide) (by decide)]; intros; rfl
    · intro x hx; rw [r7 _ _ hx, hB1.dg]
    · intro x hx; rw [r7 _ _ hx, hB1.el]

end Slip.Amd
