import Verif.Proof.AmdBuild

/-!
# AMD: construction of the new element, the loops
-/

namespace Slip.Amd

open Slip.Colamd (seg mem_seg seg_congr seg_succ length_seg seg_zero wp_seg wp_list csum seg_ext)

variable [Arith]

variable {n Al L : ℤ} {s : Mem} {F F0 : Sh} {nz : ℤ} {hot O V : ℤ → Prop} {ct : ℤ → List ℤ}
  {P : List ℤ} {pme1 pfree : ℤ} {vp vl : ℤ → ℤ} {rk : ℤ → ℕ}

/-- One entry `i` is taken over into the element; the code after the garbage collection. -/
theorem take_spec {i : ℤ} (hR : Rm n Al L s F) (hB : BL n F0 V P rk F) (hi : V i) (hP : i ∉ P)
    {q : ℤ} {L' : ℤ}
    (hw : ∀ s F, Rm n Al L s F → ∃ s', s.wr .iw q i = .ok s' ∧ Rm n Al L' s' (set F .iw q i)) :
    ∃ s' F', (do
        let s ← s.wr .nv i (-F .nv i)
        let s ← s.wr .iw q i
        removeDeg i s) = .ok s' ∧ Rm n Al L' s' F' ∧ BL n F0 V (P ++ [i]) rk F' ∧
      F' .iw = set F .iw q i .iw ∧
      ∀ f, f ≠ .iw → f ≠ .nv → f ≠ .hd → f ≠ .la → f ≠ .nx → F' f = F f := by
  have hr := hB.dl.rg i ⟨hi, hP⟩
  obtain ⟨s1, e1, g1⟩ := hR.wrn .nv (by decide) hr.1 hr.2.1 (-F .nv i)
  obtain ⟨s2, e2, g2⟩ := hw s1 _ g1
  rw [e1, ok_bind, e2, ok_bind]
  have hfr : ∀ f, f ≠ .iw → f ≠ .nv → set (set F .nv i (-F .nv i)) .iw q i f = F f := by
    intro f a b; rw [set_ne _ a, set_ne _ b]
  set F2 := set (set F .nv i (-F .nv i)) .iw q i with hF2
  have hdl : DL n F2 (fun x => V x ∧ x ∉ P) rk := by
    refine hB.dl.congr (fun _ => Iff.rfl) ?_ ?_ ?_ ?_
    · rw [hfr .hd (by decide) (by decide)]; intros; rfl
    · rw [hfr .dg (by decide) (by decide)]; intros; rfl
    · rw [hfr .la (by decide) (by decide)]; intros; rfl
    · rw [hfr .nx (by decide) (by decide)]; intros; rfl
  have hr2 := hdl.rg i ⟨hi, hP⟩
  obtain ⟨s3, F3, e3, g3, hF3⟩ := removeDeg_spec g2 hr.1 hr.2.1 hr2.2.2.1 hr2.2.2.2
    (by
      rcases hdl.pv i ⟨hi, hP⟩ with a | a
      · exact Or.inl a.1
      · have := hdl.rg _ a.1; exact Or.inr ⟨this.1, this.2.1⟩)
    (by
      rcases hdl.nx i ⟨hi, hP⟩ with a | a
      · exact Or.inl a
      · have := hdl.rg _ a.1; exact Or.inr ⟨this.1, this.2.1⟩)
  have h3 : ∀ f, f ≠ .hd → f ≠ .la → f ≠ .nx → F3 f = F2 f := by
    intro f a b c; rw [hF3]; exact unlink_ne F2 i a b c
  refine ⟨s3, F3, e3, g3, ⟨?_, ?_, ?_, ?_, ?_, ?_⟩, ?_, ?_⟩
  · intro x
    rw [h3 .nv (by decide) (by decide) (by decide), hF2, set_ne _ (by decide), set_apply]
    by_cases hx : x = i
    · subst hx
      rw [if_pos ⟨rfl, rfl⟩, hB.nv, if_neg hP, if_pos (by simp)]
    · rw [if_neg (by tauto), hB.nv]
      simp [hx]
  · rw [hF3]
    have := hdl.del (c := i) ⟨hi, hP⟩
    have e : (fun x => V x ∧ x ∉ P ++ [i]) = fun x => (V x ∧ x ∉ P) ∧ x ≠ i := by
      funext x; simp [and_assoc]
    rw [e]; exact this
  · rw [List.nodup_append]
    exact ⟨hB.nd, by simp, by rintro a ha b hb rfl; simp at hb; exact hP (hb ▸ ha)⟩
  · intro x hx
    rw [List.mem_append, List.mem_singleton] at hx
    rcases hx with hx | rfl
    · exact hB.pv x hx
    · exact hi
  · rw [h3 .dg (by decide) (by decide) (by decide), hfr .dg (by decide) (by decide)]; exact hB.dg
  · rw [h3 .el (by decide) (by decide) (by decide), hfr .el (by decide) (by decide)]; exact hB.el
  · rw [h3 .iw (by decide) (by decide) (by decide), hF2]
    funext p
    simp only [set_apply]
    simp
  · intro f a b c d e
    rw [h3 f c d e]; exact hfr f a b

/-- What the search of a list leaves alone. -/
structure BFr (hot O : ℤ → Prop) (F F' : Sh) : Prop where
  oth : ∀ f, f ≠ .iw → f ≠ .nv → f ≠ .hd → f ≠ .la → f ≠ .nx → f ≠ .pe → f ≠ .ln → F' f = F f
  pe : ∀ x, ¬ O x → ¬ hot x → F' .pe x = F .pe x
  ln : ∀ x, ¬ hot x → F' .ln x = F .ln x

theorem buildInner_spec {me e knt1 ln degme : ℤ} {z : Ptrs} {X : List ℤ}
    (hR : Rm n Al z.pfree s F) (hM : BM n nz hot O ct P z.pme1 z.pfree vp vl F)
    (hB : BL n F0 V P rk F) (hme : 0 ≤ me ∧ me < n) (he : 0 ≤ e ∧ e < n)
    (hV : ∀ x, V x → 0 ≤ x ∧ x < n ∧ x ≠ me) (hAl : nz + n ≤ Al)
    (hhot : ∀ x, hot x ↔ x = me ∨ x = e) (hX : ct e = X) (hln : ln = X.length)
    (hXn : ∀ x ∈ X, 0 ≤ x ∧ x < n ∧ (0 < F0 .nv x ↔ V x)) (hVn : ∀ x, V x → 0 < F0 .nv x)
    (hj : O e → z.pj = vp e) (hp : me ≠ e → O me → z.p = vp me)
    (hdeg : degme = (P.map (F0 .nv)).sum)
    (hg : (me ≠ e → F .ln me - knt1 = (ct me).length) ∨ z.pfree ≤ nz + P.length)
    (hVs : psum n V (F0 .nv) ≤ n) (hk0 : 0 ≤ knt1 ∧ knt1 ≤ Al + 1) (hkl : 0 ≤ F .ln me ∧ F .ln me ≤ Al) :
    wp (buildInner n Al me e knt1 ln (s, z, degme))
      (fun y => ∃ F' P' vp' vl', Rm n Al y.2.1.pfree y.1 F' ∧
        BM n nz hot (fun x => O x ∧ x ≠ e) (Function.update ct e []) P' y.2.1.pme1 y.2.1.pfree vp' vl' F' ∧
        BL n F0 V P' rk F' ∧ (∀ x, x ∈ P' ↔ x ∈ P ∨ (x ∈ X ∧ V x)) ∧
        y.2.2 = (P'.map (F0 .nv)).sum ∧ (me ≠ e → O me → y.2.1.p = vp' me) ∧ BFr hot O F F' ∧
        ((me ≠ e → F' .ln me = F .ln me ∧ F .ln me - knt1 = (ct me).length) ∨
          y.2.1.pfree ≤ nz + P'.length) ∧ 0 ≤ F' .ln me ∧ F' .ln me ≤ Al)
      (fun _ => False) := by
  unfold buildInner
  have hl1 : ln + 1 = 1 + (X.length : ℤ) := by omega
  rw [hl1]
  refine wp_post (wp_list X (fun pre (y : Mem × Ptrs × ℤ) => ∃ F' P' vp' vl' ct', Rm n Al y.2.1.pfree y.1 F' ∧
        BM n nz hot (fun x => O x ∧ (x = e → X.drop pre.length ≠ [])) ct' P'
          y.2.1.pme1 y.2.1.pfree vp' vl' F' ∧ (∀ x, x ≠ e → ct' x = ct x) ∧ ct' e = X.drop pre.length ∧
        BL n F0 V P' rk F' ∧ (∀ x, x ∈ P' ↔ x ∈ P ∨ (x ∈ pre ∧ V x)) ∧
        y.2.2 = (P'.map (F0 .nv)).sum ∧ (me ≠ e → O me → y.2.1.p = vp' me) ∧
        (O e → X.drop pre.length ≠ [] → y.2.1.pj = vp' e) ∧ BFr hot O F F' ∧
        ((me ≠ e → F' .ln me = F .ln me ∧ F .ln me - knt1 = (ct me).length) ∨
          y.2.1.pfree ≤ nz + P'.length) ∧ 0 ≤ F' .ln me ∧ F' .ln me ≤ Al) ?_ ?_) ?_
  · refine ⟨F, P, vp, vl, ct, hR, ?_, fun _ _ => rfl, by simpa using hX, hB, by simp, hdeg, hp,
      fun a _ => hj a, ⟨fun _ _ _ _ _ _ _ _ => rfl, fun _ _ _ => rfl, fun _ _ => rfl⟩, ?_, hkl⟩
    · have e1 : (fun x => O x ∧ (x = e → X.drop ([] : List ℤ).length ≠ [])) = O := by
        funext x
        apply propext
        refine ⟨fun h => h.1, fun h => ⟨h, ?_⟩⟩
        rintro rfl
        have := (hM.hotO x ((hhot x).2 (Or.inr rfl))).1 h
        rw [hX] at this
        simpa using this
      rw [e1]; exact hM
    · rcases hg with h | h
      · exact Or.inl fun a => ⟨rfl, h a⟩
      · exact Or.inr h
  · rintro pre i post ⟨s1, y, deg⟩ hpre ⟨F1, P1, vp1, vl1, ct1, hR1, hM1, hct, hcte, hB1, hP1, hd1, hp1, hj1,
      hf1, hg1, hkl1⟩
    dsimp only at hR1 hM1 hd1 hp1 hj1 hg1 ⊢
    have hdrop : X.drop pre.length = i :: post := by rw [hpre]; simp
    have hdrop' : X.drop (pre ++ [i]).length = post := by
      rw [hpre, List.length_append, List.length_singleton,
        show pre ++ i :: post = (pre ++ [i]) ++ post by simp, ← List.length_singleton (a := i),
        ← List.length_append, List.drop_left]
    rw [hdrop] at hcte
    have hhe : hot e := (hhot e).2 (Or.inr rfl)
    obtain ⟨hOe, v0, v1, v2⟩ := hM1.head hhe hcte
    rw [hj1 hOe.1 (by rw [hdrop]; simp), hR1.rdi v0 v1, ok_bind, v2]
    cks hR1
    obtain ⟨i0, i1, i2⟩ := hXn i (by rw [hpre]; simp)
    rw [hR1.rdn .nv (by decide) i0 i1, ok_bind]
    have hcons := hM1.consume hhe hcte
    have hO' : (fun y => (O y ∧ (y = e → X.drop pre.length ≠ [])) ∧ (y = e → post ≠ [])) =
        fun y => O y ∧ (y = e → post ≠ []) := by
      funext y
      rw [hdrop]
      simp only [and_assoc, ne_eq, reduceCtorEq, not_false_eq_true, implies_true, true_and]
    rw [hO'] at hcons
    rw [hdrop']
    have hnv := hB1.nv i
    have hiff : F1 .nv i > 0 ↔ V i ∧ i ∉ P1 := by
      rw [hnv]
      by_cases hiP : i ∈ P1
      · have := hVn i (hB1.pv i hiP)
        rw [if_pos hiP]
        constructor
        · intro; omega
        · intro h; exact absurd hiP h.2
      · rw [if_neg hiP]
        constructor
        · intro h; exact ⟨i2.1 h, hiP⟩
        · intro h; exact i2.2 h.1
    have hct2 : ∀ x, x ≠ e → Function.update ct1 e post x = ct x := fun x hx => by
      rw [Function.update_of_ne hx]; exact hct x hx
    have hlen1 : ∀ x : ℤ, x = me → me ≠ e → Function.update ct1 e post x = ct x := by
      rintro x rfl hh; exact hct2 x hh
    by_cases hnz : F1 .nv i > 0
    · rw [if_pos hnz]
      obtain ⟨hiV, hiP⟩ := hiff.1 hnz
      have hcardP := hB1.length_le hV hme
      -- the state after the garbage collection, if any
      have hgc : wp (if ({ y with pj := vp1 e + 1 } : Ptrs).pfree ≥ Al then
            garbage n me e knt1 (1 + (pre.length : ℤ)) ln { y with pj := vp1 e + 1 } s1
          else pure (s1, { y with pj := vp1 e + 1 }))
          (fun w => ∃ F2 vp2 vl2, Rm n Al w.2.pfree w.1 F2 ∧
            BM n (nz - 1) hot (fun y => O y ∧ (y = e → post ≠ [])) (Function.update ct1 e post) P1
              w.2.pme1 w.2.pfree vp2 vl2 F2 ∧ (O e → post ≠ [] → w.2.pj = vp2 e) ∧
            (me ≠ e → O me → w.2.p = vp2 me) ∧
            (∀ f, f ≠ .pe → f ≠ .ln → f ≠ .iw → F2 f = F1 f) ∧
            (∀ x, ¬ O x → ¬ hot x → F2 .pe x = F1 .pe x) ∧ (∀ x, ¬ hot x → F2 .ln x = F1 .ln x) ∧
            w.2.pfree < Al ∧
            ((me ≠ e → F2 .ln me = F .ln me ∧ F .ln me - knt1 = (ct me).length) ∨
              w.2.pfree ≤ nz + P1.length) ∧ 0 ≤ F2 .ln me ∧ F2 .ln me ≤ Al) (fun _ => False) := by
        by_cases hfull : y.pfree ≥ Al
        · rw [if_pos hfull]
          have hg2 : me ≠ e → F1 .ln me = F .ln me ∧ F .ln me - knt1 = (ct me).length := by
            rcases hg1 with h | h
            · exact h
            · omega
          refine wp_post (garbage_spec hR1 hcons hme he hhot rfl rfl (fun hne => ⟨?_, fun h => ?_⟩) ?_ ?_ (by omega)) ?_
          · rw [hlen1 me rfl hne, (hg2 hne).1]; exact (hg2 hne).2
          · rw [Function.update_of_ne hne]; exact hp1 hne h.1
          · rw [Function.update_self, hln, hpre]
            simp only [List.length_append, List.length_cons]
            push_cast; ring
          · intro h; rw [Function.update_self]
          · rintro ⟨s2, w⟩ ⟨a0, F2, vp2, vl2, a1, a2, a3, a4, a5, a6, a7, a8, a9⟩
            have a10 := a2.hotlen ((hhot me).2 (Or.inl rfl))
            have a11 := a2.pf
            have a12 := a1.top
            have a13 := a2.p0
            refine ⟨F2, vp2, vl2, a1, a2, fun h h' => a3 ⟨h, fun _ => h'⟩,
              fun h h' => a4 h ⟨h', fun h2 => absurd h2 h⟩, a6, fun x h1 h2 => a7 x (fun h' => h1 h'.1) h2, a8, ?_, Or.inr ?_, ?_⟩
            · dsimp only at a0 ⊢; omega
            · dsimp only at a0 ⊢; omega
            · rw [a9]; have := hR1.fit.al; constructor <;> omega
        · rw [if_neg hfull]
          refine wpr ⟨F1, _, _, hR1, hcons, fun _ _ => by rw [Function.update_self], fun h h' => ?_,
            fun _ _ _ _ => rfl, fun _ _ _ => rfl, fun _ _ => rfl, lt_of_not_ge hfull, hg1, hkl1⟩
          rw [Function.update_of_ne h]; exact hp1 h h'
      refine wb (wp_post hgc ?_)
      rintro ⟨s2, w⟩ ⟨F2, vp2, vl2, hR2, hM2, hj2, hp2, o2, pe2, ln2, hlt, hg2, hkl2⟩
      dsimp only at hR2 hM2 hj2 hp2 hlt hg2 ⊢
      have hB2 : BL n F0 V P1 rk F2 := hB1.congr fun f a b c _ => o2 f a b c
      have hw0 : 0 ≤ w.pfree := by have := hM2.pf; have := hM2.p0; omega
      have hnv2 : F1 .nv i = F2 .nv i := by rw [o2 .nv (by decide) (by decide) (by decide)]
      obtain ⟨s3, F3, e3, hR3, hB3, hiw3, hfr3⟩ := take_spec hR2 hB2 hiV hiP (q := w.pfree) (L' := w.pfree + 1)
        fun s F h => h.push hw0 hlt i
      rw [hnv2]
      have hnvi : F2 .nv i = F0 .nv i := by rw [← hnv2, hnv, if_neg hiP]
      have hVr : ∀ x, V x → 0 ≤ x ∧ x < n ∧ 0 < F0 .nv x := fun x hx => ⟨(hV x hx).1, (hV x hx).2.1, hVn x hx⟩
      have hs1 := sum_le_of_sub (n := n) (V := V) (f := F0 .nv) (P := P1) hB1.nd hB1.pv hVr
      have hs2 := sum_le_of_sub (n := n) (V := V) (f := F0 .nv) (P := i :: P1) (List.nodup_cons.2 ⟨hiP, hB1.nd⟩)
        (fun x hx => by
          rcases List.mem_cons.1 hx with rfl | hx
          · exact hiV
          · exact hB1.pv x hx) hVr
      rw [List.map_cons, List.sum_cons] at hs2
      have hpos := hVn i hiV
      cks hR2
      cks hR2
      have hck : ck (w.pfree + 1) = .ok (w.pfree + 1) := hR2.ck (by intros; omega)
      have e3' : (do
          let s ← s2.wr .nv i (-F2 .nv i)
          let pf ← ck (w.pfree + 1)
          let s ← s.wr .iw w.pfree i
          let s ← removeDeg i s
          pure (s, { w with pfree := pf }, deg + F2 .nv i)) =
          (.ok (s3, { w with pfree := w.pfree + 1 }, deg + F2 .nv i) : C (Mem × Ptrs × ℤ)) := by
        have : (do
          let s ← s2.wr .nv i (-F2 .nv i)
          let pf ← ck (w.pfree + 1)
          let s ← s.wr .iw w.pfree i
          let s ← removeDeg i s
          pure (s, { w with pfree := pf }, deg + F2 .nv i)) = ((do
            let s ← s2.wr .nv i (-F2 .nv i)
            let s ← s.wr .iw w.pfree i
            removeDeg i s) >>= fun s => (pure (s, { w with pfree := w.pfree + 1 }, deg + F2 .nv i) :
              C (Mem × Ptrs × ℤ))) := by
          simp only [bind_assoc, hck, ok_bind]
        rw [this, e3]; rfl
      rw [e3']
      have hM3 := (hM2.push i0 i1).congr (F' := F3) hiw3 (fun x _ => by
        rw [hfr3 .pe (by decide) (by decide) (by decide) (by decide) (by decide), set_ne _ (by decide)]) (fun x _ => by
        rw [hfr3 .ln (by decide) (by decide) (by decide) (by decide) (by decide), set_ne _ (by decide)])
      refine wok ⟨F3, P1 ++ [i], vp2, vl2, _, hR3, hM3, hct2, by rw [Function.update_self], hB3, ?_, ?_,
        hp2, hj2, ⟨?_, ?_, ?_⟩, ?_, ?_⟩
      · intro x
        simp only [List.mem_append, List.mem_singleton, hP1 x]
        constructor
        · rintro ((h | h) | h)
          · exact Or.inl h
          · exact Or.inr ⟨Or.inl h.1, h.2⟩
          · subst h; exact Or.inr ⟨Or.inr rfl, hiV⟩
        · rintro (h | ⟨h | h, h'⟩)
          · exact Or.inl (Or.inl h)
          · exact Or.inl (Or.inr ⟨h, h'⟩)
          · exact Or.inr h
      · rw [← hnv2, hnv, if_neg hiP, hd1]; simp
      · intro f a b c d e' g h
        rw [hfr3 f a b c d e', o2 f g h a]; exact hf1.oth f a b c d e' g h
      · intro x a b
        rw [hfr3 .pe (by decide) (by decide) (by decide) (by decide) (by decide), pe2 x a b]; exact hf1.pe x a b
      · intro x b
        rw [hfr3 .ln (by decide) (by decide) (by decide) (by decide) (by decide), ln2 x b]; exact hf1.ln x b
      · rw [hfr3 .ln (by decide) (by decide) (by decide) (by decide) (by decide)]
        rcases hg2 with h | h
        · exact Or.inl h
        · refine Or.inr ?_
          simp only [List.length_append, List.length_singleton]
          push_cast
          show w.pfree + 1 ≤ _
          omega
      · rw [hfr3 .ln (by decide) (by decide) (by decide) (by decide) (by decide)]; exact hkl2
    · rw [if_neg hnz]
      refine wpr ⟨F1, P1, _, _, _, hR1, hcons.mono (by omega), hct2, by rw [Function.update_self], hB1, ?_, hd1, ?_,
        fun _ _ => by rw [Function.update_self], hf1, hg1, hkl1⟩
      · intro x
        simp only [List.mem_append, List.mem_singleton, hP1 x]
        constructor
        · rintro (h | h)
          · exact Or.inl h
          · exact Or.inr ⟨Or.inl h.1, h.2⟩
        · rintro (h | ⟨h | h, h'⟩)
          · exact Or.inl h
          · exact Or.inr ⟨h, h'⟩
          · subst h
            have : x ∈ P1 := by
              by_contra hc
              exact hnz (hiff.2 ⟨h', hc⟩)
            exact (hP1 x).1 this
      · intro h h'
        rw [Function.update_of_ne h]; exact hp1 h h'
  · rintro ⟨s1, y, deg⟩ ⟨F1, P1, vp1, vl1, ct1, hR1, hM1, hct, hcte, hB1, hP1, hd1, hp1, hj1, hf1, hg1, hkl1⟩
    rw [List.drop_length] at hcte hM1
    refine ⟨F1, P1, vp1, vl1, hR1, ?_, hB1, hP1, hd1, hp1, hf1, ?_, hkl1⟩
    · have e1 : ct1 = Function.update ct e [] := by
        funext x
        by_cases hx : x = e
        · rw [hx, Function.update_self, hcte]
        · rw [Function.update_of_ne hx, hct x hx]
      rw [e1] at hM1
      have e2 : (fun x => O x ∧ (x = e → ([] : List ℤ) ≠ [])) = fun x => O x ∧ x ≠ e := by
        funext x; simp
      rwa [e2] at hM1
    · exact hg1

theorem BM.recast {hot' O' : ℤ → Prop} {ct' : ℤ → List ℤ} {F' : Sh}
    (h : BM n nz hot O ct P pme1 pfree vp vl F) (h1 : F' .iw = F .iw) (hO : ∀ x, O' x ↔ O x)
    (hc : ∀ x, O x → ct' x = ct x) (hh : ∀ x, hot' x → (O x ↔ ct' x ≠ []))
    (hcold : ∀ x, 0 ≤ x → x < n → ¬ hot' x →
      (O x → vp x = F' .pe x ∧ vl x = F' .ln x) ∧ (¬ O x → F' .pe x < 0)) :
    BM n nz hot' O' ct' P pme1 pfree vp vl F' := by
  obtain rfl : O' = O := funext fun x => propext (hO x)
  refine ⟨h.p0, ⟨h.lay.rg, by simpa using h.lay.pos, by simpa using h.lay.dj⟩, ?_, h.sum, hcold, hh, ?_, ?_,
    h.pf⟩
  · intro x hx; rw [h1, hc x hx]; exact h.con x hx
  · rw [h1]; exact h.iw
  · rw [h1]; exact h.sP

/-- The result of the construction of the new element in empty space. -/
structure Built (n nz me : ℤ) (O V : ℤ → Prop) (F : Sh) (P : List ℤ) (pme1 pfree : ℤ) (F' : Sh) : Prop where
  lay : Lay n pme1 F' (fun x => O x ∧ x ≠ me ∧ x ∉ elL F me)
  ob : ∀ x, O x → x ≠ me → x ∉ elL F me → obL F' x = obL F x ∧ F' .ln x = F .ln x
  sum : psum n (fun x => O x ∧ x ≠ me ∧ x ∉ elL F me) (F' .ln) + P.length ≤ nz
  iw : ∀ p, 0 ≤ p → p < pfree → 0 ≤ F' .iw p ∧ F' .iw p < n
  sP : seg (F' .iw) pme1 P.length = P
  pf : pfree = pme1 + P.length
  p0 : 0 ≤ pme1
  mem : ∀ x, x ∈ P ↔ V x ∧ (x ∈ vaL F me ∨ ∃ e ∈ elL F me, x ∈ obL F e)
  w : ∀ x, F' .w x = if x ∈ elL F me then 0 else F .w x
  pe : ∀ x, x ≠ me → (x ∈ elL F me → F' .pe x = flip me) ∧ (x ∉ elL F me → ¬ O x → F' .pe x = F .pe x)

theorem seg_split (A : ℤ → ℤ) (a : ℤ) {k l : ℤ} (h0 : 0 ≤ k) (h1 : k ≤ l) :
    seg A a l = seg A a k ++ seg A (a + k) (l - k) := by
  unfold seg
  have : l.toNat = k.toNat + (l - k).toNat := by omega
  rw [this, List.range_add, List.map_append, List.map_map]
  congr 1
  apply List.map_congr_left
  intro t _
  simp only [Function.comp_apply]
  congr 1
  push_cast
  omega

set_option maxHeartbeats 1000000 in
theorem buildNew_spec {me elenme : ℤ}
    (hR : Rm n Al pfree s F) (hlay : Lay n pfree F O) (h0 : 0 ≤ pfree)
    (hO : ∀ x, 0 ≤ x → x < n → (O x ↔ 0 ≤ F .pe x)) (hsum : psum n O (F .ln) ≤ nz)
    (hiw : ∀ p, 0 ≤ p → p < pfree → 0 ≤ F .iw p ∧ F .iw p < n) (hB : BL n F V [] rk F)
    (hme : O me) (hel : elenme = F .el me) (hel0 : 0 < elenme) (hel1 : elenme ≤ F .ln me)
    (helO : ∀ e ∈ elL F me, O e ∧ e ≠ me) (hnd : (elL F me).Nodup)
    (hent : ∀ e ∈ elL F me, ∀ x ∈ obL F e, 0 < F .nv x ↔ V x)
    (hent2 : ∀ x ∈ vaL F me, 0 < F .nv x ↔ V x)
    (hV : ∀ x, V x → 0 ≤ x ∧ x < n ∧ x ≠ me) (hVn : ∀ x, V x → 0 < F .nv x) (hAl : nz + n ≤ Al)
    (hVs : psum n V (F .nv) ≤ n) :
    wp (buildNew n Al me elenme pfree s)
      (fun y => ∃ F' P, Rm n Al y.2.2.1 y.1 F' ∧ BL n F V P rk F' ∧ y.2.2.2 = (P.map (F .nv)).sum ∧
        Built n nz me O V F P y.2.1 y.2.2.1 F')
      (fun _ => False) := by
  have hmr := hlay.rg me hme
  obtain ⟨mp0, mp1, mp2⟩ := hlay.pos me hme
  have hobr : ∀ e, O e → ∀ x ∈ obL F e, 0 ≤ x ∧ x < n := by
    intro e he x hx
    unfold obL at hx
    rw [mem_seg] at hx
    obtain ⟨p, a, b, rfl⟩ := hx
    have := hlay.pos e he
    exact hiw p (by omega) (by omega)
  have hsp : obL F me = elL F me ++ vaL F me := by
    unfold obL elL vaL
    exact seg_split _ _ (by omega) (by omega)
  have hlenE : ((elL F me).length : ℤ) = elenme := by unfold elL; rw [length_seg]; omega
  have hlenV : ((vaL F me).length : ℤ) = F .ln me - elenme := by unfold vaL; rw [length_seg]; omega
  have hobne : ∀ x, O x → obL F x ≠ [] := by
    intro x hx h'
    have := (hlay.pos x hx).2.1
    have h2 : (obL F x).length = (F .ln x).toNat := by unfold obL; rw [length_seg]
    rw [h'] at h2
    simp at h2
    omega
  unfold buildNew
  rw [hR.rdn .pe (by decide) hmr.1 hmr.2, ok_bind, hR.rdn .ln (by decide) hmr.1 hmr.2, ok_bind]
  dsimp only
  have htop := hR.top
  have hal := hR.fit.al
  cks hR
  cks hR
  have hkg : ∀ k : ℕ, (k : ℤ) ≤ elenme → (0:ℤ) ≤ 1 + (k : ℤ) ∧ 1 + (k : ℤ) ≤ Al + 1 :=
    fun k hk => by constructor <;> omega
  have e2 : elenme + 1 + 1 = 1 + ((elL F me ++ [me]).length : ℤ) := by
    rw [List.length_append, List.length_singleton]; push_cast; omega
  rw [e2]
  refine wb (wp_post (wp_list (elL F me ++ [me]) (fun pre (y : Mem × Ptrs × ℤ) =>
    ((pre.length : ℤ) ≤ elenme → ∃ F' P vp vl, Rm n Al y.2.1.pfree y.1 F' ∧
      BM n nz (· = me) (fun x => O x ∧ x ∉ pre ∧ (x = me → (obL F me).drop pre.length ≠ []))
        (fun x => if x = me then (obL F me).drop pre.length else obL F x) P y.2.1.pme1 y.2.1.pfree vp vl F' ∧
      BL n F V P rk F' ∧ (∀ x, x ∈ P ↔ ∃ e ∈ pre, x ∈ obL F e ∧ V x) ∧ y.2.2 = (P.map (F .nv)).sum ∧
      ((obL F me).drop pre.length ≠ [] → y.2.1.p = vp me) ∧
      (∀ x, F' .w x = if x ∈ pre then 0 else F .w x) ∧
      (∀ x, x ≠ me → (x ∈ pre → F' .pe x = flip me) ∧ (x ∉ pre → ¬ O x → F' .pe x = F .pe x)) ∧
      (∀ x, x ≠ me → x ∉ pre → F' .ln x = F .ln x) ∧
      (F' .ln me = F .ln me ∨ y.2.1.pfree ≤ nz + P.length) ∧ 0 ≤ F' .ln me ∧ F' .ln me ≤ Al) ∧
    ((pre.length : ℤ) = elenme + 1 → ∃ F' P, Rm n Al y.2.1.pfree y.1 F' ∧ BL n F V P rk F' ∧
      y.2.2 = (P.map (F .nv)).sum ∧ Built n nz me O V F P y.2.1.pme1 y.2.1.pfree F')) ?_ ?_) ?_)
  · refine ⟨fun _ => ⟨F, [], F .pe, F .ln, hR, ?_, hB, by simp, by simp, fun _ => rfl, by simp,
      fun x _ => ⟨by simp, fun _ _ => rfl⟩, fun _ _ _ => rfl, Or.inl rfl, by omega, by omega⟩, fun h => ?_⟩
    · have e1 : (fun x => O x ∧ x ∉ ([] : List ℤ) ∧ (x = me → (obL F me).drop ([] : List ℤ).length ≠ [])) = O := by
        funext x
        apply propext
        refine ⟨fun h => h.1, fun h => ⟨h, by simp, ?_⟩⟩
        rintro rfl
        exact hobne x h
      rw [e1]
      refine ⟨h0, ⟨hlay.rg, by simpa using hlay.pos, by simpa using hlay.dj⟩, ?_, by simpa using hsum, ?_, ?_, hiw,
        by simp, by simp⟩
      · intro x hx
        by_cases e : x = me
        · simp [e, obL]
        · simp [e, obL]
      · intro x a b _
        refine ⟨fun _ => ⟨rfl, rfl⟩, fun h => ?_⟩
        by_contra hc
        exact h ((hO x a b).2 (by omega))
      · rintro x rfl
        simp only [if_true, List.length_nil, List.drop_zero]
        exact ⟨fun h => hobne x h, fun _ => hme⟩
    · simp at h; omega
  · rintro pre x post ⟨s1, z, deg⟩ hpre ⟨hA, _⟩
    dsimp only
    have hpl : (pre.length : ℤ) ≤ elenme := by
      have := congrArg List.length hpre
      simp only [List.length_append, List.length_cons, List.length_nil] at this
      omega
    obtain ⟨F1, P1, vp1, vl1, hR1, hM1, hB1, hP1, hd1, hp1, hw1, hpe1, hln1, hg1, hkl1⟩ := hA hpl
    dsimp only at hR1 hM1 hd1 hp1 hg1
    by_cases hlast : 1 + (pre.length : ℤ) > elenme
    · rw [if_pos hlast]
      have hpl2 : (pre.length : ℤ) = elenme := by omega
      obtain ⟨rfl, hx⟩ : elL F me = pre ∧ [me] = x :: post := by
        apply List.append_inj hpre
        omega
      have hdrop : (obL F me).drop (elL F me).length = vaL F me := by
        rw [hsp, List.drop_left]
      rw [hdrop] at hM1 hp1
      have hk0 : (0:ℤ) ≤ 1 + ((elL F me).length : ℤ) ∧ 1 + ((elL F me).length : ℤ) ≤ Al + 1 := by
        clear hA hg1 hobne hd1
        constructor <;> omega
      have hout := buildInner_spec (n := n) (Al := Al) (nz := nz) (me := me) (e := me)
        (knt1 := 1 + ((elL F me).length : ℤ))
        (ln := F .ln me - elenme) (degme := deg) (z := { z with pj := z.p }) (X := vaL F me) (F0 := F) (V := V)
        (hot := (· = me)) hR1 hM1 hB1 hmr hmr hV hAl (fun x => by simp) (by simp) (by omega)
        (fun y hy => by
          have := hobr me hme y (by rw [hsp]; exact List.mem_append_right _ hy)
          exact ⟨this.1, this.2, hent2 y hy⟩)
        hVn (fun h => hp1 (h.2.2 rfl)) (fun h => absurd rfl h) hd1 (Or.inl fun h => absurd rfl h)
        hVs hk0 hkl1
      refine wp_post hout ?_
      rintro ⟨s2, z2, deg2⟩ ⟨F2, P2, vp2, vl2, hR2, hM2, hB2, hP2, hd2, _, hf2, _⟩
      refine ⟨fun h => ?_, fun _ => ⟨F2, P2, hR2, hB2, hd2, ?_⟩⟩
      · rw [List.length_append, List.length_singleton] at h; push_cast at h; omega
      dsimp only at hM2
      have hcold : ∀ y, O y → y ≠ me → y ∉ elL F me → vp2 y = F2 .pe y ∧ vl2 y = F2 .ln y := by
        intro y a b c
        exact (hM2.cold y (hlay.rg y a).1 (hlay.rg y a).2 b).1 ⟨⟨a, c, fun h => absurd h b⟩, b⟩
      have hOO : ∀ y, (O y ∧ y ≠ me ∧ y ∉ elL F me) ↔
          ((O y ∧ y ∉ elL F me ∧ (y = me → vaL F me ≠ [])) ∧ y ≠ me) := by
        intro y
        exact ⟨fun h => ⟨⟨h.1, h.2.2, fun h' => absurd h' h.2.1⟩, h.2.1⟩, fun h => ⟨h.1.1, h.2, h.1.2.1⟩⟩
      refine ⟨⟨fun y hy => hlay.rg y hy.1, ?_, ?_⟩, ?_, ?_, hM2.iw, hM2.sP, hM2.pf, hM2.p0, ?_, ?_, ?_⟩
      · intro y hy
        obtain ⟨c1, c2⟩ := hcold y hy.1 hy.2.1 hy.2.2
        have := hM2.lay.pos y ((hOO y).1 hy)
        rw [virt_pe, virt_ln, c1, c2] at this
        exact this
      · intro y w hy hw hyw
        obtain ⟨c1, c2⟩ := hcold y hy.1 hy.2.1 hy.2.2
        obtain ⟨c3, c4⟩ := hcold w hw.1 hw.2.1 hw.2.2
        have := hM2.lay.dj y w ((hOO y).1 hy) ((hOO w).1 hw) hyw
        rw [virt_pe, virt_ln, c1, c2, c3, c4] at this
        exact this
      · intro y a b c
        obtain ⟨c1, c2⟩ := hcold y a b c
        have := hM2.con y ((hOO y).1 ⟨a, b, c⟩)
        rw [Function.update_of_ne b, if_neg b, c1, c2] at this
        exact ⟨this, by rw [hf2.ln y b]; exact hln1 y b c⟩
      · have := hM2.sum
        rw [psum_congr (O' := fun x => O x ∧ x ≠ me ∧ x ∉ elL F me) (g := F2 .ln) (fun y _ _ => (hOO y).symm)
          (fun y _ _ hy => by
            have := (hOO y).2 hy
            exact (hcold y this.1 this.2.1 this.2.2).2)] at this
        exact this
      · intro y
        rw [hP2 y, hP1 y]
        constructor
        · rintro (⟨e, he, h1, h2⟩ | ⟨h1, h2⟩)
          · exact ⟨h2, Or.inr ⟨e, he, h1⟩⟩
          · exact ⟨h2, Or.inl h1⟩
        · rintro ⟨h2, h1 | ⟨e, he, h1⟩⟩
          · exact Or.inr ⟨h1, h2⟩
          · exact Or.inl ⟨e, he, h1, h2⟩
      · intro y
        rw [hf2.oth .w (by decide) (by decide) (by decide) (by decide) (by decide) (by decide) (by decide)]
        exact hw1 y
      · intro y hy
        refine ⟨fun h => ?_, fun h1 h2 => ?_⟩
        · rw [hf2.pe y (fun h' => h'.2.1 h) hy]; exact (hpe1 y hy).1 h
        · rw [hf2.pe y (fun h' => h2 h'.1) hy]; exact (hpe1 y hy).2 h1 h2
    · rw [if_neg hlast]
      have hpl2 : (pre.length : ℤ) < elenme := by omega
      -- `x` is an element
      obtain ⟨post', hE⟩ : ∃ post', elL F me = pre ++ x :: post' := by
        have h1 : (elL F me).length > pre.length := by omega
        refine ⟨(elL F me).drop (pre.length + 1), ?_⟩
        have h2 : (elL F me ++ [me]).take pre.length = pre := by rw [hpre]; simp
        rw [List.take_append_of_le_length (by omega)] at h2
        have h3 : (elL F me ++ [me])[pre.length]? = some x := by rw [hpre]; simp
        rw [List.getElem?_append_left h1, List.getElem?_eq_getElem h1, Option.some.injEq] at h3
        conv_lhs => rw [← List.take_append_drop pre.length (elL F me), h2,
          List.drop_eq_getElem_cons h1, h3]
      have hxE : x ∈ elL F me := by rw [hE]; simp
      obtain ⟨hxO, hxm⟩ := helO x hxE
      have hxpre : x ∉ pre := by
        rw [hE] at hnd
        have := List.disjoint_of_nodup_append hnd
        exact fun h => this h (by simp)
      have hmpre : me ∉ pre := by
        intro h
        exact (helO me (by rw [hE]; simp [h])).2 rfl
      have hxr := hlay.rg x hxO
      have hdrop : (obL F me).drop pre.length = x :: (obL F me).drop (pre.length + 1) := by
        rw [hsp, hE]; simp
      have hdlen : (((obL F me).drop (pre.length + 1)).length : ℤ) = F .ln me - (1 + pre.length) := by
        rw [List.length_drop, hsp, List.length_append]
        have : (pre.length : ℤ) + 1 ≤ (elL F me).length := by omega
        omega
      obtain ⟨hOme, v0, v1, v2⟩ := hM1.head (e := me) rfl (by simp only [if_true]; exact hdrop)
      rw [hp1 (by rw [hdrop]; simp), hR1.rdi v0 v1, ok_bind, v2]
      cks hR1
      have hcons := (hM1.consume (e := me) rfl (by simp only [if_true]; exact hdrop)).mono
        (nz' := nz) (by omega)
      obtain ⟨vx1, vx2⟩ := (hM1.cold x hxr.1 hxr.2 hxm).1 ⟨hxO, hxpre, fun h => absurd h hxm⟩
      have hlx : F1 .ln x = (obL F x).length := by
        rw [← vx2, hM1.len ⟨hxO, hxpre, fun h => absurd h hxm⟩, if_neg hxm]
      rw [hR1.rdn .pe (by decide) hxr.1 hxr.2, ok_bind, hR1.rdn .ln (by decide) hxr.1 hxr.2, ok_bind, ← vx1]
      -- the element becomes hot
      have hM2 : BM n nz (fun y => y = me ∨ y = x)
          (fun y => O y ∧ y ∉ pre ∧ (y = me → (obL F me).drop (pre.length + 1) ≠ []))
          (fun y => if y = me then (obL F me).drop (pre.length + 1) else obL F y) P1 z.pme1 z.pfree
          (Function.update vp1 me (vp1 me + 1)) (Function.update vl1 me (vl1 me - 1)) F1 := by
        refine hcons.recast rfl (fun y => ?_) (fun y hy => ?_) (fun y hy => ?_) (fun y a b c => ?_)
        · constructor
          · rintro ⟨a, b, c⟩
            exact ⟨⟨a, b, fun _ => by rw [hdrop]; simp⟩, c⟩
          · rintro ⟨⟨a, b, _⟩, c⟩
            exact ⟨a, b, c⟩
        · by_cases e : y = me
          · subst e; simp
          · rw [if_neg e, Function.update_of_ne e, if_neg e]
        · rcases hy with rfl | rfl
          · rw [if_pos rfl]
            exact ⟨fun h => h.2 rfl, fun h => ⟨hOme, fun _ => h⟩⟩
          · rw [if_neg hxm]
            exact ⟨fun _ => hobne _ hxO, fun _ => ⟨⟨hxO, hxpre, fun h => absurd h hxm⟩, fun h => absurd h hxm⟩⟩
        · have c1 : y ≠ me := fun e => c (Or.inl e)
          exact hcons.cold y a b c1
      have hk0 := hkg pre.length hpl
      have hout := buildInner_spec (n := n) (Al := Al) (nz := nz) (me := me) (e := x)
        (knt1 := 1 + (pre.length : ℤ))
        (ln := F1 .ln x) (degme := deg) (z := { z with p := vp1 me + 1, pj := vp1 x }) (X := obL F x) (F0 := F) (V := V)
        (hot := fun y => y = me ∨ y = x) hR1 hM2 hB1 hmr hxr hV hAl (fun y => Iff.rfl) (by rw [if_neg hxm]) hlx
        (fun y hy => by
          have := hobr x hxO y hy
          exact ⟨this.1, this.2, hent x hxE y hy⟩)
        hVn (fun h => by rw [Function.update_of_ne hxm]) (fun _ _ => by rw [Function.update_self]) hd1
        (by
          rcases hg1 with h | h
          · refine Or.inl fun _ => ?_
            rw [if_pos rfl, hdlen, h]
          · exact Or.inr h) hVs hk0 hkl1
      refine wb (wp_post hout ?_)
      rintro ⟨s2, z2, deg2⟩ ⟨F2, P2, vp2, vl2, hR2, hM3, hB2, hP2, hd2, hp2, hf2, hg2, hkl2⟩
      dsimp only at hR2 hM3 hd2 hp2 hg2 ⊢
      rw [if_pos hxm]
      cks hR2
      obtain ⟨s3, e3, g3⟩ := hR2.wrn .pe (by decide) hxr.1 hxr.2 (flip me)
      rw [e3, ok_bind]
      obtain ⟨s4, e4, g4⟩ := g3.wrn .w (by decide) hxr.1 hxr.2 0
      rw [e4, ok_bind]
      have hf4 : ∀ f, f ≠ .pe → f ≠ .w → set (set F2 .pe x (flip me)) .w x 0 f = F2 f := by
        intro f a b; rw [set_ne _ b, set_ne _ a]
      refine wpr ⟨fun _ => ⟨_, P2, vp2, vl2, g4, ?_, ?_, ?_, hd2, ?_, ?_, ?_, ?_, ?_, ?_⟩, fun h => ?_⟩
      · refine hM3.recast (hf4 .iw (by decide) (by decide)) (fun y => ?_) (fun y hy => ?_) (fun y hy => ?_)
          (fun y a b c => ?_)
        · rw [List.length_append, List.length_singleton]
          simp only [List.mem_append, List.mem_singleton, not_or]
          exact ⟨fun h => ⟨⟨h.1, h.2.1.1, h.2.2⟩, h.2.1.2⟩, fun h => ⟨h.1.1, ⟨h.1.2.1, h.2⟩, h.1.2.2⟩⟩
        · rw [Function.update_of_ne hy.2, List.length_append, List.length_singleton]
        · subst hy
          rw [if_pos rfl, List.length_append, List.length_singleton]
          constructor
          · intro h; exact h.1.2.2 rfl
          · intro h; exact ⟨⟨hme, hmpre, fun _ => h⟩, Ne.symm hxm⟩
        · by_cases hyx : y = x
          · subst hyx
            refine ⟨fun h => absurd rfl h.2, fun _ => ?_⟩
            rw [set_ne _ (by decide), set_at]; unfold flip; omega
          · rw [set_ne _ (by decide), set_nei _ _ _ _ hyx, hf4 .ln (by decide) (by decide)]
            exact hM3.cold y a b (by rintro (h | h); exact c h; exact hyx h)
      · exact hB2.congr fun f a _ _ b => hf4 f a b
      · intro y
        rw [hP2 y, hP1 y]
        simp only [List.mem_append, List.mem_singleton]
        constructor
        · rintro (⟨e, he, h⟩ | h)
          · exact ⟨e, Or.inl he, h⟩
          · exact ⟨x, Or.inr rfl, h⟩
        · rintro ⟨e, he | he, h⟩
          · exact Or.inl ⟨e, he, h⟩
          · subst he; exact Or.inr h
      · intro h
        rw [List.length_append, List.length_singleton] at h
        exact hp2 (Ne.symm hxm) ⟨hme, hmpre, fun _ => h⟩
      · intro y
        rw [set_apply, set_ne _ (by decide),
          hf2.oth .w (by decide) (by decide) (by decide) (by decide) (by decide) (by decide) (by decide), hw1 y]
        by_cases hy : y = x
        · subst hy; simp
        · simp [hy]
      · intro y hy
        rw [set_ne _ (by decide), set_apply]
        by_cases hyx : y = x
        · subst hyx; simp
        · simp only [List.mem_append, List.mem_singleton, hyx, or_false, and_false, if_false]
          refine ⟨fun h => ?_, fun h1 h2 => ?_⟩
          · rw [hf2.pe y (fun h' => h'.2.1 h) (by rintro (h' | h'); exact hy h'; exact hyx h')]
            exact (hpe1 y hy).1 h
          · rw [hf2.pe y (fun h' => h2 h'.1) (by rintro (h' | h'); exact hy h'; exact hyx h')]
            exact (hpe1 y hy).2 h1 h2
      · intro y hy hyp
        simp only [List.mem_append, List.mem_singleton, not_or] at hyp
        rw [hf4 .ln (by decide) (by decide), hf2.ln y (by rintro (h' | h'); exact hy h'; exact hyp.2 h')]
        exact hln1 y hy hyp.1
      · rw [hf4 .ln (by decide) (by decide)]
        rcases hg2 with h | h
        · obtain ⟨h1, h2⟩ := h (Ne.symm hxm)
          rw [if_pos rfl, hdlen] at h2
          exact Or.inl (by rw [h1]; omega)
        · exact Or.inr h
      · rw [hf4 .ln (by decide) (by decide)]; exact hkl2
      · rw [List.length_append, List.length_singleton] at h; push_cast at h; omega
  · rintro ⟨s1, z, deg⟩ ⟨_, hfin⟩
    refine wpr ?_
    exact hfin (by rw [List.length_append, List.length_singleton]; push_cast; omega)

end Slip.Amd
