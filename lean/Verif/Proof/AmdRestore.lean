import Verif.Proof.AmdSuper

/-!
# AMD: selection of the pivot, restoring the degree lists, the final element
-/

namespace Slip.Amd

open Slip.Colamd (seg mem_seg seg_congr seg_succ length_seg seg_zero wp_seg wp_list csum seg_ext seg_getElem)

variable [Arith]

variable {n Al L : ℤ} {s : Mem} {F : Sh} {S : ℤ → Prop} {rk : ℤ → ℕ}

/-- The state after the pivot `me` has been taken. -/
theorem selectPivot_spec (hR : Rm n Al L s F) (hd : DL n F S rk) {deg : ℤ} (h0 : 0 ≤ deg) (h1 : deg < n)
    (hne : F .hd deg ≠ -1) (hnvb : ∀ c, S c → 0 < F .nv c ∧ F .nv c ≤ n) :
    ∃ s' F', selectPivot deg (F .hd deg) s = .ok (s', F .el (F .hd deg), F .nv (F .hd deg)) ∧ Rm n Al L s' F' ∧
      DL n F' (fun x => S x ∧ x ≠ F .hd deg) rk ∧
      (∀ x, F' .nv x = if x = F .hd deg then -F .nv x else F .nv x) ∧
      ∀ f, f ≠ .hd → f ≠ .la → f ≠ .nx → f ≠ .nv → F' f = F f := by
  obtain ⟨a, b, c⟩ : S (F .hd deg) ∧ F .dg (F .hd deg) = deg ∧ F .la (F .hd deg) = -1 := by
    rcases hd.hd deg h0 h1 with e | e
    · exact absurd e hne
    · exact e
  generalize hm : F .hd deg = me at *
  obtain ⟨m0, m1, _, _⟩ := hd.rg me a
  have hnx : F .nx me = -1 ∨ (0 ≤ F .nx me ∧ F .nx me < n) := by
    rcases hd.nx me a with e | ⟨e, _⟩
    · exact Or.inl e
    · have := hd.rg _ e; exact Or.inr ⟨this.1, this.2.1⟩
  have key : ∃ s1, (do
      let s ← (if F .nx me ≠ -1 then s.wr .la (F .nx me) (-1) else pure s)
      s.wr .hd deg (F .nx me)) = .ok s1 ∧ Rm n Al L s1 (unlink F me) := by
    have hu : unlink F me = set (if F .nx me ≠ -1 then set F .la (F .nx me) (-1) else F) .hd deg (F .nx me) := by
      unfold unlink
      rw [if_pos c, b, c]
      dsimp only
      split_ifs
      · exact set_comm _ (by decide) _ _ _ _
      · rfl
    rw [hu]
    by_cases hh : F .nx me ≠ -1
    · rw [if_pos hh, if_pos hh]
      have hh' : 0 ≤ F .nx me ∧ F .nx me < n := hnx.resolve_left hh
      obtain ⟨s1, e1, g1⟩ := hR.wrn .la (by decide) hh'.1 hh'.2 (-1)
      rw [e1, ok_bind]
      exact g1.wrn .hd (by decide) h0 h1 _
    · rw [if_neg hh, if_neg hh, pure_bind']
      exact hR.wrn .hd (by decide) h0 h1 _
  obtain ⟨s1, e1, g1⟩ := key
  have eel : unlink F me .el = F .el := unlink_ne F me (by decide) (by decide) (by decide)
  have env : unlink F me .nv = F .nv := unlink_ne F me (by decide) (by decide) (by decide)
  obtain ⟨s2, e2, g2⟩ := g1.wrn .nv (by decide) m0 m1 (-F .nv me)
  refine ⟨s2, _, ?_, g2, ?_, ?_, ?_⟩
  · unfold selectPivot
    rw [hR.rdn .nx (by decide) m0 m1, ok_bind]
    have : ∀ f : Mem → C (Mem × ℤ × ℤ), (do
        let s ← (if F .nx me ≠ -1 then s.wr .la (F .nx me) (-1) else pure s)
        let s ← s.wr .hd deg (F .nx me)
        f s) = f s1 := by
      intro f
      rw [← bind_assoc, e1, ok_bind]
    have hb := hnvb me a
    rw [this, g1.rdn .el (by decide) m0 m1, ok_bind, g1.rdn .nv (by decide) m0 m1, ok_bind, env]
    cks hR
    rw [e2, ok_bind, eel]
    rfl
  · refine (hd.del a).congr (fun _ => Iff.rfl) ?_ ?_ ?_ ?_
    · intro d _ _; rw [set_ne _ (by decide)]
    · intro d _; rw [set_ne _ (by decide)]
    · intro d _; rw [set_ne _ (by decide)]
    · intro d _; rw [set_ne _ (by decide)]
  · intro x
    rw [set_apply, env]
    by_cases hx : x = me
    · rw [if_pos ⟨rfl, hx⟩, if_pos hx, hx]
    · rw [if_neg (fun h => hx h.2), if_neg hx]
  · intro f a b c d
    rw [set_ne _ d, unlink_ne F me a b c]

/-! ## Restoring the degree lists -/

/-- The state `F'` after the variables `pre` have been restored. -/
structure RS (n L pme1 mindeg : ℤ) (S : ℤ → Prop) (F : Sh) (pre : List ℤ) (q md : ℤ) (F' : Sh) : Prop where
  q : q = pme1 + (pre.filter (F .nv · < 0)).length
  sg : seg (F' .iw) pme1 (pre.filter (F .nv · < 0)).length = pre.filter (F .nv · < 0)
  iw : ∀ p, p < pme1 ∨ pme1 + pre.length ≤ p → F' .iw p = F .iw p
  iwr : ∀ p, 0 ≤ p → p < L → 0 ≤ F' .iw p ∧ F' .iw p < n
  nv : ∀ x, F' .nv x = if x ∈ pre ∧ F .nv x < 0 then -F .nv x else F .nv x
  dl : ∃ rk', DL n F' (fun x => S x ∨ x ∈ pre.filter (F .nv · < 0)) rk'
  md : 0 ≤ md ∧ md ≤ mindeg ∧ ∀ c, S c ∨ c ∈ pre.filter (F .nv · < 0) → md ≤ F' .dg c
  dg : ∀ x, x ∉ pre.filter (F .nv · < 0) → F' .dg x = F .dg x
  oth : ∀ f, f ≠ .iw → f ≠ .nv → f ≠ .hd → f ≠ .la → f ≠ .nx → f ≠ .dg → F' f = F f

theorem restore_spec {nel degme pme1 mindeg : ℤ} {P : List ℤ} (hR : Rm n Al L s F)
    (hA : seg (F .iw) pme1 P.length = P) (h0 : 0 ≤ pme1) (hL : pme1 + P.length ≤ L) (hnd : P.Nodup)
    (hPr : ∀ i ∈ P, 0 ≤ i ∧ i < n ∧ ¬ S i ∧ (F .nv i < 0 → 0 ≤ F .dg i ∧ -F .nv i ≤ degme ∧ -F .nv i ≤ n - nel))
    (hn : 0 ≤ nel) (hiw : ∀ p, 0 ≤ p → p < L → 0 ≤ F .iw p ∧ F .iw p < n) (hd : DL n F S rk) (hm0 : 0 ≤ mindeg)
    (hmd : ∀ c, S c → mindeg ≤ F .dg c) (hnl : nel ≤ n) (hdm : 0 ≤ degme ∧ degme ≤ n)
    (hPb : ∀ i ∈ P, -n ≤ F .nv i ∧ F .nv i ≤ 0 ∧ F .dg i ≤ n) :
    wp (restore n nel degme pme1 (pme1 + P.length - 1) mindeg s)
      (fun y => ∃ F', Rm n Al L y.1 F' ∧ RS n L pme1 mindeg S F P y.2.1 y.2.2 F') (fun _ => False) := by
  unfold restore
  cks hR
  rw [show pme1 + (P.length : ℤ) - 1 + 1 = pme1 + P.length by ring]
  refine wp_list P (fun pre (y : Mem × ℤ × ℤ) => ∃ F', Rm n Al L y.1 F' ∧
    RS n L pme1 mindeg S F pre y.2.1 y.2.2 F') ?_ ?_
  · refine ⟨F, hR, by simp, by simp, fun _ _ => rfl, hiw, by simp, ⟨rk, ?_⟩, ⟨hm0, le_rfl, ?_⟩, fun _ _ => rfl,
      fun _ _ _ _ _ _ _ => rfl⟩
    · simpa using hd
    · simpa using hmd
  · rintro pre i post ⟨s1, q, md⟩ hpre ⟨F1, hR1, h1⟩
    dsimp only at hR1 h1 ⊢
    have hiP : i ∈ P := by rw [hpre]; simp
    have hipre : i ∉ pre := by
      rw [hpre] at hnd
      exact fun h => (List.nodup_append.1 hnd).2.2 i h i (by simp) rfl
    obtain ⟨i0, i1, hiS, hi⟩ := hPr i hiP
    have hlen : (pre.length : ℤ) < P.length := by rw [hpre]; simp
    have hiv : F1 .iw (pme1 + pre.length) = i := by
      rw [h1.iw _ (Or.inr le_rfl)]; exact (seg_getElem (hA.trans hpre)).1
    have hnv1 : F1 .nv i = F .nv i := by rw [h1.nv, if_neg fun h => hipre h.1]
    have hql : ((pre.filter (F .nv · < 0)).length : ℤ) ≤ pre.length := by
      exact_mod_cast List.length_filter_le _ _
    have hq := h1.q
    rw [hR1.rdi (by omega) (by omega), ok_bind, hiv, hR1.rdn .nv (by decide) i0 i1, ok_bind, hnv1]
    obtain ⟨b1, b2, b3⟩ := hPb i hiP
    cks hR
    by_cases hneg : F .nv i < 0
    · rw [if_pos (show -F .nv i > 0 by omega)]
      obtain ⟨d0, d1, d2⟩ := hi hneg
      obtain ⟨rk1, hd1⟩ := h1.dl
      have hinew : ¬ (S i ∨ i ∈ pre.filter (F .nv · < 0)) := by
        rintro (h | h)
        · exact hiS h
        · exact hipre (List.mem_of_mem_filter h)
      have hdg1 : F1 .dg i = F .dg i := h1.dg i fun h => hinew (Or.inr h)
      obtain ⟨s2, e2, g2⟩ := hR1.wrn .nv (by decide) i0 i1 (-F .nv i)
      rw [e2, ok_bind, g2.rdn .dg (by decide) i0 i1, ok_bind, set_ne _ (by decide), hdg1]
      cks hR
      cks hR
      cks hR
      set deg := min (F .dg i + degme - -F .nv i) (n - nel - -F .nv i) with hdeg
      have hdeg0 : 0 ≤ deg ∧ deg < n := by omega
      set F2 := set (set F1 .nv i (-F .nv i)) .dg i deg with hF2
      have hd2 : DL n F2 (fun x => S x ∨ x ∈ pre.filter (F .nv · < 0)) rk1 := by
        refine hd1.congr (fun _ => Iff.rfl) ?_ ?_ ?_ ?_
        · intro d _ _; rw [hF2, set_ne _ (by decide), set_ne _ (by decide)]
        · intro c hc
          have : c ≠ i := by rintro rfl; exact hinew hc
          rw [hF2, set_nei _ _ _ _ this, set_nei _ _ _ _ this]
        · intro d _; rw [hF2, set_ne _ (by decide), set_ne _ (by decide)]
        · intro d _; rw [hF2, set_ne _ (by decide), set_ne _ (by decide)]
      have hdgi : F2 .dg i = deg := by rw [hF2, set_at]
      have hd3 := hd2.ins hinew i0 i1 (by rw [hdgi]; exact hdeg0.1) (by rw [hdgi]; exact hdeg0.2)
      rw [hdgi] at hd3
      set G1 := set F1 .nv i (-F .nv i) with hG1
      have hG1hd : G1 .hd = F1 .hd := set_ne _ (by decide) _ _
      have hhd : F1 .hd deg = -1 ∨ (S (F1 .hd deg) ∨ F1 .hd deg ∈ pre.filter (F .nv · < 0)) := by
        rcases hd1.hd deg hdeg0.1 hdeg0.2 with e | e
        · exact Or.inl e
        · exact Or.inr e.1
      have hhdi : G1 .hd deg ≠ i := by
        rw [hG1hd]
        rcases hhd with e | e
        · omega
        · intro h; rw [h] at e; exact hinew e
      obtain ⟨s3, e3, g3⟩ := insertDeg_spec g2 i0 i1 hdeg0.1 hdeg0.2 (by
        rw [hG1hd]
        rcases hhd with e | e
        · exact Or.inl e
        · have := hd1.rg _ e; exact Or.inr ⟨this.1, this.2.1⟩)
      rw [e3, ok_bind]
      obtain ⟨s4, e4, g4⟩ := g3.wrn .la (by decide) i0 i1 (-1)
      rw [e4, ok_bind]
      rw [← link_of_lnk G1 hhdi] at g4
      obtain ⟨s5, e5, g5⟩ := g4.wrn .dg (by decide) i0 i1 deg
      rw [e5, ok_bind]
      have hlk : set (link G1 i deg) .dg i deg = link F2 i deg := by
        have hh2 : F2 .hd = G1 .hd := set_ne _ (by decide) _ _
        unfold link
        rw [hh2, hF2]
        funext f x
        dsimp only
        by_cases hh : G1 .hd deg ≠ -1
        · rw [if_pos hh, if_pos hh]
          simp only [set_apply]
          cases f <;> simp
        · rw [if_neg hh, if_neg hh]
          simp only [set_apply]
          cases f <;> simp
      rw [hlk] at g5
      cks hR
      obtain ⟨s6, e6, g6⟩ := g5.wri (i := q) (by omega) (by omega) i
      rw [e6, ok_bind]
      have hfl : (pre ++ [i]).filter (F .nv · < 0) = pre.filter (F .nv · < 0) ++ [i] := by
        rw [List.filter_append]; simp [hneg]
      have liw : link F2 i deg .iw = F1 .iw := by
        rw [link_ne _ _ _ (by decide) (by decide) (by decide), hF2, set_ne _ (by decide), hG1, set_ne _ (by decide)]
      have lnv : link F2 i deg .nv = G1 .nv := by
        rw [link_ne _ _ _ (by decide) (by decide) (by decide), hF2, set_ne _ (by decide)]
      have ldg : link F2 i deg .dg = F2 .dg :=
        link_ne _ _ _ (by decide) (by decide) (by decide)
      have hdg2 : ∀ x, x ≠ i → F2 .dg x = F1 .dg x := fun x hx => by
        rw [hF2, set_nei _ _ _ _ hx, hG1, set_nei _ _ _ _ hx]
      refine wpr ⟨_, g6, ?_⟩
      constructor
      · rw [hfl]; show q + 1 = _; rw [List.length_append, List.length_singleton]; push_cast; omega
      · rw [hfl, set_same, liw]
        exact seg_app h1.sg hq
      · intro p hp
        simp only [List.length_append, List.length_singleton] at hp
        push_cast at hp
        rw [set_nei _ _ _ _ (by omega), liw]; exact h1.iw p (by omega)
      · intro p a b
        by_cases hp : p = q
        · rw [hp, set_at]; exact ⟨i0, i1⟩
        · rw [set_nei _ _ _ _ hp, liw]; exact h1.iwr p a b
      · intro x
        rw [set_ne _ (by decide), lnv, hG1, set_apply, h1.nv]
        by_cases hx : x = i
        · subst hx; rw [if_pos ⟨rfl, rfl⟩, if_pos ⟨by simp, hneg⟩]
        · rw [if_neg fun h => hx h.2]
          have : x ∈ pre ++ [i] ↔ x ∈ pre := by simp [hx]
          simp only [this]
      · refine ⟨_, hd3.congr ?_ ?_ ?_ ?_ ?_⟩
        · intro c; rw [hfl, List.mem_append, List.mem_singleton, or_assoc]
        all_goals intros; rw [set_ne _ (by decide)]
      · obtain ⟨m0, m1, m2⟩ := h1.md
        refine ⟨?_, ?_, ?_⟩
        · show 0 ≤ min md deg; omega
        · show min md deg ≤ mindeg; omega
        · intro c hc
          show min md deg ≤ _
          rw [set_ne _ (by decide), ldg]
          by_cases hx : c = i
          · rw [hx, hdgi]; omega
          · have := m2 c (by
              rw [hfl, List.mem_append, List.mem_singleton] at hc
              tauto)
            rw [hdg2 c hx]; omega
      · intro x hx
        rw [hfl, List.mem_append, List.mem_singleton, not_or] at hx
        rw [set_ne _ (by decide), ldg, hdg2 x hx.2]; exact h1.dg x hx.1
      · intro f a b c d e g
        rw [set_ne _ a, link_ne _ _ _ c d e, hF2, set_ne _ g, hG1, set_ne _ b]
        exact h1.oth f a b c d e g
    · rw [if_neg (show ¬ -F .nv i > 0 by omega)]
      have hfl : (pre ++ [i]).filter (F .nv · < 0) = pre.filter (F .nv · < 0) := by
        rw [List.filter_append]; simp; omega
      refine wpr ⟨F1, hR1, ?_⟩
      constructor
      · rw [hfl]; exact hq
      · rw [hfl]; exact h1.sg
      · intro p hp
        simp only [List.length_append, List.length_singleton] at hp
        push_cast at hp
        exact h1.iw p (by omega)
      · exact h1.iwr
      · intro x
        rw [h1.nv]
        by_cases hx : x = i
        · subst hx; rw [if_neg fun h => hneg h.2, if_neg fun h => hneg h.2]
        · have : x ∈ pre ++ [i] ↔ x ∈ pre := by simp [hx]
          simp only [this]
      · rw [hfl]; exact h1.dl
      · rw [hfl]; exact h1.md
      · rw [hfl]; exact h1.dg
      · exact h1.oth

/-- amd_2.c lines 1499-1514 -/
theorem finalize_spec {me nvpiv elenme pme1 p pfree : ℤ} (hR : Rm n Al L s F) (hm : 0 ≤ me ∧ me < n)
    (hp : 0 ≤ p - pme1 ∧ p - pme1 ≤ Al) :
    ∃ s' F', finalize me nvpiv elenme pme1 p pfree s = .ok (s', if elenme ≠ 0 then p else pfree) ∧ Rm n Al L s' F' ∧
      F' .nv me = nvpiv ∧ F' .ln me = p - pme1 ∧ (p = pme1 → F' .pe me = -1 ∧ F' .w me = 0) ∧
      (p ≠ pme1 → F' .pe me = F .pe me ∧ F' .w me = F .w me) ∧ (∀ f x, x ≠ me → F' f x = F f x) ∧
      ∀ f, f ≠ .nv → f ≠ .ln → f ≠ .pe → f ≠ .w → F' f = F f := by
  unfold finalize
  obtain ⟨s1, e1, g1⟩ := hR.wrn .nv (by decide) hm.1 hm.2 nvpiv
  rw [e1, ok_bind]
  cks hR
  obtain ⟨s2, e2, g2⟩ := g1.wrn .ln (by decide) hm.1 hm.2 (p - pme1)
  rw [e2, ok_bind, g2.rdn .ln (by decide) hm.1 hm.2, ok_bind, set_at]
  by_cases h : p - pme1 = 0
  · rw [if_pos h]
    obtain ⟨s3, e3, g3⟩ := g2.wrn .pe (by decide) hm.1 hm.2 (-1)
    rw [e3, ok_bind]
    obtain ⟨s4, e4, g4⟩ := g3.wrn .w (by decide) hm.1 hm.2 0
    rw [e4, ok_bind]
    refine ⟨s4, _, rfl, g4, ?_, ?_, ?_, ?_, ?_, ?_⟩
    · rw [set_ne _ (by decide), set_ne _ (by decide), set_ne _ (by decide), set_at]
    · rw [set_ne _ (by decide), set_ne _ (by decide), set_at]
    · intro _
      refine ⟨by rw [set_ne _ (by decide), set_at], by rw [set_at]⟩
    · intro h'; omega
    · intro f x hx; simp only [set_nei _ _ _ _ hx]
    · intro f a b c d; rw [set_ne _ d, set_ne _ c, set_ne _ b, set_ne _ a]
  · rw [if_neg h]
    refine ⟨s2, _, rfl, g2, ?_, ?_, ?_, ?_, ?_, ?_⟩
    · rw [set_ne _ (by decide), set_at]
    · rw [set_at]
    · intro h'; omega
    · intro _
      refine ⟨?_, ?_⟩ <;> rw [set_ne _ (by decide), set_ne _ (by decide)]
    · intro f x hx; simp only [set_nei _ _ _ _ hx]
    · intro f a b c d; rw [set_ne _ b, set_ne _ a]

end Slip.Amd
