import Verif.Proof.AmdScan2

/-!
# AMD: scan 2
-/

namespace Slip.Amd

open Slip.Colamd (seg mem_seg seg_congr seg_succ length_seg seg_zero wp_seg wp_list csum seg_ext)

variable [Arith]

variable {n Al L : ℤ} {s : Mem} {F G : Sh} {S : ℤ → Prop} {rk : ℤ → ℕ}

theorem updateVar_spec {bk : ℤ → List ℤ} {me i p1 p3 pn deg hash : ℤ} (hR : Rm n Al L s F)
    (hb : HB n G F S bk) (hd : DL n G S rk) (h0 : 0 ≤ p1) (h1 : p1 ≤ p3) (h2 : p3 ≤ pn) (h3 : pn < L)
    (i0 : 0 ≤ i) (i1 : i < n) (hS : ¬ S i)
    (hcb : ∀ x, 0 ≤ x → x < n → i ∉ bk x) :
    ∃ s' F', updateVar n me i p1 p3 pn deg hash s = .ok s' ∧ Rm n Al L s' F' ∧
      HB n G F' S (Function.update bk (hash % n) (i :: bk (hash % n))) ∧
      F' .iw = Function.update (Function.update (Function.update (F .iw) pn (F .iw p3)) p3
        (Function.update (F .iw) pn (F .iw p3) p1)) p1 me ∧
      F' .ln = Function.update (F .ln) i (pn - p1 + 1) ∧
      F' .dg = Function.update (F .dg) i (min (F .dg i) deg) ∧ F' .la i = hash % n ∧
      (∀ x, ¬ S x → x ≠ i → F' .la x = F .la x) ∧
      ∀ f, f ≠ .iw → f ≠ .ln → f ≠ .dg → f ≠ .hd → f ≠ .la → f ≠ .nx → F' f = F f := by
  have hn : 0 < n := by omega
  have q0 : 0 ≤ hash % n := Int.emod_nonneg _ (by omega)
  have q1 : hash % n < n := Int.emod_lt_of_pos _ hn
  unfold updateVar
  rw [hR.rdn .dg (by decide) i0 i1, ok_bind]
  obtain ⟨s1, e1, g1⟩ := hR.wrn .dg (by decide) i0 i1 (min (F .dg i) deg)
  rw [e1, ok_bind, g1.rdi (by omega) (by omega), ok_bind]
  obtain ⟨s2, e2, g2⟩ := g1.wri (i := pn) (by omega) (by omega) (set F .dg i (min (F .dg i) deg) .iw p3)
  rw [e2, ok_bind, g2.rdi (by omega) (by omega), ok_bind]
  obtain ⟨s3, e3, g3⟩ := g2.wri (i := p3) (by omega) (by omega)
    (set (set F .dg i (min (F .dg i) deg)) .iw pn (set F .dg i (min (F .dg i) deg) .iw p3) .iw p1)
  rw [e3, ok_bind]
  obtain ⟨s4, e4, g4⟩ := g3.wri (i := p1) (by omega) (by omega) me
  rw [e4, ok_bind]
  cks hR
  cks hR
  obtain ⟨s5, e5, g5⟩ := g4.wrn .ln (by decide) i0 i1 (pn - p1 + 1)
  rw [e5, ok_bind]
  obtain ⟨F5, hF5, hFE⟩ : ∃ F5, F5 = set (set (set (set (set F .dg i (min (F .dg i) deg)) .iw pn
    (set F .dg i (min (F .dg i) deg) .iw p3)) .iw p3 (set (set F .dg i (min (F .dg i) deg)) .iw pn
    (set F .dg i (min (F .dg i) deg) .iw p3) .iw p1)) .iw p1 me) .ln i (pn - p1 + 1) ∧ True := ⟨_, rfl, trivial⟩
  rw [← hF5] at g5
  have f1 : F5 .iw = Function.update (Function.update (Function.update (F .iw) pn (F .iw p3)) p3
      (Function.update (F .iw) pn (F .iw p3) p1)) p1 me := by
    rw [hF5, set_ne _ (by decide), set_same, set_same, set_same, set_ne _ (by decide)]
  have f2 : F5 .ln = Function.update (F .ln) i (pn - p1 + 1) := by
    rw [hF5, set_same, set_ne _ (by decide), set_ne _ (by decide), set_ne _ (by decide), set_ne _ (by decide)]
  have f3 : F5 .dg = Function.update (F .dg) i (min (F .dg i) deg) := by
    rw [hF5, set_ne _ (by decide), set_ne _ (by decide), set_ne _ (by decide), set_ne _ (by decide), set_same]
  have f4 : ∀ f, f ≠ .iw → f ≠ .ln → f ≠ .dg → F5 f = F f := by
    intro f a b c
    rw [hF5, set_ne _ b, set_ne _ a, set_ne _ a, set_ne _ a, set_ne _ c]
  have hb5 : HB n G F5 S bk := hb.congr (f4 _ (by decide) (by decide) (by decide))
    (f4 _ (by decide) (by decide) (by decide)) (f4 _ (by decide) (by decide) (by decide)) (by
      intro x hx
      rw [f3, Function.update_of_ne]
      rintro rfl; exact hS hx)
  obtain ⟨s6, F6, r1, r2, r3, r4, r5, r6⟩ := pushHash_spec g5 hb5 hd q0 q1 i0 i1 hS hcb
  refine ⟨s6, F6, r1, r2, r3, ?_, ?_, ?_, r5, ?_, ?_⟩
  · rw [r4 _ (by decide) (by decide) (by decide), f1]
  · rw [r4 _ (by decide) (by decide) (by decide), f2]
  · rw [r4 _ (by decide) (by decide) (by decide), f3]
  · intro x a b; rw [r6 x a b, f4 _ (by decide) (by decide) (by decide)]
  · intro f a b c d e g; rw [r4 f d e g, f4 f a b c]

theorem massElim_spec {me i : ℤ} {z : Sc2} (hR : Rm n Al L z.s F) (i0 : 0 ≤ i) (i1 : i < n)
    (hm : 0 ≤ me ∧ me < n) (hv : -n ≤ F .nv i ∧ F .nv i ≤ n)
    (hz : (-n ≤ z.degme ∧ z.degme ≤ n) ∧ (0 ≤ z.nvpiv ∧ z.nvpiv ≤ 2 * n) ∧ 0 ≤ z.nel ∧ z.nel ≤ 2 * n) :
    ∃ s', massElim me i z = .ok (Sc2.mk s' (z.degme + F .nv i) (z.nvpiv - F .nv i) (z.nel - F .nv i)) ∧
      Rm n Al L s' (set (set (set F .pe i (flip me)) .nv i 0) .el i (-1)) := by
  unfold massElim
  cks hR
  obtain ⟨s1, e1, g1⟩ := hR.wrn .pe (by decide) i0 i1 (flip me)
  rw [e1, ok_bind, g1.rdn .nv (by decide) i0 i1, ok_bind, set_ne _ (by decide)]
  cks hR
  cks hR
  cks hR
  cks hR
  obtain ⟨s2, e2, g2⟩ := g1.wrn .nv (by decide) i0 i1 0
  rw [e2, ok_bind]
  obtain ⟨s3, e3, g3⟩ := g2.wrn .el (by decide) i0 i1 (-1)
  rw [e3, ok_bind]
  refine ⟨s3, ?_, g3⟩
  rw [sub_neg_eq_add, ← sub_eq_add_neg, ← sub_eq_add_neg]
  rfl

theorem tch_append {agg : Bool} {wflg : ℤ} {pre : List ℤ} {i x : ℤ} :
    tch agg G wflg (pre ++ [i]) x ↔ tch agg G wflg pre x ∨ (x ∈ elL G i ∧ ab agg G wflg x) := by
  unfold tch
  constructor
  · rintro ⟨a, j, hj, hx⟩
    rw [List.mem_append, List.mem_singleton] at hj
    rcases hj with hj | rfl
    · exact Or.inl ⟨a, j, hj, hx⟩
    · exact Or.inr ⟨hx, a⟩
  · rintro (⟨a, j, hj, hx⟩ | ⟨a, b⟩)
    · exact ⟨a, j, by simp [hj], hx⟩
    · exact ⟨b, i, by simp, a⟩

theorem scan2One_spec {me pme1 wflg : ℤ} {agg : Bool} {P pre post : List ℤ} {i : ℤ} {bk : ℤ → List ℤ} {z : Sc2}
    (h : H2 n L me pme1 wflg agg P S G) (hd : DL n G S rk) (hP : P = pre ++ i :: post)
    (hR : Rm n Al L z.s F) (h2 : S2 n L me wflg agg S G pre bk F)
    (hz : (-n ≤ z.degme ∧ z.degme ≤ n) ∧ (0 ≤ z.nvpiv ∧ z.nvpiv ≤ 2 * n) ∧ 0 ≤ z.nel ∧ z.nel ≤ 2 * n) :
    wp (scan2One n agg me wflg (pme1 + pre.length) z)
      (fun y => ∃ F' bk', Rm n Al L y.s F' ∧ S2 n L me wflg agg S G (pre ++ [i]) bk' F' ∧
        y.degme = z.degme - (if mass agg G wflg i then -G .nv i else 0) ∧
        y.nvpiv = z.nvpiv + (if mass agg G wflg i then -G .nv i else 0) ∧
        y.nel = z.nel + (if mass agg G wflg i then -G .nv i else 0))
      (fun _ => False) := by
  have hi : i ∈ P := by rw [hP]; simp
  have hpreP : ∀ j ∈ pre, j ∈ P := fun j hj => by rw [hP]; simp [hj]
  obtain ⟨i0, i1, ip0, iel0, iel1, ip1, inv, idg⟩ := h.rg i hi
  have hipre : i ∉ pre := by
    have := h.ndp
    rw [hP] at this
    exact fun hh => List.disjoint_of_nodup_append this hh (by simp)
  have hlen : (pre.length : ℤ) < P.length := by rw [hP]; simp
  have hp0 := h.p0
  have htP : ∀ x ∈ P, ∀ q, (∀ j ∈ q, j ∈ P) → ¬ tch agg G wflg q x := by
    rintro x hx q hq ⟨_, j, hj, hxe⟩
    exact (h.elp j (hq j hj) x hxe).1 hx
  have hdjpre : ∀ p, G .pe i ≤ p → p < G .pe i + G .ln i → F .iw p = G .iw p := by
    intro p a b
    apply h2.iw
    intro j hj
    have hne : i ≠ j := by rintro rfl; exact hipre hj
    have := h.dj i hi j (hpreP j hj) hne
    omega
  have hrd : F .iw (pme1 + pre.length) = i := by
    rw [h2.iw]
    · exact (Slip.Colamd.seg_getElem (h.hP.trans hP)).1
    · intro j hj
      have := h.djm j (hpreP j hj)
      omega
  have hpei : F .pe i = G .pe i := h2.pe3 i (htP i hi pre hpreP) fun hh => hipre hh.1
  have heli : F .el i = G .el i := h2.el3 i hipre
  have hX : seg (F .iw) (G .pe i) (G .el i) = elL G i :=
    seg_congr fun p a b => hdjpre p a (by omega)
  have hkp : ∀ e, kp agg F wflg e ↔ kp agg G wflg e := by
    intro e
    by_cases ht : tch agg G wflg pre e
    · constructor
      · intro hk; exact absurd (h2.w1 e ht) hk.1
      · intro hk; exact absurd ht.1 (kp_iff.1 hk).2
    · unfold kp; rw [h2.w2 e ht]
  have habF : ∀ e, ab agg F wflg e ↔ ab agg G wflg e ∧ ¬ tch agg G wflg pre e := by
    intro e
    by_cases ht : tch agg G wflg pre e
    · constructor
      · intro hk; exact absurd (h2.w1 e ht) hk.1
      · intro hk; exact absurd ht hk.2
    · unfold ab; rw [h2.w2 e ht]; exact ⟨fun a => ⟨a, ht⟩, fun a => a.1⟩
  unfold scan2One
  rw [hR.rdi (by omega) (by omega), ok_bind, hrd, hR.rdn .pe (by decide) i0 i1, ok_bind,
    hR.rdn .el (by decide) i0 i1, ok_bind, hpei, heli]
  cks hR
  cks hR
  refine wb (wp_post (scan2Elems_spec (me := me) (agg := agg) (wflg := wflg) (p1 := G .pe i) (eln := G .el i)
    hR ip0 iel0 (by omega) h2.iwr (by rw [hX]; exact h.nde i hi) (by
      rw [hX]
      intro e he hw
      by_cases ht : tch agg G wflg pre e
      · exact absurd (h2.w1 e ht) hw
      · rw [h2.w2 e ht] at hw ⊢; exact h.we i hi e he hw) (by
      rw [hX]
      intro e he hw
      by_cases ht : tch agg G wflg pre e
      · exact absurd (h2.w1 e ht) hw
      · rw [h2.w2 e ht] at hw ⊢; exact h.wn i hi e he hw) ⟨h.m.1, h.m.2.1⟩) ?_)
  rintro ⟨s1, pn1, deg1, hash1⟩ ⟨F1, k1, hR1, hk1, hpn1, hsk1, hiw1, hdeg1, hhash1, hpe1, hw1, ho1, hI1, hdn1⟩
  dsimp only at hR1 hpn1 hdeg1 hhash1 hdn1 ⊢
  rw [hX] at hk1 hpe1 hw1
  have hk1 : k1 = kE agg G wflg i := by
    rw [hk1]; unfold kE
    exact List.filter_congr fun e _ => by simp only [hkp]
  have hk1l : (k1.length : ℤ) ≤ G .el i := by
    rw [hk1]; unfold kE
    have := List.length_filter_le (fun x => decide (kp agg G wflg x)) (elL G i)
    unfold elL at this ⊢
    rw [length_seg] at this
    omega
  cks hR1
  cks hR1
  obtain ⟨s2, e2, g2⟩ := hR1.wrn .el (by decide) i0 i1 (pn1 - G .pe i + 1)
  rw [e2, ok_bind, g2.rdn .ln (by decide) i0 i1, ok_bind]
  have hln2 : set F1 .el i (pn1 - G .pe i + 1) .ln i = G .ln i := by
    rw [set_ne _ (by decide), ho1 _ (by decide) (by decide) (by decide)]
    exact h2.ln3 i fun hh => hipre hh.1
  have hiw2 : set F1 .el i (pn1 - G .pe i + 1) .iw = F1 .iw := set_ne _ (by decide) _ _
  have hnv1 : set F1 .el i (pn1 - G .pe i + 1) .nv = F .nv := by
    rw [set_ne _ (by decide), ho1 _ (by decide) (by decide) (by decide)]
  have hnvpos : ∀ j, 0 < F .nv j ↔ 0 < G .nv j := by
    intro j
    by_cases hj : j ∈ pre ∧ mass agg G wflg j
    · have a := h2.nv1 j hj.1 hj.2
      have b := (h.rg j (hpreP j hj.1)).2.2.2.2.2.2.1
      omega
    · rw [h2.nv2 j hj]
  rw [hln2]
  cks hR1
  rw [show G .pe i + G .el i - 1 + 1 = G .pe i + G .el i by ring,
    show G .pe i + G .ln i = G .pe i + G .el i + (G .ln i - G .el i) by ring]
  have hY : seg (set F1 .el i (pn1 - G .pe i + 1) .iw) (G .pe i + G .el i) (G .ln i - G .el i) = vaL G i := by
    rw [hiw2]
    apply seg_congr
    intro p a b
    rw [hiw1 p (by omega)]
    exact hdjpre p (by omega) (by omega)
  refine wb (wp_post (scan2Vars_spec (p := G .pe i + G .el i) (l := G .ln i - G .el i) (pn0 := pn1) (deg0 := deg1)
    (hash0 := hash1) g2 (by omega) (by omega) (by omega) (by omega) (by rw [hiw2]; exact hI1) hdeg1 hhash1 hdn1
    (by rw [hY]; exact h.ndv i hi) (by
      rw [hY, hnv1]
      refine le_trans (le_of_eq (psum_congr (fun x _ _ => ?_) fun x _ _ hx => ?_)) (h.vs i hi)
      · rw [hnvpos]
      · refine h2.nv2 x fun hj => ?_
        have a := h2.nv1 x hj.1 hj.2
        have := hx.2
        omega)) ?_)
  rintro ⟨s3, pn, deg, hash⟩ ⟨F3, k2, hR3, hk2, hpn, hsk2, hiw3, hdeg, hhash, ho3, hI3⟩
  dsimp only at hR3 hpn hdeg hhash ⊢
  rw [hY] at hk2
  rw [hiw2] at hiw3
  have hnvi : F .nv i = G .nv i := h2.nv2 i fun hh => hipre hh.1
  have hk2 : k2 = kV G i := by
    rw [hk2]; unfold kV
    exact List.filter_congr fun e _ => by rw [hnv1]; simp only [hnvpos]
  have hroom := h.room i hi
  rw [← hk1, ← hk2] at hroom
  -- the state before the decision
  have c1 : seg (F3 .iw) (G .pe i) k1.length = k1 := by
    conv_rhs => rw [← hsk1]
    exact seg_congr fun p a b => hiw3 p (by omega)
  have hF3 : ∀ f, f ≠ .iw → f ≠ .el → f ≠ .pe → f ≠ .w → F3 f = F f := by
    intro f a b c d
    rw [ho3 f a, set_ne _ b, ho1 f a c d]
  have hF3iw : ∀ p, p < G .pe i ∨ G .pe i + G .ln i ≤ p → F3 .iw p = F .iw p := by
    intro p hp
    rw [hiw3 p (by omega), hiw1 p (by omega)]
  have hF3el : ∀ x, F3 .el x = if x = i then pn1 - G .pe i + 1 else F .el x := by
    intro x
    rw [ho3 _ (by decide), set_apply, ho1 _ (by decide) (by decide) (by decide)]
    simp
  have hF3pe : ∀ x, F3 .pe x = if x ∈ elL G i ∧ ab agg F wflg x then flip me else F .pe x := by
    intro x; rw [ho3 _ (by decide), set_ne _ (by decide), hpe1]
  have hF3w : ∀ x, F3 .w x = if x ∈ elL G i ∧ ab agg F wflg x then 0 else F .w x := by
    intro x; rw [ho3 _ (by decide), set_ne _ (by decide), hw1]
  have hw1' : ∀ x, tch agg G wflg (pre ++ [i]) x → F3 .w x = 0 := by
    intro x hx
    rw [hF3w]
    by_cases ht : tch agg G wflg pre x
    · rw [h2.w1 x ht]; simp
    · rcases tch_append.1 hx with hx | hx
      · exact absurd hx ht
      · rw [if_pos ⟨hx.1, (habF x).2 ⟨hx.2, ht⟩⟩]
  have hw2' : ∀ x, ¬ tch agg G wflg (pre ++ [i]) x → F3 .w x = G .w x := by
    intro x hx
    rw [tch_append, not_or] at hx
    rw [hF3w, if_neg fun hh => hx.2 ⟨hh.1, ((habF x).1 hh.2).1⟩, h2.w2 x hx.1]
  have hpe1' : ∀ x, tch agg G wflg (pre ++ [i]) x → F3 .pe x = flip me := by
    intro x hx
    rw [hF3pe]
    by_cases ht : tch agg G wflg pre x
    · rw [h2.pe1 x ht]; simp
    · rcases tch_append.1 hx with hx | hx
      · exact absurd hx ht
      · rw [if_pos ⟨hx.1, (habF x).2 ⟨hx.2, ht⟩⟩]
  have hpe2' : ∀ x, ¬ tch agg G wflg (pre ++ [i]) x → F3 .pe x = F .pe x := by
    intro x hx
    rw [tch_append, not_or] at hx
    rw [hF3pe, if_neg fun hh => hx.2 ⟨hh.1, ((habF x).1 hh.2).1⟩]
  have hsub' : ∀ j ∈ pre ++ [i], j ∈ P := by
    intro j hj
    rw [List.mem_append, List.mem_singleton] at hj
    rcases hj with hj | rfl
    · exact hpreP j hj
    · exact hi
  have hmi : ∀ x, x ∈ pre ++ [i] ↔ x ∈ pre ∨ x = i := by intro x; simp
  have hpei3 : F3 .pe i = G .pe i := by
    rw [hpe2' i (htP i hi _ hsub'), hpei]
  rw [hR3.rdn .el (by decide) i0 i1, ok_bind, hF3el, if_pos rfl]
  have hmass : (pn1 - G .pe i + 1 = 1 ∧ pn1 = pn) ↔ mass agg G wflg i := by
    unfold mass
    rw [← hk1, ← hk2, ← List.length_eq_zero_iff, ← List.length_eq_zero_iff]
    omega
  by_cases hm : mass agg G wflg i
  · rw [if_pos (hmass.2 hm), if_pos hm]
    have hnv3 : F3 .nv i = G .nv i := by
      rw [hF3 _ (by decide) (by decide) (by decide) (by decide), hnvi]
    have hnvn : -G .nv i ≤ n := le_trans (List.single_le_sum (by
      intro x hx
      obtain ⟨y, hy, rfl⟩ := List.mem_map.1 hx
      have := (h.rg y hy).2.2.2.2.2.2.1
      omega) _ (List.mem_map.2 ⟨i, hi, rfl⟩)) h.ps
    obtain ⟨s4, e4, g4⟩ := massElim_spec (me := me) (z := { z with s := s3 }) hR3 i0 i1 ⟨h.m.1, h.m.2.1⟩
      (by omega) hz
    rw [e4]
    refine wok ⟨_, bk, g4, ?_, ?_, ?_, ?_⟩
    rotate_left
    · show z.degme + F3 .nv i = _; omega
    · show z.nvpiv - F3 .nv i = _; omega
    · show z.nel - F3 .nv i = _; omega
    have u1 : ∀ f, f ≠ .pe → f ≠ .nv → f ≠ .el →
        set (set (set F3 .pe i (flip me)) .nv i 0) .el i (-1) f = F3 f := by
      intro f a b c; rw [set_ne _ c, set_ne _ b, set_ne _ a]
    have u2 : ∀ f x, x ≠ i → set (set (set F3 .pe i (flip me)) .nv i 0) .el i (-1) f x = F3 f x := by
      intro f x hx; simp only [set_nei _ _ _ _ hx]
    have upe : set (set (set F3 .pe i (flip me)) .nv i 0) .el i (-1) .pe i = flip me := by
      rw [set_ne _ (by decide), set_ne _ (by decide), set_at]
    have unv : set (set (set F3 .pe i (flip me)) .nv i 0) .el i (-1) .nv i = 0 := by
      rw [set_ne _ (by decide), set_at]
    have uel : set (set (set F3 .pe i (flip me)) .nv i 0) .el i (-1) .el i = -1 := set_at _ _ _ _
    generalize set (set (set F3 .pe i (flip me)) .nv i 0) .el i (-1) = F4 at u1 u2 upe unv uel g4 ⊢
    have hxpre : ∀ x ∈ pre, x ≠ i := by rintro x hx rfl; exact hipre hx
    constructor
    · rw [u1 .w (by decide) (by decide) (by decide)]; exact hw1'
    · rw [u1 .w (by decide) (by decide) (by decide)]; exact hw2'
    · intro x hx
      rw [u2 _ x (by rintro rfl; exact htP x hi _ hsub' hx)]
      exact hpe1' x hx
    · intro x hx hxm
      rcases (hmi x).1 hx with hx | rfl
      · rw [u2 _ x (hxpre x hx), hpe2' x (htP x (hpreP x hx) _ hsub')]
        exact h2.pe2 x hx hxm
      · exact upe
    · intro x hx hxm
      have hxi : x ≠ i := by rintro rfl; exact hxm ⟨(hmi x).2 (Or.inr rfl), hm⟩
      rw [u2 _ x hxi, hpe2' x hx]
      refine h2.pe3 x (fun ht => hx (tch_append.2 (Or.inl ht))) fun hh => hxm ⟨(hmi x).2 (Or.inl hh.1), hh.2⟩
    · intro x hx hxm
      rcases (hmi x).1 hx with hx | rfl
      · rw [u2 _ x (hxpre x hx), hF3 _ (by decide) (by decide) (by decide) (by decide)]
        exact h2.nv1 x hx hxm
      · exact unv
    · intro x hxm
      have hxi : x ≠ i := by rintro rfl; exact hxm ⟨(hmi x).2 (Or.inr rfl), hm⟩
      rw [u2 _ x hxi, hF3 _ (by decide) (by decide) (by decide) (by decide)]
      exact h2.nv2 x fun hh => hxm ⟨(hmi x).2 (Or.inl hh.1), hh.2⟩
    · intro x hx hxm
      rcases (hmi x).1 hx with hx | rfl
      · rw [u2 _ x (hxpre x hx), hF3el, if_neg (hxpre x hx)]
        exact h2.el1 x hx hxm
      · exact uel
    · intro x hx hxm
      rcases (hmi x).1 hx with hx | rfl
      · rw [u2 _ x (hxpre x hx), hF3el, if_neg (hxpre x hx)]
        exact h2.el2 x hx hxm
      · exact absurd hm hxm
    · intro x hx
      rw [hmi, not_or] at hx
      rw [u2 _ x hx.2, hF3el, if_neg hx.2]
      exact h2.el3 x hx.1
    · intro x hx hxm
      rw [u1 .ln (by decide) (by decide) (by decide), hF3 _ (by decide) (by decide) (by decide) (by decide)]
      rcases (hmi x).1 hx with hx | rfl
      · exact h2.ln2 x hx hxm
      · exact absurd hm hxm
    · intro x hx
      rw [u1 .ln (by decide) (by decide) (by decide), hF3 _ (by decide) (by decide) (by decide) (by decide)]
      exact h2.ln3 x fun hh => hx ⟨(hmi x).2 (Or.inl hh.1), hh.2⟩
    · intro p hp
      rw [u1 .iw (by decide) (by decide) (by decide), hF3iw p (hp i (by simp))]
      exact h2.iw p fun j hj => hp j (by simp [hj])
    · rw [u1 .iw (by decide) (by decide) (by decide)]; exact hI3
    · intro x hx hxm
      rcases (hmi x).1 hx with hx | rfl
      · have := h2.li x hx hxm
        have hne : i ≠ x := by rintro rfl; exact hipre hx
        have hdj := h.dj i hi x (hpreP x hx) hne
        have hrm := h.room x (hpreP x hx)
        have hF : ∀ p, G .pe x ≤ p → p < G .pe x + G .ln x → F4 .iw p = F .iw p := by
          intro p a b
          rw [u1 .iw (by decide) (by decide) (by decide)]
          exact hF3iw p (by omega)
        refine ⟨by rw [hF _ le_rfl (by omega)]; exact this.1, ?_, ?_⟩
        · rw [seg_congr (B := F .iw) fun p a b => hF p a (by omega)]; exact this.2.1
        · rw [seg_congr (B := F .iw) fun p a b => hF p (by omega) (by omega)]; exact this.2.2
      · exact absurd hm hxm
    · intro x hx
      rw [u1 .dg (by decide) (by decide) (by decide), hF3 _ (by decide) (by decide) (by decide) (by decide)]
      rcases (hmi x).1 hx with hx | rfl
      · exact h2.dg1 x hx
      · rw [h2.dg2 x hipre]; exact idg
    · intro x hx
      rw [u1 .dg (by decide) (by decide) (by decide), hF3 _ (by decide) (by decide) (by decide) (by decide)]
      exact h2.dg2 x fun hh => hx ((hmi x).2 (Or.inl hh))
    · have e : ∀ f, f ≠ .iw → f ≠ .el → f ≠ .pe → f ≠ .w → f ≠ .nv → F4 f = F f := fun f a b c d e => by
        rw [u1 f c e b, hF3 f a b c d]
      exact h2.hb.congr (e _ (by decide) (by decide) (by decide) (by decide) (by decide))
        (e _ (by decide) (by decide) (by decide) (by decide) (by decide))
        (e _ (by decide) (by decide) (by decide) (by decide) (by decide))
        (by rw [e .dg (by decide) (by decide) (by decide) (by decide) (by decide)]; intros; rfl)
    · intro x x0 x1 y hy
      have := h2.bk x x0 x1 y hy
      exact ⟨(hmi y).2 (Or.inl this.1), this.2⟩
    · intro x hx hxm
      rw [u1 .la (by decide) (by decide) (by decide), hF3 _ (by decide) (by decide) (by decide) (by decide)]
      rcases (hmi x).1 hx with hx | rfl
      · exact h2.la x hx hxm
      · exact absurd hm hxm
    · intro x hx
      rw [u1 .dg (by decide) (by decide) (by decide), hF3 _ (by decide) (by decide) (by decide) (by decide)]
      rcases (hmi x).1 hx with hx | rfl
      · exact h2.dg3 x hx
      · rw [h2.dg2 x hipre]; exact h.dgn x hi
  · rw [if_neg fun hh => hm (hmass.1 hh), if_neg hm]
    have hb3 : HB n G F3 S bk := h2.hb.congr (hF3 _ (by decide) (by decide) (by decide) (by decide))
      (hF3 _ (by decide) (by decide) (by decide) (by decide))
      (hF3 _ (by decide) (by decide) (by decide) (by decide))
      (by rw [hF3 .dg (by decide) (by decide) (by decide) (by decide)]; intros; rfl)
    obtain ⟨s4, F4, e4, g4, hb4, u1, u2, u3, u4, u5, u6⟩ := updateVar_spec (me := me) (deg := deg) (hash := hash)
      hR3 hb3 hd ip0 (p3 := pn1) (pn := pn) (by omega) (by omega) (by omega) i0 i1 (h.nS i hi)
      (fun x x0 x1 hx => hipre (h2.bk x x0 x1 i hx).1)
    rw [e4, ok_bind]
    obtain ⟨v1, v2, v3⟩ := front_perm (me := me) (p1 := G .pe i) (p3 := pn1) (pn := pn) (kE := k1) (kV := k2)
      hpn1 hpn c1 hsk2 u1
    refine wpr ⟨F4, Function.update bk (hash % n) (i :: bk (hash % n)), g4, ?_, by simp, by simp, by simp⟩
    have hxpre : ∀ x ∈ pre, x ≠ i := by rintro x hx rfl; exact hipre hx
    have hel4 : F4 .el = F3 .el := u6 _ (by decide) (by decide) (by decide) (by decide) (by decide) (by decide)
    have hpe4 : F4 .pe = F3 .pe := u6 _ (by decide) (by decide) (by decide) (by decide) (by decide) (by decide)
    have hw4 : F4 .w = F3 .w := u6 _ (by decide) (by decide) (by decide) (by decide) (by decide) (by decide)
    have hnv4 : F4 .nv = F .nv := by
      rw [u6 _ (by decide) (by decide) (by decide) (by decide) (by decide) (by decide),
        hF3 _ (by decide) (by decide) (by decide) (by decide)]
    have hln4 : ∀ x, F4 .ln x = if x = i then pn - G .pe i + 1 else F .ln x := by
      intro x
      rw [u2, Function.update_apply, hF3 .ln (by decide) (by decide) (by decide) (by decide)]
    have hdg4 : ∀ x, F4 .dg x = if x = i then min (F .dg i) deg else F .dg x := by
      intro x
      rw [u3, Function.update_apply, hF3 .dg (by decide) (by decide) (by decide) (by decide)]
    have hiw4 : ∀ p, p < G .pe i ∨ G .pe i + G .ln i ≤ p → F4 .iw p = F .iw p := by
      intro p hp
      rw [u1, Function.update_of_ne (by omega), Function.update_of_ne (by omega), Function.update_of_ne (by omega)]
      exact hF3iw p hp
    constructor
    · rw [hw4]; exact hw1'
    · rw [hw4]; exact hw2'
    · rw [hpe4]; exact hpe1'
    · intro x hx hxm
      rcases (hmi x).1 hx with hx | rfl
      · rw [hpe4, hpe2' x (htP x (hpreP x hx) _ hsub')]
        exact h2.pe2 x hx hxm
      · exact absurd hxm hm
    · intro x hx hxm
      rw [hpe4, hpe2' x hx]
      refine h2.pe3 x (fun ht => hx (tch_append.2 (Or.inl ht))) fun hh => hxm ⟨(hmi x).2 (Or.inl hh.1), hh.2⟩
    · intro x hx hxm
      rcases (hmi x).1 hx with hx | rfl
      · rw [hnv4]; exact h2.nv1 x hx hxm
      · exact absurd hxm hm
    · intro x hxm
      rw [hnv4]
      exact h2.nv2 x fun hh => hxm ⟨(hmi x).2 (Or.inl hh.1), hh.2⟩
    · intro x hx hxm
      rcases (hmi x).1 hx with hx | rfl
      · rw [hel4, hF3el, if_neg (hxpre x hx)]
        exact h2.el1 x hx hxm
      · exact absurd hxm hm
    · intro x hx hxm
      rcases (hmi x).1 hx with hx | rfl
      · rw [hel4, hF3el, if_neg (hxpre x hx)]
        exact h2.el2 x hx hxm
      · rw [hel4, hF3el, if_pos rfl, ← hk1]; omega
    · intro x hx
      rw [hmi, not_or] at hx
      rw [hel4, hF3el, if_neg hx.2]
      exact h2.el3 x hx.1
    · intro x hx hxm
      rw [hln4]
      rcases (hmi x).1 hx with hx | rfl
      · rw [if_neg (hxpre x hx)]; exact h2.ln2 x hx hxm
      · rw [if_pos rfl, ← hk1, ← hk2]; omega
    · intro x hx
      have hxi : x ≠ i := by rintro rfl; exact hx ⟨(hmi x).2 (Or.inr rfl), hm⟩
      rw [hln4, if_neg hxi]
      exact h2.ln3 x fun hh => hx ⟨(hmi x).2 (Or.inl hh.1), hh.2⟩
    · intro p hp
      rw [hiw4 p (hp i (by simp))]
      exact h2.iw p fun j hj => hp j (by simp [hj])
    · intro p a b
      have r1 := hI3 p a b
      have r2 := hI3 pn1 (by omega) (by omega)
      have r3 := hI3 (G .pe i) (by omega) (by omega)
      rw [u1]
      simp only [Function.update_apply]
      have := h.m
      split_ifs <;> omega
    · intro x hx hxm
      rcases (hmi x).1 hx with hx | rfl
      · have := h2.li x hx hxm
        have hne : i ≠ x := by rintro rfl; exact hipre hx
        have hdj := h.dj i hi x (hpreP x hx) hne
        have hrm := h.room x (hpreP x hx)
        have hF : ∀ p, G .pe x ≤ p → p < G .pe x + G .ln x → F4 .iw p = F .iw p :=
          fun p a b => hiw4 p (by omega)
        refine ⟨by rw [hF _ le_rfl (by omega)]; exact this.1, ?_, ?_⟩
        · rw [seg_congr (B := F .iw) fun p a b => hF p a (by omega)]; exact this.2.1
        · rw [seg_congr (B := F .iw) fun p a b => hF p (by omega) (by omega)]; exact this.2.2
      · rw [← hk1, ← hk2, ← hpn1]
        exact ⟨v1, v2, v3⟩
    · intro x hx
      rw [hdg4]
      rcases (hmi x).1 hx with hx | rfl
      · rw [if_neg (hxpre x hx)]; exact h2.dg1 x hx
      · rw [if_pos rfl, h2.dg2 x hipre]; omega
    · intro x hx
      rw [hmi, not_or] at hx
      rw [hdg4, if_neg hx.2]
      exact h2.dg2 x hx.1
    · exact hb4
    · intro x x0 x1 y hy
      by_cases hxh : x = hash % n
      · rw [hxh, Function.update_self, List.mem_cons] at hy
        rcases hy with rfl | hy
        · exact ⟨by simp, hm⟩
        · have := h2.bk (hash % n) (by omega) (by omega) y hy
          exact ⟨(hmi y).2 (Or.inl this.1), this.2⟩
      · rw [Function.update_of_ne hxh] at hy
        have := h2.bk x x0 x1 y hy
        exact ⟨(hmi y).2 (Or.inl this.1), this.2⟩
    · intro x hx hxm
      rcases (hmi x).1 hx with hx | rfl
      · rw [u5 x (h.nS x (hpreP x hx)) (hxpre x hx), hF3 _ (by decide) (by decide) (by decide) (by decide)]
        exact h2.la x hx hxm
      · rw [u4]
        exact ⟨Int.emod_nonneg _ (by omega), Int.emod_lt_of_pos _ (by omega)⟩
    · intro x hx
      rw [hdg4]
      rcases (hmi x).1 hx with hx | rfl
      · rw [if_neg (hxpre x hx)]; exact h2.dg3 x hx
      · have := h.dgn x hi
        rw [if_pos rfl, h2.dg2 x hipre]; omega

theorem S2.start {me pme1 wflg : ℤ} {agg : Bool} {P : List ℤ} (h : H2 n L me pme1 wflg agg P S G)
    (hd : DL n G S rk) : S2 n L me wflg agg S G [] (fun _ => []) G := by
  have ht : ∀ x, ¬ tch agg G wflg [] x := by rintro x ⟨_, j, hj, _⟩; simp at hj
  constructor
  · intro x hx; exact absurd hx (ht x)
  · intro x _; rfl
  · intro x hx; exact absurd hx (ht x)
  · intro x hx; simp at hx
  · intro x _ _; rfl
  · intro x hx; simp at hx
  · intro x _; rfl
  · intro x hx; simp at hx
  · intro x hx; simp at hx
  · intro x _; rfl
  · intro x hx; simp at hx
  · intro x _; rfl
  · intro x _; rfl
  · exact h.iw
  · intro x hx; simp at hx
  · intro x hx; simp at hx
  · intro x _; rfl
  · exact HB.start hd
  · intro x _ _ y hy; simp at hy
  · intro x hx; simp at hx
  · intro x hx; simp at hx

theorem scan2_spec {me pme1 wflg : ℤ} {agg : Bool} {P : List ℤ} {z : Sc2}
    (h : H2 n L me pme1 wflg agg P S G) (hd : DL n G S rk) (hR : Rm n Al L z.s G)
    (hz : (0 ≤ z.degme ∧ z.degme ≤ n) ∧ (0 ≤ z.nvpiv ∧ z.nvpiv ≤ n) ∧ 0 ≤ z.nel ∧ z.nel ≤ n) :
    wp (scan2 n agg me wflg pme1 (pme1 + P.length - 1) z)
      (fun y => ∃ F' bk', Rm n Al L y.s F' ∧ S2 n L me wflg agg S G P bk' F' ∧
        y.degme = z.degme - mS agg G wflg P ∧ y.nvpiv = z.nvpiv + mS agg G wflg P ∧
        y.nel = z.nel + mS agg G wflg P)
      (fun _ => False) := by
  unfold scan2
  rw [show pme1 + (P.length : ℤ) - 1 + 1 = pme1 + P.length by ring]
  refine wp_post (wp_list P (fun pre (y : Sc2) => ∃ F' bk', Rm n Al L y.s F' ∧ S2 n L me wflg agg S G pre bk' F' ∧
        y.degme = z.degme - mS agg G wflg pre ∧ y.nvpiv = z.nvpiv + mS agg G wflg pre ∧
        y.nel = z.nel + mS agg G wflg pre) ?_ ?_) fun _ h => h
  · exact ⟨G, _, hR, S2.start h hd, by simp [mS], by simp [mS], by simp [mS]⟩
  · rintro pre i post y hP ⟨F1, bk1, hR1, h1, a, b, c⟩
    have hm := mS_le (agg := agg) (G := G) (wflg := wflg) (pre := pre) (post := i :: post) (by
      rw [← hP]; intro j hj; exact (h.rg j hj).2.2.2.2.2.2.1)
    rw [← hP] at hm
    have hps := h.ps
    refine wp_post (scan2One_spec h hd hP hR1 h1 (by omega)) ?_
    rintro y' ⟨F2, bk2, hR2, h2, a', b', c'⟩
    refine ⟨F2, bk2, hR2, h2, ?_, ?_, ?_⟩
    · rw [mS_append]; omega
    · rw [mS_append]; omega
    · rw [mS_append]; omega

end Slip.Amd
