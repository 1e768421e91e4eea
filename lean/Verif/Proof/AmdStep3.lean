import Verif.Proof.AmdStep2

/-!
# AMD: one pivot, the graph after scan 2
-/

namespace Slip.Amd

open Slip.Colamd (seg mem_seg seg_congr seg_succ length_seg seg_zero wp_seg wp_list csum seg_ext seg_getElem)

variable [Arith]

variable {n nz Al : ℤ} {z : Ord} {F G F4 H : Sh} {P : List ℤ} {me pme1 pfree nvpiv degme wflg : ℤ} {agg : Bool}

theorem mS_psum (h : LI n nz Al z F) (m : Mid n nz me F P pme1 pfree nvpiv degme wflg G) :
    mS agg G wflg P = psum n (Mm agg G wflg P) (F .nv) := by
  unfold mS
  rw [psum_list (n := n) (m.nd.filter _)
    (fun c hc => by have := (m.pv h (List.mem_of_mem_filter hc)).1; exact ⟨this.1, this.2.1⟩)]
  refine psum_congr ?_ ?_
  · intro x _ _
    rw [List.mem_filter]
    unfold Mm
    simp
  · intro x _ _ hx
    rw [m.nv, if_pos (Or.inl (List.mem_of_mem_filter hx)), neg_neg]

theorem late (h : LI n nz Al z F) (m : Mid n nz me F P pme1 pfree nvpiv degme wflg G) {bk : ℤ → List ℤ}
    (c : S2 n pfree me wflg agg (fun x => LV n F x ∧ x ≠ me ∧ x ∉ P) G P bk F4)
    (hH : ∀ f, f ≠ .w → f ≠ .dg → H f = F4 f) (hdg : ∀ x, x ≠ me → H .dg x = F4 .dg x)
    (hdgm : H .dg me = degme - mS agg G wflg P) (hw : ∀ x, 0 ≤ x → x < n → (H .w x = 0 ↔ F4 .w x = 0)) :
    Hs n nz me agg F G P pme1 pfree (degme - mS agg G wflg P) wflg H := by
  have g2 := m.h2 (agg := agg) h
  have eiw := hH .iw (by decide) (by decide)
  have epe := hH .pe (by decide) (by decide)
  have eln := hH .ln (by decide) (by decide)
  have eel := hH .el (by decide) (by decide)
  have env := hH .nv (by decide) (by decide)
  have hmS := mS_psum (agg := agg) h m
  have htE : ∀ x, tch agg G wflg P x → LE n F x ∧ ∃ i ∈ P, x ∈ elL F i := by
    rintro x ⟨_, i, hi, hx⟩
    obtain ⟨a, b, _⟩ := m.pv h hi
    rw [(m.lists h a b).1] at hx
    exact ⟨h.gr.e1 i a x hx, i, hi, hx⟩
  have hmP : me ∉ P := g2.m.2.2
  have htm : ∀ x, tch agg G wflg P x → x ≠ me ∧ x ∉ P := fun x hx => m.hme h (htE x hx).1
  -- the objects outside P
  have hout : ∀ x, ((LO n F x ∧ x ≠ me ∧ x ∉ elL F me) ∨ (x = me ∧ P ≠ [])) → x ∉ P → ¬ tch agg G wflg P x →
      H .pe x = G .pe x ∧ H .ln x = G .ln x ∧ H .el x = G .el x ∧ ∀ p, G .pe x ≤ p → p < G .pe x + G .ln x →
        H .iw p = G .iw p := by
    intro x hx hxP ht
    refine ⟨?_, ?_, ?_, ?_⟩
    · rw [epe]; exact c.pe3 x ht fun h => hxP h.1
    · rw [eln]; exact c.ln3 x fun h => hxP h.1
    · rw [eel]; exact c.el3 x hxP
    · intro p p0 p1
      rw [eiw]
      refine c.iw p fun i hi => ?_
      obtain ⟨a, b, d⟩ := m.pv h hi
      have := m.lay.dj i x (Or.inl ⟨Or.inl a, b, d⟩) hx (by rintro rfl; exact hxP hi)
      omega
  have hobE : ∀ e, LE n F e → ¬ Dd agg F G me wflg P e → obL H e = obL F e := by
    intro e he hD
    unfold Dd at hD
    rw [not_or] at hD
    have h1 := m.hme h he
    obtain ⟨a, b, _, d⟩ := hout e (Or.inl ⟨Or.inr he, h1.1, hD.1⟩) h1.2 hD.2
    rw [← (m.ob e (Or.inr he) h1.1 hD.1).1]
    unfold obL
    rw [a, b]
    exact seg_congr d
  have hVout : ∀ x, LV n F x → x ≠ me → x ∉ P → elL H x = elL F x ∧ vaL H x = vaL F x ∧ H .ln x = F .ln x ∧
      H .el x = F .el x ∧ H .pe x = G .pe x := by
    intro x hx hxm hxP
    have hnt : ¬ tch agg G wflg P x := fun ht => by
      have := (htE x ht).1.2.2.1; have := hx.2.2.2; omega
    obtain ⟨l1, l2, l3, l4⟩ := m.lists h hx hxm
    obtain ⟨a, b, c', d⟩ := hout x (Or.inl ⟨Or.inl hx, hxm, h.not_el m.vm hx⟩) hxP hnt
    have : obL H x = obL F x := by
      rw [← (m.ob x (Or.inl hx) hxm (h.not_el m.vm hx)).1]
      unfold obL
      rw [a, b]
      exact seg_congr d
    have := elL_eq hx.2.2.2 (h.eln x hx) this (by rw [b, l3]) (by rw [c', l4])
    exact ⟨this.1, this.2, by rw [b, l3], by rw [c', l4], a⟩
  have hobm : seg (H .iw) pme1 P.length = P := by
    rcases P.eq_nil_or_concat with hn | hn
    · rw [hn]; simp
    · have hP0 : P ≠ [] := by
        obtain ⟨a, b, rfl⟩ := hn; simp
      have := (hout me (Or.inr ⟨rfl, hP0⟩) hmP fun ht => (htm me ht).1 rfl).2.2.2
      rw [m.pem, m.lnm] at this
      rw [seg_congr this]; exact m.obm
  have hnotmass : ∀ i ∈ P, ¬ mass agg G wflg i →
      elL H i = seg (F4 .iw) (G .pe i) ((kE agg G wflg i).length + 1) ∧
      vaL H i = seg (F4 .iw) (G .pe i + (kE agg G wflg i).length + 1) (kV G i).length ∧
      H .pe i = G .pe i ∧ H .el i = (kE agg G wflg i).length + 1 ∧
      H .ln i = (kE agg G wflg i).length + 1 + (kV G i).length := by
    intro i hi hm
    have h1 : H .pe i = G .pe i := by
      rw [epe]; exact c.pe3 i (fun ht => (htm i ht).2 hi) fun h => hm h.2
    have h2 : H .el i = (kE agg G wflg i).length + 1 := by rw [eel]; exact c.el2 i hi hm
    have h3 : H .ln i = (kE agg G wflg i).length + 1 + (kV G i).length := by rw [eln]; exact c.ln2 i hi hm
    refine ⟨?_, ?_, h1, h2, h3⟩
    · unfold elL; rw [h1, h2, eiw]
    · unfold vaL
      rw [h1, h2, h3, eiw, add_sub_cancel_left, add_assoc]
  have hkE : ∀ i ∈ P, ∀ e, e ∈ kE agg G wflg i ↔ e ∈ elL F i ∧ ¬ Dd agg F G me wflg P e := by
    intro i hi e
    obtain ⟨a, b, _⟩ := m.pv h hi
    unfold kE Dd
    rw [List.mem_filter, (m.lists h a b).1, decide_eq_true_iff, kp_iff, not_or]
    constructor
    · rintro ⟨h1, h2, h3⟩
      refine ⟨h1, fun h4 => h2 (m.w0 e h4), fun h4 => h3 h4.1⟩
    · rintro ⟨h1, h2, h3⟩
      refine ⟨h1, fun h4 => h2 (((m.wge h ⟨i, hi, h1⟩).2.1).1 h4), fun h4 => h3 ⟨h4, i, hi, ?_⟩⟩
      rw [(m.lists h a b).1]; exact h1
  have hkV : ∀ i ∈ P, ∀ j, j ∈ kV G i ↔ j ∈ vaL F i ∧ LV n F j ∧ j ≠ me ∧ j ∉ P := by
    intro i hi j
    obtain ⟨a, b, _⟩ := m.pv h hi
    unfold kV
    rw [List.mem_filter, (m.lists h a b).2.1, decide_eq_true_iff]
    constructor
    · rintro ⟨h1, h2⟩; exact ⟨h1, (m.nvpos h (h.gr.rgv i a j h1)).1 h2⟩
    · rintro ⟨h1, h2⟩; exact ⟨h1, (m.nvpos h (h.gr.rgv i a j h1)).2 h2⟩
  have hmm : ∀ i, Mm agg G wflg P i → i ∈ P ∧ ∀ e ∈ elL F i, Dd agg F G me wflg P e := by
    rintro i ⟨hi, hm⟩
    refine ⟨hi, fun e he => ?_⟩
    by_contra hc
    have := (hkE i hi e).2 ⟨he, hc⟩
    rw [hm.1] at this
    simp at this
  have hgr : Gr n (V0 n agg F G me wflg P) (E0 n agg F G me wflg P) (K0 n F me) (ν0 agg F G me wflg P) (H .dg)
      (elL H) (vaL H) (obL H) := by
    refine h.gr.pivot m.vm (D := Dd agg F G me wflg P) (M := Mm agg G wflg P) m.mem (fun e he => Or.inl he) ?_ hmm
      (fun _ => Iff.rfl) (fun _ => Iff.rfl) (fun _ => Iff.rfl) ?_ ?_ ?_ ?_ ?_ ?_ ?_ ?_ hobE ?_
    · -- aggressive absorption
      intro e he hD hem i hi hie
      have ht : tch agg G wflg P e := hD.resolve_left hem
      have hle : G .w e ≤ wflg := ht.1.2.2
      rw [m.w1 e he.1 he.2.1 hem (htE e ht).2] at hle
      by_contra hiP
      have h1 := h.gr.dgi e he
      rw [psum_split (O := fun i => LV n F i ∧ e ∈ elL F i) (Q := (· ∈ P))] at h1
      have h2 : psum n (fun i => i ∈ P ∧ e ∈ elL F i) (F .nv) =
          psum n (fun x => (LV n F x ∧ e ∈ elL F x) ∧ x ∈ P) (F .nv) := by
        refine psum_congr ?_ fun _ _ _ _ => rfl
        intro x _ _
        constructor
        · rintro ⟨a, b⟩; exact ⟨⟨(m.pv h a).1, b⟩, a⟩
        · rintro ⟨⟨_, b⟩, a⟩; exact ⟨a, b⟩
      have h3 := psum_le_one (n := n) (O := fun x => (LV n F x ∧ e ∈ elL F x) ∧ ¬ x ∈ P) (f := F .nv) (e := i)
        ⟨⟨hi, hie⟩, hiP⟩ hi.1 hi.2.1 fun y _ _ hy => hy.1.1.2.2.1.le
      have h4 := hi.2.2.1
      omega
    · intro x hx
      unfold ν0
      rw [if_neg hx.2.1, if_neg hx.2.2]
    · intro e he hD
      have h1 := m.hme h he
      rw [hdg e h1.1, c.dg2 e h1.2, m.dg e h1.1]
    · rw [hdgm, m.dgm, hmS]
      rw [psum_split (O := (· ∈ P)) (Q := Mm agg G wflg P)]
      have : psum n (fun x => x ∈ P ∧ Mm agg G wflg P x) (F .nv) = psum n (Mm agg G wflg P) (F .nv) :=
        psum_congr (fun x _ _ => ⟨fun h => h.2, fun h => ⟨h.1, h⟩⟩) fun _ _ _ _ => rfl
      omega
    · intro i hi hV
      have hm : ¬ mass agg G wflg i := fun hm => hV.2.2 ⟨hi, hm⟩
      obtain ⟨e1, _, _⟩ := hnotmass i hi hm
      have hp := (c.li i hi hm).2.1
      rw [e1]
      constructor
      · intro e
        rw [hp.mem_iff, List.mem_cons, hkE i hi]
      · rw [hp.nodup_iff, List.nodup_cons]
        obtain ⟨a, b, _⟩ := m.pv h hi
        refine ⟨fun hh => ?_, ?_⟩
        · have := ((hkE i hi me).1 hh).1
          exact h.not_el a m.vm this
        · unfold kE
          exact (g2.nde i hi).filter _
    · intro i hi hV; exact (hVout i hV.1 hV.2.1 hi).1
    · intro i hi hV j
      have hm : ¬ mass agg G wflg i := fun hm => hV.2.2 ⟨hi, hm⟩
      obtain ⟨_, e2, _⟩ := hnotmass i hi hm
      rw [e2, (c.li i hi hm).2.2.mem_iff, hkV i hi]
    · intro i hi hV; exact (hVout i hV.1 hV.2.1 hi).2.1
    · intro i hi hV
      have hm : ¬ mass agg G wflg i := fun hm => hV.2.2 ⟨hi, hm⟩
      obtain ⟨_, e2, _⟩ := hnotmass i hi hm
      rw [e2, (c.li i hi hm).2.2.nodup_iff]
      unfold kV
      exact (g2.ndv i hi).filter _
    · intro i
      have e1 : H .pe me = pme1 := by
        rw [epe, c.pe3 me (fun ht => (htm me ht).1 rfl) fun h => hmP h.1, m.pem]
      have e2 : H .ln me = P.length := by rw [eln, c.ln3 me fun h => hmP h.1, m.lnm]
      unfold obL
      rw [e1, e2, hobm]
  have hpem : H .pe me = pme1 := by
    rw [epe, c.pe3 me (fun ht => (htm me ht).1 rfl) fun h => hmP h.1, m.pem]
  have hlnm : H .ln me = P.length := by rw [eln, c.ln3 me fun h => hmP h.1, m.lnm]
  have hdm0 : 0 ≤ degme := by
    rw [m.dgm]; exact psum_nonneg fun x _ _ hx => (m.pv h hx).1.2.2.1.le
  have helm : H .el me ≤ -2 := by
    rw [eel, c.el3 me hmP, m.elm, m.nvp]
    have := m.vm.2.2.1
    unfold flip; omega
  have hnvP : ∀ x ∈ P, ¬ mass agg G wflg x → H .nv x = -F .nv x := by
    intro x hx hm
    rw [env, c.nv2 x fun h => hm h.2, m.nv, if_pos (Or.inl hx)]
  have ho : ∀ x, x ∉ P → x ≠ me → H .nv x = F .nv x ∧ H .el x = F .el x ∧ H .dg x = F .dg x := by
    intro x hx hxm
    refine ⟨?_, ?_, ?_⟩
    · rw [env, c.nv2 x fun h => hx h.1, m.nv, if_neg (by rw [not_or]; exact ⟨hx, hxm⟩)]
    · rw [eel, c.el3 x hx, m.el x hxm]
    · rw [hdg x hxm, c.dg2 x hx, m.dg x hxm]
  -- where the objects of the new graph are
  have hsub : ∀ x, V0 n agg F G me wflg P x ∨ E0 n agg F G me wflg P x →
      ((LO n F x ∧ x ≠ me ∧ x ∉ elL F me) ∨ (x = me ∧ P ≠ [])) ∧ ¬ tch agg G wflg P x ∧ ¬ Mm agg G wflg P x := by
    rintro x (hx | (⟨hx, hD⟩ | ⟨rfl, i, hi, hm⟩))
    · refine ⟨Or.inl ⟨Or.inl hx.1, hx.2.1, h.not_el m.vm hx.1⟩, fun ht => ?_, hx.2.2⟩
      have := (htE x ht).1.2.2.1; have := hx.1.2.2.2; omega
    · unfold Dd at hD
      rw [not_or] at hD
      have h1 := m.hme h hx
      exact ⟨Or.inl ⟨Or.inr hx, h1.1, hD.1⟩, hD.2, fun hh => h1.2 hh.1⟩
    · exact ⟨Or.inr ⟨rfl, List.ne_nil_of_mem hi⟩, fun ht => (htm _ ht).1 rfl, fun hh => hmP hh.1⟩
  have hpl : ∀ x, V0 n agg F G me wflg P x ∨ E0 n agg F G me wflg P x →
      H .pe x = G .pe x ∧ 0 < H .ln x ∧ H .ln x ≤ G .ln x := by
    intro x hx
    obtain ⟨a, b, d⟩ := hsub x hx
    have hp := m.lay.pos x a
    by_cases hxP : x ∈ P
    · have hm : ¬ mass agg G wflg x := fun hm => d ⟨hxP, hm⟩
      obtain ⟨_, _, q1, _, q3⟩ := hnotmass x hxP hm
      have := g2.room x hxP
      exact ⟨q1, by omega, by omega⟩
    · obtain ⟨q1, q2, _⟩ := hout x a hxP b
      exact ⟨q1, by omega, by omega⟩
  have hwne : ∀ x, V0 n agg F G me wflg P x ∨ E0 n agg F G me wflg P x → H .w x ≠ 0 := by
    intro x hx
    obtain ⟨a, b, d⟩ := hsub x hx
    have hr := m.lay.rg x a
    rw [ne_eq, hw x hr.1 hr.2, c.w2 x b]
    rcases a with a | a
    · exact m.w3 x hr.1 hr.2 a.2.2 a.1
    · exact m.w3 x hr.1 hr.2 (by rw [a.1]; exact h.not_el m.vm m.vm) (by rw [a.1]; exact Or.inl m.vm)
  constructor
  · -- MI
    constructor
    · intros; rfl
    · intros; exact ⟨rfl, rfl, rfl, rfl, Iff.rfl⟩
    · intro x hx
      obtain ⟨a, b, d⟩ := m.pv h hx
      by_cases hm : mass agg G wflg x
      · right
        refine ⟨fun hh => hh.2.2 ⟨hx, hm⟩, ?_, ?_, ?_, ?_⟩
        · rw [env]; exact c.nv1 x hx hm
        · unfold ν0; rw [if_neg b, if_pos ⟨hx, hm⟩]
        · rw [epe, c.pe2 x hx hm]; have := m.vm.1; unfold flip; omega
        · rw [eel]; exact c.el1 x hx hm
      · left
        refine ⟨⟨a, b, fun hh => hm hh.2⟩, ?_, rfl, rfl, ?_⟩
        · unfold ν0; rw [if_neg b, if_neg fun hh => hm hh.2]; exact hnvP x hx hm
        · rw [hnvP x hx hm]; have := a.2.2.1; omega
    · rfl
    · exact hgr
    · -- the tree
      obtain ⟨root, t, ht⟩ := h.tr
      refine ht.attach (me := me) (A := Dd agg F G me wflg P) (M := Mm agg G wflg P) m.vm.1 m.vm.2.1
        (by have := m.vm.2.2.1; omega) ?_ ?_ ?_ ?_ ?_ ?_ ?_ ?_ ?_
      · intro x x0 x1 hx
        have hE : LE n F x := by
          rcases hx with hx | hx
          · exact h.gr.e1 me m.vm x hx
          · exact (htE x hx).1
        have h1 := m.hme h hE
        have h2 := h.nvpos (Or.inr hE)
        exact ⟨h1.1, by omega, fun hh => h1.2 hh.1, helm⟩
      · intro x x0 x1 hx
        obtain ⟨a, b, _⟩ := m.pv h hx.1
        have h2 := a.2.2.1
        have h3 := a.2.2.2
        exact ⟨b, by omega, by omega⟩
      · intro x x0 x1 hx
        rw [epe]
        rcases hx with (hx | hx) | hx
        · by_cases hxt : tch agg G wflg P x
          · exact c.pe1 x hxt
          · have h1 := m.hme h (h.gr.e1 me m.vm x hx)
            rw [c.pe3 x hxt fun hh => h1.2 hh.1]
            exact m.pe1 x hx
        · exact c.pe1 x hx
        · exact c.pe2 x hx.1 hx.2
      · intro x x0 x1 hx
        rw [not_or] at hx
        obtain ⟨hD, hM⟩ := hx
        unfold Dd at hD
        rw [not_or] at hD
        have e1 : H .pe x = G .pe x := by rw [epe]; exact c.pe3 x hD.2 hM
        by_cases hxm : x = me
        · right
          have h1 := (h.o me m.vm.1 m.vm.2.1).1 (Or.inl m.vm)
          have h2 := m.vm.2.2.1
          have h3 := m.p0.1
          rw [hxm, hpem]
          exact ⟨by omega, by omega, by omega⟩
        · by_cases hO : LO n F x
          · right
            have h1 := (h.o x x0 x1).1 hO
            have h2 := (m.lay.pos x (Or.inl ⟨hO, hxm, hD.1⟩)).1
            have h3 := h.nvpos hO
            rw [e1]
            exact ⟨by omega, by omega, by omega⟩
          · left
            rw [e1, m.pe2 x x0 x1 hxm hD.1 hO]
      · rw [hpem]; have := m.p0.1; omega
      · intro x x0 x1 hx
        unfold ν0
        rw [if_neg (m.pv h hx.1).2.1, if_pos hx]
      · intro x x0 x1 hxm hx
        unfold ν0
        rw [if_neg hxm, if_neg hx]
      · unfold ν0
        rw [if_pos rfl, hmS]
      · intro x x0 x1 hx
        by_cases hxm : x = me
        · rw [hxm]; exact helm
        · have hxP : x ∉ P := fun hp => by have := (m.pv h hp).1.2.2.2; omega
          rw [(ho x hxP hxm).2.1]; exact hx
  · -- H3
    constructor
    · intro i hi
      obtain ⟨a, b, d⟩ := m.pv h hi
      refine ⟨a.1, a.2.1, fun hneg => ?_⟩
      have hm : ¬ mass agg G wflg i := fun hm => by
        rw [env, c.nv1 i hi hm] at hneg; omega
      obtain ⟨_, _, q1, q2, q3⟩ := hnotmass i hi hm
      have hr := g2.rg i hi
      have := g2.room i hi
      refine ⟨by omega, by omega, by omega, by omega, ?_⟩
      rw [q1, eiw]; exact (c.li i hi hm).1
    · rw [eiw]; exact c.iwr
    · intro i hi j hj hni hnj e he hev
      have hVi : ∀ i ∈ P, H .nv i < 0 → V0 n agg F G me wflg P i := by
        intro i hi hneg
        obtain ⟨a, b, d⟩ := m.pv h hi
        refine ⟨a, b, fun hm => ?_⟩
        rw [env, c.nv1 i hi hm.2] at hneg; omega
      exact (hgr.er e (hgr.e1 i (hVi i hi hni) e he)).2.2 (hgr.rgv j (hVi j hj hnj) e hev)
  · -- Lay
    refine ⟨fun x hx => m.lay.rg x (hsub x hx).1, fun x hx => ?_, fun x y hx hy hxy => ?_⟩
    · have h1 := m.lay.pos x (hsub x hx).1
      obtain ⟨q1, q2, q3⟩ := hpl x hx
      exact ⟨by omega, q2, by omega⟩
    · have h1 := m.lay.dj x y (hsub x hx).1 (hsub y hy).1 hxy
      obtain ⟨q1, q2, q3⟩ := hpl x hx
      obtain ⟨r1, r2, r3⟩ := hpl y hy
      omega
  · refine le_trans (psum_mono (fun x _ _ hx => (hsub x hx).1) (fun x _ _ hx => (hpl x hx).2.2) ?_) m.sum
    intro x _ _ hx
    exact (m.lay.pos x hx).2.1.le
  · exact hobm
  · exact hpem
  · exact hlnm
  · exact helm
  · rw [eel, c.el3 me hmP, m.elm]
    have := m.dn
    unfold flip; omega
  · exact hdgm
  · exact ho
  · intro x x0 x1 hxP hxm hp
    have hm0 := m.vm.1
    rw [epe] at hp
    have ht : ¬ tch agg G wflg P x := fun ht => by
      rw [c.pe1 x ht] at hp; unfold flip at hp; omega
    rw [c.pe3 x ht fun hh => hxP hh.1] at hp
    have hxe : x ∉ elL F me := fun hh => by
      rw [m.pe1 x hh] at hp; unfold flip at hp; omega
    by_cases hO : LO n F x
    · rcases hO with hO | hO
      · exact Or.inl ⟨hO, hxm, fun hh => hxP hh.1⟩
      · refine Or.inr (Or.inl ⟨hO, ?_⟩)
        unfold Dd
        rw [not_or]; exact ⟨hxe, ht⟩
    · rw [m.pe2 x x0 x1 hxm hxe hO] at hp
      exact absurd ((h.o x x0 x1).2 hp) hO
  · intro hP0 x hx hxm
    have h1 := m.lay.dj x me (hsub x hx).1 (Or.inr ⟨rfl, hP0⟩) hxm
    rw [m.pem, m.lnm] at h1
    obtain ⟨q1, q2, q3⟩ := hpl x hx
    omega
  · exact hwne
  · intro x hx
    by_cases hxP : x ∈ P
    · have hm : ¬ mass agg G wflg x := fun hm => hx.2.2 ⟨hxP, hm⟩
      obtain ⟨_, _, _, q2, q3⟩ := hnotmass x hxP hm
      omega
    · obtain ⟨_, _, a, b, _⟩ := hVout x hx.1 hx.2.1 hxP
      rw [a, b]; exact h.eln x hx.1
  · intro i hi
    rw [hdg i (m.pv h hi).2.1]; exact c.dg1 i hi
  · intro i hi
    rw [hdg i (m.pv h hi).2.1]; exact c.dg3 i hi
  · have e1 : psum n (V0 n agg F G me wflg P) (ν0 agg F G me wflg P) =
        psum n (fun x => (LV n F x ∧ x ≠ me) ∧ ¬ Mm agg G wflg P x) (F .nv) := by
      refine psum_congr ?_ ?_
      · intro x _ _; unfold V0; rw [and_assoc]
      · intro x _ _ hx
        unfold ν0
        rw [if_neg hx.2.1, if_neg hx.2.2]
    have e2 : psum n (Mm agg G wflg P) (F .nv) = psum n (fun x => (LV n F x ∧ x ≠ me) ∧ Mm agg G wflg P x) (F .nv) := by
      refine psum_congr ?_ fun _ _ _ _ => rfl
      intro x _ _
      constructor
      · intro hh; have := m.pv h hh.1; exact ⟨⟨this.1, this.2.1⟩, hh⟩
      · intro hh; exact hh.2
    rw [e1, hmS, e2, psum_erase m.vm m.vm.1 m.vm.2.1,
      psum_split (O := fun x => LV n F x ∧ x ≠ me) (Q := Mm agg G wflg P)]
    omega

end Slip.Amd
