import Verif.Proof.AmdStep3

/-!
# AMD: one pivot, to the end; the main loop
-/

namespace Slip.Amd

open Slip.Colamd (seg mem_seg seg_congr seg_succ length_seg seg_zero wp_seg wp_list csum seg_ext seg_getElem)

variable [Arith]

variable {n nz Al : ℤ} {z : Ord} {F G H : Sh} {P : List ℤ} {me pme1 pfree nvpiv degme wflg : ℤ} {agg : Bool}

/-- The state at the end of the step satisfies the invariant. -/
theorem step_inv (h : LI n nz Al z F) (m : Mid n nz me F P pme1 pfree nvpiv degme wflg G) {dm : ℤ}
    (c : Hs n nz me agg F G P pme1 pfree dm wflg H) {V : ℤ → Prop} {ν : ℤ → ℤ} {F6 F7 F8 : Sh} {wf6 q md deg : ℤ}
    (mi : MI n H P (V0 n agg F G me wflg P) (E0 n agg F G me wflg P) (K0 n F me) (ν0 agg F G me wflg P) (obL H) V ν F6)
    (hwb : Wb n H F6 wf6) (hmono : ∀ x, V x → V0 n agg F G me wflg P x)
    (r : RS n pfree pme1 deg (fun x => LV n F x ∧ x ≠ me ∧ x ∉ P) F6 P q md F7)
    (f1 : F8 .nv me = F .nv me + mS agg G wflg P) (f2 : F8 .ln me = q - pme1)
    (f3 : q = pme1 → F8 .pe me = -1 ∧ F8 .w me = 0) (f4 : q ≠ pme1 → F8 .pe me = F7 .pe me ∧ F8 .w me = F7 .w me)
    (f5 : ∀ f x, x ≠ me → F8 f x = F7 f x) (f6 : ∀ f, f ≠ .nv → f ≠ .ln → f ≠ .pe → f ≠ .w → F8 f = F7 f)
    {z' : Ord} (g1 : 0 ≤ z'.pfree) (gp : Rm n Al z'.pfree z'.s F8)
    (g2 : z'.pfree = pfree ∨ (z'.pfree = q ∧ pfree = pme1 + P.length)) (g3 : z'.nel = z.nel + F .nv me + mS agg G wflg P)
    (g4 : z'.mindeg = md) (g5 : z'.wflg = wf6) (g6 : z'.lemax = max z.lemax dm) (g7 : 0 ≤ z'.lnz)
    (g8 : dm ≤ n) :
    LI n nz Al z' F8 := by
  have hmS := mS_psum (agg := agg) h m
  have hmS0 : 0 ≤ mS agg G wflg P := by
    rw [hmS]; exact psum_nonneg fun x _ _ hx => (m.pv h hx.1).1.2.2.1.le
  have hmP : me ∉ P := fun hp => (m.pv h hp).2.1 rfl
  have hm0 := m.vm.1
  have hnm := m.vm.2.2.1
  set Q := P.filter (F6 .nv · < 0) with hQ
  have hQl : (Q.length : ℤ) ≤ P.length := by exact_mod_cast List.length_filter_le _ _
  have hq : q = pme1 + Q.length := r.q
  -- the fields
  have e8 : ∀ f, f ≠ .nv → f ≠ .ln → f ≠ .pe → f ≠ .w → f ≠ .iw → f ≠ .hd → f ≠ .la → f ≠ .nx → f ≠ .dg →
      F8 f = F6 f := fun f a b c d e g i j k => by rw [f6 f a b c d, r.oth f e a g i j k]
  have hel : F8 .el = F6 .el := e8 .el (by decide) (by decide) (by decide) (by decide) (by decide) (by decide)
    (by decide) (by decide) (by decide)
  have h6ln : F6 .ln = H .ln := mi.eq .ln (by decide) (by decide) (by decide) (by decide) (by decide) (by decide)
    (by decide)
  have h6iw : F6 .iw = H .iw := mi.eq .iw (by decide) (by decide) (by decide) (by decide) (by decide) (by decide)
    (by decide)
  have h6dg : F6 .dg = H .dg := mi.eq .dg (by decide) (by decide) (by decide) (by decide) (by decide) (by decide)
    (by decide)
  have h7 : ∀ f, f = .pe ∨ f = .ln ∨ f = .w → F7 f = F6 f := by
    rintro f (rfl | rfl | rfl) <;>
      exact r.oth _ (by decide) (by decide) (by decide) (by decide) (by decide) (by decide)
  have hpe : ∀ x, x ≠ me → F8 .pe x = F6 .pe x := fun x hx => by rw [f5 .pe x hx, h7 .pe (Or.inl rfl)]
  have hln : ∀ x, x ≠ me → F8 .ln x = H .ln x := fun x hx => by
    rw [f5 .ln x hx, h7 .ln (Or.inr (Or.inl rfl)), h6ln]
  have hw8 : ∀ x, x ≠ me → F8 .w x = F6 .w x := fun x hx => by rw [f5 .w x hx, h7 .w (Or.inr (Or.inr rfl))]
  have hiw : F8 .iw = F7 .iw := f6 .iw (by decide) (by decide) (by decide) (by decide)
  have hdg8 : F8 .dg = F7 .dg := f6 .dg (by decide) (by decide) (by decide) (by decide)
  have hiwo : ∀ p, p < pme1 ∨ pme1 + P.length ≤ p → F8 .iw p = H .iw p := fun p hp => by
    rw [hiw, r.iw p hp, h6iw]
  have hnv : ∀ x, x ≠ me → F8 .nv x = if x ∈ P ∧ F6 .nv x < 0 then -F6 .nv x else F6 .nv x := fun x hx => by
    rw [f5 .nv x hx, r.nv]
  -- outside of P
  have oP : ∀ x, x ∉ P → x ≠ me → F8 .nv x = F .nv x ∧ F8 .el x = F .el x ∧ F8 .pe x = H .pe x ∧ F8 .dg x = F .dg x ∧
      ν x = F .nv x ∧ (V x ↔ V0 n agg F G me wflg P x) := by
    intro x hx hxm
    obtain ⟨o1, o2, o3, o4, o5⟩ := mi.o x hx
    obtain ⟨p1, p2, p3⟩ := c.o x hx hxm
    refine ⟨?_, ?_, ?_, ?_, ?_, o5⟩
    · rw [hnv x hxm, if_neg fun hh => hx hh.1, o1, p1]
    · rw [hel, o3, p2]
    · rw [hpe x hxm, o2]
    · rw [hdg8, r.dg x fun hh => hx (List.mem_of_mem_filter hh), h6dg, p3]
    · rw [o4]; unfold ν0; rw [if_neg hxm, if_neg fun hh => hx hh.1]
  have om := mi.o me hmP
  have helm : F8 .el me ≤ -2 := by rw [hel, om.2.2.1]; exact c.elm
  have hνm : ν me = F .nv me + mS agg G wflg P := by rw [om.2.2.2.1]; unfold ν0; rw [if_pos rfl]
  -- in P
  have iP : ∀ x ∈ P, (V x ∧ x ∈ Q ∧ F8 .nv x = ν x ∧ F8 .pe x = H .pe x ∧ F8 .el x = H .el x ∧ 1 ≤ H .el x) ∨
      (¬ V x ∧ x ∉ Q ∧ F8 .nv x = 0 ∧ ν x = 0 ∧ F8 .pe x ≤ -2 ∧ F8 .el x = -1) := by
    intro x hx
    have hxm : x ≠ me := by rintro rfl; exact hmP hx
    rcases mi.i x hx with ⟨a1, a2, a3, a4, a5⟩ | ⟨a1, a2, a3, a4, a5⟩
    · left
      have hν := (mi.gr.vr x a1).2.2.2
      have hneg : F6 .nv x < 0 := by omega
      refine ⟨a1, List.mem_filter.2 ⟨hx, by simpa using hneg⟩, ?_, ?_, ?_, ?_⟩
      · rw [hnv x hxm, if_pos ⟨hx, hneg⟩]; omega
      · rw [hpe x hxm, a3]
      · rw [hel, a4]
      · exact ((c.h3.rg x hx).2.2 a5).2.1
    · right
      refine ⟨a1, fun hh => ?_, ?_, a3, ?_, ?_⟩
      · have := (List.mem_filter.1 hh).2
        simp only [decide_eq_true_eq] at this
        omega
      · rw [hnv x hxm, if_neg (by omega), a2]
      · rw [hpe x hxm]; exact a4
      · rw [hel]; exact a5
  have hQV : ∀ x, x ∈ Q ↔ x ∈ P ∧ V x := by
    intro x
    constructor
    · intro hx
      have hxP := List.mem_of_mem_filter hx
      rcases iP x hxP with a | a
      · exact ⟨hxP, a.1⟩
      · exact absurd hx a.2.1
    · rintro ⟨hxP, hV⟩
      rcases iP x hxP with a | a
      · exact a.2.1
      · exact absurd hV a.1
  -- the sets
  have hV : ∀ x, LV n F8 x ↔ V x := by
    intro x
    constructor
    · rintro ⟨x0, x1, xn, xe⟩
      have hxm : x ≠ me := by rintro rfl; omega
      by_cases hxP : x ∈ P
      · rcases iP x hxP with a | a
        · exact a.1
        · have := a.2.2.1; omega
      · obtain ⟨o1, o2, _, _, _, o6⟩ := oP x hxP hxm
        rw [o6]
        exact ⟨⟨x0, x1, by omega, by omega⟩, hxm, fun hh => hxP hh.1⟩
    · intro hx
      have hv := mi.gr.vr x hx
      have h0 := hmono x hx
      refine ⟨hv.1, hv.2.1, ?_, ?_⟩
      · by_cases hxP : x ∈ P
        · rcases iP x hxP with a | a
          · rw [a.2.2.1]; exact hv.2.2.2
          · exact absurd hx a.1
        · rw [(oP x hxP h0.2.1).1]; exact h0.1.2.2.1
      · by_cases hxP : x ∈ P
        · rcases iP x hxP with a | a
          · have := a.2.2.2.2; omega
          · exact absurd hx a.1
        · rw [(oP x hxP h0.2.1).2.1]; exact h0.1.2.2.2
  have hEP : ∀ x, LE n F x → x ∉ P ∧ x ≠ me := fun x hx => ⟨(m.hme h hx).2, (m.hme h hx).1⟩
  have hEm : E0 n agg F G me wflg P me ↔ Q ≠ [] := by
    constructor
    · intro he
      obtain ⟨i, hi, hie⟩ := mi.gr.ne me he
      have hiP : i ∈ P := by
        have := (mi.gr.s2 me i he hi).2 hie
        unfold obL at this
        rwa [c.pem, c.lnm, c.hA] at this
      exact List.ne_nil_of_mem ((hQV i).2 ⟨hiP, hi⟩)
    · intro hne
      obtain ⟨i, hi⟩ := List.exists_mem_of_ne_nil _ hne
      obtain ⟨a, b⟩ := (hQV i).1 hi
      exact Or.inr ⟨rfl, i, a, (hmono i b).2.2⟩
  have hq0 : q = pme1 ↔ Q = [] := by
    constructor
    · intro hh
      have : Q.length = 0 := by omega
      exact List.length_eq_zero_iff.1 this
    · intro hh; rw [hq, hh]; simp
  have h7pem : F7 .pe me = pme1 := by rw [h7 .pe (Or.inl rfl), om.2.1]; exact c.pem
  have hE : ∀ x, LE n F8 x ↔ E0 n agg F G me wflg P x := by
    intro x
    by_cases hxm : x = me
    · subst hxm
      rw [hEm]
      constructor
      · rintro ⟨_, _, _, xp⟩ hh
        rw [(f3 (hq0.2 hh)).1] at xp; omega
      · intro hh
        have := (f4 fun h' => hh (hq0.1 h')).1
        have h3 := m.p0.1
        exact ⟨m.vm.1, m.vm.2.1, helm, by omega⟩
    · constructor
      · rintro ⟨x0, x1, xe, xp⟩
        have hxP : x ∉ P := fun hp => by
          rcases iP x hp with a | a
          · have := a.2.2.2.2; omega
          · have := a.2.2.2.2; omega
        obtain ⟨_, o2, o3, _⟩ := oP x hxP hxm
        rcases c.pe x x0 x1 hxP hxm (by omega) with hh | hh
        · have := hh.1.2.2.2; omega
        · exact hh
      · intro hx
        rcases hx with ⟨a, b⟩ | a
        · obtain ⟨hxP, _⟩ := hEP x a
          obtain ⟨_, o2, o3, _⟩ := oP x hxP hxm
          have := (c.lay.pos x (Or.inr (Or.inl ⟨a, b⟩))).1
          refine ⟨a.1, a.2.1, ?_, by omega⟩
          rw [o2]; exact a.2.2.1
        · exact absurd a.1 hxm
  have hK : ∀ x, KK n F8 x ↔ K0 n F me x := by
    intro x
    by_cases hxm : x = me
    · subst hxm
      constructor
      · rintro ⟨_, _, hh⟩; omega
      · rintro ⟨_, hh⟩; exact absurd rfl hh
    · by_cases hxP : x ∈ P
      · have hv := (m.pv h hxP).1
        have h1 := hv.2.2.2
        constructor
        · intro _; exact ⟨⟨hv.1, hv.2.1, by omega⟩, hxm⟩
        · intro _
          refine ⟨hv.1, hv.2.1, ?_⟩
          rcases iP x hxP with a | a
          · have := a.2.2.2.2; omega
          · have := a.2.2.2.2; omega
      · obtain ⟨_, o2, _⟩ := oP x hxP hxm
        constructor
        · rintro ⟨a, b, d⟩; exact ⟨⟨a, b, by omega⟩, hxm⟩
        · rintro ⟨⟨a, b, d⟩, _⟩; exact ⟨a, b, by omega⟩
  have hO : ∀ x, LO n F8 x → V0 n agg F G me wflg P x ∨ E0 n agg F G me wflg P x := by
    rintro x (hx | hx)
    · exact Or.inl (hmono x ((hV x).1 hx))
    · exact Or.inr ((hE x).1 hx)
  have hVm : ∀ x, LV n F8 x → x ≠ me := fun x hx => (hmono x ((hV x).1 hx)).2.1
  have hpeO : ∀ x, LO n F8 x → x ≠ me → F8 .pe x = H .pe x := by
    intro x hx hxm
    by_cases hxP : x ∈ P
    · rcases iP x hxP with a | a
      · exact a.2.2.2.1
      · have h1 := a.2.2.1
        have h2 := a.2.2.2.2.2
        rcases hx with hx | hx
        · have := hx.2.2.1; omega
        · have := hx.2.2.1; omega
    · exact (oP x hxP hxm).2.2.1
  have helO : ∀ x, LV n F8 x → F8 .el x = H .el x := by
    intro x hx
    by_cases hxP : x ∈ P
    · rcases iP x hxP with a | a
      · exact a.2.2.2.2.1
      · have := hx.2.2.1; omega
    · rw [(oP x hxP (hVm x hx)).2.1, (c.o x hxP (hVm x hx)).2.1]
  have hiwO : ∀ x, LO n F8 x → x ≠ me → ∀ p, H .pe x ≤ p → p < H .pe x + H .ln x → F8 .iw p = H .iw p := by
    intro x hx hxm p a b
    apply hiwo
    by_cases hP0 : P = []
    · rw [hP0]; simp; omega
    · have := c.djm hP0 x (hO x hx) hxm
      omega
  have hE8 : ∀ x, LV n F8 x → elL F8 x = elL H x := by
    intro x hx
    unfold elL
    rw [hpeO x (Or.inl hx) (hVm x hx), helO x hx]
    have h1 := c.eln x (hmono x ((hV x).1 hx))
    exact seg_congr fun p a b => hiwO x (Or.inl hx) (hVm x hx) p a (by omega)
  have hV8 : ∀ x, LV n F8 x → vaL F8 x = vaL H x := by
    intro x hx
    unfold vaL
    have h0 := hx.2.2.2
    rw [hpeO x (Or.inl hx) (hVm x hx), helO x hx, hln x (hVm x hx)]
    rw [helO x hx] at h0
    exact seg_congr fun p a b => hiwO x (Or.inl hx) (hVm x hx) p (by omega) (by omega)
  have hOb8 : ∀ x, LE n F8 x → x ≠ me → obL F8 x = obL H x := by
    intro x hx hxm
    unfold obL
    rw [hpeO x (Or.inr hx) hxm, hln x hxm]
    exact seg_congr fun p a b => hiwO x (Or.inr hx) hxm p a b
  have hObm : LE n F8 me → obL F8 me = Q := by
    intro hx
    have h1 : q ≠ pme1 := fun hh => (hEm.1 ((hE me).1 hx)) (hq0.1 hh)
    unfold obL
    rw [(f4 h1).1, h7pem, f2, hq, add_sub_cancel_left, hiw]
    exact r.sg
  have hobH : obL H me = P := by unfold obL; rw [c.pem, c.lnm, c.hA]
  have hnv8 : ∀ x, 0 ≤ x → x < n → F8 .nv x = ν x := by
    intro x _ _
    by_cases hxm : x = me
    · rw [hxm, f1, hνm]
    · by_cases hxP : x ∈ P
      · rcases iP x hxP with a | a
        · exact a.2.2.1
        · rw [a.2.2.1, a.2.2.2.1]
      · obtain ⟨o1, _, _, _, o5, _⟩ := oP x hxP hxm
        rw [o1, o5]
  have hdgE : ∀ x, LE n F8 x → F8 .dg x = H .dg x := by
    intro x hx
    rw [hdg8, r.dg x ?_, h6dg]
    intro hh
    have := (hV x).2 ((hQV x).1 hh).2
    have h1 := this.2.2.2; have h2 := hx.2.2.1; omega
  have hQm : me ∉ Q := fun hh => hmP (List.mem_of_mem_filter hh)
  constructor
  · exact gp
  · exact g1
  · intro x x0 x1
    constructor
    · intro hx
      by_cases hxm : x = me
      · subst hxm
        rcases hx with hx | hx
        · exact absurd rfl (hVm _ hx)
        · exact hx.2.2.2
      · rw [hpeO x hx hxm]; exact (c.lay.pos x (hO x hx)).1
    · intro hp
      by_cases hxm : x = me
      · right
        rw [hE, hxm, hEm]
        intro hh
        rw [hxm, (f3 (hq0.2 hh)).1] at hp; omega
      · by_cases hxP : x ∈ P
        · rcases iP x hxP with a | a
          · exact Or.inl ((hV x).2 a.1)
          · have := a.2.2.2.2.1; omega
        · obtain ⟨_, _, o3, _, _, o6⟩ := oP x hxP hxm
          rcases c.pe x x0 x1 hxP hxm (by omega) with hh | hh
          · exact Or.inl ((hV x).2 (o6.2 hh))
          · exact Or.inr ((hE x).2 hh)
  · -- Lay
    have hmq : LO n F8 me → Q ≠ [] ∧ F8 .pe me = pme1 ∧ F8 .ln me = Q.length := by
      intro hx
      have h1 : Q ≠ [] := by
        rcases hx with hx | hx
        · exact absurd rfl (hVm _ hx)
        · exact hEm.1 ((hE me).1 hx)
      refine ⟨h1, ?_, by omega⟩
      rw [(f4 fun hh => h1 (hq0.1 hh)).1, h7pem]
    have hP0 : Q ≠ [] → P ≠ [] := fun hh hh' => by rw [hQ, hh'] at hh; simp at hh
    have hp0 := m.p0
    refine ⟨?_, ?_, ?_⟩
    · intro x hx; exact c.lay.rg x (hO x hx)
    · intro x hx
      by_cases hxm : x = me
      · rw [hxm] at hx ⊢
        obtain ⟨a, b, d⟩ := hmq hx
        have : 0 < Q.length := List.length_pos_iff.2 a
        rw [b, d]
        exact ⟨hp0.1, by omega, by omega⟩
      · have h1 := c.lay.pos x (hO x hx)
        rw [hpeO x hx hxm, hln x hxm]
        refine ⟨h1.1, h1.2.1, ?_⟩
        rcases g2 with g2 | ⟨g2, g2'⟩
        · omega
        · by_cases hPn : P = []
          · rw [hPn] at hQl g2'
            simp at hQl g2'
            have : (Q.length : ℤ) = 0 := by rw [hQ, hPn]; simp
            omega
          · have := c.djm hPn x (hO x hx) hxm
            omega
    · intro x y hx hy hxy
      by_cases hxm : x = me
      · rw [hxm] at hx hxy ⊢
        obtain ⟨a, b, d⟩ := hmq hx
        have hym : y ≠ me := fun hh => hxy hh.symm
        have := c.djm (hP0 a) y (hO y hy) hym
        rw [hpeO y hy hym, hln y hym, b, d]
        omega
      · by_cases hym : y = me
        · rw [hym] at hy ⊢
          obtain ⟨a, b, d⟩ := hmq hy
          have := c.djm (hP0 a) x (hO x hx) hxm
          rw [hpeO x hx hxm, hln x hxm, b, d]
          omega
        · rw [hpeO x hx hxm, hln x hxm, hpeO y hy hym, hln y hym]
          exact c.lay.dj x y (hO x hx) (hO y hy) hxy
  · refine le_trans (psum_mono (fun x _ _ hx => hO x hx) ?_ ?_) c.sum
    · intro x _ _ hx
      by_cases hxm : x = me
      · rw [hxm, f2, hq, c.lnm]; omega
      · rw [hln x hxm]
    · intro x _ _ hx; exact (c.lay.pos x hx).2.1.le
  · intro p p0 p1
    rw [hiw]
    refine r.iwr p p0 ?_
    rcases g2 with g2 | ⟨g2, g2'⟩ <;> omega
  · intro i hi
    rw [helO i hi, hln i (hVm i hi)]
    exact c.eln i (hmono i ((hV i).1 hi))
  · intro x x0 x1
    by_cases hxm : x = me
    · rw [hxm, f1]
      constructor <;> intro <;> omega
    · by_cases hxP : x ∈ P
      · rcases iP x hxP with a | a
        · have h1 := a.2.2.2.2.1
          have h2 := a.2.2.2.2.2
          have h3 := (mi.gr.vr x a.1).2.2.2
          have h4 := a.2.2.1
          constructor <;> intro <;> omega
        · exact ⟨fun _ => a.2.2.1, fun _ => a.2.2.2.2.2⟩
      · obtain ⟨o1, o2, _⟩ := oP x hxP hxm
        rw [o1, o2]; exact h.e1 x x0 x1
  · refine mi.gr.congr hV hE hK ?_ ?_ ?_ ?_ ?_ ?_
    · intro x hx; have := mi.gr.vr x hx; exact hnv8 x this.1 this.2.1
    · intro x hx; exact hdgE x ((hE x).2 hx)
    · intro x hx; exact hE8 x ((hV x).2 hx)
    · intro x hx; exact hV8 x ((hV x).2 hx)
    · intro e he i hi
      by_cases hem : e = me
      · subst hem
        rw [hObm ((hE _).2 he), hobH, hQV]
        exact ⟨fun a => a.1, fun a => ⟨a, hi⟩⟩
      · rw [hOb8 e ((hE e).2 he) hem]
    · intro e he i hi
      by_cases hem : e = me
      · subst hem
        rw [hObm ((hE _).2 he)] at hi
        rw [hobH]; exact ((hQV i).1 hi).1
      · rw [hOb8 e ((hE e).2 he) hem] at hi; exact hi
  · have e1 : psum n (LV n F8) (F8 .nv) = psum n V ν :=
      psum_congr (fun x _ _ => hV x) fun x a b _ => hnv8 x a b
    rw [e1, mi.sum, c.s, h.nl, g3]; ring
  · have := h.n0; omega
  · obtain ⟨rk', hd⟩ := r.dl
    refine ⟨rk', hd.congr ?_ ?_ ?_ ?_ ?_⟩
    · intro x
      rw [hV]
      constructor
      · intro hx
        by_cases hxP : x ∈ P
        · exact Or.inr ((hQV x).2 ⟨hxP, hx⟩)
        · have := hmono x hx
          exact Or.inl ⟨this.1, this.2.1, hxP⟩
      · rintro (hx | hx)
        · exact (oP x hx.2.2 hx.2.1).2.2.2.2.2.2 ⟨hx.1, hx.2.1, fun hh => hx.2.2 hh.1⟩
        · exact ((hQV x).1 hx).2
    all_goals intros; rw [f6 _ (by decide) (by decide) (by decide) (by decide)]
  · rw [g4]
    refine ⟨r.md.1, fun x hx => ?_⟩
    rw [hdg8]
    refine r.md.2.2 x ?_
    by_cases hxP : x ∈ P
    · exact Or.inr ((hQV x).2 ⟨hxP, (hV x).1 hx⟩)
    · have := hmono x ((hV x).1 hx)
      exact Or.inl ⟨this.1, this.2.1, hxP⟩
  · rw [g5]
    refine ⟨hwb.1, fun x x0 x1 => ?_⟩
    have hb := hwb.2 x x0 x1
    have hb1 := hwb.1
    by_cases hxm : x = me
    · subst hxm
      by_cases hh : q = pme1
      · rw [(f3 hh).2]
        refine ⟨le_rfl, by omega, ?_⟩
        intro hx
        rcases hx with hx | hx
        · exact absurd rfl (hVm _ hx)
        · exact absurd (hq0.1 hh) (hEm.1 ((hE _).1 hx))
      · rw [(f4 hh).2, h7 .w (Or.inr (Or.inr rfl))]
        exact ⟨hb.1, hb.2.1, fun hx => hb.2.2 (c.w _ (hO _ hx))⟩
    · rw [hw8 x hxm]
      exact ⟨hb.1, hb.2.1, fun hx => hb.2.2 (c.w _ (hO _ hx))⟩
  · rw [g6]
    have := h.lm.1
    refine ⟨by constructor <;> omega, fun e he => ?_⟩
    rw [hdgE e he]
    by_cases hem : e = me
    · rw [hem, c.dgm]; omega
    · rcases (hE e).1 he with ⟨a, _⟩ | a
      · rw [(c.o e (hEP e a).1 hem).2.2]
        have := h.lm.2 e a; omega
      · exact absurd a.1 hem
  · obtain ⟨root, t, ht⟩ := mi.tr
    refine ⟨root, t, ht.congr ?_ hnv8 ?_⟩
    · intro x x0 x1
      by_cases hxm : x = me
      · subst hxm
        right
        have h3 := m.p0.1
        have h4 : F6 .pe x = pme1 := by rw [om.2.1]; exact c.pem
        refine ⟨by omega, ?_, by omega⟩
        by_cases hh : q = pme1
        · rw [(f3 hh).1]; omega
        · rw [(f4 hh).1, h7pem]; omega
      · left; exact hpe x hxm
    · intro x _ _ hx; rw [hel]; exact hx
  · exact g7
  · intro x x0 x1
    by_cases hxm : x = me
    · rw [hxm, hel, om.2.2.1]; exact c.elb
    · by_cases hxP : x ∈ P
      · rcases iP x hxP with a | a
        · have := a.2.2.2.2; omega
        · have := a.2.2.2.2; omega
      · rw [(oP x hxP hxm).2.1]; exact h.eb x x0 x1

theorem pivotStep_spec {wbig ndense : ℤ} (hwB : wbig = 9223372036854775807 - n) (h : LI n nz Al z F) (hnel : z.nel < n) (hAl : nz + n ≤ Al)
    (hnd : 0 ≤ ndense) :
    wp (pivotStep n Al wbig ndense agg z) (fun z' => (z.nel < z'.nel ∧
      2 * z'.lnz + (n - z'.nel + ndense) * (n - z'.nel + ndense - 1) ≤
        2 * z.lnz + (n - z.nel + ndense) * (n - z.nel + ndense - 1)) ∧ ∃ F', LI n nz Al z' F') (fun _ => False) := by
  unfold pivotStep
  refine front_spec (agg := agg) (wbig := wbig) (ndense := ndense) hwB h hnel hAl
    (fun s deg me elenme nvpiv pme1 q degme pfree wflg nel pme2 => do
      let y ← scan2 n agg me wflg pme1 pme2 (Sc2.mk s degme nvpiv nel)
      let s ← y.s.wr .dg me y.degme
      let lemax := max z.lemax y.degme
      let wflg ← ck (wflg + lemax)
      let (s, wflg) ← clear_flag wflg wbig n s
      let (s, wflg) ← detect n pme1 pme2 wflg s
      let (s, p, mindeg) ← restore n y.nel y.degme pme1 pme2 deg s
      let (s, pfree) ← finalize me y.nvpiv elenme pme1 p pfree s
      let f := y.nvpiv
      let r := y.degme + ndense
      pure (Ord.mk s y.nel mindeg wflg lemax pfree (z.lnz + (f * r + (f - 1) * f / 2)))) ?_
  intro s deg me elenme nvpiv pme1 q degme pfree wflg G P hR m hq hd0 hdeg hpf
  subst hq
  obtain ⟨rk, hdl⟩ := m.dl
  have n0 : 0 ≤ n := by have := m.vm.1; have := m.vm.2.1; omega
  have hmr : 0 ≤ me ∧ me < n := ⟨m.vm.1, m.vm.2.1⟩
  have hmS := mS_psum (agg := agg) h m
  have hmS0 : 0 ≤ mS agg G wflg P := by
    rw [hmS]; exact psum_nonneg fun x _ _ hx => (m.pv h hx.1).1.2.2.1.le
  have hnm := m.vm.2.2.1
  have hnvp := m.nvp
  have hn0 := h.n0
  have hnn := h.nvn m.vm
  have hdn := m.dn
  refine wb (wp_post (scan2_spec (m.h2 (agg := agg) h) hdl (z := Sc2.mk s degme nvpiv (z.nel + nvpiv)) hR
    ⟨⟨m.dn.1, show degme ≤ n by omega⟩, ⟨show 0 ≤ nvpiv by omega, show nvpiv ≤ n by omega⟩, show 0 ≤ z.nel + nvpiv by omega, show z.nel + nvpiv ≤ n by omega⟩) ?_)
  rintro ⟨s4, dm, nvp, nel⟩ ⟨F4, bk, hR4, hS2, a1, a2, a3⟩
  dsimp only at hR4 a1 a2 a3 ⊢
  obtain ⟨s5, e5, hR5⟩ := hR4.wrn .dg (by decide) hmr.1 hmr.2 dm
  rw [e5, ok_bind]
  have hmS1 : mS agg G wflg P ≤ degme := by
    rw [hmS, m.dgm]
    exact psum_mono (fun x _ _ hx => hx.1) (fun _ _ _ _ => le_rfl) fun x _ _ hx => (m.pv h hx).1.2.2.1.le
  have htP : ∀ x, tch agg G wflg P x → ∃ i ∈ P, x ∈ elL F i := by
    rintro x ⟨_, i, hi, hx⟩
    obtain ⟨a, b, _⟩ := m.pv h hi
    rw [(m.lists h a b).1] at hx
    exact ⟨i, hi, hx⟩
  have hwf := m.wf
  have hlm := h.lm.1
  rw [m.wt (wflg + max z.lemax dm) (by omega) (by omega), ok_bind]
  refine wb (wp_post (clear_flag_spec hR5 n0 (wflg := wflg + max z.lemax dm) (wbig := wbig) ?_) ?_)
  · intro x x0 x1
    rw [set_ne _ (by decide)]
    by_cases ht : tch agg G wflg P x
    · rw [hS2.w1 x ht]; exact ⟨le_rfl, fun _ => by omega⟩
    · rw [hS2.w2 x ht]
      by_cases hi : ∃ i ∈ P, x ∈ elL F i
      · obtain ⟨b1, b2, b3⟩ := m.wge h hi
        have b4 := h.lm.2 x b1
        by_cases hz : G .w x = 0
        · rw [hz]; exact ⟨le_rfl, fun _ => by omega⟩
        · have := b3 hz; exact ⟨by omega, fun _ => by omega⟩
      · have := m.w2 x x0 x1 hi
        exact ⟨this.1, fun _ => by omega⟩
  rintro ⟨s6, wf⟩ ⟨H, hR6, ⟨hwf6, hwf6'⟩, hoH, hwH⟩
  dsimp only at hR6 hwf6 hwf6' hwH ⊢
  rw [hwB] at hwf6'
  have hWF := WFit.of hR6 n0 hwf6'
  have hoH' : ∀ f, f ≠ .w → f ≠ .dg → H f = F4 f := fun f a b => by rw [hoH f a, set_ne _ b]
  have hdgH : H .dg = set F4 .dg me dm .dg := hoH .dg (by decide)
  have c : Hs n nz me agg F G P pme1 pfree (degme - mS agg G wflg P) wflg H := by
    refine late h m hS2 hoH' ?_ ?_ ?_
    · intro x hx; rw [hdgH, set_nei _ _ _ _ hx]
    · rw [hdgH, set_at, a1]
    · intro x x0 x1; rw [(hwH x x0 x1).2.2, set_ne _ (by decide)]
  rw [← a1] at c
  have hPS : ∀ x ∈ P, ¬ (LV n F x ∧ x ≠ me ∧ x ∉ P) := fun x hx hh => hh.2.2 hx
  have hmono0 : ∀ i ∈ P, ¬ mass agg G wflg i → V0 n agg F G me wflg P i := fun i hi hm =>
    ⟨(m.pv h hi).1, (m.pv h hi).2.1, fun hh => hm hh.2⟩
  have hhb : HB n G H (fun x => LV n F x ∧ x ≠ me ∧ x ∉ P) bk := by
    refine hS2.hb.congr (hoH' _ (by decide) (by decide)) (hoH' _ (by decide) (by decide))
      (hoH' _ (by decide) (by decide)) ?_
    intro x hx; rw [hdgH, set_nei _ _ _ _ hx.2.1]
  have hs0 : psum n (V0 n agg F G me wflg P) (ν0 agg F G me wflg P) ≤ n := by
    rw [c.s, h.nl]; omega
  have hDS : DS n Al pfree G H P [] (fun x => LV n F x ∧ x ≠ me ∧ x ∉ P) (V0 n agg F G me wflg P)
      (E0 n agg F G me wflg P) (K0 n F me) (ν0 agg F G me wflg P) (obL H) s6 H bk (V0 n agg F G me wflg P)
      (ν0 agg F G me wflg P) wf (wf + n) := by
    constructor
    · exact hR6
    · exact c.mi
    · exact hhb
    · intro k k0 k1 x hx
      have := hS2.bk k k0 k1 x hx
      exact ⟨this.1, by simp, hmono0 x this.1 this.2⟩
    · intro x hx hV
      rw [hoH' .la (by decide) (by decide)]
      exact hS2.la x hx fun hm => hV.2.2 ⟨hx, hm⟩
    · refine ⟨hwf6, fun x x0 x1 => ?_⟩
      have := hwH x x0 x1
      exact ⟨this.1, this.2.1, fun hh => hh⟩
    · intro x hx; exact hx
    · have := hhb.count n0; omega
  refine wb (wp_post (detect_spec c.h3 c.hA m.p0.1 m.p0.2 hdl hPS hDS hs0
    fun v v0 v1 => hWF v (by omega) v1) ?_)
  rintro ⟨s7, wf7⟩ ⟨F6, V, ν, hR7, mi, hdl7, hwb, hmono, hwfB⟩
  dsimp only at hR7 hwb ⊢
  have h6iw : F6 .iw = H .iw := mi.eq .iw (by decide) (by decide) (by decide) (by decide) (by decide) (by decide)
    (by decide)
  have h6dg : F6 .dg = H .dg := mi.eq .dg (by decide) (by decide) (by decide) (by decide) (by decide) (by decide)
    (by decide)
  have hνnn : ∀ x, 0 ≤ x → x < n → V x → 0 ≤ ν x := fun x _ _ hx => (mi.gr.vr x hx).2.2.2.le
  have hsumV : psum n V ν = n - nel := by
    rw [mi.sum, c.s, h.nl, a3, m.nvp]; ring
  have hnel0 : 0 ≤ nel := by
    have := h.n0; have := m.vm.2.2.1; have := m.nvp; omega
  refine wb (wp_post (restore_spec (nel := nel) (degme := dm) (mindeg := deg) hR7 (by rw [h6iw]; exact c.hA) m.p0.1
    m.p0.2 m.nd ?_ hnel0 (by rw [h6iw]; exact c.h3.iw) hdl7 hd0 ?_ ?_ (by constructor <;> omega) ?_) ?_)
  · intro i hi
    obtain ⟨a, b, _⟩ := m.pv h hi
    refine ⟨a.1, a.2.1, hPS i hi, fun hneg => ?_⟩
    rw [h6dg]
    refine ⟨c.dgp i hi, ?_⟩
    rcases mi.i i hi with ⟨b1, b2, b3, b4, b5⟩ | ⟨b1, b2, _⟩
    · have hv := mi.gr.vr i b1
      have h3 := (c.h3.rg i hi).2.2 b5
      have hEm : E0 n agg F G me wflg P me := Or.inr ⟨rfl, i, hi, (hmono i b1).2.2⟩
      have hmem : me ∈ elL H i := by
        unfold elL
        rw [mem_seg]
        exact ⟨H .pe i, le_rfl, by omega, h3.2.2.2.2⟩
      have k1 := mi.gr.dgi me hEm
      have k2 := psum_le_one (n := n) (O := fun i => V i ∧ me ∈ elL H i) (f := ν) (e := i) ⟨b1, hmem⟩ hv.1 hv.2.1
        fun x x0 x1 hx => hνnn x x0 x1 hx.1
      have k3 := psum_le_one (n := n) (O := V) (f := ν) (e := i) b1 hv.1 hv.2.1 hνnn
      have k4 := c.dgm
      constructor <;> omega
    · omega
  · intro x hx
    rw [h6dg, (c.o x hx.2.2 hx.2.1).2.2]; exact hdeg x hx.1
  · have : 0 ≤ psum n V ν := psum_nonneg hνnn
    omega
  · intro i hi
    rw [h6dg]
    refine ⟨?_, ?_, c.dgn i hi⟩
    · rcases mi.i i hi with ⟨b1, b2, b3, b4, b5⟩ | ⟨b1, b2, _⟩
      · have hv := mi.gr.vr i b1
        have k3 := psum_le_one (n := n) (O := V) (f := ν) (e := i) b1 hv.1 hv.2.1 hνnn
        omega
      · omega
    · rcases mi.i i hi with ⟨b1, b2, b3, b4, b5⟩ | ⟨b1, b2, _⟩
      · have := (mi.gr.vr i b1).2.2.2; omega
      · omega
  rintro ⟨s8, p8, md⟩ ⟨F7, hR8, hrs⟩
  dsimp only at hR8 hrs ⊢
  have hp0 := m.p0
  have hq := hrs.q
  have hQl : ((P.filter (F6 .nv · < 0)).length : ℤ) ≤ P.length := by exact_mod_cast List.length_filter_le _ _
  have htop := hR8.top
  have hal := hR8.fit.al
  obtain ⟨s9, F8, e9, hR9, f1, f2, f3, f4, f5, f6⟩ := finalize_spec (nvpiv := nvp) (elenme := elenme) (pme1 := pme1)
    (p := p8) (pfree := pfree) hR8 hmr (by constructor <;> omega)
  rw [e9, ok_bind]
  refine wpr ⟨⟨show z.nel < nel by omega, ?_⟩, F8, ?_⟩
  · have k1 : degme + F .nv me ≤ n - z.nel := by
      rw [← h.nl, psum_erase m.vm hmr.1 hmr.2, m.dgm]
      have := psum_mono (n := n) (O := (· ∈ P)) (O' := fun x => LV n F x ∧ x ≠ me) (f := F .nv) (g := F .nv)
        (fun x _ _ hx => ⟨(m.pv h hx).1, (m.pv h hx).2.1⟩) (fun _ _ _ _ => le_rfl) fun x _ _ hx => hx.1.2.2.1.le
      omega
    show 2 * (z.lnz + (nvp * (dm + ndense) + (nvp - 1) * nvp / 2)) + (n - nel + ndense) * (n - nel + ndense - 1) ≤ _
    have k2 : 2 * ((nvp - 1) * nvp / 2) ≤ (nvp - 1) * nvp := by omega
    have k3 : nel = z.nel + nvp := by omega
    have k4 : dm ≤ n - nel := by omega
    have k5 : 1 ≤ nvp := by omega
    have k6 : nvp * (dm + ndense) ≤ nvp * (n - nel + ndense) := mul_le_mul_of_nonneg_left (by omega) (by omega)
    rw [show n - z.nel + ndense = (n - nel + ndense) + nvp by omega]
    nlinarith
  refine step_inv h m c mi hwb hmono hrs (by rw [f1, a2, hnvp]) f2 f3 f4 f5 f6 ?_ ?_ ?_ ?_ rfl rfl rfl ?_ (by omega)
  · show 0 ≤ if elenme ≠ 0 then p8 else pfree
    split_ifs <;> omega
  · show Rm n Al (if elenme ≠ 0 then p8 else pfree) s9 F8
    split_ifs with he
    · exact hR9.shrink (by omega)
    · exact hR9
  · show (if elenme ≠ 0 then p8 else pfree) = pfree ∨ ((if elenme ≠ 0 then p8 else pfree) = p8 ∧ _)
    split_ifs with he
    · exact Or.inr ⟨rfl, hpf he⟩
    · exact Or.inl rfl
  · show nel = _
    omega
  · show 0 ≤ z.lnz + (nvp * (dm + ndense) + (nvp - 1) * nvp / 2)
    have k1 := h.lz
    have k2 : 1 ≤ nvp := by omega
    have k3 : 0 ≤ nvp * (dm + ndense) := mul_nonneg (by omega) (by omega)
    have k4 : 0 ≤ (nvp - 1) * nvp / 2 := Int.ediv_nonneg (mul_nonneg (by omega) (by omega)) (by omega)
    omega

/-- The main loop. -/
theorem pivotLoop_spec {wbig ndense : ℤ} (hwB : wbig = 9223372036854775807 - n) (hAl : nz + n ≤ Al) (hnd : 0 ≤ ndense) :
    ∀ (fuel : ℕ) (z : Ord) (F : Sh),
    LI n nz Al z F → (n - z.nel).toNat < fuel →
    wp (pivotLoop n Al wbig ndense agg fuel z) (fun z' => (n ≤ z'.nel ∧
      2 * z'.lnz + (n - z'.nel + ndense) * (n - z'.nel + ndense - 1) ≤
        2 * z.lnz + (n - z.nel + ndense) * (n - z.nel + ndense - 1)) ∧ ∃ F', LI n nz Al z' F') (fun _ => False)
  | 0, _, _, _, hf => by omega
  | fuel + 1, z, F, h, hf => by
    unfold pivotLoop
    by_cases hn : z.nel < n
    · rw [if_pos hn]
      refine wb (wp_post (pivotStep_spec hwB h hn hAl hnd) ?_)
      rintro z' ⟨⟨h1, h1'⟩, F', h2⟩
      refine wp_post (pivotLoop_spec hwB hAl hnd fuel z' F' h2 (by omega)) ?_
      rintro z'' ⟨⟨h3, h4⟩, h5⟩
      exact ⟨⟨h3, h4.trans h1'⟩, h5⟩
    · rw [if_neg hn]
      exact wpr ⟨⟨by omega, le_rfl⟩, F, h⟩

end Slip.Amd
