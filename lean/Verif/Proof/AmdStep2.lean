import Verif.Proof.AmdStep

/-!
# AMD: one pivot, scan 2
-/

namespace Slip.Amd

open Slip.Colamd (seg mem_seg seg_congr seg_succ length_seg seg_zero wp_seg wp_list csum seg_ext seg_getElem)

variable [Arith]

variable {n nz Al : ℤ} {z : Ord} {F G H : Sh} {P : List ℤ} {me pme1 pfree nvpiv degme wflg : ℤ} {agg : Bool}

section mid

variable (h : LI n nz Al z F) (m : Mid n nz me F P pme1 pfree nvpiv degme wflg G)
include h m

theorem Mid.pv {x : ℤ} (hx : x ∈ P) : LV n F x ∧ x ≠ me ∧ x ∉ elL F me := by
  have := (m.mem x).1 hx
  exact ⟨this.1, this.2.1, h.not_el m.vm this.1⟩

theorem Mid.lists {x : ℤ} (hx : LV n F x) (hm : x ≠ me) :
    elL G x = elL F x ∧ vaL G x = vaL F x ∧ G .ln x = F .ln x ∧ G .el x = F .el x := by
  have := m.ob x (Or.inl hx) hm (h.not_el m.vm hx)
  have h2 := elL_eq hx.2.2.2 (h.eln x hx) this.1 this.2 (m.el x hm)
  exact ⟨h2.1, h2.2, this.2, m.el x hm⟩

theorem Mid.hme {e : ℤ} (he : LE n F e) : e ≠ me ∧ e ∉ P := by
  have h1 := he.2.2.1
  constructor
  · rintro rfl; have := m.vm.2.2.2; omega
  · intro hp; have := (m.pv h hp).1.2.2.2; omega

theorem Mid.nvpos {x : ℤ} (hx : KK n F x) : 0 < G .nv x ↔ LV n F x ∧ x ≠ me ∧ x ∉ P := by
  rw [m.nv]
  by_cases hc : x ∈ P ∨ x = me
  · rw [if_pos hc]
    have : 0 < F .nv x := by
      rcases hc with hc | rfl
      · exact (m.pv h hc).1.2.2.1
      · exact m.vm.2.2.1
    constructor
    · intro; omega
    · intro hh; exact absurd hc (by rw [not_or]; exact ⟨hh.2.2, hh.2.1⟩)
  · rw [if_neg hc, h.ent hx]
    rw [not_or] at hc
    exact ⟨fun a => ⟨a, hc.2, hc.1⟩, fun a => a.1⟩

/-- The elements of the lists of `P` are flagged. -/
theorem Mid.wge {x : ℤ} (ht : ∃ i ∈ P, x ∈ elL F i) : LE n F x ∧
    (G .w x = 0 ↔ x ∈ elL F me) ∧ (G .w x ≠ 0 → wflg ≤ G .w x ∧ G .w x < wflg + F .dg x) := by
  obtain ⟨i, hi, hx⟩ := ht
  have hE := h.gr.e1 i (m.pv h hi).1 x hx
  have hw := m.wf
  by_cases hm : x ∈ elL F me
  · have := m.w0 x hm
    exact ⟨hE, ⟨fun _ => hm, fun _ => this⟩, fun hh => absurd this hh⟩
  · have h1 := m.w1 x hE.1 hE.2.1 hm ⟨i, hi, hx⟩
    have h2 : psum n (fun i => i ∈ P ∧ x ∈ elL F i) (F .nv) ≤ F .dg x := by
      refine le_trans (psum_mono ?_ (fun _ _ _ _ => le_rfl) ?_) (h.gr.dgi x hE)
      · rintro i _ _ ⟨a, b⟩; exact ⟨(m.pv h a).1, b⟩
      · intro i _ _ hi; exact hi.1.2.2.1.le
    have h3 : F .nv i ≤ psum n (fun i => i ∈ P ∧ x ∈ elL F i) (F .nv) :=
      psum_le_one (O := fun i => i ∈ P ∧ x ∈ elL F i) ⟨hi, hx⟩ (m.pv h hi).1.1 (m.pv h hi).1.2.1
        fun y _ _ hy => (m.pv h hy.1).1.2.2.1.le
    have h4 := (m.pv h hi).1.2.2.1
    exact ⟨hE, ⟨fun hh => by omega, fun hh => absurd hh hm⟩, fun _ => ⟨by omega, by omega⟩⟩

theorem Mid.h2 : H2 n pfree me pme1 wflg agg P (fun x => LV n F x ∧ x ≠ me ∧ x ∉ P) G := by
  obtain ⟨rk, hdl⟩ := h.dl
  have hlay : ∀ i ∈ P, ((LO n F i ∧ i ≠ me ∧ i ∉ elL F me) ∨ (i = me ∧ P ≠ [])) := by
    intro i hi
    have := m.pv h hi
    exact Or.inl ⟨Or.inl this.1, this.2⟩
  constructor
  · intro i hi
    obtain ⟨a, b, c⟩ := m.pv h hi
    obtain ⟨_, _, l3, l4⟩ := m.lists h a b
    have hp := m.lay.pos i (hlay i hi)
    have := h.eln i a
    have hd := hdl.rg i a
    rw [l4, m.nv, if_pos (Or.inl hi), m.dg i b, l3]
    rw [l3] at hp
    exact ⟨a.1, a.2.1, hp.1, a.2.2.2, this, hp.2.2, by have := a.2.2.1; omega, hd.2.2.1⟩
  · intro i hi j hj hij
    exact m.lay.dj i j (hlay i hi) (hlay j hj) hij
  · intro i hi
    have := m.lay.dj i me (hlay i hi) (Or.inr ⟨rfl, List.ne_nil_of_mem hi⟩) (m.pv h hi).2.1
    rw [m.pem, m.lnm] at this
    exact this
  · exact m.iw
  · intro i hi
    obtain ⟨a, b, c⟩ := m.pv h hi
    rw [(m.lists h a b).1]; exact h.gr.nde i a
  · intro i hi e he
    obtain ⟨a, b, c⟩ := m.pv h hi
    rw [(m.lists h a b).1] at he
    have := m.hme h (h.gr.e1 i a e he)
    exact ⟨this.2, this.1⟩
  · intro i hi e he hw
    obtain ⟨a, b, c⟩ := m.pv h hi
    rw [(m.lists h a b).1] at he
    exact ((m.wge h ⟨i, hi, he⟩).2.2 hw).1
  · intro i hi
    obtain ⟨a, b, c⟩ := m.pv h hi
    obtain ⟨l1, l2, l3, l4⟩ := m.lists h a b
    have e0 := a.2.2.2
    have e1 := h.eln i a
    have k1 : ((elL G i).length : ℤ) = F .el i := by rw [l1]; unfold elL; rw [length_seg]; omega
    have k2 : ((vaL G i).length : ℤ) = F .ln i - F .el i := by rw [l2]; unfold vaL; rw [length_seg]; omega
    have k3 : (kE agg G wflg i).length ≤ (elL G i).length := List.length_filter_le _ _
    have k4 : (kV G i).length ≤ (vaL G i).length := List.length_filter_le _ _
    rw [l3]
    rcases ((m.mem i).1 hi).2.2 with hv | ⟨e, he, hie⟩
    · have hmv := h.gr.s1 me i m.vm a hv
      have : (kV G i).length < (vaL G i).length := by
        unfold kV
        apply List.length_filter_lt_length_iff_exists.2
        refine ⟨me, by rw [l2]; exact hmv, ?_⟩
        have := m.vm.2.2.1
        rw [m.nv, if_pos (Or.inr rfl)]
        simp; omega
      omega
    · have hE := h.gr.e1 me m.vm e he
      have hei := (h.gr.s2 e i hE a).1 hie
      have : (kE agg G wflg i).length < (elL G i).length := by
        unfold kE
        apply List.length_filter_lt_length_iff_exists.2
        refine ⟨e, by rw [l1]; exact hei, ?_⟩
        have := m.w0 e he
        simp [kp, this]
      omega
  · exact m.nd
  · refine ⟨m.vm.1, m.vm.2.1, fun hp => (m.pv h hp).2.1 rfl⟩
  · exact m.obm
  · exact m.p0
  · intro i hi hS; exact hS.2.2 hi
  · intro i hi
    obtain ⟨a, b, c⟩ := m.pv h hi
    rw [(m.lists h a b).2.1]; exact h.gr.ndv i a
  · intro i hi
    obtain ⟨a, b, c⟩ := m.pv h hi
    have h1 := h.nl
    have h0 := h.n0
    refine le_trans (psum_mono (O' := LV n F) (g := F .nv) ?_ ?_ ?_) (by omega : psum n (LV n F) (F .nv) ≤ n)
    · rintro x _ _ ⟨hx, hp⟩
      rw [(m.lists h a b).2.1] at hx
      exact ((m.nvpos h (h.gr.rgv i a x hx)).1 hp).1
    · rintro x _ _ ⟨hx, hp⟩
      rw [(m.lists h a b).2.1] at hx
      have := ((m.nvpos h (h.gr.rgv i a x hx)).1 hp)
      rw [m.nv, if_neg (by tauto)]
    · intro x _ _ hx; exact hx.2.2.1.le
  · intro i hi e he
    obtain ⟨a, b, c⟩ := m.pv h hi
    rw [(m.lists h a b).1] at he
    have := h.gr.e1 i a e he
    exact fun _ => m.wn e this.1 this.2.1
  · have h1 : (P.map fun i => -G .nv i) = P.map (F .nv) := by
      refine List.map_congr_left fun i hi => ?_
      rw [m.nv, if_pos (Or.inl hi), neg_neg]
    have h2 := psum_list (n := n) m.nd (fun c hc => by have := (m.pv h hc).1; exact ⟨this.1, this.2.1⟩) (F .nv)
    have := m.dgm
    have := m.dn
    have := m.nvp
    have := m.vm.2.2.1
    rw [h1]
    omega
  · intro i hi
    obtain ⟨a, b, c⟩ := m.pv h hi
    rw [m.dg i b]
    have := hdl.rg i a
    omega

end mid

/-! ## After scan 2 -/

/-- The elements that disappear. -/
def Dd (agg : Bool) (F G : Sh) (me wflg : ℤ) (P : List ℤ) (e : ℤ) : Prop := e ∈ elL F me ∨ tch agg G wflg P e

/-- The variables eliminated with the pivot. -/
def Mm (agg : Bool) (G : Sh) (wflg : ℤ) (P : List ℤ) (i : ℤ) : Prop := i ∈ P ∧ mass agg G wflg i

instance (agg : Bool) (G : Sh) (wflg : ℤ) (P : List ℤ) (i : ℤ) : Decidable (Mm agg G wflg P i) := by
  unfold Mm; infer_instance

def V0 (n : ℤ) (agg : Bool) (F G : Sh) (me wflg : ℤ) (P : List ℤ) (x : ℤ) : Prop :=
  LV n F x ∧ x ≠ me ∧ ¬ Mm agg G wflg P x

def E0 (n : ℤ) (agg : Bool) (F G : Sh) (me wflg : ℤ) (P : List ℤ) (e : ℤ) : Prop :=
  (LE n F e ∧ ¬ Dd agg F G me wflg P e) ∨ (e = me ∧ ∃ i ∈ P, ¬ Mm agg G wflg P i)

def K0 (n : ℤ) (F : Sh) (me : ℤ) (x : ℤ) : Prop := KK n F x ∧ x ≠ me

def ν0 (agg : Bool) (F G : Sh) (me wflg : ℤ) (P : List ℤ) (x : ℤ) : ℤ :=
  if x = me then F .nv me + mS agg G wflg P else if Mm agg G wflg P x then 0 else F .nv x

/-- The state `H` before the detection of supervariables. -/
structure Hs (n nz me : ℤ) (agg : Bool) (F G : Sh) (P : List ℤ) (pme1 pfree degme wflg : ℤ) (H : Sh) : Prop where
  mi : MI n H P (V0 n agg F G me wflg P) (E0 n agg F G me wflg P) (K0 n F me) (ν0 agg F G me wflg P) (obL H)
    (V0 n agg F G me wflg P) (ν0 agg F G me wflg P) H
  h3 : H3 n pfree me P H
  lay : Lay n pfree H (fun x => V0 n agg F G me wflg P x ∨ E0 n agg F G me wflg P x)
  sum : psum n (fun x => V0 n agg F G me wflg P x ∨ E0 n agg F G me wflg P x) (H .ln) ≤ nz
  hA : seg (H .iw) pme1 P.length = P
  pem : H .pe me = pme1
  lnm : H .ln me = P.length
  elm : H .el me ≤ -2
  elb : -n - 2 ≤ H .el me
  dgm : H .dg me = degme
  o : ∀ x, x ∉ P → x ≠ me → H .nv x = F .nv x ∧ H .el x = F .el x ∧ H .dg x = F .dg x
  pe : ∀ x, 0 ≤ x → x < n → x ∉ P → x ≠ me → 0 ≤ H .pe x →
    V0 n agg F G me wflg P x ∨ E0 n agg F G me wflg P x
  djm : P ≠ [] → ∀ x, V0 n agg F G me wflg P x ∨ E0 n agg F G me wflg P x → x ≠ me →
    H .pe x + H .ln x ≤ pme1 ∨ pme1 + P.length ≤ H .pe x
  w : ∀ x, V0 n agg F G me wflg P x ∨ E0 n agg F G me wflg P x → H .w x ≠ 0
  eln : ∀ x, V0 n agg F G me wflg P x → H .el x ≤ H .ln x
  dgp : ∀ i ∈ P, 0 ≤ H .dg i
  dgn : ∀ i ∈ P, H .dg i ≤ n
  s : psum n (V0 n agg F G me wflg P) (ν0 agg F G me wflg P) =
    psum n (LV n F) (F .nv) - F .nv me - mS agg G wflg P

end Slip.Amd
