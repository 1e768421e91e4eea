import Verif.Proof.AmdRestore
import Verif.Proof.AmdBuild3

/-!
# AMD: one pivot, up to the end of scan 1
-/

namespace Slip.Amd

open Slip.Colamd (seg mem_seg seg_congr seg_succ length_seg seg_zero wp_seg wp_list csum seg_ext seg_getElem)

variable [Arith]

/-- The live variables. -/
def LV (n : ℤ) (F : Sh) (x : ℤ) : Prop := 0 ≤ x ∧ x < n ∧ 0 < F .nv x ∧ 0 ≤ F .el x

/-- The live elements. -/
def LE (n : ℤ) (F : Sh) (x : ℤ) : Prop := 0 ≤ x ∧ x < n ∧ F .el x ≤ -2 ∧ 0 ≤ F .pe x

/-- Everything but the elements. -/
def KK (n : ℤ) (F : Sh) (x : ℤ) : Prop := 0 ≤ x ∧ x < n ∧ -1 ≤ F .el x

/-- The live objects. -/
def LO (n : ℤ) (F : Sh) (x : ℤ) : Prop := LV n F x ∨ LE n F x

/-- The invariant of the main loop of AMD_2. -/
structure LI (n nz Al : ℤ) (z : Ord) (F : Sh) : Prop where
  rp : Rm n Al z.pfree z.s F
  pf : 0 ≤ z.pfree
  o : ∀ x, 0 ≤ x → x < n → (LO n F x ↔ 0 ≤ F .pe x)
  lay : Lay n z.pfree F (LO n F)
  sum : psum n (LO n F) (F .ln) ≤ nz
  iw : ∀ p, 0 ≤ p → p < z.pfree → 0 ≤ F .iw p ∧ F .iw p < n
  eln : ∀ i, LV n F i → F .el i ≤ F .ln i
  e1 : ∀ x, 0 ≤ x → x < n → (F .el x = -1 ↔ F .nv x = 0)
  gr : Gr n (LV n F) (LE n F) (KK n F) (F .nv) (F .dg) (elL F) (vaL F) (obL F)
  nl : psum n (LV n F) (F .nv) = n - z.nel
  n0 : 0 ≤ z.nel
  dl : ∃ rk, DL n F (LV n F) rk
  md : 0 ≤ z.mindeg ∧ ∀ c, LV n F c → z.mindeg ≤ F .dg c
  w : 2 ≤ z.wflg ∧ ∀ x, 0 ≤ x → x < n → 0 ≤ F .w x ∧ F .w x < z.wflg ∧ (LO n F x → F .w x ≠ 0)
  lm : (0 ≤ z.lemax ∧ z.lemax ≤ n) ∧ ∀ e, LE n F e → F .dg e ≤ z.lemax
  tr : ∃ root t, Tr n (F .pe) (F .el) (F .nv) root t
  lz : 0 ≤ z.lnz
  eb : ∀ x, 0 ≤ x → x < n → -n - 2 ≤ F .el x

theorem elL_va {F : Sh} {x : ℤ} (h0 : 0 ≤ F .el x) (h1 : F .el x ≤ F .ln x) : obL F x = elL F x ++ vaL F x := by
  unfold obL elL vaL
  exact seg_split _ _ h0 h1

theorem elL_eq {F F' : Sh} {x : ℤ} (h0 : 0 ≤ F .el x) (h1 : F .el x ≤ F .ln x) (ho : obL F' x = obL F x)
    (hl : F' .ln x = F .ln x) (he : F' .el x = F .el x) : elL F' x = elL F x ∧ vaL F' x = vaL F x := by
  rw [elL_va h0 h1, elL_va (by omega) (by omega)] at ho
  refine List.append_inj ho ?_
  unfold elL
  rw [length_seg, length_seg, he]

/-- The state `G` when the new element `me` has been built and scan 1 is done. -/
structure Mid (n nz me : ℤ) (F : Sh) (P : List ℤ) (pme1 pfree nvpiv degme wflg : ℤ) (G : Sh) : Prop where
  vm : LV n F me
  lay : Lay n pfree G (fun x => (LO n F x ∧ x ≠ me ∧ x ∉ elL F me) ∨ (x = me ∧ P ≠ []))
  ob : ∀ x, LO n F x → x ≠ me → x ∉ elL F me → obL G x = obL F x ∧ G .ln x = F .ln x
  sum : psum n (fun x => (LO n F x ∧ x ≠ me ∧ x ∉ elL F me) ∨ (x = me ∧ P ≠ [])) (G .ln) ≤ nz
  iw : ∀ p, 0 ≤ p → p < pfree → 0 ≤ G .iw p ∧ G .iw p < n
  obm : seg (G .iw) pme1 P.length = P
  pem : G .pe me = pme1
  lnm : G .ln me = P.length
  p0 : 0 ≤ pme1 ∧ pme1 + P.length ≤ pfree
  mem : ∀ x, x ∈ P ↔ LV n F x ∧ x ≠ me ∧ (x ∈ vaL F me ∨ ∃ e ∈ elL F me, x ∈ obL F e)
  pe1 : ∀ x, x ∈ elL F me → G .pe x = flip me
  pe2 : ∀ x, 0 ≤ x → x < n → x ≠ me → x ∉ elL F me → ¬ LO n F x → G .pe x = F .pe x
  nv : ∀ x, G .nv x = if x ∈ P ∨ x = me then -F .nv x else F .nv x
  dl : ∃ rk, DL n G (fun x => LV n F x ∧ x ≠ me ∧ x ∉ P) rk
  nd : P.Nodup
  dg : ∀ x, x ≠ me → G .dg x = F .dg x
  el : ∀ x, x ≠ me → G .el x = F .el x
  elm : G .el me = flip (nvpiv + degme)
  nvp : nvpiv = F .nv me
  dgm : degme = psum n (· ∈ P) (F .nv)
  wf : 2 ≤ wflg
  wt : WFit n wflg
  wb : wflg = 2 ∨ wflg < 9223372036854775807 - n
  w0 : ∀ x ∈ elL F me, G .w x = 0
  w1 : ∀ x, 0 ≤ x → x < n → x ∉ elL F me → (∃ i ∈ P, x ∈ elL F i) →
    G .w x = wflg + F .dg x - psum n (fun i => i ∈ P ∧ x ∈ elL F i) (F .nv)
  w2 : ∀ x, 0 ≤ x → x < n → (¬ ∃ i ∈ P, x ∈ elL F i) → 0 ≤ G .w x ∧ G .w x < wflg
  w3 : ∀ x, 0 ≤ x → x < n → x ∉ elL F me → LO n F x → G .w x ≠ 0
  wn : ∀ x, 0 ≤ x → x < n → G .w x ≤ wflg + n
  dn : 0 ≤ degme ∧ degme + nvpiv ≤ n

variable {n nz Al : ℤ} {z : Ord} {F : Sh}

theorem LI.not_el (h : LI n nz Al z F) {i : ℤ} (hi : LV n F i) {j : ℤ} (hj : LV n F j) : j ∉ elL F i := by
  intro hm
  have := h.gr.e1 i hi j hm
  have h1 := this.2.2.1
  have h2 := hj.2.2.2
  omega

/-- An entry of a list is a live variable iff its weight is positive. -/
theorem LI.ent (h : LI n nz Al z F) {x : ℤ} (hx : KK n F x) : 0 < F .nv x ↔ LV n F x := by
  constructor
  · intro hp
    refine ⟨hx.1, hx.2.1, hp, ?_⟩
    have := h.e1 x hx.1 hx.2.1
    have := hx.2.2
    by_contra hc
    have : F .el x = -1 := by omega
    have := (h.e1 x hx.1 hx.2.1).1 this
    omega
  · intro h'; exact h'.2.2.1

/-- The weight of a live element is positive. -/
theorem LI.nvpos (h : LI n nz Al z F) {x : ℤ} (hx : LO n F x) : 0 < F .nv x := by
  rcases hx with hx | hx
  · exact hx.2.2.1
  · obtain ⟨root, t, ht⟩ := h.tr
    have h1 := ht.nn x hx.1 hx.2.1
    have h2 := h.e1 x hx.1 hx.2.1
    have h3 := hx.2.2.1
    by_contra hc
    have : F .nv x = 0 := by omega
    have := h2.2 this
    omega

/-- The weights of the live variables are at most `n`. -/
theorem LI.nvn (h : LI n nz Al z F) {x : ℤ} (hx : LV n F x) : F .nv x ≤ n - z.nel := by
  rw [← h.nl]
  exact psum_le_one hx hx.1 hx.2.1 (fun y _ _ hy => hy.2.2.1.le)

theorem LI.neln (h : LI n nz Al z F) : z.nel ≤ n := by
  have := h.nl
  have : 0 ≤ psum n (LV n F) (F .nv) := psum_nonneg fun x _ _ hx => hx.2.2.1.le
  omega

theorem front_spec {agg : Bool} {wbig ndense : ℤ} (hwb : wbig = 9223372036854775807 - n) (h : LI n nz Al z F) (hnel : z.nel < n) (hAl : nz + n ≤ Al)
    {β : Type} {Q : β → Prop} (k : Mem → ℤ → ℤ → ℤ → ℤ → ℤ → ℤ → ℤ → ℤ → ℤ → ℤ → ℤ → C β)
    (hk : ∀ s deg me elenme nvpiv pme1 q degme pfree wflg G P, Rm n Al pfree s G →
      Mid n nz me F P pme1 pfree nvpiv degme wflg G → q = pme1 + P.length → 0 ≤ deg →
      (∀ c, LV n F c → deg ≤ F .dg c) → (elenme ≠ 0 → pfree = pme1 + P.length) →
      wp (k s deg me elenme nvpiv pme1 q degme pfree wflg (z.nel + nvpiv) (q - 1)) Q (fun _ => False)) :
    wp (do
      let (deg, me) ← scanMin n (n.toNat + 2) z.mindeg z.s
      let (s, elenme, nvpiv) ← selectPivot deg me z.s
      let nel ← ck (z.nel + nvpiv)
      let (s, pme1, q, degme, pfree) ← build n Al me elenme z.pfree s
      let s ← newElement me pme1 q degme nvpiv s
      let pme2 ← ck (q - 1)
      let (s, wflg) ← clear_flag z.wflg wbig n s
      let s ← scan1 wflg pme1 pme2 s
      k s deg me elenme nvpiv pme1 q degme pfree wflg nel pme2) Q (fun _ => False) := by
  obtain ⟨rk, hdl⟩ := h.dl
  -- a pivot exists
  have hpos : 0 < psum n (LV n F) (F .nv) := by rw [h.nl]; omega
  obtain ⟨c, c0, c1, hc⟩ := psum_pos hpos
  have hcr := hdl.rg c hc
  obtain ⟨deg, e1, _, d2, hne, hlow⟩ := scanMin_spec h.rp hcr.2.2.2 (hdl.head_ne hc) (n.toNat + 2) z.mindeg
    h.md.1 (h.md.2 c hc) (by have := h.md.1; omega) (by
      intro x x0 x1
      rcases hdl.hd x x0 (by have := h.md.2 c hc; omega) with e | ⟨a, b, _⟩
      · exact e
      · have := h.md.2 _ a; omega)
  have hmd0 := h.md.1
  have hdegb : ∀ c, LV n F c → deg ≤ F .dg c := by
    intro c hc
    by_contra hh
    exact hdl.head_ne hc (hlow _ (hdl.rg c hc).2.2.1 (by omega))
  have hdegn : deg < n := by have := hdegb c hc; omega
  rw [e1, ok_bind]
  dsimp only
  obtain ⟨s1, F1, e2, hR1, hdl1, hnv1, ho1⟩ := selectPivot_spec h.rp hdl (by omega) hdegn hne
    (fun c hc => ⟨hc.2.2.1, by have := h.nvn hc; have := h.n0; omega⟩)
  have hvm : LV n F (F .hd deg) := by
    rcases hdl.hd deg (by omega) hdegn with e | e
    · exact absurd e hne
    · exact e.1
  rw [e2, ok_bind]
  dsimp only
  generalize F .hd deg = me at *
  have hnvm := h.nvn hvm
  have hnv0 := hvm.2.2.1
  have hnel0 := h.n0
  cks h.rp
  have eiw : F1 .iw = F .iw := ho1 _ (by decide) (by decide) (by decide) (by decide)
  have epe : F1 .pe = F .pe := ho1 _ (by decide) (by decide) (by decide) (by decide)
  have eln : F1 .ln = F .ln := ho1 _ (by decide) (by decide) (by decide) (by decide)
  have eel : F1 .el = F .el := ho1 _ (by decide) (by decide) (by decide) (by decide)
  have edg : F1 .dg = F .dg := ho1 _ (by decide) (by decide) (by decide) (by decide)
  have ew : F1 .w = F .w := ho1 _ (by decide) (by decide) (by decide) (by decide)
  have eE : ∀ x, elL F1 x = elL F x := fun x => by unfold elL; rw [eiw, epe, eel]
  have eV : ∀ x, vaL F1 x = vaL F x := fun x => by unfold vaL; rw [eiw, epe, eel, eln]
  have eO : ∀ x, obL F1 x = obL F x := fun x => by unfold obL; rw [eiw, epe, eln]
  have hmE : ∀ e ∈ elL F me, LE n F e ∧ e ≠ me := by
    intro e he
    refine ⟨h.gr.e1 me hvm e he, ?_⟩
    rintro rfl; exact h.not_el hvm hvm he
  have hent : ∀ x, KK n F x → (0 < F1 .nv x ↔ LV n F x ∧ x ≠ me) := by
    intro x hx
    rw [hnv1]
    by_cases hxm : x = me
    · subst hxm
      rw [if_pos rfl]
      have := hvm.2.2.1
      constructor
      · intro; omega
      · intro h'; exact absurd rfl h'.2
    · rw [if_neg hxm, h.ent hx]; exact ⟨fun a => ⟨a, hxm⟩, fun a => a.1⟩
  have hb := build_spec (n := n) (Al := Al) (s := s1) (F := F1) (nz := nz) (O := LO n F)
    (V := fun x => LV n F x ∧ x ≠ me) (pfree := z.pfree) (rk := rk) (me := me) (elenme := F .el me)
    (nvpiv := F .nv me) hR1
    ⟨h.lay.rg, by rw [epe, eln]; exact h.lay.pos, by rw [epe, eln]; exact h.lay.dj⟩ h.pf
    (by rw [epe]; exact h.o) (by rw [eln]; exact h.sum) (by rw [eiw]; exact h.iw) hdl1 (Or.inl hvm)
    (by rw [eel]) hvm.2.2.2 (by rw [eln]; exact h.eln me hvm)
    (by rw [eE]; exact fun e he => ⟨Or.inr (hmE e he).1, (hmE e he).2⟩)
    (by rw [eE]; exact h.gr.nde me hvm)
    (by
      rw [eE]; intro e he x hx
      rw [eO] at hx
      exact hent x (h.gr.rgo e (hmE e he).1 x hx))
    (by rw [eV]; intro x hx; exact hent x (h.gr.rgv me hvm x hx))
    (by intro x hx; exact ⟨hx.1.1, hx.1.2.1, hx.2⟩)
    (by intro x hx; rw [hnv1, if_neg hx.2]; exact hx.1.2.2.1) hAl
    hnv0.le (by
      have e := psum_erase (f := F .nv) hvm hvm.1 hvm.2.1
      have e' : psum n (fun x => LV n F x ∧ x ≠ me) (F1 .nv) = psum n (fun x => LV n F x ∧ x ≠ me) (F .nv) :=
        psum_congr (fun _ _ _ => Iff.rfl) (fun x _ _ hx => by rw [hnv1, if_neg hx.2])
      have := h.nl
      rw [e']
      omega)
  have hsplit : (do
      let (s, pme1, q, degme, pfree) ← build n Al me (F .el me) z.pfree s1
      let s ← newElement me pme1 q degme (F .nv me) s
      let pme2 ← ck (q - 1)
      let (s, wflg) ← clear_flag z.wflg wbig n s
      let s ← scan1 wflg pme1 pme2 s
      k s deg me (F .el me) (F .nv me) pme1 q degme pfree wflg (z.nel + F .nv me) pme2) = ((do
        let (s, pme1, q, degme, pfree) ← build n Al me (F .el me) z.pfree s1
        let s ← newElement me pme1 q degme (F .nv me) s
        pure (s, pme1, q, degme, pfree)) >>= fun y => do
          let pme2 ← ck (y.2.2.1 - 1)
          let (s, wflg) ← clear_flag z.wflg wbig n y.1
          let s ← scan1 wflg y.2.1 pme2 s
          k s deg me (F .el me) (F .nv me) y.2.1 y.2.2.1 y.2.2.2.1 y.2.2.2.2 wflg (z.nel + F .nv me) pme2) := by
    simp only [bind_assoc, pure_bind']
  rw [hsplit]
  have htop := hR1.top
  have hal := hR1.fit.al
  refine wb (wp_post hb ?_)
  rintro ⟨s2, pme1, q, degme, pfree⟩ ⟨F2, P, hR2, hE, hq, hdm, hdgm, helm, hpf⟩
  dsimp only at hR2 hE hq hdm hdgm helm hpf ⊢
  have n0 : 0 ≤ n := by omega
  have hp0 := hE.p0
  have htop2 := hR2.top
  cks hR2
  -- first clear_flag
  have hmem : ∀ x, x ∈ P ↔ LV n F x ∧ x ≠ me ∧ (x ∈ vaL F me ∨ ∃ e ∈ elL F me, x ∈ obL F e) := by
    intro x
    rw [hE.mem, eE, eV, and_assoc]
    simp only [eO]
  have hPV : ∀ x ∈ P, LV n F x ∧ x ≠ me := fun x hx => ⟨((hmem x).1 hx).1, ((hmem x).1 hx).2.1⟩
  have hPr : ∀ c ∈ P, 0 ≤ c ∧ c < n := fun c hc => ⟨(hPV c hc).1.1, (hPV c hc).1.2.1⟩
  have hsumP : degme = psum n (· ∈ P) (F .nv) := by
    rw [hdm, psum_list hE.nd hPr]
    refine psum_congr (fun _ _ _ => Iff.rfl) ?_
    intro x _ _ hx
    rw [hnv1, if_neg (hPV x hx).2]
  have hnv2 : ∀ x, F2 .nv x = if x ∈ P ∨ x = me then -F .nv x else F .nv x := by
    intro x
    rw [hE.nv, hnv1]
    by_cases hxP : x ∈ P
    · rw [if_pos hxP, if_neg (hPV x hxP).2, if_pos (Or.inl hxP)]
    · by_cases hxm : x = me
      · rw [if_neg hxP, if_pos hxm, if_pos (Or.inr hxm)]
      · rw [if_neg hxP, if_neg hxm, if_neg (by tauto)]
  have hw2 : ∀ x, F2 .w x = if x ∈ elL F me then 0 else F .w x := by
    intro x; rw [hE.w, eE, ew]
  have hobx : ∀ x, LO n F x → x ≠ me → x ∉ elL F me → obL F2 x = obL F x ∧ F2 .ln x = F .ln x := by
    intro x a b c
    have := hE.ob x a b (by rw [eE]; exact c)
    rw [eO, eln] at this
    exact this
  have hel2 : ∀ x, x ≠ me → F2 .el x = F .el x := fun x hx => by rw [hE.el x hx, eel]
  have hdg2 : ∀ x, x ≠ me → F2 .dg x = F .dg x := fun x hx => by rw [hE.dg x hx, edg]
  have hPnel : ∀ i ∈ P, i ∉ elL F me := fun i hi => h.not_el hvm (hPV i hi).1
  have hPel : ∀ i ∈ P, elL F2 i = elL F i := by
    intro i hi
    obtain ⟨a, b⟩ := hPV i hi
    obtain ⟨c, d⟩ := hobx i (Or.inl a) b (hPnel i hi)
    exact (elL_eq a.2.2.2 (h.eln i a) c d (hel2 i b)).1
  have hlay2 := hE.lay
  rw [eE] at hlay2
  refine wb (wp_post (clear_flag_spec hR2 n0 (wflg := z.wflg) (wbig := wbig) ?_) ?_)
  · intro x x0 x1
    have := h.w.2 x x0 x1
    have := h.w.1
    rw [hw2]
    split_ifs
    · exact ⟨le_rfl, by omega⟩
    · exact ⟨by omega, by omega⟩
  rintro ⟨s3, wflg⟩ ⟨F3, hR3, ⟨hwf, hwf2⟩, ho3, hw3⟩
  dsimp only at hR3 hwf hwf2 hw3 ⊢
  rw [hwb] at hwf2
  have hWF : WFit n wflg := WFit.of hR3 n0 hwf2
  have e3 : ∀ f, f ≠ .w → F3 f = F2 f := ho3
  have eE3 : ∀ x, elL F3 x = elL F2 x := fun x => by
    unfold elL; rw [e3 .iw (by decide), e3 .pe (by decide), e3 .el (by decide)]
  have hPos := hlay2.pos
  have hacc : ∀ x, acc (elL F3) (fun j => -F3 .nv j) P x = psum n (fun i => i ∈ P ∧ x ∈ elL F i) (F .nv) := by
    intro x
    rw [acc_psum hE.nd hPr]
    refine psum_congr ?_ ?_
    · intro i _ _
      constructor
      · rintro ⟨a, b⟩; rw [eE3, hPel i a] at b; exact ⟨a, b⟩
      · rintro ⟨a, b⟩; rw [eE3, hPel i a]; exact ⟨a, b⟩
    · intro i _ _ hi
      rw [e3 .nv (by decide), hnv2, if_pos (Or.inl hi.1), neg_neg]
  have hsub : ∀ e, LE n F e → psum n (fun i => i ∈ P ∧ e ∈ elL F i) (F .nv) ≤ F .dg e := by
    intro e he
    refine le_trans (psum_mono ?_ (fun _ _ _ _ => le_rfl) ?_) (h.gr.dgi e he)
    · rintro i _ _ ⟨a, b⟩; exact ⟨(hPV i a).1, b⟩
    · intro i _ _ hi; exact hi.1.2.2.1.le
  have hsg : seg (F2 .iw) pme1 P.length = P := by
    have := hE.obm
    unfold obL at this
    rwa [hE.pem, hE.lnm] at this
  rw [hq, show pme1 + (P.length : ℤ) - 1 = pme1 + P.length - 1 from rfl]
  refine wb (wp_post (scan1_spec (P := P) (wflg := wflg) hR3 ?_ hE.p0.1 hE.p0.2 ?_ ?_ ?_ ?_ hwf hWF ?_ ?_) ?_)
  · rw [e3 .iw (by decide)]; exact hsg
  · intro i hi
    obtain ⟨a, b⟩ := hPV i hi
    rw [e3 .nv (by decide), e3 .el (by decide), e3 .pe (by decide), hnv2, if_pos (Or.inl hi), hel2 i b]
    have hp := hPos i (Or.inl ⟨Or.inl a, b, hPnel i hi⟩)
    have hl := (hobx i (Or.inl a) b (hPnel i hi)).2
    have := h.eln i a
    exact ⟨a.1, a.2.1, by rw [neg_neg]; exact a.2.2.1, a.2.2.2, hp.1, by omega⟩
  · intro i hi
    rw [eE3, hPel i hi]
    refine ⟨h.gr.nde i (hPV i hi).1, fun e he => ?_⟩
    have := h.gr.e1 i (hPV i hi).1 e he
    exact ⟨this.1, this.2.1⟩
  · intro i hi e he _
    rw [eE3, hPel i hi] at he
    have hEe := h.gr.e1 i (hPV i hi).1 e he
    have hem : e ≠ me := by
      rintro rfl; exact h.not_el (hPV i hi).1 hvm he
    rw [hacc, e3 .dg (by decide), hdg2 e hem]
    exact hsub e hEe
  · intro x x0 x1; have := hw3 x x0 x1; exact ⟨this.1, this.2.1⟩
  · intro i hi
    rw [e3 .nv (by decide), hnv2, if_pos (Or.inl hi), neg_neg]
    have := h.nvn (hPV i hi).1
    omega
  · intro i hi e he _
    rw [eE3, hPel i hi] at he
    have hEe := h.gr.e1 i (hPV i hi).1 e he
    have hem : e ≠ me := by
      rintro rfl; exact h.not_el (hPV i hi).1 hvm he
    rw [e3 .dg (by decide), hdg2 e hem]
    have := h.lm.2 e hEe
    have := h.lm.1
    omega
  rintro s4 ⟨G, hR4, ho4, hw4⟩
  have e4 : ∀ f, f ≠ .w → G f = F2 f := fun f hf => by rw [ho4 f hf, e3 f hf]
  have hwG : ∀ x, G .w x = if F3 .w x ≠ 0 ∧ (∃ i ∈ P, x ∈ elL F i) then
      wflg + F3 .dg x - psum n (fun i => i ∈ P ∧ x ∈ elL F i) (F .nv) else F3 .w x := by
    intro x
    rw [hw4]
    unfold wv
    rw [hacc]
    have : (∃ i ∈ P, x ∈ elL F3 i) ↔ (∃ i ∈ P, x ∈ elL F i) := by
      constructor
      · rintro ⟨i, a, b⟩; rw [eE3, hPel i a] at b; exact ⟨i, a, b⟩
      · rintro ⟨i, a, b⟩; refine ⟨i, a, ?_⟩; rw [eE3, hPel i a]; exact b
    simp only [this]
  have hw30 : ∀ x, 0 ≤ x → x < n → (F3 .w x = 0 ↔ x ∈ elL F me ∨ F .w x = 0) := by
    intro x x0 x1
    rw [(hw3 x x0 x1).2.2, hw2]
    split_ifs with hh <;> simp [hh]
  have htE : ∀ x, (∃ i ∈ P, x ∈ elL F i) → LE n F x := by
    rintro x ⟨i, a, b⟩; exact h.gr.e1 i (hPV i a).1 x b
  have hEm : ∀ x, LE n F x → x ≠ me := by
    rintro x hx rfl
    have := hx.2.2.1; have := hvm.2.2.2; omega
  have hw1 : ∀ x, 0 ≤ x → x < n → x ∉ elL F me → (∃ i ∈ P, x ∈ elL F i) →
      G .w x = wflg + F .dg x - psum n (fun i => i ∈ P ∧ x ∈ elL F i) (F .nv) := by
    intro x x0 x1 hx ht
    have hEx := htE x ht
    rw [hwG, if_pos, e3 .dg (by decide), hdg2 x (hEm x hEx)]
    refine ⟨?_, ht⟩
    rw [ne_eq, hw30 x x0 x1, not_or]
    exact ⟨hx, (h.w.2 x x0 x1).2.2 (Or.inr hEx)⟩
  refine hk s4 deg me (F .el me) (F .nv me) pme1 _ degme pfree wflg G P hR4 ?_ rfl (by omega) hdegb hpf
  constructor
  · exact hvm
  · refine ⟨hlay2.rg, ?_, ?_⟩
    · rw [e4 .pe (by decide), e4 .ln (by decide)]; exact hlay2.pos
    · rw [e4 .pe (by decide), e4 .ln (by decide)]; exact hlay2.dj
  · intro x a b c
    unfold obL
    rw [e4 .pe (by decide), e4 .ln (by decide), e4 .iw (by decide)]
    exact hobx x a b c
  · have := hE.sum
    rw [eE] at this
    rw [e4 .ln (by decide)]; exact this
  · rw [e4 .iw (by decide)]; exact hE.iw
  · rw [e4 .iw (by decide)]; exact hsg
  · rw [e4 .pe (by decide)]; exact hE.pem
  · rw [e4 .ln (by decide)]; exact hE.lnm
  · exact hE.p0
  · exact hmem
  · intro x hx
    rw [e4 .pe (by decide)]
    exact (hE.pe x (hmE x hx).2).1 (by rw [eE]; exact hx)
  · intro x _ _ hxm hx hO
    rw [e4 .pe (by decide), (hE.pe x hxm).2 (by rw [eE]; exact hx) hO, epe]
  · rw [e4 .nv (by decide)]; exact hnv2
  · refine ⟨rk, hE.dl.congr ?_ ?_ ?_ ?_ ?_⟩
    · intro c; rw [and_assoc]
    all_goals intros; rw [e4 _ (by decide)]
  · exact hE.nd
  · intro x hx; rw [e4 .dg (by decide)]; exact hdg2 x hx
  · intro x hx; rw [e4 .el (by decide)]; exact hel2 x hx
  · rw [e4 .el (by decide)]; exact helm
  · rfl
  · exact hsumP
  · exact hwf
  · exact hWF
  · exact hwf2
  · intro x hx
    have := (hmE x hx).1
    have h0 := (hw30 x this.1 this.2.1).2 (Or.inl hx)
    rw [hwG, if_neg (fun h => h.1 h0), h0]
  · exact hw1
  · intro x x0 x1 ht
    rw [hwG, if_neg (fun h => ht h.2)]
    have := hw3 x x0 x1
    exact ⟨this.1, this.2.1⟩
  · intro x x0 x1 hx hO
    by_cases ht : ∃ i ∈ P, x ∈ elL F i
    · rw [hw1 x x0 x1 hx ht]
      have := hsub x (htE x ht)
      omega
    · rw [hwG, if_neg (fun h => ht h.2), ne_eq, hw30 x x0 x1, not_or]
      exact ⟨hx, (h.w.2 x x0 x1).2.2 hO⟩
  · intro x x0 x1
    by_cases hz : F3 .w x ≠ 0 ∧ (∃ i ∈ P, x ∈ elL F i)
    · rw [hwG, if_pos hz, e3 .dg (by decide), hdg2 x (hEm x (htE x hz.2))]
      have := h.lm.2 x (htE x hz.2)
      have := h.lm.1
      have : 0 ≤ psum n (fun i => i ∈ P ∧ x ∈ elL F i) (F .nv) :=
        psum_nonneg fun i _ _ hi => (hPV i hi.1).1.2.2.1.le
      omega
    · rw [hwG, if_neg hz]
      have := hw3 x x0 x1
      omega
  · have e := psum_erase (f := F .nv) hvm hvm.1 hvm.2.1
    have : psum n (· ∈ P) (F .nv) ≤ psum n (fun x => LV n F x ∧ x ≠ me) (F .nv) :=
      psum_mono (fun x _ _ hx => hPV x hx) (fun _ _ _ _ => le_rfl) (fun x _ _ hx => hx.1.2.2.1.le)
    have : 0 ≤ psum n (· ∈ P) (F .nv) := psum_nonneg fun i _ _ hi => (hPV i hi).1.2.2.1.le
    have := h.nl
    rw [hsumP]
    omega

end Slip.Amd
