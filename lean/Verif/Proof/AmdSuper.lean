import Verif.Proof.AmdScan2b
import Verif.Proof.AmdGraph

/-!
# AMD: supervariable detection
-/

namespace Slip.Amd

open Slip.Colamd (seg mem_seg seg_congr seg_succ length_seg seg_zero wp_seg wp_list csum seg_ext Ch Ch.congr)

variable [Arith]

variable {n Al L : ℤ} {s : Mem} {F G H : Sh} {S : ℤ → Prop} {rk : ℤ → ℕ} {P : List ℤ}

theorem scatter_spec {wflg p ln : ℤ} (hR : Rm n Al L s F) (hn : 0 ≤ n) (h0 : 0 ≤ p) (hl : 1 ≤ ln) (h1 : p + ln ≤ L)
    (hX : ∀ x ∈ seg (F .iw) (p + 1) (ln - 1), 0 ≤ x ∧ x < n) :
    wp (scatter wflg p ln s) (fun s' => ∃ F', Rm n Al L s' F' ∧ (∀ f, f ≠ .w → F' f = F f) ∧
      ∀ x, F' .w x = if x ∈ seg (F .iw) (p + 1) (ln - 1) then wflg else F .w x) (fun _ => False) := by
  unfold scatter
  cks hR
  cks hR
  rw [show p + ln = p + 1 + (ln - 1) by ring]
  refine wp_post (wp_seg (A := F .iw) (by omega) (fun pre (s' : Mem) => ∃ F', Rm n Al L s' F' ∧
    (∀ f, f ≠ .w → F' f = F f) ∧ ∀ x, F' .w x = if x ∈ pre then wflg else F .w x) ?_ ?_) fun _ h => h
  · exact ⟨F, hR, fun _ _ => rfl, by simp⟩
  · rintro pre x post s1 hpre hx hlt ⟨F1, hR1, ho, hw⟩
    have hxr := hX x (by rw [hpre]; simp)
    rw [hR1.rdi (by omega) (by omega), ok_bind, ho .iw (by decide), hx]
    obtain ⟨s2, e2, g2⟩ := hR1.wrn .w (by decide) hxr.1 hxr.2 wflg
    rw [e2]
    refine wok ⟨_, g2, fun f hf => by rw [set_ne _ hf]; exact ho f hf, fun y => ?_⟩
    by_cases hy : y = x
    · rw [hy, set_at]; simp
    · rw [set_nei _ _ _ _ hy, hw]; simp [hy]

theorem compare_spec {wflg : ℤ} (hR : Rm n Al L s F) (hI : ∀ p, 0 ≤ p → p < L → 0 ≤ F .iw p ∧ F .iw p < n) :
    ∀ (k : ℕ) (p : ℤ), 0 ≤ p → p + k ≤ L →
    ∃ v, compare wflg s k p = .ok v ∧ (v = true → ∀ x ∈ seg (F .iw) p k, F .w x = wflg) := by
  intro k
  induction k with
  | zero => intro p _ _; exact ⟨true, rfl, fun _ => by simp⟩
  | succ k ih =>
    intro p h0 h1
    push_cast at h1
    have hr := hI p h0 (by omega)
    rw [compare, hR.rdi h0 (by omega), ok_bind, hR.rdn .w (by decide) hr.1 hr.2, ok_bind]
    by_cases hw : F .w (F .iw p) ≠ wflg
    · rw [if_pos hw]; exact ⟨false, rfl, by simp⟩
    · rw [if_neg hw]
      push Not at hw
      obtain ⟨v, hv, hv'⟩ := ih (p + 1) (by omega) (by omega)
      refine ⟨v, hv, fun hh x hx => ?_⟩
      push_cast at hx
      rw [seg_cons _ _ (by omega), List.mem_cons] at hx
      rcases hx with rfl | hx
      · exact hw
      · exact hv' hh x (by rwa [show (k : ℤ) + 1 - 1 = k by ring] at hx)

/-- The variable `j` is absorbed by `i`. -/
def mrg (F : Sh) (i j : ℤ) : Sh :=
  set (set (set (set F .pe j (flip i)) .nv i (F .nv i + F .nv j)) .nv j 0) .el j (-1)

theorem mrg_ne {i j : ℤ} {f : Fld} (h1 : f ≠ .pe) (h2 : f ≠ .nv) (h3 : f ≠ .el) : mrg F i j f = F f := by
  unfold mrg; rw [set_ne _ h3, set_ne _ h2, set_ne _ h2, set_ne _ h1]

theorem mrg_pe {i j x : ℤ} : mrg F i j .pe x = if x = j then flip i else F .pe x := by
  unfold mrg; rw [set_ne _ (by decide), set_ne _ (by decide), set_ne _ (by decide), set_apply]; simp

theorem mrg_el {i j x : ℤ} : mrg F i j .el x = if x = j then -1 else F .el x := by
  unfold mrg; rw [set_apply, set_ne _ (by decide), set_ne _ (by decide), set_ne _ (by decide)]; simp

theorem mrg_nv {i j x : ℤ} : mrg F i j .nv x =
    if x = j then 0 else if x = i then F .nv i + F .nv j else F .nv x := by
  unfold mrg
  rw [set_ne _ (by decide), set_apply, set_apply, set_ne _ (by decide)]
  simp

/-- What the detection needs of the state `H` before. -/
structure H3 (n L me : ℤ) (P : List ℤ) (H : Sh) : Prop where
  rg : ∀ i ∈ P, 0 ≤ i ∧ i < n ∧ (H .nv i < 0 → 0 ≤ H .pe i ∧ 1 ≤ H .el i ∧ H .el i ≤ H .ln i ∧
    H .pe i + H .ln i ≤ L ∧ H .iw (H .pe i) = me)
  iw : ∀ p, 0 ≤ p → p < L → 0 ≤ H .iw p ∧ H .iw p < n
  sep : ∀ i ∈ P, ∀ j ∈ P, H .nv i < 0 → H .nv j < 0 → ∀ e ∈ elL H i, e ∉ vaL H j

/-- The state `F` during the detection. -/
structure MI (n : ℤ) (H : Sh) (P : List ℤ) (V0 E K : ℤ → Prop) (ν0 : ℤ → ℤ) (ob : ℤ → List ℤ) (V : ℤ → Prop)
    (ν : ℤ → ℤ) (F : Sh) : Prop where
  eq : ∀ f, f ≠ .hd → f ≠ .la → f ≠ .nx → f ≠ .pe → f ≠ .nv → f ≠ .el → f ≠ .w → F f = H f
  o : ∀ x, x ∉ P → F .nv x = H .nv x ∧ F .pe x = H .pe x ∧ F .el x = H .el x ∧ ν x = ν0 x ∧ (V x ↔ V0 x)
  i : ∀ x ∈ P, (V x ∧ F .nv x = -ν x ∧ F .pe x = H .pe x ∧ F .el x = H .el x ∧ H .nv x < 0) ∨
    (¬ V x ∧ F .nv x = 0 ∧ ν x = 0 ∧ F .pe x ≤ -2 ∧ F .el x = -1)
  sum : psum n V ν = psum n V0 ν0
  gr : Gr n V E K ν (H .dg) (elL H) (vaL H) ob
  tr : ∃ root t, Tr n (F .pe) (F .el) ν root t

variable {V0 E K V : ℤ → Prop} {ν0 ν : ℤ → ℤ} {ob : ℤ → List ℤ}

theorem MI.congr {F' : Sh} (h : MI n H P V0 E K ν0 ob V ν F)
    (he : ∀ f, f ≠ .hd → f ≠ .la → f ≠ .nx → f ≠ .w → F' f = F f) : MI n H P V0 E K ν0 ob V ν F' := by
  have e1 := he .nv (by decide) (by decide) (by decide) (by decide)
  have e2 := he .pe (by decide) (by decide) (by decide) (by decide)
  have e3 := he .el (by decide) (by decide) (by decide) (by decide)
  constructor
  · intro f a b c d e g k; rw [he f a b c k]; exact h.eq f a b c d e g k
  · rw [e1, e2, e3]; exact h.o
  · rw [e1, e2, e3]; exact h.i
  · exact h.sum
  · exact h.gr
  · rw [e2, e3]; exact h.tr

theorem MI.alive (h : MI n H P V0 E K ν0 ob V ν F) {x : ℤ} (hx : x ∈ P) (hV : V x) :
    F .nv x = -ν x ∧ F .pe x = H .pe x ∧ F .el x = H .el x ∧ H .nv x < 0 ∧ 0 < ν x := by
  have := h.gr.vr x hV
  rcases h.i x hx with ⟨_, a, b, c, d⟩ | ⟨a, _⟩
  · exact ⟨a, b, c, d, this.2.2.2⟩
  · exact absurd hV a

theorem MI.merge {me : ℤ} (h3 : H3 n L me P H) (h : MI n H P V0 E K ν0 ob V ν F) {i j : ℤ} (hi : i ∈ P) (hj : j ∈ P)
    (hVi : V i) (hVj : V j) (hij : i ≠ j) (he : ∀ e, e ∈ elL H i ↔ e ∈ elL H j) :
    MI n H P V0 E K ν0 ob (fun x => V x ∧ x ≠ j) (Function.update (Function.update ν i (ν i + ν j)) j 0)
      (mrg F i j) := by
  obtain ⟨u1, u2, u3, u4, u5⟩ := h.alive hi hVi
  obtain ⟨v1, v2, v3, v4, v5⟩ := h.alive hj hVj
  have ir := h3.rg i hi
  have jr := h3.rg j hj
  have hνx : ∀ x, x ≠ j → Function.update (Function.update ν i (ν i + ν j)) j 0 x =
      Function.update ν i (ν i + ν j) x := fun x hx => Function.update_of_ne hx _ _
  constructor
  · intro f a b c d e g k; rw [mrg_ne d e g]; exact h.eq f a b c d e g k
  · intro x hx
    have xi : x ≠ i := by rintro rfl; exact hx hi
    have xj : x ≠ j := by rintro rfl; exact hx hj
    rw [mrg_nv, mrg_pe, mrg_el, if_neg xj, if_neg xi, if_neg xj, if_neg xj, hνx x xj, Function.update_of_ne xi]
    have := h.o x hx
    exact ⟨this.1, this.2.1, this.2.2.1, this.2.2.2.1, ⟨fun hh => this.2.2.2.2.1 hh.1,
      fun hh => ⟨this.2.2.2.2.2 hh, xj⟩⟩⟩
  · intro x hx
    rw [mrg_nv, mrg_pe, mrg_el]
    by_cases hxj : x = j
    · subst hxj
      right
      simp only [if_true, Function.update_self, ne_eq, not_true_eq_false, and_false, not_false_eq_true, true_and, and_true]
      unfold flip; omega
    · rw [if_neg hxj, if_neg hxj, if_neg hxj, hνx x hxj]
      rcases h.i x hx with ⟨a, b, c, d, e⟩ | ⟨a, b⟩
      · left
        refine ⟨⟨a, hxj⟩, ?_, c, d, e⟩
        rw [Function.update_apply]
        split_ifs
        · omega
        · exact b
      · right
        have hxi : x ≠ i := by rintro rfl; exact a hVi
        rw [if_neg hxi, Function.update_of_ne hxi]
        exact ⟨fun hh => a hh.1, b⟩
  · rw [← h.sum, psum_erase (O := fun x => V x ∧ x ≠ j) (e := i) ⟨hVi, hij⟩ ir.1 ir.2.1,
      psum_erase (O := V) (f := ν) (e := j) hVj jr.1 jr.2.1,
      psum_erase (O := fun x => V x ∧ x ≠ j) (f := ν) (e := i) ⟨hVi, hij⟩ ir.1 ir.2.1, hνx i hij,
      Function.update_self, psum_congr (O' := fun x => (V x ∧ x ≠ j) ∧ x ≠ i) (g := ν)
        (fun _ _ _ => Iff.rfl) (fun x _ _ hx => by rw [hνx x hx.1.2, Function.update_of_ne hx.2])]
    ring
  · exact (h.gr.merge hVi hVj hij he).congr (fun _ => Iff.rfl) (fun _ => Iff.rfl) (fun _ => Iff.rfl)
      (fun x hx => hνx x hx.2) (fun _ _ => rfl) (fun _ _ => rfl) (fun _ _ => rfl) (fun _ _ _ _ => Iff.rfl)
      (fun _ _ _ hh => hh)
  · obtain ⟨root, t, ht⟩ := h.tr
    have irr := ir.2.2 u4
    have jrr := jr.2.2 v4
    refine ht.attach (me := i) (A := fun _ => False) (M := fun x => x = j) ir.1 ir.2.1 (by omega) ?_ ?_ ?_ ?_ ?_ ?_ ?_
      ?_ ?_
    · intro x _ _ hx; exact absurd hx id
    · rintro x _ _ rfl; exact ⟨hij.symm, by omega, by omega⟩
    · rintro x _ _ (hx | rfl)
      · exact absurd hx id
      · rw [mrg_pe, if_pos rfl]
    · intro x _ _ hx
      left
      rw [mrg_pe, if_neg fun hh => hx (Or.inr hh)]
    · rw [mrg_pe, if_neg hij]; omega
    · rintro x _ _ rfl; rw [Function.update_self]
    · intro x _ _ hx hxj; rw [hνx x hxj, Function.update_of_ne hx]
    · rw [hνx i hij, Function.update_self, psum_erase (O := fun x => x = j) (e := j) rfl jr.1 jr.2.1,
        psum_zero (O := fun x => x = j ∧ x ≠ j) (fun x _ _ hx => hx.2 hx.1)]
      ring
    · intro x _ _ hx
      rw [mrg_el]
      split_ifs with hxj
      · subst hxj; omega
      · exact hx

/-- Two variables that pass the comparison have the same elements. -/
theorem same_els {me : ℤ} (h3 : H3 n L me P H) {i j : ℤ} (hi : i ∈ P) (hj : j ∈ P)
    (hni : H .nv i < 0) (hnj : H .nv j < 0) (hnd : (elL H j).Nodup) (hel : H .el j = H .el i)
    (hc : ∀ x ∈ seg (H .iw) (H .pe j + 1) (H .ln i - 1), x ∈ seg (H .iw) (H .pe i + 1) (H .ln i - 1)) 
    (hln : H .ln j = H .ln i) :
    ∀ e, e ∈ elL H i ↔ e ∈ elL H j := by
  obtain ⟨i1, i2, i3, i4, i5⟩ := (h3.rg i hi).2.2 hni
  obtain ⟨j1, j2, j3, j4, j5⟩ := (h3.rg j hj).2.2 hnj
  have hsub : elL H j ⊆ elL H i := by
    intro e he
    have he' := he
    unfold elL at he
    rw [seg_cons _ _ (by omega), List.mem_cons] at he
    rcases he with rfl | he
    · rw [j5, ← i5]
      unfold elL
      rw [seg_cons _ _ (by omega)]
      simp
    · obtain ⟨p, a, b, rfl⟩ := mem_seg.1 he
      obtain ⟨q, a', b', e'⟩ := mem_seg.1 (hc (H .iw p) (mem_seg.2 ⟨p, a, by omega, rfl⟩))
      rw [← e']
      by_cases hq : q < H .pe i + H .el i
      · exact mem_seg.2 ⟨q, by omega, hq, rfl⟩
      · exfalso
        refine h3.sep j hj i hi hnj hni _ he' (mem_seg.2 ⟨q, by omega, by omega, e'⟩)
  have hlen : (elL H i).length ≤ (elL H j).length := by
    unfold elL; rw [length_seg, length_seg, hel]
  have := (hnd.subperm hsub).perm_of_length_le hlen
  intro e
  exact this.symm.mem_iff

/-- The variables that follow in the bucket. -/
theorem superInner_spec {me wflg : ℤ} (h3 : H3 n L me P H) {i : ℤ} (hi : i ∈ P) {ln eln : ℤ} (hln : ln = H .ln i)
    (heln : eln = H .el i) (hs0 : psum n V0 ν0 ≤ n) :
    ∀ (l : List ℤ) (fuel : ℕ) (prev c : ℤ) (s : Mem) (F : Sh) (V : ℤ → Prop) (ν : ℤ → ℤ),
    l.length < fuel → Rm n Al L s F → MI n H P V0 E K ν0 ob V ν F → V i →
    (∀ x, 0 ≤ x → x < n → F .w x = wflg → x ∈ seg (H .iw) (H .pe i + 1) (H .ln i - 1)) →
    Ch (F .nx) c l → F .nx prev = c → 0 ≤ prev → prev < n → (prev :: l).Nodup → i ∉ l →
    (∀ x ∈ l, x ∈ P ∧ V x) →
    ∃ s' F' l' V' ν', superInner wflg i ln eln fuel prev c s = .ok s' ∧ Rm n Al L s' F' ∧
      MI n H P V0 E K ν0 ob V' ν' F' ∧ V' i ∧
      List.Sublist l' l ∧ Ch (F' .nx) (F' .nx prev) l' ∧
      (∀ x ∈ l', V' x) ∧ (∀ x, x ∉ l → (V' x ↔ V x)) ∧
      (∀ x, x ≠ prev → x ∉ l → F' .nx x = F .nx x) ∧ F' .hd = F .hd ∧ F' .la = F .la ∧ F' .w = F .w := by
  intro l
  induction l with
  | nil =>
    intro fuel prev c s F V ν hf hR hM ha hfl hch hpc p0 p1 hnd hsl hl
    obtain ⟨fuel, rfl⟩ : ∃ f, fuel = f + 1 := ⟨fuel - 1, by simp at hf; omega⟩
    have hc : c = -1 := hch
    subst hc
    rw [superInner, if_neg (by simp)]
    exact ⟨s, F, [], V, ν, rfl, hR, hM, ha, List.Sublist.refl _, hpc, by simp, fun _ _ => Iff.rfl,
      fun _ _ _ => rfl, rfl, rfl, rfl⟩
  | cons y l ih =>
    intro fuel prev c s F V ν hf hR hM ha hfl hch hpc p0 p1 hnd hsl hl
    obtain ⟨fuel, rfl⟩ : ∃ f, fuel = f + 1 := ⟨fuel - 1, by simp at hf; omega⟩
    obtain ⟨rfl, hc1, hch⟩ := hch
    have hf : l.length < fuel := by simpa using hf
    obtain ⟨hcP, hca⟩ := hl c (by simp)
    have hcr := h3.rg c hcP
    have hir := h3.rg i hi
    obtain ⟨u1, u2, u3, u4, u5⟩ := hM.alive hi ha
    obtain ⟨v1, v2, v3, v4, v5⟩ := hM.alive hcP hca
    have hirr := hir.2.2 u4
    have hcrr := hcr.2.2 v4
    have eln' : F .ln = H .ln := hM.eq .ln (by decide) (by decide) (by decide) (by decide) (by decide)
      (by decide) (by decide)
    have eiw : F .iw = H .iw := hM.eq .iw (by decide) (by decide) (by decide) (by decide) (by decide)
      (by decide) (by decide)
    have hsc : i ≠ c := by rintro rfl; simp at hsl
    have hsl' : i ∉ l := by simp at hsl; exact hsl.2
    have hpcne : prev ≠ c := by rintro rfl; simp at hnd
    have hpl : prev ∉ l := by
      have := (List.nodup_cons.1 hnd).1
      exact fun hh => this (List.mem_cons_of_mem _ hh)
    have hcl : c ∉ l := (List.nodup_cons.1 (List.nodup_cons.1 hnd).2).1
    have hlnd : l.Nodup := (List.nodup_cons.1 (List.nodup_cons.1 hnd).2).2
    have skip : ∃ s' F' l' V' ν', superInner wflg i ln eln fuel c (F .nx c) s = .ok s' ∧ Rm n Al L s' F' ∧
        MI n H P V0 E K ν0 ob V' ν' F' ∧ V' i ∧
        List.Sublist l' (c :: l) ∧ Ch (F' .nx) (F' .nx prev) l' ∧
        (∀ x ∈ l', V' x) ∧ (∀ x, x ∉ c :: l → (V' x ↔ V x)) ∧
        (∀ x, x ≠ prev → x ∉ c :: l → F' .nx x = F .nx x) ∧ F' .hd = F .hd ∧ F' .la = F .la ∧ F' .w = F .w := by
      obtain ⟨s', F', l', V', ν', w1, w2, w3, w4, w5, w6, w7, w8, w9, w10⟩ :=
        ih fuel c (F .nx c) s F V ν hf hR hM ha hfl hch rfl hcr.1 hcr.2.1
          (List.nodup_cons.2 ⟨hcl, hlnd⟩) hsl' (fun x hx => hl x (by simp [hx]))
      refine ⟨s', F', c :: l', V', ν', w1, w2, w3, w4, w5.cons_cons c, ?_, ?_, ?_, ?_, w10⟩
      · rw [w9 prev hpcne hpl, hpc]
        exact ⟨rfl, hc1, w6⟩
      · intro x hx
        rcases List.mem_cons.1 hx with rfl | hx
        · rw [w8 x hcl]; exact hca
        · exact w7 x hx
      · intro x hx; exact w8 x fun hh => hx (List.mem_cons_of_mem _ hh)
      · intro x _ hx
        exact w9 x (by rintro rfl; simp at hx) fun hh => hx (List.mem_cons_of_mem _ hh)
    rw [superInner, if_pos hc1, hR.rdn .ln (by decide) hcr.1 hcr.2.1, ok_bind,
      hR.rdn .el (by decide) hcr.1 hcr.2.1, ok_bind, hR.rdn .pe (by decide) hcr.1 hcr.2.1, ok_bind,
      eln', v2, v3]
    have hνi : ν i ≤ n := le_trans (psum_le_one ha hir.1 hir.2.1 fun x _ _ hx => (hM.gr.vr x hx).2.2.2.le)
      (by rw [hM.sum]; exact hs0)
    have hνc : ν c ≤ n := le_trans (psum_le_one hca hcr.1 hcr.2.1 fun x _ _ hx => (hM.gr.vr x hx).2.2.2.le)
      (by rw [hM.sum]; exact hs0)
    cks hR
    by_cases hle : H .ln c = ln ∧ H .el c = eln
    · rw [if_pos hle]
      rw [bind_assoc]
      cks hR
      rw [show H .pe c + ln - (H .pe c + 1) = ln - 1 by ring]
      obtain ⟨v, hv, hv'⟩ := compare_spec (wflg := wflg) hR (by rw [eiw]; exact h3.iw) (ln - 1).toNat
        (H .pe c + 1) (by omega) (by omega)
      rw [hv, ok_bind]
      rcases v with _ | _
      · simp only [Bool.false_eq_true, if_false]
        rw [hR.rdn .nx (by decide) hcr.1 hcr.2.1, ok_bind]; exact skip
      · simp only [if_true]
        have hsame : ∀ e, e ∈ elL H i ↔ e ∈ elL H c := by
          refine same_els h3 hi hcP u4 v4 (hM.gr.nde c hca) (by omega) ?_ (by omega)
          intro x hx
          have hxr : 0 ≤ x ∧ x < n := by
            obtain ⟨p, a, b, rfl⟩ := mem_seg.1 hx
            exact h3.iw p (by omega) (by omega)
          apply hfl x hxr.1 hxr.2
          apply hv' rfl
          rw [eiw, show (((ln - 1).toNat : ℕ) : ℤ) = H .ln i - 1 by omega]
          exact hx
        cks hR
        obtain ⟨s1, e1, g1⟩ := hR.wrn .pe (by decide) hcr.1 hcr.2.1 (flip i)
        rw [e1, ok_bind, g1.rdn .nv (by decide) hir.1 hir.2.1, ok_bind, g1.rdn .nv (by decide) hcr.1 hcr.2.1, ok_bind,
          set_ne _ (by decide)]
        cks hR
        obtain ⟨s2, e2, g2⟩ := g1.wrn .nv (by decide) hir.1 hir.2.1 (F .nv i + F .nv c)
        rw [e2, ok_bind]
        obtain ⟨s3, e3, g3⟩ := g2.wrn .nv (by decide) hcr.1 hcr.2.1 0
        rw [e3, ok_bind]
        obtain ⟨s4, e4, g4⟩ := g3.wrn .el (by decide) hcr.1 hcr.2.1 (-1)
        rw [e4, ok_bind]
        have g4 : Rm n Al L s4 (mrg F i c) := g4
        rw [g4.rdn .nx (by decide) hcr.1 hcr.2.1, ok_bind, mrg_ne (by decide) (by decide) (by decide)]
        obtain ⟨s5, e5, g5⟩ := g4.wrn .nx (by decide) p0 p1 (F .nx c)
        rw [e5, ok_bind]
        have hnx' : ∀ x, set (mrg F i c) .nx prev (F .nx c) .nx x = if x = prev then F .nx c else F .nx x := by
          intro x; rw [set_apply, mrg_ne (by decide) (by decide) (by decide)]; simp
        have hoth : ∀ f, f ≠ .nx → f ≠ .pe → f ≠ .nv → f ≠ .el → set (mrg F i c) .nx prev (F .nx c) f = F f := by
          intro f a b c d; rw [set_ne _ a, mrg_ne b c d]
        have hM' := (hM.merge h3 hi hcP ha hca hsc hsame).congr
          (F' := set (mrg F i c) .nx prev (F .nx c)) (fun f _ _ f3 _ => set_ne _ f3 _ _)
        obtain ⟨s', F', l', V', ν', w1, w2, w3, w4, w5, w6, w7, w8, w9, w10, w11, w12⟩ :=
          ih fuel prev (F .nx c) s5 _ _ _ hf g5 hM' ⟨ha, hsc⟩
            (by rw [hoth .w (by decide) (by decide) (by decide) (by decide)]; exact hfl)
            (hch.congr fun x hx => by rw [hnx', if_neg (by rintro rfl; exact hpl hx)])
            (by rw [hnx', if_pos rfl]) p0 p1 (List.nodup_cons.2 ⟨hpl, hlnd⟩) hsl'
            (fun x hx => by
              have := hl x (by simp [hx])
              exact ⟨this.1, this.2, by rintro rfl; exact hcl hx⟩)
        refine ⟨s', F', l', V', ν', w1, w2, w3, w4, w5.cons c, w6, w7, ?_, ?_, ?_, ?_, ?_⟩
        · intro x hx
          rw [List.mem_cons, not_or] at hx
          rw [w8 x hx.2]
          exact ⟨fun h => h.1, fun h => ⟨h, hx.1⟩⟩
        · intro x hxp hx
          rw [List.mem_cons, not_or] at hx
          rw [w9 x hxp hx.2, hnx', if_neg hxp]
        · rw [w10, hoth _ (by decide) (by decide) (by decide) (by decide)]
        · rw [w11, hoth _ (by decide) (by decide) (by decide) (by decide)]
        · rw [w12, hoth _ (by decide) (by decide) (by decide) (by decide)]
    · rw [if_neg hle]
      rw [pure_bind']
      simp only [Bool.false_eq_true, if_false]
      rw [hR.rdn .nx (by decide) hcr.1 hcr.2.1, ok_bind]; exact skip

/-- The flags are below `wflg`, none becomes zero. -/
def Wb (n : ℤ) (H F : Sh) (wflg : ℤ) : Prop :=
  2 ≤ wflg ∧ ∀ x, 0 ≤ x → x < n → 0 ≤ F .w x ∧ F .w x < wflg ∧ (H .w x ≠ 0 → F .w x ≠ 0)

/-- The variables of a bucket. -/
theorem superOuter_spec {me : ℤ} (h3 : H3 n L me P H) (hs0 : psum n V0 ν0 ≤ n) {B : ℤ}
    (hBf : ∀ v : ℤ, 0 ≤ v → v ≤ B → ck v = .ok v) {k : ℕ} : ∀ (fuel : ℕ) (l : List ℤ) (c wflg : ℤ)
    (s : Mem) (F : Sh) (V : ℤ → Prop) (ν : ℤ → ℤ),
    l.length < fuel → l.length < k → Rm n Al L s F → MI n H P V0 E K ν0 ob V ν F → Wb n H F wflg →
    Ch (F .nx) c l → l.Nodup → (∀ x ∈ l, x ∈ P ∧ V x) → wflg + l.length ≤ B →
    wp (superOuter k fuel c wflg s) (fun y => ∃ F' V' ν', Rm n Al L y.1 F' ∧
      MI n H P V0 E K ν0 ob V' ν' F' ∧ Wb n H F' y.2 ∧
      (∀ x, x ∉ l → (V' x ↔ V x)) ∧ (∀ x, x ∉ l → F' .nx x = F .nx x) ∧
      F' .hd = F .hd ∧ F' .la = F .la ∧ y.2 ≤ wflg + l.length) (fun _ => False) := by
  intro fuel
  induction fuel with
  | zero => intro l c wflg s F V ν hf; omega
  | succ fuel ih =>
    intro l c wflg s F V ν hf hK hR hM hW hch hnd hl hB
    have done : wp (pure (s, wflg) : C (Mem × ℤ)) (fun y => ∃ F' V' ν', Rm n Al L y.1 F' ∧
      MI n H P V0 E K ν0 ob V' ν' F' ∧ Wb n H F' y.2 ∧
      (∀ x, x ∉ l → (V' x ↔ V x)) ∧ (∀ x, x ∉ l → F' .nx x = F .nx x) ∧
      F' .hd = F .hd ∧ F' .la = F .la ∧ y.2 ≤ wflg + l.length) (fun _ => False) :=
      wpr ⟨F, V, ν, hR, hM, hW, fun _ _ => Iff.rfl, fun _ _ => rfl, rfl, rfl, by dsimp only; omega⟩
    rcases l with _ | ⟨y, l⟩
    · have hc : c = -1 := hch
      subst hc
      rw [superOuter, if_neg (by simp)]
      exact done
    · obtain ⟨rfl, hc1, hch⟩ := hch
      obtain ⟨hcP, hca⟩ := hl c (by simp)
      have hcr := h3.rg c hcP
      obtain ⟨hcl, hlnd⟩ := List.nodup_cons.1 hnd
      rw [superOuter, if_pos hc1, hR.rdn .nx (by decide) hcr.1 hcr.2.1, ok_bind]
      by_cases hnx : F .nx c ≠ -1
      · rw [if_pos hnx, hR.rdn .ln (by decide) hcr.1 hcr.2.1, ok_bind, hR.rdn .el (by decide) hcr.1 hcr.2.1, ok_bind,
          hR.rdn .pe (by decide) hcr.1 hcr.2.1, ok_bind]
        obtain ⟨v1, v2, v3, v4, v5⟩ := hM.alive hcP hca
        obtain ⟨c1, c2, c3, c4, c5⟩ := hcr.2.2 v4
        have eln' : F .ln = H .ln := hM.eq .ln (by decide) (by decide) (by decide) (by decide) (by decide)
          (by decide) (by decide)
        have eiw : F .iw = H .iw := hM.eq .iw (by decide) (by decide) (by decide) (by decide) (by decide)
          (by decide) (by decide)
        rw [eln', v2, v3]
        have hrange : ∀ x ∈ seg (H .iw) (H .pe c + 1) (H .ln c - 1), 0 ≤ x ∧ x < n := by
          intro x hx
          obtain ⟨p, a, b, rfl⟩ := mem_seg.1 hx
          exact h3.iw p (by omega) (by omega)
        refine wb (wp_post (scatter_spec (wflg := wflg) hR (by omega) c1 (by omega) c4 (by rw [eiw]; exact hrange)) ?_)
        rintro s1 ⟨F1, hR1, ho1, hw1⟩
        rw [eiw] at hw1
        have hM1 : MI n H P V0 E K ν0 ob V ν F1 := hM.congr fun f _ _ _ hf => ho1 f hf
        simp only [List.length_cons] at hf hK hB
        push_cast at hB
        obtain ⟨s2, F2, l2, V2, ν2, w1, w2, w3, w4, w5, w6, w7, w8, w9, w10, w11, w12⟩ :=
          superInner_spec h3 hcP rfl rfl hs0 l k c (F .nx c) s1 F1 V ν (wflg := wflg) (by omega) hR1 hM1 hca
            (by
              intro x x0 x1 hx
              rw [hw1] at hx
              by_contra hc
              rw [if_neg hc] at hx
              have := hW.2 x x0 x1; omega)
            (by rw [ho1 .nx (by decide)]; exact hch) (by rw [ho1 .nx (by decide)]) hcr.1 hcr.2.1 hnd hcl
            (fun x hx => hl x (by simp [hx]))
        rw [w1, ok_bind, hBf _ (by have := hW.1; omega) (by omega), ok_bind, w2.rdn .nx (by decide) hcr.1 hcr.2.1, ok_bind]
        have hlen := w5.length_le
        have hW2 : Wb n H F2 (wflg + 1) := by
          refine ⟨by have := hW.1; omega, fun x x0 x1 => ?_⟩
          have := hW.2 x x0 x1
          have h2 := hW.1
          rw [w12, hw1]
          split_ifs
          · exact ⟨by omega, by omega, fun _ => by omega⟩
          · exact ⟨this.1, by omega, this.2.2⟩
        refine wp_post (ih l2 (F2 .nx c) (wflg + 1) s2 F2 V2 ν2 (by omega) (by omega) w2 w3 hW2 w6
          (w5.nodup hlnd) (fun x hx => ⟨(hl x (by simp [w5.subset hx])).1, w7 x hx⟩) (by omega)) ?_
        rintro ⟨s3, wf⟩ ⟨F3, V3, ν3, y1, y2, y3, y4, y5, y6, y7, y8⟩
        refine ⟨F3, V3, ν3, y1, y2, y3, ?_, ?_, by rw [y6, w10, ho1 _ (by decide)],
          by rw [y7, w11, ho1 _ (by decide)], by
            dsimp only at y8 ⊢
            rw [List.length_cons]; push_cast; omega⟩
        · intro x hx
          rw [List.mem_cons, not_or] at hx
          rw [y4 x fun hh => hx.2 (w5.subset hh), w8 x hx.2]
        · intro x hx
          rw [List.mem_cons, not_or] at hx
          rw [y5 x fun hh => hx.2 (w5.subset hh), w9 x hx.1 hx.2, ho1 _ (by decide)]
      · rw [if_neg hnx]
        exact done

theorem HB.other {F' : Sh} {bk : ℤ → List ℤ} (h : HB n G F S bk) (l : List ℤ) (hp : F' .hd = F .hd)
    (h3 : F' .la = F .la) (h4 : ∀ x, x ∉ l → F' .nx x = F .nx x) (h2 : ∀ x, S x → F' .dg x = F .dg x)
    (hl : ∀ y, 0 ≤ y → y < n → ∀ x ∈ bk y, x ∉ l) (hlS : ∀ x ∈ l, ¬ S x) : HB n G F' S bk := by
  have hbf : bf (G .hd) F' = bf (G .hd) F := by funext x; unfold bf; rw [hp, h3]
  constructor
  · rw [hp]; exact h.hp
  · rw [hp]; exact h.hq
  · intro y y0 y1; rw [hbf]; exact (h.ch y y0 y1).congr fun x hx => h4 x (hl y y0 y1 x hx)
  · exact h.nd
  · rw [h3]; exact h.el
  · intro x hx; rw [h2 x hx]; exact h.s2 x hx
  · rw [h3]; exact h.s3
  · intro x hx; rw [h4 x fun hh => hlS x hh hx]; exact h.s4 x hx

/-- The buckets are disjoint. -/
theorem HB.count {bk : ℤ → List ℤ} (h : HB n G F S bk) (hn : 0 ≤ n) :
    psum n (fun _ => True) (fun y => ((bk y).length : ℤ)) ≤ n := by
  have h1 : ∀ y ∈ Finset.Ico 0 n, ((bk y).length : ℤ) = (((bk y).toFinset).card : ℤ) := by
    intro y hy
    rw [Finset.mem_Ico] at hy
    rw [List.toFinset_card_of_nodup (h.nd y hy.1 hy.2)]
  unfold psum
  simp only [if_true]
  rw [Finset.sum_congr rfl h1, ← Nat.cast_sum, ← Finset.card_biUnion]
  · have h2 : (Finset.Ico 0 n).biUnion (fun y => (bk y).toFinset) ⊆ Finset.Ico 0 n := by
      intro x hx
      rw [Finset.mem_biUnion] at hx
      obtain ⟨y, hy, hx⟩ := hx
      rw [Finset.mem_Ico] at hy
      have := h.el y hy.1 hy.2 x (List.mem_toFinset.1 hx)
      rw [Finset.mem_Ico]; exact ⟨this.1, this.2.1⟩
    have h3 := Finset.card_le_card h2
    rw [Int.card_Ico] at h3
    omega
  · intro y hy z hz hyz
    rw [Finset.mem_coe, Finset.mem_Ico] at hy hz
    rw [Function.onFun, Finset.disjoint_left]
    intro x hx hx'
    have a := h.el y hy.1 hy.2 x (List.mem_toFinset.1 hx)
    have b := h.el z hz.1 hz.2 x (List.mem_toFinset.1 hx')
    exact hyz (a.2.2.1.symm.trans b.2.2.1)

theorem takeBucket_spec {bk : ℤ → List ℤ} {h : ℤ} (hR : Rm n Al L s F) (hB : HB n G F S bk) (hd : DL n G S rk)
    (h0 : 0 ≤ h) (h1 : h < n) :
    ∃ s' F', takeBucket h s = .ok (s', bf (G .hd) F h) ∧ Rm n Al L s' F' ∧
      HB n G F' S (Function.update bk h []) ∧ (∀ f, f ≠ .hd → f ≠ .la → F' f = F f) ∧
      ∀ x, ¬ S x → F' .la x = F .la x := by
  obtain ⟨v1, v2, v3⟩ := hB.head_val hd h0 h1
  have hoth : ∀ y, 0 ≤ y → y < n → y ≠ h → ∀ x ∈ bk y, x ∉ bk h := by
    intro y y0 y1 hy x hx hx'
    have := hB.el y y0 y1 x hx
    have := hB.el h h0 h1 x hx'
    omega
  have build : ∀ F' : Sh, (∀ f, f ≠ .hd → f ≠ .la → F' f = F f) → bf (G .hd) F' h = -1 →
      (∀ y, 0 ≤ y → y < n → y ≠ h → bf (G .hd) F' y = bf (G .hd) F y) →
      (∀ y, 0 ≤ y → y < n → G .hd y ≠ -1 → F' .hd y = G .hd y) →
      (∀ y, 0 ≤ y → y < n → G .hd y = -1 → F' .hd y ≤ -1) →
      (∀ y, S y → G .la y ≠ -1 → F' .la y = G .la y) →
      (∀ y, ¬ S y → F' .la y = F .la y) → HB n G F' S (Function.update bk h []) := by
    intro F' q3 q4 q5 q6 q7 q8 q9
    have enx := q3 .nx (by decide) (by decide)
    have edg := q3 .dg (by decide) (by decide)
    constructor
    · exact q6
    · exact q7
    · intro y y0 y1
      by_cases hy : y = h
      · subst hy
        rw [Function.update_self, q4]
        rfl
      · rw [Function.update_of_ne hy, q5 y y0 y1 hy, enx]
        exact hB.ch y y0 y1
    · intro y y0 y1
      by_cases hy : y = h
      · subst hy; rw [Function.update_self]; simp
      · rw [Function.update_of_ne hy]; exact hB.nd y y0 y1
    · intro y y0 y1 z hz
      by_cases hy : y = h
      · subst hy; rw [Function.update_self] at hz; simp at hz
      · rw [Function.update_of_ne hy] at hz
        obtain ⟨a, b, c, d⟩ := hB.el y y0 y1 z hz
        exact ⟨a, b, by rw [q9 z d]; exact c, d⟩
    · intro y hy; rw [edg]; exact hB.s2 y hy
    · exact q8
    · intro y hy; rw [enx]; exact hB.s4 y hy
  unfold takeBucket
  rw [hR.rdn .hd (by decide) h0 h1, ok_bind]
  by_cases hh : G .hd h > -1
  · obtain ⟨e1, e2, e3⟩ := v2 hh
    have hr := hd.rg _ e2
    rw [if_neg (by omega), if_neg (by omega), e1, hR.rdn .la (by decide) hr.1 hr.2.1, ok_bind]
    obtain ⟨s2, q2, g2⟩ := hR.wrn .la (by decide) hr.1 hr.2.1 (-1)
    rw [q2, ok_bind]
    refine ⟨s2, _, ?_, g2, build _ ?_ ?_ ?_ ?_ ?_ ?_ ?_, ?_, ?_⟩
    · unfold bf; rw [if_pos hh]; rfl
    · intro f _ hf; exact set_ne _ hf _ _
    · unfold bf; rw [if_pos hh, set_at]
    · intro y y0 y1 hy
      unfold bf
      by_cases hy2 : G .hd y > -1
      · have := (hB.head_val hd y0 y1).2.1 hy2
        rw [if_pos hy2, if_pos hy2, set_nei]
        intro ee
        rw [ee, e3] at this
        exact hy this.2.2.symm
      · rw [if_neg hy2, if_neg hy2, set_ne _ (by decide)]
    · intro y y0 y1 hy; rw [set_ne _ (by decide)]; exact hB.hp y y0 y1 hy
    · intro y y0 y1 hy; rw [set_ne _ (by decide)]; exact hB.hq y y0 y1 hy
    · intro y hy hy3
      rw [set_nei]
      · exact hB.s3 y hy hy3
      · rintro rfl
        rcases hd.hd _ h0 h1 with a | ⟨_, _, a⟩
        · omega
        · exact hy3 a
    · intro y hy
      rw [set_nei]
      rintro rfl; exact hy e2
    · intro f _ hf; exact set_ne _ hf _ _
    · intro y hy
      rw [set_nei]
      rintro rfl; exact hy e2
  · have hm := v3 hh
    have hle := hB.hq h h0 h1 hm
    have hbf : bf (G .hd) F h = flip (F .hd h) := by unfold bf; rw [if_neg hh, flip_eq]
    by_cases hz : F .hd h = -1
    · rw [if_pos hz, hbf, hz]
      refine ⟨s, F, rfl, hR, build F (fun _ _ _ => rfl) (by rw [hbf, hz]; rfl) (fun _ _ _ _ => rfl) hB.hp hB.hq hB.s3
        (fun _ _ => rfl), fun _ _ _ => rfl, fun _ _ => rfl⟩
    · have hfr : -1 ≤ flip (F .hd h) ∧ flip (F .hd h) < n := by
        have hc := hB.ch h h0 h1
        rw [hbf] at hc
        rcases hbk : bk h with _ | ⟨y, l⟩
        · rw [hbk] at hc
          have hc : flip (F .hd h) = -1 := hc
          omega
        · rw [hbk] at hc
          have := hB.el h h0 h1 y (by rw [hbk]; simp)
          have := hc.1
          omega
      rw [if_neg hz, if_pos (by omega), Rp.ck hR (by intros; omega), ok_bind]
      obtain ⟨s2, q2, g2⟩ := hR.wrn .hd (by decide) h0 h1 (-1)
      rw [q2, ok_bind, hbf]
      refine ⟨s2, _, rfl, g2, build _ ?_ ?_ ?_ ?_ ?_ ?_ ?_, ?_, ?_⟩
      · intro f hf _; exact set_ne _ hf _ _
      · unfold bf; rw [if_neg hh, set_at]; rfl
      · intro y y0 y1 hy
        unfold bf
        rw [set_ne _ (by decide), set_nei _ _ _ _ hy]
      · intro y y0 y1 hy
        rw [set_nei]
        · exact hB.hp y y0 y1 hy
        · rintro rfl; exact hy hm
      · intro y y0 y1 hy
        rw [set_apply]
        split_ifs
        · omega
        · exact hB.hq y y0 y1 hy
      · intro y hy hy3; rw [set_ne _ (by decide)]; exact hB.s3 y hy hy3
      · intro y _; rw [set_ne _ (by decide)]
      · intro f hf _; exact set_ne _ hf _ _
      · intro y _; rw [set_ne _ (by decide)]

/-- The state between two variables of the new element: `pre` are done. -/
structure DS (n Al L : ℤ) (G H : Sh) (P pre : List ℤ) (S V0 E K : ℤ → Prop) (ν0 : ℤ → ℤ) (ob : ℤ → List ℤ)
    (s : Mem) (F : Sh) (bk : ℤ → List ℤ) (V : ℤ → Prop) (ν : ℤ → ℤ) (wflg B : ℤ) : Prop where
  rp : Rm n Al L s F
  mi : MI n H P V0 E K ν0 ob V ν F
  hb : HB n G F S bk
  bp : ∀ h, 0 ≤ h → h < n → ∀ x ∈ bk h, x ∈ P ∧ x ∉ pre ∧ V x
  la : ∀ x ∈ P, V x → 0 ≤ F .la x ∧ F .la x < n
  w : Wb n H F wflg
  mono : ∀ x, V x → V0 x
  wB : wflg + psum n (fun _ => True) (fun h => ((bk h).length : ℤ)) ≤ B

theorem detectOne_spec {me pme1 wflg B : ℤ} {bk : ℤ → List ℤ} {pre post : List ℤ} {x : ℤ} (h3 : H3 n L me P H)
    (hP : P = pre ++ x :: post) (hA : H .iw (pme1 + pre.length) = x) (h0 : 0 ≤ pme1) (hL : pme1 + P.length ≤ L)
    (hd : DL n G S rk) (hPS : ∀ c ∈ P, ¬ S c)
    (hs0 : psum n V0 ν0 ≤ n) (hBf : ∀ v : ℤ, 0 ≤ v → v ≤ B → ck v = .ok v)
    (h : DS n Al L G H P pre S V0 E K ν0 ob s F bk V ν wflg B) :
    wp (detectOne n (pme1 + pre.length) (s, wflg)) (fun y => ∃ F' bk' V' ν',
      DS n Al L G H P (pre ++ [x]) S V0 E K ν0 ob y.1 F' bk' V' ν' y.2 B) (fun _ => False) := by
  obtain ⟨hR, hM, hB, hbp, hla, hW, hmono, hwB⟩ := h
  have hxP : x ∈ P := by rw [hP]; simp
  have hxr := h3.rg x hxP
  have eiw : F .iw = H .iw := hM.eq .iw (by decide) (by decide) (by decide) (by decide) (by decide)
    (by decide) (by decide)
  have hPl : (pre.length : ℤ) < P.length := by rw [hP]; simp
  unfold detectOne
  dsimp only
  rw [hR.rdi (by omega) (by omega), ok_bind, eiw, hA, hR.rdn .nv (by decide) hxr.1 hxr.2.1, ok_bind]
  by_cases hx : F .nv x < 0
  · rw [if_pos hx, hR.rdn .la (by decide) hxr.1 hxr.2.1, ok_bind]
    have hVx : V x := by
      rcases hM.i x hxP with ⟨a, _⟩ | ⟨_, a, _⟩
      · exact a
      · omega
    obtain ⟨k0, k1⟩ := hla x hxP hVx
    obtain ⟨s1, F1, e1, hR1, hB1, ho1, hla1⟩ := takeBucket_spec hR hB hd k0 k1
    rw [e1, ok_bind]
    dsimp only
    have hbl : (bk (F .la x)).length < n.toNat + 1 := by
      have hsub : bk (F .la x) ⊆ (List.range n.toNat).map fun i : ℕ => (i : ℤ) := by
        intro y hy
        have := hB.el _ k0 k1 y hy
        rw [List.mem_map]
        exact ⟨y.toNat, by rw [List.mem_range]; omega, by omega⟩
      have := ((hB.nd _ k0 k1).subperm hsub).length_le
      simp at this; omega
    have hM1 : MI n H P V0 E K ν0 ob V ν F1 := hM.congr fun f a b _ _ => ho1 f a b
    have hW1 : Wb n H F1 wflg := by
      unfold Wb; rw [ho1 .w (by decide) (by decide)]; exact hW
    have hps := psum_erase (n := n) (O := fun _ => True) (f := fun h => ((bk h).length : ℤ)) trivial k0 k1
    have hps0 := psum_nonneg (n := n) (O := fun h => True ∧ h ≠ F .la x) (f := fun h => ((bk h).length : ℤ))
      fun _ _ _ _ => by positivity
    refine wp_post (superOuter_spec h3 hs0 hBf (k := n.toNat + 1) (n.toNat + 1) (bk (F .la x)) _ wflg s1 F1 V ν hbl hbl
      hR1 hM1 hW1 (by rw [ho1 .nx (by decide) (by decide)]; exact hB.ch _ k0 k1) (hB.nd _ k0 k1)
      (fun y hy => ⟨(hbp _ k0 k1 y hy).1, (hbp _ k0 k1 y hy).2.2⟩) (by omega)) ?_
    rintro ⟨s2, wf⟩ ⟨F2, V2, ν2, y1, y2, y3, y4, y5, y6, y7, y8⟩
    have hbkn : ∀ y, 0 ≤ y → y < n → ∀ z ∈ Function.update bk (F .la x) [] y, y ≠ F .la x ∧ z ∈ bk y ∧
        z ∉ bk (F .la x) := by
      intro y y0 y1 z hz
      by_cases hy : y = F .la x
      · subst hy; rw [Function.update_self] at hz; simp at hz
      · rw [Function.update_of_ne hy] at hz
        refine ⟨hy, hz, fun hz' => ?_⟩
        have := hB.el y y0 y1 z hz
        have := hB.el _ k0 k1 z hz'
        omega
    have hVsub : ∀ z, V2 z → V z := by
      intro z hz
      by_cases hzl : z ∈ bk (F .la x)
      · exact (hbp _ k0 k1 z hzl).2.2
      · exact (y4 z hzl).1 hz
    refine ⟨F2, Function.update bk (F .la x) [], V2, ν2, y1, y2, ?_, ?_, ?_, y3, fun z hz => hmono z (hVsub z hz), ?_⟩
    · refine hB1.other (bk (F .la x)) y6 y7 y5 ?_ ?_ ?_
      · rw [y2.eq .dg (by decide) (by decide) (by decide) (by decide) (by decide) (by decide) (by decide),
          hM1.eq .dg (by decide) (by decide) (by decide) (by decide) (by decide) (by decide) (by decide)]
        intros; rfl
      · intro y y0 y1 z hz; exact (hbkn y y0 y1 z hz).2.2
      · intro z hz; exact (hB.el _ k0 k1 z hz).2.2.2
    · intro y y0 y1 z hz
      obtain ⟨a, b, c⟩ := hbkn y y0 y1 z hz
      obtain ⟨a', b', c'⟩ := hbp y y0 y1 z b
      refine ⟨a', ?_, (y4 z c).2 c'⟩
      rw [List.mem_append, List.mem_singleton, not_or]
      refine ⟨b', ?_⟩
      rintro rfl
      exact a (hB.el y y0 y1 z b).2.2.1.symm
    · intro z hz hzV
      rw [y7, hla1 z (hPS z hz)]
      exact hla z hz (hVsub z hzV)
    · rw [psum_erase (e := F .la x) trivial k0 k1, Function.update_self,
        psum_congr (O' := fun h => True ∧ h ≠ F .la x) (g := fun h => ((bk h).length : ℤ)) (fun _ _ _ => Iff.rfl)
          (fun y _ _ hy => by rw [Function.update_of_ne hy.2])]
      dsimp only at y8 ⊢
      simp only [List.length_nil]
      push_cast
      omega
  · rw [if_neg hx]
    refine wpr ⟨F, bk, V, ν, hR, hM, hB, ?_, hla, hW, hmono, hwB⟩
    intro y y0 y1 z hz
    obtain ⟨a, b, c⟩ := hbp y y0 y1 z hz
    refine ⟨a, ?_, c⟩
    rw [List.mem_append, List.mem_singleton, not_or]
    refine ⟨b, ?_⟩
    rintro rfl
    have := hM.alive hxP c
    omega

theorem detect_spec {me pme1 wflg B : ℤ} {bk : ℤ → List ℤ} (h3 : H3 n L me P H)
    (hA : seg (H .iw) pme1 P.length = P) (h0 : 0 ≤ pme1) (hL : pme1 + P.length ≤ L)
    (hd : DL n G S rk) (hPS : ∀ c ∈ P, ¬ S c) (h : DS n Al L G H P [] S V0 E K ν0 ob s F bk V ν wflg B)
    (hs0 : psum n V0 ν0 ≤ n) (hBf : ∀ v : ℤ, 0 ≤ v → v ≤ B → ck v = .ok v) :
    wp (detect n pme1 (pme1 + P.length - 1) wflg s) (fun y => ∃ F' V' ν', Rm n Al L y.1 F' ∧
      MI n H P V0 E K ν0 ob V' ν' F' ∧ DL n F' S rk ∧ Wb n H F' y.2 ∧ (∀ x, V' x → V0 x) ∧ y.2 ≤ B) (fun _ => False) := by
  unfold detect
  rw [show pme1 + (P.length : ℤ) - 1 + 1 = pme1 + P.length by ring]
  refine wp_post (wp_list P (fun pre (y : Mem × ℤ) => ∃ F bk V ν,
    DS n Al L G H P pre S V0 E K ν0 ob y.1 F bk V ν y.2 B) ?_ ?_) ?_
  · exact ⟨F, bk, V, ν, h⟩
  · rintro pre x post ⟨s, w⟩ hP ⟨F, bk, V, ν, h⟩
    exact detectOne_spec h3 hP (Slip.Colamd.seg_getElem (hA.trans hP)).1 h0 hL hd hPS hs0 hBf h
  · rintro ⟨s, w⟩ ⟨F, bk, V, ν, h⟩
    have hps0 := psum_nonneg (n := n) (O := fun _ => True) (f := fun h => ((bk h).length : ℤ))
      fun _ _ _ _ => by positivity
    refine ⟨F, V, ν, h.rp, h.mi, h.hb.finish hd ?_, h.w, h.mono, by have := h.wB; omega⟩
    intro x x0 x1
    rcases hbk : bk x with _ | ⟨y, l⟩
    · rfl
    · have := h.bp x x0 x1 y (by rw [hbk]; simp)
      exact absurd this.1 this.2.1

end Slip.Amd
