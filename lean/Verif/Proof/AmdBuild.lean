import Verif.Proof.AmdGC
import Verif.Proof.AmdHash

/-!
# AMD: construction of the new element
-/

namespace Slip.Amd

open Slip.Colamd (seg mem_seg seg_congr seg_succ length_seg seg_zero wp_seg csum seg_ext)

variable [Arith]

variable {n Al L : ℤ} {s : Mem} {F : Sh}

/-- The state with other positions and lengths of the objects. -/
def virt (F : Sh) (vp vl : ℤ → ℤ) : Sh := Function.update (Function.update F .pe vp) .ln vl

@[simp] theorem virt_pe (F : Sh) (vp vl : ℤ → ℤ) : virt F vp vl .pe = vp := by
  simp [virt]

@[simp] theorem virt_ln (F : Sh) (vp vl : ℤ → ℤ) : virt F vp vl .ln = vl := by
  simp [virt]

/-- The memory while the element `P` is constructed in `[pme1,pfree)`.  The objects `O` have the lists
`ct`; `hot` are the pivot and the element that is read, of which only the unread part counts. -/
structure BM (n nz : ℤ) (hot O : ℤ → Prop) (ct : ℤ → List ℤ) (P : List ℤ) (pme1 pfree : ℤ)
    (vp vl : ℤ → ℤ) (F : Sh) : Prop where
  p0 : 0 ≤ pme1
  lay : Lay n pme1 (virt F vp vl) O
  con : ∀ x, O x → seg (F .iw) (vp x) (vl x) = ct x
  sum : psum n O vl + P.length ≤ nz
  cold : ∀ x, 0 ≤ x → x < n → ¬ hot x → (O x → vp x = F .pe x ∧ vl x = F .ln x) ∧ (¬ O x → F .pe x < 0)
  hotO : ∀ x, hot x → (O x ↔ ct x ≠ [])
  iw : ∀ p, 0 ≤ p → p < pfree → 0 ≤ F .iw p ∧ F .iw p < n
  sP : seg (F .iw) pme1 P.length = P
  pf : pfree = pme1 + P.length

variable {nz : ℤ} {hot O : ℤ → Prop} {ct : ℤ → List ℤ} {P : List ℤ} {pme1 pfree : ℤ} {vp vl : ℤ → ℤ}

theorem BM.len (h : BM n nz hot O ct P pme1 pfree vp vl F) {x : ℤ} (hx : O x) :
    vl x = (ct x).length := by
  have := (h.lay.pos x hx).2.1
  rw [virt_ln] at this
  rw [← h.con x hx, length_seg]; omega

theorem BM.congr {F' : Sh} (h : BM n nz hot O ct P pme1 pfree vp vl F)
    (h1 : F' .iw = F .iw) (h2 : ∀ x, ¬ hot x → F' .pe x = F .pe x)
    (h3 : ∀ x, ¬ hot x → F' .ln x = F .ln x) : BM n nz hot O ct P pme1 pfree vp vl F' := by
  refine ⟨h.p0, ⟨h.lay.rg, ?_, ?_⟩, ?_, h.sum, ?_, h.hotO, ?_, ?_, h.pf⟩
  · simpa using h.lay.pos
  · simpa using h.lay.dj
  · rw [h1]; exact h.con
  · intro x a b c; rw [h2 x c, h3 x c]; exact h.cold x a b c
  · rw [h1]; exact h.iw
  · rw [h1]; exact h.sP

/-- The writes before the compression, for one of `me` and `e`. -/
def prepObj (s : Mem) (x p l : ℤ) : C Mem := do
  let s ← s.wr .pe x p
  let s ← s.wr .ln x l
  let l ← s.rd .ln x
  if l = 0 then s.wr .pe x (-1) else pure s

theorem prepObj_spec (h : Rm n Al L s F) {x p l : ℤ} (h0 : 0 ≤ x) (h1 : x < n) :
    ∃ s' F', prepObj s x p l = .ok s' ∧ Rm n Al L s' F' ∧
      F' .pe x = (if l = 0 then -1 else p) ∧ F' .ln x = l ∧
      (∀ y, y ≠ x → F' .pe y = F .pe y ∧ F' .ln y = F .ln y) ∧
      ∀ f, f ≠ .pe → f ≠ .ln → F' f = F f := by
  unfold prepObj
  obtain ⟨s1, e1, g1⟩ := h.wrn .pe (by decide) h0 h1 p
  rw [e1, ok_bind]
  obtain ⟨s2, e2, g2⟩ := g1.wrn .ln (by decide) h0 h1 l
  rw [e2, ok_bind, g2.rdn .ln (by decide) h0 h1, ok_bind, set_at]
  by_cases hl : l = 0
  · rw [if_pos hl, if_pos hl]
    obtain ⟨s3, e3, g3⟩ := g2.wrn .pe (by decide) h0 h1 (-1)
    refine ⟨s3, _, e3, g3, by rw [set_at], by rw [set_ne _ (by decide), set_at], fun y hy => ?_,
      fun f a b => by rw [set_ne _ a, set_ne _ b, set_ne _ a]⟩
    simp only [set_nei _ _ _ _ hy, and_self]
  · rw [if_neg hl, if_neg hl]
    refine ⟨s2, _, rfl, g2, by rw [set_ne _ (by decide), set_at], by rw [set_at], fun y hy => ?_,
      fun f a b => by rw [set_ne _ b, set_ne _ a]⟩
    simp only [set_nei _ _ _ _ hy, and_self]

theorem garbage_eq (n me e knt1 knt2 ln : ℤ) (z : Ptrs) (s : Mem) {a : ℤ}
    (ha' : ∀ s1, s.wr .pe me z.p = .ok s1 → s1.rd .ln me = .ok a) (hk1 : ck (a - knt1) = .ok (a - knt1))
    (hk2 : ck (ln - knt2) = .ok (ln - knt2)) (hk3 : ck (z.pme1 - 1) = .ok (z.pme1 - 1)) :
    garbage n me e knt1 knt2 ln z s = (do
      let s ← prepObj s me z.p (a - knt1)
      let s ← prepObj s e z.pj (ln - knt2)
      let (s, p1, pdst) ← (do
        let s ← gcMark n s
        let (s, pdst) ← gcMove (z.pme1 - 1) (z.pme1.toNat + 1) 0 0 s
        let p1 := pdst
        let (s, pdst) ← forRange z.pme1 z.pfree (s, pdst) fun psrc (s, pdst) => do
          let x ← s.rd .iw psrc
          let s ← s.wr .iw pdst x
          let pdst ← ck (pdst + 1)
          pure (s, pdst)
        pure (s, p1, pdst))
      let pj ← s.rd .pe e
      let p ← s.rd .pe me
      pure (s, { p := p, pj := pj, pme1 := p1, pfree := pdst })) := by
  unfold garbage prepObj
  cases h : s.wr .pe me z.p with
  | error e => rfl
  | ok s1 =>
    simp only [ok_bind, ha' s1 h, hk1, hk2, hk3, bind_assoc, pure_bind']

/-- The list of a hot object is in the array. -/
theorem BM.hotlen (h : BM n nz hot O ct P pme1 pfree vp vl F) {x : ℤ} (hx : hot x) :
    ((ct x).length : ℤ) ≤ pme1 := by
  have h0 := h.p0
  by_cases hO : O x
  · have := h.lay.pos x hO
    rw [virt_pe, virt_ln, h.len hO] at this
    omega
  · have : ct x = [] := by
      by_contra hc
      exact hO ((h.hotO x hx).2 hc)
    rw [this]
    exact h0

theorem garbage_spec {me e knt1 knt2 ln : ℤ} {z : Ptrs} (hR : Rm n Al pfree s F)
    (h : BM n nz hot O ct P pme1 pfree vp vl F) (hme : 0 ≤ me ∧ me < n) (he : 0 ≤ e ∧ e < n)
    (hhot : ∀ x, hot x ↔ x = me ∨ x = e) (hz1 : z.pme1 = pme1) (hz2 : z.pfree = pfree)
    (hm : me ≠ e → F .ln me - knt1 = (ct me).length ∧ (O me → z.p = vp me))
    (hl : ln - knt2 = (ct e).length) (hj : O e → z.pj = vp e)
    (hk : -(n + Al + 2) ≤ F .ln me - knt1 ∧ F .ln me - knt1 ≤ n + Al + 2) :
    wp (garbage n me e knt1 knt2 ln z s)
      (fun y => y.2.pfree ≤ nz ∧ ∃ F' vp' vl', Rm n Al y.2.pfree y.1 F' ∧
        BM n nz hot O ct P y.2.pme1 y.2.pfree vp' vl' F' ∧ (O e → y.2.pj = vp' e) ∧
        (me ≠ e → O me → y.2.p = vp' me) ∧ y.2.pfree ≤ pfree ∧
        (∀ f, f ≠ .pe → f ≠ .ln → f ≠ .iw → F' f = F f) ∧
        (∀ x, ¬ O x → ¬ hot x → F' .pe x = F .pe x) ∧ (∀ x, ¬ hot x → F' .ln x = F .ln x) ∧
        F' .ln me = (ct me).length)
      (fun _ => False) := by
  have hle := h.hotlen ((hhot e).2 (Or.inr rfl))
  have hpf' := h.pf
  rw [garbage_eq n me e knt1 knt2 ln z s (a := F .ln me) (by
    intro s1 e1
    obtain ⟨s1', e1', g1⟩ := hR.wrn .pe (by decide) hme.1 hme.2 z.p
    rw [e1] at e1'
    obtain rfl : s1 = s1' := by injection e1'
    rw [g1.rdn .ln (by decide) hme.1 hme.2, set_ne _ (by decide)])
    (hR.ck (by intros; omega)) (hR.ck (by intros; omega)) (hR.ck (by have := h.p0; intros; omega))]
  obtain ⟨s1, F1, e1, g1, a1, a2, a3, a4⟩ := prepObj_spec hR (p := z.p) (l := F .ln me - knt1) hme.1 hme.2
  rw [e1, ok_bind]
  obtain ⟨s2, F2, e2, g2, b1, b2, b3, b4⟩ := prepObj_spec g1 (p := z.pj) (l := ln - knt2) he.1 he.2
  rw [e2, ok_bind, hz1, hz2]
  have hot2 : ∀ x, hot x → (O x → F2 .pe x = vp x ∧ F2 .ln x = vl x) ∧ (¬ O x → F2 .pe x = -1) := by
    intro x hx
    have hO := h.hotO x hx
    by_cases hxe : x = e
    · subst hxe
      rw [b1, b2]
      refine ⟨fun hOx => ?_, fun hOx => ?_⟩
      · have := hO.1 hOx
        have hne : ln - knt2 ≠ 0 := by
          rw [hl]
          cases hc : ct x with
          | nil => exact absurd hc this
          | cons => simp; omega
        rw [if_neg hne, h.len hOx]
        exact ⟨hj hOx, hl⟩
      · rw [if_pos]
        rw [hl]
        by_cases hc : ct x = []
        · rw [hc]; rfl
        · exact absurd (hO.2 hc) hOx
    · have hxm : x = me := by rcases (hhot x).1 hx with a | a; exact a; exact absurd a hxe
      subst hxm
      obtain ⟨m1, m2⟩ := hm hxe
      rw [(b3 x hxe).1, (b3 x hxe).2, a1, a2]
      refine ⟨fun hOx => ?_, fun hOx => ?_⟩
      · have := hO.1 hOx
        have hne : F .ln x - knt1 ≠ 0 := by
          rw [m1]
          cases hc : ct x with
          | nil => exact absurd hc this
          | cons => simp; omega
        rw [if_neg hne, h.len hOx]
        exact ⟨m2 hOx, m1⟩
      · rw [if_pos]
        rw [m1]
        by_cases hc : ct x = []
        · rw [hc]; rfl
        · exact absurd (hO.2 hc) hOx
  have cold2 : ∀ x, ¬ hot x → F2 .pe x = F .pe x ∧ F2 .ln x = F .ln x := by
    intro x hx
    have h1 : x ≠ me := fun e => hx ((hhot x).2 (Or.inl e))
    have h2 : x ≠ e := fun e => hx ((hhot x).2 (Or.inr e))
    rw [(b3 x h2).1, (b3 x h2).2]; exact a3 x h1
  have oth2 : ∀ f, f ≠ .pe → f ≠ .ln → F2 f = F f := fun f a b => by rw [b4 f a b, a4 f a b]
  have obj2 : ∀ x, O x → F2 .pe x = vp x ∧ F2 .ln x = vl x := by
    intro x hx
    by_cases hh : hot x
    · exact (hot2 x hh).1 hx
    · obtain ⟨c1, c2⟩ := (h.cold x (h.lay.rg x hx).1 (h.lay.rg x hx).2 hh).1 hx
      rw [(cold2 x hh).1, (cold2 x hh).2]; exact ⟨c1.symm, c2.symm⟩
  have nob2 : ∀ x, 0 ≤ x → x < n → ¬ O x → F2 .pe x < 0 := by
    intro x h0 h1 hx
    by_cases hh : hot x
    · rw [(hot2 x hh).2 hx]; omega
    · rw [(cold2 x hh).1]; exact (h.cold x h0 h1 hh).2 hx
  have lay2 : Lay n pme1 F2 O := by
    refine ⟨h.lay.rg, ?_, ?_⟩
    · intro x hx
      have := h.lay.pos x hx
      rw [(obj2 x hx).1, (obj2 x hx).2]; simpa using this
    · intro x y hx hy hxy
      have := h.lay.dj x y hx hy hxy
      rw [(obj2 x hx).1, (obj2 x hx).2, (obj2 y hy).1, (obj2 y hy).2]; simpa using this
  have hpf := h.pf
  have hp0 := h.p0
  refine wb (wp_post (compact_spec g2 lay2 (by omega) hp0 (by omega) (fun x h0 h1 => ?_) ?_) ?_)
  · constructor
    · intro hx; exact (lay2.pos x hx).1
    · intro hx
      by_contra hO
      have := nob2 x h0 h1 hO
      omega
  · intro p q0 q1
    rw [oth2 .iw (by decide) (by decide)]
    exact h.iw p q0 (by omega)
  · rintro ⟨s3, p1, pd⟩ ⟨c1, c2, c3, F3, hR3, G, c5, c4⟩
    dsimp only at c1 c2 c3 hR3 G c5 c4 ⊢
    rw [hR3.rdn .pe (by decide) he.1 he.2, ok_bind, hR3.rdn .pe (by decide) hme.1 hme.2, ok_bind]
    have hsum : psum n O (F2 .ln) = psum n O vl :=
      psum_congr (fun _ _ _ => Iff.rfl) fun x _ _ hx => (obj2 x hx).2
    have e3 : ∀ f, f ≠ .pe → f ≠ .iw → F3 f = F2 f := G.oth
    have eln : F3 .ln = F2 .ln := G.oth .ln (by decide) (by decide)
    have e2i : F2 .iw = F .iw := oth2 .iw (by decide) (by decide)
    have hs := h.sum
    have hs3 := G.sum
    rw [hsum] at hs3
    have hpd : pd = p1 + P.length := by omega
    have hshift : ∀ t, 0 ≤ t → t < (P.length : ℤ) → F3 .iw (p1 + t) = F .iw (pme1 + t) := by
      intro t h0 h1; rw [c4 t h0 (by omega), e2i]
    refine wpr ⟨show pd ≤ nz by omega, F3, F3 .pe, F3 .ln, hR3, ?_, fun _ => rfl, fun _ _ => rfl,
      show pd ≤ pfree by omega, ?_, ?_, ?_, ?_⟩
    · refine ⟨c1, ⟨h.lay.rg, by simpa using G.lay.pos, by simpa using G.lay.dj⟩, ?_, ?_, ?_, h.hotO,
        ?_, ?_, hpd⟩
      · intro x hx
        rw [← h.con x hx, ← (obj2 x hx).1, ← (obj2 x hx).2, eln]
        have hp := (lay2.pos x hx).2.1
        unfold seg
        apply List.map_congr_left
        intro t ht
        rw [List.mem_range] at ht
        rw [G.eq x hx t (by omega) (by omega), e2i]
      · rw [eln, hsum]; exact hs
      · intro x h0 h1 hh
        refine ⟨fun _ => ⟨rfl, rfl⟩, fun hx => ?_⟩
        rw [G.un x hx]; exact nob2 x h0 h1 hx
      · intro p q0 q1
        have q1 : p < pd := q1
        by_cases hp : p < p1
        · obtain ⟨q, r0, r1, r2⟩ := c5 p q0 hp
          rw [r2, e2i]; exact h.iw q r0 (by omega)
        · have := hshift (p - p1) (by omega) (by omega)
          rw [show p1 + (p - p1) = p by ring] at this
          rw [this]; exact h.iw _ (by omega) (by omega)
      · rw [← h.sP]
        rw [length_seg]
        unfold seg
        apply List.map_congr_left
        intro t ht
        rw [List.mem_range] at ht
        exact hshift t (by omega) (by omega)
    · intro f x1 x2 x3; rw [e3 f x1 x3, oth2 f x1 x2]
    · intro x hx hh; rw [G.un x hx, (cold2 x hh).1]
    · intro x hh; rw [eln, (cold2 x hh).2]
    · rw [eln]
      by_cases hme' : me = e
      · rw [hme', b2, hl]
      · rw [(b3 me hme').2, a2, (hm hme').1]

theorem seg_cons (A : ℤ → ℤ) (a : ℤ) {l : ℤ} (hl : 0 < l) :
    seg A a l = A a :: seg A (a + 1) (l - 1) := by
  unfold seg
  have : l.toNat = (l - 1).toNat + 1 := by omega
  rw [this, List.range_succ_eq_map, List.map_cons, List.map_map]
  congr 1
  · simp
  · apply List.map_congr_left
    intro t _
    simp only [Function.comp_apply, Nat.succ_eq_add_one]
    congr 1
    push_cast
    ring

theorem BM.mono {nz' : ℤ} (h : BM n nz hot O ct P pme1 pfree vp vl F) (hn : nz ≤ nz') :
    BM n nz' hot O ct P pme1 pfree vp vl F :=
  ⟨h.p0, h.lay, h.con, by have := h.sum; omega, h.cold, h.hotO, h.iw, h.sP, h.pf⟩

/-- The first entry of a hot object. -/
theorem BM.head (h : BM n nz hot O ct P pme1 pfree vp vl F) {e x : ℤ} {rest : List ℤ}
    (he : hot e) (hc : ct e = x :: rest) :
    O e ∧ 0 ≤ vp e ∧ vp e < pfree ∧ F .iw (vp e) = x := by
  have hO : O e := (h.hotO e he).2 (by rw [hc]; simp)
  obtain ⟨p1, p2, p3⟩ := h.lay.pos e hO
  rw [virt_pe, virt_ln] at *
  have := h.con e hO
  rw [seg_cons _ _ p2, hc] at this
  have hpf := h.pf
  exact ⟨hO, p1, by omega, (List.cons.inj this).1⟩

/-- The first entry of a hot object is read. -/
theorem BM.consume (h : BM n nz hot O ct P pme1 pfree vp vl F) {e x : ℤ} {rest : List ℤ}
    (he : hot e) (hc : ct e = x :: rest) :
    BM n (nz - 1) hot (fun y => O y ∧ (y = e → rest ≠ [])) (Function.update ct e rest) P pme1 pfree
      (Function.update vp e (vp e + 1)) (Function.update vl e (vl e - 1)) F := by
  obtain ⟨hO, q0, q1, q2⟩ := h.head he hc
  have hlen := h.len hO
  rw [hc] at hlen
  simp only [List.length_cons, Nat.cast_add, Nat.cast_one] at hlen
  have hpos := h.lay.pos
  have hdj := h.lay.dj
  simp only [virt_pe, virt_ln] at hpos hdj
  have hre := h.lay.rg e hO
  have upd1 : ∀ (f : ℤ → ℤ) v y, y ≠ e → Function.update f e v y = f y :=
    fun f v y hy => Function.update_of_ne hy _ _
  refine ⟨h.p0, ⟨fun y hy => h.lay.rg y hy.1, ?_, ?_⟩, ?_, ?_, ?_, ?_, h.iw, h.sP, h.pf⟩
  · rintro y ⟨hy, hne⟩
    have := hpos y hy
    simp only [virt_pe, virt_ln]
    by_cases hye : y = e
    · subst hye
      rw [Function.update_self, Function.update_self]
      have : 0 < rest.length := List.length_pos_iff.2 (hne rfl)
      omega
    · rw [upd1 _ _ _ hye, upd1 _ _ _ hye]; exact this
  · rintro y z ⟨hy, _⟩ ⟨hz, _⟩ hyz
    have := hdj y z hy hz hyz
    simp only [virt_pe, virt_ln]
    by_cases hye : y = e
    · subst hye
      rw [Function.update_self, Function.update_self, upd1 _ _ _ (Ne.symm hyz), upd1 _ _ _ (Ne.symm hyz)]
      omega
    · rw [upd1 _ _ _ hye, upd1 _ _ _ hye]
      by_cases hze : z = e
      · subst hze
        rw [Function.update_self, Function.update_self]
        omega
      · rw [upd1 _ _ _ hze, upd1 _ _ _ hze]; exact this
  · rintro y ⟨hy, hne⟩
    by_cases hye : y = e
    · subst hye
      rw [Function.update_self, Function.update_self, Function.update_self]
      have := h.con y hy
      rw [seg_cons _ _ (hpos y hy).2.1, hc] at this
      exact (List.cons.inj this).2
    · rw [upd1 _ _ _ hye, upd1 _ _ _ hye, Function.update_of_ne hye]; exact h.con y hy
  · have hs := h.sum
    rw [psum_erase hO hre.1 hre.2] at hs
    by_cases hr : rest = []
    · have : psum n (fun y => O y ∧ (y = e → rest ≠ [])) (Function.update vl e (vl e - 1)) =
          psum n (fun x => O x ∧ x ≠ e) vl :=
        psum_congr (fun y _ _ => by simp [hr]) fun y _ _ hy => upd1 _ _ _ fun h' => hy.2 h' hr
      have : 0 < vl e := (hpos e hO).2.1
      omega
    · rw [psum_erase (O := fun y => O y ∧ (y = e → rest ≠ [])) ⟨hO, fun _ => hr⟩ hre.1 hre.2,
        Function.update_self]
      have : psum n (fun y => (O y ∧ (y = e → rest ≠ [])) ∧ y ≠ e) (Function.update vl e (vl e - 1)) =
          psum n (fun x => O x ∧ x ≠ e) vl :=
        psum_congr (fun y _ _ => by tauto) fun y _ _ hy => upd1 _ _ _ hy.2
      omega
  · intro y h0 h1 hy
    have hye : y ≠ e := by rintro rfl; exact hy he
    obtain ⟨c1, c2⟩ := h.cold y h0 h1 hy
    rw [upd1 _ _ _ hye, upd1 _ _ _ hye]
    exact ⟨fun h' => c1 h'.1, fun h' => c2 fun h2 => h' ⟨h2, fun h3 => absurd h3 hye⟩⟩
  · intro y hy
    by_cases hye : y = e
    · subst hye
      rw [Function.update_self]
      exact ⟨fun h' => h'.2 rfl, fun h' => ⟨hO, fun _ => h'⟩⟩
    · rw [Function.update_of_ne hye]
      exact ⟨fun h' => (h.hotO y hy).1 h'.1, fun h' => ⟨(h.hotO y hy).2 h', fun h3 => absurd h3 hye⟩⟩

/-- A variable is added to the new element. -/
theorem BM.push (h : BM n (nz - 1) hot O ct P pme1 pfree vp vl F) {i : ℤ} (h0 : 0 ≤ i) (h1 : i < n) :
    BM n nz hot O ct (P ++ [i]) pme1 (pfree + 1) vp vl (set F .iw pfree i) := by
  have hpf := h.pf
  have hp0 := h.p0
  have hlen : ((P ++ [i]).length : ℤ) = P.length + 1 := by simp
  have hlow : ∀ p, p < pfree → set F .iw pfree i .iw p = F .iw p := fun p hp => by
    rw [set_nei _ _ _ _ (by omega)]
  have hpos := h.lay.pos
  simp only [virt_pe, virt_ln] at hpos
  refine ⟨h.p0, ⟨h.lay.rg, by simpa using h.lay.pos, by simpa using h.lay.dj⟩, ?_, ?_, ?_, h.hotO, ?_,
    ?_, by omega⟩
  · intro x hx
    rw [← h.con x hx]
    apply seg_congr
    intro p a b
    have := hpos x hx
    exact hlow p (by omega)
  · have := h.sum; omega
  · intro x a b c
    rw [set_ne _ (by decide), set_ne _ (by decide)]; exact h.cold x a b c
  · intro p a b
    by_cases hp : p = pfree
    · rw [hp, set_at]; exact ⟨h0, h1⟩
    · rw [hlow p (by omega)]; exact h.iw p a (by omega)
  · rw [hlen, seg_succ _ (by omega), ← hpf, set_at]
    congr 1
    rw [← h.sP, length_seg]
    apply seg_congr
    intro p a b
    exact hlow p (by omega)

/-- The variables of the new element are off the degree lists and have negative weights. -/
structure BL (n : ℤ) (F0 : Sh) (V : ℤ → Prop) (P : List ℤ) (rk : ℤ → ℕ) (F : Sh) : Prop where
  nv : ∀ x, F .nv x = if x ∈ P then -F0 .nv x else F0 .nv x
  dl : DL n F (fun x => V x ∧ x ∉ P) rk
  nd : P.Nodup
  pv : ∀ x ∈ P, V x
  dg : F .dg = F0 .dg
  el : F .el = F0 .el

variable {F0 : Sh} {V : ℤ → Prop} {rk : ℤ → ℕ}

theorem BL.congr {F' : Sh} (h : BL n F0 V P rk F)
    (hf : ∀ f, f ≠ .pe → f ≠ .ln → f ≠ .iw → f ≠ .w → F' f = F f) : BL n F0 V P rk F' := by
  refine ⟨?_, h.dl.congr (fun _ => Iff.rfl) ?_ ?_ ?_ ?_, h.nd, h.pv, ?_, ?_⟩
  · rw [hf .nv (by decide) (by decide) (by decide) (by decide)]; exact h.nv
  · rw [hf .hd (by decide) (by decide) (by decide) (by decide)]; intros; rfl
  · rw [hf .dg (by decide) (by decide) (by decide) (by decide)]; intros; rfl
  · rw [hf .la (by decide) (by decide) (by decide) (by decide)]; intros; rfl
  · rw [hf .nx (by decide) (by decide) (by decide) (by decide)]; intros; rfl
  · rw [hf .dg (by decide) (by decide) (by decide) (by decide)]; exact h.dg
  · rw [hf .el (by decide) (by decide) (by decide) (by decide)]; exact h.el

omit [Arith] in
/-- The weight of some of the variables of `V`. -/
theorem sum_le_of_sub {V : ℤ → Prop} {f : ℤ → ℤ} {P : List ℤ} (hnd : P.Nodup) (hP : ∀ x ∈ P, V x)
    (hV : ∀ x, V x → 0 ≤ x ∧ x < n ∧ 0 < f x) : 0 ≤ (P.map f).sum ∧ (P.map f).sum ≤ psum n V f := by
  rw [psum_list hnd fun c hc => ⟨(hV c (hP c hc)).1, (hV c (hP c hc)).2.1⟩]
  exact ⟨psum_nonneg fun x _ _ hx => (hV x (hP x hx)).2.2.le,
    psum_mono (fun x _ _ hx => hP x hx) (fun _ _ _ _ => le_rfl) fun x _ _ hx => (hV x hx).2.2.le⟩

theorem BL.length_le {me : ℤ} (h : BL n F0 V P rk F) (hV : ∀ x, V x → 0 ≤ x ∧ x < n ∧ x ≠ me)
    (hme : 0 ≤ me ∧ me < n) : (P.length : ℤ) + 1 ≤ n := by
  have hnd : (me :: P).Nodup := List.nodup_cons.2 ⟨fun h' => (hV me (h.pv me h')).2.2 rfl, h.nd⟩
  have hsub : (me :: P).toFinset ⊆ Finset.Ico 0 n := by
    intro x hx
    rw [List.mem_toFinset, List.mem_cons] at hx
    rw [Finset.mem_Ico]
    rcases hx with rfl | hx
    · exact hme
    · have := hV x (h.pv x hx); omega
  have := Finset.card_le_card hsub
  rw [List.toFinset_card_of_nodup hnd, Int.card_Ico] at this
  simp at this
  omega

end Slip.Amd
