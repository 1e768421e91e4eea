import Verif.Proof.ColAdd

/-!
# COLAMD: supercolumn detection
-/

namespace Slip.Colamd

set_option linter.unusedSectionVars false

variable [Arith]
variable {n m Al L : ℤ} {s : Mem} {F H : Sh} {P : List ℤ}

theorem cmpCols_spec (h : Rm n m Al L s F) : ∀ (k : ℕ) (a b : ℤ), 0 ≤ a → a + k ≤ L → 0 ≤ b →
    b + k ≤ L → ∃ v, cmpCols a b k s = .ok v ∧ (v = true → seg (F .A) a k = seg (F .A) b k) := by
  intro k
  induction k with
  | zero => intro a b _ _ _ _; exact ⟨true, rfl, fun _ => by simp⟩
  | succ k ih =>
    intro a b ha ha' hb hb'
    push_cast at ha' hb'
    rw [cmpCols, h.rd (f := .A) (show 0 ≤ a ∧ a < L from ⟨ha, by omega⟩), ok_bind,
      h.rd (f := .A) (show 0 ≤ b ∧ b < L from ⟨hb, by omega⟩), ok_bind]
    by_cases hx : F .A a = F .A b
    · rw [if_neg (by simpa using hx)]
      obtain ⟨v, hv, hv'⟩ := ih (a + 1) (b + 1) (by omega) (by omega) (by omega) (by omega)
      refine ⟨v, hv, fun hh => ?_⟩
      have := hv' hh
      apply List.ext_getElem (by simp)
      intro i h1 h2
      simp only [length_seg] at h1
      simp only [seg, List.getElem_map, List.getElem_range]
      rcases i with _ | i
      · simpa using hx
      · have := seg_ext this (t := i) (by omega) (by push_cast at h1; omega)
        push_cast
        rw [show a + (↑i + 1) = a + 1 + ↑i by ring, show b + (↑i + 1) = b + 1 + ↑i by ring]
        exact this
    · rw [if_pos hx]
      exact ⟨false, rfl, by simp⟩

/-- Column `c` is absorbed by column `sc`. -/
def mrg (F : Sh) (sc c : ℤ) : Sh :=
  set (set (set (set F .c1 sc (F .c1 sc + F .c1 c)) .c1 c sc) .cs c (-2)) .c2 c (-1)

theorem mrg_ne {sc c : ℤ} {f : Fld} (h1 : f ≠ .c1) (h2 : f ≠ .cs) (h3 : f ≠ .c2) :
    mrg F sc c f = F f := by
  unfold mrg; rw [set_ne _ h3, set_ne _ h2, set_ne _ h1, set_ne _ h1]

theorem mrg_cs {sc c x : ℤ} : mrg F sc c .cs x = if x = c then -2 else F .cs x := by
  unfold mrg
  rw [set_ne _ (by decide), set_apply, set_ne _ (by decide), set_ne _ (by decide)]
  simp

theorem mrg_c2 {sc c x : ℤ} : mrg F sc c .c2 x = if x = c then -1 else F .c2 x := by
  unfold mrg
  rw [set_apply, set_ne _ (by decide), set_ne _ (by decide), set_ne _ (by decide)]
  simp

theorem mrg_c1 {sc c x : ℤ} : mrg F sc c .c1 x =
    if x = c then sc else if x = sc then F .c1 sc + F .c1 c else F .c1 x := by
  unfold mrg
  rw [set_ne _ (by decide), set_ne _ (by decide), set_apply, set_apply]
  simp

theorem Gh.merge {n2 k : ℤ} {piv : ℤ} {root : ℤ → ℤ} {e : ℤ → ℕ}
    (h : Gh n n2 k F (fun x => F .cs x = -1 ∨ x = piv) root e) {sc c : ℤ} (hs : CA n F sc)
    (hc : CA n F c) (hne : sc ≠ c) (hsp : sc ≠ piv) (hcp : c ≠ piv) (ht : 1 ≤ F .c1 sc) :
    Gh n n2 k (mrg F sc c) (fun x => mrg F sc c .cs x = -1 ∨ x = piv)
      (fun x => if root x = c then sc else root x)
      (fun x => if root x = c then e x + 1 else e x) := by
  obtain ⟨a1, a2, a3, a4, a5, a6, a7, a8, a9, a10⟩ := h
  obtain ⟨s0, s1, s2⟩ := hs
  obtain ⟨c0, c1, c2⟩ := hc
  have rc : root c = c := a2 c c0 c1 (by omega)
  have rsc : root sc = sc := a2 sc s0 s1 (by omega)
  constructor
  · intro x x0 x1
    obtain ⟨u, v, w⟩ := a1 x x0 x1
    rw [mrg_cs]
    by_cases p1 : root x = c
    · rw [if_pos p1, if_neg hne]
      exact ⟨s0, s1, by omega⟩
    · rw [if_neg p1, if_neg p1]
      exact ⟨u, v, w⟩
  · intro x x0 x1 hx
    rw [mrg_cs] at hx
    by_cases hxc : x = c
    · simp [hxc] at hx
    · rw [if_neg hxc] at hx
      have := a2 x x0 x1 hx
      rw [if_neg (by rw [this]; exact hxc), this]
  · intro x x0 x1 hx
    rw [mrg_cs] at hx
    by_cases hxc : x = c
    · subst hxc
      rw [mrg_c1, mrg_c2, if_pos rfl, if_pos rfl, rsc, rc, if_neg hne, if_neg hne, if_pos rfl,
        if_pos rfl, a10 sc s0 s1 (by omega)]
      exact ⟨s0, s1, rfl, by omega, rfl⟩
    · rw [if_neg hxc] at hx
      have hxs : x ≠ sc := by rintro rfl; omega
      obtain ⟨u, v, w, y, z⟩ := a3 x x0 x1 hx
      rw [mrg_c1, mrg_c2, if_neg hxc, if_neg hxc, if_neg hxs, w]
      refine ⟨u, v, rfl, ?_, z⟩
      split_ifs <;> omega
  · intro x x0 x1
    have := a4 x x0 x1
    rw [mrg_c1]
    by_cases hxc : root x = c
    · rw [if_pos hxc, if_pos hxc, if_neg hne, if_pos rfl]
      rw [hxc] at this
      push_cast; omega
    · rw [if_neg hxc, if_neg hxc, if_neg hxc]
      split_ifs with p1
      · rw [p1] at this
        have := a4 c c0 c1
        rw [rc] at this
        omega
      · exact this
  · intro y y0 y1 hy
    rw [mrg_cs] at hy
    by_cases hyc : y = c
    · simp [hyc] at hy
    · rw [if_neg hyc] at hy
      rw [mrg_c1, if_neg hyc]
      by_cases hys : y = sc
      · subst hys
        rw [if_pos rfl, ← a5 y y0 y1 hy, ← a5 c c0 c1 (by omega)]
        have : ((Finset.Ico 0 n).filter fun x => (if root x = c then y else root x) = y)
            = ((Finset.Ico 0 n).filter fun x => root x = y) ∪
              ((Finset.Ico 0 n).filter fun x => root x = c) := by
          ext x
          simp only [Finset.mem_filter, Finset.mem_union]
          split_ifs with p <;> tauto
        rw [this, Finset.card_union_of_disjoint]
        · push_cast; rfl
        · rw [Finset.disjoint_filter]
          intro x _ h1 h2
          exact hne (h1.symm.trans h2)
      · rw [if_neg hys, ← a5 y y0 y1 hy]
        congr 2
        ext x
        simp only [Finset.mem_filter]
        have : (if root x = c then sc else root x) = y ↔ root x = y := by
          split_ifs with p
          · constructor
            · intro hh; exact absurd hh.symm hys
            · intro hh; exact absurd (hh.symm.trans p) hyc
          · exact Iff.rfl
        tauto
  · intro x x0 x1 hx
    rw [mrg_cs] at hx
    have hxc : x ≠ c := by
      rintro rfl
      rw [if_pos rfl] at hx
      rcases hx with hx | hx
      · omega
      · exact hcp hx
    rw [if_neg hxc] at hx
    have hxs : x ≠ sc := by
      rintro rfl
      rcases hx with hx | hx
      · omega
      · exact hsp hx
    rw [mrg_cs, mrg_c1, mrg_c2, if_neg hxc, if_neg hxc, if_neg hxc, if_neg hxs]
    exact a6 x x0 x1 hx
  · have key : ∀ x, 0 ≤ x → x < n → (mrg F sc c .cs x = -1 ∨ x = piv) → x ≠ c ∧ x ≠ sc ∧
        (F .cs x = -1 ∨ x = piv) := by
      intro x x0 x1 hx
      rw [mrg_cs] at hx
      have hxc : x ≠ c := by
        rintro rfl
        rw [if_pos rfl] at hx
        rcases hx with hx | hx
        · omega
        · exact hcp hx
      rw [if_neg hxc] at hx
      refine ⟨hxc, ?_, hx⟩
      rintro rfl
      rcases hx with hx | hx
      · omega
      · exact hsp hx
    intro x y x0 x1 hx y0 y1 hy hxy
    obtain ⟨x2, x3, x4⟩ := key x x0 x1 hx
    obtain ⟨y2, y3, y4⟩ := key y y0 y1 hy
    rw [mrg_c1, mrg_c1, mrg_c2, mrg_c2, if_neg x2, if_neg x2, if_neg x3, if_neg y2, if_neg y2,
      if_neg y3]
    exact a7 x y x0 x1 x4 y0 y1 y4 hxy
  · intro x x0 x1
    rw [mrg_cs]
    split_ifs
    · omega
    · exact a8 x x0 x1
  · exact a9
  · intro x x0 x1 hx
    rw [mrg_cs] at hx
    by_cases hxc : x = c
    · simp [hxc] at hx
    · rw [if_neg hxc] at hx
      have := a2 x x0 x1 hx
      rw [if_neg (by rw [this]; exact hxc)]
      exact a10 x x0 x1 hx

theorem Gh.same {n2 k piv : ℤ} {root : ℤ → ℤ} {e : ℤ → ℕ} {F' : Sh}
    (h : Gh n n2 k F (fun x => F .cs x = -1 ∨ x = piv) root e) (hs : F' .cs = F .cs)
    (h1 : F' .c1 = F .c1) (h2 : F' .c2 = F .c2) :
    Gh n n2 k F' (fun x => F' .cs x = -1 ∨ x = piv) root e := by
  refine h.congr le_rfl h.kn.2.1 ?_ ?_ ?_ ?_
  · intro c c0 c1; rw [hs]; exact ⟨Iff.rfl, h.kd c c0 c1⟩
  · intro c _ _; rw [h1]
  · intro c _ _ hc; rwa [hs] at hc
  · intro c _ _ _; rw [h2]

/-- The state `F` during supercolumn detection, compared with the state `H` before; `P` is the
pivot row. -/
structure MI (n L : ℤ) (H : Sh) (P : List ℤ) (F : Sh) : Prop where
  rg : ∀ c ∈ P, 0 ≤ c ∧ c < n ∧ (0 ≤ H .cs c → 0 ≤ H .cl c ∧ H .cs c + H .cl c ≤ L)
  eq : ∀ f, f ≠ .p → f ≠ .cs → f ≠ .c1 → f ≠ .c2 → f ≠ .c3 → f ≠ .c4 → F f = H f
  o : ∀ c, c ∉ P → F .cs c = H .cs c ∧ F .c1 c = H .c1 c ∧ F .c2 c = H .c2 c
  i : ∀ c ∈ P, (F .cs c = H .cs c ∧ F .c2 c = H .c2 c ∧ (0 ≤ H .cs c → 1 ≤ F .c1 c)) ∨
    (0 ≤ H .cs c ∧ F .cs c = -2)
  t : ∀ (Q : ℤ → Prop) [DecidablePred Q],
    (∀ c ∈ P, ∀ c' ∈ P, 0 ≤ H .cs c → 0 ≤ H .cs c' → colL H c = colL H c' → (Q c ↔ Q c')) →
    tsum n F (fun c => 0 ≤ F .cs c ∧ Q c) = tsum n H (fun c => 0 ≤ H .cs c ∧ Q c)

theorem MI.alive (h : MI n L H P F) {c : ℤ} (hc : c ∈ P) (ha : 0 ≤ F .cs c) :
    F .cs c = H .cs c ∧ F .c2 c = H .c2 c ∧ 1 ≤ F .c1 c ∧ 0 ≤ H .cs c ∧ 0 ≤ H .cl c ∧
      H .cs c + H .cl c ≤ L := by
  rcases h.i c hc with ⟨a, b, d⟩ | ⟨a, b⟩
  · have e : 0 ≤ H .cs c := by omega
    have := (h.rg c hc).2.2 e
    exact ⟨a, b, d e, e, this.1, this.2⟩
  · omega

theorem MI.congr {F' : Sh} (h : MI n L H P F)
    (he : ∀ f, f ≠ .p → f ≠ .c3 → f ≠ .c4 → F' f = F f) : MI n L H P F' := by
  have ecs := he .cs (by decide) (by decide) (by decide)
  have ec1 := he .c1 (by decide) (by decide) (by decide)
  have ec2 := he .c2 (by decide) (by decide) (by decide)
  constructor
  · exact h.rg
  · intro f f1 f2 f3 f4 f5 f6; rw [he f f1 f5 f6]; exact h.eq f f1 f2 f3 f4 f5 f6
  · rw [ecs, ec1, ec2]; exact h.o
  · rw [ecs, ec1, ec2]; exact h.i
  · intro Q _ hQ
    rw [← h.t Q hQ]
    unfold tsum
    simp only [ecs, ec1]

theorem MI.merge (h : MI n L H P F) {sc c : ℤ} (hs : sc ∈ P) (hc : c ∈ P) (ha : 0 ≤ F .cs sc)
    (hb : 0 ≤ F .cs c) (hne : sc ≠ c) (he : colL H sc = colL H c) : MI n L H P (mrg F sc c) := by
  obtain ⟨u1, u2, u3, u4, u5, u6⟩ := h.alive hs ha
  obtain ⟨v1, v2, v3, v4, v5, v6⟩ := h.alive hc hb
  have hsr := h.rg sc hs
  have hcr := h.rg c hc
  constructor
  · exact h.rg
  · intro f f1 f2 f3 f4 f5 f6; rw [mrg_ne f3 f2 f4]; exact h.eq f f1 f2 f3 f4 f5 f6
  · intro x hx
    have x1 : x ≠ c := by rintro rfl; exact hx hc
    have x2 : x ≠ sc := by rintro rfl; exact hx hs
    rw [mrg_cs, mrg_c1, mrg_c2, if_neg x1, if_neg x1, if_neg x1, if_neg x2]
    exact h.o x hx
  · intro x hx
    rw [mrg_cs, mrg_c1, mrg_c2]
    by_cases hxc : x = c
    · subst hxc; right; simpa using v4
    · rw [if_neg hxc, if_neg hxc, if_neg hxc]
      rcases h.i x hx with ⟨a, b, d⟩ | hh
      · left
        refine ⟨a, b, fun hh => ?_⟩
        split_ifs
        · omega
        · exact d hh
      · right; exact hh
  · intro Q _ hQ
    rw [← h.t Q hQ]
    have hq := hQ sc hs c hc u4 v4 he
    unfold tsum
    have key : ∀ x ∈ Finset.Ico 0 n,
        (if 0 ≤ mrg F sc c .cs x ∧ Q x then mrg F sc c .c1 x else 0)
        = (if 0 ≤ F .cs x ∧ Q x then F .c1 x else 0)
          + (if x = sc then (if Q sc then F .c1 c else 0) else 0)
          - (if x = c then (if Q sc then F .c1 c else 0) else 0) := by
      intro x _
      rw [mrg_cs, mrg_c1]
      by_cases hxc : x = c
      · subst hxc
        rw [if_pos rfl, if_neg (by omega), if_neg (Ne.symm hne), if_pos rfl]
        by_cases hq1 : Q x
        · rw [if_pos ⟨hb, hq1⟩, if_pos (hq.2 hq1)]; ring
        · rw [if_neg (by tauto), if_neg (by tauto)]; ring
      · rw [if_neg hxc, if_neg hxc, if_neg hxc]
        by_cases hxs : x = sc
        · subst hxs
          rw [if_pos rfl, if_pos rfl]
          by_cases hq1 : Q x
          · rw [if_pos ⟨ha, hq1⟩, if_pos ⟨ha, hq1⟩, if_pos hq1]; ring
          · rw [if_neg (by tauto), if_neg (by tauto), if_neg hq1]; ring
        · rw [if_neg hxs, if_neg hxs]; ring
    rw [Finset.sum_congr rfl key, Finset.sum_sub_distrib, Finset.sum_add_distrib,
      Finset.sum_ite_eq' , Finset.sum_ite_eq', if_pos (Finset.mem_Ico.2 ⟨hsr.1, hsr.2.1⟩),
      if_pos (Finset.mem_Ico.2 ⟨hcr.1, hcr.2.1⟩)]
    ring

/-- The columns that follow in the bucket. -/
theorem superInner_spec {n2 k piv : ℤ} (hp : piv ∉ P) {sc : ℤ} (hs : sc ∈ P) :
    ∀ (l : List ℤ) (fuel : ℕ) (prev c : ℤ) (s : Mem) (F : Sh) (root : ℤ → ℤ) (e : ℤ → ℕ),
    l.length < fuel → Rm n m Al L s F → MI n L H P F →
    Gh n n2 k F (fun x => F .cs x = -1 ∨ x = piv) root e → 0 ≤ F .cs sc →
    Ch (F .c4) c l → F .c4 prev = c → 0 ≤ prev → prev < n → (prev :: l).Nodup → sc ∉ l →
    (∀ x ∈ l, x ∈ P ∧ 0 ≤ F .cs x) →
    ∃ s' F' l' root' e', superInner sc fuel prev c s = .ok s' ∧ Rm n m Al L s' F' ∧
      MI n L H P F' ∧ Gh n n2 k F' (fun x => F' .cs x = -1 ∨ x = piv) root' e' ∧
      List.Sublist l' l ∧ Ch (F' .c4) (F' .c4 prev) l' ∧
      (∀ x ∈ l', 0 ≤ F' .cs x) ∧ (∀ x, x ∉ l → F' .cs x = F .cs x) ∧
      (∀ x, x ≠ prev → x ∉ l → F' .c4 x = F .c4 x) ∧ F' .p = F .p ∧ F' .c3 = F .c3 := by
  intro l
  induction l with
  | nil =>
    intro fuel prev c s F root e hf hR hM hG ha hch hpc p0 p1 hnd hsl hl
    obtain ⟨fuel, rfl⟩ : ∃ f, fuel = f + 1 := ⟨fuel - 1, by simp at hf; omega⟩
    have hc : c = -1 := hch
    subst hc
    rw [superInner, if_pos rfl]
    exact ⟨s, F, [], root, e, rfl, hR, hM, hG, List.Sublist.refl _, hpc, by simp, fun _ _ => rfl,
      fun _ _ _ => rfl, rfl, rfl⟩
  | cons y l ih =>
    intro fuel prev c s F root e hf hR hM hG ha hch hpc p0 p1 hnd hsl hl
    obtain ⟨fuel, rfl⟩ : ∃ f, fuel = f + 1 := ⟨fuel - 1, by simp at hf; omega⟩
    obtain ⟨rfl, hc1, hch⟩ := hch
    have hf : l.length < fuel := by simpa using hf
    obtain ⟨hcP, hca⟩ := hl c (by simp)
    have hcr := hM.rg c hcP
    have hsr := hM.rg sc hs
    obtain ⟨u1, u2, u3, u4, u5, u6⟩ := hM.alive hs ha
    obtain ⟨v1, v2, v3, v4, v5, v6⟩ := hM.alive hcP hca
    have ecl : F .cl = H .cl := hM.eq .cl (by decide) (by decide) (by decide) (by decide)
      (by decide) (by decide)
    have eA : F .A = H .A := hM.eq .A (by decide) (by decide) (by decide) (by decide)
      (by decide) (by decide)
    have hsc : sc ≠ c := by rintro rfl; simp at hsl
    have hsl' : sc ∉ l := by simp at hsl; tauto
    have hpcne : prev ≠ c := by rintro rfl; simp at hnd
    have hpl : prev ∉ l := by simp at hnd; tauto
    have hcl : c ∉ l := by simp at hnd; tauto
    have hln : l.Nodup := by simp at hnd; tauto
    have skip : ∃ s' F' l' root' e', superInner sc fuel c (F .c4 c) s = .ok s' ∧ Rm n m Al L s' F' ∧
      MI n L H P F' ∧ Gh n n2 k F' (fun x => F' .cs x = -1 ∨ x = piv) root' e' ∧
      List.Sublist l' (c :: l) ∧ Ch (F' .c4) (F' .c4 prev) l' ∧
      (∀ x ∈ l', 0 ≤ F' .cs x) ∧ (∀ x, x ∉ c :: l → F' .cs x = F .cs x) ∧
      (∀ x, x ≠ prev → x ∉ c :: l → F' .c4 x = F .c4 x) ∧ F' .p = F .p ∧ F' .c3 = F .c3 := by
      obtain ⟨s', F', l', root', e', w1, w2, w3, w4, w5, w6, w7, w8, w9, w10, w11⟩ :=
        ih fuel c (F .c4 c) s F root e hf hR hM hG ha hch rfl hcr.1 hcr.2.1
          (List.nodup_cons.2 ⟨hcl, hln⟩) hsl' (fun x hx => hl x (by simp [hx]))
      refine ⟨s', F', c :: l', root', e', w1, w2, w3, w4, w5.cons_cons c, ?_, ?_, ?_, ?_, w10, w11⟩
      · rw [w9 prev hpcne hpl, hpc]
        exact ⟨rfl, hc1, w6⟩
      · intro x hx
        rcases List.mem_cons.1 hx with rfl | hx
        · rw [w8 x hcl]; exact hca
        · exact w7 x hx
      · intro x hx; exact w8 x (by simp at hx; tauto)
      · intro x _ hx; exact w9 x (by simp at hx; tauto) (by simp at hx; tauto)
    rw [superInner, if_neg hc1,
      hR.rd (f := .cl) (show 0 ≤ sc ∧ sc < n from ⟨hsr.1, hsr.2.1⟩), ok_bind,
      hR.rd (f := .cl) (show 0 ≤ c ∧ c < n from ⟨hcr.1, hcr.2.1⟩), ok_bind,
      hR.rd (f := .c2) (show 0 ≤ c ∧ c < n from ⟨hcr.1, hcr.2.1⟩), ok_bind,
      hR.rd (f := .c2) (show 0 ≤ sc ∧ sc < n from ⟨hsr.1, hsr.2.1⟩), ok_bind,
      hR.rd (f := .c4) (show 0 ≤ c ∧ c < n from ⟨hcr.1, hcr.2.1⟩), ok_bind]
    by_cases hd : F .cl c ≠ F .cl sc ∨ F .c2 c ≠ F .c2 sc
    · rw [if_pos hd]; exact skip
    · rw [if_neg hd,
        hR.rd (f := .cs) (show 0 ≤ sc ∧ sc < n from ⟨hsr.1, hsr.2.1⟩), ok_bind,
        hR.rd (f := .cs) (show 0 ≤ c ∧ c < n from ⟨hcr.1, hcr.2.1⟩), ok_bind]
      push Not at hd
      have hlen : H .cl c = H .cl sc := by rw [← ecl]; exact hd.1
      obtain ⟨v, hv, hv'⟩ := cmpCols_spec hR (F .cl sc).toNat (F .cs sc) (F .cs c) ha
        (by rw [ecl, u1]; omega) hca (by rw [ecl, v1]; omega)
      rw [hv, ok_bind]
      rcases v with _ | _
      · exact skip
      · have hseg := hv' rfl
        have hcol : colL H sc = colL H c := by
          unfold colL
          rw [hlen, ← u1, ← v1, ← eA]
          rw [ecl] at hseg
          rwa [Int.toNat_of_nonneg u5] at hseg
        simp only [Bool.not_true, Bool.false_eq_true, if_false]
        rw [hR.rd (f := .c1) (show 0 ≤ sc ∧ sc < n from ⟨hsr.1, hsr.2.1⟩), ok_bind,
          hR.rd (f := .c1) (show 0 ≤ c ∧ c < n from ⟨hcr.1, hcr.2.1⟩), ok_bind]
        have t1 := hG.c1_le hsr.1 hsr.2.1 (by omega)
        have t2 := hG.c1_le hcr.1 hcr.2.1 (by omega)
        cks hR
        obtain ⟨s1, e1, g1⟩ := hR.wr (f := .c1) (i := sc) ⟨hsr.1, hsr.2.1⟩ (F .c1 sc + F .c1 c)
        rw [e1, ok_bind]
        obtain ⟨s2, e2, g2⟩ := g1.wr (f := .c1) (i := c) ⟨hcr.1, hcr.2.1⟩ sc
        rw [e2, ok_bind]
        obtain ⟨s3, e3, g3⟩ := g2.wr (f := .cs) (i := c) ⟨hcr.1, hcr.2.1⟩ (-2)
        rw [e3, ok_bind]
        obtain ⟨s4, e4, g4⟩ := g3.wr (f := .c2) (i := c) ⟨hcr.1, hcr.2.1⟩ (-1)
        rw [e4, ok_bind]
        obtain ⟨s5, e5, g5⟩ := g4.wr (f := .c4) (i := prev) ⟨p0, p1⟩ (F .c4 c)
        rw [e5, ok_bind]
        have g5 : Rm n m Al L s5 (set (mrg F sc c) .c4 prev (F .c4 c)) := g5
        have hcs' : ∀ x, set (mrg F sc c) .c4 prev (F .c4 c) .cs x = if x = c then -2 else F .cs x := by
          intro x; rw [set_ne _ (by decide), mrg_cs]
        have hc4' : ∀ x, set (mrg F sc c) .c4 prev (F .c4 c) .c4 x
            = if x = prev then F .c4 c else F .c4 x := by
          intro x; rw [set_apply, mrg_ne (by decide) (by decide) (by decide)]; simp
        have hM' := (hM.merge hs hcP ha hca hsc hcol).congr
          (F' := set (mrg F sc c) .c4 prev (F .c4 c)) (fun f _ _ f3 => set_ne _ f3 _ _)
        have hG' := hG.merge (sc := sc) (c := c) ⟨hsr.1, hsr.2.1, ha⟩ ⟨hcr.1, hcr.2.1, hca⟩ hsc
          (by rintro rfl; exact hp hs) (by rintro rfl; exact hp hcP) u3
        have hG'' := hG'.same (F' := set (mrg F sc c) .c4 prev (F .c4 c)) (set_ne _ (by decide) _ _)
          (set_ne _ (by decide) _ _) (set_ne _ (by decide) _ _)
        obtain ⟨s', F', l', root', e', w1, w2, w3, w4, w5, w6, w7, w8, w9, w10, w11⟩ :=
          ih fuel prev (F .c4 c) s5 _ _ _ hf g5 hM' hG'' (by rw [hcs', if_neg hsc]; exact ha)
            (hch.congr fun x hx => by rw [hc4', if_neg (by rintro rfl; exact hpl hx)])
            (by rw [hc4', if_pos rfl]) p0 p1 (List.nodup_cons.2 ⟨hpl, hln⟩) hsl'
            (fun x hx => by
              rw [hcs', if_neg (by rintro rfl; exact hcl hx)]
              exact hl x (by simp [hx]))
        · refine ⟨s', F', l', root', e', w1, w2, w3, w4, w5.cons c, w6, w7, ?_, ?_, ?_, ?_⟩
          · intro x hx
            rw [List.mem_cons, not_or] at hx
            rw [w8 x hx.2, hcs', if_neg hx.1]
          · intro x hxp hx
            rw [List.mem_cons, not_or] at hx
            rw [w9 x hxp hx.2, hc4', if_neg hxp]
          · rw [w10, set_ne _ (by decide), mrg_ne (by decide) (by decide) (by decide)]
          · rw [w11, set_ne _ (by decide), mrg_ne (by decide) (by decide) (by decide)]

/-- The columns of a bucket. -/
theorem superOuter_spec {n2 k piv : ℤ} (hp : piv ∉ P) {K : ℕ} : ∀ (fuel : ℕ) (l : List ℤ) (c : ℤ)
    (s : Mem) (F : Sh) (root : ℤ → ℤ) (e : ℤ → ℕ),
    l.length < fuel → l.length < K → Rm n m Al L s F → MI n L H P F →
    Gh n n2 k F (fun x => F .cs x = -1 ∨ x = piv) root e →
    Ch (F .c4) c l → l.Nodup → (∀ x ∈ l, x ∈ P ∧ 0 ≤ F .cs x) →
    ∃ s' F' root' e', superOuter K fuel c s = .ok s' ∧ Rm n m Al L s' F' ∧
      MI n L H P F' ∧ Gh n n2 k F' (fun x => F' .cs x = -1 ∨ x = piv) root' e' ∧
      (∀ x, x ∉ l → F' .cs x = F .cs x) ∧ (∀ x, x ∉ l → F' .c4 x = F .c4 x) ∧
      F' .p = F .p ∧ F' .c3 = F .c3 := by
  intro fuel
  induction fuel with
  | zero => intro l c s F root e hf; omega
  | succ fuel ih =>
    intro l c s F root e hf hK hR hM hG hch hnd hl
    rcases l with _ | ⟨y, l⟩
    · have hc : c = -1 := hch
      subst hc
      rw [superOuter, if_pos rfl]
      exact ⟨s, F, root, e, rfl, hR, hM, hG, fun _ _ => rfl, fun _ _ => rfl, rfl, rfl⟩
    · obtain ⟨rfl, hc1, hch⟩ := hch
      obtain ⟨hcP, hca⟩ := hl c (by simp)
      have hcr := hM.rg c hcP
      obtain ⟨hcl, hln⟩ := List.nodup_cons.1 hnd
      rw [superOuter, if_neg hc1, hR.rd (f := .c4) (show 0 ≤ c ∧ c < n from ⟨hcr.1, hcr.2.1⟩),
        ok_bind]
      simp only [List.length_cons] at hf hK
      obtain ⟨s1, F1, l1, root1, e1, w1, w2, w3, w4, w5, w6, w7, w8, w9, w10, w11⟩ :=
        superInner_spec hp hcP l K c (F .c4 c) s F root e (by omega) hR hM hG hca hch rfl hcr.1
          hcr.2.1 hnd hcl (fun x hx => hl x (by simp [hx]))
      rw [w1, ok_bind, w2.rd (f := .c4) (show 0 ≤ c ∧ c < n from ⟨hcr.1, hcr.2.1⟩), ok_bind]
      have hlen := w5.length_le
      obtain ⟨s2, F2, root2, e2, y1, y2, y3, y4, y5, y6, y7, y8⟩ := ih l1 (F1 .c4 c) s1 F1 root1 e1
        (by omega) (by omega) w2 w3 w4 w6 (w5.nodup hln)
        (fun x hx => ⟨(hl x (by simp [w5.subset hx])).1, w7 x hx⟩)
      refine ⟨s2, F2, root2, e2, y1, y2, y3, y4, ?_, ?_, by rw [y7, w10], by rw [y8, w11]⟩
      · intro x hx
        rw [List.mem_cons, not_or] at hx
        rw [y5 x fun hh => hx.2 (w5.subset hh), w8 x hx.2]
      · intro x hx
        rw [List.mem_cons, not_or] at hx
        rw [y6 x fun hh => hx.2 (w5.subset hh), w9 x hx.1 hx.2]

/-- The state between two columns of the pivot row: `pre` are done. -/
structure DS (n m Al L n2 k piv : ℤ) (G H : Sh) (P pre : List ℤ) (S : ℤ → Prop) (s : Mem) (F : Sh)
    (bk : ℤ → List ℤ) (root : ℤ → ℤ) (e : ℤ → ℕ) : Prop where
  rp : Rm n m Al L s F
  mi : MI n L H P F
  gh : Gh n n2 k F (fun x => F .cs x = -1 ∨ x = piv) root e
  hb : HB n G F S bk
  bp : ∀ h, 0 ≤ h → h ≤ n → ∀ x ∈ bk h, x ∈ P ∧ x ∉ pre ∧ 0 ≤ F .cs x
  c3 : ∀ c ∈ P, 0 ≤ H .cs c → 0 ≤ F .c3 c ∧ F .c3 c ≤ n

theorem superCol_spec {n2 k piv pf0 : ℤ} {G : Sh} {S : ℤ → Prop} {rk : ℤ → ℕ} {bk : ℤ → List ℤ}
    {root : ℤ → ℤ} {e : ℤ → ℕ} {pre post : List ℤ} {x : ℤ}
    (hP : P = pre ++ x :: post) (hp : piv ∉ P) (hA : H .A (pf0 + pre.length) = x)
    (h0 : 0 ≤ pf0) (hL : pf0 + P.length ≤ L) (hd : DL n G S rk) (hPS : ∀ c ∈ P, ¬ S c)
    (h : DS n m Al L n2 k piv G H P pre S s F bk root e) :
    ∃ s' F' bk' root' e', superCol n (pf0 + pre.length) s = .ok s' ∧
      DS n m Al L n2 k piv G H P (pre ++ [x]) S s' F' bk' root' e' := by
  obtain ⟨hR, hM, hG, hB, hbp, hc3⟩ := h
  have hxP : x ∈ P := by rw [hP]; simp
  have hxr := hM.rg x hxP
  have eA : F .A = H .A := hM.eq .A (by decide) (by decide) (by decide) (by decide)
    (by decide) (by decide)
  have hPl : (pre.length : ℤ) < P.length := by rw [hP]; simp
  unfold superCol
  rw [hR.rd (f := .A) (show 0 ≤ pf0 + ↑pre.length ∧ pf0 + ↑pre.length < L from
    ⟨by omega, by omega⟩), ok_bind, eA, hA,
    hR.rd (f := .cs) (show 0 ≤ x ∧ x < n from ⟨hxr.1, hxr.2.1⟩), ok_bind]
  by_cases hx : F .cs x < 0
  · rw [if_pos hx]
    refine ⟨s, F, bk, root, e, rfl, hR, hM, hG, hB, ?_, hc3⟩
    intro h h0 h1 y hy
    obtain ⟨a, b, c⟩ := hbp h h0 h1 y hy
    refine ⟨a, ?_, c⟩
    rw [List.mem_append, List.mem_singleton, not_or]
    exact ⟨b, by rintro rfl; omega⟩
  · have hx : 0 ≤ F .cs x := by omega
    obtain ⟨u1, u2, u3, u4, u5, u6⟩ := hM.alive hxP hx
    obtain ⟨k0, k1⟩ := hc3 x hxP u4
    obtain ⟨v1, v2, v3⟩ := hB.head_val hd k0 k1
    rw [if_neg (by omega), hR.rd (f := .c3) (show 0 ≤ x ∧ x < n from ⟨hxr.1, hxr.2.1⟩), ok_bind,
      hR.rd (f := .p) (show 0 ≤ F .c3 x ∧ F .c3 x < n + 1 from ⟨k0, by omega⟩), ok_bind]
    have hfirst : (if F .p (F .c3 x) > -1 then s.rd .c3 (F .p (F .c3 x))
        else do
          let t ← ck (F .p (F .c3 x) + 2)
          ck (-t) : C ℤ) = .ok (bf (G .p) F (F .c3 x)) := by
      have hfb := hB.first k0 k1 (by omega)
      unfold bf at hfb ⊢
      by_cases hh : G .p (F .c3 x) > -1
      · obtain ⟨e1, e2, _⟩ := v2 hh
        have hr := hd.rg _ e2
        rw [if_pos (v1.2 hh), if_pos hh, e1,
          hR.rd (f := .c3) (show 0 ≤ G .p (F .c3 x) ∧ G .p (F .c3 x) < n from ⟨hr.1, hr.2.1⟩)]
      · rw [if_neg hh] at hfb
        rw [if_neg (fun h' => hh (v1.1 h')), if_neg hh]
        cks hR
        rw [Rp.ck hR (by intros; omega)]
    rw [hfirst, ok_bind]
    have hbl : (bk (F .c3 x)).length < n.toNat + 1 := by
      have hsub : bk (F .c3 x) ⊆ (List.range n.toNat).map fun i : ℕ => (i : ℤ) := by
        intro y hy
        have := hB.el _ k0 k1 y hy
        rw [List.mem_map]
        exact ⟨y.toNat, by rw [List.mem_range]; omega, by omega⟩
      have := ((hB.nd _ k0 k1).subperm hsub).length_le
      simp at this; omega
    obtain ⟨s1, F1, root1, e1, w1, w2, w3, w4, w5, w6, w7, w8⟩ :=
      superOuter_spec hp (K := n.toNat + 1) (n.toNat + 1) (bk (F .c3 x)) _ s F root e hbl hbl hR hM
        hG (hB.ch _ k0 k1) (hB.nd _ k0 k1) (fun y hy => ⟨(hbp _ k0 k1 y hy).1, (hbp _ k0 k1 y hy).2.2⟩)
    rw [w1, ok_bind]
    -- the last write
    have key : ∃ s2 F2, (if F .p (F .c3 x) > -1 then s1.wr .c3 (F .p (F .c3 x)) (-1)
          else s1.wr .p (F .c3 x) (-1)) = .ok s2 ∧ Rm n m Al L s2 F2 ∧
        (∀ f, f ≠ .p → f ≠ .c3 → F2 f = F1 f) ∧
        bf (G .p) F2 (F .c3 x) = -1 ∧
        (∀ y, 0 ≤ y → y ≤ n → y ≠ F .c3 x → bf (G .p) F2 y = bf (G .p) F y) ∧
        (∀ y, 0 ≤ y → y ≤ n → G .p y ≠ -1 → F2 .p y = G .p y) ∧
        (∀ y, 0 ≤ y → y ≤ n → G .p y = -1 → F2 .p y ≤ -1) ∧
        (∀ y, S y → G .c3 y ≠ -1 → F2 .c3 y = G .c3 y) ∧
        (∀ y, ¬ S y → F2 .c3 y = F .c3 y) := by
      by_cases hh : G .p (F .c3 x) > -1
      · obtain ⟨e1, e2, e3⟩ := v2 hh
        have hr := hd.rg _ e2
        rw [if_pos (v1.2 hh), e1]
        obtain ⟨s2, q2, g2⟩ := w2.wr (f := .c3) (i := G .p (F .c3 x)) ⟨hr.1, hr.2.1⟩ (-1)
        refine ⟨s2, _, q2, g2, fun f _ hf => set_ne _ hf _ _, ?_, ?_, ?_, ?_, ?_, ?_⟩
        · unfold bf; rw [if_pos hh, set_apply]; simp
        · intro y y0 y1 hy
          unfold bf
          by_cases hy2 : G .p y > -1
          · have := (hB.head_val hd y0 y1).2.1 hy2
            rw [if_pos hy2, if_pos hy2, set_apply, if_neg, w8]
            rintro ⟨_, ee⟩
            rw [ee, e3] at this
            exact hy this.2.2.symm
          · rw [if_neg hy2, if_neg hy2, set_ne _ (by decide), w7]
        · intro y y0 y1 hy; rw [set_ne _ (by decide), w7]; exact hB.hp y y0 y1 hy
        · intro y y0 y1 hy; rw [set_ne _ (by decide), w7]; exact hB.hq y y0 y1 hy
        · intro y hy hy3
          rw [set_apply, if_neg, w8]
          · exact hB.s3 y hy hy3
          · rintro ⟨_, rfl⟩
            rcases hd.hd _ k0 k1 with a | ⟨_, _, a⟩
            · omega
            · exact hy3 a
        · intro y hy
          rw [set_apply, if_neg, w8]
          rintro ⟨_, rfl⟩; exact hy e2
      · have hm := v3 hh
        rw [if_neg (fun h' => hh (v1.1 h'))]
        obtain ⟨s2, q2, g2⟩ := w2.wr (f := .p) (i := F .c3 x) ⟨k0, by omega⟩ (-1)
        refine ⟨s2, _, q2, g2, fun f hf _ => set_ne _ hf _ _, ?_, ?_, ?_, ?_, ?_, ?_⟩
        · unfold bf; rw [if_neg hh, set_apply]; simp
        · intro y y0 y1 hy
          unfold bf
          rw [set_ne _ (by decide), w8]
          split_ifs
          · rfl
          · rw [set_apply, if_neg (by tauto), w7]
        · intro y y0 y1 hy
          rw [set_apply, if_neg, w7]
          · exact hB.hp y y0 y1 hy
          · rintro ⟨_, rfl⟩; exact hy hm
        · intro y y0 y1 hy
          rw [set_apply]
          split_ifs
          · omega
          · rw [w7]; exact hB.hq y y0 y1 hy
        · intro y hy hy3; rw [set_ne _ (by decide), w8]; exact hB.s3 y hy hy3
        · intro y hy; rw [set_ne _ (by decide), w8]
    obtain ⟨s2, F2, q1, q2, q3, q4, q5, q6, q7, q8, q9⟩ := key
    have ecs := q3 .cs (by decide) (by decide)
    have ec1 := q3 .c1 (by decide) (by decide)
    have ec2 := q3 .c2 (by decide) (by decide)
    have ec4 := q3 .c4 (by decide) (by decide)
    refine ⟨s2, F2, Function.update bk (F .c3 x) [], root1, e1, q1, q2,
      w3.congr fun f a b _ => q3 f a b, w4.same ecs ec1 ec2, ?_, ?_, ?_⟩
    · have hoth : ∀ y, 0 ≤ y → y ≤ n → y ≠ F .c3 x → ∀ z ∈ bk y, z ∉ bk (F .c3 x) := by
        intro y y0 y1 hy z hz hz'
        have := hB.el y y0 y1 z hz
        have := hB.el _ k0 k1 z hz'
        omega
      constructor
      · exact q6
      · exact q7
      · intro y y0 y1
        by_cases hy : y = F .c3 x
        · subst hy
          rw [Function.update_self, q4]
          rfl
        · rw [Function.update_of_ne hy, q5 y y0 y1 hy, ec4]
          exact (hB.ch y y0 y1).congr fun z hz => w6 z (hoth y y0 y1 hy z hz)
      · intro y y0 y1
        by_cases hy : y = F .c3 x
        · subst hy; rw [Function.update_self]; simp
        · rw [Function.update_of_ne hy]; exact hB.nd y y0 y1
      · intro y y0 y1 z hz
        by_cases hy : y = F .c3 x
        · subst hy; rw [Function.update_self] at hz; simp at hz
        · rw [Function.update_of_ne hy] at hz
          obtain ⟨a, b, c, d⟩ := hB.el y y0 y1 z hz
          exact ⟨a, b, by rw [q9 z d]; exact c, d⟩
      · intro y hy
        rw [ec2, ← hB.s2 y hy]
        have hyP : y ∉ P := fun hh => hPS y hh hy
        rw [(w3.o y hyP).2.2, (hM.o y hyP).2.2]
      · exact q8
      · intro y hy
        rw [ec4, w6, hB.s4 y hy]
        intro hh
        exact (hB.el _ k0 k1 y hh).2.2.2 hy
    · intro y y0 y1 z hz
      by_cases hy : y = F .c3 x
      · subst hy; rw [Function.update_self] at hz; simp at hz
      · rw [Function.update_of_ne hy] at hz
        obtain ⟨a, b, c⟩ := hbp y y0 y1 z hz
        have hel := hB.el y y0 y1 z hz
        refine ⟨a, ?_, ?_⟩
        · rw [List.mem_append, List.mem_singleton, not_or]
          refine ⟨b, ?_⟩
          rintro rfl
          exact hy hel.2.2.1.symm
        · rw [ecs, w5 z]
          · exact c
          · intro hh
            have := hB.el _ k0 k1 z hh
            omega
    · intro c hc hca
      rw [q9 c (hPS c hc)]
      exact hc3 c hc hca

theorem detect_spec {n2 k piv pf0 : ℤ} {G : Sh} {S : ℤ → Prop} {rk : ℤ → ℕ} {bk : ℤ → List ℤ}
    {root : ℤ → ℤ} {e : ℤ → ℕ} (hp : piv ∉ P) (hA : seg (H .A) pf0 P.length = P)
    (h0 : 0 ≤ pf0) (hL : pf0 + P.length ≤ L) (hd : DL n G S rk) (hPS : ∀ c ∈ P, ¬ S c)
    (h : DS n m Al L n2 k piv G H P [] S s F bk root e) :
    wp (detect_super_cols n pf0 P.length s) (fun s' => ∃ F' root' e', Rm n m Al L s' F' ∧
      MI n L H P F' ∧ Gh n n2 k F' (fun x => F' .cs x = -1 ∨ x = piv) root' e' ∧ DL n F' S rk)
      noFail := by
  unfold detect_super_cols
  refine wp_post (wp_list P (fun pre s => ∃ F bk root e, DS n m Al L n2 k piv G H P pre S s F bk
    root e) ?_ ?_) ?_
  · exact ⟨F, bk, root, e, h⟩
  · rintro pre x post s hP ⟨F, bk, root, e, h⟩
    obtain ⟨s', F', bk', root', e', a, b⟩ := superCol_spec hP hp
      (seg_getElem (hA.trans hP)).1 h0 hL hd hPS h
    rw [a]
    exact ⟨F', bk', root', e', b⟩
  · rintro s ⟨F, bk, root, e, h⟩
    refine ⟨F, root, e, h.rp, h.mi, h.gh, h.hb.finish hd ?_⟩
    intro x x0 x1
    rcases hbk : bk x with _ | ⟨y, l⟩
    · rfl
    · have := h.bp x x0 x1 y (by rw [hbk]; simp)
      exact absurd this.1 this.2.1

end Slip.Colamd
