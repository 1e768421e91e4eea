import Verif.Proof.ColPre

/-!
# COLAMD: the final scores, and the state after a pivot
-/

namespace Slip.Colamd

set_option linter.unusedSectionVars false

variable [Arith]
variable {n m Al L : ℤ} {s : Mem} {P : List ℤ} {rk : ℤ → ℕ}
variable {nnz B mx piv pf0 tag : ℤ} {F0 G J : Sh} {ag : Bool}

/-- The live columns of a list. -/
def lv (J : Sh) (Q : List ℤ) : List ℤ := Q.filter fun c => decide (0 ≤ J .cs c)

theorem mem_lv {J : Sh} {Q : List ℤ} {c : ℤ} : c ∈ lv J Q ↔ c ∈ Q ∧ 0 ≤ J .cs c := by
  unfold lv; rw [List.mem_filter, decide_eq_true_iff]

/-- The final score. -/
def fsc (n k deg : ℤ) (J : Sh) (c : ℤ) : ℤ :=
  min (J .c2 c + deg - J .c1 c) (n - k - J .c1 c)

/-- The state while the scores are finalized: the columns of `pre` are done. -/
structure FI (n m Al B : ℤ) (J : Sh) (pf0 k deg prow ms0 : ℤ) (P pre : List ℤ) (S : ℤ → Prop)
    (s : Mem) (F : Sh) (np ms : ℤ) (rk : ℤ → ℕ) : Prop where
  rp : Rm n m Al (pf0 + P.length) s F
  np : np = pf0 + (lv J pre).length
  sg : seg (F .A) pf0 (lv J pre).length = lv J pre
  aB : ∀ i, B ≤ i → ¬ (pf0 ≤ i ∧ i < pf0 + (lv J pre).length) → F .A i = J .A i
  aX : ∀ c ∈ lv J pre, F .A (J .cs c + J .cl c) = prow
  aC : ∀ i, i < B → (∀ c ∈ lv J pre, i ≠ J .cs c + J .cl c) → F .A i = J .A i
  cl : ∀ c, F .cl c = if c ∈ lv J pre then J .cl c + 1 else J .cl c
  c2 : ∀ c, F .c2 c = if c ∈ lv J pre then fsc n k deg J c else J .c2 c
  eq : ∀ f, f ≠ .A → f ≠ .cl → f ≠ .c2 → f ≠ .p → f ≠ .c3 → f ≠ .c4 → F f = J f
  dl : DL n F (fun c => S c ∨ c ∈ lv J pre) rk
  ms : 0 ≤ ms ∧ ms ≤ ms0 ∧ ∀ c ∈ lv J pre, ms ≤ F .c2 c
  nn : ∀ i, 0 ≤ i → i < pf0 + P.length → 0 ≤ F .A i

theorem finalizeOne_spec {k deg prow ms0 : ℤ} {S : ℤ → Prop} {pre post : List ℤ} {x : ℤ}
    (hP : P = pre ++ x :: post) (hnd : P.Nodup) (hB : 0 ≤ B) (hBp : B ≤ pf0)
    (hA : seg (J .A) pf0 P.length = P) (hPr : ∀ c ∈ P, 0 ≤ c ∧ c < n)
    (hfit : ∀ c ∈ P, 0 ≤ J .cs c → 0 ≤ J .cl c ∧ J .cs c + J .cl c < B)
    (hdis : ∀ c ∈ P, ∀ c' ∈ P, 0 ≤ J .cs c → 0 ≤ J .cs c' → c ≠ c' →
      J .cs c + J .cl c ≠ J .cs c' + J .cl c')
    (hsc : ∀ c ∈ P, 0 ≤ J .cs c → 0 ≤ fsc n k deg J c ∧ fsc n k deg J c ≤ n)
    (hbd : ∀ c ∈ P, 0 ≤ J .cs c → 0 ≤ J .c2 c ∧ J .c2 c ≤ n ∧ 0 ≤ J .c1 c ∧ J .c1 c ≤ n)
    (hk : 0 ≤ k ∧ k ≤ n) (hdg : 0 ≤ deg ∧ deg ≤ n) (hPS : ∀ c ∈ P, ¬ S c) (hpr : 0 ≤ prow) {np ms : ℤ} {F : Sh} {rk : ℤ → ℕ}
    (h : FI n m Al B J pf0 k deg prow ms0 P pre S s F np ms rk) :
    wp (finalizeOne n k prow deg (pf0 + pre.length) (s, np, ms))
      (fun z => ∃ F' rk', FI n m Al B J pf0 k deg prow ms0 P (pre ++ [x]) S z.1 F' z.2.1 z.2.2 rk')
      noFail := by
  have hxP : x ∈ P := by rw [hP]; simp
  have hxr := hPr x hxP
  have hPl : (pre.length : ℤ) < P.length := by rw [hP]; simp
  have hvl : (lv J pre).length ≤ pre.length := List.length_filter_le _ _
  have hvlz : ((lv J pre).length : ℤ) ≤ pre.length := by exact_mod_cast hvl
  have hxA : F .A (pf0 + pre.length) = x := by
    rw [h.aB _ (by omega) (by omega)]
    exact (seg_getElem (hA.trans hP)).1
  have hxpre : x ∉ pre := by
    intro hh
    rw [hP, List.nodup_append] at hnd
    exact hnd.2.2 x hh x (by simp) rfl
  have hcs : F .cs = J .cs := h.eq .cs (by decide) (by decide) (by decide) (by decide) (by decide)
    (by decide)
  have hc1 : F .c1 = J .c1 := h.eq .c1 (by decide) (by decide) (by decide) (by decide) (by decide)
    (by decide)
  have hxl : x ∉ lv J pre := fun hh => hxpre (mem_lv.1 hh).1
  unfold finalizeOne
  dsimp only
  rw [h.rp.rd (f := .A) (show 0 ≤ pf0 + ↑pre.length ∧ pf0 + ↑pre.length < _ from
    ⟨by omega, by omega⟩), ok_bind, hxA,
    h.rp.rd (f := .cs) (show 0 ≤ x ∧ x < n from hxr), ok_bind, hcs]
  by_cases hx : J .cs x < 0
  · rw [if_pos hx, wp_pure]
    have e : lv J (pre ++ [x]) = lv J pre := by
      unfold lv
      rw [List.filter_append]
      have : ([x].filter fun c => decide (0 ≤ J .cs c)) = [] := by simp [hx]
      rw [this, List.append_nil]
    refine ⟨F, rk, ?_⟩
    obtain ⟨a1, a2, a3, a4, a5, a6, a7, a8, a9, a10, a11, a12⟩ := h
    constructor <;> first | rw [e] | skip
    all_goals first | assumption
  · have hx : 0 ≤ J .cs x := by omega
    have e : lv J (pre ++ [x]) = lv J pre ++ [x] := by
      unfold lv
      rw [List.filter_append]
      have : ([x].filter fun c => decide (0 ≤ J .cs c)) = [x] := by simp [hx]
      rw [this]
    obtain ⟨f1, f2⟩ := hfit x hxP hx
    obtain ⟨s1, s2⟩ := hsc x hxP hx
    rw [if_neg (by omega), h.np]
    obtain ⟨m1, q1, g1⟩ := h.rp.wr (f := .A) (i := pf0 + (lv J pre).length) ⟨by omega, by omega⟩ x
    rw [q1, ok_bind, g1.rd (f := .cs) (show 0 ≤ x ∧ x < n from hxr), ok_bind,
      g1.rd (f := .cl) (show 0 ≤ x ∧ x < n from hxr), ok_bind, set_ne _ (by decide),
      set_ne _ (by decide), hcs, h.cl x, if_neg hxl]
    obtain ⟨b1, b2, b3, b4⟩ := hbd x hxP hx
    have hAl := (get_bounds (g1.val .A (J .cs x + J .cl x) ⟨by omega, by omega⟩)).2
    rw [g1.len] at hAl
    dsimp only [cap] at hAl
    cks g1
    obtain ⟨m2, q2, g2⟩ := g1.wr (f := .A) (i := J .cs x + J .cl x) ⟨by omega, by omega⟩ prow
    rw [q2, ok_bind]
    cks g1
    obtain ⟨m3, q3, g3⟩ := g2.wr (f := .cl) (i := x) hxr (J .cl x + 1)
    rw [q3, ok_bind, g3.rd (f := .c2) (show 0 ≤ x ∧ x < n from hxr), ok_bind, set_ne _ (by decide),
      set_ne _ (by decide), set_ne _ (by decide), h.c2 x, if_neg hxl]
    cks g1
    rw [g3.rd (f := .c1) (show 0 ≤ x ∧ x < n from hxr), ok_bind, set_ne _ (by decide),
      set_ne _ (by decide), set_ne _ (by decide), hc1]
    cks g1
    cks g1
    cks g1
    have efs : min (J .c2 x + deg - J .c1 x) (n - k - J .c1 x) = fsc n k deg J x := rfl
    rw [efs]
    obtain ⟨m4, q4, g4⟩ := g3.wr (f := .c2) (i := x) hxr (fsc n k deg J x)
    rw [q4, ok_bind]
    generalize hF4 : set (set (set (set F .A (pf0 + (lv J pre).length) x) .A (J .cs x + J .cl x)
      prow) .cl x (J .cl x + 1)) .c2 x (fsc n k deg J x) = F4 at g4
    have d4 : ∀ f, f ≠ .A → f ≠ .cl → f ≠ .c2 → F4 f = F f := by
      intro f h1 h2 h3
      rw [← hF4, set_ne _ h3, set_ne _ h2, set_ne _ h1, set_ne _ h1]
    have d2 : ∀ c, F4 .c2 c = if c = x then fsc n k deg J x else F .c2 c := by
      intro c
      rw [← hF4, set_apply, set_ne _ (by decide), set_ne _ (by decide), set_ne _ (by decide)]
      simp
    have dl' : ∀ c, F4 .cl c = if c = x then J .cl x + 1 else F .cl c := by
      intro c
      rw [← hF4, set_ne _ (by decide), set_apply, set_ne _ (by decide), set_ne _ (by decide)]
      simp
    have dA : ∀ i, F4 .A i = if i = J .cs x + J .cl x then prow else
        if i = pf0 + (lv J pre).length then x else F .A i := by
      intro i
      rw [← hF4, set_ne _ (by decide), set_ne _ (by decide), set_apply, set_apply]
      simp
    have hS' : ¬ (S x ∨ x ∈ lv J pre) := by
      rintro (hh | hh)
      · exact hPS x hxP hh
      · exact hxl hh
    have hD4 : DL n F4 (fun c => S c ∨ c ∈ lv J pre) rk := by
      refine h.dl.congr (fun _ => Iff.rfl) ?_ ?_ ?_ ?_
      · intro d _ _; rw [d4 .p (by decide) (by decide) (by decide)]
      · intro c hc; rw [d2, if_neg (by rintro rfl; exact hS' hc)]
      · intro c _; rw [d4 .c3 (by decide) (by decide) (by decide)]
      · intro c _; rw [d4 .c4 (by decide) (by decide) (by decide)]
    have hx2 : F4 .c2 x = fsc n k deg J x := by rw [d2, if_pos rfl]
    have hD5 := hD4.ins hS' hxr.1 hxr.2 (by rw [hx2]; exact s1) (by rw [hx2]; exact s2)
    rw [hx2] at hD5
    obtain ⟨m5, q5, g5⟩ := insertDeg_spec g4 (c := x) (d := fsc n k deg J x) hxr.1 hxr.2 s1 s2
      (by
        rcases hD4.hd _ s1 s2 with a | ⟨a, _⟩
        · exact Or.inl a
        · have := hD4.rg _ a; exact Or.inr ⟨this.1, this.2.1⟩)
    rw [q5, ok_bind, wp_pure]
    have d5 : ∀ f, f ≠ .p → f ≠ .c3 → f ≠ .c4 → link F4 x (fsc n k deg J x) f = F4 f :=
      fun f h1 h2 h3 => link_ne _ _ _ h1 h2 h3
    have d5A := d5 .A (by decide) (by decide) (by decide)
    have d5c2 := d5 .c2 (by decide) (by decide) (by decide)
    have d5cl := d5 .cl (by decide) (by decide) (by decide)
    have hlen : ((lv J pre ++ [x]).length : ℤ) = (lv J pre).length + 1 := by simp
    refine ⟨link F4 x (fsc n k deg J x), fun y => if y = x then 0 else rk y + 1, ?_⟩
    dsimp only
    constructor
    · exact g5
    · rw [e, hlen]; ring
    · rw [e, hlen, seg_succ _ (by omega), d5A]
      congr 1
      · rw [seg_congr (B := F .A), h.sg]
        intro i h1 h2
        rw [dA, if_neg (by omega), if_neg (by omega)]
      · rw [dA, if_neg (by omega), if_pos rfl]
    · intro i h1 h2
      rw [e, hlen] at h2
      rw [d5A, dA, if_neg (by omega), if_neg (by omega)]
      exact h.aB i h1 (by omega)
    · intro c hc
      rw [e, List.mem_append, List.mem_singleton] at hc
      rw [d5A, dA]
      by_cases hcx : c = x
      · subst hcx; rw [if_pos rfl]
      · have hc : c ∈ lv J pre := by tauto
        have hcP : c ∈ P := by rw [hP]; simp [(mem_lv.1 hc).1]
        have hca := (mem_lv.1 hc).2
        have := hfit c hcP hca
        rw [if_neg (hdis c hcP x hxP hca hx hcx), if_neg (by omega)]
        exact h.aX c hc
    · intro i hi hne
      rw [e] at hne
      rw [d5A, dA, if_neg (hne x (by simp)), if_neg (by omega)]
      exact h.aC i hi fun c hc => hne c (by simp [hc])
    · intro c
      rw [d5cl, dl', h.cl c, e]
      by_cases hcx : c = x
      · subst hcx; simp
      · simp [hcx]
    · intro c
      rw [d5c2, d2, h.c2 c, e]
      by_cases hcx : c = x
      · subst hcx; simp
      · simp [hcx]
    · intro f h1 h2 h3 h4 h5 h6
      rw [d5 f h4 h5 h6, d4 f h1 h2 h3]; exact h.eq f h1 h2 h3 h4 h5 h6
    · refine hD5.congr (fun c => ?_) (fun _ _ _ => rfl) (fun _ _ => rfl) (fun _ _ => rfl)
        (fun _ _ => rfl)
      rw [e, List.mem_append, List.mem_singleton]; tauto
    · obtain ⟨u1, u2, u3⟩ := h.ms
      refine ⟨le_min u1 s1, le_trans (min_le_left _ _) u2, ?_⟩
      intro c hc
      rw [e, List.mem_append, List.mem_singleton] at hc
      rw [d5c2, d2]
      by_cases hcx : c = x
      · subst hcx; rw [if_pos rfl]; exact min_le_right _ _
      · rw [if_neg hcx]
        exact le_trans (min_le_left _ _) (u3 c (by tauto))
    · intro i h1 h2
      rw [d5A, dA]
      split_ifs
      · exact hpr
      · exact hxr.1
      · exact h.nn i h1 h2

end Slip.Colamd
