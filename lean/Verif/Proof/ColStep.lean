import Verif.Proof.ColFin

/-!
# COLAMD: the invariant holds again after a pivot
-/

namespace Slip.Colamd

set_option linter.unusedSectionVars false

variable [Arith]
variable {n m Al L : ℤ} {s : Mem} {P : List ℤ} {rk : ℤ → ℕ}
variable {nnz B mx piv pf0 tag : ℤ} {F0 G J : Sh} {ag : Bool}

section
variable {n2 k deg tg' : ℤ} {root : ℤ → ℤ} {e : ℤ → ℕ}

theorem BF.one_le (h : BF n m Al B n2 F0 G piv pf0 tag P k deg tg' rk root e s J) {c : ℤ}
    (hc : CA n J c) : J .c1 c ≤ n2 - k := by
  rw [← h.tot]
  unfold tsum
  rw [← add_sub_cancel_right (∑ c ∈ Finset.Ico 0 n, if 0 ≤ J .cs c then J .c1 c else 0) (J .c1 c),
    add_sub_right_comm, ← sum_ite_erase (q := fun x => 0 ≤ J .cs x ∧ x ≠ c) hc.1 hc.2.1 hc.2.2
      (fun _ _ _ => Iff.rfl)]
  have : 0 ≤ ∑ x ∈ Finset.Ico 0 n, if 0 ≤ J .cs x ∧ x ≠ c then J .c1 x else 0 := by
    apply Finset.sum_nonneg
    intro x hx
    rw [Finset.mem_Ico] at hx
    split_ifs with hh
    · have := h.th x ⟨hx.1, hx.2, hh.1⟩; omega
    · exact le_rfl
  omega

theorem BF.le_deg (h : BF n m Al B n2 F0 G piv pf0 tag P k deg tg' rk root e s J) {c : ℤ}
    (hc : CA n J c) (hP : c ∈ P) : J .c1 c ≤ deg := by
  rw [h.dg]
  unfold tsum
  rw [← add_sub_cancel_right (∑ c ∈ Finset.Ico 0 n, if c ∈ P ∧ 0 ≤ J .cs c then J .c1 c else 0)
    (J .c1 c), add_sub_right_comm, ← sum_ite_erase (q := fun x => (x ∈ P ∧ 0 ≤ J .cs x) ∧ x ≠ c)
      hc.1 hc.2.1 ⟨hP, hc.2.2⟩ (fun _ _ _ => Iff.rfl)]
  have : 0 ≤ ∑ x ∈ Finset.Ico 0 n, if (x ∈ P ∧ 0 ≤ J .cs x) ∧ x ≠ c then J .c1 x else 0 := by
    apply Finset.sum_nonneg
    intro x hx
    rw [Finset.mem_Ico] at hx
    split_ifs with hh
    · have := h.th x ⟨hx.1, hx.2, hh.1.2⟩; omega
    · exact le_rfl
  omega

theorem BF.deg_le (h : BF n m Al B n2 F0 G piv pf0 tag P k deg tg' rk root e s J)
    (hPr : ∀ c ∈ P, 0 ≤ c ∧ c < n) : 0 ≤ deg ∧ deg ≤ n := by
  have hkn := h.gh.kn
  have h1 : deg ≤ n2 - k := by
    rw [h.dg, ← h.tot]
    exact sum_ite_mono (fun c _ _ hq => hq.2) fun c c0 c1 hc => by
      have := h.th c ⟨c0, c1, hc⟩; omega
  refine ⟨?_, by omega⟩
  rw [h.dg]
  apply Finset.sum_nonneg
  intro c hc
  rw [Finset.mem_Ico] at hc
  split_ifs with hh
  · have := h.th c ⟨hc.1, hc.2, hh.2⟩; omega
  · exact le_rfl

theorem BF.deg_pos (h : BF n m Al B n2 F0 G piv pf0 tag P k deg tg' rk root e s J)
    (hP : ∀ c ∈ P, 0 ≤ c ∧ c < n) : 0 < deg ↔ lv J P ≠ [] := by
  constructor
  · intro hd hh
    rw [h.dg] at hd
    have : tsum n J (fun c => c ∈ P ∧ 0 ≤ J .cs c) = 0 := by
      unfold tsum
      apply Finset.sum_eq_zero
      intro c hc
      rw [if_neg]
      intro hcc
      have := mem_lv.2 hcc
      rw [hh] at this; simp at this
    omega
  · intro hh
    obtain ⟨c, hc⟩ := List.exists_mem_of_ne_nil _ hh
    obtain ⟨a, b⟩ := mem_lv.1 hc
    have hca : CA n J c := ⟨(hP c a).1, (hP c a).2, b⟩
    have := h.le_deg hca a
    have := h.th c hca
    omega

/-- The state after the scores are finalized and the pivot row has become a row. -/
structure FE (n m Al B : ℤ) (F0 J : Sh) (pf0 k deg prow ms0 : ℤ) (P : List ℤ) (S : ℤ → Prop)
    (s : Mem) (F : Sh) (ms : ℤ) (rk : ℤ → ℕ) : Prop where
  rp : Rm n m Al (pf0 + P.length) s F
  sg : seg (F .A) pf0 (lv J P).length = lv J P
  aB : ∀ i, B ≤ i → i < pf0 → F .A i = J .A i
  aX : ∀ c ∈ lv J P, F .A (J .cs c + J .cl c) = prow
  aC : ∀ i, i < B → (∀ c ∈ lv J P, i ≠ J .cs c + J .cl c) → F .A i = J .A i
  cl : ∀ c, F .cl c = if c ∈ lv J P then J .cl c + 1 else J .cl c
  c2 : ∀ c, F .c2 c = if c ∈ lv J P then fsc n k deg J c else J .c2 c
  cs : F .cs = J .cs
  c1 : F .c1 = J .c1
  dl : DL n F (fun c => S c ∨ c ∈ lv J P) rk
  ms : 0 ≤ ms ∧ ms ≤ ms0 ∧ ∀ c ∈ lv J P, ms ≤ F .c2 c
  nn : ∀ i, 0 ≤ i → i < pf0 + P.length → 0 ≤ F .A i
  old : ∀ r, (r ≠ prow ∨ lv J P = []) → F .rs r = F0 .rs r ∧ F .rl r = F0 .rl r ∧
    F .r1 r = F0 .r1 r ∧ F .r2 r = J .r2 r
  new : lv J P ≠ [] → F .rs prow = pf0 ∧ F .rl prow = (lv J P).length ∧ F .r1 prow = deg ∧
    F .r2 prow = 0

/-- Loop and resurrection. -/
theorem finalize_resurrect {ms0 prow : ℤ} (b : PB n m nnz B mx F0 G piv pf0 tag ag P rk)
    (h : BF n m Al B n2 F0 G piv pf0 tag P k deg tg' rk root e s J)
    (hms : 0 ≤ ms0) (hpr : P ≠ [] → prow ∈ colL F0 piv) :
    wp (do
        let z ← finalize n k prow deg pf0 P.length ms0 s
        let s ← resurrect prow pf0 z.2.1 deg z.1
        pure (s, z.2.2))
      (fun z => ∃ F rk', FE n m Al B F0 J pf0 k deg prow ms0 P
        (fun c => CA n F0 c ∧ c ≠ piv ∧ c ∉ P) z.1 F z.2 rk') noFail := by
  have hPA : ∀ c ∈ P, CA n F0 c := fun c hc => ((b.mem c).1 hc).1
  have hPr : ∀ c ∈ P, 0 ≤ c ∧ c < n := fun c hc => ⟨(hPA c hc).1, (hPA c hc).2.1⟩
  have hB0 := b.lay.B0
  have hBp := b.lay.Bp
  have hkn := h.gh.kn
  have hfit : ∀ c ∈ P, 0 ≤ J .cs c → 0 ≤ J .cl c ∧ J .cs c + J .cl c < F0 .cs c + F0 .cl c := by
    intro c hc hca
    have h1 := (h.cs c hca).1
    have h2 := b.shrink hc
    rw [h.cl, if_pos hc]
    omega
  have hdisj : ∀ c c', CA n F0 c → CA n F0 c' → c ≠ c' →
      F0 .cs c + F0 .cl c ≤ F0 .cs c' ∨ F0 .cs c' + F0 .cl c' ≤ F0 .cs c := by
    intro c c' hc hc' hne
    rcases lt_or_gt_of_ne hne with hl | hl
    · exact Or.inl (b.lay.co c c' hc hc' hl)
    · exact Or.inr (b.lay.co c' c hc' hc hl)
  have hJA : seg (J .A) pf0 P.length = P := by
    rw [seg_congr (B := G .A), b.sg]
    intro i h1 _; exact h.aB i (by omega)
  have hD0 := h.deg_pos hPr
  unfold finalize
  have hfin := wp_list (a := pf0) (f := finalizeOne n k prow deg) (E := noFail) P
    (fun pre z => ∃ F' rk', FI n m Al B J pf0 k deg prow ms0 P pre
      (fun c => CA n F0 c ∧ c ≠ piv ∧ c ∉ P) z.1 F' z.2.1 z.2.2 rk') (s := (s, pf0, ms0)) ?_ ?_
  · refine wp_bind_ok hfin ?_
    rintro ⟨s3, np, ms⟩ ⟨F3, rk3, h3⟩
    dsimp only at h3 ⊢
    obtain ⟨g3, enp, sg3, aB3, aX3, aC3, cl3, c23, eq3, dl3, ms3, nn3⟩ := h3
    have er : ∀ f, f = .rs ∨ f = .rl ∨ f = .r1 ∨ f = .r2 → F3 f = J f := by
      intro f hf
      apply eq3 <;> rcases hf with rfl | rfl | rfl | rfl <;> decide
    have ers : F3 .rs = F0 .rs := (er .rs (by simp)).trans (h.eq .rs (by simp))
    have erl : F3 .rl = F0 .rl := (er .rl (by simp)).trans (h.eq .rl (by simp))
    have er1 : F3 .r1 = F0 .r1 := (er .r1 (by simp)).trans (h.eq .r1 (by simp))
    have er2 : F3 .r2 = J .r2 := er .r2 (by simp)
    have ecs : F3 .cs = J .cs := by apply eq3 <;> decide
    have ec1 : F3 .c1 = J .c1 := by apply eq3 <;> decide
    unfold resurrect
    by_cases hd : 0 < deg
    · rw [if_pos hd]
      have hX := hD0.1 hd
      have hPne : P ≠ [] := by
        obtain ⟨c, hc⟩ := List.exists_mem_of_ne_nil _ hX
        exact List.ne_nil_of_mem (mem_lv.1 hc).1
      have hr : RA m F0 prow := b.inc.cv piv b.pv prow (hpr hPne)
      have hr' : 0 ≤ prow ∧ prow < m := ⟨hr.1, hr.2.1⟩
      obtain ⟨t1, q1, g1⟩ := g3.wr (f := .rs) (i := prow) hr' pf0
      rw [q1, ok_bind]
      obtain ⟨t2, q2, g2⟩ := g1.wr (f := .rl) (i := prow) hr' (np - pf0)
      rw [q2, ok_bind]
      obtain ⟨t3, q3, g3⟩ := g2.wr (f := .r1) (i := prow) hr' deg
      rw [q3, ok_bind]
      obtain ⟨t4, q4, g4⟩ := g3.wr (f := .r2) (i := prow) hr' 0
      rw [q4, ok_bind, wp_pure]
      generalize hF : set (set (set (set F3 .rs prow pf0) .rl prow (np - pf0)) .r1 prow deg) .r2
        prow 0 = F at g4
      have eF : ∀ f, f ≠ .rs → f ≠ .rl → f ≠ .r1 → f ≠ .r2 → F f = F3 f := by
        intro f f1 f2 f3 f4
        rw [← hF, set_ne _ f4, set_ne _ f3, set_ne _ f2, set_ne _ f1]
      have eA : F .A = F3 .A := by apply eF <;> decide
      refine ⟨F, rk3, g4, ?_, ?_, ?_, ?_, ?_, ?_, ?_, ?_, ?_, ?_, ?_, ?_, ?_⟩
      · rw [eA]; exact sg3
      · intro i h1 h2; rw [eA]; exact aB3 i h1 (by omega)
      · rw [eA]; exact aX3
      · rw [eA]; exact aC3
      · rw [eF .cl (by decide) (by decide) (by decide) (by decide)]; exact cl3
      · rw [eF .c2 (by decide) (by decide) (by decide) (by decide)]; exact c23
      · rw [eF .cs (by decide) (by decide) (by decide) (by decide)]; exact ecs
      · rw [eF .c1 (by decide) (by decide) (by decide) (by decide)]; exact ec1
      · refine dl3.congr (fun _ => Iff.rfl) ?_ ?_ ?_ ?_
        · intro d _ _; rw [eF .p (by decide) (by decide) (by decide) (by decide)]
        · intro d _; rw [eF .c2 (by decide) (by decide) (by decide) (by decide)]
        · intro d _; rw [eF .c3 (by decide) (by decide) (by decide) (by decide)]
        · intro d _; rw [eF .c4 (by decide) (by decide) (by decide) (by decide)]
      · rw [eF .c2 (by decide) (by decide) (by decide) (by decide)]; exact ms3
      · rw [eA]; exact nn3
      · intro r hr
        have hr : r ≠ prow := hr.resolve_right hX
        refine ⟨?_, ?_, ?_, ?_⟩
        · rw [← hF, set_ne _ (by decide), set_ne _ (by decide), set_ne _ (by decide), set_apply,
            if_neg (fun hh => hr hh.2), ers]
        · rw [← hF, set_ne _ (by decide), set_ne _ (by decide), set_apply,
            if_neg (fun hh => hr hh.2), set_ne _ (by decide), erl]
        · rw [← hF, set_ne _ (by decide), set_apply, if_neg (fun hh => hr hh.2),
            set_ne _ (by decide), set_ne _ (by decide), er1]
        · rw [← hF, set_apply, if_neg (fun hh => hr hh.2), set_ne _ (by decide),
            set_ne _ (by decide), set_ne _ (by decide), er2]
      · intro _
        refine ⟨?_, ?_, ?_, ?_⟩
        · rw [← hF, set_ne _ (by decide), set_ne _ (by decide), set_ne _ (by decide), set_apply]
          simp
        · rw [← hF, set_ne _ (by decide), set_ne _ (by decide), set_apply, if_pos ⟨rfl, rfl⟩]
          omega
        · rw [← hF, set_ne _ (by decide), set_apply]; simp
        · rw [← hF, set_apply]; simp
    · rw [if_neg hd, pure_bind', wp_pure]
      have hX : lv J P = [] := by by_contra hh; exact hd (hD0.2 hh)
      refine ⟨F3, rk3, g3, sg3, ?_, aX3, aC3, cl3, c23, ecs, ec1, dl3, ms3, nn3, ?_,
        fun hh => absurd hX hh⟩
      · intro i h1 h2; exact aB3 i h1 (by omega)
      · intro r _; rw [ers, erl, er1, er2]; exact ⟨rfl, rfl, rfl, rfl⟩
  · -- the loop begins
    refine ⟨J, rk, ?_⟩
    have e0 : lv J [] = [] := rfl
    constructor
    · exact h.rp
    · simp [e0]
    · simp [e0]
    · intros; rfl
    · simp [e0]
    · intros; rfl
    · simp [e0]
    · simp [e0]
    · intros; rfl
    · simpa [e0] using h.dl
    · exact ⟨hms, le_rfl, by simp [e0]⟩
    · exact h.nn
  · rintro pre x post ⟨s, np, ms⟩ hP ⟨F', rk', h'⟩
    have hne : P ≠ [] := by rw [hP]; simp
    have hdr := h.deg_le hPr
    refine finalizeOne_spec hP b.nd hB0 hBp hJA hPr ?_ ?_ ?_ ?_ ⟨hkn.1, by omega⟩ hdr ?_ ?_ h'
    · intro c hc hca
      have h1 := hfit c hc hca
      have h2 := b.lay.cb c (hPA c hc)
      omega
    · intro c hc c' hc' hca hca' hcc
      have h1 := hfit c hc hca
      have h2 := hfit c' hc' hca'
      have h3 := hdisj c c' (hPA c hc) (hPA c' hc') hcc
      have h4 := (h.cs c hca).1
      have h5 := (h.cs c' hca').1
      omega
    · intro c hcP hca
      have hcc : CA n J c := ⟨(hPr c hcP).1, (hPr c hcP).2, hca⟩
      have h1 := h.one_le hcc
      have h2 := h.le_deg hcc hcP
      have h3 := h.th c hcc
      obtain ⟨h4, h5, h6⟩ := h.c2 c hcP hca
      unfold fsc
      omega
    · intro c hcP hca
      obtain ⟨h4, h5, h6⟩ := h.c2 c hcP hca
      exact ⟨h4, h5, h.gh.c1_le (hPr c hcP).1 (hPr c hcP).2 (by omega)⟩
    · intro c hc hh; exact hh.2.2 hc
    · exact (b.inc.cv piv b.pv prow (hpr hne)).1


/-- Everything that is known after a pivot. -/
structure CX (n m nnz Al B n2 mx : ℤ) (F0 G J F : Sh) (piv pf0 tag : ℤ) (ag : Bool) (P : List ℤ)
    (k deg tg' prow ms0 ms : ℤ) (rk rk' : ℤ → ℕ) (root : ℤ → ℤ) (e : ℤ → ℕ) (s s' : Mem) :
    Prop where
  b : PB n m nnz B mx F0 G piv pf0 tag ag P rk
  h : BF n m Al B n2 F0 G piv pf0 tag P k deg tg' rk root e s J
  f : FE n m Al B F0 J pf0 k deg prow ms0 P (fun c => CA n F0 c ∧ c ≠ piv ∧ c ∉ P) s' F ms rk'
  pr : P ≠ [] → prow ∈ colL F0 piv

variable {prow ms0 ms : ℤ} {s' : Mem} {F : Sh} {rk' : ℤ → ℕ}

namespace CX

variable (X : CX n m nnz Al B n2 mx F0 G J F piv pf0 tag ag P k deg tg' prow ms0 ms rk rk' root e
  s s')

include X

theorem hPA {c : ℤ} (hc : c ∈ P) : CA n F0 c := ((X.b.mem c).1 hc).1

theorem hcs {c : ℤ} (hc : CA n J c) : CA n F0 c ∧ c ≠ piv ∧ J .cs c = F0 .cs c := by
  obtain ⟨c0, c1, hc⟩ := hc
  obtain ⟨u, v⟩ := X.h.cs c hc
  exact ⟨⟨c0, c1, by omega⟩, v, u⟩

theorem hclP {c : ℤ} (hc : c ∈ P) : J .cl c = (fl F0 G c).length := by rw [X.h.cl, if_pos hc]

theorem hfit {c : ℤ} (hc : c ∈ P) (hca : 0 ≤ J .cs c) :
    0 ≤ J .cl c ∧ J .cs c + J .cl c < F0 .cs c + F0 .cl c := by
  have h1 := (X.h.cs c hca).1
  have h2 := X.b.shrink hc
  rw [X.hclP hc]
  omega

theorem hdisj {c c' : ℤ} (hc : CA n F0 c) (hc' : CA n F0 c') (hne : c ≠ c') :
    F0 .cs c + F0 .cl c ≤ F0 .cs c' ∨ F0 .cs c' + F0 .cl c' ≤ F0 .cs c := by
  rcases lt_or_gt_of_ne hne with hl | hl
  · exact Or.inl (X.b.lay.co c c' hc hc' hl)
  · exact Or.inr (X.b.lay.co c' c hc' hc hl)

theorem hXne (hh : lv J P ≠ []) : prow ∈ colL F0 piv := by
  obtain ⟨c, hc⟩ := List.exists_mem_of_ne_nil _ hh
  exact X.pr (List.ne_nil_of_mem (mem_lv.1 hc).1)

theorem hprow (hh : lv J P ≠ []) : RA m F0 prow := X.b.inc.cv piv X.b.pv prow (X.hXne hh)

theorem hGJ {r : ℤ} (hr : RA m J r) : r ∉ colL F0 piv ∧ RA m F0 r ∧ 0 ≤ G .r2 r := by
  obtain ⟨r0, r1, hr⟩ := hr
  have hg := (X.h.r2 r r0 r1).1 hr
  have := X.b.alive hg
  exact ⟨this.1, ⟨r0, r1, this.2⟩, hg⟩

theorem hRA {r : ℤ} (hr : RA m F r) : (r = prow ∧ lv J P ≠ []) ∨
    (RA m J r ∧ (r ≠ prow ∨ lv J P = [])) := by
  obtain ⟨r0, r1, hr⟩ := hr
  by_cases hX : lv J P = []
  · right
    refine ⟨⟨r0, r1, ?_⟩, Or.inr hX⟩
    rwa [(X.f.old r (Or.inr hX)).2.2.2] at hr
  · by_cases hrp : r = prow
    · exact Or.inl ⟨hrp, hX⟩
    · right
      refine ⟨⟨r0, r1, ?_⟩, Or.inl hrp⟩
      rwa [(X.f.old r (Or.inl hrp)).2.2.2] at hr

theorem hneJ {r : ℤ} (hr : RA m J r) : r ≠ prow ∨ lv J P = [] := by
  by_cases hX : lv J P = []
  · exact Or.inr hX
  · left; rintro rfl; exact (X.hGJ hr).1 (X.hXne hX)

theorem hRAJ {r : ℤ} (hr : RA m J r) : RA m F r := by
  refine ⟨hr.1, hr.2.1, ?_⟩
  rw [(X.f.old r (X.hneJ hr)).2.2.2]; exact hr.2.2

theorem hRAp (hX : lv J P ≠ []) : RA m F prow := by
  refine ⟨(X.hprow hX).1, (X.hprow hX).2.1, ?_⟩
  rw [(X.f.new hX).2.2.2]

theorem hCA (c : ℤ) : CA n F c ↔ CA n J c := by unfold CA; rw [X.f.cs]

theorem hclX {c : ℤ} (hc : c ∈ lv J P) : F .cl c = (fl F0 G c).length + 1 := by
  rw [X.f.cl, if_pos hc, X.hclP (mem_lv.1 hc).1]

theorem hclO {c : ℤ} (hc : c ∉ P) : F .cl c = F0 .cl c := by
  rw [X.f.cl, if_neg (fun hh => hc (mem_lv.1 hh).1), X.h.cl, if_neg hc]

theorem hcolX {c : ℤ} (hc : c ∈ lv J P) : colL F c = fl F0 G c ++ [prow] := by
  obtain ⟨hcP, hca⟩ := mem_lv.1 hc
  have hcs' := (X.h.cs c hca).1
  unfold colL
  rw [X.hclX hc, seg_succ _ (by omega), X.f.cs]
  congr 1
  · rw [hcs', seg_congr (B := J .A), X.h.aP c hcP]
    intro i h1 h2
    have hf := X.hfit hcP hca
    have hcb := X.b.lay.cb c (X.hPA hcP)
    have hl := X.hclP hcP
    refine X.f.aC i (by omega) ?_
    intro c' hc' hi
    obtain ⟨hcP', hca'⟩ := mem_lv.1 hc'
    have hf' := X.hfit hcP' hca'
    have hcs'' := (X.h.cs c' hca').1
    by_cases hcc : c = c'
    · subst hcc; omega
    · have := X.hdisj (X.hPA hcP) (X.hPA hcP') hcc
      omega
  · have := X.f.aX c hc
    rw [X.hclP hcP] at this
    rw [this]

theorem hcolO {c : ℤ} (hc : CA n J c) (hcP : c ∉ P) : colL F c = colL F0 c := by
  obtain ⟨u1, u2, u3⟩ := X.hcs hc
  unfold colL
  rw [X.hclO hcP, X.f.cs, u3]
  refine seg_congr fun i h1 h2 => ?_
  have hcb := X.b.lay.cb c u1
  rw [X.f.aC i (by omega), X.h.aC c u1 hcP i h1 h2]
  intro c' hc' hi
  obtain ⟨hcP', hca'⟩ := mem_lv.1 hc'
  have hf' := X.hfit hcP' hca'
  have hcs'' := (X.h.cs c' hca').1
  have := X.hdisj u1 (X.hPA hcP') (by rintro rfl; exact hcP hcP')
  omega

theorem hcase {c : ℤ} (hc : CA n J c) : c ∈ lv J P ∨ c ∉ P := by
  by_cases hcP : c ∈ P
  · exact Or.inl (mem_lv.2 ⟨hcP, hc.2.2⟩)
  · exact Or.inr hcP

theorem hrowO {r : ℤ} (hr : RA m J r) : rowL F r = rowL F0 r := by
  obtain ⟨u1, u2, u3, u4⟩ := X.f.old r (X.hneJ hr)
  have hrb := X.b.lay.rb r (X.hGJ hr).2.1
  unfold rowL
  rw [u1, u2]
  refine seg_congr fun i h1 h2 => ?_
  rw [X.f.aB i (by omega) (by omega), X.h.aB i (by omega), X.b.A i (by omega)]

theorem hrowN (hX : lv J P ≠ []) : rowL F prow = lv J P := by
  unfold rowL
  rw [(X.f.new hX).1, (X.f.new hX).2.1, X.f.sg]

theorem hprowO (hX : lv J P ≠ []) {c : ℤ} (hc : CA n J c) (hcP : c ∉ P) : prow ∉ colL F0 c := by
  intro hh
  obtain ⟨u1, u2, u3⟩ := X.hcs hc
  exact (X.b.out u1 u2 hcP hh).1 (X.hXne hX)

omit X in
theorem hflm {c r : ℤ} : r ∈ fl F0 G c ↔ r ∈ colL F0 c ∧ 0 ≤ G .r2 r := by
  unfold fl; rw [List.mem_filter, decide_eq_true_iff]

theorem hprowF (hX : lv J P ≠ []) (c : ℤ) : prow ∉ fl F0 G c := by
  intro hh
  exact (X.b.alive (hflm.1 hh).2).1 (X.hXne hX)

omit X in
theorem hXm {c : ℤ} (hc : c ∈ lv J P) : lv J P ≠ [] := List.ne_nil_of_mem hc

theorem hflJ {c : ℤ} (hc : c ∈ P) {r : ℤ} (hr : r ∈ fl F0 G c) : RA m J r := by
  obtain ⟨u, v⟩ := hflm.1 hr
  have := X.b.inc.cv c (X.hPA hc) r u
  exact ⟨this.1, this.2.1, (X.h.r2 r this.1 this.2.1).2 v⟩

theorem hlen0 : ((lv J P).length : ℤ) ≤ P.length := by exact_mod_cast List.length_filter_le _ _

theorem hsy {c r : ℤ} (hc : CA n J c) (hr : RA m J r) : r ∈ colL F c ↔ r ∈ colL F0 c := by
  rcases X.hcase hc with hcX | hcP
  · rw [X.hcolX hcX, List.mem_append, List.mem_singleton, hflm]
    have h1 := (X.hGJ hr).2.2
    have hne : r ≠ prow := (X.hneJ hr).resolve_right (hXm hcX)
    exact ⟨fun hh => hh.elim (fun a => a.1) (fun a => absurd a hne), fun a => Or.inl ⟨a, h1⟩⟩
  · rw [X.hcolO hc hcP]

theorem hcc {c : ℤ} (hc : c ∈ lv J P) : CA n J c := by
  obtain ⟨hcP, hca⟩ := mem_lv.1 hc
  exact ⟨(X.hPA hcP).1, (X.hPA hcP).2.1, hca⟩

theorem nsum1 {c : ℤ} (hc : CA n J c) : nsum n F c ≤ n2 - k - J .c1 c := by
  have : tsum n J (fun x => 0 ≤ J .cs x ∧ x ≠ c) = n2 - k - J .c1 c := by
    rw [← X.h.tot]
    exact sum_ite_erase hc.1 hc.2.1 hc.2.2 (fun _ _ _ => Iff.rfl)
  rw [← this]
  unfold nsum tsum
  rw [X.f.cs, X.f.c1]
  refine sum_ite_mono ?_ ?_
  · intro x _ _ hx; exact ⟨hx.1, hx.2.1⟩
  · intro x x0 x1 hx; have := X.h.th x ⟨x0, x1, hx.1⟩; omega

theorem nsum2 {c : ℤ} (hc : c ∈ lv J P) : nsum n F c ≤ wsum F0 G tag c + (deg - J .c1 c) := by
  obtain ⟨hcP, hca⟩ := mem_lv.1 hc
  have hcc := X.hcc hc
  have e1 : (∑ x ∈ Finset.Ico 0 n, if (x ∈ P ∧ 0 ≤ J .cs x) ∧ x ≠ c then J .c1 x else 0)
      = deg - J .c1 c := by
    rw [X.h.dg]
    exact sum_ite_erase hcc.1 hcc.2.1 ⟨hcP, hca⟩ (fun _ _ _ => Iff.rfl)
  rw [← e1]
  refine le_trans ?_ (add_le_add (X.b.wsum_le hcP) le_rfl)
  rw [← Finset.sum_add_distrib]
  unfold nsum
  apply Finset.sum_le_sum
  intro x hx
  rw [Finset.mem_Ico] at hx
  have n1 : 0 ≤ (if (x ∈ P ∧ 0 ≤ J .cs x) ∧ x ≠ c then J .c1 x else 0) := by
    split_ifs with hh
    · have := X.h.th x ⟨hx.1, hx.2, hh.1.2⟩; omega
    · exact le_rfl
  have n2 : 0 ≤ (if (0 ≤ F0 .cs x ∧ x ∉ P) ∧ ∃ r ∈ fl F0 G c, r ∈ colL F0 x
      then F0 .c1 x else 0) := by
    split_ifs with hh
    · have := X.b.inc.th x ⟨hx.1, hx.2, hh.1.1⟩; omega
    · exact le_rfl
  by_cases hh : 0 ≤ F .cs x ∧ x ≠ c ∧ ∃ r ∈ colL F c, r ∈ colL F x
  · rw [if_pos hh]
    obtain ⟨h1, h2, r, hr, hr'⟩ := hh
    rw [X.f.cs] at h1
    have hxa : CA n J x := ⟨hx.1, hx.2, h1⟩
    rw [X.f.c1]
    rcases X.hcase hxa with hxX | hxP
    · rw [if_pos (show (x ∈ P ∧ 0 ≤ J .cs x) ∧ x ≠ c from ⟨⟨(mem_lv.1 hxX).1, h1⟩, h2⟩)]
      omega
    · obtain ⟨u1, u2, u3⟩ := X.hcs hxa
      rw [X.hcolO hxa hxP] at hr'
      rw [X.hcolX hc, List.mem_append, List.mem_singleton] at hr
      have hrf : r ∈ fl F0 G c := by
        rcases hr with hr | rfl
        · exact hr
        · exact absurd hr' (X.hprowO (hXm hc) hxa hxP)
      rw [if_pos (show (0 ≤ F0 .cs x ∧ x ∉ P) ∧ ∃ r ∈ fl F0 G c, r ∈ colL F0 x from
        ⟨⟨u1.2.2, hxP⟩, r, hrf, hr'⟩), ← (X.h.co x hxP u2).2.1]
      omega
  · rw [if_neg hh]; omega

theorem lay : Lay n m nnz B (pf0 + P.length) F := by
  have hBp := X.b.lay.Bp
  have hl0 := X.hlen0
  constructor
  · exact X.b.lay.B0
  · exact X.b.lay.Bn
  · omega
  · intro c hc
    rw [X.hCA] at hc
    obtain ⟨u1, u2, u3⟩ := X.hcs hc
    have hcb := X.b.lay.cb c u1
    rw [X.f.cs]
    rcases X.hcase hc with hcX | hcP
    · have := X.hfit (mem_lv.1 hcX).1 hc.2.2
      have := X.hclP (mem_lv.1 hcX).1
      rw [X.hclX hcX]; omega
    · rw [X.hclO hcP]; omega
  · intro c c' hc hc' hl
    rw [X.hCA] at hc hc'
    obtain ⟨u1, u2, u3⟩ := X.hcs hc
    obtain ⟨v1, v2, v3⟩ := X.hcs hc'
    have := X.b.lay.co c c' u1 v1 hl
    rw [X.f.cs]
    rcases X.hcase hc with hcX | hcP
    · have := X.hfit (mem_lv.1 hcX).1 hc.2.2
      have := X.hclP (mem_lv.1 hcX).1
      rw [X.hclX hcX]; omega
    · rw [X.hclO hcP]; omega
  · intro r hr
    rcases X.hRA hr with ⟨rfl, hX⟩ | ⟨hrJ, hne⟩
    · obtain ⟨w1, w2, _⟩ := X.f.new hX
      rw [w1, w2]; omega
    · obtain ⟨w1, w2, _⟩ := X.f.old r hne
      have := X.b.lay.rb r (X.hGJ hrJ).2.1
      rw [w1, w2]; omega
  · intro r r' hr hr' hne'
    rcases X.hRA hr with ⟨rfl, hX⟩ | ⟨hrJ, hne⟩
    · rcases X.hRA hr' with ⟨rfl, _⟩ | ⟨hrJ', hne''⟩
      · exact absurd rfl hne'
      · obtain ⟨w1, w2, _⟩ := X.f.new hX
        obtain ⟨y1, y2, _⟩ := X.f.old r' hne''
        have := X.b.lay.rb r' (X.hGJ hrJ').2.1
        rw [w1, w2, y1, y2]; omega
    · obtain ⟨w1, w2, _⟩ := X.f.old r hne
      have hrb := X.b.lay.rb r (X.hGJ hrJ).2.1
      rcases X.hRA hr' with ⟨rfl, hX⟩ | ⟨hrJ', hne''⟩
      · obtain ⟨y1, y2, _⟩ := X.f.new hX
        rw [w1, w2, y1, y2]; omega
      · obtain ⟨y1, y2, _⟩ := X.f.old r' hne''
        rw [w1, w2, y1, y2]
        exact X.b.lay.rd r r' (X.hGJ hrJ).2.1 (X.hGJ hrJ').2.1 hne'
  · exact X.f.nn

theorem inc : Inc n m F := by
  constructor
  · intro c hc r hr
    rw [X.hCA] at hc
    rcases X.hcase hc with hcX | hcP
    · rw [X.hcolX hcX, List.mem_append, List.mem_singleton] at hr
      rcases hr with hr | rfl
      · exact X.hRAJ (X.hflJ (mem_lv.1 hcX).1 hr)
      · exact X.hRAp (hXm hcX)
    · rw [X.hcolO hc hcP] at hr
      obtain ⟨u1, u2, u3⟩ := X.hcs hc
      have h1 := X.b.inc.cv c u1 r hr
      have h2 := (X.b.out u1 u2 hcP hr).2
      exact X.hRAJ ⟨h1.1, h1.2.1, (X.h.r2 r h1.1 h1.2.1).2 h2⟩
  · intro r hr c hc
    rcases X.hRA hr with ⟨rfl, hX⟩ | ⟨hrJ, hne⟩
    · rw [X.hrowN hX] at hc
      have := X.hPA (mem_lv.1 hc).1
      exact ⟨this.1, this.2.1⟩
    · rw [X.hrowO hrJ] at hc
      exact X.b.inc.rv r (X.hGJ hrJ).2.1 c hc
  · intro c hc
    rw [X.hCA] at hc
    rcases X.hcase hc with hcX | hcP
    · rw [X.hcolX hcX, List.nodup_append]
      refine ⟨(X.b.inc.cn c (X.hPA (mem_lv.1 hcX).1)).filter _, by simp, ?_⟩
      intro r hr r' hr'
      rw [List.mem_singleton] at hr'
      rintro rfl
      subst hr'
      exact X.hprowF (hXm hcX) c hr
    · rw [X.hcolO hc hcP]
      exact X.b.inc.cn c (X.hcs hc).1
  · intro r hr
    rcases X.hRA hr with ⟨rfl, hX⟩ | ⟨hrJ, hne⟩
    · rw [X.hrowN hX]; exact X.b.nd.filter _
    · rw [X.hrowO hrJ]; exact X.b.inc.rn r (X.hGJ hrJ).2.1
  · intro c r hc hr
    rw [X.hCA] at hc
    rcases X.hRA hr with ⟨rfl, hX⟩ | ⟨hrJ, hne⟩
    · rw [X.hrowN hX]
      rcases X.hcase hc with hcX | hcP
      · rw [X.hcolX hcX]; simp [hcX]
      · rw [X.hcolO hc hcP]
        have h1 := X.hprowO hX hc hcP
        exact ⟨fun hh => absurd hh h1, fun hh => absurd (mem_lv.1 hh).1 hcP⟩
    · rw [X.hrowO hrJ, X.hsy hc hrJ]
      exact X.b.inc.sy c r (X.hcs hc).1 (X.hGJ hrJ).2.1
  · intro r hr
    rcases X.hRA hr with ⟨rfl, hX⟩ | ⟨hrJ, hne⟩
    · rw [(X.f.new hX).2.2.1]
      refine ⟨?_, (X.h.deg_pos (fun c hc => ⟨(X.hPA hc).1, (X.hPA hc).2.1⟩)).2 hX⟩
      rw [X.h.dg]
      unfold rdeg tsum
      rw [X.hrowN hX, X.f.cs, X.f.c1]
      refine sum_ite_congr ?_ (fun _ _ _ _ => rfl)
      intro c _ _
      rw [mem_lv]
      exact ⟨fun hh => ⟨hh.2, hh⟩, fun hh => hh.2⟩
    · rw [(X.f.old r hne).2.2.1]
      have := X.b.inc.dg r (X.hGJ hrJ).2.1
      refine ⟨?_, this.2⟩
      rw [this.1, ← X.h.rd r hrJ]
      unfold rdeg tsum
      rw [X.hrowO hrJ, X.f.cs, X.f.c1]
  · intro c hc
    rw [X.hCA] at hc
    rw [X.f.c1]; exact X.h.th c hc
  · have := X.h.gh.kn
    have := X.h.tot
    unfold tsum at this ⊢
    rw [X.f.cs, X.f.c1]
    omega

theorem sc (hsc : ∀ c, CA n F0 c → c ≠ piv → nsum n F0 c ≤ F0 .c2 c) : Sc n F := by
  intro c hc
  rw [X.hCA] at hc
  have hkn := X.h.gh.kn
  rcases X.hcase hc with hcX | hcP
  · rw [X.f.c2, if_pos hcX]
    have h1 := X.nsum1 hc
    have h2 := X.nsum2 hcX
    obtain ⟨h4, h5, h6⟩ := X.h.c2 c (mem_lv.1 hcX).1 hc.2.2
    have h7 := X.h.le_deg hc (mem_lv.1 hcX).1
    have h8 := X.h.th c hc
    unfold fsc
    omega
  · obtain ⟨u1, u2, u3⟩ := X.hcs hc
    rw [X.f.c2, if_neg (fun hh => hcP (mem_lv.1 hh).1), (X.h.co c hcP u2).2.2]
    refine le_trans ?_ (le_trans (X.h.ns c u1 hcP u2) (hsc c u1 u2))
    unfold nsum tsum
    rw [X.f.cs, X.f.c1]
    refine sum_ite_mono ?_ ?_
    · rintro x x0 x1 ⟨hx, hxc, r, hr, hr'⟩
      refine ⟨hx, hxc, r, ?_, ?_⟩
      · rwa [X.hcolO hc hcP] at hr
      · rw [X.hcolO hc hcP] at hr
        have hxa : CA n J x := ⟨x0, x1, hx⟩
        have h1 := X.b.inc.cv c u1 r hr
        have h2 := (X.b.out u1 u2 hcP hr).2
        exact (X.hsy hxa ⟨h1.1, h1.2.1, (X.h.r2 r h1.1 h1.2.1).2 h2⟩).1 hr'
    · intro x x0 x1 hx; have := X.h.th x ⟨x0, x1, hx.1⟩; omega

theorem dl : DL n F (CA n F) rk' := by
  refine X.f.dl.congr (fun c => ?_) (fun _ _ _ => rfl) (fun _ _ => rfl) (fun _ _ => rfl)
    (fun _ _ => rfl)
  rw [X.hCA]
  constructor
  · intro hc
    rcases X.hcase hc with hcX | hcP
    · exact Or.inr hcX
    · exact Or.inl ⟨(X.hcs hc).1, (X.hcs hc).2.1, hcP⟩
  · rintro (⟨h1, h2, h3⟩ | hcX)
    · refine ⟨h1.1, h1.2.1, ?_⟩
      rw [(X.h.co c h3 h2).1]; exact h1.2.2
    · exact X.hcc hcX

theorem msn (hms : ms0 ≤ n ∧ ∀ c, CA n F0 c → c ≠ piv → c ∉ P → ms0 ≤ F0 .c2 c) :
    0 ≤ ms ∧ ms ≤ n ∧ ∀ d, 0 ≤ d → d < ms → F .p d = -1 := by
  obtain ⟨w1, w2, w3⟩ := X.f.ms
  refine ⟨w1, by omega, ?_⟩
  intro d d0 d1
  rcases X.f.dl.hd d d0 (by omega) with a | ⟨a, a2, _⟩
  · exact a
  · exfalso
    rcases a with ⟨a, a', a''⟩ | a
    · have := hms.2 _ a a' a''
      rw [X.f.c2, if_neg (fun hh => a'' (mem_lv.1 hh).1), (X.h.co _ a'' a').2.2] at a2
      omega
    · have := w3 _ a
      omega

theorem mar {mxd : ℤ} (hmx : mx ≤ mxd) (hdx : deg ≤ mxd) : Mk m tg' mxd F := by
  obtain ⟨w1, w0, w2⟩ := X.h.tg
  refine ⟨w1, w0, ?_, ?_⟩
  · intro r hr
    rcases X.hRA hr with ⟨rfl, hX⟩ | ⟨hrJ, hne⟩
    · rw [(X.f.new hX).2.2.2]; exact lt_of_lt_of_le one_pos w1
    · rw [(X.f.old r hne).2.2.2]; exact w2 r hrJ
  · intro r hr
    rcases X.hRA hr with ⟨rfl, hX⟩ | ⟨hrJ, hne⟩
    · rw [(X.f.new hX).2.2.1]; exact hdx
    · rw [(X.f.old r hne).2.2.1]
      have := X.b.mar.md r (X.hGJ hrJ).2.1
      omega

theorem gh : Gh n n2 k F (fun c => F .cs c = -1) root e := by
  refine X.h.gh.congr le_rfl X.h.gh.kn.2.1 ?_ ?_ ?_ ?_
  · intro c c0 c1; rw [X.f.cs]; exact ⟨Iff.rfl, X.h.gh.kd c c0 c1⟩
  · intro c _ _; rw [X.f.c1]
  · intro c _ _ hc; rwa [X.f.cs] at hc
  · intro c _ _ hc
    rw [X.f.c2, if_neg]
    intro hh
    have := (mem_lv.1 hh).2
    rw [X.f.cs] at hc
    omega

end CX

theorem finish_spec {mxd : ℤ} (b : PB n m nnz B mx F0 G piv pf0 tag ag P rk)
    (h : BF n m Al B n2 F0 G piv pf0 tag P k deg tg' rk root e s J)
    (hsc : ∀ c, CA n F0 c → c ≠ piv → nsum n F0 c ≤ F0 .c2 c)
    (hms : 0 ≤ ms0 ∧ ms0 ≤ n ∧ ∀ c, CA n F0 c → c ≠ piv → c ∉ P → ms0 ≤ F0 .c2 c)
    (hpr : P ≠ [] → prow ∈ colL F0 piv) (hAl : pf0 + P.length ≤ Al) (hal : 2 * nnz + n ≤ Al)
    (hmx : mx ≤ mxd) (hdx : deg ≤ mxd) (hmn : 0 ≤ mxd ∧ mxd ≤ n) :
    wp (do
        let z ← finalize n k prow deg pf0 P.length ms0 s
        let s ← resurrect prow pf0 z.2.1 deg z.1
        pure (s, z.2.2))
      (fun z => ∃ F' rk', Inv n m nnz n2 Al ⟨z.1, k, z.2, tg', mxd, pf0 + P.length⟩ F' B rk'
        root e) noFail := by
  refine wp_post (finalize_resurrect b h hms.1 hpr) ?_
  rintro ⟨s', ms⟩ ⟨F, rk', hf⟩
  have X : CX n m nnz Al B n2 mx F0 G J F piv pf0 tag ag P k deg tg' prow ms0 ms rk rk' root e s s' :=
    ⟨b, h, hf, hpr⟩
  refine ⟨F, rk', hf.rp, hAl, hal, X.lay, X.inc, X.sc hsc, ?_, X.dl, X.msn hms.2, X.mar hmx hdx, hmn, X.gh⟩
  dsimp only
  rw [← h.tot]
  unfold tsum
  rw [hf.cs, hf.c1]

end

end Slip.Colamd
