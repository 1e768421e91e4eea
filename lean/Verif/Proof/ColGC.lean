import Verif.Proof.ColPre

/-!
# COLAMD: garbage collection
-/

namespace Slip.Colamd

set_option linter.unusedSectionVars false

variable [Arith]
variable {n m Al L nnz B pf : ℤ} {s : Mem} {F F1 : Sh}

theorem gcCopy_spec {f : Fld} (hf : f ≠ .A) (h : Rm n m Al L s F) {src len dst : ℤ}
    (h0 : 0 ≤ dst) (h1 : dst ≤ src) (hlen : 0 ≤ len) (hL : src + len ≤ L)
    (hr : ∀ x ∈ seg (F .A) src len, Dom n m L f x) :
    wp (gcCopy f src len dst s) (fun z => ∃ F' X,
      X = (seg (F .A) src len).filter (fun x => decide (0 ≤ F f x)) ∧ Rm n m Al L z.1 F' ∧
      (∀ g, g ≠ .A → F' g = F g) ∧
      (∀ i, ¬ (dst ≤ i ∧ i < dst + X.length) → F' .A i = F .A i) ∧
      seg (F' .A) dst X.length = X ∧ z.2 = dst + X.length) noFail := by
  unfold gcCopy
  refine wp_post (wp_seg (A := F .A) hlen (fun pre z => ∃ F' X,
      X = pre.filter (fun x => decide (0 ≤ F f x)) ∧ Rm n m Al L z.1 F' ∧
      (∀ g, g ≠ .A → F' g = F g) ∧
      (∀ i, ¬ (dst ≤ i ∧ i < dst + X.length) → F' .A i = F .A i) ∧
      seg (F' .A) dst X.length = X ∧ z.2 = dst + X.length) ?_ ?_) fun z hz => hz
  · exact ⟨F, [], by simp, h, fun _ _ => rfl, fun _ _ => rfl, by simp, by simp⟩
  · rintro pre x post ⟨s, d⟩ hX hx hlt ⟨F', X, hXe, g, a1, a2, a3, a4⟩
    dsimp only at g a4 ⊢
    have hxm : x ∈ seg (F .A) src len := by rw [hX]; simp
    have hXl : X.length ≤ pre.length := by rw [hXe]; exact List.length_filter_le _ _
    rw [g.rd (f := .A) (show 0 ≤ src + ↑pre.length ∧ src + ↑pre.length < L from
      ⟨by omega, by omega⟩), ok_bind, a2 _ (by omega), hx, g.rd (f := f) (hr x hxm), ok_bind,
      a1 f hf]
    by_cases hd : F f x ≥ 0
    · rw [if_pos hd, a4]
      obtain ⟨s1, e1, g1⟩ := g.wr (f := .A) (i := dst + X.length) ⟨by omega, by omega⟩ x
      rw [e1, ok_bind, wp_pure]
      dsimp only
      refine ⟨_, X ++ [x], ?_, g1, ?_, ?_, ?_, ?_⟩
      · rw [List.filter_append, ← hXe]
        have : ([x].filter fun r => decide (0 ≤ F f r)) = [x] := by
          simp only [List.filter_cons, List.filter_nil]
          rw [if_pos (decide_eq_true (by omega))]
        rw [this]
      · intro f hf; rw [set_ne _ hf]; exact a1 f hf
      · intro i hi
        simp only [List.length_append, List.length_singleton] at hi
        push_cast at hi
        rw [set_apply, if_neg (by omega)]
        exact a2 i (by omega)
      · have : ((X ++ [x]).length : ℤ) = X.length + 1 := by simp
        rw [this, seg_succ _ (by omega)]
        congr 1
        · rw [seg_congr (B := F' .A), a3]
          intro i _ hi
          rw [set_apply, if_neg (by omega)]
        · rw [set_apply]; simp
      · simp; omega
    · rw [if_neg hd, wp_pure]
      refine ⟨F', X, ?_, g, a1, a2, a3, a4⟩
      rw [List.filter_append, ← hXe]
      have : ([x].filter fun r => decide (0 ≤ F f r)) = [] := by
        simp only [List.filter_cons, List.filter_nil]
        rw [if_neg (by simp; omega)]
      rw [this, List.append_nil]

/-- The state while the columns are moved: the columns below `i` are done. -/
structure GC (n m Al B pf : ℤ) (F1 : Sh) (i d : ℤ) (s : Mem) (F : Sh) : Prop where
  rp : Rm n m Al pf s F
  dd : d = ∑ c ∈ Finset.Ico 0 n, if 0 ≤ F1 .cs c ∧ c < i then F1 .cl c else 0
  d0 : 0 ≤ d
  dB : d ≤ B
  dl : ∀ c, CA n F1 c → i ≤ c → d ≤ F1 .cs c
  eq : ∀ f, f ≠ .A → f ≠ .cs → f ≠ .cl → F f = F1 f
  A : ∀ j, d ≤ j → F .A j = F1 .A j
  un : ∀ c, i ≤ c → F .cs c = F1 .cs c
  de : ∀ c, F1 .cs c < 0 → F .cs c = F1 .cs c
  cl : ∀ c, F .cl c = F1 .cl c
  don : ∀ c, CA n F1 c → c < i → 0 ≤ F .cs c ∧ F .cs c + F .cl c ≤ d ∧ colL F c = colL F1 c
  co : ∀ c c', CA n F1 c → CA n F1 c' → c < c' → c' < i → F .cs c + F .cl c ≤ F .cs c'
  nn : ∀ j, 0 ≤ j → j < pf → 0 ≤ F .A j

theorem gcCols_spec (lay : Lay n m nnz B pf F) (inc : Inc n m F) (hn : 0 ≤ n)
    (h : Rm n m Al pf s F) :
    wp (gcCols n s) (fun z => ∃ F', GC n m Al B pf F n z.2 z.1 F') noFail := by
  unfold gcCols
  refine wp_forRange (fun i (z : Mem × ℤ) => ∃ F', GC n m Al B pf F i z.2 z.1 F') hn ?_ ?_
  · refine ⟨F, ?_⟩
    constructor
    · exact h
    · symm
      apply Finset.sum_eq_zero
      intro c hc
      rw [Finset.mem_Ico] at hc
      rw [if_neg (by omega)]
    · exact le_rfl
    · exact lay.B0
    · intro c hc _; exact hc.2.2
    · intros; rfl
    · intros; rfl
    · intros; rfl
    · intros; rfl
    · intros; rfl
    · intro c hc hc0; exact absurd hc.1 (by omega)
    · intro c c' hc hc' _ hc0; exact absurd hc'.1 (by omega)
    · exact lay.nn
  · rintro i ⟨s, d⟩ i0 i1 ⟨F', g⟩
    dsimp only at g ⊢
    have hBp := lay.Bp
    have d0 := g.d0
    have dB := g.dB
    rw [g.rp.rd (f := .cs) (show 0 ≤ i ∧ i < n from ⟨i0, i1⟩), ok_bind, g.un i le_rfl]
    by_cases ha : F .cs i ≥ 0
    · rw [if_pos ha]
      have hc : CA n F i := ⟨i0, i1, ha⟩
      have hcb := lay.cb i hc
      have hdl := g.dl i hc le_rfl
      obtain ⟨s1, e1, g1⟩ := g.rp.wr (f := .cs) (i := i) ⟨i0, i1⟩ d
      rw [e1, ok_bind, g1.rd (f := .cl) (show 0 ≤ i ∧ i < n from ⟨i0, i1⟩), ok_bind,
        set_ne _ (by decide), g.cl i]
      have hseg : seg (F' .A) (F .cs i) (F .cl i) = colL F i :=
        seg_congr fun j h1 h2 => g.A j (by omega)
      have er2 : F' .r2 = F .r2 := g.eq .r2 (by decide) (by decide) (by decide)
      refine wp_bind_ok (gcCopy_spec (f := .r2) (by decide) g1 d0 hdl hcb.1 (by omega) ?_) ?_
      · intro x hx
        rw [set_ne _ (by decide), hseg] at hx
        have := inc.cv i hc x hx
        exact ⟨this.1, this.2.1⟩
      rintro ⟨s2, d'⟩ ⟨F2, X, hX, g2, a1, a2, a3, a4⟩
      dsimp only at g2 a4 ⊢
      have hXe : X = colL F i := by
        rw [hX, set_ne _ (by decide), set_ne _ (by decide), hseg, er2]
        apply List.filter_eq_self.2
        intro x hx
        exact decide_eq_true (inc.cv i hc x hx).2.2
      have hXl : (X.length : ℤ) = F .cl i := by
        rw [hXe, colL, length_seg]; omega
      have hd' : d' = d + F .cl i := by omega
      obtain ⟨s3, e3, g3⟩ := g2.wr (f := .cl) (i := i) ⟨i0, i1⟩ (d' - d)
      rw [e3, ok_bind, wp_pure]
      rw [hXl] at a2 a3
      generalize hF3 : set F2 .cl i (d' - d) = F3 at g3
      have b1 : ∀ f, f ≠ .A → f ≠ .cs → f ≠ .cl → F3 f = F' f := by
        intro f h1 h2 h3
        rw [← hF3, set_ne _ h3, a1 f h1, set_ne _ h2]
      have bcs : ∀ c, F3 .cs c = if c = i then d else F' .cs c := by
        intro c
        rw [← hF3, set_ne _ (by decide), a1 .cs (by decide), set_apply]
        simp
      have bcl : ∀ c, F3 .cl c = F .cl c := by
        intro c
        rw [← hF3, set_apply, a1 .cl (by decide), set_ne _ (by decide)]
        by_cases hci : c = i
        · subst hci; rw [if_pos ⟨rfl, rfl⟩]; omega
        · rw [if_neg (fun hh => hci hh.2)]; exact g.cl c
      have bA : ∀ j, ¬ (d ≤ j ∧ j < d + F .cl i) → F3 .A j = F' .A j := by
        intro j hj
        rw [← hF3, set_ne _ (by decide), a2 j hj, set_ne _ (by decide)]
      have bS : seg (F3 .A) d (F .cl i) = colL F i := by
        rw [← hF3, set_ne _ (by decide), a3, hXe]
      refine ⟨F3, ?_⟩
      dsimp only
      constructor
      · exact g3
      · rw [hd', g.dd]
        have : (∑ c ∈ Finset.Ico 0 n, if 0 ≤ F .cs c ∧ c < i then F .cl c else 0)
            = (∑ c ∈ Finset.Ico 0 n, if 0 ≤ F .cs c ∧ c < i + 1 then F .cl c else 0) - F .cl i :=
          sum_ite_erase i0 i1 ⟨ha, by omega⟩ (fun c _ _ => by
            constructor
            · rintro ⟨h1, h2⟩; exact ⟨⟨h1, by omega⟩, by omega⟩
            · rintro ⟨⟨h1, h2⟩, h3⟩; exact ⟨h1, by omega⟩)
        rw [this]; ring
      · omega
      · omega
      · intro c hcc hci
        have := lay.co i c hc hcc (by omega)
        omega
      · intro f h1 h2 h3; rw [b1 f h1 h2 h3]; exact g.eq f h1 h2 h3
      · intro j hj; rw [bA j (by omega)]; exact g.A j (by omega)
      · intro c hci; rw [bcs, if_neg (by omega)]; exact g.un c (by omega)
      · intro c hc0; rw [bcs, if_neg (by rintro rfl; omega)]; exact g.de c hc0
      · exact bcl
      · intro c hcc hci
        by_cases hce : c = i
        · subst hce
          rw [bcs, if_pos rfl, bcl]
          refine ⟨d0, by omega, ?_⟩
          unfold colL
          rw [bcs, if_pos rfl, bcl, bS]; rfl
        · obtain ⟨u1, u2, u3⟩ := g.don c hcc (by omega)
          rw [g.cl] at u2
          rw [bcs, if_neg hce, bcl]
          refine ⟨u1, by omega, ?_⟩
          rw [← u3]
          unfold colL
          rw [bcs, if_neg hce, bcl, g.cl]
          refine seg_congr fun j h1 h2 => bA j (by omega)
      · intro c c' hcc hcc' hl hl'
        rw [bcl]
        by_cases hce : c' = i
        · subst hce
          have := g.don c hcc (by omega)
          rw [g.cl] at this
          rw [bcs, if_neg (by omega), bcs, if_pos rfl]; omega
        · have := g.co c c' hcc hcc' hl (by omega)
          rw [g.cl] at this
          rw [bcs, if_neg (by omega), bcs, if_neg hce]; exact this
      · intro j h0 h1
        by_cases hj : d ≤ j ∧ j < d + F .cl i
        · have : F3 .A j ∈ colL F i := by rw [← bS]; exact mem_seg.2 ⟨j, hj.1, hj.2, rfl⟩
          exact (inc.cv i hc _ this).1
        · rw [bA j hj]; exact g.nn j h0 h1
    · rw [if_neg ha, wp_pure]
      obtain ⟨a1, a2, a3, a4, a5, a6, a7, a8, a9, a10, a11, a12, a13⟩ := g
      refine ⟨F', a1, ?_, a3, a4, fun c hc hci => a5 c hc (by omega), a6, a7,
        fun c hci => a8 c (by omega), a9, a10, ?_, ?_, a13⟩
      · dsimp only
        rw [a2]
        refine sum_ite_congr ?_ (fun _ _ _ _ => rfl)
        intro c _ _
        constructor
        · rintro ⟨h1, h2⟩; exact ⟨h1, by omega⟩
        · rintro ⟨h1, h2⟩
          refine ⟨h1, ?_⟩
          by_contra hh
          have : c = i := by omega
          subst this; omega
      · intro c hc hci
        have : c ≠ i := by rintro rfl; exact ha hc.2.2
        exact a11 c hc (by omega)
      · intro c c' hc hc' hl hl'
        have : c' ≠ i := by rintro rfl; exact ha hc'.2.2
        exact a12 c c' hc hc' hl (by omega)

/-- The layout after the columns have been moved: everything is the same except that the columns
are below `d`. -/
theorem GC.lay (lay : Lay n m nnz B pf F1) (inc : Inc n m F1) {d : ℤ}
    (g : GC n m Al B pf F1 n d s F) :
    Lay n m nnz d pf F ∧ Inc n m F ∧ (∀ c, 0 ≤ c → c < n → (0 ≤ F .cs c ↔ 0 ≤ F1 .cs c)) ∧
      (∀ c, CA n F c → colL F c = colL F1 c) ∧ (∀ r, RA m F1 r → rowL F r = rowL F1 r) ∧
      d = ∑ c ∈ Finset.Ico 0 n, if 0 ≤ F .cs c then F .cl c else 0 := by
  have hcs : ∀ c, 0 ≤ c → c < n → (0 ≤ F .cs c ↔ 0 ≤ F1 .cs c) := by
    intro c c0 c1
    constructor
    · intro hh
      by_contra hc
      rw [g.de c (by omega)] at hh
      exact hc hh
    · intro hh; exact (g.don c ⟨c0, c1, hh⟩ c1).1
  have hCA : ∀ c, CA n F c → CA n F1 c := fun c hc => ⟨hc.1, hc.2.1, (hcs c hc.1 hc.2.1).1 hc.2.2⟩
  have er : ∀ f, f = .rs ∨ f = .rl ∨ f = .r1 ∨ f = .r2 ∨ f = .c1 → F f = F1 f := by
    intro f hf
    apply g.eq <;> rcases hf with rfl | rfl | rfl | rfl | rfl <;> decide
  have ers := er .rs (by simp)
  have erl := er .rl (by simp)
  have er1 := er .r1 (by simp)
  have er2 := er .r2 (by simp)
  have ec1 := er .c1 (by simp)
  have hRA : ∀ r, RA m F r ↔ RA m F1 r := fun r => by unfold RA; rw [er2]
  have hrow : ∀ r, RA m F1 r → rowL F r = rowL F1 r := by
    intro r hr
    have := lay.rb r hr
    have := g.dB
    unfold rowL
    rw [ers, erl]
    exact seg_congr fun j h1 h2 => g.A j (by omega)
  have hcol : ∀ c, CA n F c → colL F c = colL F1 c := fun c hc =>
    (g.don c (hCA c hc) hc.2.1).2.2
  have hBp := lay.Bp
  have hBn := lay.Bn
  have hdB := g.dB
  refine ⟨?_, ?_, hcs, hcol, hrow, ?_⟩
  · constructor
    · exact g.d0
    · omega
    · omega
    · intro c hc
      have h1 := lay.cb c (hCA c hc)
      have h2 := g.don c (hCA c hc) hc.2.1
      rw [g.cl] at h2 ⊢
      exact ⟨h1.1, h2.2.1⟩
    · intro c c' hc hc' hl
      exact g.co c c' (hCA c hc) (hCA c' hc') hl hc'.2.1
    · intro r hr
      rw [hRA] at hr
      have := lay.rb r hr
      rw [ers, erl]; omega
    · intro r r' hr hr' hne
      rw [hRA] at hr hr'
      rw [ers, erl]; exact lay.rd r r' hr hr' hne
    · exact g.nn
  · constructor
    · intro c hc r hr
      rw [hcol c hc] at hr
      rw [hRA]; exact inc.cv c (hCA c hc) r hr
    · intro r hr c hc
      rw [hRA] at hr
      rw [hrow r hr] at hc
      exact inc.rv r hr c hc
    · intro c hc; rw [hcol c hc]; exact inc.cn c (hCA c hc)
    · intro r hr
      rw [hRA] at hr
      rw [hrow r hr]; exact inc.rn r hr
    · intro c r hc hr
      rw [hRA] at hr
      rw [hcol c hc, hrow r hr]; exact inc.sy c r (hCA c hc) hr
    · intro r hr
      rw [hRA] at hr
      rw [er1]
      refine ⟨?_, (inc.dg r hr).2⟩
      rw [(inc.dg r hr).1]
      unfold rdeg
      rw [hrow r hr, ec1]
      refine sum_ite_congr ?_ (fun _ _ _ _ => rfl)
      intro c c0 c1
      rw [hcs c c0 c1]
    · intro c hc; rw [ec1]; exact inc.th c (hCA c hc)
    · refine le_trans (le_of_eq ?_) inc.tt
      unfold tsum
      rw [ec1]
      exact sum_ite_congr hcs fun _ _ _ _ => rfl
  · rw [g.dd]
    refine sum_ite_congr ?_ ?_
    · intro c c0 c1
      rw [hcs c c0 c1]
      exact ⟨fun hh => hh.1, fun hh => ⟨hh, c1⟩⟩
    · intro c _ _ _; rw [g.cl]

/-! ## The rows -/

theorem Inc.row_pos (inc : Inc n m F) (lay : Lay n m nnz B pf F) {r : ℤ} (hr : RA m F r) :
    0 < F .rl r := by
  have h1 := (lay.rb r hr).1
  by_contra hh
  have h2 : F .rl r = 0 := by omega
  have h3 := inc.dg r hr
  unfold rdeg rowL at h3
  rw [h2, seg_zero] at h3
  simp at h3
  omega

/-- The markers have been put at the start of the live rows below `i`. -/
structure GM (n m Al pf : ℤ) (F1 : Sh) (i : ℤ) (s : Mem) (F : Sh) : Prop where
  rp : Rm n m Al pf s F
  eq : ∀ f, f ≠ .A → f ≠ .r2 → F f = F1 f
  mr : ∀ r, RA m F1 r → r < i → F .A (F1 .rs r) = -r - 1 ∧ F .r2 r = F1 .A (F1 .rs r)
  un : ∀ r, i ≤ r → F .r2 r = F1 .r2 r
  de : ∀ r, 0 ≤ r → r < m → F1 .r2 r < 0 → F .r2 r < 0
  A : ∀ j, (∀ r, RA m F1 r → r < i → F1 .rs r ≠ j) → F .A j = F1 .A j

theorem gcMark_spec (lay : Lay n m nnz B pf F1) (inc : Inc n m F1) (hm : 0 ≤ m)
    (h : Rm n m Al pf s F1) :
    wp (gcMark m s) (fun s' => ∃ F', GM n m Al pf F1 m s' F') noFail := by
  unfold gcMark
  refine wp_forRange (fun i (s' : Mem) => ∃ F', GM n m Al pf F1 i s' F') hm ?_ ?_
  · refine ⟨F1, h, fun _ _ _ => rfl, ?_, fun _ _ => rfl, fun _ _ _ hh => hh, fun _ _ => rfl⟩
    intro r hr hr0; exact absurd hr.1 (by omega)
  · rintro i s i0 i1 ⟨F, g⟩
    rw [g.rp.rd (f := .r2) (show 0 ≤ i ∧ i < m from ⟨i0, i1⟩), ok_bind,
      g.rp.rd (f := .rl) (show 0 ≤ i ∧ i < m from ⟨i0, i1⟩), ok_bind, g.un i le_rfl,
      g.eq .rl (by decide) (by decide)]
    by_cases ha : 0 ≤ F1 .r2 i
    · have hr : RA m F1 i := ⟨i0, i1, ha⟩
      have hp := inc.row_pos lay hr
      have hrb := lay.rb i hr
      have hB := lay.B0
      rw [if_neg (by omega), g.rp.rd (f := .rs) (show 0 ≤ i ∧ i < m from ⟨i0, i1⟩), ok_bind,
        g.eq .rs (by decide) (by decide),
        g.rp.rd (f := .A) (show 0 ≤ F1 .rs i ∧ F1 .rs i < pf from ⟨by omega, by omega⟩), ok_bind]
      have hsep : ∀ r, RA m F1 r → r ≠ i → F1 .rs r ≠ F1 .rs i := by
        intro r hr' hne
        have h1 := lay.rd r i hr' hr hne
        have h2 := inc.row_pos lay hr'
        omega
      have hA : F .A (F1 .rs i) = F1 .A (F1 .rs i) := by
        apply g.A
        intro r hr' hl
        exact hsep r hr' (by omega)
      rw [hA]
      obtain ⟨s1, e1, g1⟩ := g.rp.wr (f := .r2) (i := i) ⟨i0, i1⟩ (F1 .A (F1 .rs i))
      rw [e1, ok_bind]
      obtain ⟨s2, e2, g2⟩ := g1.wr (f := .A) (i := F1 .rs i) ⟨by omega, by omega⟩ (-i - 1)
      cks g1
      cks g1
      rw [e2, wp_ok]
      refine ⟨_, g2, ?_, ?_, ?_, ?_, ?_⟩
      · intro f h1 h2; rw [set_ne _ h1, set_ne _ h2]; exact g.eq f h1 h2
      · intro r hr' hl
        rw [set_apply, set_ne _ (by decide), set_ne _ (by decide), set_apply]
        by_cases hri : r = i
        · subst hri; simp
        · have := hsep r hr' hri
          rw [if_neg (fun hh => this hh.2), if_neg (fun hh => hri hh.2)]
          exact g.mr r hr' (by omega)
      · intro r hl
        rw [set_ne _ (by decide), set_apply, if_neg (by omega)]
        exact g.un r (by omega)
      · intro r r0 r1 hd
        rw [set_ne _ (by decide), set_apply, if_neg]
        · exact g.de r r0 r1 hd
        · rintro ⟨_, rfl⟩; omega
      · intro j hj
        have := hj i hr (by omega)
        rw [set_apply, if_neg (fun hh => this hh.2.symm), set_ne _ (by decide)]
        exact g.A j fun r hr' hl => hj r hr' (by omega)
    · rw [if_pos (by omega)]
      obtain ⟨s1, e1, g1⟩ := g.rp.wr (f := .r2) (i := i) ⟨i0, i1⟩ (-1)
      rw [e1, wp_ok]
      refine ⟨_, g1, ?_, ?_, ?_, ?_, ?_⟩
      · intro f h1 h2; rw [set_ne _ h2]; exact g.eq f h1 h2
      · intro r hr' hl
        have hri : r ≠ i := by rintro rfl; exact ha hr'.2.2
        rw [set_ne _ (by decide), set_apply, if_neg (fun hh => hri hh.2)]
        exact g.mr r hr' (by omega)
      · intro r hl
        rw [set_apply, if_neg (by omega)]
        exact g.un r (by omega)
      · intro r r0 r1 hd
        rw [set_apply]
        split_ifs
        · omega
        · exact g.de r r0 r1 hd
      · intro j hj
        rw [set_ne _ (by decide)]
        exact g.A j fun r hr' hl => hj r hr' (by omega)

/-- The live columns of row `r`. -/
def rlv (F : Sh) (r : ℤ) : List ℤ := (rowL F r).filter fun c => decide (0 ≤ F .cs c)

/-- The number of entries of the live rows that begin below `src`. -/
def wcnt (m : ℤ) (F : Sh) (src : ℤ) : ℤ :=
  ∑ r ∈ Finset.Ico 0 m, if 0 ≤ F .r2 r ∧ F .rs r < src then ((rlv F r).length : ℤ) else 0

/-- The state while the rows are moved: the rows that begin below `src` are done. -/
structure GR (n m Al B pf : ℤ) (F1 : Sh) (src dst : ℤ) (s : Mem) (F : Sh) : Prop where
  rp : Rm n m Al pf s F
  ds : B ≤ dst ∧ dst ≤ src ∧ src ≤ pf
  eq : ∀ f, f ≠ .A → f ≠ .rs → f ≠ .rl → f ≠ .r2 → F f = F1 f
  aB : ∀ j, j < B → F .A j = F1 .A j
  un : ∀ r, RA m F1 r → src ≤ F1 .rs r → F .A (F1 .rs r) = -r - 1 ∧ F .r2 r = F1 .A (F1 .rs r) ∧
    F .rs r = F1 .rs r ∧ F .rl r = F1 .rl r
  ua : ∀ j, src ≤ j → j < pf → (∀ r, RA m F1 r → F1 .rs r ≠ j) → F .A j = F1 .A j
  sep : ∀ r, RA m F1 r → F1 .rs r + F1 .rl r ≤ src ∨ src ≤ F1 .rs r
  dn : ∀ r, RA m F1 r → F1 .rs r < src → B ≤ F .rs r ∧ 0 ≤ F .rl r ∧ F .rs r + F .rl r ≤ dst ∧
    rowL F r = rlv F1 r
  dj : ∀ r r', RA m F1 r → RA m F1 r' → F1 .rs r < src → F1 .rs r' < src → r ≠ r' →
    F .rs r + F .rl r ≤ F .rs r' ∨ F .rs r' + F .rl r' ≤ F .rs r
  r2 : ∀ r, 0 ≤ r → r < m → (0 ≤ F .r2 r ↔ 0 ≤ F1 .r2 r)
  nn : ∀ j, 0 ≤ j → j < dst → 0 ≤ F .A j
  cnt : dst - B = wcnt m F1 src

theorem GM.start (lay : Lay n m nnz B pf F1) (inc : Inc n m F1)
    (g : GM n m Al pf F1 m s F) : GR n m Al B pf F1 B B s F := by
  have hst : ∀ r, RA m F1 r → 0 ≤ F1 .A (F1 .rs r) := by
    intro r hr
    have h1 := lay.rb r hr
    have h2 := inc.row_pos lay hr
    have h3 := lay.B0
    exact lay.nn _ (by omega) (by omega)
  constructor
  · exact g.rp
  · exact ⟨le_rfl, le_rfl, lay.Bp⟩
  · intro f h1 _ _ h4; exact g.eq f h1 h4
  · intro j hj
    apply g.A
    intro r hr _ hh
    have := lay.rb r hr
    omega
  · intro r hr _
    obtain ⟨a, b⟩ := g.mr r hr hr.2.1
    exact ⟨a, b, by rw [g.eq .rs (by decide) (by decide)], by rw [g.eq .rl (by decide) (by decide)]⟩
  · intro j _ _ hj
    exact g.A j fun r hr _ => hj r hr
  · intro r hr; exact Or.inr (lay.rb r hr).2.1
  · intro r hr hl
    have := lay.rb r hr
    omega
  · intro r r' hr _ hl
    have := lay.rb r hr
    omega
  · intro r r0 r1
    by_cases hh : 0 ≤ F1 .r2 r
    · have hr : RA m F1 r := ⟨r0, r1, hh⟩
      rw [(g.mr r hr r1).2]
      exact ⟨fun _ => hh, fun _ => hst r hr⟩
    · have := g.de r r0 r1 (by omega)
      constructor
      · intro _; omega
      · intro _; omega
  · intro j j0 j1
    rw [g.A]
    · exact lay.nn j j0 (by have := lay.Bp; omega)
    · intro r hr _ hh
      have := lay.rb r hr
      omega
  · unfold wcnt
    rw [sub_self]
    symm
    apply Finset.sum_eq_zero
    intro r hr
    rw [Finset.mem_Ico] at hr
    rw [if_neg]
    rintro ⟨h1, h2⟩
    have := lay.rb r ⟨hr.1, hr.2, h1⟩
    omega

theorem gcRows_spec (lay : Lay n m nnz B pf F1) (inc : Inc n m F1) : ∀ (fuel : ℕ) (src dst : ℤ)
    (s : Mem) (F : Sh), GR n m Al B pf F1 src dst s F → (pf - src).toNat < fuel →
    wp (gcRows fuel src dst pf s) (fun z => ∃ F', GR n m Al B pf F1 pf z.2 z.1 F') noFail := by
  intro fuel
  induction fuel with
  | zero => intro src dst s F _ hf; omega
  | succ fuel ih =>
    intro src dst s F g hf
    have hB := lay.B0
    obtain ⟨d1, d2, d3⟩ := g.ds
    rw [gcRows]
    by_cases hlt : src < pf
    · rw [if_pos hlt, g.rp.rd (f := .A) (show 0 ≤ src ∧ src < pf from ⟨by omega, hlt⟩), ok_bind]
      by_cases hex : ∃ r, RA m F1 r ∧ F1 .rs r = src
      · obtain ⟨r, hr, hrs⟩ := hex
        obtain ⟨u1, u2, u3, u4⟩ := g.un r hr (by omega)
        rw [hrs] at u1
        have hr' : 0 ≤ r ∧ r < m := ⟨hr.1, hr.2.1⟩
        have hrb := lay.rb r hr
        have hpos := inc.row_pos lay hr
        have hr0 := hr.1
        rw [u1, if_pos (by omega)]
        dsimp only
        cks g.rp
        cks g.rp
        rw [show -(-r - 1) - 1 = r by ring,
          g.rp.rd (f := .r2) (show 0 ≤ r ∧ r < m from hr'), ok_bind, u2]
        obtain ⟨s1, e1, g1⟩ := g.rp.wr (f := .A) (i := src) ⟨by omega, hlt⟩ (F1 .A (F1 .rs r))
        rw [e1, ok_bind]
        obtain ⟨s2, e2, g2⟩ := g1.wr (f := .rs) (i := r) hr' dst
        rw [e2, ok_bind, g2.rd (f := .rl) (show 0 ≤ r ∧ r < m from hr'), ok_bind,
          set_ne _ (by decide), set_ne _ (by decide), u4]
        generalize hF2 : set (set F .A src (F1 .A (F1 .rs r))) .rs r dst = F2 at g2
        have c1 : ∀ f, f ≠ .A → f ≠ .rs → F2 f = F f := by
          intro f h1 h2; rw [← hF2, set_ne _ h2, set_ne _ h1]
        have cA : ∀ j, F2 .A j = if j = src then F1 .A src else F .A j := by
          intro j
          rw [← hF2, set_ne _ (by decide), set_apply, hrs]; simp
        have crs : ∀ x, F2 .rs x = if x = r then dst else F .rs x := by
          intro x
          rw [← hF2, set_apply, set_ne _ (by decide)]; simp
        have hoth : ∀ r', RA m F1 r' → r' ≠ r → F1 .rs r' < src + F1 .rl r → F1 .rs r' < src := by
          intro r' hr'' hne hl
          have h1 := lay.rd r' r hr'' hr hne
          have h2 := inc.row_pos lay hr''
          omega
        have hseg : seg (F2 .A) src (F1 .rl r) = rowL F1 r := by
          unfold rowL
          rw [hrs]
          refine seg_congr fun j h1 h2 => ?_
          rw [cA]
          split_ifs with hj
          · rw [hj]
          · apply g.ua j h1 (by omega)
            intro r' hr'' hh
            by_cases hne : r' = r
            · subst hne; omega
            · have := hoth r' hr'' hne (by omega); omega
        have ecs : F2 .cs = F1 .cs := by
          rw [c1 .cs (by decide) (by decide)]
          exact g.eq .cs (by decide) (by decide) (by decide) (by decide)
        refine wp_bind_ok (gcCopy_spec (f := .cs) (by decide) g2 (by omega) d2 (by omega)
          (by omega) ?_) ?_
        · intro x hx
          rw [hseg] at hx
          exact inc.rv r hr x hx
        rintro ⟨s3, dst'⟩ ⟨F3, X, hX, g3, a1, a2, a3, a4⟩
        dsimp only at g3 a4 ⊢
        have hXe : X = rlv F1 r := by
          rw [hX, hseg, ecs]; rfl
        have hXl : (X.length : ℤ) ≤ F1 .rl r := by
          have h1 : X.length ≤ (rowL F1 r).length := by
            rw [hXe]; exact List.length_filter_le _ _
          rw [rowL, length_seg] at h1
          omega
        obtain ⟨s4, e4, g4⟩ := g3.wr (f := .rl) (i := r) hr' (dst' - dst)
        rw [e4, ok_bind]
        generalize hF4 : set F3 .rl r (dst' - dst) = F4 at g4
        have q1 : ∀ f, f ≠ .A → f ≠ .rs → f ≠ .rl → F4 f = F f := by
          intro f h1 h2 h3; rw [← hF4, set_ne _ h3, a1 f h1, c1 f h1 h2]
        have qA : ∀ j, ¬ (dst ≤ j ∧ j < dst + X.length) → F4 .A j =
            if j = src then F1 .A src else F .A j := by
          intro j hj; rw [← hF4, set_ne _ (by decide), a2 j hj, cA]
        have qrs : ∀ x, F4 .rs x = if x = r then dst else F .rs x := by
          intro x; rw [← hF4, set_ne _ (by decide), a1 .rs (by decide), crs]
        have qrl : ∀ x, F4 .rl x = if x = r then (X.length : ℤ) else F .rl x := by
          intro x
          rw [← hF4, set_apply, a1 .rl (by decide), c1 .rl (by decide) (by decide)]
          by_cases hx : x = r
          · subst hx; simp; omega
          · simp [hx]
        have qS : seg (F4 .A) dst X.length = X := by rw [← hF4, set_ne _ (by decide)]; exact a3
        have hold : ∀ r', RA m F1 r' → r' ≠ r → F1 .rs r' < src + F1 .rl r →
            F4 .rs r' = F .rs r' ∧ F4 .rl r' = F .rl r' := by
          intro r' _ hne _
          rw [qrs, qrl, if_neg hne, if_neg hne]; exact ⟨rfl, rfl⟩
        refine ih _ _ _ F4 ?_ (by omega)
        constructor
        · exact g4
        · omega
        · intro f h1 h2 h3 h4; rw [q1 f h1 h2 h3]; exact g.eq f h1 h2 h3 h4
        · intro j hj; rw [qA j (by omega), if_neg (by omega)]; exact g.aB j hj
        · intro r' hr'' hl
          have hne : r' ≠ r := by rintro rfl; omega
          obtain ⟨v1, v2, v3, v4⟩ := g.un r' hr'' (by omega)
          rw [qA _ (by omega), if_neg (by omega), q1 .r2 (by decide) (by decide) (by decide), qrs,
            qrl, if_neg hne, if_neg hne]
          exact ⟨v1, v2, v3, v4⟩
        · intro j h1 h2 hj
          rw [qA j (by omega), if_neg (by omega)]
          exact g.ua j (by omega) h2 hj
        · intro r' hr''
          by_cases hne : r' = r
          · subst hne; left; omega
          · have h1 := lay.rd r' r hr'' hr hne
            have h2 := g.sep r' hr''
            omega
        · intro r' hr'' hl
          by_cases hne : r' = r
          · subst hne
            rw [qrs, qrl, if_pos rfl, if_pos rfl]
            refine ⟨d1, by omega, by omega, ?_⟩
            unfold rowL
            rw [qrs, qrl, if_pos rfl, if_pos rfl, qS, hXe]
          · have hl' := hoth r' hr'' hne hl
            obtain ⟨v1, v2, v3, v4⟩ := g.dn r' hr'' hl'
            rw [qrs, qrl, if_neg hne, if_neg hne]
            refine ⟨v1, v2, by omega, ?_⟩
            rw [← v4]
            unfold rowL
            rw [qrs, qrl, if_neg hne, if_neg hne]
            refine seg_congr fun j h1 h2 => ?_
            rw [qA j (by omega), if_neg (by omega)]
        · intro x y hx hy lx ly hxy
          rw [qrs, qrl, qrs, qrl]
          by_cases hxr : x = r
          · subst hxr
            have hyr : y ≠ x := Ne.symm hxy
            have := g.dn y hy (hoth y hy hyr ly)
            rw [if_pos rfl, if_pos rfl, if_neg hyr, if_neg hyr]; omega
          · by_cases hyr : y = r
            · subst hyr
              have := g.dn x hx (hoth x hx hxr lx)
              rw [if_pos rfl, if_pos rfl, if_neg hxr, if_neg hxr]; omega
            · rw [if_neg hxr, if_neg hxr, if_neg hyr, if_neg hyr]
              exact g.dj x y hx hy (hoth x hx hxr lx) (hoth y hy hyr ly) hxy
        · intro x x0 x1
          rw [q1 .r2 (by decide) (by decide) (by decide)]; exact g.r2 x x0 x1
        · intro j j0 j1
          by_cases hj : dst ≤ j ∧ j < dst + X.length
          · have hm : F4 .A j ∈ X := by rw [← qS]; exact mem_seg.2 ⟨j, hj.1, hj.2, rfl⟩
            rw [hXe, rlv, List.mem_filter] at hm
            exact (inc.rv r hr _ hm.1).1
          · rw [qA j hj]
            split_ifs with hjs
            · exact lay.nn _ (by omega) hlt
            · exact g.nn j j0 (by omega)
        · have : wcnt m F1 src = wcnt m F1 (src + F1 .rl r) - (rlv F1 r).length := by
            unfold wcnt
            refine sum_ite_erase hr.1 hr.2.1 ⟨hr.2.2, by omega⟩ ?_
            intro x x0 x1
            constructor
            · rintro ⟨h1, h2⟩
              exact ⟨⟨h1, by omega⟩, by rintro rfl; omega⟩
            · rintro ⟨⟨h1, h2⟩, h3⟩
              exact ⟨h1, hoth x ⟨x0, x1, h1⟩ h3 h2⟩
          have h1 := g.cnt
          rw [this, ← hXe] at h1
          omega
      · have hna : ∀ r, RA m F1 r → F1 .rs r ≠ src := fun r hr hh => hex ⟨r, hr, hh⟩
        have hA := g.ua src le_rfl hlt hna
        have hnn := lay.nn src (by omega) hlt
        rw [hA, if_neg (by omega)]
        refine ih (src + 1) dst s F ?_ (by omega)
        have hw : wcnt m F1 (src + 1) = wcnt m F1 src := by
          unfold wcnt
          refine sum_ite_congr ?_ (fun _ _ _ _ => rfl)
          intro x x0 x1
          constructor
          · rintro ⟨h1, h2⟩
            have := hna x ⟨x0, x1, h1⟩
            exact ⟨h1, by omega⟩
          · rintro ⟨h1, h2⟩; exact ⟨h1, by omega⟩
        have hless : ∀ r, RA m F1 r → F1 .rs r < src + 1 → F1 .rs r < src := by
          intro r hr hl
          have := hna r hr
          omega
        constructor
        · exact g.rp
        · omega
        · exact g.eq
        · exact g.aB
        · intro r hr hl; exact g.un r hr (by omega)
        · intro j h1 h2 hj; exact g.ua j (by omega) h2 hj
        · intro r hr
          have := g.sep r hr
          have := hna r hr
          omega
        · intro r hr hl; exact g.dn r hr (hless r hr hl)
        · intro r r' hr hr' hl hl'; exact g.dj r r' hr hr' (hless r hr hl) (hless r' hr' hl')
        · exact g.r2
        · exact g.nn
        · rw [hw]; exact g.cnt
    · rw [if_neg hlt, wp_pure]
      have : src = pf := by omega
      subst this
      exact ⟨F, g⟩

/-- The number of entries, by rows and by columns. -/
theorem count_eq (lay : Lay n m nnz B pf F) (inc : Inc n m F)
    (hB : B = ∑ c ∈ Finset.Ico 0 n, if 0 ≤ F .cs c then F .cl c else 0) :
    wcnt m F pf = B := by
  have h1 : wcnt m F pf = ∑ r ∈ Finset.Ico 0 m, ∑ c ∈ Finset.Ico 0 n,
      if 0 ≤ F .r2 r ∧ 0 ≤ F .cs c ∧ c ∈ rowL F r then 1 else 0 := by
    unfold wcnt
    apply Finset.sum_congr rfl
    intro r hr
    rw [Finset.mem_Ico] at hr
    by_cases ha : 0 ≤ F .r2 r
    · have hra : RA m F r := ⟨hr.1, hr.2, ha⟩
      have hrb := lay.rb r hra
      have hp := inc.row_pos lay hra
      rw [if_pos ⟨ha, by omega⟩]
      have e := sum_list (n := n) (P := rlv F r) ((inc.rn r hra).filter _)
        (fun c hc => inc.rv r hra c (List.mem_filter.1 hc).1) (fun _ => 1)
      have e2 : ((rlv F r).map (fun _ => (1 : ℤ))).sum = (rlv F r).length := by simp
      rw [← e2, e]
      refine sum_ite_congr ?_ (fun _ _ _ _ => rfl)
      intro c _ _
      unfold rlv
      rw [List.mem_filter, decide_eq_true_iff]
      tauto
    · rw [if_neg (by tauto)]
      symm
      apply Finset.sum_eq_zero
      intro c _
      rw [if_neg (by tauto)]
  rw [h1, Finset.sum_comm, hB]
  apply Finset.sum_congr rfl
  intro c hc
  rw [Finset.mem_Ico] at hc
  by_cases ha : 0 ≤ F .cs c
  · have hca : CA n F c := ⟨hc.1, hc.2, ha⟩
    rw [if_pos ha]
    have hcb := lay.cb c hca
    have e := sum_list (n := m) (P := colL F c) (inc.cn c hca)
      (fun r hr => ⟨(inc.cv c hca r hr).1, (inc.cv c hca r hr).2.1⟩) (fun _ => 1)
    have e2 : ((colL F c).map (fun _ => (1 : ℤ))).sum = F .cl c := by
      rw [List.map_const', List.sum_replicate, colL, length_seg]
      simp
      omega
    rw [← e2, e]
    refine sum_ite_congr ?_ (fun _ _ _ _ => rfl)
    intro r r0 r1
    constructor
    · rintro ⟨h2, h3, h4⟩; exact (inc.sy c r hca ⟨r0, r1, h2⟩).2 h4
    · intro hh
      have := inc.cv c hca r hh
      exact ⟨this.2.2, ha, (inc.sy c r hca this).1 hh⟩
  · rw [if_neg ha]
    apply Finset.sum_eq_zero
    intro r _
    rw [if_neg (by tauto)]

/-- Garbage collection keeps the matrix and leaves at most `2 nnz` entries. -/
theorem garbage_collection_spec (lay : Lay n m nnz B pf F) (inc : Inc n m F) (hn : 0 ≤ n)
    (hm : 0 ≤ m) (h : Rm n m Al pf s F) :
    wp (garbage_collection n m pf s) (fun z => ∃ F' B', Rm n m Al z.2 z.1 F' ∧
      Lay n m nnz B' z.2 F' ∧ Inc n m F' ∧ z.2 ≤ 2 * nnz ∧ z.2 ≤ pf ∧
      (∀ f, f ≠ .A → f ≠ .cs → f ≠ .cl → f ≠ .rs → f ≠ .rl → f ≠ .r2 → F' f = F f) ∧
      (∀ c, F .cs c < 0 → F' .cs c = F .cs c) ∧
      (∀ c, 0 ≤ c → c < n → (0 ≤ F' .cs c ↔ 0 ≤ F .cs c)) ∧
      (∀ c, CA n F' c → colL F' c = colL F c) ∧
      (∀ r, 0 ≤ r → r < m → (0 ≤ F' .r2 r ↔ 0 ≤ F .r2 r))) noFail := by
  unfold garbage_collection
  refine wp_bind_ok (gcCols_spec lay inc hn h) ?_
  rintro ⟨s1, d⟩ ⟨F1, g1⟩
  dsimp only at g1 ⊢
  obtain ⟨lay1, inc1, k1, k2, k3, k4⟩ := g1.lay lay inc
  refine wp_bind_ok (gcMark_spec lay1 inc1 hm g1.rp) ?_
  rintro s2 ⟨F2, g2⟩
  have hst := g2.start lay1 inc1
  have hd0 := g1.d0
  refine wp_post (gcRows_spec lay1 inc1 (pf.toNat + 1) d d s2 F2 hst (by omega)) ?_
  rintro ⟨s3, p'⟩ ⟨F3, g3⟩
  dsimp only at g3 ⊢
  obtain ⟨d1, d2, _⟩ := g3.ds
  have hcnt := g3.cnt
  rw [count_eq lay1 inc1 k4] at hcnt
  have hBn := lay1.Bn
  have er2 : F1 .r2 = F .r2 := g1.eq .r2 (by decide) (by decide) (by decide)
  have ec : ∀ f, f = .cs ∨ f = .cl ∨ f = .c1 ∨ f = .r1 → F3 f = F1 f := by
    intro f hf
    apply g3.eq <;> rcases hf with rfl | rfl | rfl | rfl <;> decide
  have ecs := ec .cs (by simp)
  have ecl := ec .cl (by simp)
  have ec1 := ec .c1 (by simp)
  have er1 := ec .r1 (by simp)
  have hRA : ∀ r, RA m F3 r → RA m F1 r := fun r hr =>
    ⟨hr.1, hr.2.1, (g3.r2 r hr.1 hr.2.1).1 hr.2.2⟩
  have hCA : ∀ c, CA n F3 c → CA n F1 c := fun c hc => by unfold CA; rw [← ecs]; exact hc
  have hbelow : ∀ r, RA m F1 r → F1 .rs r < pf := by
    intro r hr
    have h1 := lay1.rb r hr
    have h2 := inc1.row_pos lay1 hr
    omega
  have hcol : ∀ c, CA n F3 c → colL F3 c = colL F1 c := by
    intro c hc
    have := lay1.cb c (hCA c hc)
    unfold colL
    rw [ecs, ecl]
    exact seg_congr fun j h1 h2 => g3.aB j (by omega)
  have hrow : ∀ r, RA m F3 r → rowL F3 r = rlv F1 r := fun r hr =>
    (g3.dn r (hRA r hr) (hbelow r (hRA r hr))).2.2.2
  refine ⟨F3, d, g3.rp.shrink d2, ?_, ?_, by omega, d2, ?_, ?_, ?_, ?_, ?_⟩
  · constructor
    · exact hd0
    · exact hBn
    · omega
    · intro c hc; rw [ecs, ecl]; exact lay1.cb c (hCA c hc)
    · intro c c' hc hc'; rw [ecs, ecl]; exact lay1.co c c' (hCA c hc) (hCA c' hc')
    · intro r hr
      have := g3.dn r (hRA r hr) (hbelow r (hRA r hr))
      exact ⟨this.2.1, this.1, this.2.2.1⟩
    · intro r r' hr hr'
      exact g3.dj r r' (hRA r hr) (hRA r' hr') (hbelow r (hRA r hr)) (hbelow r' (hRA r' hr'))
    · exact g3.nn
  · constructor
    · intro c hc r hr
      rw [hcol c hc] at hr
      have := inc1.cv c (hCA c hc) r hr
      exact ⟨this.1, this.2.1, (g3.r2 r this.1 this.2.1).2 this.2.2⟩
    · intro r hr c hc
      rw [hrow r hr] at hc
      exact inc1.rv r (hRA r hr) c (List.mem_filter.1 hc).1
    · intro c hc; rw [hcol c hc]; exact inc1.cn c (hCA c hc)
    · intro r hr; rw [hrow r hr]; exact (inc1.rn r (hRA r hr)).filter _
    · intro c r hc hr
      rw [hcol c hc, hrow r hr, inc1.sy c r (hCA c hc) (hRA r hr)]
      unfold rlv
      rw [List.mem_filter, decide_eq_true_iff]
      exact ⟨fun hh => ⟨hh, (hCA c hc).2.2⟩, fun hh => hh.1⟩
    · intro r hr
      rw [er1]
      have := inc1.dg r (hRA r hr)
      refine ⟨?_, this.2⟩
      rw [this.1]
      unfold rdeg
      rw [hrow r hr, ecs, ec1]
      refine sum_ite_congr ?_ (fun _ _ _ _ => rfl)
      intro c _ _
      unfold rlv
      rw [List.mem_filter, decide_eq_true_iff]
      tauto
    · intro c hc; rw [ec1]; exact inc1.th c (hCA c hc)
    · refine le_trans (le_of_eq ?_) inc1.tt
      unfold tsum
      rw [ec1, ecs]
  · intro f h1 h2 h3 h4 h5 h6
    rw [g3.eq f h1 h4 h5 h6, g1.eq f h1 h2 h3]
  · intro c hc; rw [ecs]; exact g1.de c hc
  · intro c c0 c1; rw [ecs]; exact k1 c c0 c1
  · intro c hc; rw [hcol c hc, k2 c (hCA c hc)]
  · intro r r0 r1; rw [g3.r2 r r0 r1, er2]

end Slip.Colamd
