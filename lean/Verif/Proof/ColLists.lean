import Verif.Proof.ColScore

/-!
# COLAMD: the initial scores and the degree lists
-/

namespace Slip.Colamd

set_option linter.unusedSectionVars false

variable [Arith]
variable {n m Al L nnz n2 : ℤ} {s : Mem} {F F' F0 : Sh}

theorem scoreCol_spec (h : Rm n m Al L s F) {st len : ℤ} (hn : 0 ≤ n) (hst : 0 ≤ st)
    (hlen : 0 ≤ len) (hL : st + len ≤ L) (hr : ∀ r ∈ seg (F .A) st len, 0 ≤ r ∧ r < m)
    (hm : ∀ r ∈ seg (F .A) st len, 0 ≤ F .r2 r → 0 < F .r1 r ∧ F .r1 r ≤ n) :
    wp (scoreCol n st len s) (fun z => ∃ F' X,
      X = (seg (F .A) st len).filter (fun r => decide (0 ≤ F .r2 r)) ∧
      Rm n m Al L z.1 F' ∧ (∀ f, f ≠ .A → F' f = F f) ∧
      (∀ i, ¬ (st ≤ i ∧ i < st + X.length) → F' .A i = F .A i) ∧ seg (F' .A) st X.length = X ∧
      z.2.1 = st + X.length ∧ 0 ≤ z.2.2 ∧ z.2.2 ≤ n ∧
      min ((X.map fun r => F .r1 r - 1).sum) n ≤ z.2.2) noFail := by
  unfold scoreCol
  refine wp_post (wp_seg (A := F .A) hlen (fun pre z => ∃ F' X,
      X = pre.filter (fun r => decide (0 ≤ F .r2 r)) ∧
      Rm n m Al L z.1 F' ∧ (∀ f, f ≠ .A → F' f = F f) ∧
      (∀ i, ¬ (st ≤ i ∧ i < st + X.length) → F' .A i = F .A i) ∧ seg (F' .A) st X.length = X ∧
      z.2.1 = st + X.length ∧ 0 ≤ z.2.2 ∧ z.2.2 ≤ n ∧
      min ((X.map fun r => F .r1 r - 1).sum) n ≤ z.2.2) ?_ ?_) fun z hz => hz
  · exact ⟨F, [], by simp, h, fun _ _ => rfl, fun _ _ => rfl, by simp, by simp, by simp,
      by simpa using hn, by simp [hn]⟩
  · rintro pre x post ⟨s, np, score⟩ hX hx hlt ⟨F', X, hXe, g, h1, h2, h3, h4, h6, h7, h8⟩
    dsimp only at g h4 h6 h7 h8 ⊢
    have hxm : x ∈ seg (F .A) st len := by rw [hX]; simp
    have hxr := hr x hxm
    have hXl : X.length ≤ pre.length := by rw [hXe]; exact List.length_filter_le _ _
    rw [g.rd (f := .A) (show 0 ≤ st + ↑pre.length ∧ st + ↑pre.length < L from
      ⟨by omega, by omega⟩), ok_bind, h2 _ (by omega), hx,
      g.rd (f := .r2) (show 0 ≤ x ∧ x < m from hxr), ok_bind, h1 .r2 (by decide)]
    by_cases hd : F .r2 x < 0
    · rw [if_pos hd, wp_pure]
      refine ⟨F', X, ?_, g, h1, h2, h3, h4, h6, h7, h8⟩
      rw [List.filter_append, ← hXe]
      have : ([x].filter fun r => decide (0 ≤ F .r2 r)) = [] := by
        simp [hd]
      rw [this, List.append_nil]
    · have htag := hm x hxm (by omega)
      rw [if_neg hd, h4]
      obtain ⟨s1, e1, g1⟩ := g.wr (f := .A) (i := st + X.length) ⟨by omega, by omega⟩ x
      rw [e1, ok_bind, g1.rd (f := .r1) (show 0 ≤ x ∧ x < m from hxr), ok_bind,
        set_ne _ (by decide), h1 .r1 (by decide)]
      cks h
      cks h
      rw [wp_pure]
      dsimp only
      refine ⟨_, X ++ [x], ?_, g1, ?_, ?_, ?_, ?_, ?_, ?_, ?_⟩
      · rw [List.filter_append, ← hXe]
        have : ([x].filter fun r => decide (0 ≤ F .r2 r)) = [x] := by
          simp only [List.filter_cons, List.filter_nil]
          rw [if_pos (decide_eq_true (by omega))]
        rw [this]
      · intro f hf; rw [set_ne _ hf]; exact h1 f hf
      · intro i hi
        simp only [List.length_append, List.length_singleton] at hi
        push_cast at hi
        rw [set_apply, if_neg (by omega)]
        exact h2 i (by omega)
      · have : ((X ++ [x]).length : ℤ) = X.length + 1 := by simp
        rw [this, seg_succ _ (by omega)]
        congr 1
        · rw [seg_congr (B := F' .A), h3]
          intro i _ hi
          rw [set_apply, if_neg (by omega)]
        · rw [set_apply]; simp
      · simp; omega
      · omega
      · omega
      · rw [List.map_append, List.sum_append]
        simp only [List.map_cons, List.map_nil, List.sum_cons, List.sum_nil]
        omega

/-- The rows of column `c` that are alive. -/
def fl0 (F0 F : Sh) (c : ℤ) : List ℤ := (colL F0 c).filter fun r => decide (0 ≤ F .r2 r)

/-- The state while the scores are computed: the columns from `i` on are done; `R` is the state
before. -/
structure S4 (n m nnz Al : ℤ) (F0 R : Sh) (n2 : ℤ) (i : ℤ) (s : Mem) (F : Sh) : Prop where
  rp : Rm n m Al (2 * nnz) s F
  kc : KC n F0 n2 F
  eq : ∀ f, f ≠ .A → f ≠ .cs → f ≠ .cl → f ≠ .c2 → F f = R f
  dg : ∀ r, 0 ≤ r → r < m → 0 ≤ R .r2 r → R .r1 r = ldeg n F0 F r
  aB : ∀ j, nnz ≤ j → F .A j = F0 .A j
  aC : ∀ c, 0 ≤ c → c < n → c < i → ∀ j, F0 .cs c ≤ j → j < F0 .cs c + F0 .cl c → F .A j = F0 .A j
  un : ∀ c, c < i → F .cl c = F0 .cl c
  dn : ∀ c, CA n F c → i ≤ c → 0 ≤ F .cl c ∧ F .cl c ≤ F0 .cl c ∧
    seg (F .A) (F0 .cs c) (F .cl c) = fl0 F0 R c
  sc : ∀ c, CA n F c → i ≤ c → 0 ≤ F .c2 c ∧ F .c2 c ≤ n ∧
    min (((fl0 F0 R c).map fun r => R .r1 r - 1).sum) n ≤ F .c2 c
  nn : ∀ j, 0 ≤ j → j < 2 * nnz → 0 ≤ F .A j

theorem scoreCols_spec {R : Sh} {mx : ℤ} (hn : 0 ≤ n) (hnz : 0 ≤ nnz) (ir : IR n m nnz Al s F0)
    {s1 : Mem} (h : S3 n m nnz Al F0 n2 mx m s1 R) :
    wp (scoreCols n s1 n2) (fun z => ∃ F, S4 n m nnz Al F0 R z.2 0 z.1 F) noFail := by
  unfold scoreCols
  have hRA := h.eq .A (by decide) (by decide) (by decide) (by decide)
  have hRcl := h.eq .cl (by decide) (by decide) (by decide) (by decide)
  refine wp_forDown (fun i (z : Mem × ℤ) => ∃ F, S4 n m nnz Al F0 R z.2 i z.1 F) hn ?_ ?_
  · refine ⟨R, h.rp, h.kc, fun _ _ _ _ _ => rfl, fun r r0 r1 _ => h.dg r r0 r1, ?_, ?_, ?_, ?_, ?_, ?_⟩
    · rw [hRA]; intros; rfl
    · rw [hRA]; intros; rfl
    · rw [hRcl]; intros; rfl
    · intro c hc hi; exact absurd hc.2.1 (by omega)
    · intro c hc hi; exact absurd hc.2.1 (by omega)
    · rw [hRA]; exact ir.lay.nn
  · rintro i ⟨s, n2⟩ i0 i1 ⟨F, g⟩
    dsimp only at g ⊢
    rw [g.rp.rd (f := .cs) (show 0 ≤ i ∧ i < n from ⟨i0, i1⟩), ok_bind]
    have hca := ir.ca i i0 i1
    have hcb := ir.lay.cb i ⟨i0, i1, hca⟩
    by_cases ha : F .cs i < 0
    · rw [if_pos ha, wp_pure]
      obtain ⟨a1, a2, a3, a4, a5, a6, a7, a8, a9, a10⟩ := g
      have hni : ∀ c, CA n F c → i ≤ c → i + 1 ≤ c := by
        intro c hc hi
        by_contra hh
        have : c = i := by omega
        subst this
        have := hc.2.2
        omega
      exact ⟨F, a1, a2, a3, a4, a5, fun c c0 c1 hc => a6 c c0 c1 (by omega),
        fun c hc => a7 c (by omega), fun c hc hi => a8 c hc (hni c hc hi),
        fun c hc hi => a9 c hc (hni c hc hi), a10⟩
    · have hcs : F .cs i = F0 .cs i := by
        have := g.kc.cs i i0 i1; omega
      rw [if_neg ha, g.rp.rd (f := .cl) (show 0 ≤ i ∧ i < n from ⟨i0, i1⟩), ok_bind,
        g.un i (by omega), hcs]
      have hseg : seg (F .A) (F0 .cs i) (F0 .cl i) = colL F0 i :=
        seg_congr fun j h1 h2 => g.aC i i0 i1 (by omega) j h1 h2
      have er2 : F .r2 = R .r2 := g.eq .r2 (by decide) (by decide) (by decide) (by decide)
      have er1 : F .r1 = R .r1 := g.eq .r1 (by decide) (by decide) (by decide) (by decide)
      refine wp_bind_ok (scoreCol_spec g.rp hn hca hcb.1 (by omega) ?_ ?_) ?_
      · rw [hseg]; exact ir.cv i i0 i1
      · rw [hseg, er2, er1]
        intro r hr h0
        have := ir.cv i i0 i1 r hr
        have hmx := h.mx0
        have := (h.al r this.1 this.2 h0).2
        omega
      rintro ⟨s1, np, score⟩ ⟨F1, X, hX, g1, q1, q2, q3, q4, q6, q7, q8⟩
      dsimp only at g1 q4 q6 q7 q8 ⊢
      rw [hseg, er2] at hX
      have hXf : X = fl0 F0 R i := hX
      have hXl : (X.length : ℤ) ≤ F0 .cl i := by
        have h1 : X.length ≤ (colL F0 i).length := by rw [hX]; exact List.length_filter_le _ _
        rw [colL, length_seg] at h1
        omega
      rw [er1] at q8
      have hA' : ∀ c, 0 ≤ c → c < n → c ≠ i → ∀ j, F0 .cs c ≤ j → j < F0 .cs c + F0 .cl c →
          F1 .A j = F .A j := by
        intro c c0 c1 hne j j0 j1
        apply q2
        have h1 := ir.ca c c0 c1
        rcases lt_or_gt_of_ne hne with hl | hl
        · have := ir.lay.co c i ⟨c0, c1, h1⟩ ⟨i0, i1, hca⟩ hl; omega
        · have := ir.lay.co i c ⟨i0, i1, hca⟩ ⟨c0, c1, h1⟩ hl; omega
      have hnn : ∀ j, 0 ≤ j → j < 2 * nnz → 0 ≤ F1 .A j := by
        intro j j0 j1
        by_cases hj : F0 .cs i ≤ j ∧ j < F0 .cs i + X.length
        · have : F1 .A j ∈ X := by rw [← q3]; exact mem_seg.2 ⟨j, hj.1, hj.2, rfl⟩
          rw [hX, List.mem_filter] at this
          exact (ir.cv i i0 i1 _ this.1).1
        · rw [q2 j hj]; exact g.nn j j0 j1
      have hdn : ∀ c, CA n F c → i + 1 ≤ c →
          seg (F1 .A) (F0 .cs c) (F .cl c) = fl0 F0 R c := by
        intro c hc hi
        obtain ⟨u1, u2, u3⟩ := g.dn c hc hi
        rw [← u3]
        exact seg_congr fun j h1 h2 => hA' c hc.1 hc.2.1 (by omega) j h1 (by omega)
      rw [q4, show F0 .cs i + (X.length : ℤ) - F0 .cs i = X.length by ring]
      by_cases hz : (X.length : ℤ) = 0
      · rw [if_pos hz]
        have hXn : X = [] := by
          apply List.length_eq_zero_iff.1; omega
        obtain ⟨s2, e2, g2⟩ := g1.wr (f := .c2) (i := i) ⟨i0, i1⟩ (n2 - 1)
        have hn2 := g.kc.range hn
        cks g.rp
        rw [e2, ok_bind]
        obtain ⟨s3, e3, g3⟩ := g2.wr (f := .cs) (i := i) ⟨i0, i1⟩ (-1)
        rw [e3, ok_bind, wp_pure]
        generalize hF2 : set (set F1 .c2 i (n2 - 1)) .cs i (-1) = F2 at g3
        have b1 : ∀ f, f ≠ .cs → f ≠ .c2 → F2 f = F1 f := by
          intro f h1 h2; rw [← hF2, set_ne _ h1, set_ne _ h2]
        have bcs : ∀ x, F2 .cs x = if x = i then -1 else F .cs x := by
          intro x; rw [← hF2, set_apply, set_ne _ (by decide), q1 .cs (by decide)]; simp
        have bc2 : ∀ x, F2 .c2 x = if x = i then n2 - 1 else F .c2 x := by
          intro x; rw [← hF2, set_ne _ (by decide), set_apply, q1 .c2 (by decide)]; simp
        have bA := b1 .A (by decide) (by decide)
        have bcl : F2 .cl = F .cl := by rw [b1 .cl (by decide) (by decide), q1 .cl (by decide)]
        have hCA : ∀ c, CA n F2 c → i ≤ c → CA n F c ∧ i + 1 ≤ c := by
          intro c hc hi
          have h1 := hc.2.2
          rw [bcs] at h1
          by_cases hci : c = i
          · rw [if_pos hci] at h1; omega
          · rw [if_neg hci] at h1
            exact ⟨⟨hc.1, hc.2.1, h1⟩, by omega⟩
        dsimp only
        refine ⟨F2, g3, ?_, ?_, ?_, ?_, ?_, ?_, ?_, ?_, ?_⟩
        · refine g.kc.kill i0 i1 (by omega) bcs ?_ (by rw [bc2, if_pos rfl])
          intro x hx
          rw [bc2, if_neg (by rintro rfl; omega)]
        · intro f h1 h2 h3 h4; rw [b1 f h2 h4, q1 f h1]; exact g.eq f h1 h2 h3 h4
        · intro r r0 r1 hr
          rw [ldeg_kill i0 i1 (by omega) bcs, if_neg, sub_zero]
          · exact g.dg r r0 r1 hr
          · rw [← ir.sy i r i0 i1 r0 r1]
            intro hh
            have : r ∈ X := by
              rw [hX, List.mem_filter]; exact ⟨hh, decide_eq_true hr⟩
            rw [hXn] at this
            simp at this
        · intro j hj; rw [bA, q2 j (by omega)]; exact g.aB j hj
        · intro c c0 c1 hc j j0 j1
          rw [bA, hA' c c0 c1 (by omega) j j0 j1]; exact g.aC c c0 c1 (by omega) j j0 j1
        · intro c hc; rw [bcl]; exact g.un c (by omega)
        · intro c hc hi
          obtain ⟨v1, v2⟩ := hCA c hc hi
          obtain ⟨u1, u2, _⟩ := g.dn c v1 v2
          rw [bcl, bA]
          exact ⟨u1, u2, hdn c v1 v2⟩
        · intro c hc hi
          obtain ⟨v1, v2⟩ := hCA c hc hi
          rw [bc2, if_neg (by omega)]
          exact g.sc c v1 v2
        · rw [bA]; exact hnn
      · rw [if_neg hz]
        obtain ⟨s2, e2, g2⟩ := g1.wr (f := .cl) (i := i) ⟨i0, i1⟩ X.length
        rw [e2, ok_bind]
        obtain ⟨s3, e3, g3⟩ := g2.wr (f := .c2) (i := i) ⟨i0, i1⟩ score
        rw [e3, ok_bind, wp_pure]
        generalize hF2 : set (set F1 .cl i X.length) .c2 i score = F2 at g3
        have b1 : ∀ f, f ≠ .cl → f ≠ .c2 → F2 f = F1 f := by
          intro f h1 h2; rw [← hF2, set_ne _ h2, set_ne _ h1]
        have bcl : ∀ x, F2 .cl x = if x = i then (X.length : ℤ) else F .cl x := by
          intro x; rw [← hF2, set_ne _ (by decide), set_apply, q1 .cl (by decide)]; simp
        have bc2 : ∀ x, F2 .c2 x = if x = i then score else F .c2 x := by
          intro x; rw [← hF2, set_apply, set_ne _ (by decide), q1 .c2 (by decide)]; simp
        have bA := b1 .A (by decide) (by decide)
        have bcs : F2 .cs = F .cs := by rw [b1 .cs (by decide) (by decide), q1 .cs (by decide)]
        have hCA : ∀ c, CA n F2 c → CA n F c := by
          intro c hc; unfold CA; rw [← bcs]; exact hc
        dsimp only
        refine ⟨F2, g3, ?_, ?_, ?_, ?_, ?_, ?_, ?_, ?_, ?_⟩
        · refine g.kc.congr bcs ?_
          intro c hc
          rw [bc2, if_neg (by rintro rfl; omega)]
        · intro f h1 h2 h3 h4; rw [b1 f h3 h4, q1 f h1]; exact g.eq f h1 h2 h3 h4
        · intro r r0 r1 hr
          rw [g.dg r r0 r1 hr]; unfold ldeg; rw [bcs]
        · intro j hj; rw [bA, q2 j (by omega)]; exact g.aB j hj
        · intro c c0 c1 hc j j0 j1
          rw [bA, hA' c c0 c1 (by omega) j j0 j1]; exact g.aC c c0 c1 (by omega) j j0 j1
        · intro c hc; rw [bcl, if_neg (by omega)]; exact g.un c (by omega)
        · intro c hc hi
          have v1 := hCA c hc
          rw [bcl, bA]
          by_cases hci : c = i
          · subst hci
            rw [if_pos rfl, q3]
            exact ⟨by omega, hXl, hXf⟩
          · rw [if_neg hci]
            obtain ⟨u1, u2, _⟩ := g.dn c v1 (by omega)
            exact ⟨u1, u2, hdn c v1 (by omega)⟩
        · intro c hc hi
          have v1 := hCA c hc
          rw [bc2]
          by_cases hci : c = i
          · subst hci
            rw [if_pos rfl, ← hXf]
            exact ⟨q6, q7, q8⟩
          · rw [if_neg hci]; exact g.sc c v1 (by omega)
        · rw [bA]; exact hnn

theorem initLists_spec (hn : 0 ≤ n) (h : Rm n m Al L s F)
    (h2 : ∀ c, CA n F c → 0 ≤ F .c2 c ∧ F .c2 c ≤ n) :
    wp (initLists n s) (fun s' => ∃ F' rk, Rm n m Al L s' F' ∧
      (∀ f, f ≠ .p → f ≠ .c3 → f ≠ .c4 → F' f = F f) ∧ DL n F' (CA n F) rk) noFail := by
  unfold initLists
  refine wp_bind_ok (wp_forRange (fun i (s' : Mem) => ∃ F', Rm n m Al L s' F' ∧
    (∀ f, f ≠ .p → F' f = F f) ∧ ∀ d, 0 ≤ d → d < i → F' .p d = -1) (by omega) ?_ ?_) ?_
  · exact ⟨F, h, fun _ _ => rfl, fun d d0 d1 => by omega⟩
  · rintro i s i0 i1 ⟨F1, g, q1, q2⟩
    obtain ⟨s1, e1, g1⟩ := g.wr (f := .p) (i := i) ⟨i0, i1⟩ (-1)
    rw [e1, wp_ok]
    refine ⟨_, g1, fun f hf => by rw [set_ne _ hf, q1 f hf], ?_⟩
    intro d d0 d1
    rw [set_apply]
    split_ifs with hd
    · rfl
    · exact q2 d d0 (by by_contra hh; exact hd ⟨rfl, by omega⟩)
  · rintro s1 ⟨F1, g1, q1, q2⟩
    refine wp_post (wp_forDown (fun i (s' : Mem) => ∃ F' rk, Rm n m Al L s' F' ∧
      (∀ f, f ≠ .p → f ≠ .c3 → f ≠ .c4 → F' f = F f) ∧ DL n F' (fun c => CA n F c ∧ i ≤ c) rk)
      hn ?_ ?_) ?_
    · refine ⟨F1, fun _ => 0, g1, fun f hf _ _ => q1 f hf, ?_⟩
      have hno : ∀ c, ¬ (CA n F c ∧ n ≤ c) := fun c hh => absurd hh.1.2.1 (by omega)
      exact ⟨fun c hc => absurd hc (hno c), fun d d0 d1 => Or.inl (q2 d d0 (by omega)),
        fun c hc => absurd hc (hno c), fun c hc => absurd hc (hno c)⟩
    · rintro i s i0 i1 ⟨F2, rk, g, r1, r2⟩
      rw [g.rd (f := .cs) (show 0 ≤ i ∧ i < n from ⟨i0, i1⟩), ok_bind,
        r1 .cs (by decide) (by decide) (by decide)]
      have ec2 := r1 .c2 (by decide) (by decide) (by decide)
      split_ifs with ha
      · rw [g.rd (f := .c2) (show 0 ≤ i ∧ i < n from ⟨i0, i1⟩), ok_bind]
        have hd := h2 i ⟨i0, i1, ha⟩
        rw [← ec2] at hd
        obtain ⟨s3, e3, g3⟩ := insertDeg_spec g i0 i1 hd.1 hd.2 (by
          rcases r2.hd _ hd.1 hd.2 with a | ⟨a, _⟩
          · exact Or.inl a
          · exact Or.inr ⟨a.1.1, a.1.2.1⟩)
        rw [e3, wp_ok]
        refine ⟨_, fun x => if x = i then 0 else rk x + 1, g3, ?_, ?_⟩
        · intro f h1 h3 h4; rw [link_ne _ _ _ h1 h3 h4]; exact r1 f h1 h3 h4
        · refine (r2.ins (c := i) (by omega) i0 i1 hd.1 hd.2).congr ?_ (fun _ _ _ => rfl)
            (fun _ _ => rfl) (fun _ _ => rfl) (fun _ _ => rfl)
          intro c
          constructor
          · rintro ⟨h1, h3⟩
            by_cases hc : c = i
            · exact Or.inr hc
            · exact Or.inl ⟨h1, by omega⟩
          · rintro (⟨h1, h3⟩ | h1)
            · exact ⟨h1, by omega⟩
            · subst h1; exact ⟨⟨i0, i1, ha⟩, le_rfl⟩
      · rw [wp_pure]
        refine ⟨F2, rk, g, r1, r2.congr ?_ (fun _ _ _ => rfl)
            (fun _ _ => rfl) (fun _ _ => rfl) (fun _ _ => rfl)⟩
        intro c
        constructor
        · rintro ⟨h1, h3⟩
          have : c ≠ i := by rintro rfl; exact ha h1.2.2
          exact ⟨h1, by omega⟩
        · rintro ⟨h1, h3⟩; exact ⟨h1, by omega⟩
    · rintro s' ⟨F', rk, r0, r1, r2⟩
      refine ⟨F', rk, r0, r1, r2.congr ?_ (fun _ _ _ => rfl)
            (fun _ _ => rfl) (fun _ _ => rfl) (fun _ _ => rfl)⟩
      intro c
      exact ⟨fun hc => ⟨hc, hc.1⟩, fun hc => hc.1⟩

end Slip.Colamd
