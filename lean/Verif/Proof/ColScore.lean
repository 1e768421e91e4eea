import Verif.Proof.ColPre

/-!
# COLAMD: the initial scores
-/

namespace Slip.Colamd

set_option linter.unusedSectionVars false

variable [Arith]
variable {n m Al nnz n2 : ℤ} {s : Mem} {F F' F0 : Sh}

/-- The state after `init_rows_cols`. -/
structure IR (n m nnz Al : ℤ) (s : Mem) (F : Sh) : Prop where
  rp : Rm n m Al (2 * nnz) s F
  lay : Lay n m nnz nnz (2 * nnz) F
  ca : ∀ c, 0 ≤ c → c < n → 0 ≤ F .cs c
  ra : ∀ r, 0 ≤ r → r < m → F .r2 r = 0
  cv : ∀ c, 0 ≤ c → c < n → ∀ r ∈ colL F c, 0 ≤ r ∧ r < m
  rv : ∀ r, 0 ≤ r → r < m → ∀ c ∈ rowL F r, 0 ≤ c ∧ c < n
  cn : ∀ c, 0 ≤ c → c < n → (colL F c).Nodup
  rn : ∀ r, 0 ≤ r → r < m → (rowL F r).Nodup
  sy : ∀ c r, 0 ≤ c → c < n → 0 ≤ r → r < m → (r ∈ colL F c ↔ c ∈ rowL F r)
  c1 : ∀ c, 0 ≤ c → c < n → F .c1 c = 1
  r1 : ∀ r, 0 ≤ r → r < m → F .r1 r = F .rl r

/-- The columns that have been killed have the last positions. -/
structure KC (n : ℤ) (F0 : Sh) (n2 : ℤ) (F : Sh) : Prop where
  cs : ∀ c, 0 ≤ c → c < n → F .cs c = F0 .cs c ∨ F .cs c = -1
  o : ∀ c, 0 ≤ c → c < n → F .cs c = -1 → n2 ≤ F .c2 c ∧ F .c2 c < n
  dj : ∀ c c', 0 ≤ c → c < n → F .cs c = -1 → 0 ≤ c' → c' < n → F .cs c' = -1 → c ≠ c' →
    F .c2 c ≠ F .c2 c'
  tot : n2 = ∑ c ∈ Finset.Ico 0 n, if 0 ≤ F .cs c then 1 else 0

theorem KC.congr (h : KC n F0 n2 F) (hs : F' .cs = F .cs)
    (h2 : ∀ c, F .cs c = -1 → F' .c2 c = F .c2 c) : KC n F0 n2 F' := by
  obtain ⟨a1, a2, a3, a4⟩ := h
  constructor
  · rw [hs]; exact a1
  · intro c c0 c1 hc; rw [hs] at hc; rw [h2 c hc]; exact a2 c c0 c1 hc
  · intro c c' c0 c1 hc c0' c1' hc' hne
    rw [hs] at hc hc'
    rw [h2 c hc, h2 c' hc']; exact a3 c c' c0 c1 hc c0' c1' hc' hne
  · rw [hs]; exact a4

theorem KC.range (h : KC n F0 n2 F) (hn : 0 ≤ n) : 0 ≤ n2 ∧ n2 ≤ n := by
  rw [h.tot]
  constructor
  · apply Finset.sum_nonneg
    intro x _; split_ifs <;> simp
  · calc (∑ c ∈ Finset.Ico 0 n, if 0 ≤ F .cs c then (1 : ℤ) else 0)
        ≤ ∑ c ∈ Finset.Ico 0 n, (1 : ℤ) := by
          apply Finset.sum_le_sum
          intro x _; split_ifs <;> simp
      _ ≤ n := by simp; omega

theorem KC.kill (h : KC n F0 n2 F) {c : ℤ} (c0 : 0 ≤ c) (c1 : c < n) (hc : 0 ≤ F .cs c)
    (hs : ∀ x, F' .cs x = if x = c then -1 else F .cs x)
    (h2 : ∀ x, F .cs x = -1 → F' .c2 x = F .c2 x) (h2c : F' .c2 c = n2 - 1) :
    KC n F0 (n2 - 1) F' := by
  obtain ⟨a1, a2, a3, a4⟩ := h
  have hle : n2 ≤ n := by
    rw [a4]
    calc (∑ c ∈ Finset.Ico 0 n, if 0 ≤ F .cs c then (1 : ℤ) else 0)
        ≤ ∑ c ∈ Finset.Ico 0 n, (1 : ℤ) := by
          apply Finset.sum_le_sum
          intro x _; split_ifs <;> simp
      _ ≤ n := by simp; omega
  constructor
  · intro x x0 x1
    rw [hs]
    split_ifs
    · exact Or.inr rfl
    · exact a1 x x0 x1
  · intro x x0 x1 hx
    rw [hs] at hx
    by_cases hxc : x = c
    · subst hxc; rw [h2c]; omega
    · rw [if_neg hxc] at hx
      rw [h2 x hx]
      have := a2 x x0 x1 hx
      omega
  · intro x y x0 x1 hx y0 y1 hy hne
    rw [hs] at hx hy
    by_cases hxc : x = c
    · subst hxc
      rw [if_neg (Ne.symm hne)] at hy
      rw [h2c, h2 y hy]
      have := a2 y y0 y1 hy
      omega
    · rw [if_neg hxc] at hx
      by_cases hyc : y = c
      · subst hyc
        rw [h2c, h2 x hx]
        have := a2 x x0 x1 hx
        omega
      · rw [if_neg hyc] at hy
        rw [h2 x hx, h2 y hy]
        exact a3 x y x0 x1 hx y0 y1 hy hne
  · have := sum_ite_erase (n := n) (p := fun x => 0 ≤ F .cs x) (q := fun x => 0 ≤ F' .cs x)
      (f := fun _ => 1) c0 c1 hc (fun x _ _ => by
        rw [hs]
        split_ifs with hx
        · simp [hx]
        · simp [hx])
    rw [this, ← a4]

/-- The degree of row `r` with respect to the live columns. -/
def ldeg (n : ℤ) (F0 F : Sh) (r : ℤ) : ℤ :=
  ∑ c ∈ Finset.Ico 0 n, if 0 ≤ F .cs c ∧ c ∈ rowL F0 r then 1 else 0

theorem ldeg_range (hn : 0 ≤ n) (r : ℤ) : 0 ≤ ldeg n F0 F r ∧ ldeg n F0 F r ≤ n := by
  unfold ldeg
  constructor
  · apply Finset.sum_nonneg
    intro x _; split_ifs <;> simp
  · calc _ ≤ ∑ c ∈ Finset.Ico 0 n, (1 : ℤ) := by
          apply Finset.sum_le_sum
          intro x _; split_ifs <;> simp
      _ ≤ n := by simp; omega

/-- The state while empty and dense columns are killed. -/
structure S1 (n m nnz Al : ℤ) (F0 : Sh) (n2 : ℤ) (s : Mem) (F : Sh) : Prop where
  rp : Rm n m Al (2 * nnz) s F
  kc : KC n F0 n2 F
  eq : ∀ f, f ≠ .cs → f ≠ .c2 → f ≠ .r1 → F f = F0 f
  dg : ∀ r, 0 ≤ r → r < m → F .r1 r = ldeg n F0 F r

theorem S1.start (hn : 0 ≤ n) (h : IR n m nnz Al s F) : S1 n m nnz Al F n s F := by
  constructor
  · exact h.rp
  · constructor
    · intros; exact Or.inl rfl
    · intro c c0 c1 hc; have := h.ca c c0 c1; omega
    · intro c c' c0 c1 hc; have := h.ca c c0 c1; omega
    · have : (∑ c ∈ Finset.Ico 0 n, if 0 ≤ F .cs c then (1 : ℤ) else 0)
          = ∑ c ∈ Finset.Ico 0 n, (1 : ℤ) := by
        apply Finset.sum_congr rfl
        intro c hc
        rw [Finset.mem_Ico] at hc
        rw [if_pos (h.ca c hc.1 hc.2)]
      rw [this]; simp; omega
  · intros; rfl
  · intro r r0 r1
    rw [h.r1 r r0 r1]
    unfold ldeg
    have e := sum_list (n := n) (P := rowL F r) (h.rn r r0 r1) (h.rv r r0 r1) (fun _ => 1)
    have hrb := h.lay.rb r ⟨r0, r1, by rw [h.ra r r0 r1]⟩
    have e2 : ((rowL F r).map (fun _ => (1 : ℤ))).sum = F .rl r := by
      rw [List.map_const', List.sum_replicate, rowL, length_seg]
      simp
      omega
    rw [← e2, e]
    refine sum_ite_congr ?_ (fun _ _ _ _ => rfl)
    intro c c0 c1
    exact ⟨fun hh => ⟨h.ca c c0 c1, hh⟩, fun hh => hh.2⟩

theorem ldeg_kill {c r : ℤ} (c0 : 0 ≤ c) (c1 : c < n) (hc : 0 ≤ F .cs c)
    (hs : ∀ x, F' .cs x = if x = c then -1 else F .cs x) :
    ldeg n F0 F' r = ldeg n F0 F r - if c ∈ rowL F0 r then 1 else 0 := by
  unfold ldeg
  split_ifs with hr
  · refine sum_ite_erase c0 c1 ⟨hc, hr⟩ ?_
    intro x _ _
    rw [hs]
    by_cases hx : x = c
    · simp [hx]
    · simp [hx]
  · rw [sub_zero]
    refine sum_ite_congr ?_ (fun _ _ _ _ => rfl)
    intro x _ _
    rw [hs]
    by_cases hx : x = c
    · subst hx; simp [hr]
    · simp [hx]

theorem killEmpty_spec (hn : 0 ≤ n) (ir : IR n m nnz Al s F0) :
    wp (killEmpty n s n) (fun z => ∃ F, S1 n m nnz Al F0 z.2 z.1 F) noFail := by
  unfold killEmpty
  refine wp_forDown (fun i (z : Mem × ℤ) => ∃ F, S1 n m nnz Al F0 z.2 z.1 F ∧
    ∀ c, c < i → F .cs c = F0 .cs c) hn ⟨F0, S1.start hn ir, fun _ _ => rfl⟩ ?_ |> fun h =>
      wp_post h fun z hz => ⟨hz.choose, hz.choose_spec.1⟩
  rintro i ⟨s, n2⟩ i0 i1 ⟨F, g, hu⟩
  dsimp only at g ⊢
  rw [g.rp.rd (f := .cl) (show 0 ≤ i ∧ i < n from ⟨i0, i1⟩), ok_bind,
    g.eq .cl (by decide) (by decide) (by decide)]
  split_ifs with hz
  · obtain ⟨s1, e1, g1⟩ := g.rp.wr (f := .c2) (i := i) ⟨i0, i1⟩ (n2 - 1)
    have hn2 := g.kc.range hn
    cks g.rp
    rw [e1, ok_bind]
    obtain ⟨s2, e2, g2⟩ := g1.wr (f := .cs) (i := i) ⟨i0, i1⟩ (-1)
    rw [e2, ok_bind, wp_pure]
    generalize hF2 : set (set F .c2 i (n2 - 1)) .cs i (-1) = F2 at g2
    have b1 : ∀ f, f ≠ .cs → f ≠ .c2 → F2 f = F f := by
      intro f h1 h2; rw [← hF2, set_ne _ h1, set_ne _ h2]
    have bcs : ∀ x, F2 .cs x = if x = i then -1 else F .cs x := by
      intro x; rw [← hF2, set_apply, set_ne _ (by decide)]; simp
    have bc2 : ∀ x, F2 .c2 x = if x = i then n2 - 1 else F .c2 x := by
      intro x; rw [← hF2, set_ne _ (by decide), set_apply]; simp
    have hal : 0 ≤ F .cs i := by rw [hu i (by omega)]; exact ir.ca i i0 i1
    refine ⟨F2, ⟨g2, ?_, ?_, ?_⟩, ?_⟩
    · refine g.kc.kill i0 i1 hal bcs ?_ (by rw [bc2, if_pos rfl])
      intro x hx
      rw [bc2, if_neg (by rintro rfl; omega)]
    · intro f h1 h2 h3; rw [b1 f h1 h2]; exact g.eq f h1 h2 h3
    · intro r r0 r1
      rw [b1 .r1 (by decide) (by decide), g.dg r r0 r1, ldeg_kill i0 i1 hal bcs, if_neg, sub_zero]
      rw [← ir.sy i r i0 i1 r0 r1, colL, hz, seg_zero]
      simp
    · intro c hc; rw [bcs, if_neg (by omega)]; exact hu c (by omega)
  · rw [wp_pure]
    exact ⟨F, g, fun c hc => hu c (by omega)⟩

theorem killDense_spec {dc : ℤ} (hn : 0 ≤ n) (hnz : 0 ≤ nnz) (ir : IR n m nnz Al s F0) {s1 : Mem}
    (h : S1 n m nnz Al F0 n2 s1 F) :
    wp (killDense n dc s1 n2) (fun z => ∃ F, S1 n m nnz Al F0 z.2 z.1 F) noFail := by
  unfold killDense
  refine wp_forDown (fun i (z : Mem × ℤ) => ∃ F, S1 n m nnz Al F0 z.2 z.1 F) hn ⟨F, h⟩ ?_
  rintro i ⟨s, n2⟩ i0 i1 ⟨F, g⟩
  dsimp only at g ⊢
  rw [g.rp.rd (f := .cs) (show 0 ≤ i ∧ i < n from ⟨i0, i1⟩), ok_bind]
  split_ifs with ha
  · rw [wp_pure]; exact ⟨F, g⟩
  · have hcs : F .cs i = F0 .cs i := by
      have := g.kc.cs i i0 i1; omega
    rw [g.rp.rd (f := .cl) (show 0 ≤ i ∧ i < n from ⟨i0, i1⟩), ok_bind,
      g.eq .cl (by decide) (by decide) (by decide), hcs]
    have hcb := ir.lay.cb i ⟨i0, i1, ir.ca i i0 i1⟩
    have hca := ir.ca i i0 i1
    split_ifs with hd
    · obtain ⟨s1, e1, g1⟩ := g.rp.wr (f := .c2) (i := i) ⟨i0, i1⟩ (n2 - 1)
      have hn2 := g.kc.range hn
      cks g.rp
      rw [e1, ok_bind]
      have hin : wp (forRange (F0 .cs i) (F0 .cs i + F0 .cl i) s1 fun i s => do
          let r ← s.rd .A i
          let d ← s.rd .r1 r
          let d ← ck (d - 1)
          s.wr .r1 r d) (fun s' => ∃ F', Rm n m Al (2 * nnz) s' F' ∧
          (∀ f, f ≠ .r1 → F' f = set F .c2 i (n2 - 1) f) ∧
          ∀ r, F' .r1 r = F .r1 r - if r ∈ colL F0 i then 1 else 0) noFail := by
        refine wp_post (wp_seg (A := F0 .A) hcb.1 (fun pre s' => ∃ F', Rm n m Al (2 * nnz) s' F' ∧
          (∀ f, f ≠ .r1 → F' f = set F .c2 i (n2 - 1) f) ∧
          ∀ r, F' .r1 r = F .r1 r - if r ∈ pre then 1 else 0) ?_ ?_) fun z hz => hz
        · refine ⟨_, g1, fun _ _ => rfl, ?_⟩
          intro r; rw [set_ne _ (by decide)]; simp
        · rintro pre x post s' hX hx hlt ⟨F', g', q1, q2⟩
          have hnd := ir.cn i i0 i1
          have hxm : x ∈ colL F0 i := by unfold colL; rw [hX]; simp
          have hxr := ir.cv i i0 i1 x hxm
          have hxp : x ∉ pre := by
            intro hh
            unfold colL at hnd
            rw [hX, List.nodup_append] at hnd
            exact hnd.2.2 x hh x (by simp) rfl
          rw [g'.rd (f := .A) (show 0 ≤ F0 .cs i + ↑pre.length ∧ F0 .cs i + ↑pre.length < 2 * nnz from
            ⟨by omega, by omega⟩), ok_bind, q1 .A (by decide), set_ne _ (by decide),
            g.eq .A (by decide) (by decide) (by decide), hx,
            g'.rd (f := .r1) (show 0 ≤ x ∧ x < m from hxr), ok_bind]
          obtain ⟨s2, e2, g2⟩ := g'.wr (f := .r1) (i := x) hxr (F' .r1 x - 1)
          have hrl := ldeg_range (F0 := F0) (F := F) hn x
          have hq : F' .r1 x = ldeg n F0 F x := by
            rw [q2, if_neg hxp, sub_zero, g.dg x hxr.1 hxr.2]
          cks g'
          rw [e2, wp_ok]
          refine ⟨_, g2, fun f hf => by rw [set_ne _ hf, q1 f hf], ?_⟩
          intro r
          rw [set_apply]
          by_cases hr : r = x
          · subst hr; rw [if_pos ⟨rfl, rfl⟩, q2, if_neg hxp, if_pos (by simp)]; ring
          · rw [if_neg (fun hh => hr hh.2), q2]
            simp [hr]
      refine wp_bind_ok hin ?_
      rintro s2 ⟨F2, g2, q1, q2⟩
      obtain ⟨s3, e3, g3⟩ := g2.wr (f := .cs) (i := i) ⟨i0, i1⟩ (-1)
      rw [e3, ok_bind, wp_pure]
      generalize hF3 : set F2 .cs i (-1) = F3 at g3
      have b1 : ∀ f, f ≠ .cs → f ≠ .c2 → f ≠ .r1 → F3 f = F f := by
        intro f h1 h2 h3; rw [← hF3, set_ne _ h1, q1 f h3, set_ne _ h2]
      have bcs : ∀ x, F3 .cs x = if x = i then -1 else F .cs x := by
        intro x; rw [← hF3, set_apply, q1 .cs (by decide), set_ne _ (by decide)]; simp
      have bc2 : ∀ x, F3 .c2 x = if x = i then n2 - 1 else F .c2 x := by
        intro x; rw [← hF3, set_ne _ (by decide), q1 .c2 (by decide), set_apply]; simp
      have hal : 0 ≤ F .cs i := by omega
      refine ⟨F3, g3, ?_, ?_, ?_⟩
      · refine g.kc.kill i0 i1 hal bcs ?_ (by rw [bc2, if_pos rfl])
        intro x hx
        rw [bc2, if_neg (by rintro rfl; omega)]
      · intro f h1 h2 h3; rw [b1 f h1 h2 h3]; exact g.eq f h1 h2 h3
      · intro r r0 r1
        rw [← hF3, set_ne _ (by decide), hF3, q2, g.dg r r0 r1, ldeg_kill i0 i1 hal bcs]
        have := ir.sy i r i0 i1 r0 r1
        simp only [this]
    · rw [wp_pure]; exact ⟨F, g⟩

/-- The state after the rows have been killed. -/
structure S3 (n m nnz Al : ℤ) (F0 : Sh) (n2 mx : ℤ) (i : ℤ) (s : Mem) (F : Sh) : Prop where
  rp : Rm n m Al (2 * nnz) s F
  kc : KC n F0 n2 F
  eq : ∀ f, f ≠ .cs → f ≠ .c2 → f ≠ .r1 → f ≠ .r2 → F f = F0 f
  dg : ∀ r, 0 ≤ r → r < m → F .r1 r = ldeg n F0 F r
  al : ∀ r, 0 ≤ r → r < i → 0 ≤ F .r2 r → F .r2 r = 0 ∧ 0 < F .r1 r ∧ F .r1 r ≤ mx
  un : ∀ r, 0 ≤ r → r < m → i ≤ r → F .r2 r = 0
  mx0 : 0 ≤ mx ∧ mx ≤ n

theorem killRows0_spec {dr : ℤ} (hn : 0 ≤ n) (hm : 0 ≤ m) (ir : IR n m nnz Al s F0) {s1 : Mem}
    (h : S1 n m nnz Al F0 n2 s1 F) :
    wp (killRows0 m dr s1) (fun z => ∃ F, S3 n m nnz Al F0 n2 z.2 m z.1 F) noFail := by
  unfold killRows0
  refine wp_forRange (fun i (z : Mem × ℤ) => ∃ F, S3 n m nnz Al F0 n2 z.2 i z.1 F) hm ?_ ?_
  · refine ⟨F, h.rp, h.kc, fun f h1 h2 h3 _ => h.eq f h1 h2 h3, h.dg, ?_, ?_, le_rfl, hn⟩
    · intro r r0 r1; omega
    · intro r r0 r1 _; rw [h.eq .r2 (by decide) (by decide) (by decide)]; exact ir.ra r r0 r1
  · rintro i ⟨s, mx⟩ i0 i1 ⟨F, g⟩
    dsimp only at g ⊢
    have hdeg : 0 ≤ F .r1 i ∧ F .r1 i ≤ n := by
      rw [g.dg i i0 i1]
      exact ldeg_range hn i
    rw [g.rp.rd (f := .r1) (show 0 ≤ i ∧ i < m from ⟨i0, i1⟩), ok_bind]
    split_ifs with hd
    · obtain ⟨s1, e1, g1⟩ := g.rp.wr (f := .r2) (i := i) ⟨i0, i1⟩ (-1)
      rw [e1, ok_bind, wp_pure]
      refine ⟨_, g1, g.kc.congr (set_ne _ (by decide) _ _) (fun c _ => by rw [set_ne _ (by decide)]),
        ?_, ?_, ?_, ?_, g.mx0⟩
      · intro f h1 h2 h3 h4; rw [set_ne _ h4]; exact g.eq f h1 h2 h3 h4
      · intro r r0 r1; rw [set_ne _ (by decide), g.dg r r0 r1]; unfold ldeg
        rw [set_ne _ (by decide)]
      · intro r r0 r1 ha
        rw [set_apply] at ha ⊢
        by_cases hr : r = i
        · rw [if_pos ⟨rfl, hr⟩] at ha; omega
        · rw [if_neg (fun hh => hr hh.2)] at ha ⊢
          rw [set_ne _ (by decide)]
          exact g.al r r0 (by omega) ha
      · intro r r0 r1 hr
        rw [set_apply, if_neg (by omega)]; exact g.un r r0 r1 (by omega)
    · rw [wp_pure]
      refine ⟨F, g.rp, g.kc, g.eq, g.dg, ?_, fun r r0 r1 hr => g.un r r0 r1 (by omega), ?_⟩
      · intro r r0 r1 ha
        dsimp only
        by_cases hr : r = i
        · subst hr
          have := g.un r r0 i1 le_rfl
          exact ⟨this, by omega, by omega⟩
        · have := g.al r r0 (by omega) ha
          omega
      · have := g.mx0
        dsimp only
        omega

end Slip.Colamd
