import Verif.Proof.ColHash

/-!
# COLAMD: the new scores of the columns of the pivot row
-/

namespace Slip.Colamd

set_option linter.unusedSectionVars false

variable [Arith]
variable {n m Al L : ℤ} {s : Mem} {F : Sh} {S : ℤ → Prop} {rk : ℤ → ℕ}

theorem sum_ite_erase {n : ℤ} {p q : ℤ → Prop} [DecidablePred p] [DecidablePred q] {f : ℤ → ℤ}
    {x : ℤ} (h0 : 0 ≤ x) (h1 : x < n) (hx : p x) (hq : ∀ c, 0 ≤ c → c < n → (q c ↔ p c ∧ c ≠ x)) :
    (∑ c ∈ Finset.Ico 0 n, if q c then f c else 0) =
      (∑ c ∈ Finset.Ico 0 n, if p c then f c else 0) - f x := by
  have hm : x ∈ Finset.Ico 0 n := by rw [Finset.mem_Ico]; exact ⟨h0, h1⟩
  rw [← Finset.add_sum_erase _ _ hm, ← Finset.add_sum_erase (Finset.Ico 0 n)
    (fun c => if p c then f c else 0) hm]
  have hqx : ¬ q x := by rw [hq x h0 h1]; simp
  rw [if_pos hx, if_neg hqx]
  have : ∑ c ∈ (Finset.Ico 0 n).erase x, (if q c then f c else 0) =
      ∑ c ∈ (Finset.Ico 0 n).erase x, (if p c then f c else 0) := by
    apply Finset.sum_congr rfl
    intro c hc
    rw [Finset.mem_erase, Finset.mem_Ico] at hc
    have := hq c hc.2.1 hc.2.2
    split_ifs <;> first | rfl | tauto
  rw [this]; omega

theorem Gh.congr {n2 k k' : ℤ} {F F' : Sh} {dp dp' : ℤ → Prop} {root : ℤ → ℤ} {e : ℤ → ℕ}
    (h : Gh n n2 k F dp root e) (hk : k ≤ k') (hk2 : k' ≤ n2)
    (hs : ∀ c, 0 ≤ c → c < n → (F' .cs c = -2 ↔ F .cs c = -2) ∧ -2 ≤ F' .cs c)
    (h1 : ∀ c, 0 ≤ c → c < n → F' .c1 c = F .c1 c) (hdp : ∀ c, 0 ≤ c → c < n → (dp' c → dp c))
    (h2 : ∀ c, 0 ≤ c → c < n → (dp' c ∨ F .cs c = -2) → F' .c2 c = F .c2 c) :
    Gh n n2 k' F' dp' root e := by
  obtain ⟨a1, a2, a3, a4, a5, a6, a7, a8, a9, a10⟩ := h
  constructor
  · intro x x0 x1
    obtain ⟨u, v, w⟩ := a1 x x0 x1
    exact ⟨u, v, fun hh => w ((hs _ u v).1.1 hh)⟩
  · intro x x0 x1 hx; exact a2 x x0 x1 fun hh => hx ((hs x x0 x1).1.2 hh)
  · intro x x0 x1 hx
    have hx := (hs x x0 x1).1.1 hx
    rw [h1 x x0 x1, h2 x x0 x1 (Or.inr hx)]; exact a3 x x0 x1 hx
  · intro x x0 x1
    obtain ⟨u, v, w⟩ := a1 x x0 x1
    rw [h1 _ u v]; exact a4 x x0 x1
  · intro c c0 c1 hc
    rw [h1 c c0 c1]
    exact a5 c c0 c1 fun hh => hc ((hs c c0 c1).1.2 hh)
  · intro c c0 c1 hc
    rw [h1 c c0 c1, h2 c c0 c1 (Or.inl hc)]
    obtain ⟨u, v, w, y⟩ := a6 c c0 c1 (hdp c c0 c1 hc)
    refine ⟨fun hh => u ((hs c c0 c1).1.1 hh), v, w, by omega⟩
  · intro c c' c0 c1 hc c0' c1' hc' hne
    rw [h1 c c0 c1, h2 c c0 c1 (Or.inl hc), h1 c' c0' c1', h2 c' c0' c1' (Or.inl hc')]
    exact a7 c c' c0 c1 (hdp c c0 c1 hc) c0' c1' (hdp c' c0' c1' hc') hne
  · intro c c0 c1; exact (hs c c0 c1).2
  · omega
  · intro x x0 x1 hx; exact a10 x x0 x1 fun hh => hx ((hs x x0 x1).1.2 hh)

theorem Gh.order {n2 k : ℤ} {dp : ℤ → Prop} {root : ℤ → ℤ} {e : ℤ → ℕ}
    (h : Gh n n2 k F dp root e) {c : ℤ} (h0 : 0 ≤ c) (h1 : c < n) (hc : F .cs c ≠ -2)
    (hd : ¬ dp c) (hk : k + F .c1 c ≤ n2) (ht : 1 ≤ F .c1 c) :
    Gh n n2 (k + F .c1 c) (set F .c2 c k) (fun x => dp x ∨ x = c) root e := by
  obtain ⟨a1, a2, a3, a4, a5, a6, a7, a8, a9, a10⟩ := h
  have hs : set F .c2 c k .cs = F .cs := set_ne _ (by decide) _ _
  have h1' : set F .c2 c k .c1 = F .c1 := set_ne _ (by decide) _ _
  have h2 : ∀ x, x ≠ c → set F .c2 c k .c2 x = F .c2 x := fun x hx => by
    rw [set_apply, if_neg (by tauto)]
  have h2c : set F .c2 c k .c2 c = k := by rw [set_apply]; simp
  constructor
  · rw [hs]; exact a1
  · rw [hs]; exact a2
  · intro x x0 x1 hx
    rw [hs] at hx
    have : x ≠ c := fun ee => hc (ee ▸ hx)
    rw [h1', h2 x this]; exact a3 x x0 x1 hx
  · rw [h1']; exact a4
  · rw [hs, h1']; exact a5
  · intro x x0 x1 hx
    rw [hs, h1']
    by_cases hxc : x = c
    · subst hxc
      rw [h2c]
      exact ⟨hc, by omega, by omega, Or.inl le_rfl⟩
    · rw [h2 x hxc]
      obtain ⟨u, v, w, y⟩ := a6 x x0 x1 (by tauto)
      exact ⟨u, v, w, by omega⟩
  · intro x y x0 x1 hx y0 y1 hy hne
    rw [h1']
    by_cases hxc : x = c
    · subst hxc
      rw [h2c, h2 y (Ne.symm hne)]
      obtain ⟨u, v, w, z⟩ := a6 y y0 y1 (by rcases hy with hy | hy; exact hy; exact absurd hy.symm hne)
      omega
    · by_cases hyc : y = c
      · subst hyc
        rw [h2c, h2 x hne]
        obtain ⟨u, v, w, z⟩ := a6 x x0 x1 (by tauto)
        omega
      · rw [h2 x hxc, h2 y hyc]
        exact a7 x y x0 x1 (by tauto) y0 y1 (by tauto) hne
  · rw [hs]; exact a8
  · omega
  · rw [hs]; exact a10

/-- What is known when the set differences have been computed: `F0` is the state before the pivot
row was built, `G` the state now, `P` the pivot row. -/
structure PB (n m nnz B mx : ℤ) (F0 G : Sh) (piv pf0 tag : ℤ) (ag : Bool) (P : List ℤ)
    (rk : ℤ → ℕ) : Prop where
  lay : Lay n m nnz B pf0 F0
  inc : Inc n m F0
  mar : Mk m tag mx F0
  pv : CA n F0 piv
  mem : ∀ c, c ∈ P ↔ InPiv n F0 piv c
  nd : P.Nodup
  A : ∀ i, i < pf0 → G .A i = F0 .A i
  sg : seg (G .A) pf0 P.length = P
  eq : ∀ f, f ≠ .A → f ≠ .p → f ≠ .c3 → f ≠ .c4 → f ≠ .r2 → G f = F0 f
  e2 : ∀ r, G .r2 r = mkv F0 tag ag piv (tau F0 P r) r
  dl : DL n G (fun c => CA n F0 c ∧ c ≠ piv ∧ c ∉ P) rk

/-- The rows of column `c` that are still alive. -/
def fl (F0 G : Sh) (c : ℤ) : List ℤ := (colL F0 c).filter fun r => decide (0 ≤ G .r2 r)

/-- The sum of the set differences. -/
def wsum (F0 G : Sh) (tag c : ℤ) : ℤ := ((fl F0 G c).map fun r => G .r2 r - tag).sum

/-- The loop that prunes a column and adds up the set differences. -/
theorem addDiffCol_spec (h : Rm n m Al L s F) {tag st len : ℤ} (hn : 0 ≤ n) (hst : 0 ≤ st)
    (hlen : 0 ≤ len) (hL : st + len ≤ L) (hr : ∀ r ∈ seg (F .A) st len, 0 ≤ r ∧ r < m)
    (hm : ∀ r ∈ seg (F .A) st len, 0 ≤ F .r2 r → tag ≤ F .r2 r ∧ F .r2 r ≤ tag + n) :
    wp (addDiffCol n tag st len s) (fun z => ∃ F' X,
      X = (seg (F .A) st len).filter (fun r => decide (0 ≤ F .r2 r)) ∧
      Rm n m Al L z.1 F' ∧ (∀ f, f ≠ .A → F' f = F f) ∧
      (∀ i, ¬ (st ≤ i ∧ i < st + X.length) → F' .A i = F .A i) ∧ seg (F' .A) st X.length = X ∧
      z.2.1 = st + X.length ∧ 0 ≤ z.2.2.1 ∧ 0 ≤ z.2.2.2 ∧ z.2.2.2 ≤ n ∧
      min ((X.map fun r => F .r2 r - tag).sum) n ≤ z.2.2.2) noFail := by
  unfold addDiffCol
  refine wp_post (wp_seg (A := F .A) hlen (fun pre z => ∃ F' X,
      X = pre.filter (fun r => decide (0 ≤ F .r2 r)) ∧
      Rm n m Al L z.1 F' ∧ (∀ f, f ≠ .A → F' f = F f) ∧
      (∀ i, ¬ (st ≤ i ∧ i < st + X.length) → F' .A i = F .A i) ∧ seg (F' .A) st X.length = X ∧
      z.2.1 = st + X.length ∧ 0 ≤ z.2.2.1 ∧ 0 ≤ z.2.2.2 ∧ z.2.2.2 ≤ n ∧
      min ((X.map fun r => F .r2 r - tag).sum) n ≤ z.2.2.2) ?_ ?_) fun z hz => hz
  · exact ⟨F, [], by simp, h, fun _ _ => rfl, fun _ _ => rfl, by simp, by simp, by simp, by simp,
      by simpa using hn, by simp [hn]⟩
  · rintro pre x post ⟨s, np, hash, score⟩ hX hx hlt ⟨F', X, hXe, g, h1, h2, h3, h4, h5, h6, h7, h8⟩
    dsimp only at g h4 h5 h6 h7 h8 ⊢
    have hxm : x ∈ seg (F .A) st len := by rw [hX]; simp
    have hxr := hr x hxm
    have hXl : X.length ≤ pre.length := by rw [hXe]; exact List.length_filter_le _ _
    rw [g.rd (f := .A) (show 0 ≤ st + ↑pre.length ∧ st + ↑pre.length < L from
      ⟨by omega, by omega⟩), ok_bind, h2 _ (by omega), hx,
      g.rd (f := .r2) (show 0 ≤ x ∧ x < m from hxr), ok_bind, h1 .r2 (by decide)]
    by_cases hd : F .r2 x < 0
    · rw [if_pos hd, wp_pure]
      refine ⟨F', X, ?_, g, h1, h2, h3, h4, h5, h6, h7, h8⟩
      rw [List.filter_append, ← hXe]
      have : ([x].filter fun r => decide (0 ≤ F .r2 r)) = [] := by
        simp [hd]
      rw [this, List.append_nil]
    · have htag := hm x hxm (by omega)
      rw [if_neg hd, h4]
      obtain ⟨s1, e1, g1⟩ := g.wr (f := .A) (i := st + X.length) ⟨by omega, by omega⟩ x
      rw [e1, ok_bind]
      cks g
      cks g
      rw [wp_pure]
      dsimp only
      refine ⟨_, X ++ [x], ?_, g1, ?_, ?_, ?_, ?_, ?_, ?_, ?_, ?_⟩
      · rw [List.filter_append, ← hXe]
        have : ([x].filter fun r => decide (0 ≤ F .r2 r)) = [x] := by
          simp only [List.filter_cons, List.filter_nil]
          rw [if_pos (decide_eq_true (by omega))]
        rw [this]
      · intro f hf; rw [set_ne _ hf]; exact h1 f hf
      · intro i hi
        simp only [List.length_append, List.length_singleton] at hi
        push_cast at hi
        rw [set_apply, if_neg (by omega)]
        exact h2 i (by omega)
      · have : ((X ++ [x]).length : ℤ) = X.length + 1 := by simp
        rw [this, seg_succ _ (by omega)]
        congr 1
        · rw [seg_congr (B := F' .A), h3]
          intro i _ hi
          rw [set_apply, if_neg (by omega)]
        · rw [set_apply]; simp
      · simp; omega
      · exact Int.emod_nonneg _ (by norm_num)
      · rw [le_min_iff]; omega
      · exact min_le_right _ _
      · simp only [List.map_append, List.sum_append, List.map_cons, List.map_nil, List.sum_cons,
          List.sum_nil, add_zero]
        omega

variable {nnz B mx piv pf0 tag : ℤ} {F0 G : Sh} {ag : Bool} {P : List ℤ}

theorem PB.mark (h : PB n m nnz B mx F0 G piv pf0 tag ag P rk) {c r : ℤ} (hc : c ∈ P)
    (hr : r ∈ colL F0 c) (ha : 0 ≤ G .r2 r) :
    r ∉ colL F0 piv ∧ G .r2 r = F0 .r1 r - tau F0 P r + tag ∧ tag ≤ G .r2 r := by
  have hP : ∀ c ∈ P, CA n F0 c := fun c hc => ((h.mem c).1 hc).1
  have hrr := h.inc.cv c (hP c hc) r hr
  have hpos := tau_pos h.inc hP hc hr
  have hle := tau_le h.inc h.nd hP hrr
  have hm := h.e2 r
  unfold mkv at hm
  split_ifs at hm with h1 h2 h3 h4
  · omega
  · omega
  · omega
  · omega
  · exact ⟨h1, hm, by omega⟩

theorem PB.shrink (h : PB n m nnz B mx F0 G piv pf0 tag ag P rk) {c : ℤ} (hc : c ∈ P) :
    ((fl F0 G c).length : ℤ) < F0 .cl c := by
  obtain ⟨a, _, r, hr, hcr⟩ := (h.mem c).1 hc
  have hra := h.inc.cv piv h.pv r hr
  have hrc := (h.inc.sy c r a hra).2 hcr
  have : (fl F0 G c).length < (colL F0 c).length := by
    unfold fl
    rw [List.length_filter_lt_length_iff_exists]
    refine ⟨r, hrc, ?_⟩
    rw [h.e2]
    unfold mkv
    rw [if_pos hr]; simp
  rw [colL, length_seg] at this
  omega

/-- The state while the new scores are computed: the columns of `pre` are done. -/
structure AD (n m Al B n2 : ℤ) (F0 G : Sh) (piv pf0 tag : ℤ) (P pre : List ℤ) (root : ℤ → ℤ)
    (e : ℤ → ℕ) (s : Mem) (F : Sh) (k deg : ℤ) (bk : ℤ → List ℤ) : Prop where
  rp : Rm n m Al (pf0 + P.length) s F
  aB : ∀ i, B ≤ i → F .A i = G .A i
  aC : ∀ c, CA n F0 c → c ∉ pre → ∀ i, F0 .cs c ≤ i → i < F0 .cs c + F0 .cl c → F .A i = F0 .A i
  aP : ∀ c ∈ pre, seg (F .A) (F0 .cs c) (fl F0 G c).length = fl F0 G c
  nn : ∀ i, 0 ≤ i → i < pf0 + P.length → 0 ≤ F .A i
  cs : ∀ c, F .cs c = if c ∈ pre ∧ fl F0 G c = [] then -1 else F0 .cs c
  cl : ∀ c, F .cl c = if c ∈ pre then ((fl F0 G c).length : ℤ) else F0 .cl c
  c2s : ∀ c ∈ pre, fl F0 G c ≠ [] →
    0 ≤ F .c2 c ∧ F .c2 c ≤ n ∧ min (wsum F0 G tag c) n ≤ F .c2 c
  c2o : ∀ c, c ∉ pre → F .c2 c = F0 .c2 c
  eq : ∀ f, f ≠ .A → f ≠ .p → f ≠ .cs → f ≠ .cl → f ≠ .c2 → f ≠ .c3 → f ≠ .c4 → F f = G f
  hb : HB n G F (fun c => CA n F0 c ∧ c ≠ piv ∧ c ∉ P) bk
  bp : ∀ h, 0 ≤ h → h ≤ n → ∀ x ∈ bk h, x ∈ pre ∧ fl F0 G x ≠ []
  c3r : ∀ c ∈ pre, fl F0 G c ≠ [] → 0 ≤ F .c3 c ∧ F .c3 c ≤ n
  tot : tsum n F (fun c => 0 ≤ F .cs c ∧ c ≠ piv) = n2 - k
  dg : deg = tsum n F (fun c => c ∈ P ∧ 0 ≤ F .cs c)
  gh : Gh n n2 k F (fun c => F .cs c = -1 ∨ c = piv) root e

theorem AD.deg_range {n2 : ℤ} {root : ℤ → ℤ} {e : ℤ → ℕ}
    (b : PB n m nnz B mx F0 G piv pf0 tag ag P rk) {pre : List ℤ} {k deg : ℤ} {bk : ℤ → List ℤ}
    (h : AD n m Al B n2 F0 G piv pf0 tag P pre root e s F k deg bk) : 0 ≤ deg ∧ deg ≤ n := by
  have hc1 : F .c1 = F0 .c1 := by
    rw [h.eq .c1 (by decide) (by decide) (by decide) (by decide) (by decide) (by decide)
      (by decide), b.eq .c1 (by decide) (by decide) (by decide) (by decide) (by decide)]
  have hcs : ∀ c, 0 ≤ F .cs c → 0 ≤ F0 .cs c := by
    intro c hc
    rw [h.cs] at hc
    split_ifs at hc
    · omega
    · exact hc
  rw [h.dg]
  unfold tsum
  rw [hc1]
  constructor
  · apply Finset.sum_nonneg
    intro c hc
    rw [Finset.mem_Ico] at hc
    split_ifs with hh
    · have := b.inc.th c ⟨hc.1, hc.2, hcs c hh.2⟩
      omega
    · exact le_rfl
  · refine le_trans ?_ b.inc.tt
    exact sum_ite_mono (fun c _ _ hq => hcs c hq.2) fun c c0 c1 hc => by
      have := b.inc.th c ⟨c0, c1, hc⟩; omega

theorem addDiffOne_spec {n2 : ℤ} {root : ℤ → ℤ} {e : ℤ → ℕ}
    (b : PB n m nnz B mx F0 G piv pf0 tag ag P rk) {pre post : List ℤ} {x : ℤ}
    (hP : P = pre ++ x :: post) {k deg : ℤ} {bk : ℤ → List ℤ}
    (h : AD n m Al B n2 F0 G piv pf0 tag P pre root e s F k deg bk) :
    wp (addDiffOne n tag (pf0 + pre.length) (s, k, deg))
      (fun z => ∃ F' bk', AD n m Al B n2 F0 G piv pf0 tag P (pre ++ [x]) root e z.1 F' z.2.1 z.2.2
        bk') noFail := by
  have hxP : x ∈ P := by rw [hP]; simp
  have hxi := (b.mem x).1 hxP
  have hx : CA n F0 x := hxi.1
  have hxpre : x ∉ pre := by
    intro hh
    have := b.nd
    rw [hP, List.nodup_append] at this
    exact this.2.2 x hh x (by simp) rfl
  have hcb := b.lay.cb x hx
  have hBp := b.lay.Bp
  have hB0 := b.lay.B0
  have hsh := b.shrink hxP
  have hPl : (pre.length : ℤ) < P.length := by rw [hP]; simp
  have hxA : F .A (pf0 + pre.length) = x := by
    rw [h.aB _ (by omega)]
    exact (seg_getElem (b.sg.trans hP)).1
  have hcsx : F .cs x = F0 .cs x := by rw [h.cs, if_neg (by tauto)]
  have hclx : F .cl x = F0 .cl x := by rw [h.cl, if_neg hxpre]
  have hsegx : seg (F .A) (F0 .cs x) (F0 .cl x) = colL F0 x :=
    seg_congr fun i h1 h2 => h.aC x hx hxpre i h1 h2
  have hr2 : F .r2 = G .r2 := h.eq .r2 (by decide) (by decide) (by decide) (by decide) (by decide)
    (by decide) (by decide)
  have hc1 : F .c1 = F0 .c1 := by
    rw [h.eq .c1 (by decide) (by decide) (by decide) (by decide) (by decide) (by decide)
      (by decide), b.eq .c1 (by decide) (by decide) (by decide) (by decide) (by decide)]
  have hthx := b.inc.th x hx
  unfold addDiffOne
  dsimp only
  rw [h.rp.rd (f := .A) (show 0 ≤ pf0 + ↑pre.length ∧ pf0 + ↑pre.length < _ from
    ⟨by omega, by omega⟩), ok_bind, hxA,
    h.rp.rd (f := .cs) (show 0 ≤ x ∧ x < n from ⟨hx.1, hx.2.1⟩), ok_bind, hcsx,
    h.rp.rd (f := .cl) (show 0 ≤ x ∧ x < n from ⟨hx.1, hx.2.1⟩), ok_bind, hclx]
  refine wp_bind_ok (addDiffCol_spec h.rp (by omega) hx.2.2 hcb.1 (by omega) ?_ ?_) ?_
  · intro r hr
    rw [hsegx] at hr
    have := b.inc.cv x hx r hr
    exact ⟨this.1, this.2.1⟩
  · intro r hr hr0
    rw [hsegx] at hr
    rw [hr2] at hr0 ⊢
    have h1 := b.mark hxP hr hr0
    have h2 := tau_nonneg b.inc (fun c hc => ((b.mem c).1 hc).1) r
    have h3 := b.inc.r1_le (b.inc.cv x hx r hr)
    exact ⟨h1.2.2, by omega⟩
  rintro ⟨s1, np, hash, score⟩ ⟨F1, X, hX, g1, a1, a2, a3, a4, a5, a6, a7, a8⟩
  dsimp only at g1 a4 a5 a6 a7 a8 ⊢
  have hXfl : X = fl F0 G x := by rw [hX, hsegx, hr2]; rfl
  have hws : (X.map fun r => F .r2 r - tag).sum = wsum F0 G tag x := by
    unfold wsum; rw [hXfl, hr2]
  rw [hws] at a8
  rw [hXfl] at a2 a3 a4
  obtain ⟨s2, e2, g2⟩ := g1.wr (f := .cl) (i := x) ⟨hx.1, hx.2.1⟩ (np - F0 .cs x)
  rw [e2, ok_bind]
  have enp : np - F0 .cs x = (fl F0 G x).length := by omega
  rw [enp] at g2 ⊢
  -- facts about `A`
  have fB : ∀ i, B ≤ i → F1 .A i = G .A i := by
    intro i hi; rw [a2 i (by omega)]; exact h.aB i hi
  have fC : ∀ c, CA n F0 c → c ∉ pre ++ [x] → ∀ i, F0 .cs c ≤ i → i < F0 .cs c + F0 .cl c →
      F1 .A i = F0 .A i := by
    intro c hc hcp i hi1 hi2
    have hcx : c ≠ x := by rintro rfl; simp at hcp
    have hdis : F0 .cs c + F0 .cl c ≤ F0 .cs x ∨ F0 .cs x + F0 .cl x ≤ F0 .cs c := by
      rcases lt_or_gt_of_ne hcx with hl | hl
      · exact Or.inl (b.lay.co c x hc hx hl)
      · exact Or.inr (b.lay.co x c hx hc hl)
    rw [a2 i (by omega)]
    exact h.aC c hc (by simp at hcp; tauto) i hi1 hi2
  have fP : ∀ c ∈ pre ++ [x], seg (F1 .A) (F0 .cs c) (fl F0 G c).length = fl F0 G c := by
    intro c hc
    rw [List.mem_append, List.mem_singleton] at hc
    by_cases hcx : c = x
    · subst hcx; exact a3
    · have hc : c ∈ pre := by tauto
      have hcP : c ∈ P := by rw [hP]; simp [hc]
      have hca := ((b.mem c).1 hcP).1
      have hcs := b.shrink hcP
      have hdis : F0 .cs c + F0 .cl c ≤ F0 .cs x ∨ F0 .cs x + F0 .cl x ≤ F0 .cs c := by
        rcases lt_or_gt_of_ne hcx with hl | hl
        · exact Or.inl (b.lay.co c x hca hx hl)
        · exact Or.inr (b.lay.co x c hx hca hl)
      rw [seg_congr (B := F .A)]
      · exact h.aP c hc
      · intro i hi1 hi2; exact a2 i (by omega)
  have fN : ∀ i, 0 ≤ i → i < pf0 + P.length → 0 ≤ F1 .A i := by
    intro i hi0 hi1
    by_cases hi : F0 .cs x ≤ i ∧ i < F0 .cs x + (fl F0 G x).length
    · have hm : F1 .A i ∈ seg (F1 .A) (F0 .cs x) (fl F0 G x).length :=
        mem_seg.2 ⟨i, hi.1, hi.2, rfl⟩
      rw [a3] at hm
      have := b.inc.cv x hx _ (List.mem_of_mem_filter hm)
      exact this.1
    · rw [a2 i hi]; exact h.nn i hi0 hi1
  have fE : ∀ f, f ≠ .A → f ≠ .p → f ≠ .cs → f ≠ .cl → f ≠ .c2 → f ≠ .c3 → f ≠ .c4 →
      F1 f = G f := by
    intro f h1 h2 h3 h4 h5 h6 h7
    rw [a1 f h1]; exact h.eq f h1 h2 h3 h4 h5 h6 h7
  have g2cs : set F1 .cl x ((fl F0 G x).length : ℤ) .cs = F .cs := by
    rw [set_ne _ (by decide), a1 .cs (by decide)]
  have g2c1 : set F1 .cl x ((fl F0 G x).length : ℤ) .c1 = F .c1 := by
    rw [set_ne _ (by decide), a1 .c1 (by decide)]
  have g2c2 : set F1 .cl x ((fl F0 G x).length : ℤ) .c2 = F .c2 := by
    rw [set_ne _ (by decide), a1 .c2 (by decide)]
  have fcl : ∀ c, set F1 .cl x ((fl F0 G x).length : ℤ) .cl c =
      if c ∈ pre ++ [x] then ((fl F0 G c).length : ℤ) else F0 .cl c := by
    intro c
    rw [set_apply, a1 .cl (by decide), h.cl]
    by_cases hc : c = x
    · subst hc; simp
    · simp [hc]
  by_cases hemp : fl F0 G x = []
  · -- mass elimination
    have h0 : ((fl F0 G x).length : ℤ) = 0 := by rw [hemp]; rfl
    rw [if_pos h0]
    obtain ⟨s3, e3, g3⟩ := g2.wr (f := .cs) (i := x) ⟨hx.1, hx.2.1⟩ (-1)
    rw [e3, ok_bind, g3.rd (f := .c1) (show 0 ≤ x ∧ x < n from ⟨hx.1, hx.2.1⟩), ok_bind]
    obtain ⟨s4, e4, g4⟩ := g3.wr (f := .c2) (i := x) ⟨hx.1, hx.2.1⟩ k
    have hk : k + F .c1 x ≤ n2 := by
      have h1 := h.tot
      have h2 : F .c1 x ≤ tsum n F (fun c => 0 ≤ F .cs c ∧ c ≠ piv) := by
        unfold tsum
        have := sum_ite_erase (n := n) (p := fun c => 0 ≤ F .cs c ∧ c ≠ piv)
          (q := fun c => (0 ≤ F .cs c ∧ c ≠ piv) ∧ c ≠ x) (f := F .c1) hx.1 hx.2.1
          ⟨by rw [hcsx]; exact hx.2.2, hxi.2.1⟩ (fun _ _ _ => Iff.rfl)
        rw [← sub_nonneg, ← this]
        apply Finset.sum_nonneg
        intro c hc
        rw [Finset.mem_Ico] at hc
        split_ifs with hh
        · have hh1 := hh.1.1
          rw [h.cs] at hh1
          split_ifs at hh1 with hh2
          · omega
          · rw [hc1]; have := b.inc.th c ⟨hc.1, hc.2, hh1⟩; omega
        · exact le_rfl
      omega
    have hkn := h.gh.kn
    have hdeg := AD.deg_range b h
    have hc1n := b.inc.c1_le hx
    rw [set_ne _ (by decide), g2c1]
    have hc1x : F .c1 x = F0 .c1 x := by rw [hc1]
    cks g1
    rw [e4, ok_bind]
    cks g1
    rw [wp_pure]
    dsimp only
    refine ⟨set (set (set F1 .cl x ((fl F0 G x).length : ℤ)) .cs x (-1)) .c2 x k, bk, ?_⟩
    have f4 : ∀ f, f ≠ .A → f ≠ .p → f ≠ .cs → f ≠ .cl → f ≠ .c2 → f ≠ .c3 → f ≠ .c4 →
        set (set (set F1 .cl x ((fl F0 G x).length : ℤ)) .cs x (-1)) .c2 x k f = G f := by
      intro f h1 h2 h3 h4 h5 h6 h7
      rw [set_ne _ h5, set_ne _ h3, set_ne _ h4]; exact fE f h1 h2 h3 h4 h5 h6 h7
    have f4A : set (set (set F1 .cl x ((fl F0 G x).length : ℤ)) .cs x (-1)) .c2 x k .A = F1 .A := by
      rw [set_ne _ (by decide), set_ne _ (by decide), set_ne _ (by decide)]
    have f4cs : ∀ c, set (set (set F1 .cl x ((fl F0 G x).length : ℤ)) .cs x (-1)) .c2 x k .cs c =
        if c = x then -1 else F .cs c := by
      intro c
      rw [set_ne _ (by decide), set_apply, g2cs]; simp
    have f4c2 : ∀ c, set (set (set F1 .cl x ((fl F0 G x).length : ℤ)) .cs x (-1)) .c2 x k .c2 c =
        if c = x then k else F .c2 c := by
      intro c
      rw [set_apply, set_ne _ (by decide), g2c2]; simp
    have f4c1 : set (set (set F1 .cl x ((fl F0 G x).length : ℤ)) .cs x (-1)) .c2 x k .c1 =
        F .c1 := by
      rw [set_ne _ (by decide), set_ne _ (by decide), g2c1]
    have f4cl : set (set (set F1 .cl x ((fl F0 G x).length : ℤ)) .cs x (-1)) .c2 x k .cl =
        set F1 .cl x ((fl F0 G x).length : ℤ) .cl := by
      rw [set_ne _ (by decide), set_ne _ (by decide)]
    constructor
    · exact g4
    · rw [f4A]; exact fB
    · rw [f4A]; exact fC
    · rw [f4A]; exact fP
    · rw [f4A]; exact fN
    · intro c
      rw [f4cs, h.cs]
      by_cases hc : c = x
      · subst hc; simp [hemp]
      · simp [hc]
    · intro c; rw [f4cl]; exact fcl c
    · intro c hc hne
      have hcx : c ≠ x := fun ee => hne (ee ▸ hemp)
      rw [f4c2, if_neg hcx]
      refine h.c2s c ?_ hne
      rw [List.mem_append, List.mem_singleton] at hc; tauto
    · intro c hc
      rw [List.mem_append, List.mem_singleton, not_or] at hc
      rw [f4c2, if_neg hc.2]; exact h.c2o c hc.1
    · exact f4
    · refine h.hb.congr ?_ ?_ ?_ ?_
      · rw [set_ne _ (by decide), set_ne _ (by decide), set_ne _ (by decide), a1 _ (by decide)]
      · rw [set_ne _ (by decide), set_ne _ (by decide), set_ne _ (by decide), a1 _ (by decide)]
      · rw [set_ne _ (by decide), set_ne _ (by decide), set_ne _ (by decide), a1 _ (by decide)]
      · intro c hc
        rw [f4c2, if_neg]
        rintro rfl; exact hc.2.2 hxP
    · intro y h0 h1 c hc
      obtain ⟨u, v⟩ := h.bp y h0 h1 c hc
      exact ⟨by simp [u], v⟩
    · intro c hc hne
      have hcx : c ≠ x := fun ee => hne (ee ▸ hemp)
      rw [set_ne _ (by decide), set_ne _ (by decide), set_ne _ (by decide), a1 _ (by decide)]
      refine h.c3r c ?_ hne
      rw [List.mem_append, List.mem_singleton] at hc; tauto
    · unfold tsum
      rw [f4c1, sum_ite_erase (n := n) (p := fun c => 0 ≤ F .cs c ∧ c ≠ piv)
          (f := F .c1) hx.1 hx.2.1 ⟨by rw [hcsx]; exact hx.2.2, hxi.2.1⟩]
      · have := h.tot
        unfold tsum at this
        rw [this]; omega
      · intro c _ _
        rw [f4cs]
        by_cases hc : c = x
        · simp [hc]
        · simp [hc]
    · unfold tsum
      rw [f4c1, sum_ite_erase (n := n) (p := fun c => c ∈ P ∧ 0 ≤ F .cs c)
          (f := F .c1) hx.1 hx.2.1 ⟨hxP, by rw [hcsx]; exact hx.2.2⟩]
      · have := h.dg
        unfold tsum at this
        rw [this]
      · intro c _ _
        rw [f4cs]
        by_cases hc : c = x
        · simp [hc]
        · simp [hc]
    · have hdx : ¬ (F .cs x = -1 ∨ x = piv) := by
        rw [hcsx]
        rintro (hh | hh)
        · have := hx.2.2; omega
        · exact hxi.2.1 hh
      have := h.gh.order hx.1 hx.2.1 (by rw [hcsx]; have := hx.2.2; omega) hdx hk
        (by rw [hc1]; exact hthx)
      have hle := this.kn
      refine this.congr le_rfl hle.2.1 ?_ ?_ ?_ ?_
      · intro c h0 h1
        rw [f4cs, set_ne _ (by decide)]
        by_cases hc : c = x
        · subst hc; rw [if_pos rfl, hcsx]; have := hx.2.2; omega
        · rw [if_neg hc]; exact ⟨Iff.rfl, h.gh.kd c h0 h1⟩
      · intro c _ _; rw [f4c1, set_ne _ (by decide)]
      · intro c _ _ hc
        rw [f4cs] at hc
        by_cases hcx : c = x
        · exact Or.inr hcx
        · rw [if_neg hcx] at hc; exact Or.inl hc
      · intro c _ _ _
        rw [f4c2, set_apply]; simp
  · have h0 : ¬ ((fl F0 G x).length : ℤ) = 0 := by
      intro hh
      exact hemp (List.length_eq_zero_iff.1 (by omega))
    rw [if_neg h0]
    obtain ⟨s3, e3, g3⟩ := g2.wr (f := .c2) (i := x) ⟨hx.1, hx.2.1⟩ score
    rw [e3, ok_bind]
    have f3c2 : ∀ c, set (set F1 .cl x ((fl F0 G x).length : ℤ)) .c2 x score .c2 c =
        if c = x then score else F .c2 c := by
      intro c
      rw [set_apply, g2c2]; simp
    have hb3 : HB n G (set (set F1 .cl x ((fl F0 G x).length : ℤ)) .c2 x score)
        (fun c => CA n F0 c ∧ c ≠ piv ∧ c ∉ P) bk := by
      refine h.hb.congr ?_ ?_ ?_ ?_
      · rw [set_ne _ (by decide), set_ne _ (by decide), a1 _ (by decide)]
      · rw [set_ne _ (by decide), set_ne _ (by decide), a1 _ (by decide)]
      · rw [set_ne _ (by decide), set_ne _ (by decide), a1 _ (by decide)]
      · intro c hc
        rw [f3c2, if_neg]
        rintro rfl; exact hc.2.2 hxP
    have hnn : n + 1 ≠ 0 := by omega
    have hh0 := Int.emod_nonneg hash hnn
    have hh1 := Int.emod_lt_of_pos hash (show 0 < n + 1 by omega)
    obtain ⟨s4, F4, e4, g4, hb4, f4, f5, f6⟩ := pushHash_spec g3 hb3 b.dl hh0 (by omega) hx.1 hx.2.1
      (fun hh => hh.2.2 hxP) (fun y hy0 hy1 hy => hxpre (h.bp y hy0 hy1 x hy).1)
    cks g1
    rw [e4, ok_bind, wp_pure]
    dsimp only
    have f4A : F4 .A = F1 .A := by
      rw [f4 .A (by decide) (by decide) (by decide), set_ne _ (by decide), set_ne _ (by decide)]
    have f4cs : F4 .cs = F .cs := by
      rw [f4 .cs (by decide) (by decide) (by decide), set_ne _ (by decide), g2cs]
    have f4c1 : F4 .c1 = F .c1 := by
      rw [f4 .c1 (by decide) (by decide) (by decide), set_ne _ (by decide), g2c1]
    have f4c2 : ∀ c, F4 .c2 c = if c = x then score else F .c2 c := by
      intro c; rw [f4 .c2 (by decide) (by decide) (by decide)]; exact f3c2 c
    refine ⟨F4, _, g4, ?_, ?_, ?_, ?_, ?_, ?_, ?_, ?_, ?_, hb4, ?_, ?_, ?_, ?_, ?_⟩
    · rw [f4A]; exact fB
    · rw [f4A]; exact fC
    · rw [f4A]; exact fP
    · rw [f4A]; exact fN
    · intro c
      rw [f4cs, h.cs]
      by_cases hc : c = x
      · subst hc; simp [hemp]
      · simp [hc]
    · intro c
      rw [f4 .cl (by decide) (by decide) (by decide), set_ne _ (by decide)]; exact fcl c
    · intro c hc hne
      rw [f4c2]
      by_cases hcx : c = x
      · subst hcx; rw [if_pos rfl]; exact ⟨a6, a7, a8⟩
      · rw [if_neg hcx]
        refine h.c2s c ?_ hne
        rw [List.mem_append, List.mem_singleton] at hc; tauto
    · intro c hc
      rw [List.mem_append, List.mem_singleton, not_or] at hc
      rw [f4c2, if_neg hc.2]; exact h.c2o c hc.1
    · intro f h1 h2 h3 h4 h5 h6 h7
      rw [f4 f h2 h6 h7, set_ne _ h5, set_ne _ h4]; exact fE f h1 h2 h3 h4 h5 h6 h7
    · intro y hy0 hy1 c hc
      by_cases hy : y = hash % (n + 1)
      · rw [hy, Function.update_self, List.mem_cons] at hc
        rcases hc with rfl | hc
        · exact ⟨by simp, hemp⟩
        · obtain ⟨u, v⟩ := h.bp _ hh0 (by omega) c hc
          exact ⟨by simp [u], v⟩
      · rw [Function.update_of_ne hy] at hc
        obtain ⟨u, v⟩ := h.bp y hy0 hy1 c hc
        exact ⟨by simp [u], v⟩
    · intro c hc hne
      by_cases hcx : c = x
      · subst hcx; rw [f5]; omega
      · rw [List.mem_append, List.mem_singleton] at hc
        have hc : c ∈ pre := by tauto
        rw [f6 c (fun hh => hh.2.2 (by rw [hP]; simp [hc])) hcx, set_ne _ (by decide),
          set_ne _ (by decide), a1 _ (by decide)]
        exact h.c3r c hc hne
    · have := h.tot
      unfold tsum at this ⊢
      rw [f4cs, f4c1]; exact this
    · have := h.dg
      unfold tsum at this ⊢
      rw [f4cs, f4c1]; exact this
    · have hle := h.gh.kn
      refine h.gh.congr le_rfl hle.2.1 ?_ ?_ ?_ ?_
      · intro c h0 h1; rw [f4cs]; exact ⟨Iff.rfl, h.gh.kd c h0 h1⟩
      · intro c _ _; rw [f4c1]
      · intro c _ _ hc; rw [f4cs] at hc; exact hc
      · intro c _ _ hc
        rw [f4c2, if_neg]
        rintro rfl
        rw [f4cs, hcsx] at hc
        have := hx.2.2
        rcases hc with (hc | hc) | hc
        · omega
        · exact hxi.2.1 hc
        · omega

theorem addDiff_spec {n2 : ℤ} {root : ℤ → ℤ} {e : ℤ → ℕ}
    (b : PB n m nnz B mx F0 G piv pf0 tag ag P rk) {k deg : ℤ} {bk : ℤ → List ℤ}
    (h : AD n m Al B n2 F0 G piv pf0 tag P [] root e s F k deg bk) :
    wp (addDiff n tag pf0 P.length k deg s)
      (fun z => ∃ F' bk', AD n m Al B n2 F0 G piv pf0 tag P P root e z.1 F' z.2.1 z.2.2
        bk') noFail := by
  unfold addDiff
  have := wp_seg (A := G .A) (a := pf0) (l := (P.length : ℤ)) (f := addDiffOne n tag)
    (E := noFail) (by omega)
    (fun pre z => ∃ F' bk', AD n m Al B n2 F0 G piv pf0 tag P pre root e z.1 F' z.2.1 z.2.2 bk')
    (s := (s, k, deg)) ⟨F, bk, h⟩ ?_
  · rw [b.sg] at this; exact this
  · rintro pre x post ⟨s, k, deg⟩ hX hx hlt ⟨F', bk', h'⟩
    rw [b.sg] at hX
    exact addDiffOne_spec b hX h'

end Slip.Colamd
