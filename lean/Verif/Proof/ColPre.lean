import Verif.Proof.ColSuper

/-!
# COLAMD: the state before the scores are finalized
-/

namespace Slip.Colamd

set_option linter.unusedSectionVars false

variable [Arith]
variable {n m Al L : ℤ} {s : Mem} {F H : Sh} {P : List ℤ} {rk : ℤ → ℕ}
variable {nnz B mx piv pf0 tag : ℤ} {F0 G : Sh} {ag : Bool}

theorem clear_mark_spec (h : Rm n m Al L s F) {tag maxMark : ℤ} (hm : 0 ≤ m)
    (ht : 0 < tag → ∀ r, RA m F r → F .r2 r < tag) (hmk : maxMark ≤ 2147483648) :
    wp (clear_mark tag maxMark m s) (fun z => ∃ F', Rm n m Al L z.1 F' ∧
      (∀ f, f ≠ .r2 → F' f = F f) ∧ (∀ r, 0 ≤ r → r < m → (0 ≤ F' .r2 r ↔ 0 ≤ F .r2 r)) ∧
      1 ≤ z.2 ∧ z.2 ≤ 2147483648 ∧ ∀ r, RA m F' r → F' .r2 r < z.2) noFail := by
  unfold clear_mark
  split_ifs with hh
  · refine wp_bind_ok (wp_forRange (fun i s => ∃ F', Rm n m Al L s F' ∧
      (∀ f, f ≠ .r2 → F' f = F f) ∧
      (∀ r, F' .r2 r = if 0 ≤ r ∧ r < i ∧ 0 ≤ F .r2 r then 0 else F .r2 r)) hm ?_ ?_) ?_
    · refine ⟨F, h, fun _ _ => rfl, fun r => ?_⟩
      rw [if_neg (by omega)]
    · rintro i s h0 h1 ⟨F', g, e, e2⟩
      have hi : F' .r2 i = F .r2 i := by rw [e2, if_neg (by omega)]
      rw [g.rd (f := .r2) (show 0 ≤ i ∧ i < m from ⟨h0, h1⟩), ok_bind, hi]
      split_ifs with hp
      · obtain ⟨s1, e1, g1⟩ := g.wr (f := .r2) (i := i) ⟨h0, h1⟩ 0
        rw [e1, wp_ok]
        refine ⟨_, g1, fun f hf => by rw [set_ne _ hf]; exact e f hf, fun r => ?_⟩
        rw [set_apply, e2]
        by_cases hr : r = i
        · subst hr
          rw [if_pos ⟨rfl, rfl⟩, if_pos ⟨h0, by omega, hp⟩]
        · rw [if_neg (by tauto)]
          by_cases hc : 0 ≤ r ∧ r < i ∧ 0 ≤ F .r2 r
          · rw [if_pos hc, if_pos (by omega)]
          · rw [if_neg hc, if_neg (by omega)]
      · rw [wp_pure]
        refine ⟨F', g, e, fun r => ?_⟩
        rw [e2]
        by_cases hr : r = i
        · subst hr
          rw [if_neg (by omega), if_neg (by omega)]
        · by_cases hc : 0 ≤ r ∧ r < i ∧ 0 ≤ F .r2 r
          · rw [if_pos hc, if_pos (by omega)]
          · rw [if_neg hc, if_neg (by omega)]
    · rintro s1 ⟨F', g, e, e2⟩
      rw [wp_pure]
      refine ⟨F', g, e, fun r h0 h1 => ?_, le_rfl, by dsimp only; omega, fun r hr => ?_⟩
      · rw [e2]; split_ifs <;> omega
      · obtain ⟨h0, h1, h2⟩ := hr
        rw [e2] at h2 ⊢
        split_ifs at h2 ⊢ <;> dsimp only <;> omega
  · rw [wp_pure]
    have : 0 < tag := by omega
    exact ⟨F, h, fun _ _ => rfl, fun _ _ _ => Iff.rfl, by dsimp only; omega, by dsimp only; omega, ht this⟩

/-- The rows of a column outside the pivot row stay alive. -/
theorem PB.out (b : PB n m nnz B mx F0 G piv pf0 tag ag P rk) {c r : ℤ} (hc : CA n F0 c)
    (hcp : c ≠ piv) (hcP : c ∉ P) (hr : r ∈ colL F0 c) : r ∉ colL F0 piv ∧ 0 ≤ G .r2 r := by
  have hP : ∀ c ∈ P, CA n F0 c := fun c hc => ((b.mem c).1 hc).1
  have hrr := b.inc.cv c hc r hr
  have h1 : r ∉ colL F0 piv := by
    intro hh
    exact hcP ((b.mem c).2 ⟨hc, hcp, r, hh, (b.inc.sy c r hc hrr).1 hr⟩)
  refine ⟨h1, ?_⟩
  have hle := tau_le b.inc (Q := c :: P) (List.nodup_cons.2 ⟨hcP, b.nd⟩)
    (by intro x hx; rcases List.mem_cons.1 hx with rfl | hx; exact hc; exact hP x hx) hrr
  have h0 := tau_nonneg b.inc hP r
  have hth := b.inc.th c hc
  have he : tau F0 (c :: P) r = F0 .c1 c + tau F0 P r := by
    unfold tau; simp [hr]
  have htg := b.mar.tg
  rw [b.e2]
  unfold mkv
  rw [if_neg h1]
  have := hrr.2.2
  split_ifs with p1 p2 p3
  · omega
  · omega
  · omega
  · omega

/-- A row that survives was alive and is not a row of the pivot column. -/
theorem PB.alive (b : PB n m nnz B mx F0 G piv pf0 tag ag P rk) {r : ℤ} (h : 0 ≤ G .r2 r) :
    r ∉ colL F0 piv ∧ 0 ≤ F0 .r2 r := by
  rw [b.e2] at h
  unfold mkv at h
  by_cases h1 : r ∈ colL F0 piv
  · rw [if_pos h1] at h; omega
  · refine ⟨h1, ?_⟩
    rw [if_neg h1] at h
    by_contra h2
    rw [if_pos (by omega)] at h
    exact h2 h

theorem sum_union {n : ℤ} {p : ℤ → Prop} [DecidablePred p] {f : ℤ → ℤ} {R : ℤ → ℤ → Prop}
    [∀ r c, Decidable (R r c)] (hf : ∀ c, 0 ≤ c → c < n → p c → 0 ≤ f c) (l : List ℤ) :
    (∑ c ∈ Finset.Ico 0 n, if p c ∧ ∃ r ∈ l, R r c then f c else 0) ≤
      (l.map fun r => ∑ c ∈ Finset.Ico 0 n, if p c ∧ R r c then f c else 0).sum := by
  induction l with
  | nil =>
    simp
  | cons a l ih =>
    simp only [List.map_cons, List.sum_cons]
    refine le_trans ?_ (add_le_add le_rfl ih)
    rw [← Finset.sum_add_distrib]
    apply Finset.sum_le_sum
    intro c hc
    rw [Finset.mem_Ico] at hc
    have := hf c hc.1 hc.2
    by_cases hp : p c
    · have := this hp
      by_cases h1 : R a c
      · rw [if_pos ⟨hp, a, by simp, h1⟩, if_pos ⟨hp, h1⟩]
        split_ifs <;> omega
      · by_cases h2 : ∃ r ∈ l, R r c
        · have h3 : ∃ r ∈ a :: l, R r c := by
            obtain ⟨r, hr, hr'⟩ := h2; exact ⟨r, by simp [hr], hr'⟩
          rw [if_pos ⟨hp, h3⟩, if_neg (by tauto), if_pos ⟨hp, h2⟩]; omega
        · have h3 : ¬ ∃ r ∈ a :: l, R r c := by
            rintro ⟨r, hr, hr'⟩
            rcases List.mem_cons.1 hr with rfl | hr
            · exact h1 hr'
            · exact h2 ⟨r, hr, hr'⟩
          rw [if_neg (fun hh => h3 hh.2), if_neg (fun hh => h1 hh.2), if_neg (fun hh => h2 hh.2)]; omega
    · rw [if_neg (by tauto), if_neg (by tauto), if_neg (by tauto)]; omega

/-- The set differences bound the neighbours outside the pivot row. -/
theorem PB.wsum_le (b : PB n m nnz B mx F0 G piv pf0 tag ag P rk) {c : ℤ} (hc : c ∈ P) :
    (∑ c' ∈ Finset.Ico 0 n, if (0 ≤ F0 .cs c' ∧ c' ∉ P) ∧ ∃ r ∈ fl F0 G c, r ∈ colL F0 c'
      then F0 .c1 c' else 0) ≤ wsum F0 G tag c := by
  have hP : ∀ c ∈ P, CA n F0 c := fun c hc => ((b.mem c).1 hc).1
  refine le_trans (sum_union (R := fun r c' => r ∈ colL F0 c')
    (fun x h0 h1 hx => by have := b.inc.th x ⟨h0, h1, hx.1⟩; omega) _) (le_of_eq ?_)
  unfold wsum
  congr 1
  apply List.map_congr_left
  intro r hr
  unfold fl at hr
  rw [List.mem_filter, decide_eq_true_iff] at hr
  have hrr := b.inc.cv c (hP c hc) r hr.1
  have h1 := (b.mark hc hr.1 hr.2).2.1
  have h2 := tau_sum F0 b.nd hP r
  have h3 := (b.inc.dg r hrr).1
  unfold rdeg at h3
  have h4 : (∑ c ∈ Finset.Ico 0 n, if 0 ≤ F0 .cs c ∧ c ∈ rowL F0 r then F0 .c1 c else 0)
      = (∑ c ∈ Finset.Ico 0 n, if c ∈ P ∧ r ∈ colL F0 c then F0 .c1 c else 0)
      + ∑ c ∈ Finset.Ico 0 n, if (0 ≤ F0 .cs c ∧ c ∉ P) ∧ r ∈ colL F0 c then F0 .c1 c else 0 := by
    rw [← Finset.sum_add_distrib]
    apply Finset.sum_congr rfl
    intro x hx
    rw [Finset.mem_Ico] at hx
    by_cases hxa : 0 ≤ F0 .cs x
    · have hsy := b.inc.sy x r ⟨hx.1, hx.2, hxa⟩ hrr
      by_cases hxr : r ∈ colL F0 x
      · rw [if_pos ⟨hxa, hsy.1 hxr⟩]
        by_cases hxP : x ∈ P
        · rw [if_pos ⟨hxP, hxr⟩, if_neg (by tauto)]; omega
        · rw [if_neg (by tauto), if_pos ⟨⟨hxa, hxP⟩, hxr⟩]; omega
      · rw [if_neg (by rw [← hsy]; tauto), if_neg (by tauto), if_neg (by tauto)]; omega
    · have : x ∉ P := fun hh => hxa (hP x hh).2.2
      rw [if_neg (by tauto), if_neg (by tauto), if_neg (by tauto)]; omega
  rw [h1, h3, h2, h4]; ring

/-- The state before the scores are finalized; `F0` is the state before the pivot row was built,
`G` the state after the set differences. -/
structure BF (n m Al B n2 : ℤ) (F0 G : Sh) (piv pf0 tag : ℤ) (P : List ℤ) (k deg tg' : ℤ)
    (rk : ℤ → ℕ) (root : ℤ → ℤ) (e : ℤ → ℕ) (s : Mem) (J : Sh) : Prop where
  rp : Rm n m Al (pf0 + P.length) s J
  aB : ∀ i, B ≤ i → J .A i = G .A i
  aC : ∀ c, CA n F0 c → c ∉ P → ∀ i, F0 .cs c ≤ i → i < F0 .cs c + F0 .cl c → J .A i = F0 .A i
  aP : ∀ c ∈ P, seg (J .A) (F0 .cs c) (fl F0 G c).length = fl F0 G c
  nn : ∀ i, 0 ≤ i → i < pf0 + P.length → 0 ≤ J .A i
  cs : ∀ c, 0 ≤ J .cs c → J .cs c = F0 .cs c ∧ c ≠ piv
  co : ∀ c, c ∉ P → c ≠ piv → J .cs c = F0 .cs c ∧ J .c1 c = F0 .c1 c ∧ J .c2 c = F0 .c2 c
  cl : ∀ c, J .cl c = if c ∈ P then ((fl F0 G c).length : ℤ) else F0 .cl c
  th : ∀ c, CA n J c → 1 ≤ J .c1 c
  c2 : ∀ c ∈ P, 0 ≤ J .cs c → 0 ≤ J .c2 c ∧ J .c2 c ≤ n ∧ min (wsum F0 G tag c) n ≤ J .c2 c
  eq : ∀ f, f = .rs ∨ f = .rl ∨ f = .r1 → J f = F0 f
  r2 : ∀ r, 0 ≤ r → r < m → (0 ≤ J .r2 r ↔ 0 ≤ G .r2 r)
  tg : 1 ≤ tg' ∧ tg' ≤ 2147483648 ∧ ∀ r, RA m J r → J .r2 r < tg'
  tot : tsum n J (fun c => 0 ≤ J .cs c) = n2 - k
  dg : deg = tsum n J (fun c => c ∈ P ∧ 0 ≤ J .cs c)
  rd : ∀ r, RA m J r → tsum n J (fun c => 0 ≤ J .cs c ∧ c ∈ rowL F0 r) = rdeg n F0 r
  ns : ∀ c, CA n F0 c → c ∉ P → c ≠ piv →
    tsum n J (fun c' => 0 ≤ J .cs c' ∧ c' ≠ c ∧ ∃ r ∈ colL F0 c, r ∈ colL F0 c') ≤ nsum n F0 c
  dl : DL n J (fun c => CA n F0 c ∧ c ≠ piv ∧ c ∉ P) rk
  gh : Gh n n2 k J (fun c => J .cs c = -1) root e

/-- From the state after supercolumn detection to `BF`. -/
theorem BF.mk' {n2 k deg maxMark mxd : ℤ} {root root' : ℤ → ℤ} {e e' : ℤ → ℕ} {bk : ℤ → List ℤ}
    {s0 : Mem} (b : PB n m nnz B mx F0 G piv pf0 tag ag P rk) (hm : 0 ≤ m)
    (h : AD n m Al B n2 F0 G piv pf0 tag P P root e s0 H k deg bk)
    (hR : Rm n m Al (pf0 + P.length) s F)
    (hM : MI n (pf0 + P.length) H P F)
    (hG : Gh n n2 k F (fun x => F .cs x = -1 ∨ x = piv) root' e')
    (hD : DL n F (fun c => CA n F0 c ∧ c ≠ piv ∧ c ∉ P) rk) (hmx : mx ≤ mxd)
    (hmk : maxMark ≤ 2147483648) :
    wp (do
        let s ← s.wr .cs piv (-1)
        clear_mark (tag + mxd + 1) maxMark m s)
      (fun z => ∃ J, BF n m Al B n2 F0 G piv pf0 tag P k deg z.2 rk root' e' z.1 J) noFail := by
  have hPA : ∀ c ∈ P, CA n F0 c := fun c hc => ((b.mem c).1 hc).1
  have hpP : piv ∉ P := fun hh => ((b.mem piv).1 hh).2.1 rfl
  obtain ⟨s1, e1, g1⟩ := hR.wr (f := .cs) (i := piv) ⟨b.pv.1, b.pv.2.1⟩ (-1)
  rw [e1, ok_bind]
  have fr2 : F .r2 = G .r2 := by
    rw [hM.eq .r2 (by decide) (by decide) (by decide) (by decide) (by decide) (by decide),
      h.eq .r2 (by decide) (by decide) (by decide) (by decide) (by decide) (by decide) (by decide)]
  refine wp_post (clear_mark_spec g1 hm ?_ hmk) ?_
  · intro _ r hr
    rw [set_ne _ (by decide), fr2]
    have hr' : 0 ≤ G .r2 r := by
      have := hr.2.2
      rwa [set_ne _ (by decide), fr2] at this
    have ha := b.alive hr'
    have hra : RA m F0 r := ⟨hr.1, hr.2.1, ha.2⟩
    have h0 := tau_nonneg b.inc hPA r
    have h1 := b.mar.lt r hra
    have h2 := b.mar.md r hra
    have h3 := (b.inc.dg r hra).2
    rw [b.e2] at hr' ⊢
    unfold mkv at hr' ⊢
    split_ifs at hr' ⊢ <;> omega
  · rintro ⟨s2, tg'⟩ ⟨J, g2, eJ, a1, a2, a2', a3⟩
    dsimp only at g2 a2 a3 ⊢
    have eF : ∀ f, f ≠ .r2 → f ≠ .cs → J f = F f := fun f h1 h2 => by
      rw [eJ f h1, set_ne _ h2]
    have eH : ∀ f, f ≠ .p → f ≠ .cs → f ≠ .c1 → f ≠ .c2 → f ≠ .c3 → f ≠ .c4 → f ≠ .r2 →
        J f = H f := fun f h1 h2 h3 h4 h5 h6 h7 => by
      rw [eF f h7 h2, hM.eq f h1 h2 h3 h4 h5 h6]
    have ecs : ∀ c, J .cs c = if c = piv then -1 else F .cs c := by
      intro c
      rw [eJ .cs (by decide), set_apply]
      simp
    have ec1 : J .c1 = F .c1 := eF .c1 (by decide) (by decide)
    have ec2 : J .c2 = F .c2 := eF .c2 (by decide) (by decide)
    have eHA : J .A = H .A := eH .A (by decide) (by decide) (by decide) (by decide) (by decide)
      (by decide) (by decide)
    have eHl : J .cl = H .cl := eH .cl (by decide) (by decide) (by decide) (by decide) (by decide)
      (by decide) (by decide)
    have eH1 : H .c1 = F0 .c1 := by
      rw [h.eq .c1 (by decide) (by decide) (by decide) (by decide) (by decide) (by decide)
        (by decide), b.eq .c1 (by decide) (by decide) (by decide) (by decide) (by decide)]
    have hcs : ∀ c, 0 ≤ J .cs c → c ≠ piv ∧ 0 ≤ F .cs c ∧ F .cs c = H .cs c ∧ 0 ≤ H .cs c ∧
        H .cs c = F0 .cs c ∧ ¬ (c ∈ P ∧ fl F0 G c = []) := by
      intro c hc
      rw [ecs] at hc
      have hcp : c ≠ piv := by rintro rfl; simp at hc
      rw [if_neg hcp] at hc
      have hFH : F .cs c = H .cs c := by
        by_cases hcP : c ∈ P
        · exact (hM.alive hcP hc).1
        · exact (hM.o c hcP).1
      have hH0 : 0 ≤ H .cs c := by omega
      have := h.cs c
      by_cases hf : c ∈ P ∧ fl F0 G c = []
      · rw [if_pos hf] at this; omega
      · rw [if_neg hf] at this
        exact ⟨hcp, hc, hFH, hH0, this, hf⟩
    have hcolH : ∀ c ∈ P, 0 ≤ H .cs c → fl F0 G c ≠ [] ∧ colL H c = fl F0 G c := by
      intro c hc hH
      have h1 := h.cs c
      by_cases hf : c ∈ P ∧ fl F0 G c = []
      · rw [if_pos hf] at h1; omega
      · rw [if_neg hf] at h1
        refine ⟨fun hh => hf ⟨hc, hh⟩, ?_⟩
        unfold colL
        rw [h1, h.cl c, if_pos hc]
        exact h.aP c hc
    have hJF : ∀ (Q : ℤ → Prop) [DecidablePred Q], ¬ Q piv →
        tsum n J (fun c => 0 ≤ J .cs c ∧ Q c) = tsum n F (fun c => 0 ≤ F .cs c ∧ Q c) := by
      intro Q _ hQ
      unfold tsum
      refine sum_ite_congr ?_ ?_
      · intro c _ _
        rw [ecs]
        by_cases hc : c = piv
        · subst hc; tauto
        · rw [if_neg hc]
      · intro c _ _ _; rw [ec1]
    have hsat : ∀ (Q : ℤ → Prop) [DecidablePred Q], ¬ Q piv →
        (∀ c ∈ P, ∀ c' ∈ P, fl F0 G c = fl F0 G c' → (Q c ↔ Q c')) →
        tsum n J (fun c => 0 ≤ J .cs c ∧ Q c) = tsum n H (fun c => 0 ≤ H .cs c ∧ Q c) := by
      intro Q _ hQ hQ'
      rw [hJF Q hQ, hM.t Q]
      intro c hc c' hc' hH hH' hcc
      rw [(hcolH c hc hH).2, (hcolH c' hc' hH').2] at hcc
      exact hQ' c hc c' hc' hcc
    refine ⟨J, ?_⟩
    constructor
    · exact g2
    · rw [eHA]; exact h.aB
    · rw [eHA]; exact h.aC
    · rw [eHA]; exact h.aP
    · rw [eHA]; exact h.nn
    · intro c hc
      obtain ⟨u1, u2, u3, u4, u5, u6⟩ := hcs c hc
      rw [ecs, if_neg u1]
      exact ⟨u3.trans u5, u1⟩
    · intro c hcP hcp
      obtain ⟨v1, v2, v3⟩ := hM.o c hcP
      rw [ecs, if_neg hcp, ec1, ec2, v1, v2, v3, eH1, h.c2o c hcP, h.cs c, if_neg (by tauto)]
      exact ⟨rfl, rfl, rfl⟩
    · rw [eHl]; exact h.cl
    · rintro c ⟨c0, c1, hc⟩
      obtain ⟨u1, u2, u3, u4, u5, u6⟩ := hcs c hc
      rw [ec1]
      by_cases hcP : c ∈ P
      · exact (hM.alive hcP u2).2.2.1
      · rw [(hM.o c hcP).2.1, eH1]; exact b.inc.th c ⟨c0, c1, by omega⟩
    · intro c hcP hc
      obtain ⟨u1, u2, u3, u4, u5, u6⟩ := hcs c hc
      rw [ec2, (hM.alive hcP u2).2.1]
      exact h.c2s c hcP (hcolH c hcP u4).1
    · intro f hf
      have : J f = G f := by
        rw [eH f, h.eq f] <;> rcases hf with rfl | rfl | rfl <;> decide
      rw [this, b.eq f] <;> rcases hf with rfl | rfl | rfl <;> decide
    · intro r h0 h1
      rw [a1 r h0 h1, set_ne _ (by decide), fr2]
    · exact ⟨a2, a2', a3⟩
    · have h1 := hsat (fun c => c ≠ piv) (by simp)
        (fun c hc c' hc' _ => by
          constructor
          · intro _ hh; exact hpP (hh ▸ hc')
          · intro _ hh; exact hpP (hh ▸ hc))
      rw [← h.tot, ← h1]
      unfold tsum
      refine sum_ite_congr ?_ ?_
      · intro c _ _
        exact ⟨fun hh => ⟨hh, (hcs c hh).1⟩, fun hh => hh.1⟩
      · intros; rfl
    · have h1 := hsat (fun c => c ∈ P) hpP (fun c hc c' hc' _ => by tauto)
      rw [h.dg]
      have e1 : tsum n H (fun c => c ∈ P ∧ 0 ≤ H .cs c) = tsum n H (fun c => 0 ≤ H .cs c ∧ c ∈ P) :=
        sum_ite_congr (fun c _ _ => by tauto) (fun _ _ _ _ => rfl)
      rw [e1, ← h1]
      exact sum_ite_congr (fun c _ _ => by tauto) (fun _ _ _ _ => rfl)
    · rintro r ⟨r0, r1, hr⟩
      have hr' : 0 ≤ G .r2 r := by
        rw [a1 r r0 r1, set_ne _ (by decide), fr2] at hr; exact hr
      obtain ⟨hrp, hr0⟩ := b.alive hr'
      have hra : RA m F0 r := ⟨r0, r1, hr0⟩
      have hfl : ∀ c ∈ P, c ∈ rowL F0 r ↔ r ∈ fl F0 G c := by
        intro c hc
        rw [← b.inc.sy c r (hPA c hc) hra]
        unfold fl
        rw [List.mem_filter, decide_eq_true_iff]
        tauto
      rw [hsat (fun c => c ∈ rowL F0 r) (fun hh => hrp ((b.inc.sy piv r b.pv hra).2 hh))
        (fun c hc c' hc' hcc => by rw [hfl c hc, hfl c' hc', hcc])]
      unfold tsum rdeg
      refine sum_ite_congr ?_ ?_
      · intro c _ _
        rw [h.cs c]
        by_cases hf : c ∈ P ∧ fl F0 G c = []
        · rw [if_pos hf]
          have : c ∉ rowL F0 r := by rw [hfl c hf.1, hf.2]; simp
          tauto
        · rw [if_neg hf]
      · intro c _ _ _; rw [eH1]
    · intro c hc hcP hcp
      have hout : ∀ r ∈ colL F0 c, r ∉ colL F0 piv ∧ 0 ≤ G .r2 r := fun r hr =>
        b.out hc hcp hcP hr
      have hQ : ∀ c' ∈ P, (c' ≠ c ∧ ∃ r ∈ colL F0 c, r ∈ colL F0 c') ↔
          (∃ r ∈ colL F0 c, r ∈ fl F0 G c') := by
        intro c' hc'
        unfold fl
        constructor
        · rintro ⟨_, r, hr, hr'⟩
          exact ⟨r, hr, List.mem_filter.2 ⟨hr', decide_eq_true (hout r hr).2⟩⟩
        · rintro ⟨r, hr, hr'⟩
          exact ⟨by rintro rfl; exact hcP hc', r, hr, (List.mem_filter.1 hr').1⟩
      rw [hsat (fun c' => c' ≠ c ∧ ∃ r ∈ colL F0 c, r ∈ colL F0 c')
        (by rintro ⟨_, r, hr, hr'⟩; exact (hout r hr).1 hr')
        (fun x hx x' hx' hxx => by rw [hQ x hx, hQ x' hx', hxx])]
      unfold tsum nsum
      rw [eH1]
      refine sum_ite_mono ?_ ?_
      · rintro x _ _ ⟨hx, hx'⟩
        refine ⟨?_, hx'⟩
        rw [h.cs x] at hx
        split_ifs at hx
        · omega
        · exact hx
      · rintro x x0 x1 ⟨hx, _⟩
        have := b.inc.th x ⟨x0, x1, hx⟩; omega
    · refine hD.congr (fun _ => Iff.rfl) ?_ ?_ ?_ ?_
      · intro d _ _; rw [eF .p (by decide) (by decide)]
      · intro d _; rw [ec2]
      · intro d _; rw [eF .c3 (by decide) (by decide)]
      · intro d _; rw [eF .c4 (by decide) (by decide)]
    · have hpcs : F .cs piv = F0 .cs piv := by
        rw [(hM.o piv hpP).1, h.cs, if_neg (by tauto)]
      refine hG.congr le_rfl hG.kn.2.1 ?_ ?_ ?_ ?_
      · intro c c0 c1
        rw [ecs]
        have := hG.kd c c0 c1
        have := b.pv.2.2
        split_ifs with hc
        · subst hc; omega
        · exact ⟨Iff.rfl, by assumption⟩
      · intro c _ _; rw [ec1]
      · intro c _ _ hc
        rw [ecs] at hc
        by_cases hcp : c = piv
        · exact Or.inr hcp
        · rw [if_neg hcp] at hc; exact Or.inl hc
      · intro c _ _ _; rw [ec2]

end Slip.Colamd
