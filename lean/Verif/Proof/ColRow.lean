import Verif.Proof.ColDeg

/-!
# COLAMD: the pivot column and the pivot row
-/

namespace Slip.Colamd

set_option linter.unusedSectionVars false

variable [Arith]
variable {n m Al L : ℤ} {s : Mem} {F : Sh} {S : ℤ → Prop} {rk : ℤ → ℕ}

theorem selectPivot_spec (h : Rm n m Al L s F) (hd : DL n F S rk) {ms k : ℤ} (h0 : 0 ≤ ms)
    (h1 : ms ≤ n) (hne : F .p ms ≠ -1) :
    ∃ s', selectPivot ms k s = .ok (s', F .p ms, F .c2 (F .p ms), F .c1 (F .p ms)) ∧
      Rm n m Al L s' (set (unlink F (F .p ms)) .c2 (F .p ms) k) := by
  obtain ⟨hS, h2, h3⟩ := (hd.hd ms h0 h1).resolve_left hne
  have hg := hd.rg _ hS
  have hn := hd.nx _ hS
  have hn' : F .c4 (F .p ms) = -1 ∨ (0 ≤ F .c4 (F .p ms) ∧ F .c4 (F .p ms) < n) := by
    rcases hn with a | ⟨a, _⟩
    · exact Or.inl a
    · have := hd.rg _ a; exact Or.inr ⟨this.1, this.2.1⟩
  generalize hp : F .p ms = piv at *
  unfold selectPivot
  rw [h.rd (f := .p) (show 0 ≤ ms ∧ ms < n + 1 from ⟨h0, by omega⟩), ok_bind, hp,
    h.rd (f := .c4) (show 0 ≤ piv ∧ piv < n from ⟨hg.1, hg.2.1⟩), ok_bind]
  obtain ⟨s1, e1, g1⟩ := h.wr (f := .p) (i := ms) ⟨h0, by omega⟩ (F .c4 piv)
  rw [e1, ok_bind]
  have key : ∃ s2, (if F .c4 piv ≠ -1 then s1.wr .c3 (F .c4 piv) (-1) else pure s1) = .ok s2 ∧
      Rm n m Al L s2 (unlink F piv) := by
    unfold unlink
    dsimp only
    rw [if_pos h3, h2, h3]
    split_ifs with hh
    · exact g1.wr (f := .c3) (by rcases hn' with a | a; exact absurd a hh; exact a) _
    · exact ⟨s1, rfl, g1⟩
  obtain ⟨s2, e2, g2⟩ := key
  rw [e2, ok_bind, g2.rd (f := .c2) (show 0 ≤ piv ∧ piv < n from ⟨hg.1, hg.2.1⟩), ok_bind]
  obtain ⟨s3, e3, g3⟩ := g2.wr (f := .c2) (i := piv) ⟨hg.1, hg.2.1⟩ k
  rw [e3, ok_bind, g3.rd (f := .c1) (show 0 ≤ piv ∧ piv < n from ⟨hg.1, hg.2.1⟩), ok_bind]
  refine ⟨s3, ?_, g3⟩
  have a2 : unlink F piv .c2 = F .c2 := unlink_ne F _ (by decide) (by decide) (by decide)
  have a1 : unlink F piv .c1 = F .c1 := unlink_ne F _ (by decide) (by decide) (by decide)
  rw [set_ne _ (by decide), a1, a2]
  rfl

/-! ## The pivot row -/

/-- The state while the pivot row is built: `N` are the columns found. -/
def BR (n m Al : ℤ) (F0 : Sh) (piv pf0 : ℤ) (N : ℤ → Prop) (z : Mem × ℤ × ℤ) : Prop :=
  ∃ (Q : List ℤ) (F : Sh), Rm n m Al (pf0 + Q.length) z.1 F ∧ z.2.1 = pf0 + Q.length ∧
    seg (F .A) pf0 Q.length = Q ∧ Q.Nodup ∧ (∀ c, c ∈ Q ↔ N c) ∧
    (∀ i, i < pf0 → F .A i = F0 .A i) ∧ (∀ f, f ≠ .A → f ≠ .c1 → F f = F0 f) ∧
    (∀ c, F .c1 c = if c ∈ Q ∨ c = piv then -(F0 .c1 c) else F0 .c1 c) ∧
    z.2.2 = (Q.map (F0 .c1)).sum

/-- The columns that belong in the pivot row. -/
def InPiv (n : ℤ) (F : Sh) (piv c : ℤ) : Prop :=
  CA n F c ∧ c ≠ piv ∧ ∃ r ∈ colL F piv, c ∈ rowL F r

theorem BR.congr {F0 : Sh} {piv pf0 : ℤ} {N N' : ℤ → Prop} {z : Mem × ℤ × ℤ}
    (h : BR n m Al F0 piv pf0 N z) (hN : ∀ c, N' c ↔ N c) : BR n m Al F0 piv pf0 N' z := by
  obtain ⟨Q, F, a, b, c, d, e, f⟩ := h
  exact ⟨Q, F, a, b, c, d, fun x => by rw [e, hN], f⟩

theorem rowUnion_spec {nnz B : ℤ} {F0 : Sh} {piv pf0 need : ℤ} (lay : Lay n m nnz B pf0 F0)
    (inc : Inc n m F0) (hroom : ∀ Q : List ℤ, Q.Nodup → (∀ c ∈ Q, InPiv n F0 piv c) →
      (Q.length : ℤ) ≤ need) (hAl : pf0 + need < Al) (hpiv : CA n F0 piv)
    {r : ℤ} (hr : RA m F0 r) (hrp : r ∈ colL F0 piv) {N : ℤ → Prop}
    (hN : ∀ c, N c → InPiv n F0 piv c) {s : Mem} {pf deg : ℤ}
    (h : BR n m Al F0 piv pf0 N (s, pf, deg)) :
    wp (rowUnion (F0 .rs r) (F0 .rl r) s pf deg)
      (BR n m Al F0 piv pf0 (fun c => N c ∨ (CA n F0 c ∧ c ≠ piv ∧ c ∈ rowL F0 r))) noFail := by
  have hrb := lay.rb r hr
  have hB := lay.B0
  unfold rowUnion
  refine wp_post (wp_seg (A := F0 .A) hrb.1
    (fun pre z => BR n m Al F0 piv pf0 (fun c => N c ∨ (CA n F0 c ∧ c ≠ piv ∧ c ∈ pre)) z)
    (h.congr fun c => by simp) ?_) fun z hz => hz
  rintro pre x post ⟨s, pf, deg⟩ hX hx hlt ⟨Q, F, h1, h2, h3, h4, h5, h6, h7, h8, h9⟩
  dsimp only at h1 h2 h9
  have hxm : x ∈ rowL F0 r := by unfold rowL; rw [hX]; simp
  have hxb := inc.rv r hr x hxm
  have hpre : ∀ c ∈ pre, c ∈ rowL F0 r := fun c hc => by unfold rowL; rw [hX]; simp [hc]
  have hnd := inc.rn r hr
  rw [rowL, hX] at hnd
  have hxp : x ∉ pre := by
    intro hh
    rw [List.nodup_append] at hnd
    exact hnd.2.2 x hh x (by simp) rfl
  have hL0 : (0 : ℤ) ≤ Q.length := by omega
  dsimp only
  rw [h1.rd (f := .A) (show 0 ≤ F0 .rs r + ↑pre.length ∧ F0 .rs r + ↑pre.length < _ from
    ⟨by omega, by omega⟩), ok_bind, h6 _ (by omega), hx,
    h1.rd (f := .c1) (show 0 ≤ x ∧ x < n from hxb), ok_bind,
    h1.rd (f := .cs) (show 0 ≤ x ∧ x < n from hxb), ok_bind,
    h7 .cs (by decide) (by decide), h8]
  have hth : 0 ≤ F0 .cs x → 1 ≤ F0 .c1 x := fun hh => inc.th x ⟨hxb.1, hxb.2, hh⟩
  by_cases hc : 0 ≤ F0 .cs x ∧ x ≠ piv ∧ x ∉ Q
  · obtain ⟨hc1, hc2, hc3⟩ := hc
    have eif : (if x ∈ Q ∨ x = piv then -(F0 .c1 x) else F0 .c1 x) = F0 .c1 x := if_neg (by tauto)
    rw [eif, if_pos ⟨by have := hth hc1; omega, hc1⟩]
    have hin : ∀ c ∈ x :: Q, InPiv n F0 piv c := by
      intro c hcm
      rcases List.mem_cons.1 hcm with rfl | hcm
      · exact ⟨⟨hxb.1, hxb.2, hc1⟩, hc2, r, hrp, hxm⟩
      · rcases (h5 c).1 hcm with hh | ⟨u, v, w⟩
        · exact hN c hh
        · exact ⟨u, v, r, hrp, hpre c w⟩
    have hlen : (Q.length : ℤ) < need := by
      have := hroom (x :: Q) (by simp [hc3, h4]) hin
      simp only [List.length_cons] at this
      push_cast at this; omega
    have hsum := inc.sum_le (Q := x :: Q) (by simp [hc3, h4]) fun c hc => (hin c hc).1
    have hsum0 := len_le_sum (P := Q) (f := F0 .c1) fun c hc => inc.th c (hin c (by simp [hc])).1
    have hth1 := hth hc1
    rw [List.map_cons, List.sum_cons] at hsum
    cks h1
    obtain ⟨s1, e1, g1⟩ := h1.wr (f := .c1) (i := x) hxb (-(F0 .c1 x))
    rw [e1, ok_bind]
    have hBp := lay.Bp
    obtain ⟨s2, e2, g2⟩ := g1.push (by omega) (by omega) x
    rw [h2, e2, ok_bind]
    cks h1
    rw [h9]
    cks h1
    refine ⟨Q ++ [x], set (set F .c1 x (-(F0 .c1 x))) .A (pf0 + Q.length) x, ?_, ?_, ?_, ?_, ?_, ?_,
      ?_, ?_, ?_⟩
    · have : pf0 + ((Q ++ [x]).length : ℤ) = pf0 + Q.length + 1 := by simp; omega
      rw [this]; exact g2
    · simp; omega
    · have : ((Q ++ [x]).length : ℤ) = Q.length + 1 := by simp
      rw [this, seg_succ _ (by omega)]
      congr 1
      · rw [seg_congr (B := F .A), h3]
        intro i _ hi
        rw [set_apply, if_neg (by omega), set_ne _ (by decide)]
      · rw [set_apply]; simp
    · rw [List.nodup_append]
      refine ⟨h4, by simp, ?_⟩
      rintro a ha b hb rfl
      simp only [List.mem_singleton] at hb
      exact hc3 (hb ▸ ha)
    · intro c
      simp only [List.mem_append, List.mem_singleton, h5]
      constructor
      · rintro ((a | ⟨a, b, c⟩) | rfl)
        · exact Or.inl a
        · exact Or.inr ⟨a, b, Or.inl c⟩
        · exact Or.inr ⟨⟨hxb.1, hxb.2, hc1⟩, hc2, Or.inr rfl⟩
      · rintro (a | ⟨a, b, c | c⟩)
        · exact Or.inl (Or.inl a)
        · exact Or.inl (Or.inr ⟨a, b, c⟩)
        · exact Or.inr c
    · intro i hi
      rw [set_apply, if_neg (by omega), set_ne _ (by decide)]; exact h6 i hi
    · intro f hf1 hf2
      rw [set_ne _ hf1, set_ne _ hf2]; exact h7 f hf1 hf2
    · intro c
      rw [set_ne _ (by decide), set_apply]
      by_cases hcx : c = x
      · subst hcx; simp
      · simp only [hcx, and_false, if_false, h8, List.mem_append, List.mem_singleton, or_false]
    · simp only [List.map_append, List.sum_append, List.map_cons, List.map_nil, List.sum_cons,
        List.sum_nil]
      omega
  · have hskip : ¬ ((if x ∈ Q ∨ x = piv then -(F0 .c1 x) else F0 .c1 x) > 0 ∧ F0 .cs x ≥ 0) := by
      rintro ⟨a, b⟩
      have := hth b
      by_cases hq : x ∈ Q ∨ x = piv
      · rw [if_pos hq] at a; omega
      · push Not at hq; exact hc ⟨b, hq.2, hq.1⟩
    rw [if_neg hskip]
    refine ⟨Q, F, h1, h2, h3, h4, ?_, h6, h7, h8, h9⟩
    intro c
    rw [h5]
    constructor
    · rintro (a | ⟨a, b, c⟩)
      · exact Or.inl a
      · exact Or.inr ⟨a, b, by simp [c]⟩
    · rintro (a | ⟨a, b, c'⟩)
      · exact Or.inl a
      · rw [List.mem_append, List.mem_singleton] at c'
        rcases c' with c' | rfl
        · exact Or.inr ⟨a, b, c'⟩
        · have : c ∈ Q := by
            by_contra hq; exact hc ⟨a.2.2, b, hq⟩
          exact (h5 c).1 this

/-- The pivot row `P` has been built: the state `F` in terms of the state `F0` before. -/
structure PR (n m Al : ℤ) (F0 : Sh) (piv pf0 : ℤ) (P : List ℤ) (s : Mem) (F : Sh) : Prop where
  rp : Rm n m Al (pf0 + P.length) s F
  sg : seg (F .A) pf0 P.length = P
  nd : P.Nodup
  mem : ∀ c, c ∈ P ↔ InPiv n F0 piv c
  A : ∀ i, i < pf0 → F .A i = F0 .A i

theorem buildRow_spec {nnz B : ℤ} {F0 : Sh} {piv pf0 need : ℤ} (lay : Lay n m nnz B pf0 F0)
    (inc : Inc n m F0) (hroom : ∀ Q : List ℤ, Q.Nodup → (∀ c ∈ Q, InPiv n F0 piv c) →
      (Q.length : ℤ) ≤ need) (hAl : pf0 + need < Al) (hpiv : CA n F0 piv)
    (h : Rm n m Al pf0 s F0) :
    wp (buildRow piv (F0 .c1 piv) pf0 s) (fun z => ∃ P F, PR n m Al F0 piv pf0 P z.1 F ∧
      z.2.1 = pf0 + P.length ∧ z.2.2 = (P.map (F0 .c1)).sum ∧
      (∀ f, f ≠ .A → f ≠ .c1 → F f = F0 f) ∧
      (∀ c, F .c1 c = if c ∈ P then -(F0 .c1 c) else F0 .c1 c)) noFail := by
  have hcb := lay.cb piv hpiv
  have hB := lay.B0
  have hBp := lay.Bp
  unfold buildRow
  have hth1 := inc.th piv hpiv
  have hth2 := inc.c1_le hpiv
  cks h
  obtain ⟨s1, e1, g1⟩ := h.wr (f := .c1) (i := piv) ⟨hpiv.1, hpiv.2.1⟩ (-(F0 .c1 piv))
  rw [e1, ok_bind, g1.rd (f := .cs) (show 0 ≤ piv ∧ piv < n from ⟨hpiv.1, hpiv.2.1⟩), ok_bind,
    g1.rd (f := .cl) (show 0 ≤ piv ∧ piv < n from ⟨hpiv.1, hpiv.2.1⟩), ok_bind,
    set_ne _ (by decide), set_ne _ (by decide)]
  refine wp_bind_ok (wp_seg (A := F0 .A) hcb.1
    (fun pre z => BR n m Al F0 piv pf0
      (fun c => CA n F0 c ∧ c ≠ piv ∧ ∃ r ∈ pre, c ∈ rowL F0 r) z) ?_ ?_) ?_
  · refine ⟨[], _, by simpa using g1, by simp, by simp, by simp, by simp, ?_, ?_, ?_, by simp⟩
    · intro i _; rw [set_ne _ (by decide)]
    · intro f _ hf; rw [set_ne _ hf]
    · intro c; rw [set_apply]
      by_cases hc : c = piv
      · simp [hc]
      · simp [hc]
  · rintro pre x post ⟨s, pf, deg⟩ hX hx hlt hz
    have hz' := hz
    obtain ⟨Q, F, h1, h2, h3, h4, h5, h6, h7, h8, h9⟩ := hz
    dsimp only at h1 h2 h9
    have hxm : x ∈ colL F0 piv := by unfold colL; rw [hX]; simp
    have hpre : ∀ r ∈ pre, r ∈ colL F0 piv := fun c hc => by unfold colL; rw [hX]; simp [hc]
    have hxr := inc.cv piv hpiv x hxm
    dsimp only
    rw [h1.rd (f := .A) (show 0 ≤ F0 .cs piv + ↑pre.length ∧ F0 .cs piv + ↑pre.length < _ from
      ⟨by omega, by omega⟩), ok_bind, h6 _ (by omega), hx,
      h1.rd (f := .r2) (show 0 ≤ x ∧ x < m from ⟨hxr.1, hxr.2.1⟩), ok_bind,
      h7 .r2 (by decide) (by decide), if_pos hxr.2.2,
      h1.rd (f := .rs) (show 0 ≤ x ∧ x < m from ⟨hxr.1, hxr.2.1⟩), ok_bind,
      h1.rd (f := .rl) (show 0 ≤ x ∧ x < m from ⟨hxr.1, hxr.2.1⟩), ok_bind,
      h7 .rs (by decide) (by decide), h7 .rl (by decide) (by decide)]
    refine wp_post (rowUnion_spec lay inc hroom hAl hpiv hxr hxm ?_ hz') fun z hz => hz.congr ?_
    · rintro c ⟨a, b, r, hr, hc⟩
      exact ⟨a, b, r, hpre r hr, hc⟩
    · intro c
      constructor
      · rintro ⟨a, b, r, hr, hc⟩
        rw [List.mem_append, List.mem_singleton] at hr
        rcases hr with hr | rfl
        · exact Or.inl ⟨a, b, r, hr, hc⟩
        · exact Or.inr ⟨a, b, hc⟩
      · rintro (⟨a, b, r, hr, hc⟩ | ⟨a, b, hc⟩)
        · exact ⟨a, b, r, by simp [hr], hc⟩
        · exact ⟨a, b, x, by simp, hc⟩
  · rintro ⟨s, pf, deg⟩ ⟨Q, F, h1, h2, h3, h4, h5, h6, h7, h8, h9⟩
    dsimp only at h1 h2 h9 ⊢
    obtain ⟨s2, e2, g2⟩ := h1.wr (f := .c1) (i := piv) ⟨hpiv.1, hpiv.2.1⟩ (F0 .c1 piv)
    rw [e2, ok_bind, wp_pure]
    refine ⟨Q, _, ⟨g2, ?_, h4, h5, ?_⟩, h2, h9, ?_, ?_⟩
    · rw [set_ne _ (by decide)]; exact h3
    · intro i hi; rw [set_ne _ (by decide)]; exact h6 i hi
    · intro f hf1 hf2; rw [set_ne _ hf2]; exact h7 f hf1 hf2
    · intro c
      have hpq : piv ∉ Q := by rw [h5]; rintro ⟨_, h, _⟩; exact h rfl
      rw [set_apply]
      by_cases hc : c = piv
      · subst hc; simp [hpq]
      · simp [hc, h8]

/-- The pivot row fits in the space reserved for it. -/
theorem room {piv n2 k score : ℤ} (inc : Inc n m F)
    (hpiv : CA n F piv) (hs : nsum n F piv ≤ score)
    (ht : tsum n F (fun c => 0 ≤ F .cs c ∧ c ≠ piv) = n2 - k) (hn2 : n2 ≤ n)
    (Q : List ℤ) (hQ : Q.Nodup) (hm : ∀ c ∈ Q, InPiv n F piv c) :
    (Q.map (F .c1)).sum ≤ min score (n - k) ∧ (Q.length : ℤ) ≤ min score (n - k) := by
  have h1 : (Q.length : ℤ) ≤ (Q.map (F .c1)).sum := len_le_sum fun c hc => inc.th c (hm c hc).1
  have e := sum_list (n := n) hQ (fun c hc => ⟨(hm c hc).1.1, (hm c hc).1.2.1⟩) (F .c1)
  have h2 : (Q.map (F .c1)).sum ≤ nsum n F piv := by
    rw [e]
    refine sum_ite_mono ?_ ?_
    · intro c h0 hn hc
      obtain ⟨a, b, r, hr, hcr⟩ := hm c hc
      exact ⟨a.2.2, b, r, hr, (inc.sy c r a (inc.cv piv hpiv r hr)).2 hcr⟩
    · intro c h0 hn hc
      have := inc.th c ⟨h0, hn, hc.1⟩; omega
  have h3 : (Q.map (F .c1)).sum ≤ n2 - k := by
    rw [e, ← ht]
    refine sum_ite_mono ?_ ?_
    · intro c h0 hn hc
      obtain ⟨a, b, _⟩ := hm c hc
      exact ⟨a.2.2, b⟩
    · intro c h0 hn hc
      have := inc.th c ⟨h0, hn, hc.1⟩; omega
  refine ⟨?_, ?_⟩ <;> rw [le_min_iff] <;> constructor <;> omega

end Slip.Colamd
