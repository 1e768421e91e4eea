import Verif.Proof.ColRow

/-!
# COLAMD: the set differences
-/

namespace Slip.Colamd

set_option linter.unusedSectionVars false

variable [Arith]
variable {n m Al L : ℤ} {s : Mem} {F : Sh} {S : ℤ → Prop} {rk : ℤ → ℕ}

theorem killPivotRows_spec (h : Rm n m Al L s F) {piv : ℤ} (hp0 : 0 ≤ piv) (hp1 : piv < n)
    (hc : 0 ≤ F .cs piv) (hl : 0 ≤ F .cl piv) (hL : F .cs piv + F .cl piv ≤ L)
    (hr : ∀ r ∈ colL F piv, 0 ≤ r ∧ r < m) :
    wp (killPivotRows piv s) (fun s' => ∃ F', Rm n m Al L s' F' ∧ (∀ f, f ≠ .r2 → F' f = F f) ∧
      ∀ r, F' .r2 r = if r ∈ colL F piv then -1 else F .r2 r) noFail := by
  unfold killPivotRows
  rw [h.rd (f := .cs) (show 0 ≤ piv ∧ piv < n from ⟨hp0, hp1⟩), ok_bind,
    h.rd (f := .cl) (show 0 ≤ piv ∧ piv < n from ⟨hp0, hp1⟩), ok_bind]
  refine wp_post (wp_seg (A := F .A) hl (fun pre s' => ∃ F', Rm n m Al L s' F' ∧
    (∀ f, f ≠ .r2 → F' f = F f) ∧ ∀ r, F' .r2 r = if r ∈ pre then -1 else F .r2 r) ?_ ?_)
    fun s' hs' => hs'
  · exact ⟨F, h, fun _ _ => rfl, by simp⟩
  · rintro pre x post s' hX hx hlt ⟨F', h1, h2, h3⟩
    have hxm : x ∈ colL F piv := by unfold colL; rw [hX]; simp
    rw [h1.rd (f := .A) (show 0 ≤ F .cs piv + ↑pre.length ∧ F .cs piv + ↑pre.length < L from
      ⟨by omega, by omega⟩), ok_bind, h2 .A (by decide), hx]
    obtain ⟨s2, e2, g2⟩ := h1.wr (f := .r2) (i := x) (hr x hxm) (-1)
    rw [e2, wp_ok]
    refine ⟨_, g2, fun f hf => by rw [set_ne _ hf]; exact h2 f hf, fun r => ?_⟩
    rw [set_apply, h3]
    by_cases hrx : r = x
    · simp [hrx]
    · simp [hrx]

/-- The thickness of the columns of `Q` that contain row `r`. -/
def tau (F : Sh) (Q : List ℤ) (r : ℤ) : ℤ :=
  (Q.map fun c => if r ∈ colL F c then F .c1 c else 0).sum

/-- The mark of row `r` when the columns of total thickness `t` have been subtracted. -/
def mkv (F : Sh) (tag : ℤ) (ag : Bool) (piv t r : ℤ) : ℤ :=
  if r ∈ colL F piv then -1 else if F .r2 r < 0 then F .r2 r else if t = 0 then F .r2 r
  else if F .r1 r - t = 0 ∧ ag = true then -1 else F .r1 r - t + tag

theorem tau_append (F : Sh) (Q Q' : List ℤ) (r : ℤ) : tau F (Q ++ Q') r = tau F Q r + tau F Q' r := by
  simp [tau]

theorem tau_nonneg (inc : Inc n m F) {Q : List ℤ} (h : ∀ c ∈ Q, CA n F c) (r : ℤ) :
    0 ≤ tau F Q r := by
  induction Q with
  | nil => simp [tau]
  | cons a Q ih =>
    have := ih fun c hc => h c (by simp [hc])
    have h1 := inc.th a (h a (by simp))
    unfold tau at this ⊢
    simp only [List.map_cons, List.sum_cons]
    split_ifs <;> omega

theorem tau_pos (inc : Inc n m F) {Q : List ℤ} (h : ∀ c ∈ Q, CA n F c) {r c : ℤ} (hc : c ∈ Q)
    (hr : r ∈ colL F c) : 0 < tau F Q r := by
  obtain ⟨u, v, rfl⟩ := List.append_of_mem hc
  rw [tau_append]
  have h1 := tau_nonneg inc (Q := u) (fun x hx => h x (by simp [hx])) r
  have h2 := tau_nonneg inc (Q := v) (fun x hx => h x (by simp [hx])) r
  have h3 := inc.th c (h c hc)
  unfold tau at *
  simp only [List.map_cons, List.sum_cons, if_pos hr]
  omega

theorem tau_zero {F : Sh} {Q : List ℤ} {r : ℤ} (h : ∀ c ∈ Q, r ∉ colL F c) : tau F Q r = 0 := by
  induction Q with
  | nil => simp [tau]
  | cons a Q ih =>
    have := ih fun c hc => h c (by simp [hc])
    unfold tau at this ⊢
    simp only [List.map_cons, List.sum_cons, if_neg (h a (by simp)), this, add_zero]

theorem tau_sum (F : Sh) {Q : List ℤ} (hQ : Q.Nodup) (h : ∀ c ∈ Q, CA n F c) (r : ℤ) :
    tau F Q r = ∑ c ∈ Finset.Ico 0 n, if c ∈ Q ∧ r ∈ colL F c then F .c1 c else 0 := by
  unfold tau
  rw [sum_list (n := n) hQ fun c hc => ⟨(h c hc).1, (h c hc).2.1⟩]
  apply Finset.sum_congr rfl
  intro c _
  by_cases h1 : c ∈ Q <;> by_cases h2 : r ∈ colL F c <;> simp [h1, h2]

theorem tau_le (inc : Inc n m F) {Q : List ℤ} (hQ : Q.Nodup) (h : ∀ c ∈ Q, CA n F c) {r : ℤ}
    (hr : RA m F r) : tau F Q r ≤ F .r1 r := by
  rw [tau_sum F hQ h, (inc.dg r hr).1]
  refine sum_ite_mono ?_ ?_
  · rintro c h0 h1 ⟨a, b⟩
    exact ⟨(h c a).2.2, (inc.sy c r (h c a) hr).1 b⟩
  · rintro c h0 h1 ⟨a, b⟩
    have := inc.th c ⟨h0, h1, a⟩; omega

/-- The state while the set differences are computed: the columns of `pre` are done. -/
structure SD (n m Al : ℤ) (F0 : Sh) (A : ℤ → ℤ) (piv pf0 tag : ℤ) (ag : Bool) (P pre : List ℤ)
    (T : ℤ → ℤ) (rk : ℤ → ℕ) (s : Mem) (F : Sh) : Prop where
  rp : Rm n m Al (pf0 + P.length) s F
  eA : F .A = A
  eq : ∀ f, f ≠ .A → f ≠ .c1 → f ≠ .p → f ≠ .c3 → f ≠ .c4 → f ≠ .r2 → F f = F0 f
  e1 : ∀ c, F .c1 c = if c ∈ P ∧ c ∉ pre then -(F0 .c1 c) else F0 .c1 c
  e2 : ∀ r, F .r2 r = mkv F0 tag ag piv (T r) r
  dl : DL n F (fun c => CA n F0 c ∧ c ≠ piv ∧ c ∉ pre) rk

theorem setDiffRow_spec {nnz B mx : ℤ} {F0 : Sh} {A : ℤ → ℤ} {piv pf0 tag : ℤ} {ag : Bool}
    {P pre post : List ℤ} {x : ℤ} (lay : Lay n m nnz B pf0 F0) (inc : Inc n m F0)
    (mar : Mk m tag mx F0) (hPm : ∀ c, c ∈ P ↔ InPiv n F0 piv c) (hPn : P.Nodup)
    (hA : ∀ i, i < pf0 → A i = F0 .A i) (hP : P = pre ++ x :: post)
    {s : Mem} {F : Sh} (h : SD n m Al F0 A piv pf0 tag ag P (pre ++ [x]) (tau F0 pre) rk s F) :
    wp (forRange (F0 .cs x) (F0 .cs x + F0 .cl x) s (setDiffRow tag (F0 .c1 x) ag))
      (fun s' => ∃ F', SD n m Al F0 A piv pf0 tag ag P (pre ++ [x]) (tau F0 (pre ++ [x])) rk s' F')
      noFail := by
  have hx : CA n F0 x := ((hPm x).1 (by rw [hP]; simp)).1
  have hcb := lay.cb x hx
  have hBp := lay.Bp
  have hnd : (pre ++ [x]).Nodup := by
    have := hPn; rw [hP] at this
    exact this.sublist (by simp)
  have hall : ∀ c ∈ pre ++ [x], CA n F0 c := by
    intro c hc
    refine ((hPm c).1 ?_).1
    rw [hP]; simp only [List.mem_append, List.mem_cons, List.mem_singleton] at hc ⊢; tauto
  refine wp_post (wp_seg (A := F0 .A) hcb.1 (fun R s' => ∃ F',
    SD n m Al F0 A piv pf0 tag ag P (pre ++ [x])
      (fun r => tau F0 pre r + if r ∈ R then F0 .c1 x else 0) rk s' F') ?_ ?_) ?_
  · exact ⟨F, by simpa using h⟩
  · rintro R y post' s' hX hy hlt ⟨F', g⟩
    have hym : y ∈ colL F0 x := by unfold colL; rw [hX]; simp
    have hyr := inc.cv x hx y hym
    have hyR : y ∉ R := by
      intro hh
      have := inc.cn x hx
      rw [colL, hX, List.nodup_append] at this
      exact this.2.2 y hh y (by simp) rfl
    unfold setDiffRow
    rw [g.rp.rd (f := .A) (show 0 ≤ F0 .cs x + ↑R.length ∧ F0 .cs x + ↑R.length < _ from
      ⟨by omega, by omega⟩), ok_bind, g.eA, hA _ (by omega), hy,
      g.rp.rd (f := .r2) (show 0 ≤ y ∧ y < m from ⟨hyr.1, hyr.2.1⟩), ok_bind, g.e2]
    simp only [if_neg hyR, add_zero]
    have hle : tau F0 pre y + F0 .c1 x ≤ F0 .r1 y := by
      have := tau_le inc hnd hall hyr
      rw [tau_append] at this
      simpa [tau, hym] using this
    have hth := inc.th x hx
    have ht0 := tau_nonneg inc (Q := pre) (fun c hc => hall c (by simp [hc])) y
    have hT : ∀ r, r ≠ y → (tau F0 pre r + if r ∈ R ++ [y] then F0 .c1 x else 0) =
        tau F0 pre r + if r ∈ R then F0 .c1 x else 0 := by
      intro r hr; simp [hr]
    have hTy : (tau F0 pre y + if y ∈ R ++ [y] then F0 .c1 x else 0) = tau F0 pre y + F0 .c1 x := by
      simp
    by_cases hyp : y ∈ colL F0 piv
    · have : mkv F0 tag ag piv (tau F0 pre y) y = -1 := by unfold mkv; rw [if_pos hyp]
      rw [this, if_pos (by omega), wp_pure]
      refine ⟨F', g.rp, g.eA, g.eq, g.e1, ?_, g.dl⟩
      intro r
      rw [g.e2]
      by_cases hr : r = y
      · subst hr; unfold mkv; rw [if_pos hyp, if_pos hyp]
      · simp only [hT r hr]
    · have hm : mkv F0 tag ag piv (tau F0 pre y) y =
          if tau F0 pre y = 0 then F0 .r2 y else F0 .r1 y - tau F0 pre y + tag := by
        unfold mkv
        rw [if_neg hyp, if_neg (by omega)]
        split_ifs with h1 h2
        · rfl
        · omega
        · rfl
      have htag := mar.tg
      have hlt2 := mar.lt y hyr
      have hfin : ∀ v, v = mkv F0 tag ag piv (tau F0 pre y + F0 .c1 x) y →
          wp (s'.wr .r2 y v) (fun s' => ∃ F', SD n m Al F0 A piv pf0 tag ag P (pre ++ [x])
            (fun r => tau F0 pre r + if r ∈ R ++ [y] then F0 .c1 x else 0) rk s' F') noFail := by
        intro v hv
        obtain ⟨s2, e2, g2⟩ := g.rp.wr (f := .r2) (i := y) ⟨hyr.1, hyr.2.1⟩ v
        rw [e2, wp_ok]
        refine ⟨_, g2, by rw [set_ne _ (by decide)]; exact g.eA, ?_, ?_, ?_, ?_⟩
        · intro f h1 h2 h3 h4 h5 h6
          rw [set_ne _ h6]; exact g.eq f h1 h2 h3 h4 h5 h6
        · intro c; rw [set_ne _ (by decide)]; exact g.e1 c
        · intro r
          rw [set_apply]
          by_cases hr : r = y
          · subst hr; simp only [hTy]; simp [hv]
          · simp only [hT r hr]; simp [hr, g.e2]
        · exact g.dl.congr (fun _ => Iff.rfl) (fun _ _ _ => by rw [set_ne _ (by decide)])
            (fun _ _ => by rw [set_ne _ (by decide)]) (fun _ _ => by rw [set_ne _ (by decide)])
            (fun _ _ => by rw [set_ne _ (by decide)])
      have hv2 : mkv F0 tag ag piv (tau F0 pre y + F0 .c1 x) y =
          if F0 .r1 y - (tau F0 pre y + F0 .c1 x) = 0 ∧ ag = true then -1
          else F0 .r1 y - (tau F0 pre y + F0 .c1 x) + tag := by
        unfold mkv
        rw [if_neg hyp, if_neg (by omega), if_neg (by omega)]
      rw [hm]
      have hr1 := inc.r1_le hyr
      have htu := mar.tu
      have hck : Arith.ck ((if tau F0 pre y = 0 then F0 .r2 y else F0 .r1 y - tau F0 pre y + tag) - tag) =
          .ok ((if tau F0 pre y = 0 then F0 .r2 y else F0 .r1 y - tau F0 pre y + tag) - tag) := by
        refine g.rp.ck ?_
        intros
        have := hyr.2.2
        split_ifs <;> omega
      have key : (if (if tau F0 pre y = 0 then F0 .r2 y else F0 .r1 y - tau F0 pre y + tag) - tag < 0
          then s'.rd .r1 y
          else pure ((if tau F0 pre y = 0 then F0 .r2 y else F0 .r1 y - tau F0 pre y + tag) - tag)) =
          Except.ok (F0 .r1 y - tau F0 pre y) := by
        by_cases h1 : tau F0 pre y = 0
        · rw [if_pos h1, if_pos (by omega), g.rp.rd (f := .r1) (show 0 ≤ y ∧ y < m from
            ⟨hyr.1, hyr.2.1⟩), g.eq .r1 (by decide) (by decide) (by decide) (by decide) (by decide)
            (by decide), h1, sub_zero]
        · rw [if_neg h1, if_neg (by omega)]
          show Except.ok _ = _
          congr 1; omega
      have hnn : ¬ (if tau F0 pre y = 0 then F0 .r2 y else F0 .r1 y - tau F0 pre y + tag) < 0 := by
        split_ifs <;> omega
      rw [if_neg hnn, hck, ok_bind, key, ok_bind]
      cks g.rp
      have e : F0 .r1 y - tau F0 pre y - F0 .c1 x = F0 .r1 y - (tau F0 pre y + F0 .c1 x) := by omega
      rw [e]
      split_ifs with h1
      · exact hfin _ (by rw [hv2, if_pos h1])
      · cks g.rp
        exact hfin _ (by rw [hv2, if_neg h1])
  · rintro s' ⟨F', g⟩
    refine ⟨F', g.rp, g.eA, g.eq, g.e1, ?_, g.dl⟩
    intro r
    rw [g.e2, tau_append]
    have : tau F0 [x] r = if r ∈ seg (F0 .A) (F0 .cs x) (F0 .cl x) then F0 .c1 x else 0 := by
      unfold tau colL; simp
    rw [this]

theorem setDiff_spec {nnz B mx : ℤ} {F0 : Sh} {A : ℤ → ℤ} {piv pf0 tag : ℤ} {ag : Bool}
    {P : List ℤ} (lay : Lay n m nnz B pf0 F0) (inc : Inc n m F0)
    (mar : Mk m tag mx F0) (hPm : ∀ c, c ∈ P ↔ InPiv n F0 piv c) (hPn : P.Nodup)
    (hA : ∀ i, i < pf0 → A i = F0 .A i) (hPA : seg A pf0 P.length = P)
    {s : Mem} {F : Sh} (h : SD n m Al F0 A piv pf0 tag ag P [] (tau F0 []) rk s F) :
    wp (setDiff tag pf0 P.length ag s)
      (fun s' => ∃ F', SD n m Al F0 A piv pf0 tag ag P P (tau F0 P) rk s' F') noFail := by
  have hB0 := lay.B0
  have hBp := lay.Bp
  unfold setDiff
  refine wp_post (wp_seg (A := A) (l := (P.length : ℤ)) (by omega) (fun pre s' => ∃ F',
    SD n m Al F0 A piv pf0 tag ag P pre (tau F0 pre) rk s' F') ⟨F, h⟩ ?_) ?_
  · rintro pre x post s' hX hx hlt ⟨F', g⟩
    rw [hPA] at hX
    have hxP : x ∈ P := by rw [hX]; simp
    have hxi := (hPm x).1 hxP
    have hxc : CA n F0 x := hxi.1
    have hxpre : x ∉ pre := by
      intro hh
      rw [hX, List.nodup_append] at hPn
      exact hPn.2.2 x hh x (by simp) rfl
    rw [g.rp.rd (f := .A) (show 0 ≤ pf0 + ↑pre.length ∧ pf0 + ↑pre.length < _ from
      ⟨by omega, by omega⟩), ok_bind, g.eA, hx]
    have hS : (fun c => CA n F0 c ∧ c ≠ piv ∧ c ∉ pre) x := ⟨hxc, hxi.2.1, hxpre⟩
    have hrg := g.dl.rg x hS
    obtain ⟨s2, e2, g2⟩ := removeDeg_spec g.rp hxc.1 hxc.2.1 hrg.2.2.1 hrg.2.2.2
      (by
        rcases g.dl.pv x hS with ⟨a, _⟩ | ⟨a, _⟩
        · exact Or.inl a
        · have := g.dl.rg _ a; exact Or.inr ⟨this.1, this.2.1⟩)
      (by
        rcases g.dl.nx x hS with a | ⟨a, _⟩
        · exact Or.inl a
        · have := g.dl.rg _ a; exact Or.inr ⟨this.1, this.2.1⟩)
      (by
        rw [g.e1, if_pos ⟨hxP, hxpre⟩]
        have := inc.th x hxc
        have := inc.c1_le hxc
        omega)
    have h1x : F' .c1 x = -(F0 .c1 x) := by rw [g.e1, if_pos ⟨hxP, hxpre⟩]
    rw [h1x, neg_neg] at e2 g2
    rw [e2, ok_bind]
    have hun : ∀ f, f ≠ .A → f ≠ .c1 → f ≠ .p → f ≠ .c3 → f ≠ .c4 → f ≠ .r2 →
        unlink (set F' .c1 x (F0 .c1 x)) x f = F0 f := by
      intro f h1 h2 h3 h4 h5 h6
      rw [unlink_ne _ _ h3 h4 h5, set_ne _ h2]; exact g.eq f h1 h2 h3 h4 h5 h6
    have key : SD n m Al F0 A piv pf0 tag ag P (pre ++ [x]) (tau F0 pre) rk s2
        (unlink (set F' .c1 x (F0 .c1 x)) x) := by
      refine ⟨g2, ?_, hun, ?_, ?_, ?_⟩
      · rw [unlink_ne _ _ (by decide) (by decide) (by decide), set_ne _ (by decide)]; exact g.eA
      · intro c
        rw [unlink_ne _ _ (by decide) (by decide) (by decide), set_apply, g.e1]
        by_cases hc : c = x
        · subst hc; simp
        · simp [hc]
      · intro r
        rw [unlink_ne _ _ (by decide) (by decide) (by decide), set_ne _ (by decide)]; exact g.e2 r
      · have hd : DL n (set F' .c1 x (F0 .c1 x)) (fun c => CA n F0 c ∧ c ≠ piv ∧ c ∉ pre) rk :=
          g.dl.congr (fun _ => Iff.rfl) (fun _ _ _ => by rw [set_ne _ (by decide)])
            (fun _ _ => by rw [set_ne _ (by decide)]) (fun _ _ => by rw [set_ne _ (by decide)])
            (fun _ _ => by rw [set_ne _ (by decide)])
        refine (hd.del hS).congr (fun c => ?_) (fun _ _ _ => rfl) (fun _ _ => rfl) (fun _ _ => rfl)
          (fun _ _ => rfl)
        simp only [List.mem_append, List.mem_singleton, not_or]; tauto
    dsimp only
    rw [g2.rd (f := .cs) (show 0 ≤ x ∧ x < n from ⟨hxc.1, hxc.2.1⟩), ok_bind,
      g2.rd (f := .cl) (show 0 ≤ x ∧ x < n from ⟨hxc.1, hxc.2.1⟩), ok_bind,
      hun .cs (by decide) (by decide) (by decide) (by decide) (by decide) (by decide),
      hun .cl (by decide) (by decide) (by decide) (by decide) (by decide) (by decide)]
    exact setDiffRow_spec lay inc mar hPm hPn hA hX key
  · rintro s' ⟨F', g⟩
    rw [hPA] at g
    exact ⟨F', g⟩

end Slip.Colamd
