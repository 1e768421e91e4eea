import Verif.Proof.ColGC
import Verif.Proof.ColStep

/-!
# COLAMD: one pivot
-/

namespace Slip.Colamd

set_option linter.unusedSectionVars false

variable [Arith]
variable {n m Al L nnz B pf n2 k : ℤ} {s : Mem} {F F' : Sh} {rk : ℤ → ℕ} {root : ℤ → ℤ} {e : ℤ → ℕ}

theorem colL_congr (h1 : F' .A = F .A) (h2 : F' .cs = F .cs) (h3 : F' .cl = F .cl) :
    colL F' = colL F := by
  funext c; unfold colL; rw [h1, h2, h3]

theorem rowL_congr (h1 : F' .A = F .A) (h2 : F' .rs = F .rs) (h3 : F' .rl = F .rl) :
    rowL F' = rowL F := by
  funext c; unfold rowL; rw [h1, h2, h3]

theorem Lay.congr (h : Lay n m nnz B pf F) (hA : F' .A = F .A) (hcs : F' .cs = F .cs)
    (hcl : F' .cl = F .cl) (hrs : F' .rs = F .rs) (hrl : F' .rl = F .rl)
    (hr : ∀ r, 0 ≤ r → r < m → (0 ≤ F' .r2 r ↔ 0 ≤ F .r2 r)) : Lay n m nnz B pf F' := by
  have hRA : ∀ r, RA m F' r → RA m F r := fun r h => ⟨h.1, h.2.1, (hr r h.1 h.2.1).1 h.2.2⟩
  obtain ⟨a1, a2, a3, a4, a5, a6, a7, a8⟩ := h
  constructor
  · exact a1
  · exact a2
  · exact a3
  · intro c hc; unfold CA at hc; rw [hcs] at hc; rw [hcs, hcl]; exact a4 c hc
  · intro c c' hc hc'; unfold CA at hc hc'; rw [hcs] at hc hc'; rw [hcs, hcl]; exact a5 c c' hc hc'
  · intro r h; rw [hrs, hrl]; exact a6 r (hRA r h)
  · intro r r' h h'; rw [hrs, hrl]; exact a7 r r' (hRA r h) (hRA r' h')
  · rw [hA]; exact a8

theorem Inc.congr (h : Inc n m F) (hA : F' .A = F .A) (hcs : F' .cs = F .cs)
    (hcl : F' .cl = F .cl) (hrs : F' .rs = F .rs) (hrl : F' .rl = F .rl) (hr1 : F' .r1 = F .r1)
    (hc1 : F' .c1 = F .c1)
    (hr : ∀ r, 0 ≤ r → r < m → (0 ≤ F' .r2 r ↔ 0 ≤ F .r2 r)) : Inc n m F' := by
  have hRA : ∀ r, RA m F' r ↔ RA m F r := fun r =>
    ⟨fun h => ⟨h.1, h.2.1, (hr r h.1 h.2.1).1 h.2.2⟩, fun h => ⟨h.1, h.2.1, (hr r h.1 h.2.1).2 h.2.2⟩⟩
  have hCA : ∀ c, CA n F' c ↔ CA n F c := fun c => by unfold CA; rw [hcs]
  have e1 := colL_congr hA hcs hcl
  have e2 := rowL_congr hA hrs hrl
  obtain ⟨a1, a2, a3, a4, a5, a6, a7, a8⟩ := h
  constructor
  · intro c hc r hr; rw [hRA]; rw [hCA] at hc; rw [e1] at hr; exact a1 c hc r hr
  · intro r h; rw [hRA] at h; rw [e2]; exact a2 r h
  · intro c hc; rw [hCA] at hc; rw [e1]; exact a3 c hc
  · intro r h; rw [hRA] at h; rw [e2]; exact a4 r h
  · intro c r hc h; rw [hCA] at hc; rw [hRA] at h; rw [e1, e2]; exact a5 c r hc h
  · intro r h
    rw [hRA] at h
    rw [hr1, (a6 r h).1]
    refine ⟨?_, by rw [← (a6 r h).1]; exact (a6 r h).2⟩
    unfold rdeg; rw [e2, hcs, hc1]
  · intro c hc; rw [hCA] at hc; rw [hc1]; exact a7 c hc
  · unfold tsum at a8 ⊢; rw [hcs, hc1]; exact a8

theorem nsum_congr (hcs : ∀ c, 0 ≤ c → c < n → (0 ≤ F' .cs c ↔ 0 ≤ F .cs c))
    (hco : ∀ c, CA n F' c → colL F' c = colL F c) (hc1 : F' .c1 = F .c1) {c : ℤ}
    (hc : CA n F' c) : nsum n F' c = nsum n F c := by
  unfold nsum
  rw [hc1]
  refine sum_ite_congr ?_ (fun _ _ _ _ => rfl)
  intro x x0 x1
  rw [hco c hc]
  constructor
  · rintro ⟨h1, h2, r, hr, hr'⟩
    rw [hco x ⟨x0, x1, h1⟩] at hr'
    exact ⟨(hcs x x0 x1).1 h1, h2, r, hr, hr'⟩
  · rintro ⟨h1, h2, r, hr, hr'⟩
    have h1 := (hcs x x0 x1).2 h1
    refine ⟨h1, h2, r, hr, ?_⟩
    rw [hco x ⟨x0, x1, h1⟩]; exact hr'

/-- A pivot column has been selected. -/
structure SP (n m nnz n2 Al B k tag mx score piv th ms pf : ℤ) (rk : ℤ → ℕ) (root : ℤ → ℤ)
    (e : ℤ → ℕ) (s : Mem) (F : Sh) : Prop where
  rp : Rm n m Al pf s F
  lay : Lay n m nnz B pf F
  inc : Inc n m F
  pv : CA n F piv
  thk : F .c1 piv = th
  ord : F .c2 piv = k - th
  sc : ∀ c, CA n F c → c ≠ piv → nsum n F c ≤ F .c2 c
  scp : nsum n F piv ≤ score
  tot : tsum n F (fun c => 0 ≤ F .cs c ∧ c ≠ piv) = n2 - k
  dl : DL n F (fun c => CA n F c ∧ c ≠ piv) rk
  mss : 0 ≤ ms ∧ ms ≤ n ∧ ∀ d, 0 ≤ d → d < ms → F .p d = -1
  mar : Mk m tag mx F
  gh : Gh n n2 k F (fun c => F .cs c = -1 ∨ c = piv) root e

theorem makeRoom_spec {tag mx score piv th ms maxMark : ℤ} (hn : 0 ≤ n) (hm : 0 ≤ m)
    (hal : 2 * nnz + n ≤ Al) (hk : 1 ≤ k) (hpf : pf ≤ Al) (hsr : 0 ≤ score)
    (hmk : maxMark ≤ 2147483648)
    (h : SP n m nnz n2 Al B k tag mx score piv th ms pf rk root e s F) :
    wp (makeRoom n m Al maxMark (min score (n - k)) pf tag s) (fun z => ∃ F' B',
      SP n m nnz n2 Al B' k z.2.2 mx score piv th ms z.2.1 rk root e z.1 F' ∧
      z.2.1 + min score (n - k) < Al) noFail := by
  unfold makeRoom
  have hB0 := h.lay.B0
  have hBp := h.lay.Bp
  have hkn := h.gh.kn
  cks h.rp
  split_ifs with hh
  · refine wp_bind_ok (garbage_collection_spec h.lay h.inc hn hm h.rp) ?_
    rintro ⟨s1, pf'⟩ ⟨F1, B', g, lay1, inc1, b1, b2, eqf, de, al, co, ra⟩
    dsimp only at g lay1 b1 b2 ⊢
    refine wp_bind_ok (clear_mark_spec g hm (fun h0 => absurd h0 (by omega)) hmk) ?_
    rintro ⟨s2, tg⟩ ⟨F2, g2, eq2, r2a, t1, t1', t2⟩
    dsimp only at g2 t1 t2 ⊢
    rw [wp_pure]
    have eqs : ∀ f, f = .p ∨ f = .c1 ∨ f = .c2 ∨ f = .c3 ∨ f = .c4 ∨ f = .r1 → F2 f = F f := by
      intro f hf
      rw [eq2 f (by rcases hf with rfl | rfl | rfl | rfl | rfl | rfl <;> decide)]
      apply eqf <;> rcases hf with rfl | rfl | rfl | rfl | rfl | rfl <;> decide
    have ep := eqs .p (by simp)
    have ec1 := eqs .c1 (by simp)
    have ec2 := eqs .c2 (by simp)
    have ec3 := eqs .c3 (by simp)
    have ec4 := eqs .c4 (by simp)
    have er1 := eqs .r1 (by simp)
    have ecs : F2 .cs = F1 .cs := eq2 .cs (by decide)
    have hal2 : ∀ c, 0 ≤ c → c < n → (0 ≤ F2 .cs c ↔ 0 ≤ F .cs c) := by rw [ecs]; exact al
    have hCA : ∀ c, CA n F2 c ↔ CA n F c := fun c =>
      ⟨fun q => ⟨q.1, q.2.1, (hal2 c q.1 q.2.1).1 q.2.2⟩,
        fun q => ⟨q.1, q.2.1, (hal2 c q.1 q.2.1).2 q.2.2⟩⟩
    have hco : ∀ c, CA n F2 c → colL F2 c = colL F c := by
      intro c hc
      rw [colL_congr (eq2 .A (by decide)) ecs (eq2 .cl (by decide))]
      exact co c (by unfold CA; rw [← ecs]; exact hc)
    have hns : ∀ c, CA n F2 c → nsum n F2 c = nsum n F c := fun c hc => nsum_congr hal2 hco ec1 hc
    have hkd := h.gh.kd
    refine ⟨F2, B', ⟨g2, ?_, ?_, ?_, ?_, ?_, ?_, ?_, ?_, ?_, ?_, ?_, ?_⟩, by dsimp only; omega⟩
    · exact lay1.congr (eq2 .A (by decide)) ecs (eq2 .cl (by decide)) (eq2 .rs (by decide))
        (eq2 .rl (by decide)) r2a
    · exact inc1.congr (eq2 .A (by decide)) ecs (eq2 .cl (by decide)) (eq2 .rs (by decide))
        (eq2 .rl (by decide)) (eq2 .r1 (by decide)) (eq2 .c1 (by decide)) r2a
    · exact (hCA _).2 h.pv
    · rw [ec1]; exact h.thk
    · rw [ec2]; exact h.ord
    · intro c hc hcp; rw [hns c hc, ec2]; exact h.sc c ((hCA c).1 hc) hcp
    · rw [hns piv ((hCA _).2 h.pv)]; exact h.scp
    · rw [← h.tot]
      unfold tsum
      rw [ec1]
      refine sum_ite_congr ?_ (fun _ _ _ _ => rfl)
      intro c c0 c1; rw [hal2 c c0 c1]
    · refine h.dl.congr (fun c => by rw [hCA]) ?_ ?_ ?_ ?_
      · rw [ep]; intros; rfl
      · rw [ec2]; intros; rfl
      · rw [ec3]; intros; rfl
      · rw [ec4]; intros; rfl
    · rw [ep]; exact h.mss
    · refine ⟨t1, t1', t2, ?_⟩
      intro r hr
      rw [er1]
      exact h.mar.md r ⟨hr.1, hr.2.1, (ra r hr.1 hr.2.1).1 ((r2a r hr.1 hr.2.1).1 hr.2.2)⟩
    · have hcseq : ∀ c, 0 ≤ c → c < n → (F2 .cs c = F .cs c ∨ (0 ≤ F2 .cs c ∧ 0 ≤ F .cs c)) := by
        intro c c0 c1
        by_cases hc : F .cs c < 0
        · left; rw [ecs]; exact de c hc
        · right; exact ⟨(hal2 c c0 c1).2 (by omega), by omega⟩
      refine h.gh.congr le_rfl h.gh.kn.2.1 ?_ ?_ ?_ ?_
      · intro c c0 c1
        have := hcseq c c0 c1
        have := hkd c c0 c1
        omega
      · rw [ec1]; intros; rfl
      · intro c c0 c1 hc
        have := hcseq c c0 c1
        rcases hc with hc | hc
        · left; omega
        · right; exact hc
      · rw [ec2]; intros; rfl
  · rw [wp_pure]
    exact ⟨F, B, h, by dsimp only; omega⟩

theorem select_spec {z : Ord} (hn : 0 ≤ n) (hk : z.k < n2) (h : Inv n m nnz n2 Al z F B rk root e) :
    ∃ ms s piv score th F', scanMin n (n.toNat + 2) z.ms z.s = .ok ms ∧
      selectPivot ms z.k z.s = .ok (s, piv, score, th) ∧ (1 ≤ th ∧ th ≤ n ∧ 0 ≤ score) ∧
      SP n m nnz n2 Al B (z.k + th) z.tag z.maxDeg score piv th ms z.pfree rk root e s F' := by
  have hex : ∃ c, CA n F c := by
    by_contra hno
    have h1 := h.tot
    unfold tsum at h1
    rw [Finset.sum_eq_zero] at h1
    · omega
    · intro c hc
      rw [Finset.mem_Ico] at hc
      exact if_neg fun hh => hno ⟨c, hc.1, hc.2, hh⟩
  obtain ⟨c, hc⟩ := hex
  have hne := h.dl.head_ne hc
  obtain ⟨m0, m1, m2⟩ := h.ms
  have hcr := h.dl.rg c hc
  have hle : z.ms ≤ F .c2 c := by
    by_contra hh
    exact hne (m2 _ hcr.2.2.1 (by omega))
  obtain ⟨ms, e1, l1, l2, l3, l4⟩ := scanMin_spec h.rp hcr.2.2.2 hne (n.toNat + 2) z.ms m0 hle
    (by omega) m2
  obtain ⟨s1, e2, g⟩ := selectPivot_spec (k := z.k) h.rp h.dl (ms := ms) (by omega) (by omega) l3
  obtain ⟨hpv, hp2, hp3⟩ := (h.dl.hd ms (by omega) (by omega)).resolve_left l3
  generalize F .p ms = piv at *
  have hth := h.inc.th piv hpv
  have ec1 : ∀ c, set (unlink F piv) .c2 piv z.k .c1 c = F .c1 c := by
    intro c; rw [set_ne _ (by decide), unlink_ne _ _ (by decide) (by decide) (by decide)]
  generalize hF1 : set (unlink F piv) .c2 piv z.k = F1 at g ec1
  have eqs : ∀ f, f ≠ .p → f ≠ .c2 → f ≠ .c3 → f ≠ .c4 → F1 f = F f := by
    intro f h1 h2 h3 h4
    rw [← hF1, set_ne _ h2, unlink_ne _ _ h1 h3 h4]
  have ecs := eqs .cs (by decide) (by decide) (by decide) (by decide)
  have ec1' := eqs .c1 (by decide) (by decide) (by decide) (by decide)
  have er2 := eqs .r2 (by decide) (by decide) (by decide) (by decide)
  have er1 := eqs .r1 (by decide) (by decide) (by decide) (by decide)
  have eA := eqs .A (by decide) (by decide) (by decide) (by decide)
  have ecl := eqs .cl (by decide) (by decide) (by decide) (by decide)
  have ers := eqs .rs (by decide) (by decide) (by decide) (by decide)
  have erl := eqs .rl (by decide) (by decide) (by decide) (by decide)
  have ec2 : ∀ c, c ≠ piv → F1 .c2 c = F .c2 c := by
    intro c hc
    rw [← hF1, set_apply, if_neg (fun hh => hc hh.2), unlink_ne _ _ (by decide) (by decide) (by decide)]
  have ec2p : F1 .c2 piv = z.k := by rw [← hF1, set_apply, if_pos ⟨rfl, rfl⟩]
  have hCA : ∀ c, CA n F1 c ↔ CA n F c := fun c => by unfold CA; rw [ecs]
  have hns : ∀ c, CA n F1 c → nsum n F1 c = nsum n F c := fun c hc =>
    nsum_congr (fun _ _ _ => by rw [ecs]) (fun _ _ => by rw [colL_congr eA ecs ecl]) ec1' hc
  have htot : tsum n F1 (fun c => 0 ≤ F1 .cs c ∧ c ≠ piv) = n2 - (z.k + F .c1 piv) := by
    have : tsum n F1 (fun c => 0 ≤ F1 .cs c ∧ c ≠ piv)
        = tsum n F (fun c => 0 ≤ F .cs c) - F .c1 piv := by
      unfold tsum
      rw [ec1', ecs]
      exact sum_ite_erase hpv.1 hpv.2.1 hpv.2.2 (fun c _ _ => Iff.rfl)
    rw [this, h.tot]; ring
  have hpos : 0 ≤ tsum n F1 (fun c => 0 ≤ F1 .cs c ∧ c ≠ piv) := by
    apply Finset.sum_nonneg
    intro c hc
    rw [Finset.mem_Ico] at hc
    split_ifs with hh
    · have := h.inc.th c ⟨hc.1, hc.2, by rw [← ecs]; exact hh.1⟩
      rw [ec1']; omega
    · exact le_rfl
  refine ⟨ms, s1, piv, F .c2 piv, F .c1 piv, F1, e1, e2, ⟨hth, h.inc.c1_le hpv, (h.dl.rg piv hpv).2.2.1⟩, ?_⟩
  constructor
  · exact g
  · exact h.lay.congr eA ecs ecl ers erl (by rw [er2]; intros; rfl)
  · exact h.inc.congr eA ecs ecl ers erl er1 ec1' (by rw [er2]; intros; rfl)
  · exact (hCA piv).2 hpv
  · rw [ec1']
  · rw [ec2p]; ring
  · intro c hc hcp
    rw [hns c hc, ec2 c hcp]; exact h.sc c ((hCA c).1 hc)
  · rw [hns piv ((hCA piv).2 hpv)]; exact h.sc piv hpv
  · exact htot
  · refine (h.dl.del hpv).congr (fun c => by rw [hCA]) ?_ ?_ ?_ ?_
    · intro d _ _; rw [← hF1, set_ne _ (by decide)]
    · intro c hc
      rw [← hF1, set_apply, if_neg (fun hh => hc.2 hh.2)]
    · intro c _; rw [← hF1, set_ne _ (by decide)]
    · intro c _; rw [← hF1, set_ne _ (by decide)]
  · refine ⟨by omega, by omega, ?_⟩
    intro d d0 d1
    rw [← hF1, set_ne _ (by decide), unlink_p, if_neg (by omega)]
    exact l4 d d0 d1
  · refine ⟨h.mar.tg, h.mar.tu, ?_, ?_⟩
    · intro r hr; unfold RA at hr; rw [er2] at hr ⊢; exact h.mar.lt r hr
    · intro r hr; unfold RA at hr; rw [er2] at hr; rw [er1]; exact h.mar.md r hr
  · have h1 := h.gh.order hpv.1 hpv.2.1 (by have := hpv.2.2; omega) (by have := hpv.2.2; omega)
      (by omega) hth
    refine h1.congr le_rfl h1.kn.2.1 ?_ ?_ ?_ ?_
    · intro c c0 c1
      rw [ecs, set_ne _ (by decide)]
      exact ⟨Iff.rfl, h.gh.kd c c0 c1⟩
    · intro c _ _; rw [ec1', set_ne _ (by decide)]
    · intro c _ _ hc; rw [ecs] at hc; exact hc
    · intro c _ _ _
      rw [set_apply]
      by_cases hcp : c = piv
      · subst hcp; rw [if_pos ⟨rfl, rfl⟩, ec2p]
      · rw [if_neg (fun hh => hcp hh.2), ec2 c hcp]

/-- The state after the set differences. -/
theorem diff_spec {tag mx score piv th ms pf0 : ℤ} {ag : Bool}
    (h : SP n m nnz n2 Al B k tag mx score piv th ms pf0 rk root e s F)
    (hAl : pf0 + min score (n - k) < Al) :
    wp (do
        let z ← buildRow piv th pf0 s
        let s ← killPivotRows piv z.1
        let len ← ck (z.2.1 - pf0)
        let prow ← pivotRow piv len s
        let s ← setDiff tag pf0 len ag s
        pure (s, z.2.1, z.2.2, prow, len))
      (fun w => ∃ (P : List ℤ) (G : Sh), PB n m nnz B mx F G piv pf0 tag ag P rk ∧
        Rm n m Al (pf0 + P.length) w.1 G ∧ w.2.1 = pf0 + P.length ∧
        w.2.2.1 = (P.map (F .c1)).sum ∧ (P ≠ [] → w.2.2.2.1 ∈ colL F piv) ∧
        pf0 + P.length ≤ Al ∧ w.2.2.2.2 = P.length) noFail := by
  have hroom := room h.inc h.pv h.scp h.tot h.gh.kn.2.2
  have hcb := h.lay.cb piv h.pv
  have hB := h.lay.B0
  have hBp := h.lay.Bp
  rw [← h.thk]
  refine wp_bind_ok (buildRow_spec h.lay h.inc (fun Q hQ hm => (hroom Q hQ hm).2) hAl h.pv h.rp) ?_
  rintro ⟨s1, pf, deg⟩ ⟨P, F1, pr, q1, q2, q3, q4⟩
  dsimp only at pr q1 q2 ⊢
  subst q1
  have hPl := (hroom P pr.nd (fun c hc => (pr.mem c).1 hc)).2
  have ecs : F1 .cs = F .cs := q3 .cs (by decide) (by decide)
  have ecl : F1 .cl = F .cl := q3 .cl (by decide) (by decide)
  have hcp : colL F1 piv = colL F piv := by
    unfold colL; rw [ecs, ecl]
    exact seg_congr fun i _ h2 => pr.A i (by omega)
  have hp0 := h.pv.1
  have hp1 := h.pv.2.1
  have hp2 := h.pv.2.2
  refine wp_bind_ok (killPivotRows_spec pr.rp hp0 hp1 (by rw [ecs]; exact hp2)
    (by rw [ecl]; exact hcb.1) (by rw [ecs, ecl]; omega) ?_) ?_
  · intro r hr
    rw [hcp] at hr
    have := h.inc.cv piv h.pv r hr
    exact ⟨this.1, this.2.1⟩
  rintro s2 ⟨F2, g2, e2, r2⟩
  cks h.rp
  rw [show pf0 + (P.length : ℤ) - pf0 = P.length by ring]
  have hprow : ∃ prow, pivotRow piv P.length s2 = .ok prow ∧ (P ≠ [] → prow ∈ colL F piv) := by
    unfold pivotRow
    split_ifs with hl
    · have hne : ∃ c, c ∈ P := by
        cases hPc : P with
        | nil => rw [hPc] at hl; simp at hl
        | cons a l => exact ⟨a, by simp⟩
      obtain ⟨c, hc⟩ := hne
      obtain ⟨_, _, r, hr, _⟩ := (pr.mem c).1 hc
      have hcl : 0 < F .cl piv := by
        unfold colL at hr
        rw [mem_seg] at hr
        obtain ⟨i, i1, i2, _⟩ := hr
        omega
      rw [g2.rd (f := .cs) (show 0 ≤ piv ∧ piv < n from ⟨hp0, hp1⟩), ok_bind, e2 .cs (by decide), ecs,
        g2.rd (f := .A) (show 0 ≤ F .cs piv ∧ F .cs piv < _ from ⟨hp2, by omega⟩),
        e2 .A (by decide), pr.A _ (by omega)]
      exact ⟨_, rfl, fun _ => mem_seg.2 ⟨F .cs piv, le_rfl, by omega, rfl⟩⟩
    · refine ⟨-1, rfl, fun hne => absurd (List.length_pos_iff.2 hne) (by omega)⟩
  obtain ⟨prow, epr, hpr⟩ := hprow
  rw [epr, ok_bind]
  have sd : SD n m Al F (F1 .A) piv pf0 tag ag P [] (tau F []) rk s2 F2 := by
    constructor
    · exact g2
    · exact e2 .A (by decide)
    · intro f h1 h2 h3 h4 h5 h6; rw [e2 f h6, q3 f h1 h2]
    · intro c; rw [e2 .c1 (by decide), q4]; simp
    · intro r
      rw [r2, hcp, q3 .r2 (by decide) (by decide)]
      unfold mkv
      have : tau F [] r = 0 := rfl
      rw [this]
      simp
    · refine h.dl.congr (fun c => by simp) ?_ ?_ ?_ ?_
      · intro d _ _; rw [e2 .p (by decide), q3 .p (by decide) (by decide)]
      · intro d _; rw [e2 .c2 (by decide), q3 .c2 (by decide) (by decide)]
      · intro d _; rw [e2 .c3 (by decide), q3 .c3 (by decide) (by decide)]
      · intro d _; rw [e2 .c4 (by decide), q3 .c4 (by decide) (by decide)]
  refine wp_bind_ok (setDiff_spec h.lay h.inc h.mar pr.mem pr.nd pr.A pr.sg sd) ?_
  rintro s3 ⟨G, g⟩
  rw [wp_pure]
  refine ⟨P, G, ⟨h.lay, h.inc, h.mar, h.pv, pr.mem, pr.nd, ?_, ?_, ?_, g.e2, ?_⟩, g.rp, rfl, q2, hpr, by omega, rfl⟩
  · rw [g.eA]; exact pr.A
  · rw [g.eA]; exact pr.sg
  · intro f h1 h2 h3 h4 h5
    by_cases hf : f = .c1
    · subst hf
      funext c
      rw [g.e1]; simp
    · exact g.eq f h1 hf h2 h3 h4 h5
  · exact g.dl.congr (fun c => by rw [and_assoc]) (fun _ _ _ => rfl) (fun _ _ => rfl)
      (fun _ _ => rfl) (fun _ _ => rfl)

/-- The state before the scores are finalized. -/
theorem score_spec {tag mx score piv th ms pf0 maxMark mxd : ℤ} {ag : Bool} {P : List ℤ} {G : Sh}
    {s1 : Mem} (hm : 0 ≤ m) (hth : 1 ≤ th) (hkn : k - th < n2)
    (h : SP n m nnz n2 Al B k tag mx score piv th ms pf0 rk root e s F)
    (b : PB n m nnz B mx F G piv pf0 tag ag P rk) (hR : Rm n m Al (pf0 + P.length) s1 G)
    (hmx : mx ≤ mxd) (hmk : maxMark ≤ 2147483648) :
    wp (do
        let z ← addDiff n tag pf0 P.length k (P.map (F .c1)).sum s1
        let s ← detect_super_cols n pf0 P.length z.1
        let s ← s.wr .cs piv (-1)
        let w ← clear_mark (tag + mxd + 1) maxMark m s
        pure (w.1, w.2, z.2.1, z.2.2))
      (fun w => ∃ J root' e', BF n m Al B n2 F G piv pf0 tag P w.2.2.1 w.2.2.2 w.2.1 rk root' e' w.1 J ∧
        k ≤ w.2.2.1 ∧ w.2.2.2 ≤ (P.map (F .c1)).sum) noFail := by
  have hPA : ∀ c ∈ P, CA n F c := fun c hc => ((b.mem c).1 hc).1
  have hpP : piv ∉ P := fun hh => ((b.mem piv).1 hh).2.1 rfl
  have hB := h.lay.B0
  have hBp := h.lay.Bp
  have gcs : G .cs = F .cs := b.eq .cs (by decide) (by decide) (by decide) (by decide) (by decide)
  have gcl : G .cl = F .cl := b.eq .cl (by decide) (by decide) (by decide) (by decide) (by decide)
  have gc1 : G .c1 = F .c1 := b.eq .c1 (by decide) (by decide) (by decide) (by decide) (by decide)
  have gc2 : G .c2 = F .c2 := b.eq .c2 (by decide) (by decide) (by decide) (by decide) (by decide)
  have hsum := sum_list (n := n) b.nd (fun c hc => ⟨(hPA c hc).1, (hPA c hc).2.1⟩) (F .c1)
  have ad : AD n m Al B n2 F G piv pf0 tag P [] root e s1 G k (P.map (F .c1)).sum (fun _ => []) := by
    constructor
    · exact hR
    · intros; rfl
    · intro c hc _ i i0 i1
      have := h.lay.cb c hc
      exact b.A i (by omega)
    · simp
    · intro i i0 i1
      by_cases hi : i < pf0
      · rw [b.A i hi]; exact h.lay.nn i i0 hi
      · have : G .A i ∈ P := by rw [← b.sg]; exact mem_seg.2 ⟨i, by omega, by omega, rfl⟩
        exact (hPA _ this).1
    · intro c; rw [gcs]; simp
    · intro c; rw [gcl]; simp
    · simp
    · intro c _; rw [gc2]
    · intros; rfl
    · exact HB.start b.dl
    · simp
    · simp
    · rw [← h.tot]; unfold tsum; rw [gcs, gc1]
    · rw [hsum]; unfold tsum; rw [gcs, gc1]
      refine sum_ite_congr ?_ (fun _ _ _ _ => rfl)
      intro c _ _
      exact ⟨fun hh => ⟨hh, (hPA c hh).2.2⟩, fun hh => hh.1⟩
    · rw [gcs]
      refine h.gh.congr le_rfl h.gh.kn.2.1 ?_ ?_ ?_ ?_
      · intro c c0 c1; rw [gcs]; exact ⟨Iff.rfl, h.gh.kd c c0 c1⟩
      · rw [gc1]; intros; rfl
      · intro c _ _ hc; exact hc
      · rw [gc2]; intros; rfl
  refine wp_bind_ok (addDiff_spec b ad) ?_
  rintro ⟨s2, k', deg'⟩ ⟨H, bk, g⟩
  dsimp only at g ⊢
  have hc1 : H .c1 = F .c1 := by
    rw [g.eq .c1 (by decide) (by decide) (by decide) (by decide) (by decide) (by decide) (by decide),
      gc1]
  have hfl : ∀ c ∈ P, 0 ≤ H .cs c → fl F G c ≠ [] := by
    intro c hc ha hh
    rw [g.cs, if_pos ⟨hc, hh⟩] at ha
    omega
  have ds : DS n m Al (pf0 + P.length) n2 k' piv G H P [] (fun c => CA n F c ∧ c ≠ piv ∧ c ∉ P) s2 H bk
      root e := by
    constructor
    · exact g.rp
    · constructor
      · intro c hc
        have hca := hPA c hc
        refine ⟨hca.1, hca.2.1, fun ha => ?_⟩
        have h1 := h.lay.cb c hca
        have h2 := b.shrink hc
        rw [g.cs, if_neg (fun hh => hfl c hc ha hh.2), g.cl, if_pos hc]
        omega
      · intros; rfl
      · intros; exact ⟨rfl, rfl, rfl⟩
      · intro c hc
        left
        refine ⟨rfl, rfl, fun _ => ?_⟩
        rw [hc1]; exact h.inc.th c (hPA c hc)
      · intros; rfl
    · exact g.gh
    · exact g.hb
    · intro x x0 x1 y hy
      have := g.bp x x0 x1 y hy
      refine ⟨this.1, by simp, ?_⟩
      rw [g.cs, if_neg (fun hh => this.2 hh.2)]
      exact (hPA y this.1).2.2
    · intro c hc ha
      exact g.c3r c hc (hfl c hc ha)
  refine wp_bind_ok (detect_spec hpP ?_ (by omega) le_rfl b.dl (fun c hc hh => hh.2.2 hc) ds) ?_
  · have : seg (H .A) pf0 P.length = seg (G .A) pf0 P.length :=
      seg_congr fun i h1 h2 => g.aB i (by omega)
    rw [this, b.sg]
  rintro s3 ⟨F3, root', e', r3, m3, g3, d3⟩
  have hbf := BF.mk' (maxMark := maxMark) (mxd := mxd) b hm g r3 m3 g3 d3 hmx hmk
  rw [wp_bind] at hbf
  rw [wp_bind]
  refine wp_post hbf ?_
  intro s4 h4
  refine wp_bind_ok h4 ?_
  rintro ⟨s5, tg⟩ ⟨J, hJ⟩
  dsimp only at hJ ⊢
  rw [wp_pure]
  refine ⟨J, root', e', hJ, ?_, ?_⟩
  · dsimp only
    have h1 := g.gh.od piv h.pv.1 h.pv.2.1 (Or.inr rfl)
    rw [hc1, h.thk, g.c2o piv hpP, h.ord] at h1
    have := h1.2.2.2
    omega
  · dsimp only
    rw [g.dg, hsum]
    unfold tsum
    rw [hc1]
    refine sum_ite_mono ?_ ?_
    · intro c _ _ hc; exact hc.1
    · intro c _ _ hc
      have := h.inc.th c (hPA c hc)
      omega

/-- One pivot. -/
theorem pivotStep_spec {z : Ord} {maxMark : ℤ} {ag : Bool} (hn : 0 ≤ n) (hm : 0 ≤ m) (hk : z.k < n2)
    (hmk : maxMark ≤ 2147483648) (h : Inv n m nnz n2 Al z F B rk root e) :
    wp (pivotStep n m Al maxMark ag z) (fun z' => z.k < z'.k ∧ ∃ F' B' rk' root' e',
      Inv n m nnz n2 Al z' F' B' rk' root' e') noFail := by
  have hk0 := h.gh.kn.1
  obtain ⟨ms, s1, piv, score, th, F1, e1, e2, ⟨hth, hthn, hsc0⟩, sp⟩ := select_spec hn hk h
  unfold pivotStep
  rw [e1, ok_bind, e2, ok_bind]
  dsimp only
  have hkn := h.gh.kn
  have hkn' := sp.gh.kn
  cks h.rp
  cks h.rp
  refine wp_bind_ok (makeRoom_spec hn hm h.al (by omega) h.pf hsc0 hmk sp) ?_
  rintro ⟨s2, pf0, tag⟩ ⟨F2, B2, sp2, hroom⟩
  dsimp only at sp2 hroom ⊢
  have hd := diff_spec (ag := ag) sp2 hroom
  rw [wp_bind] at hd
  rw [wp_bind]
  refine wp_post hd ?_
  rintro ⟨s3, pf, deg⟩ hd
  dsimp only at hd ⊢
  rw [wp_bind] at hd
  rw [wp_bind]
  refine wp_post hd ?_
  intro s4 hd
  rw [wp_bind] at hd
  rw [wp_bind]
  refine wp_post hd ?_
  intro len hd
  rw [wp_bind] at hd
  rw [wp_bind]
  refine wp_post hd ?_
  intro prow hd
  rw [wp_bind] at hd
  rw [wp_bind]
  refine wp_post hd ?_
  intro s5 hd
  rw [wp_pure] at hd
  obtain ⟨P, G, b, hR, q1, q2, q3, q4, q5⟩ := hd
  dsimp only at hR q1 q2 q3 q5
  subst q1 q5
  have hs := score_spec (maxMark := maxMark) (mxd := max z.maxDeg deg) hm hth (by omega) sp2 b hR
    (le_max_left _ _) hmk
  have hdr : 0 ≤ deg ∧ deg ≤ n := by
    have hPA : ∀ c ∈ P, CA n F2 c := fun c hc => ((b.mem c).1 hc).1
    have h1 := len_le_sum fun c hc => sp2.inc.th c (hPA c hc)
    have h2 := sp2.inc.sum_le b.nd hPA
    omega
  rw [← q2, wp_bind] at hs
  rw [wp_bind]
  refine wp_post hs ?_
  rintro ⟨s6, k', deg'⟩ hs
  dsimp only at hs ⊢
  rw [wp_bind] at hs
  rw [wp_bind]
  refine wp_post hs ?_
  intro s7 hs
  rw [wp_bind] at hs
  rw [wp_bind]
  refine wp_post hs ?_
  intro s8 hs
  rw [wp_bind] at hs
  have hmxn := h.mxn
  have htg := sp2.mar.tg
  have htu := sp2.mar.tu
  cks h.rp
  cks h.rp
  rw [wp_bind]
  refine wp_post hs ?_
  rintro ⟨s9, tg⟩ hs
  dsimp only at hs ⊢
  rw [wp_pure] at hs
  obtain ⟨J, root', e', hJ, hk', hdeg⟩ := hs
  dsimp only at hJ hk' hdeg
  have hf := finish_spec (ms0 := ms) (prow := prow) (mxd := max z.maxDeg deg) b hJ sp2.sc
    ⟨sp2.mss.1, sp2.mss.2.1, ?_⟩ q3 q4 h.al (le_max_left _ _) (by omega) (by omega)
  · rw [wp_bind] at hf
    rw [wp_bind]
    refine wp_post hf ?_
    rintro ⟨s10, np, ms'⟩ hf
    dsimp only at hf ⊢
    rw [wp_bind] at hf
    rw [wp_bind]
    refine wp_post hf ?_
    intro s11 hf
    rw [wp_pure] at hf
    obtain ⟨F', rk', hf⟩ := hf
    rw [wp_pure]
    refine ⟨by dsimp only; omega, F', B2, rk', root', e', hf⟩
  · intro c hc hcp hcP
    have hne := sp2.dl.head_ne (c := c) ⟨hc, hcp⟩
    have := sp2.dl.rg c ⟨hc, hcp⟩
    by_contra hh
    exact hne (sp2.mss.2.2 _ this.2.2.1 (by omega))

theorem pivotLoop_spec {maxMark : ℤ} {ag : Bool} (hn : 0 ≤ n) (hm : 0 ≤ m)
    (hmk : maxMark ≤ 2147483648) :
    ∀ (fuel : ℕ) (z : Ord) (F : Sh) (B : ℤ) (rk : ℤ → ℕ) (root : ℤ → ℤ) (e : ℤ → ℕ),
    Inv n m nnz n2 Al z F B rk root e → (n2 - z.k).toNat < fuel →
    wp (pivotLoop n m Al maxMark n2 ag fuel z) (fun z' => z'.k = n2 ∧ ∃ F' B' rk' root' e',
      Inv n m nnz n2 Al z' F' B' rk' root' e') noFail := by
  intro fuel
  induction fuel with
  | zero => intro z F B rk root e _ hf; omega
  | succ fuel ih =>
    intro z F B rk root e h hf
    rw [pivotLoop]
    split_ifs with hk
    · refine wp_bind_ok (pivotStep_spec hn hm hk hmk h) ?_
      rintro z' ⟨hlt, F', B', rk', root', e', h'⟩
      exact ih z' F' B' rk' root' e' h' (by omega)
    · rw [wp_pure]
      have := h.gh.kn
      exact ⟨by omega, F, B, rk, root, e, h⟩

end Slip.Colamd
