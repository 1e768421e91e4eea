import Verif.Proof.ColLists
import Verif.Proof.ColPivot
import Verif.Proof.ColOrder

/-!
# COLAMD: from the initial state to the ordering
-/

namespace Slip.Colamd

set_option linter.unusedSectionVars false

variable [Arith]
variable {n m Al nnz n2 mx : ℤ} {s : Mem} {F F' F0 : Sh} {rk : ℤ → ℕ}

/-- The state after `init_scoring`. -/
structure IS (n m nnz Al n2 mx : ℤ) (rk : ℤ → ℕ) (s : Mem) (F : Sh) : Prop where
  rp : Rm n m Al (2 * nnz) s F
  lay : Lay n m nnz nnz (2 * nnz) F
  inc : Inc n m F
  sc : Sc n F
  tot : tsum n F (fun c => 0 ≤ F .cs c) = n2
  dl : DL n F (CA n F) rk
  md : ∀ r, RA m F r → F .r1 r ≤ mx
  mxn : 0 ≤ mx ∧ mx ≤ n
  gh : Gh n n2 0 F (fun c => F .cs c = -1) id (fun _ => 0)

theorem S4.fin {R : Sh} {s0 s1 : Mem} (hn : 0 ≤ n) (ir : IR n m nnz Al s0 F0)
    (h3 : ∃ n2, S3 n m nnz Al F0 n2 mx m s1 R) (g : S4 n m nnz Al F0 R n2 0 s F) :
    Lay n m nnz nnz (2 * nnz) F ∧ Inc n m F ∧ Sc n F ∧
    tsum n F (fun c => 0 ≤ F .cs c) = n2 ∧ (∀ r, RA m F r → F .r1 r ≤ mx) ∧
    Gh n n2 0 F (fun c => F .cs c = -1) id (fun _ => 0) := by
  obtain ⟨n2', h3⟩ := h3
  have hnz := ir.lay.B0
  have eR : ∀ f, f = .rs ∨ f = .rl ∨ f = .c1 → F f = F0 f := by
    intro f hf
    rw [g.eq f (by rcases hf with rfl | rfl | rfl <;> decide)
      (by rcases hf with rfl | rfl | rfl <;> decide) (by rcases hf with rfl | rfl | rfl <;> decide)
      (by rcases hf with rfl | rfl | rfl <;> decide)]
    apply h3.eq <;> rcases hf with rfl | rfl | rfl <;> decide
  have ers := eR .rs (by simp)
  have erl := eR .rl (by simp)
  have ec1 := eR .c1 (by simp)
  have er1 : F .r1 = R .r1 := g.eq .r1 (by decide) (by decide) (by decide) (by decide)
  have er2 : F .r2 = R .r2 := g.eq .r2 (by decide) (by decide) (by decide) (by decide)
  have hc1 : ∀ c, 0 ≤ c → c < n → F .c1 c = 1 := by rw [ec1]; exact ir.c1
  have hCA : ∀ c, CA n F c → CA n F0 c ∧ F .cs c = F0 .cs c := by
    intro c hc
    have h1 := g.kc.cs c hc.1 hc.2.1
    have h2 := hc.2.2
    exact ⟨⟨hc.1, hc.2.1, ir.ca c hc.1 hc.2.1⟩, by omega⟩
  have hRA : ∀ r, RA m F r → RA m F0 r ∧ 0 ≤ R .r2 r := by
    intro r hr
    refine ⟨⟨hr.1, hr.2.1, by rw [ir.ra r hr.1 hr.2.1]⟩, ?_⟩
    have := hr.2.2
    rwa [er2] at this
  have hcol : ∀ c, CA n F c → colL F c = fl0 F0 R c := by
    intro c hc
    unfold colL
    rw [(hCA c hc).2]
    exact (g.dn c hc hc.1).2.2
  have hrow : ∀ r, RA m F r → rowL F r = rowL F0 r := by
    intro r hr
    have := ir.lay.rb r (hRA r hr).1
    unfold rowL
    rw [ers, erl]
    exact seg_congr fun j h1 h2 => g.aB j (by omega)
  have hfm : ∀ c r, r ∈ fl0 F0 R c ↔ r ∈ colL F0 c ∧ 0 ≤ R .r2 r := by
    intro c r; unfold fl0; rw [List.mem_filter, decide_eq_true_iff]
  have hlay : Lay n m nnz nnz (2 * nnz) F := by
    constructor
    · exact hnz
    · exact le_rfl
    · omega
    · intro c hc
      obtain ⟨u, v⟩ := hCA c hc
      have h1 := ir.lay.cb c u
      have h2 := g.dn c hc hc.1
      rw [v]; omega
    · intro c c' hc hc' hl
      obtain ⟨u, v⟩ := hCA c hc
      obtain ⟨u', v'⟩ := hCA c' hc'
      have h1 := ir.lay.co c c' u u' hl
      have h2 := g.dn c hc hc.1
      rw [v, v']; omega
    · intro r hr; rw [ers, erl]; exact ir.lay.rb r (hRA r hr).1
    · intro r r' hr hr'; rw [ers, erl]; exact ir.lay.rd r r' (hRA r hr).1 (hRA r' hr').1
    · exact g.nn
  have hinc : Inc n m F := by
    constructor
    · intro c hc r hr
      rw [hcol c hc, hfm] at hr
      have := ir.cv c hc.1 hc.2.1 r hr.1
      exact ⟨this.1, this.2, by rw [er2]; exact hr.2⟩
    · intro r hr; rw [hrow r hr]; exact ir.rv r hr.1 hr.2.1
    · intro c hc; rw [hcol c hc]; exact (ir.cn c hc.1 hc.2.1).filter _
    · intro r hr; rw [hrow r hr]; exact ir.rn r hr.1 hr.2.1
    · intro c r hc hr
      rw [hcol c hc, hrow r hr, hfm, ir.sy c r hc.1 hc.2.1 hr.1 hr.2.1]
      exact ⟨fun hh => hh.1, fun hh => ⟨hh, (hRA r hr).2⟩⟩
    · intro r hr
      have hal := (h3.al r hr.1 hr.2.1 (hRA r hr).2).2.1
      rw [er1]
      refine ⟨?_, hal⟩
      rw [g.dg r hr.1 hr.2.1 (hRA r hr).2]
      unfold ldeg rdeg
      rw [hrow r hr]
      refine sum_ite_congr (fun _ _ _ => Iff.rfl) ?_
      intro c c0 c1 _; rw [hc1 c c0 c1]
    · intro c hc; rw [hc1 c hc.1 hc.2.1]
    · refine le_trans (le_of_eq ?_) (g.kc.range hn).2
      rw [g.kc.tot]
      unfold tsum
      refine sum_ite_congr (fun _ _ _ => Iff.rfl) ?_
      intro c c0 c1 _; rw [hc1 c c0 c1]
  refine ⟨hlay, hinc, ?_, ?_, ?_, ?_⟩
  · intro c hc
    obtain ⟨s1, s2, s3⟩ := g.sc c hc hc.1
    refine le_trans (le_min ?_ ?_) s3
    · unfold nsum
      have h1 := sum_union (n := n) (p := fun c' => 0 ≤ F .cs c' ∧ c' ≠ c) (f := F .c1)
        (R := fun r c' => r ∈ colL F c') (fun c' c0 c1 _ => by rw [hc1 c' c0 c1]; simp) (colL F c)
      refine le_trans (le_of_eq ?_) (le_trans h1 (le_of_eq ?_))
      · refine sum_ite_congr ?_ (fun _ _ _ _ => rfl)
        intro c' _ _; rw [and_assoc]
      · rw [hcol c hc]
        congr 1
        apply List.map_congr_left
        intro r hr
        rw [← hcol c hc] at hr
        have hra := hinc.cv c hc r hr
        have hdg := (hinc.dg r hra).1
        rw [er1] at hdg
        rw [hdg]
        unfold rdeg
        have hrc := (hinc.sy c r hc hra).1 hr
        have := sum_ite_erase (n := n) (p := fun c' => 0 ≤ F .cs c' ∧ c' ∈ rowL F r)
          (q := fun c' => (0 ≤ F .cs c' ∧ c' ≠ c) ∧ r ∈ colL F c') (f := F .c1)
          hc.1 hc.2.1 ⟨hc.2.2, hrc⟩ (fun c' c0 c1 => by
            constructor
            · rintro ⟨⟨h1, h2⟩, h3⟩
              exact ⟨⟨h1, (hinc.sy c' r ⟨c0, c1, h1⟩ hra).1 h3⟩, h2⟩
            · rintro ⟨⟨h1, h2⟩, h3⟩
              exact ⟨⟨h1, h3⟩, (hinc.sy c' r ⟨c0, c1, h1⟩ hra).2 h2⟩)
        rw [this, hc1 c hc.1 hc.2.1]
    · unfold nsum
      calc _ ≤ ∑ c' ∈ Finset.Ico 0 n, (1 : ℤ) := by
            apply Finset.sum_le_sum
            intro c' hc'
            rw [Finset.mem_Ico] at hc'
            split_ifs
            · rw [hc1 c' hc'.1 hc'.2]
            · simp
        _ ≤ n := by simp; omega
  · rw [g.kc.tot]
    unfold tsum
    refine sum_ite_congr (fun _ _ _ => Iff.rfl) ?_
    intro c c0 c1 _; rw [hc1 c c0 c1]
  · intro r hr; rw [er1]; exact (h3.al r hr.1 hr.2.1 (hRA r hr).2).2.2
  · have hcs : ∀ c, 0 ≤ c → c < n → -1 ≤ F .cs c := by
      intro c c0 c1
      have h1 := g.kc.cs c c0 c1
      have h2 := ir.ca c c0 c1
      omega
    constructor
    · intro x x0 x1
      have := hcs x x0 x1
      exact ⟨x0, x1, by show F .cs x ≠ -2; omega⟩
    · intros; rfl
    · intro x x0 x1 hx; have := hcs x x0 x1; omega
    · intro x x0 x1; show ((0 : ℕ) : ℤ) < F .c1 x; rw [hc1 x x0 x1]; simp
    · intro c c0 c1 _
      rw [hc1 c c0 c1]
      have : (Finset.Ico 0 n).filter (fun x => id x = c) = {c} := by
        ext x
        simp only [Finset.mem_filter, Finset.mem_Ico, Finset.mem_singleton, id]
        omega
      rw [this]; simp
    · intro c c0 c1 hc
      have := g.kc.o c c0 c1 hc
      have := (g.kc.range hn).1
      have hc' : F .cs c = -1 := hc
      rw [hc1 c c0 c1]
      omega
    · intro c c' c0 c1 hc c0' c1' hc' hne
      have := g.kc.dj c c' c0 c1 hc c0' c1' hc' hne
      rw [hc1 c c0 c1, hc1 c' c0' c1']
      omega
    · intro c c0 c1; have := hcs c c0 c1; omega
    · exact ⟨le_rfl, g.kc.range hn⟩
    · intros; rfl

theorem init_scoring_spec {K : Knobs} (hn : 0 ≤ n) (hm : 0 ≤ m) (ir : IR n m nnz Al s F0) :
    wp (init_scoring n m K s) (fun z => ∃ F rk, IS n m nnz Al z.2.1 z.2.2 rk z.1 F) noFail := by
  have hnz := ir.lay.B0
  unfold init_scoring
  refine wp_bind_ok (killEmpty_spec hn ir) ?_
  rintro ⟨s1, n1⟩ ⟨F1, g1⟩
  dsimp only at g1 ⊢
  refine wp_bind_ok (killDense_spec hn hnz ir g1) ?_
  rintro ⟨s2, n2⟩ ⟨F2, g2⟩
  dsimp only at g2 ⊢
  refine wp_bind_ok (killRows0_spec hn hm ir g2) ?_
  rintro ⟨s3, mx⟩ ⟨F3, g3⟩
  dsimp only at g3 ⊢
  refine wp_bind_ok (scoreCols_spec hn hnz ir g3) ?_
  rintro ⟨s4, n4⟩ ⟨F4, g4⟩
  dsimp only at g4 ⊢
  obtain ⟨a1, a2, a3, a4, a5, a6⟩ := g4.fin hn ir ⟨_, g3⟩
  refine wp_bind_ok (initLists_spec hn g4.rp (fun c hc => by
    have := g4.sc c hc hc.1; exact ⟨this.1, this.2.1⟩)) ?_
  rintro s5 ⟨F5, rk, g5, q, dl⟩
  rw [wp_pure]
  have eA := q .A (by decide) (by decide) (by decide)
  have ecs := q .cs (by decide) (by decide) (by decide)
  have ecl := q .cl (by decide) (by decide) (by decide)
  have ers := q .rs (by decide) (by decide) (by decide)
  have erl := q .rl (by decide) (by decide) (by decide)
  have er1 := q .r1 (by decide) (by decide) (by decide)
  have er2 := q .r2 (by decide) (by decide) (by decide)
  have ec1 := q .c1 (by decide) (by decide) (by decide)
  have ec2 := q .c2 (by decide) (by decide) (by decide)
  refine ⟨F5, rk, g5, ?_, ?_, ?_, ?_, ?_, ?_, g3.mx0, ?_⟩
  · exact a1.congr eA ecs ecl ers erl (by rw [er2]; intros; rfl)
  · exact a2.congr eA ecs ecl ers erl er1 ec1 (by rw [er2]; intros; rfl)
  · intro c hc
    rw [nsum_congr (F := F4) (fun _ _ _ => by rw [ecs]) (fun _ _ => by rw [colL_congr eA ecs ecl]) ec1 hc, ec2]
    exact a3 c (by unfold CA; rw [← ecs]; exact hc)
  · dsimp only
    rw [← a4]; unfold tsum; rw [ecs, ec1]
  · exact dl.congr (fun c => by unfold CA; rw [ecs]) (fun _ _ _ => rfl) (fun _ _ => rfl)
      (fun _ _ => rfl) (fun _ _ => rfl)
  · intro r hr
    rw [er1]
    exact a5 r (by unfold RA; rw [← er2]; exact hr)
  · refine a6.congr le_rfl a6.kn.2.1 ?_ ?_ ?_ ?_
    · intro c c0 c1; rw [ecs]; exact ⟨Iff.rfl, a6.kd c c0 c1⟩
    · rw [ec1]; intros; rfl
    · rw [ecs]; intros; assumption
    · rw [ec2]; intros; rfl

theorem find_ordering_spec {ag : Bool} (hn : 0 ≤ n) (hm : 0 ≤ m) (hal : 2 * nnz + n ≤ Al)
    (h : IS n m nnz Al n2 mx rk s F) :
    wp (find_ordering n m Al n2 mx (2 * nnz) ag s) (fun s' => ∃ L F' root e,
      Rm n m Al L s' F' ∧ Fin0 n F' root e) noFail := by
  unfold find_ordering
  cks h.rp
  refine wp_bind_ok (clear_mark_spec h.rp hm (fun h0 => absurd h0 (by omega)) (by omega)) ?_
  rintro ⟨s1, tag⟩ ⟨F1, g1, q, r2a, t1, t1', t2⟩
  dsimp only at g1 t1 t1' t2 ⊢
  have eA := q .A (by decide)
  have ecs := q .cs (by decide)
  have ecl := q .cl (by decide)
  have ers := q .rs (by decide)
  have erl := q .rl (by decide)
  have er1 := q .r1 (by decide)
  have ec1 := q .c1 (by decide)
  have ec2 := q .c2 (by decide)
  have hkn := h.gh.kn
  have inv : Inv n m nnz n2 Al { s := s1, k := 0, ms := 0, tag := tag, maxDeg := mx, pfree := 2 * nnz }
      F1 nnz rk id (fun _ => 0) := by
    constructor
    · exact g1
    · dsimp only; omega
    · exact hal
    · exact h.lay.congr eA ecs ecl ers erl r2a
    · exact h.inc.congr eA ecs ecl ers erl er1 ec1 r2a
    · intro c hc
      rw [nsum_congr (F := F) (fun _ _ _ => by rw [ecs]) (fun _ _ => by rw [colL_congr eA ecs ecl]) ec1 hc, ec2]
      exact h.sc c (by unfold CA; rw [← ecs]; exact hc)
    · dsimp only
      rw [sub_zero, ← h.tot]; unfold tsum; rw [ecs, ec1]
    · refine h.dl.congr (fun c => by unfold CA; rw [ecs]) ?_ ?_ ?_ ?_
      · rw [q .p (by decide)]; intros; rfl
      · rw [ec2]; intros; rfl
      · rw [q .c3 (by decide)]; intros; rfl
      · rw [q .c4 (by decide)]; intros; rfl
    · exact ⟨le_rfl, hn, fun d d0 d1 => by dsimp only at d1; omega⟩
    · refine ⟨t1, t1', t2, ?_⟩
      intro r hr
      rw [er1]
      exact h.md r ⟨hr.1, hr.2.1, (r2a r hr.1 hr.2.1).1 hr.2.2⟩
    · exact h.mxn
    · refine h.gh.congr le_rfl h.gh.kn.2.1 ?_ ?_ ?_ ?_
      · intro c c0 c1; rw [ecs]; exact ⟨Iff.rfl, h.gh.kd c c0 c1⟩
      · rw [ec1]; intros; rfl
      · rw [ecs]; intros; assumption
      · rw [ec2]; intros; rfl
  refine wp_bind_ok (pivotLoop_spec hn hm (by omega) (n2.toNat + 1) _ F1 nnz rk id _ inv (by dsimp only; omega)) ?_
  rintro z ⟨hk, F', B', rk', root, e, h'⟩
  rw [wp_pure]
  refine ⟨_, F', root, e, h'.rp, h'.gh.fin ?_⟩
  intro c c0 c1
  by_contra hc
  have hc : CA n F' c := ⟨c0, c1, by omega⟩
  have h1 := h'.tot
  rw [hk, sub_self] at h1
  have h2 : F' .c1 c ≤ tsum n F' (fun c => 0 ≤ F' .cs c) := by
    unfold tsum
    have := Finset.single_le_sum (s := Finset.Ico 0 n)
      (f := fun c => if 0 ≤ F' .cs c then F' .c1 c else 0) (fun x hx => by
        rw [Finset.mem_Ico] at hx
        split_ifs with hh
        · have := h'.inc.th x ⟨hx.1, hx.2, hh⟩; omega
        · exact le_rfl) (a := c) (by rw [Finset.mem_Ico]; exact ⟨c0, c1⟩)
    rwa [if_pos hc.2.2] at this
  have := h'.inc.th c hc
  omega

end Slip.Colamd
