import Verif.Proof.AmdAat

/-!
# AMD: the pairs of A+A' are off-diagonal and pairwise different
-/

namespace Slip.Amd

open Slip.Colamd (seg mem_seg seg_congr seg_succ length_seg seg_zero wp_seg)

variable [Arith]

/-- Different as unordered pairs. -/
def Df (e f : ℤ × ℤ) : Prop := ¬((e.1 = f.1 ∧ e.2 = f.2) ∨ (e.1 = f.2 ∧ e.2 = f.1))

/-- Row `j` is in column `i`. -/
def Ent (a A : ℤ → ℤ) (i j : ℤ) : Prop := ∃ q, a i ≤ q ∧ q < a (i + 1) ∧ A q = j

/-- Row `j` of column `i` has been visited. -/
def InP (a A : ℤ → ℤ) (k p i j : ℤ) : Prop := (i < k ∧ Ent a A i j) ∨ (i = k ∧ ∃ q, a k ≤ q ∧ q < p ∧ A q = j)

/-- The pairs below the diagonal. -/
def LowE (a A T : ℤ → ℤ) (k : ℤ) (e : ℤ × ℤ) : Prop :=
  0 ≤ e.2 ∧ e.2 < e.1 ∧ e.1 < k ∧ ¬Ent a A e.1 e.2 ∧ ∃ q, a e.2 ≤ q ∧ q < T e.2 ∧ A q = e.1

structure EI (a A : ℤ → ℤ) (k p : ℤ) (l : List (ℤ × ℤ)) (T : ℤ → ℤ) : Prop where
  rg : ∀ j, 0 ≤ j → j < k → a j ≤ T j ∧ T j ≤ a (j + 1)
  lo : ∀ j, 0 ≤ j → j < k → ∀ q, T j ≤ q → q < a (j + 1) → j < A q ∧ ¬InP a A k p (A q) j
  em : ∀ e ∈ l, (0 ≤ e.1 ∧ e.1 < e.2 ∧ InP a A k p e.2 e.1) ∨ LowE a A T k e
  nd : l.Pairwise Df

variable {n nz : ℤ} {a A : ℤ → ℤ}

/-- In a sorted column. -/
def Srt (A : ℤ → ℤ) (x y : ℤ) : Prop := ∀ p q, x ≤ p → p < q → q < y → A p < A q

theorem lowL_spec {k j pj2 : ℤ} : ∀ (fuel : ℕ) (pj : ℤ), Srt A pj pj2 → pj ≤ pj2 → (pj2 - pj).toNat < fuel →
    (lowL A k j pj2 fuel pj).2 ≤ pj2 ∧
    (∀ q, (lowL A k j pj2 fuel pj).2 ≤ q → q < pj2 → k < A q) ∧
    (∀ e ∈ (lowL A k j pj2 fuel pj).1, e.2 = j ∧ e.1 < k ∧ ∃ q, pj ≤ q ∧ q < (lowL A k j pj2 fuel pj).2 ∧ q < pj2 ∧ A q = e.1) ∧
    (lowL A k j pj2 fuel pj).1.Pairwise (fun e f => e.1 < f.1)
  | 0, _, _, _, hf => by omega
  | fuel + 1, pj, hs, hle, hf => by
    unfold lowL
    by_cases hp : pj < pj2
    · rw [if_pos hp]
      by_cases hk : A pj < k
      · rw [if_pos hk]
        obtain ⟨g1, g2, g3, g4⟩ := lowL_spec (k := k) (j := j) fuel (pj + 1) (fun p q h1 h2 h3 => hs p q (by omega) h2 h3)
          (by omega) (by omega)
        have hge := lowL_ge (A := A) (k := k) (j := j) (pj2 := pj2) fuel (pj + 1)
        refine ⟨g1, g2, ?_, ?_⟩
        · intro e he
          rcases List.mem_cons.1 he with rfl | he
          · exact ⟨rfl, hk, pj, le_rfl, by dsimp only; omega, hp, rfl⟩
          · obtain ⟨h1, h2, q, h3, h4, h5, h6⟩ := g3 e he
            exact ⟨h1, h2, q, by omega, h4, h5, h6⟩
        · dsimp only
          rw [List.pairwise_cons]
          refine ⟨?_, g4⟩
          intro e he
          obtain ⟨-, -, q, h3, -, h5, h6⟩ := g3 e he
          rw [← h6]
          exact hs pj q le_rfl (by omega) h5
      · rw [if_neg hk]
        by_cases hk2 : A pj = k
        · rw [if_pos hk2]
          refine ⟨by dsimp only; omega, ?_, by simp, List.Pairwise.nil⟩
          intro q h1 h2
          dsimp only at h1
          have := hs pj q le_rfl (by omega) h2
          omega
        · rw [if_neg hk2]
          refine ⟨hle, ?_, by simp, List.Pairwise.nil⟩
          intro q h1 h2
          dsimp only at h1
          by_cases hq : q = pj
          · rw [hq]; omega
          · have := hs pj q le_rfl (by omega) h2
            omega
    · rw [if_neg hp]
      exact ⟨hle, fun q h1 h2 => by dsimp only at h1; omega, by simp, List.Pairwise.nil⟩

theorem SM.srt (h : SM n nz a A) {j : ℤ} (h0 : 0 ≤ j) (h1 : j < n) : Srt A (a j) (a (j + 1)) := h.st j h0 h1

theorem InP.succ {k p i j : ℤ} (h : InP a A k (p + 1) i j) (hp : A p ≠ j) : InP a A k p i j := by
  rcases h with h | ⟨h1, q, h2, h3, h4⟩
  · exact .inl h
  · refine .inr ⟨h1, q, h2, ?_, h4⟩
    rcases eq_or_ne q p with rfl | hq
    · exact absurd h4 hp
    · omega

theorem InP.mono {k p p' i j : ℤ} (h : InP a A k p i j) (hp : p ≤ p') : InP a A k p' i j := by
  rcases h with h | ⟨h1, q, h2, h3, h4⟩
  · exact .inl h
  · exact .inr ⟨h1, q, h2, by omega, h4⟩

theorem Ent.uniq (h : SM n nz a A) {i p q : ℤ} (i0 : 0 ≤ i) (i1 : i < n) (p1 : a i ≤ p) (p2 : p < a (i + 1)) (q1 : a i ≤ q)
    (q2 : q < a (i + 1)) (e : A p = A q) : p = q := by
  rcases lt_trichotomy p q with h1 | h1 | h1
  · have := h.st i i0 i1 p q p1 h1 q2; omega
  · exact h1
  · have := h.st i i0 i1 q p q1 h1 p2; omega

/-- The rest of the column is not above the diagonal. -/
theorem EI.skip {k p p' : ℤ} {l : List (ℤ × ℤ)} {T : ℤ → ℤ} (h : EI a A k p l T) (hp : p ≤ p')
    (hA : ∀ q, p ≤ q → q < p' → k ≤ A q) : EI a A k p' l T := by
  refine ⟨h.rg, ?_, ?_, h.nd⟩
  · intro j j0 j1 q q0 q1
    obtain ⟨h1, h2⟩ := h.lo j j0 j1 q q0 q1
    refine ⟨h1, fun h3 => h2 ?_⟩
    rcases h3 with h3 | ⟨h3, r, h4, h5, h6⟩
    · exact .inl h3
    · refine .inr ⟨h3, r, h4, ?_, h6⟩
      by_contra hc
      have := hA r (by omega) h5
      omega
  · intro e he
    rcases h.em e he with ⟨h1, h2, h3⟩ | h1
    · exact .inl ⟨h1, h2, h3.mono hp⟩
    · exact .inr h1

theorem EI.next {k p : ℤ} {l : List (ℤ × ℤ)} {T : ℤ → ℤ} (h : EI a A k (a (k + 1)) l T) (k0 : 0 ≤ k) (h1 : a k ≤ p) (h2 : p ≤ a (k + 1))
    (hA : ∀ q, p ≤ q → q < a (k + 1) → k < A q) : EI a A (k + 1) (a (k + 1)) l (Function.update T k p) := by
  have hin : ∀ i j, InP a A (k + 1) (a (k + 1)) i j ↔ InP a A k (a (k + 1)) i j := by
    intro i j
    constructor
    · rintro (⟨g1, g2⟩ | ⟨g1, q, g2, g3, -⟩)
      · rcases eq_or_ne i k with rfl | hne
        · exact .inr ⟨rfl, g2⟩
        · exact .inl ⟨by omega, g2⟩
      · omega
    · rintro (⟨g1, g2⟩ | ⟨g1, g2⟩)
      · exact .inl ⟨by omega, g2⟩
      · subst g1; exact .inl ⟨by omega, g2⟩
  refine ⟨?_, ?_, ?_, h.nd⟩
  · intro j j0 j1
    rw [Function.update_apply]
    split_ifs with hj
    · rw [hj]; exact ⟨h1, h2⟩
    · exact h.rg j j0 (by omega)
  · intro j j0 j1 q
    rw [Function.update_apply]
    split_ifs with hj
    · intro q0 q1
      rw [hj] at q1 ⊢
      have := hA q q0 q1
      refine ⟨this, ?_⟩
      rintro (⟨g1, g2⟩ | ⟨g1, r, g2, g3, -⟩) <;> omega
    · intro q0 q1
      obtain ⟨g1, g2⟩ := h.lo j j0 (by omega) q q0 q1
      exact ⟨g1, fun g => g2 ((hin _ _).1 g)⟩
  · intro e he
    rcases h.em e he with ⟨g1, g2, g3⟩ | ⟨g1, g2, g3, g4, q, g5, g6, g7⟩
    · exact .inl ⟨g1, g2, (hin _ _).2 g3⟩
    · refine .inr ⟨g1, g2, by omega, g4, q, g5, ?_, g7⟩
      rw [Function.update_apply, if_neg (by omega)]
      exact g6

theorem upL_spec (hSM : SM n nz a A) {k : ℤ} (k0 : 0 ≤ k) (k1 : k < n) : ∀ (fuel : ℕ) (p : ℤ) (T : ℤ → ℤ)
    (l : List (ℤ × ℤ)), a k ≤ p → p ≤ a (k + 1) → (a (k + 1) - p).toNat < fuel → EI a A k p l T →
    a k ≤ (upL a A k (a (k + 1)) fuel p T).2.2 ∧ (upL a A k (a (k + 1)) fuel p T).2.2 ≤ a (k + 1) ∧
      (∀ q, (upL a A k (a (k + 1)) fuel p T).2.2 ≤ q → q < a (k + 1) → k < A q) ∧
      EI a A k (a (k + 1)) (l ++ (upL a A k (a (k + 1)) fuel p T).1) (upL a A k (a (k + 1)) fuel p T).2.1
  | 0, _, _, _, _, _, hf, _ => by omega
  | fuel + 1, p, T, l, hp0, hp1, hf, hI => by
    have hbk := hSM.bd k0 k1
    have hsk := hSM.srt k0 k1
    unfold upL
    by_cases hp : p < a (k + 1)
    · rw [if_pos hp]
      have hr := hSM.rg p (by omega) (by omega)
      by_cases hk : A p < k
      · rw [if_pos hk]
        dsimp only
        set j := A p with hj
        obtain ⟨t1, t2⟩ := hI.rg j hr.1 hk
        have hsj := hSM.srt hr.1 hr.2
        have hge := lowL_ge (A := A) (k := k) (j := j) (pj2 := a (j + 1)) ((a (j + 1) - T j).toNat + 1) (T j)
        obtain ⟨g1, g2, g3, g4⟩ := lowL_spec (A := A) (k := k) (j := j) ((a (j + 1) - T j).toNat + 1) (T j)
          (fun p q h1 h2 h3 => hsj p q (by omega) h2 h3) t2 (by omega)
        set r1 := lowL A k j (a (j + 1)) ((a (j + 1) - T j).toNat + 1) (T j) with hr1
        have hlow : ∀ e ∈ r1.1, LowE a A (Function.update T j r1.2) k e ∧ ∃ q, T j ≤ q ∧ q < a (j + 1) ∧ A q = e.1 ∧ e.2 = j := by
          intro e he
          obtain ⟨h1, h2, q, h3, h4, h5, h6⟩ := g3 e he
          obtain ⟨h7, h8⟩ := hI.lo j hr.1 hk q h3 h5
          rw [h6] at h7 h8
          refine ⟨⟨by omega, by omega, h2, fun hE => h8 (.inl ⟨h2, by rw [← h1]; exact hE⟩), q, by rw [h1]; omega, ?_, h6⟩,
            q, h3, h5, h6, h1⟩
          rw [h1, Function.update_self]; exact h4
        have hnin : ¬InP a A k p k j := by
          rintro (⟨h1, -⟩ | ⟨-, q, h1, h2, h3⟩)
          · omega
          · have := hsk q p h1 h2 hp; omega
        have hI2 : EI a A k (p + 1) (l ++ ((j, k) :: r1.1)) (Function.update T j r1.2) := by
          refine ⟨?_, ?_, ?_, ?_⟩
          · intro i i0 i1
            rw [Function.update_apply]
            split_ifs with hij
            · rw [hij]; exact ⟨by omega, g1⟩
            · exact hI.rg i i0 i1
          · intro i i0 i1 q
            rw [Function.update_apply]
            split_ifs with hij
            · intro q0 q1
              rw [hij] at q1 ⊢
              have := g2 q q0 q1
              refine ⟨by omega, ?_⟩
              rintro (⟨h1, -⟩ | ⟨h1, -⟩) <;> omega
            · intro q0 q1
              obtain ⟨h1, h2⟩ := hI.lo i i0 i1 q q0 q1
              exact ⟨h1, fun h3 => h2 (h3.succ (by rw [← hj]; exact fun h => hij h.symm))⟩
          · intro e he
            rcases List.mem_append.1 he with he | he
            · rcases hI.em e he with ⟨h1, h2, h3⟩ | ⟨h1, h2, h3, h4, q, h5, h6, h7⟩
              · exact .inl ⟨h1, h2, h3.mono (by omega)⟩
              · refine .inr ⟨h1, h2, h3, h4, q, h5, ?_, h7⟩
                rw [Function.update_apply]
                split_ifs with hij
                · rw [hij] at h6; omega
                · exact h6
            · rcases List.mem_cons.1 he with rfl | he
              · exact .inl ⟨hr.1, hk, .inr ⟨rfl, p, hp0, by omega, rfl⟩⟩
              · exact .inr (hlow e he).1
          · rw [List.pairwise_append, List.pairwise_cons]
            refine ⟨hI.nd, ⟨?_, ?_⟩, ?_⟩
            · intro e he
              obtain ⟨⟨h1, h2, h3, -⟩, -⟩ := hlow e he
              unfold Df; dsimp only; omega
            · refine g4.imp_of_mem ?_
              intro e f he hf h
              obtain ⟨⟨h1, h2, h3, -⟩, -, -, -, -, h4⟩ := hlow e he
              obtain ⟨⟨h1, h2, h3, -⟩, -, -, -, -, h4⟩ := hlow f hf
              unfold Df; omega
            · intro e he f hf
              rcases List.mem_cons.1 hf with rfl | hf
              · rcases hI.em e he with ⟨h1, h2, h3⟩ | ⟨h1, h2, h3, -⟩
                · intro hd
                  dsimp only at hd
                  have e1 : e.1 = j ∧ e.2 = k := by omega
                  rw [e1.1, e1.2] at h3
                  exact hnin h3
                · unfold Df; dsimp only; omega
              · obtain ⟨⟨u1, u2, u3, -⟩, q, u4, u5, u6, u7⟩ := hlow f hf
                rcases hI.em e he with ⟨h1, h2, h3⟩ | ⟨h1, h2, h3, -, r, h4, h5, h6⟩
                · intro hd
                  have e1 : e.1 = j ∧ e.2 = A q := by omega
                  rw [e1.1, e1.2] at h3
                  exact (hI.lo j hr.1 hk q u4 u5).2 h3
                · intro hd
                  have e1 : e.1 = A q ∧ e.2 = j := by omega
                  rw [e1.2] at h4 h5
                  have := hsj r q h4 (by omega) u5
                  omega
        obtain ⟨f1, f2, f3, f4⟩ := upL_spec hSM k0 k1 fuel (p + 1) (Function.update T j r1.2) _ (by omega) (by omega) (by omega) hI2
        refine ⟨f1, f2, f3, ?_⟩
        simpa using f4
      · rw [if_neg hk]
        by_cases hk2 : A p = k
        · rw [if_pos hk2]
          refine ⟨by dsimp only; omega, by dsimp only; omega, ?_, ?_⟩
          · intro q q0 q1
            dsimp only at q0
            have := hsk p q hp0 (by omega) q1
            omega
          · rw [List.append_nil]
            refine hI.skip (by omega) ?_
            intro q q0 q1
            rcases eq_or_ne q p with rfl | hne
            · omega
            · have := hsk p q hp0 (by omega) q1
              omega
        · rw [if_neg hk2]
          have : ∀ q, p ≤ q → q < a (k + 1) → k < A q := by
            intro q q0 q1
            rcases eq_or_ne q p with rfl | hne
            · omega
            · have := hsk p q hp0 (by omega) q1
              omega
          refine ⟨hp0, hp1, this, ?_⟩
          rw [List.append_nil]
          exact hI.skip (by omega) (fun q h1 h2 => (this q h1 h2).le)
    · rw [if_neg hp]
      refine ⟨hp0, hp1, fun q h1 h2 => by dsimp only at h1; omega, ?_⟩
      rw [List.append_nil]
      exact hI.skip hp1 (fun q h1 h2 => by omega)

theorem upperL_spec (hSM : SM n nz a A) : ∀ k : ℕ, (k : ℤ) ≤ n → EI a A k (a k) (upperL a A k).1 (upperL a A k).2
  | 0, _ => ⟨fun j h0 h1 => by push_cast at h1; omega, fun j h0 h1 => by push_cast at h1; omega, by simp [upperL],
      by simp [upperL]⟩
  | k + 1, hk => by
    push_cast at hk
    have ih := upperL_spec hSM k (by omega)
    have hb := hSM.bd (j := (k : ℤ)) (by omega) (by omega)
    obtain ⟨f1, f2, f3, f4⟩ := upL_spec hSM (k := (k : ℤ)) (by omega) (by omega) ((a (k + 1) - a k).toNat + 1) (a k)
      (upperL a A k).2 _ le_rfl hb.2.1 (by omega) ih
    have := f4.next (by omega) f1 f2 f3
    push_cast
    exact this

theorem restL_spec (hSM : SM n nz a A) {l : List (ℤ × ℤ)} {T : ℤ → ℤ} (h : EI a A n (a n) l T) : ∀ k : ℕ, (k : ℤ) ≤ n →
    (∀ e ∈ restL a A T k, 0 ≤ e.2 ∧ e.2 < k ∧ e.2 < e.1 ∧ e.1 < n ∧ ¬Ent a A e.1 e.2 ∧
      ∃ q, T e.2 ≤ q ∧ q < a (e.2 + 1) ∧ A q = e.1) ∧ (restL a A T k).Pairwise Df
  | 0, _ => by simp [restL]
  | k + 1, hk => by
    push_cast at hk
    obtain ⟨g1, g2⟩ := restL_spec hSM h k (by omega)
    obtain ⟨t1, t2⟩ := h.rg k (by omega) (by omega)
    have hb := hSM.bd (j := (k : ℤ)) (by omega) (by omega)
    have hs := hSM.srt (j := (k : ℤ)) (by omega) (by omega)
    have hm : ∀ e ∈ (seg A (T k) (a (k + 1) - T k)).map (·, (k : ℤ)), e.2 = k ∧ e.2 < e.1 ∧ e.1 < n ∧ ¬Ent a A e.1 e.2 ∧
      ∃ q, T e.2 ≤ q ∧ q < a (e.2 + 1) ∧ A q = e.1 := by
      intro e he
      obtain ⟨x, hx, rfl⟩ := List.mem_map.1 he
      obtain ⟨q, q0, q1, rfl⟩ := mem_seg.1 hx
      obtain ⟨l1, l2⟩ := h.lo k (by omega) (by omega) q q0 (by omega)
      have hr := hSM.rg q (by omega) (by omega)
      exact ⟨rfl, l1, hr.2, fun hE => l2 (.inl ⟨hr.2, hE⟩), q, q0, by dsimp only; omega, rfl⟩
    unfold restL
    refine ⟨?_, ?_⟩
    · intro e he
      push_cast
      rcases List.mem_append.1 he with he | he
      · obtain ⟨h1, h2, h3⟩ := g1 e he
        exact ⟨h1, by omega, h3⟩
      · obtain ⟨h1, h2⟩ := hm e he
        exact ⟨by omega, by omega, h2⟩
    · rw [List.pairwise_append]
      refine ⟨g2, ?_, ?_⟩
      · rw [List.pairwise_map]
        have hnd : (seg A (T k) (a (k + 1) - T k)).Nodup := by
          rw [Slip.Colamd.seg_nodup]
          intro i j h1 h2 h3 h4 h5
          by_contra hc
          rcases lt_or_gt_of_ne hc with hc | hc
          · have := hs i j (by omega) hc (by omega); omega
          · have := hs j i (by omega) hc (by omega); omega
        refine List.Pairwise.imp_of_mem ?_ hnd
        intro x y hx hy hxy
        have e1 := (hm (x, (k : ℤ)) (List.mem_map_of_mem hx)).2.1
        dsimp only at e1
        unfold Df; dsimp only; omega
      · intro e he f hf
        obtain ⟨h1, h2, h3, -⟩ := g1 e he
        obtain ⟨h4, h5, -⟩ := hm f hf
        unfold Df; omega

/-- The pairs of A+A'. -/
theorem aatL_spec {N : ℕ} (hSM : SM N nz a A) :
    (∀ e ∈ aatL a A N, 0 ≤ e.1 ∧ e.1 < N ∧ 0 ≤ e.2 ∧ e.2 < N ∧ e.1 ≠ e.2) ∧ (aatL a A N).Pairwise Df := by
  have h := upperL_spec hSM N le_rfl
  obtain ⟨g1, g2⟩ := restL_spec hSM h N le_rfl
  have hE : ∀ i j, InP a A N (a N) i j → i < N ∧ Ent a A i j := by
    rintro i j (h1 | ⟨-, q, h1, h2, -⟩)
    · exact h1
    · omega
  unfold aatL
  refine ⟨?_, ?_⟩
  · intro e he
    rcases List.mem_append.1 he with he | he
    · rcases h.em e he with ⟨h1, h2, h3⟩ | ⟨h1, h2, h3, -⟩
      · have := (hE _ _ h3).1; omega
      · omega
    · obtain ⟨h1, h2, h3, h4, -⟩ := g1 e he
      omega
  · rw [List.pairwise_append]
    refine ⟨h.nd, g2, ?_⟩
    intro e he f hf hd
    obtain ⟨u1, u2, u3, u4, u5, q, u6, u7, u8⟩ := g1 f hf
    rcases h.em e he with ⟨h1, h2, h3⟩ | ⟨h1, h2, h3, -, r, h4, h5, h6⟩
    · have e1 : e.1 = f.2 ∧ e.2 = f.1 := by omega
      have := (hE _ _ h3).2
      rw [e1.1, e1.2] at this
      exact u5 this
    · have e1 : e.1 = f.1 ∧ e.2 = f.2 := by omega
      rw [e1.2] at h4 h5
      have := hSM.srt u1 u2 r q h4 (by omega) u7
      omega

end Slip.Amd
