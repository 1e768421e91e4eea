import Verif.Proof.AmdPost

/-!
# AMD: the depth-first search
-/

namespace Slip.Amd

variable [Arith]

variable {n Al L : ℤ} {s : Mem} {F : Sh}

theorem countChildren_spec (hR : Rm n Al L s F) : ∀ (l : List ℤ) (fuel : ℕ) (f head : ℤ), Sg (F .nx) f l (-1) →
    (∀ x ∈ l, 0 ≤ x ∧ x < n) → l.length < fuel → 0 ≤ head → head + l.length ≤ 2 * n →
    countChildren s fuel f head = .ok (head + l.length)
  | [], fuel + 1, f, head, hs, _, _, _, _ => by
    unfold countChildren
    rw [if_neg (by simpa [Sg] using hs)]
    simp; rfl
  | [], 0, _, _, _, _, hf, _, _ => by simp at hf
  | _ :: _, 0, _, _, _, _, hf, _, _ => by simp at hf
  | a :: l, fuel + 1, f, head, hs, hl, hf, h0, h1 => by
    unfold countChildren
    obtain ⟨rfl, hne, hs⟩ := hs
    have ha := hl f (by simp)
    simp only [List.length_cons, Nat.cast_add, Nat.cast_one] at h1
    rw [if_pos hne]
    cks hR
    rw [hR.rdn .nx (by decide) ha.1 ha.2, ok_bind,
      countChildren_spec hR l fuel _ _ hs (fun x hx => hl x (by simp [hx])) (by simp at hf; omega) (by omega) (by omega)]
    congr 1
    simp; ring

theorem pushChildren_spec : ∀ (l : List ℤ) (fuel : ℕ) (f base h : ℤ) (s : Mem) (F : Sh), Rm n Al L s F →
    Sg (F .nx) f l (-1) → (∀ x ∈ l, 0 ≤ x ∧ x < n) → l.length < fuel → 0 ≤ base → h = base + l.length - 1 → h < n →
    ∃ s' F', pushChildren fuel f h s = .ok s' ∧ Rm n Al L s' F' ∧
      (∀ (m : ℕ) x, l.reverse[m]? = some x → F' .la (base + m) = x) ∧
      (∀ p, p < base ∨ h < p → F' .la p = F .la p) ∧ ∀ g, g ≠ .la → F' g = F g
  | [], fuel + 1, f, base, h, s, F, hR, hs, _, _, _, _, _ => by
    unfold pushChildren
    rw [if_neg (by simpa [Sg] using hs)]
    exact ⟨s, F, rfl, hR, by simp, fun _ _ => rfl, fun _ _ => rfl⟩
  | [], 0, _, _, _, _, _, _, _, _, hf, _, _, _ => by simp at hf
  | _ :: _, 0, _, _, _, _, _, _, _, _, hf, _, _, _ => by simp at hf
  | a :: l, fuel + 1, f, base, h, s, F, hR, hs, hl, hf, hb, hh, hn => by
    unfold pushChildren
    obtain ⟨rfl, hne, hs⟩ := hs
    have ha := hl f (by simp)
    simp only [List.length_cons, Nat.cast_add, Nat.cast_one] at hh
    obtain ⟨s1, e1, g1⟩ := hR.wrn .la (by decide) (i := h) (by omega) hn f
    rw [if_pos hne, e1, ok_bind]
    cks hR
    rw [g1.rdn .nx (by decide) ha.1 ha.2, ok_bind]
    obtain ⟨s2, F2, e2, g2, q1, q2, q3⟩ := pushChildren_spec l fuel (F .nx f) base (h - 1) s1 _ g1
      (by rw [set_ne _ (by decide)]; exact hs) (fun x hx => hl x (by simp [hx]))
      (by simp at hf; omega) hb (by omega) (by omega)
    refine ⟨s2, F2, by rw [set_ne _ (by decide)]; exact e2, g2, ?_, ?_, ?_⟩
    · intro m x hm
      rw [List.reverse_cons] at hm
      by_cases hlt : m < l.reverse.length
      · rw [List.getElem?_append_left hlt] at hm; exact q1 m x hm
      · have hml : m < (l.reverse ++ [f]).length := by
          by_contra hc
          rw [List.getElem?_eq_none (by omega)] at hm; simp at hm
        simp at hml hlt
        obtain rfl : m = l.length := by omega
        have hx : f = x := by
          rw [List.getElem?_append_right (by simp)] at hm
          simpa using hm
        rw [q2 _ (by omega), show base + (l.length : ℤ) = h by omega, set_at, hx]
    · intro p hp
      rw [q2 p (by omega), set_nei _ _ _ _ (by omega)]
    · intro g hg; rw [q3 g hg, set_ne _ hg]

/-- The state of the search: `st` is the stack, `O` the nodes numbered so far. -/
structure DF (n : ℤ) (F : Sh) (ch : ℤ → List ℤ) (st O : List ℤ) : Prop where
  la : ∀ (m : ℕ) x, st[m]? = some x → F .la m = x
  nd : (st ++ O).Nodup
  nn : ∀ x ∈ st ++ O, Nd n F x
  pr : ∀ c ∈ st ++ O, F .pe c ≠ -1 → F .hd (F .pe c) = -1
  cc : ∀ x, 0 ≤ x → x < n → F .hd x ≠ -1 → Sg (F .nx) (F .hd x) (ch x) (-1)
  ex : ∀ x, Nd n F x → F .hd x = -1 → ∀ c ∈ ch x, c ∈ st ++ O
  dn : ∀ x ∈ O, F .hd x = -1
  w1 : ∀ (m : ℕ) x, O[m]? = some x → F .w x = m
  w2 : ∀ x, 0 ≤ x → x < n → x ∉ O → F .w x = -1

/-- The lists of children do not change. -/
structure KD (n : ℤ) (F : Sh) (ch : ℤ → List ℤ) : Prop where
  m : ∀ p, 0 ≤ p → p < n → ∀ j, (j ∈ ch p ↔ Nd n F j ∧ F .pe j = p)
  nd : ∀ p, 0 ≤ p → p < n → (ch p).Nodup

/-- The number of nodes whose children were not visited. -/
def unv (n : ℤ) (F : Sh) : ℕ := ((Finset.Ico 0 n).filter (F .hd · ≠ -1)).card

theorem unv_le (F : Sh) : unv n F ≤ n.toNat := by
  unfold unv
  refine le_trans (Finset.card_filter_le _ _) ?_
  rw [Int.card_Ico]; simp

theorem postLoop_spec {ch : ℤ → List ℤ} : ∀ (fuel : ℕ) (head k : ℤ) (s : Mem) (F : Sh) (st O : List ℤ),
    Rm n Al L s F → KD n F ch → DF n F ch st O → head = st.length - 1 → k = O.length →
    n.toNat - O.length + unv n F < fuel →
    ∃ s' k' F' O', postLoop n fuel head k s = .ok (s', k') ∧ Rm n Al L s' F' ∧ DF n F' ch [] O' ∧ k' = O'.length ∧
      (∀ x ∈ st ++ O, x ∈ O') ∧ (∀ x ∈ O', F .pe x = -1 → x ∈ st ++ O) ∧ ∀ f, f ≠ .la → f ≠ .hd → f ≠ .w → F' f = F f
  | 0, _, _, _, _, _, _, _, _, _, _, _, hf => by omega
  | fuel + 1, head, k, s, F, st, O, hR, hK, hD, hh, hk, hf => by
    unfold postLoop
    rcases List.eq_nil_or_concat' st with rfl | ⟨st0, i, rfl⟩
    · rw [if_neg (by simp at hh; omega)]
      exact ⟨s, k, F, O, rfl, hR, hD, hk, by simp, fun x hx _ => by simpa using hx, fun _ _ _ _ => rfl⟩
    have hlen := length_lt hD.nd fun x hx => ⟨(hD.nn x hx).1, (hD.nn x hx).2.1⟩
    simp only [List.length_append, List.length_cons, List.length_nil] at hlen hh
    push_cast at hh
    obtain rfl : head = st0.length := by omega
    have hi : Nd n F i := hD.nn i (by simp)
    have hn0 : 0 ≤ n := by have := hi.1; have := hi.2.1; omega
    rw [if_pos (by omega), hR.rdn .la (by decide) (by omega) (by omega), ok_bind,
      hD.la st0.length i (by simp), hR.rdn .hd (by decide) hi.1 hi.2.1, ok_bind]
    by_cases hc : F .hd i ≠ -1
    · rw [if_pos hc]
      have hsg := hD.cc i hi.1 hi.2.1 hc
      have hchr : ∀ x ∈ ch i, 0 ≤ x ∧ x < n := by
        intro x hx
        have := ((hK.m i hi.1 hi.2.1 x).1 hx).1
        exact ⟨this.1, this.2.1⟩
      have hcl := length_lt (hK.nd i hi.1 hi.2.1) hchr
      rw [countChildren_spec hR _ _ _ _ hsg hchr (by omega) (by omega) (by omega), ok_bind]
      have hnew : ∀ c ∈ ch i, c ∉ (st0 ++ [i]) ++ O := by
        intro c hcc hm
        have h1 := ((hK.m i hi.1 hi.2.1 c).1 hcc).2
        have h2 := hD.pr c hm (by rw [h1]; have := hi.1; omega)
        rw [h1] at h2
        exact hc h2
      have hnd' : ((st0 ++ [i]) ++ (ch i).reverse ++ O).Nodup := by
        have hp : ((ch i) ++ ((st0 ++ [i]) ++ O)).Perm ((st0 ++ [i]) ++ (ch i).reverse ++ O) := by
          refine List.Perm.trans ?_ (List.Perm.append_right _ (List.Perm.append_left _ (List.reverse_perm _).symm))
          rw [← List.append_assoc]
          exact List.Perm.append_right _ List.perm_append_comm
        refine hp.nodup_iff.1 (List.nodup_append.2 ⟨hK.nd i hi.1 hi.2.1, hD.nd, ?_⟩)
        rintro a ha b hb rfl
        exact hnew a ha hb
      have hnn' : ∀ x ∈ (st0 ++ [i]) ++ (ch i).reverse ++ O, Nd n F x := by
        intro x hx
        simp only [List.mem_append, List.mem_reverse] at hx
        rcases hx with (hx | hx) | hx
        · exact hD.nn x (by simp only [List.mem_append]; exact Or.inl hx)
        · exact ((hK.m i hi.1 hi.2.1 x).1 hx).1
        · exact hD.nn x (by simp only [List.mem_append]; exact Or.inr hx)
      have hlen' := length_lt hnd' fun x hx => ⟨(hnn' x hx).1, (hnn' x hx).2.1⟩
      simp only [List.length_append, List.length_cons, List.length_nil, List.length_reverse] at hlen'
      obtain ⟨s1, F1, e1, g1, q1, q2, q3⟩ := pushChildren_spec (ch i) (n.toNat + 1) (F .hd i) (st0.length + 1)
        (st0.length + (ch i).length) s F hR hsg hchr (by omega) (by omega) (by ring) (by omega)
      rw [e1, ok_bind]
      obtain ⟨s2, e2, g2⟩ := g1.wrn .hd (by decide) hi.1 hi.2.1 (-1)
      rw [e2, ok_bind]
      have f1 : ∀ f, f ≠ .la → f ≠ .hd → set F1 .hd i (-1) f = F f := by
        intro f a b; rw [set_ne _ b, q3 f a]
      have hNd : ∀ x, Nd n (set F1 .hd i (-1)) x ↔ Nd n F x := by
        intro x; unfold Nd; rw [f1 _ (by decide) (by decide)]
      have hhd : ∀ x, set F1 .hd i (-1) .hd x = if x = i then -1 else F .hd x := by
        intro x
        by_cases hx : x = i
        · subst hx; rw [set_at, if_pos rfl]
        · rw [set_nei _ _ _ _ hx, if_neg hx, q3 _ (by decide)]
      have hK' : KD n (set F1 .hd i (-1)) ch := by
        refine ⟨?_, hK.nd⟩
        intro p p0 p1 j
        rw [hNd, f1 _ (by decide) (by decide)]; exact hK.m p p0 p1 j
      have hD' : DF n (set F1 .hd i (-1)) ch ((st0 ++ [i]) ++ (ch i).reverse) O := by
        refine ⟨?_, hnd', ?_, ?_, ?_, ?_, ?_, ?_, ?_⟩
        · intro m x hm
          rw [set_ne _ (by decide)]
          by_cases hlt : m < (st0 ++ [i]).length
          · rw [List.getElem?_append_left hlt] at hm
            simp at hlt
            rw [q2 _ (by omega)]; exact hD.la m x hm
          · rw [List.getElem?_append_right (by omega)] at hm
            have := q1 _ x hm
            simp at hlt
            rw [← this]
            congr 1
            simp
            omega
        · intro x hx; rw [hNd]; exact hnn' x hx
        · intro c hcm hpe
          rw [f1 .pe (by decide) (by decide)] at hpe ⊢
          rw [hhd]
          split_ifs with hx
          · rfl
          · simp only [List.mem_append, List.mem_reverse] at hcm
            rcases hcm with (hcm | hcm) | hcm
            · exact hD.pr c (by simp only [List.mem_append]; exact Or.inl hcm) hpe
            · exact absurd ((hK.m i hi.1 hi.2.1 c).1 hcm).2 hx
            · exact hD.pr c (by simp only [List.mem_append]; exact Or.inr hcm) hpe
        · intro x x0 x1
          rw [hhd, f1 _ (by decide) (by decide)]
          split_ifs with hx
          · intro h; exact absurd rfl h
          · exact hD.cc x x0 x1
        · intro x hx
          rw [hhd]
          rw [hNd] at hx
          split_ifs with hxi
          · subst hxi
            intro _ c hcc
            simp [hcc]
          · intro h c hcc
            have := hD.ex x hx h c hcc
            simp only [List.mem_append, List.mem_reverse] at this ⊢
            tauto
        · intro x hx
          rw [hhd]
          split_ifs with hxi
          · rfl
          · exact hD.dn x hx
        · intro m x hm; rw [f1 _ (by decide) (by decide)]; exact hD.w1 m x hm
        · intro x x0 x1 hx; rw [f1 _ (by decide) (by decide)]; exact hD.w2 x x0 x1 hx
      have hunv : unv n (set F1 .hd i (-1)) < unv n F := by
        unfold unv
        apply Finset.card_lt_card
        rw [Finset.ssubset_iff_of_subset]
        · refine ⟨i, ?_, ?_⟩
          · rw [Finset.mem_filter, Finset.mem_Ico]; exact ⟨⟨hi.1, hi.2.1⟩, hc⟩
          · rw [Finset.mem_filter, hhd, if_pos rfl]; exact fun h => h.2 rfl
        · intro z hz
          rw [Finset.mem_filter] at hz ⊢
          refine ⟨hz.1, ?_⟩
          have := hz.2
          rw [hhd] at this
          split_ifs at this with hzi
          · exact absurd rfl this
          · exact this
      obtain ⟨s', k', F', O', r1, r2, r3, r4, r5, r7, r6⟩ := postLoop_spec fuel (st0.length + (ch i).length) k s2 _ _ O
        g2 hK' hD' (by simp only [List.length_append, List.length_cons, List.length_nil, List.length_reverse]; push_cast; ring) hk (by omega)
      refine ⟨s', k', F', O', r1, r2, r3, r4, ?_, ?_, ?_⟩
      · intro x hx
        refine r5 x ?_
        simp only [List.mem_append, List.mem_reverse] at hx ⊢
        tauto
      · intro x hx hp
        have := r7 x hx (by rw [f1 _ (by decide) (by decide)]; exact hp)
        simp only [List.mem_append, List.mem_reverse] at this ⊢
        rcases this with (h | h) | h
        · exact Or.inl h
        · have h1 := ((hK.m i hi.1 hi.2.1 x).1 h).2
          have := hi.1
          omega
        · exact Or.inr h
      · intro f a b c; rw [r6 f a b c, f1 f a b]
    · rw [if_neg hc]
      push Not at hc
      have hln := length_lt hD.nd fun x hx => ⟨(hD.nn x hx).1, (hD.nn x hx).2.1⟩
      simp only [List.length_append, List.length_cons, List.length_nil] at hln
      cks hR
      cks hR
      obtain ⟨s1, e1, g1⟩ := hR.wrn .w (by decide) hi.1 hi.2.1 k
      rw [e1, ok_bind]
      have hNd : ∀ x, Nd n (set F .w i k) x ↔ Nd n F x := by
        intro x; unfold Nd; rw [set_ne _ (by decide)]
      have hperm : ((st0 ++ [i]) ++ O).Perm (st0 ++ (O ++ [i])) := by
        rw [List.append_assoc]
        exact List.Perm.append_left _ List.perm_append_comm
      have hiO : i ∉ O := by
        have := (List.nodup_append.1 hD.nd).2.2
        exact fun h => this i (by simp) i h rfl
      have hK' : KD n (set F .w i k) ch := by
        refine ⟨?_, hK.nd⟩
        intro p p0 p1 j
        rw [hNd, set_ne _ (by decide)]; exact hK.m p p0 p1 j
      have hD' : DF n (set F .w i k) ch st0 (O ++ [i]) := by
        refine ⟨?_, hperm.nodup_iff.1 hD.nd, ?_, ?_, ?_, ?_, ?_, ?_, ?_⟩
        · intro m x hm
          rw [set_ne _ (by decide)]
          refine hD.la m x ?_
          rw [List.getElem?_append_left]
          · exact hm
          · by_contra hcc
            rw [List.getElem?_eq_none (by omega)] at hm; simp at hm
        · intro x hx; rw [hNd]; exact hD.nn x (hperm.mem_iff.2 hx)
        · intro c hcm
          rw [set_ne _ (by decide), set_ne _ (by decide)]
          exact hD.pr c (hperm.mem_iff.2 hcm)
        · intro x
          rw [set_ne _ (by decide), set_ne _ (by decide)]
          exact hD.cc x
        · intro x hx
          rw [set_ne _ (by decide)]
          rw [hNd] at hx
          intro h c hcc
          exact hperm.mem_iff.1 (hD.ex x hx h c hcc)
        · intro x hx
          rw [set_ne _ (by decide)]
          rw [List.mem_append] at hx
          rcases hx with hx | hx
          · exact hD.dn x hx
          · simp at hx; rw [hx]; exact hc
        · intro m x hm
          by_cases hlt : m < O.length
          · rw [List.getElem?_append_left hlt] at hm
            have hxi : x ≠ i := by
              rintro rfl; exact hiO (List.mem_of_getElem? hm)
            rw [set_nei _ _ _ _ hxi]; exact hD.w1 m x hm
          · have hml : m < (O ++ [i]).length := by
              by_contra hcc
              rw [List.getElem?_eq_none (by omega)] at hm; simp at hm
            simp at hml
            obtain rfl : m = O.length := by omega
            simp at hm
            subst hm
            rw [set_at, hk]
        · intro x x0 x1 hx
          have hxi : x ≠ i := by rintro rfl; exact hx (by simp)
          rw [set_nei _ _ _ _ hxi]
          exact hD.w2 x x0 x1 fun h => hx (by simp [h])
      have hunv : unv n (set F .w i k) = unv n F := by
        unfold unv; rw [set_ne _ (by decide)]
      obtain ⟨s', k', F', O', r1, r2, r3, r4, r5, r7, r6⟩ := postLoop_spec fuel (st0.length - 1) (k + 1) s1 _ st0 (O ++ [i])
        g1 hK' hD' rfl (by simp; omega) (by rw [hunv]; simp only [List.length_append, List.length_cons, List.length_nil]; omega)
      refine ⟨s', k', F', O', r1, r2, r3, r4, ?_, ?_, ?_⟩
      · intro x hx; exact r5 x (hperm.mem_iff.1 hx)
      · intro x hx hp; exact hperm.mem_iff.2 (r7 x hx (by rw [set_ne _ (by decide)]; exact hp))
      · intro f a b c; rw [r6 f a b c, set_ne _ c]

theorem post_tree_spec {ch : ℤ → List ℤ} {O : List ℤ} {r : ℤ} (hR : Rm n Al L s F) (hK : KD n F ch)
    (hD : DF n F ch [] O) (hr : Nd n F r) (hrp : F .pe r = -1) (hrO : r ∉ O) :
    ∃ s' k' F' O', post_tree n r O.length s = .ok (s', k') ∧ Rm n Al L s' F' ∧ DF n F' ch [] O' ∧ k' = O'.length ∧
      r ∈ O' ∧ (∀ x ∈ O, x ∈ O') ∧ (∀ x ∈ O', F .pe x = -1 → x = r ∨ x ∈ O) ∧ ∀ f, f ≠ .la → f ≠ .hd → f ≠ .w → F' f = F f := by
  unfold post_tree
  obtain ⟨s1, e1, g1⟩ := hR.wrn .la (by decide) (i := 0) le_rfl (by have := hr.1; have := hr.2.1; omega) r
  rw [e1, ok_bind]
  have hNd : ∀ x, Nd n (set F .la 0 r) x ↔ Nd n F x := by
    intro x; unfold Nd; rw [set_ne _ (by decide)]
  have hK' : KD n (set F .la 0 r) ch := by
    refine ⟨?_, hK.nd⟩
    intro p p0 p1 j
    rw [hNd, set_ne _ (by decide)]; exact hK.m p p0 p1 j
  have hD' : DF n (set F .la 0 r) ch [r] O := by
    refine ⟨?_, ?_, ?_, ?_, ?_, ?_, ?_, ?_, ?_⟩
    · intro m x hm
      cases m with
      | zero => simp at hm; simp [hm]
      | succ m => simp at hm
    · have := hD.nd
      simp only [List.nil_append] at this
      exact List.nodup_cons.2 ⟨hrO, this⟩
    · intro x hx
      rw [hNd]
      simp only [List.cons_append, List.nil_append, List.mem_cons] at hx
      rcases hx with rfl | hx
      · exact hr
      · exact hD.nn x (by simpa using hx)
    · intro c hcm
      rw [set_ne _ (by decide), set_ne _ (by decide)]
      simp only [List.cons_append, List.nil_append, List.mem_cons] at hcm
      rcases hcm with rfl | hx
      · intro h; exact absurd hrp h
      · exact hD.pr c (by simpa using hx)
    · intro x
      rw [set_ne _ (by decide), set_ne _ (by decide)]
      exact hD.cc x
    · intro x hx
      rw [set_ne _ (by decide)]
      rw [hNd] at hx
      intro h c hcc
      have := hD.ex x hx h c hcc
      simp only [List.cons_append, List.nil_append, List.mem_cons] at this ⊢
      exact Or.inr this
    · intro x hx; rw [set_ne _ (by decide)]; exact hD.dn x hx
    · intro m x hm; rw [set_ne _ (by decide)]; exact hD.w1 m x hm
    · intro x x0 x1 hx; rw [set_ne _ (by decide)]; exact hD.w2 x x0 x1 hx
  have hu := unv_le (n := n) (set F .la 0 r)
  obtain ⟨s', k', F', O', r1, r2, r3, r4, r5, r7, r6⟩ := postLoop_spec (2 * n.toNat + 2) 0 O.length s1 _ [r] O
    g1 hK' hD' rfl rfl (by omega)
  refine ⟨s', k', F', O', r1, r2, r3, r4, r5 r (by simp), fun x hx => r5 x (by simp [hx]), ?_, ?_⟩
  · intro x hx hp
    have := r7 x hx (by rw [set_ne _ (by decide)]; exact hp)
    simpa using this
  intro f a b c; rw [r6 f a b c, set_ne _ a]

/-- The postorder numbers all nodes. -/
theorem postorder_spec {root : ℤ → ℤ} {t : ℤ → ℕ} (hR : Rm n Al L s F) (hn : 0 ≤ n) (h : Fo n (F .pe) (F .nv) root t)
    (hel : ∀ x, 0 ≤ x → x < n → F .nv x ≠ 0 → 0 ≤ F .el x) :
    wp (postorder n s) (fun s' => ∃ (F' : Sh) (O : List ℤ), Rm n Al L s' F' ∧ O.Nodup ∧ (∀ x, x ∈ O ↔ Nd n F x) ∧
      (∀ (m : ℕ) x, O[m]? = some x → F' .w x = m) ∧ (∀ x, 0 ≤ x → x < n → x ∉ O → F' .w x = -1) ∧
      F' .pe = F .pe ∧ F' .nv = F .nv) (fun _ => False) := by
  unfold postorder
  have hne : ∀ x, Nd n F x → F .nv x ≠ 0 := fun x hx => by have := hx.2.2; omega
  refine wb (wp_mono (postInit_spec hR hn) ?_ (fun _ h => h))
  rintro s1 ⟨F1, g1, h1, e1⟩
  have hN1 : ∀ x, Nd n F1 x ↔ Nd n F x := fun x => by unfold Nd; rw [e1 _ (by decide) (by decide)]
  refine wb (wp_mono (postChildren_spec g1 hn h1 ?_) ?_ (fun _ h => h))
  · intro x hx
    rw [hN1] at hx
    rw [e1 _ (by decide) (by decide)]
    rcases h.c x hx.1 hx.2.1 (hne x hx) with a | a
    · exact Or.inl a
    · exact Or.inr ⟨a.1, a.2.1⟩
  rintro s2 ⟨F2, ch2, g2, h2, e2⟩
  have e2' : ∀ f, f ≠ .hd → f ≠ .nx → F2 f = F f := fun f a b => by rw [e2 f a b, e1 f a b]
  have hN2 : ∀ x, Nd n F2 x ↔ Nd n F x := fun x => by unfold Nd; rw [e2' _ (by decide) (by decide)]
  refine wb (wp_mono (postBig_spec g2 hn h2 ?_) ?_ (fun _ h => h))
  · intro x hx
    rw [hN2] at hx
    rw [e2' _ (by decide) (by decide)]
    exact hel x hx.1 hx.2.1 (hne x hx)
  rintro s3 ⟨F3, ch, g3, h3, e3⟩
  have e3' : ∀ f, f ≠ .hd → f ≠ .nx → F3 f = F f := fun f a b => by rw [e3 f a b, e2' f a b]
  have hN3 : ∀ x, Nd n F3 x ↔ Nd n F x := fun x => by unfold Nd; rw [e3' _ (by decide) (by decide)]
  refine wb (wp_mono (wp_forRange (fun k (s : Mem) => ∃ F', Rm n Al L s F' ∧
    (∀ x, 0 ≤ x → x < k → F' .w x = -1) ∧ ∀ f, f ≠ .w → F' f = F3 f) hn ?_ ?_) ?_ (fun _ h => h))
  · exact ⟨F3, g3, fun x x0 x1 => by omega, fun _ _ => rfl⟩
  · rintro k s1 k0 k1 ⟨F1, g, h1, h2⟩
    obtain ⟨s2, e2, g2⟩ := g.wrn .w (by decide) k0 k1 (-1)
    rw [e2]
    refine wok ⟨_, g2, ?_, ?_⟩
    · intro x x0 x1
      by_cases hx : x = k
      · subst hx; rw [set_at]
      · rw [set_nei _ _ _ _ hx]; exact h1 x x0 (by omega)
    · intro f f1; rw [set_ne _ f1]; exact h2 f f1
  rintro s4 ⟨F4, g4, h4, e4⟩
  have e4' : ∀ f, f ≠ .hd → f ≠ .nx → f ≠ .w → F4 f = F f := fun f a b c => by rw [e4 f c, e3' f a b]
  have hN4 : ∀ x, Nd n F4 x ↔ Nd n F x := fun x => by unfold Nd; rw [e4' _ (by decide) (by decide) (by decide)]
  have epe4 : F4 .pe = F .pe := e4' _ (by decide) (by decide) (by decide)
  have hK4 : KD n F4 ch := by
    refine ⟨?_, h3.nd⟩
    intro p p0 p1 j
    rw [h3.m p p0 p1 j, hN3, hN4, epe4, e3' _ (by decide) (by decide)]
    constructor
    · rintro ⟨a, b, _⟩; exact ⟨a, b⟩
    · rintro ⟨a, b⟩; exact ⟨a, b, a.1⟩
  have hD4 : DF n F4 ch [] [] := by
    refine ⟨by simp, by simp, by simp, by simp, ?_, ?_, by simp, by simp, ?_⟩
    · intro x x0 x1 _
      rw [e4 _ (by decide), e4 _ (by decide)]; exact h3.c x x0 x1
    · intro x hx hh c hc
      have := h3.c x hx.1 hx.2.1
      rw [← e4 .hd (by decide), hh] at this
      cases hcx : ch x with
      | nil => rw [hcx] at hc; simp at hc
      | cons a l => rw [hcx] at this; exact absurd this.1.symm this.2.1
    · intro x x0 x1 _; exact h4 x x0 x1
  refine wb (wp_mono (wp_forRange (fun i (y : Mem × ℤ) => ∃ F' O, Rm n Al L y.1 F' ∧ DF n F' ch [] O ∧ y.2 = O.length ∧
    (∀ x, Nd n F x → F .pe x = -1 → x < i → x ∈ O) ∧ (∀ x, Nd n F x → F .pe x = -1 → i ≤ x → x ∉ O) ∧
    ∀ f, f ≠ .la → f ≠ .hd → f ≠ .w → F' f = F4 f) hn ?_ ?_) ?_ (fun _ h => h))
  · exact ⟨F4, [], g4, hD4, rfl, fun x hx _ hlt => by have := hx.1; omega, by simp, fun _ _ _ _ => rfl⟩
  · rintro i ⟨s5, k⟩ i0 i1 ⟨F5, O, g5, hD5, hk, ha, hb, e5⟩
    dsimp only at g5 hk ⊢
    have epe : F5 .pe = F .pe := by rw [e5 _ (by decide) (by decide) (by decide), epe4]
    have env : F5 .nv = F .nv := by
      rw [e5 _ (by decide) (by decide) (by decide), e4' _ (by decide) (by decide) (by decide)]
    have hN5 : ∀ x, Nd n F5 x ↔ Nd n F x := fun x => by unfold Nd; rw [env]
    rw [g5.rdn .pe (by decide) i0 i1, ok_bind, g5.rdn .nv (by decide) i0 i1, ok_bind]
    by_cases hc : F5 .pe i = -1 ∧ F5 .nv i > 0
    · rw [if_pos hc]
      have hNi : Nd n F5 i := ⟨i0, i1, hc.2⟩
      have hK5 : KD n F5 ch := by
        refine ⟨?_, hK4.nd⟩
        intro p p0 p1 j
        rw [hK4.m p p0 p1, hN5, hN4, epe, epe4]
      obtain ⟨s', k', F', O', r1, r2, r3, r4, r5, r6, r8, r7⟩ := post_tree_spec g5 hK5 hD5 hNi hc.1
        (hb i ((hN5 i).1 hNi) (by rw [← epe]; exact hc.1) le_rfl)
      rw [hk, r1]
      refine wok ⟨F', O', r2, r3, r4, ?_, ?_, ?_⟩
      · intro x hx hp hlt
        by_cases hxi : x = i
        · subst hxi; exact r5
        · exact r6 x (ha x hx hp (by omega))
      · -- later roots are not reached
        intro x hx hp hge hm
        rcases r8 x hm (by rw [epe]; exact hp) with h' | h'
        · omega
        · exact hb x hx hp (by omega) h'
      · intro f a b c; rw [r7 f a b c, e5 f a b c]
    · rw [if_neg hc]
      refine wpr ⟨F5, O, g5, hD5, hk, ?_, ?_, e5⟩
      · intro x hx hp hlt
        by_cases hxi : x = i
        · subst hxi; exact absurd ⟨by rw [epe]; exact hp, by rw [env]; exact hx.2.2⟩ hc
        · exact ha x hx hp (by omega)
      · intro x hx hp hge; exact hb x hx hp (by omega)
  · rintro ⟨s6, k⟩ ⟨F6, O, g6, hD6, hk, ha, _, e6⟩
    dsimp only at g6
    have epe : F6 .pe = F .pe := by rw [e6 _ (by decide) (by decide) (by decide), epe4]
    have env : F6 .nv = F .nv := by
      rw [e6 _ (by decide) (by decide) (by decide), e4' _ (by decide) (by decide) (by decide)]
    have hN6 : ∀ x, Nd n F6 x ↔ Nd n F x := fun x => by unfold Nd; rw [env]
    refine wpr ⟨F6, O, g6, by simpa using hD6.nd, ?_, hD6.w1, hD6.w2, epe, env⟩
    have hall : ∀ m : ℕ, ∀ x, Nd n F x → mea n t x = m → x ∈ O := by
      intro m
      induction m using Nat.strong_induction_on with
      | _ m ih =>
        intro x hx hm
        rcases h.c x hx.1 hx.2.1 (hne x hx) with a | ⟨p0, p1, pv, pt⟩
        · exact ha x hx a hx.2.1
        · have hNp : Nd n F (F .pe x) := ⟨p0, p1, by have := h.nn _ p0 p1; omega⟩
          have h1 := ih _ (by rw [← hm]; exact mea_lt pt p0 p1) _ hNp rfl
          have h2 := hD6.dn _ h1
          have h3 : x ∈ ch (F .pe x) := (hK4.m _ p0 p1 x).2 ⟨(hN4 x).2 hx, by rw [epe4]⟩
          have := hD6.ex _ ((hN6 _).2 hNp) h2 x h3
          simpa using this
    intro x
    constructor
    · intro hx; exact (hN6 x).1 (hD6.nn x (by simpa using hx))
    · intro hx; exact hall _ x hx rfl

end Slip.Amd
