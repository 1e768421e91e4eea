import Verif.Proof.AmdPost2
import Verif.Spec

/-!
# AMD: the permutation
-/

namespace Slip.Amd

variable [Arith]

variable {n Al L : ℤ} {s : Mem} {F : Sh}

theorem invOrder_spec {O : List ℤ} (hR : Rm n Al L s F) (hn : 0 ≤ n) (hnd : O.Nodup) (hO : ∀ x ∈ O, 0 ≤ x ∧ x < n)
    (w1 : ∀ (m : ℕ) x, O[m]? = some x → F .w x = m) (w2 : ∀ x, 0 ≤ x → x < n → x ∉ O → F .w x = -1) :
    wp (invOrder n s) (fun s' => ∃ F', Rm n Al L s' F' ∧ (∀ (m : ℕ) x, O[m]? = some x → F' .hd m = x) ∧
      (∀ k, (O.length : ℤ) ≤ k → k < n → F' .hd k = -1) ∧ F' .pe = F .pe ∧ F' .nv = F .nv) (fun _ => False) := by
  unfold invOrder
  have hlen := length_lt hnd hO
  refine wb (wp_mono (wp_forRange (fun k (s : Mem) => ∃ F', Rm n Al L s F' ∧
    (∀ x, 0 ≤ x → x < k → F' .hd x = -1) ∧ ∀ f, f ≠ .hd → f ≠ .nx → F' f = F f) hn ?_ ?_) ?_ (fun _ h => h))
  · exact ⟨F, hR, fun x x0 x1 => by omega, fun _ _ _ => rfl⟩
  · rintro k s1 k0 k1 ⟨F1, g, h1, h2⟩
    obtain ⟨s2, e2, g2⟩ := g.wrn .hd (by decide) k0 k1 (-1)
    rw [e2, ok_bind]
    obtain ⟨s3, e3, g3⟩ := g2.wrn .nx (by decide) k0 k1 (-1)
    rw [e3]
    refine wok ⟨_, g3, ?_, ?_⟩
    · intro x x0 x1
      rw [set_ne _ (by decide)]
      by_cases hx : x = k
      · subst hx; rw [set_at]
      · rw [set_nei _ _ _ _ hx]; exact h1 x x0 (by omega)
    · intro f f1 f2; rw [set_ne _ f2, set_ne _ f1]; exact h2 f f1 f2
  rintro s1 ⟨F1, g1, h1, e1⟩
  have hidx : ∀ (m : ℕ) x, O[m]? = some x → m < O.length := by
    intro m x hm
    by_contra hc
    rw [List.getElem?_eq_none (by omega)] at hm; simp at hm
  refine wp_mono (wp_forRange (fun k (s : Mem) => ∃ F', Rm n Al L s F' ∧
    (∀ (m : ℕ) x, O[m]? = some x → F' .hd m = if x < k then x else -1) ∧
    (∀ k, (O.length : ℤ) ≤ k → k < n → F' .hd k = -1) ∧ ∀ f, f ≠ .hd → F' f = F1 f) hn ?_ ?_) ?_ (fun _ h => h)
  · refine ⟨F1, g1, ?_, ?_, fun _ _ => rfl⟩
    · intro m x hm
      have hx := hO x (List.mem_of_getElem? hm)
      rw [if_neg (by omega)]
      exact h1 m (by omega) (by have := hidx m x hm; omega)
    · intro k k0 k1; exact h1 k (by omega) k1
  · rintro e s2 e0 e1' ⟨F2, g2, h2, h3, h4⟩
    have ew : F2 .w e = F .w e := by rw [h4 _ (by decide), e1 _ (by decide) (by decide)]
    rw [g2.rdn .w (by decide) e0 e1', ok_bind, ew]
    by_cases he : e ∈ O
    · obtain ⟨m, hm⟩ := List.mem_iff_getElem?.1 he
      rw [w1 m e hm, if_pos (by omega)]
      have hml := hidx m e hm
      obtain ⟨s3, e3, g3⟩ := g2.wrn .hd (by decide) (i := (m : ℤ)) (by omega) (by omega) e
      rw [e3]
      refine wok ⟨_, g3, ?_, ?_, ?_⟩
      · intro m' x hm'
        by_cases hmm : m' = m
        · subst hmm
          rw [hm] at hm'
          obtain rfl : e = x := by simpa using hm'
          rw [set_at, if_pos (by omega)]
        · rw [set_nei _ _ _ _ (by omega), h2 m' x hm']
          have hxe : x ≠ e := by
            rintro rfl
            exact hmm ((List.getElem?_inj (hidx _ _ hm') hnd).1 (by rw [hm', hm]))
          by_cases hlt : x < e
          · rw [if_pos hlt, if_pos (by omega)]
          · rw [if_neg hlt, if_neg (by omega)]
      · intro k k0 k1; rw [set_nei _ _ _ _ (by omega)]; exact h3 k k0 k1
      · intro f hf; rw [set_ne _ hf]; exact h4 f hf
    · rw [w2 e e0 e1' he, if_neg (by simp)]
      refine wpr ⟨F2, g2, ?_, h3, h4⟩
      intro m x hm
      rw [h2 m x hm]
      have hxe : x ≠ e := by rintro rfl; exact he (List.mem_of_getElem? hm)
      by_cases hlt : x < e
      · rw [if_pos hlt, if_pos (by omega)]
      · rw [if_neg hlt, if_neg (by omega)]
  · rintro s2 ⟨F2, g2, h2, h3, h4⟩
    refine ⟨F2, g2, ?_, h3, ?_, ?_⟩
    · intro m x hm
      rw [h2 m x hm, if_pos (hO x (List.mem_of_getElem? hm)).2]
    · rw [h4 _ (by decide), e1 _ (by decide) (by decide)]
    · rw [h4 _ (by decide), e1 _ (by decide) (by decide)]

/-- The elements of `l` have disjoint blocks in `[0,nel)`. -/
structure Blk (F : Sh) (l : List ℤ) (nel : ℤ) : Prop where
  sum : nel = (l.map (F .nv)).sum
  b : ∀ e ∈ l, 0 ≤ F .nx e ∧ F .nx e + F .nv e ≤ nel
  d : ∀ e ∈ l, ∀ e' ∈ l, e ≠ e' → F .nx e + F .nv e ≤ F .nx e' ∨ F .nx e' + F .nv e' ≤ F .nx e

theorem placeElems_spec {O : List ℤ} (hnd : O.Nodup) (hO : ∀ x ∈ O, 0 ≤ x ∧ x < n) :
    ∀ (post pre : List ℤ) (fuel : ℕ) (k nel : ℤ) (s : Mem) (F : Sh), Rm n Al L s F → (∀ x ∈ O, 0 ≤ F .nv x) →
      (∀ (m : ℕ) x, O[m]? = some x → F .hd m = x) → (∀ k, (O.length : ℤ) ≤ k → k < n → F .hd k = -1) →
      O = pre ++ post → k = pre.length → Blk F pre nel → post.length < fuel → (O.map (F .nv)).sum ≤ n →
      ∃ s' nel' F', placeElems n fuel k nel s = .ok (s', nel') ∧ Rm n Al L s' F' ∧ Blk F' O nel' ∧
        F' .pe = F .pe ∧ F' .nv = F .nv
  | _, _, 0, _, _, _, _, _, _, _, _, _, _, _, hf, _ => by omega
  | [], pre, fuel + 1, k, nel, s, F, hR, _, h1, h2, e, hk, hB, hf, _ => by
    unfold placeElems
    simp only [List.append_nil] at e
    subst e
    by_cases hkn : k < n
    · rw [if_pos hkn, hR.rdn .hd (by decide) (by omega) hkn, ok_bind, h2 k (by omega) hkn, if_pos rfl]
      exact ⟨s, nel, F, rfl, hR, hB, rfl, rfl⟩
    · rw [if_neg hkn]
      exact ⟨s, nel, F, rfl, hR, hB, rfl, rfl⟩
  | a :: post, pre, fuel + 1, k, nel, s, F, hR, hv, h1, h2, e, hk, hB, hf, hsn => by
    unfold placeElems
    have hlen := length_lt hnd hO
    have haO : a ∈ O := by rw [e]; simp
    have ha := hO a haO
    have hkn : k < n := by
      rw [e] at hlen; simp at hlen; omega
    have hhd : F .hd k = a := by rw [hk]; exact h1 pre.length a (by rw [e]; simp)
    have hapre : a ∉ pre := by
      rw [e] at hnd
      exact fun h => (List.nodup_append.1 hnd).2.2 a h a (by simp) rfl
    rw [if_pos hkn, hR.rdn .hd (by decide) (by omega) hkn, ok_bind, hhd, if_neg (by omega)]
    obtain ⟨s1, e1, g1⟩ := hR.wrn .nx (by decide) ha.1 ha.2 nel
    rw [e1, ok_bind, g1.rdn .nv (by decide) ha.1 ha.2, ok_bind, set_ne (f := .nx) (g := .nv) _ (by decide)]
    have hva := hv a haO
    have hn0 : 0 ≤ nel := by
      rw [hB.sum]
      apply List.sum_nonneg
      intro x hx
      rw [List.mem_map] at hx
      obtain ⟨y, hy, rfl⟩ := hx
      exact hv y (by rw [e]; simp [hy])
    have hsa : nel + F .nv a ≤ n := by
      have h1 := hsn
      rw [e] at h1
      simp only [List.map_append, List.map_cons, List.sum_append, List.sum_cons] at h1
      have h3 : 0 ≤ (post.map (F .nv)).sum := by
        apply List.sum_nonneg
        intro x hx
        rw [List.mem_map] at hx
        obtain ⟨y, hy, rfl⟩ := hx
        exact hv y (by rw [e]; simp [hy])
      have := hB.sum
      omega
    cks hR
    have hB' : Blk (set F .nx a nel) (pre ++ [a]) (nel + F .nv a) := by
      have hnx : ∀ x ∈ pre, set F .nx a nel .nx x = F .nx x := fun x hx =>
        set_nei _ _ _ _ (by rintro rfl; exact hapre hx)
      refine ⟨?_, ?_, ?_⟩
      · rw [set_ne _ (by decide), hB.sum]; simp
      · intro x hx
        rw [set_ne (f := .nx) (g := .nv) _ (by decide)]
        rw [List.mem_append, List.mem_singleton] at hx
        rcases hx with hx | rfl
        · rw [hnx x hx]; have := hB.b x hx; omega
        · rw [set_at]; omega
      · intro x hx y hy hxy
        rw [set_ne (f := .nx) (g := .nv) _ (by decide)]
        rw [List.mem_append, List.mem_singleton] at hx hy
        rcases hx with hx | rfl <;> rcases hy with hy | rfl
        · rw [hnx x hx, hnx y hy]; exact hB.d x hx y hy hxy
        · rw [hnx x hx, set_at]; have := hB.b x hx; omega
        · rw [hnx y hy, set_at]; have := hB.b y hy; omega
        · exact absurd rfl hxy
    obtain ⟨s', nel', F', r1, r2, r3, r4, r5⟩ := placeElems_spec hnd hO post (pre ++ [a]) fuel (k + 1) (nel + F .nv a)
      s1 _ g1 (by rw [set_ne _ (by decide)]; exact hv) (by rw [set_ne _ (by decide)]; exact h1)
      (by rw [set_ne _ (by decide)]; exact h2) (by rw [e]; simp) (by simp; omega) hB' (by simp at hf; omega)
      (by rw [set_ne _ (by decide)]; exact hsn)
    refine ⟨s', nel', F', r1, r2, r3, ?_, ?_⟩
    · rw [r4, set_ne _ (by decide)]
    · rw [r5, set_ne _ (by decide)]

/-! ## Counting -/

open Classical in
/-- The number of the `i < k` in `P`. -/
noncomputable def cnt (k : ℤ) (P : ℤ → Prop) : ℤ := ((Finset.Ico 0 k).filter P).card

theorem cnt_zero (P : ℤ → Prop) : cnt 0 P = 0 := by unfold cnt; simp

theorem cnt_succ {k : ℤ} (hk : 0 ≤ k) (P : ℤ → Prop) [Decidable (P k)] :
    cnt (k + 1) P = cnt k P + if P k then 1 else 0 := by
  classical
  unfold cnt
  have : Finset.Ico 0 (k + 1) = insert k (Finset.Ico 0 k) := by
    ext x; simp only [Finset.mem_insert, Finset.mem_Ico]; omega
  rw [this, Finset.filter_insert]
  by_cases h : P k
  · rw [if_pos h, if_pos h, Finset.card_insert_of_notMem (by simp)]; push_cast; ring
  · rw [if_neg h, if_neg h]; ring

theorem cnt_mono {k k' : ℤ} (h : k ≤ k') (P : ℤ → Prop) : cnt k P ≤ cnt k' P := by
  classical
  unfold cnt
  have : (Finset.Ico 0 k).filter P ⊆ (Finset.Ico 0 k').filter P := by
    intro x hx
    rw [Finset.mem_filter, Finset.mem_Ico] at hx ⊢
    exact ⟨⟨hx.1.1, by omega⟩, hx.2⟩
  exact_mod_cast Finset.card_le_card this

theorem cnt_nonneg (k : ℤ) (P : ℤ → Prop) : 0 ≤ cnt k P := by unfold cnt; omega

theorem cnt_sub {ν root pe : ℤ → ℤ} {t : ℤ → ℕ} (h : Fo n pe ν root t) {e : ℤ} (e0 : 0 ≤ e) (e1 : e < n) (he : ν e ≠ 0) :
    cnt n (fun i => ν i = 0 ∧ root i = e) = ν e - 1 := by
  classical
  have h1 := h.cd e e0 e1 he
  have h0 : cnt n (fun i => ν i = 0 ∧ root i = e) = (((Finset.Ico 0 n).filter fun i => ν i = 0 ∧ root i = e).card : ℤ) := by
    unfold cnt; congr
  rw [h0]
  have : (Finset.Ico 0 n).filter (root · = e) = insert e ((Finset.Ico 0 n).filter fun i => ν i = 0 ∧ root i = e) := by
    ext x
    simp only [Finset.mem_insert, Finset.mem_filter, Finset.mem_Ico]
    constructor
    · rintro ⟨⟨a, b⟩, c⟩
      by_cases hx : ν x = 0
      · exact Or.inr ⟨⟨a, b⟩, hx, c⟩
      · left; rw [← c, h.a x a b hx]
    · rintro (rfl | ⟨a, b, c⟩)
      · exact ⟨⟨e0, e1⟩, h.a _ e0 e1 he⟩
      · exact ⟨a, c⟩
  rw [this, Finset.card_insert_of_notMem (by simp [he])] at h1
  push_cast at h1
  omega

theorem cnt_total {ν root pe : ℤ → ℤ} {t : ℤ → ℕ} (hn : 0 ≤ n) (h : Fo n pe ν root t) :
    psum n (fun x => 0 ≤ x ∧ x < n ∧ 0 < ν x) ν + cnt n (fun i => ν i = 0 ∧ pe i = -1) ≤ n := by
  classical
  have h1 := Finset.card_eq_sum_card_fiberwise (f := root) (s := Finset.Ico 0 n) (t := Finset.Ico 0 n) (by
    intro x hx
    rw [Finset.mem_coe, Finset.mem_Ico] at hx ⊢
    exact h.rr x hx.1 hx.2)
  rw [Int.card_Ico] at h1
  have h2 : n = ∑ b ∈ Finset.Ico 0 n, (((Finset.Ico 0 n).filter (root · = b)).card : ℤ) := by
    rw [← Nat.cast_sum, ← h1]; omega
  have h3 : psum n (fun x => 0 ≤ x ∧ x < n ∧ 0 < ν x) ν + cnt n (fun i => ν i = 0 ∧ pe i = -1) ≤
      ∑ b ∈ Finset.Ico 0 n, (((Finset.Ico 0 n).filter (root · = b)).card : ℤ) := by
    unfold psum cnt
    rw [Finset.card_filter, Nat.cast_sum, ← Finset.sum_add_distrib]
    apply Finset.sum_le_sum
    intro x hx
    rw [Finset.mem_Ico] at hx
    by_cases hv : ν x = 0
    · have h4 : ¬ (0 ≤ x ∧ x < n ∧ 0 < ν x) := by rintro ⟨_, _, h⟩; omega
      rw [if_neg h4]
      by_cases hp : pe x = -1
      · rw [if_pos ⟨hv, hp⟩]
        have hr : root x = x := by
          rcases h.b x hx.1 hx.2 hv with a | a
          · exact a.2
          · omega
        have : 0 < ((Finset.Ico 0 n).filter (root · = x)).card := by
          apply Finset.card_pos.2
          exact ⟨x, by rw [Finset.mem_filter, Finset.mem_Ico]; exact ⟨hx, hr⟩⟩
        push_cast
        omega
      · rw [if_neg (fun h => hp h.2)]
        push_cast
        omega
    · have h4 : 0 ≤ x ∧ x < n ∧ 0 < ν x := ⟨hx.1, hx.2, by have := h.nn x hx.1 hx.2; omega⟩
      rw [if_pos h4, if_neg (fun h => hv h.1), h.cd x hx.1 hx.2 hv]
      push_cast
      omega
  omega

/-! ## The variables -/

/-- The state after the variables below `k`; `b` are the starts of the blocks, `S` their end. -/
structure PV (n : ℤ) (F : Sh) (root b : ℤ → ℤ) (S k nel : ℤ) (nx : ℤ → ℤ) : Prop where
  e : ∀ e, Nd n F e → nx e = b e + cnt k (fun i => F .nv i = 0 ∧ root i = e)
  v : ∀ i, 0 ≤ i → i < k → F .nv i = 0 → F .pe i ≠ -1 → b (root i) ≤ nx i ∧ nx i < nx (root i)
  d : ∀ i, 0 ≤ i → i < k → F .nv i = 0 → F .pe i = -1 → S ≤ nx i ∧ nx i < nel
  inj : ∀ i j, 0 ≤ i → i < k → 0 ≤ j → j < k → F .nv i = 0 → F .nv j = 0 → i ≠ j → nx i ≠ nx j
  nel : nel = S + cnt k (fun i => F .nv i = 0 ∧ F .pe i = -1)

theorem placeVars_spec {root b : ℤ → ℤ} {t : ℤ → ℕ} {S : ℤ} (hn : 0 ≤ n) (hR : Rm n Al L s F)
    (h : Fo n (F .pe) (F .nv) root t)
    (hp : ∀ x, 0 ≤ x → x < n → F .nv x = 0 → (F .pe x = -1 ∧ root x = x) ∨ (F .pe x = root x ∧ F .nv (root x) ≠ 0))
    (hb : ∀ e, Nd n F e → F .nx e = b e ∧ 0 ≤ b e ∧ b e + F .nv e ≤ S)
    (hd : ∀ e e', Nd n F e → Nd n F e' → e ≠ e' → b e + F .nv e ≤ b e' ∨ b e' + F .nv e' ≤ b e)
    (hS0 : 0 ≤ S) (hSn : S + cnt n (fun i => F .nv i = 0 ∧ F .pe i = -1) ≤ n) :
    wp (placeVars n S s) (fun y => ∃ F', Rm n Al L y.1 F' ∧ PV n F root b S n y.2 (F' .nx)) (fun _ => False) := by
  have hN : ∀ i, 0 ≤ i → i < n → F .nv i = 0 → F .pe i ≠ -1 → Nd n F (root i) ∧ F .pe i = root i := by
    intro i i0 i1 hi hpi
    rcases hp i i0 i1 hi with a | a
    · exact absurd a.1 hpi
    · have hr := h.rr i i0 i1
      exact ⟨⟨hr.1, hr.2, by have := h.nn _ hr.1 hr.2; omega⟩, a.1⟩
  have hcn : ∀ e, Nd n F e → ∀ k, k ≤ n → cnt k (fun i => F .nv i = 0 ∧ root i = e) ≤ F .nv e - 1 := by
    intro e he k hk
    rw [← cnt_sub h he.1 he.2.1 (by have := he.2.2; omega)]
    exact cnt_mono hk _
  have hbS : ∀ {k nel nx}, k ≤ n → PV n F root b S k nel nx → ∀ e, Nd n F e → b e ≤ nx e ∧ nx e + 1 ≤ b e + F .nv e := by
    intro k nel nx hk hP e he
    have h1 := hP.e e he
    have h2 := hcn e he k hk
    have h3 := cnt_nonneg k (fun i => F .nv i = 0 ∧ root i = e)
    omega
  unfold placeVars
  refine wp_mono (wp_forRange (fun k (y : Mem × ℤ) => ∃ F', Rm n Al L y.1 F' ∧ PV n F root b S k y.2 (F' .nx) ∧
    F' .pe = F .pe ∧ F' .nv = F .nv) hn ?_ ?_) ?_ (fun _ h => h)
  · refine ⟨F, hR, ?_, rfl, rfl⟩
    refine ⟨?_, fun i i0 i1 => by omega, fun i i0 i1 => by omega, fun i j i0 i1 => by omega, ?_⟩
    · intro e he; rw [cnt_zero, (hb e he).1]; ring
    · rw [cnt_zero]; ring
  · classical
    rintro i ⟨s1, nel⟩ i0 i1 ⟨F1, g, hP, epe, env⟩
    dsimp only at g hP ⊢
    rw [g.rdn .nv (by decide) i0 i1, ok_bind, env]
    by_cases hi : F .nv i = 0
    · rw [if_pos hi, g.rdn .pe (by decide) i0 i1, ok_bind, epe]
      have hNi : ¬ Nd n F i := fun h => by have := h.2.2; omega
      by_cases hpi : F .pe i ≠ -1
      · rw [if_pos hpi]
        obtain ⟨hNr, hpr⟩ := hN i i0 i1 hi hpi
        rw [hpr]
        generalize hgr : root i = r at *
        have hri : r ≠ i := fun h => hNi (h ▸ hNr)
        rw [g.rdn .nx (by decide) hNr.1 hNr.2.1, ok_bind]
        obtain ⟨s2, e2, g2⟩ := g.wrn .nx (by decide) i0 i1 (F1 .nx r)
        rw [e2, ok_bind, g2.rdn .nx (by decide) hNr.1 hNr.2.1, ok_bind, set_nei _ _ _ _ hri]
        have hbr := hbS (le_of_lt i1) hP r hNr
        have hbr2 := hb r hNr
        have hc0 := cnt_nonneg n (fun i => F .nv i = 0 ∧ F .pe i = -1)
        cks g
        obtain ⟨s3, e3, g3⟩ := g2.wrn .nx (by decide) hNr.1 hNr.2.1 (F1 .nx r + 1)
        rw [e3, ok_bind]
        have hx1 : ∀ x, x ≠ i → x ≠ r → set (set F1 .nx i (F1 .nx r)) .nx r (F1 .nx r + 1) .nx x = F1 .nx x :=
          fun x a b => by rw [set_nei _ _ _ _ b, set_nei _ _ _ _ a]
        have hx2 : set (set F1 .nx i (F1 .nx r)) .nx r (F1 .nx r + 1) .nx i = F1 .nx r := by
          rw [set_nei _ _ _ _ hri.symm, set_at]
        have hx3 : set (set F1 .nx i (F1 .nx r)) .nx r (F1 .nx r + 1) .nx r = F1 .nx r + 1 := set_at _ _ _ _
        refine wok ⟨_, g3, ?_, by rw [set_ne _ (by decide), set_ne _ (by decide), epe],
          by rw [set_ne _ (by decide), set_ne _ (by decide), env]⟩
        generalize hG : set (set F1 .nx i (F1 .nx r)) .nx r (F1 .nx r + 1) .nx = G at hx1 hx2 hx3
        show PV n F root b S (i + 1) nel G
        -- the others stay away from the new position
        have hoth : ∀ j, 0 ≤ j → j < i → F .nv j = 0 → F1 .nx j ≠ F1 .nx r ∧ j ≠ r := by
          intro j j0 j1 hj
          have hjr : j ≠ r := by rintro rfl; have := hNr.2.2; omega
          refine ⟨?_, hjr⟩
          by_cases hpj : F .pe j = -1
          · have h1 := hP.d j j0 j1 hj hpj
            have h2 := (hb r hNr).2.2
            omega
          · obtain ⟨hNj, _⟩ := hN j j0 (by omega) hj hpj
            have h1 := hP.v j j0 j1 hj hpj
            by_cases hre : root j = r
            · rw [hre] at h1; omega
            · have h2 := hbS (le_of_lt i1) hP _ hNj
              have h3 := hd _ _ hNj hNr hre
              omega
        refine ⟨?_, ?_, ?_, ?_, ?_⟩
        · intro e he
          rw [cnt_succ i0, hgr]
          by_cases her : e = r
          · subst her
            rw [hx3, hP.e _ he, if_pos ⟨hi, rfl⟩]; ring
          · rw [hx1 e (by rintro rfl; exact hNi he) her, hP.e e he, if_neg (fun h => her h.2.symm)]; ring
        · intro j j0 j1 hj hpj
          by_cases hji : j = i
          · subst hji
            rw [hgr, hx2, hx3]
            omega
          · have h1 := hP.v j j0 (by omega) hj hpj
            have h2 := hoth j j0 (by omega) hj
            obtain ⟨hNj, _⟩ := hN j j0 (by omega) hj hpj
            rw [hx1 j hji h2.2]
            by_cases hre : root j = r
            · rw [hre] at h1 ⊢; rw [hx3]; omega
            · rw [hx1 (root j) (by intro h; exact hNi (h ▸ hNj)) hre]; exact h1
        · intro j j0 j1 hj hpj
          have hji : j ≠ i := by rintro rfl; exact hpi hpj
          rw [hx1 j hji (hoth j j0 (by omega) hj).2]
          exact hP.d j j0 (by omega) hj hpj
        · intro j j' j0 j1 j0' j1' hj hj' hne
          by_cases hji : j = i
          · subst hji
            have hji' : j' ≠ j := fun h => hne h.symm
            have h2 := hoth j' j0' (by omega) hj'
            rw [hx2, hx1 j' hji' h2.2]; exact fun h => h2.1 h.symm
          · have h2 := hoth j j0 (by omega) hj
            rw [hx1 j hji h2.2]
            by_cases hji' : j' = i
            · subst hji'; rw [hx2]; exact h2.1
            · have h2' := hoth j' j0' (by omega) hj'
              rw [hx1 j' hji' h2'.2]; exact hP.inj j j' j0 (by omega) j0' (by omega) hj hj' hne
        · rw [cnt_succ i0, if_neg (fun h => hpi h.2), hP.nel]; ring
      · rw [if_neg hpi]
        push Not at hpi
        obtain ⟨s2, e2, g2⟩ := g.wrn .nx (by decide) i0 i1 nel
        rw [e2, ok_bind]
        have hk1 := hP.nel
        have hk2 := cnt_succ i0 (fun i => F .nv i = 0 ∧ F .pe i = -1)
        rw [if_pos ⟨hi, hpi⟩] at hk2
        have hk3 := cnt_mono (show i + 1 ≤ n by omega) (fun i => F .nv i = 0 ∧ F .pe i = -1)
        have hk4 := cnt_nonneg i (fun i => F .nv i = 0 ∧ F .pe i = -1)
        cks g
        have hx1 : ∀ x, x ≠ i → set F1 .nx i nel .nx x = F1 .nx x := fun x a => by rw [set_nei _ _ _ _ a]
        have hx2 : set F1 .nx i nel .nx i = nel := set_at _ _ _ _
        have hir : root i = i := by
          rcases hp i i0 i1 hi with a | a
          · exact a.2
          · have := (h.rr i i0 i1).1
            omega
        refine wpr ⟨_, g2, ?_, by rw [set_ne _ (by decide), epe], by rw [set_ne _ (by decide), env]⟩
        generalize hG : set F1 .nx i nel .nx = G at hx1 hx2
        show PV n F root b S (i + 1) (nel + 1) G
        have hnS : S ≤ nel := by
          have h1 := hP.nel
          have h2 := cnt_nonneg i (fun i => F .nv i = 0 ∧ F .pe i = -1)
          omega
        have hoth : ∀ j, 0 ≤ j → j < i → F .nv j = 0 → F1 .nx j < nel := by
          intro j j0 j1 hj
          by_cases hpj : F .pe j = -1
          · exact (hP.d j j0 j1 hj hpj).2
          · obtain ⟨hNj, _⟩ := hN j j0 (by omega) hj hpj
            have h1 := hP.v j j0 j1 hj hpj
            have h2 := hbS (le_of_lt i1) hP _ hNj
            have h3 := (hb _ hNj).2.2
            omega
        refine ⟨?_, ?_, ?_, ?_, ?_⟩
        · intro e he
          have hei : e ≠ i := by rintro rfl; exact hNi he
          rw [cnt_succ i0, hx1 e hei, hP.e e he, if_neg (by rw [hir]; exact fun h => hei h.2.symm)]; ring
        · intro j j0 j1 hj hpj
          have hji : j ≠ i := by rintro rfl; exact hpj hpi
          obtain ⟨hNj, _⟩ := hN j j0 (by omega) hj hpj
          rw [hx1 j hji, hx1 (root j) (by intro h; exact hNi (h ▸ hNj))]
          exact hP.v j j0 (by omega) hj hpj
        · intro j j0 j1 hj hpj
          by_cases hji : j = i
          · subst hji; rw [hx2]; omega
          · rw [hx1 j hji]
            have := hP.d j j0 (by omega) hj hpj
            omega
        · intro j j' j0 j1 j0' j1' hj hj' hne
          by_cases hji : j = i
          · subst hji
            have hji' : j' ≠ j := fun h => hne h.symm
            have h2 := hoth j' j0' (by omega) hj'
            rw [hx2, hx1 j' hji']; omega
          · rw [hx1 j hji]
            have h2 := hoth j j0 (by omega) hj
            by_cases hji' : j' = i
            · subst hji'; rw [hx2]; omega
            · rw [hx1 j' hji']; exact hP.inj j j' j0 (by omega) j0' (by omega) hj hj' hne
        · rw [cnt_succ i0, if_pos ⟨hi, hpi⟩, hP.nel]; ring
    · rw [if_neg hi]
      refine wpr ⟨F1, g, ?_, epe, env⟩
      show PV n F root b S (i + 1) nel (F1 .nx)
      refine ⟨?_, ?_, ?_, ?_, ?_⟩
      · intro e he
        rw [cnt_succ i0, if_neg (fun h => hi h.1), hP.e e he]; ring
      · intro j j0 j1 hj
        have hji : j ≠ i := by rintro rfl; exact hi hj
        exact hP.v j j0 (by omega) hj
      · intro j j0 j1 hj
        have hji : j ≠ i := by rintro rfl; exact hi hj
        exact hP.d j j0 (by omega) hj
      · intro j j' j0 j1 j0' j1' hj hj'
        have hji : j ≠ i := by rintro rfl; exact hi hj
        have hji' : j' ≠ i := by rintro rfl; exact hi hj'
        exact hP.inj j j' j0 (by omega) j0' (by omega) hj hj'
      · rw [cnt_succ i0, if_neg (fun h => hi h.1), hP.nel]; ring
  · rintro ⟨s1, nel⟩ ⟨F1, g, hP, _, _⟩
    exact ⟨F1, g, hP⟩

/-- All positions are different, and in range. -/
theorem PV.perm {root b : ℤ → ℤ} {t : ℤ → ℕ} {S nel : ℤ} {nx : ℤ → ℤ} (hn : 0 ≤ n)
    (h : Fo n (F .pe) (F .nv) root t)
    (hp : ∀ x, 0 ≤ x → x < n → F .nv x = 0 → (F .pe x = -1 ∧ root x = x) ∨ (F .pe x = root x ∧ F .nv (root x) ≠ 0))
    (hb : ∀ e, Nd n F e → 0 ≤ b e ∧ b e + F .nv e ≤ S)
    (hd : ∀ e e', Nd n F e → Nd n F e' → e ≠ e' → b e + F .nv e ≤ b e' ∨ b e' + F .nv e' ≤ b e)
    (hS : S = psum n (Nd n F) (F .nv)) (hP : PV n F root b S n nel nx) :
    (∀ x, 0 ≤ x → x < n → 0 ≤ nx x ∧ nx x < n) ∧
    ∀ x y, 0 ≤ x → x < n → 0 ≤ y → y < n → nx x = nx y → x = y := by
  have hS0 : 0 ≤ S := by
    rw [hS]; exact psum_nonneg fun x _ _ hx => hx.2.2.le
  have hnel : nel ≤ n := by
    rw [hP.nel, hS]; exact cnt_total hn h
  have hSn : S ≤ nel := by
    have h1 := hP.nel
    have h2 := cnt_nonneg n (fun i => F .nv i = 0 ∧ F .pe i = -1)
    omega
  have hE : ∀ e, Nd n F e → nx e = b e + F .nv e - 1 := by
    intro e he
    rw [hP.e e he, cnt_sub h he.1 he.2.1 (by have := he.2.2; omega)]; ring
  have hN : ∀ i, 0 ≤ i → i < n → F .nv i = 0 → F .pe i ≠ -1 → Nd n F (root i) := by
    intro i i0 i1 hi hpi
    rcases hp i i0 i1 hi with a | a
    · exact absurd a.1 hpi
    · have hr := h.rr i i0 i1
      exact ⟨hr.1, hr.2, by have := h.nn _ hr.1 hr.2; omega⟩
  have hNd : ∀ i, 0 ≤ i → i < n → F .nv i ≠ 0 → Nd n F i := fun i i0 i1 hi =>
    ⟨i0, i1, by have := h.nn i i0 i1; omega⟩
  -- a node or a variable lies in the block of its representative
  have hblk : ∀ i, 0 ≤ i → i < n → ¬ (F .nv i = 0 ∧ F .pe i = -1) →
      ∃ r, Nd n F r ∧ r = root i ∧ b r ≤ nx i ∧ nx i ≤ nx r ∧ (F .nv i = 0 → nx i < nx r) := by
    intro i i0 i1 hi
    by_cases hv : F .nv i = 0
    · have hpi : F .pe i ≠ -1 := fun h => hi ⟨hv, h⟩
      have := hP.v i i0 i1 hv hpi
      exact ⟨root i, hN i i0 i1 hv hpi, rfl, this.1, this.2.le, fun _ => this.2⟩
    · have hNi := hNd i i0 i1 hv
      have := hE i hNi
      have := hNi.2.2
      exact ⟨i, hNi, (h.a i i0 i1 hv).symm, by omega, le_rfl, fun h => absurd h hv⟩
  refine ⟨?_, ?_⟩
  · intro x x0 x1
    by_cases hx : F .nv x = 0 ∧ F .pe x = -1
    · have := hP.d x x0 x1 hx.1 hx.2; omega
    · obtain ⟨r, hr, _, h1, h2, _⟩ := hblk x x0 x1 hx
      have := hb r hr
      have := hE r hr
      omega
  · intro x y x0 x1 y0 y1 he
    by_contra hxy
    by_cases hvx : F .nv x = 0 <;> by_cases hvy : F .nv y = 0
    · exact hP.inj x y x0 x1 y0 y1 hvx hvy hxy he
    · have hNy := hNd y y0 y1 hvy
      have h1 := hE y hNy
      have h2 := hb y hNy
      have h3 := hNy.2.2
      by_cases hx : F .pe x = -1
      · have := hP.d x x0 x1 hvx hx; omega
      · obtain ⟨r, hr, _, h4, h5, h6⟩ := hblk x x0 x1 (fun h => hx h.2)
        have h7 := h6 hvx
        have h8 := hE r hr
        by_cases hry : r = y
        · subst hry; omega
        · have := hd r y hr hNy hry; omega
    · have hNx := hNd x x0 x1 hvx
      have h1 := hE x hNx
      have h2 := hb x hNx
      have h3 := hNx.2.2
      by_cases hy : F .pe y = -1
      · have := hP.d y y0 y1 hvy hy; omega
      · obtain ⟨r, hr, _, h4, h5, h6⟩ := hblk y y0 y1 (fun h => hy h.2)
        have h7 := h6 hvy
        have h8 := hE r hr
        by_cases hry : r = x
        · subst hry; omega
        · have := hd r x hr hNx hry; omega
    · have hNx := hNd x x0 x1 hvx
      have hNy := hNd y y0 y1 hvy
      have h1 := hE x hNx
      have h2 := hE y hNy
      have h3 := hNx.2.2
      have h4 := hNy.2.2
      have := hd x y hNx hNy hxy
      omega

theorem output_spec {N : ℕ} {s : Mem} {F : Sh} (hR : Rm (N : ℤ) Al L s F)
    (hr : ∀ x, 0 ≤ x → x < (N : ℤ) → 0 ≤ F .nx x ∧ F .nx x < N)
    (hi : ∀ x y, 0 ≤ x → x < (N : ℤ) → 0 ≤ y → y < (N : ℤ) → F .nx x = F .nx y → x = y) :
    wp (output N s) (fun s' => ∃ τ : Equiv.Perm (Fin N), Holds (s' .la) τ) (fun _ => False) := by
  unfold output
  refine wp_mono (wp_forRange (fun i (s' : Mem) => ∃ F', Rm (N : ℤ) Al L s' F' ∧ F' .nx = F .nx ∧
    ∀ x, 0 ≤ x → x < i → F' .la (F .nx x) = x) (by omega) ?_ ?_) ?_ (fun _ h => h)
  · exact ⟨F, hR, rfl, fun x x0 x1 => by omega⟩
  · rintro i s1 i0 i1 ⟨F1, g, e1, h1⟩
    rw [g.rdn .nx (by decide) i0 i1, ok_bind, e1]
    have hri := hr i i0 i1
    obtain ⟨s2, e2, g2⟩ := g.wrn .la (by decide) hri.1 hri.2 i
    rw [e2]
    refine wok ⟨_, g2, by rw [set_ne _ (by decide), e1], ?_⟩
    intro x x0 x1
    by_cases hx : x = i
    · subst hx; rw [set_at]
    · rw [set_nei _ _ _ _ (fun h => hx (hi x i x0 (by omega) i0 i1 h))]
      exact h1 x x0 (by omega)
  · rintro s' ⟨F', g', _, hp⟩
    let f : Fin N → Fin N := fun x => ⟨(F .nx x).toNat, by
      have := hr x (by omega) (by omega); omega⟩
    have hf : ∀ x : Fin N, ((f x : ℕ) : ℤ) = F .nx x := fun x => by
      have := hr x (by omega) (by omega)
      show (((F .nx x).toNat : ℕ) : ℤ) = _
      omega
    have hinj : Function.Injective f := by
      intro x y hxy
      have : F .nx x = F .nx y := by rw [← hf, ← hf, hxy]
      have := hi _ _ (by omega) (by omega) (by omega) (by omega) this
      exact Fin.ext (by omega)
    have hb : Function.Bijective f := Finite.injective_iff_bijective.1 hinj
    refine ⟨(Equiv.ofBijective f hb).symm, ?_⟩
    intro t
    obtain ⟨x, hx⟩ := hb.2 t
    have : (Equiv.ofBijective f hb).symm t = x := by
      rw [Equiv.symm_apply_eq]; exact hx.symm
    rw [this]
    have ht : ((t : ℕ) : ℤ) = F .nx x := by rw [← hx, hf]
    have hr' := hr x (by omega) (by omega)
    rw [ht, g'.val .la _ ⟨hr'.1, hr'.2⟩, hp x (by omega) (by omega)]

/-- Everything after the last pivot. -/
theorem finish_spec {N : ℕ} {nz : ℤ} {z : Ord} {F : Sh} (h : LI N nz Al z F) (hn : (N : ℤ) ≤ z.nel) :
    wp (finish N z.s) (fun s' => ∃ τ : Equiv.Perm (Fin N), Holds (s' .la) τ) (fun _ => False) := by
  have hN0 : (0 : ℤ) ≤ N := by omega
  obtain ⟨hpe, hel⟩ := h.done hn
  obtain ⟨root, t, ht⟩ := h.tr
  unfold finish
  have hpb : ∀ x, 0 ≤ x → x < (N : ℤ) → -(N : ℤ) - 2 ≤ F .pe x := by
    intro x x0 x1
    by_cases hv : F .nv x = 0
    · rcases ht.b x x0 x1 hv with ⟨a, b⟩ | ⟨p, a, p0, p1, _⟩
      · omega
      · rw [a]; unfold flip; omega
    · by_cases he : F .pe x = -1
      · omega
      · obtain ⟨p, a, p0, p1, _⟩ := ht.c x x0 x1 hv (by have := hpe x x0 x1; omega)
        rw [a]; unfold flip; omega
  have helb : ∀ x, 0 ≤ x → x < (N : ℤ) → F .el x < 0 := by
    intro x x0 x1
    by_cases hv : F .nv x = 0
    · have := (h.e1 x x0 x1).2 hv; omega
    · have := hel x x0 x1 hv; omega
  refine wb (wp_mono (unflip_spec h.rp hN0 fun x x0 x1 =>
    ⟨⟨hpb x x0 x1, by have := hpe x x0 x1; omega⟩, h.eb x x0 x1, by have := helb x x0 x1; omega⟩) ?_ (fun _ h => h))
  rintro s1 ⟨F1, g1, a1, b1⟩
  have env1 : F1 .nv = F .nv := b1 _ (by decide) (by decide)
  have fo1 : Fo N (F1 .pe) (F1 .nv) root t := by
    rw [env1]; exact ht.fo hpe fun x x0 x1 => (a1 x x0 x1).1
  refine wb (wp_mono (compressAll_spec g1 fo1 hN0) ?_ (fun _ h => h))
  rintro s2 ⟨F2, g2, fo2, b2, c2⟩
  have env2 : F2 .nv = F1 .nv := b2 _ (by decide)
  refine wb (wp_mono (postorder_spec g2 hN0 fo2 ?_) ?_ (fun _ h => h))
  · intro x x0 x1 hx
    rw [b2 _ (by decide), (a1 x x0 x1).2]
    have := hel x x0 x1 (by rw [← env1, ← env2]; exact hx)
    unfold flip; omega
  rintro s3 ⟨F3, O, g3, ond, om, w1, w2, epe3, env3⟩
  have hO : ∀ x ∈ O, 0 ≤ x ∧ x < (N : ℤ) := fun x hx => ⟨((om x).1 hx).1, ((om x).1 hx).2.1⟩
  refine wb (wp_mono (invOrder_spec g3 hN0 ond hO w1 w2) ?_ (fun _ h => h))
  rintro s4 ⟨F4, g4, h41, h42, epe4, env4⟩
  have hlen := length_lt ond hO
  obtain ⟨s5, S, F5, e5, g5, hB, epe5, env5⟩ := placeElems_spec ond hO O [] ((N : ℤ).toNat + 1) 0 0 s4 F4 g4
    (by intro x hx; rw [env4, env3]; exact ((om x).1 hx).2.2.le) h41 h42 rfl rfl
    ⟨by simp, by simp, by simp⟩ (by omega) (by
      rw [env4, env3, psum_list ond hO]
      refine le_trans (le_of_eq (psum_congr (O' := fun x => 0 ≤ x ∧ x < (N : ℤ) ∧ 0 < F2 .nv x) (fun x _ _ => om x)
        (fun _ _ _ _ => rfl))) ?_
      have := cnt_total hN0 fo2
      have := cnt_nonneg N (fun i => F2 .nv i = 0 ∧ F2 .pe i = -1)
      omega)
  rw [e5, ok_bind]
  dsimp only
  have epe : F5 .pe = F2 .pe := by rw [epe5, epe4, epe3]
  have env : F5 .nv = F2 .nv := by rw [env5, env4, env3]
  have fo5 : Fo N (F5 .pe) (F5 .nv) root t := by rw [epe, env]; exact fo2
  have hNO : ∀ e, Nd N F5 e ↔ e ∈ O := by
    intro e; rw [om e]; unfold Nd; rw [env]
  have hp5 : ∀ x, 0 ≤ x → x < (N : ℤ) → F5 .nv x = 0 →
      (F5 .pe x = -1 ∧ root x = x) ∨ (F5 .pe x = root x ∧ F5 .nv (root x) ≠ 0) := by
    rw [epe, env, env2]; exact c2
  have hd5 : ∀ e e', Nd N F5 e → Nd N F5 e' → e ≠ e' →
      F5 .nx e + F5 .nv e ≤ F5 .nx e' ∨ F5 .nx e' + F5 .nv e' ≤ F5 .nx e :=
    fun e e' he he' => hB.d e ((hNO e).1 he) e' ((hNO e').1 he')
  have hS : S = psum N (Nd N F5) (F5 .nv) := by
    rw [hB.sum, psum_list ond hO]
    exact psum_congr (fun x _ _ => (hNO x).symm) (fun _ _ _ _ => rfl)
  refine wb (wp_mono (placeVars_spec (b := F5 .nx) (S := S) hN0 g5 fo5 hp5
    (fun e he => ⟨rfl, hB.b e ((hNO e).1 he)⟩) hd5
    (by rw [hS]; exact psum_nonneg fun x _ _ hx => hx.2.2.le) (by rw [hS]; exact cnt_total hN0 fo5)) ?_ (fun _ h => h))
  rintro ⟨s6, nel⟩ ⟨F6, g6, hP⟩
  obtain ⟨q1, q2⟩ := hP.perm hN0 fo5 hp5 (fun e he => hB.b e ((hNO e).1 he)) hd5 hS
  exact output_spec g6 q1 q2

end Slip.Amd
