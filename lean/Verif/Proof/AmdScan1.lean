import Verif.Proof.AmdBuild3

/-!
# AMD: the flags, scan 1
-/

namespace Slip.Amd

open Slip.Colamd (seg mem_seg seg_congr seg_succ length_seg seg_zero wp_seg wp_list csum seg_ext)

variable [Arith]

variable {n Al L : ℤ} {s : Mem} {F F0 : Sh} {nz : ℤ} {P : List ℤ} {pme1 pfree : ℤ}

theorem clear_flag_spec {wflg wbig : ℤ} (hR : Rm n Al L s F) (hn : 0 ≤ n)
    (h : ∀ x, 0 ≤ x → x < n → 0 ≤ F .w x ∧ (2 ≤ wflg → F .w x < wflg)) :
    wp (clear_flag wflg wbig n s) (fun y => ∃ F', Rm n Al L y.1 F' ∧ (2 ≤ y.2 ∧ (y.2 = 2 ∨ y.2 < wbig)) ∧
      (∀ f, f ≠ .w → F' f = F f) ∧
      ∀ x, 0 ≤ x → x < n → 0 ≤ F' .w x ∧ F' .w x < y.2 ∧ (F' .w x = 0 ↔ F .w x = 0)) (fun _ => False) := by
  unfold clear_flag
  by_cases hc : wflg < 2 ∨ wflg ≥ wbig
  · rw [if_pos hc]
    refine wb (wp_post (wp_forRange (fun k (s : Mem) => ∃ F', Rm n Al L s F' ∧
      (∀ f, f ≠ .w → F' f = F f) ∧ (∀ x, k ≤ x → F' .w x = F .w x) ∧
      ∀ x, 0 ≤ x → x < k → F' .w x = if F .w x = 0 then 0 else 1) hn ?_ ?_) ?_)
    · exact ⟨F, hR, fun _ _ => rfl, fun _ _ => rfl, fun x a b => by omega⟩
    · rintro k s1 k0 k1 ⟨F1, hR1, h1, h2, h3⟩
      rw [hR1.rdn .w (by decide) k0 k1, ok_bind, h2 k le_rfl]
      by_cases hw : F .w k ≠ 0
      · rw [if_pos hw]
        obtain ⟨s2, e2, g2⟩ := hR1.wrn .w (by decide) k0 k1 1
        rw [e2]
        refine wok ⟨_, g2, fun f hf => by rw [set_ne _ hf]; exact h1 f hf, fun x hx => ?_, fun x a b => ?_⟩
        · rw [set_nei _ _ _ _ (by omega)]; exact h2 x (by omega)
        · by_cases hx : x = k
          · rw [hx, set_at, if_neg hw]
          · rw [set_nei _ _ _ _ hx]; exact h3 x a (by omega)
      · rw [if_neg hw]
        push Not at hw
        refine wpr ⟨F1, hR1, h1, fun x hx => h2 x (by omega), fun x a b => ?_⟩
        by_cases hx : x = k
        · rw [hx, h2 k le_rfl, hw]; simp
        · exact h3 x a (by omega)
    · rintro s1 ⟨F1, hR1, h1, _, h3⟩
      refine wpr ⟨F1, hR1, ⟨le_rfl, Or.inl rfl⟩, h1, fun x a b => ?_⟩
      rw [h3 x a b]
      have := h x a b
      by_cases hx : F .w x = 0 <;> simp [hx]
  · rw [if_neg hc]
    push Not at hc
    exact wpr ⟨F, hR, ⟨hc.1, Or.inr hc.2⟩, fun _ _ => rfl, fun x a b => ⟨(h x a b).1, (h x a b).2 hc.1, Iff.rfl⟩⟩

/-- The arithmetic does not fail on the flags. -/
def WFit (n wflg : ℤ) : Prop := ∀ v : ℤ, -n ≤ v → v ≤ wflg + n → ck v = .ok v

theorem WFit.of (hR : Rm n Al L s F) (hn : 0 ≤ n) {wflg : ℤ}
    (h : wflg = 2 ∨ wflg < 9223372036854775807 - n) : WFit n wflg := by
  intro v h0 h1
  by_cases hv : v ≤ 4 * (n + Al) + 8589934592
  · exact hR.ck (by intros; omega)
  · have := hR.fit.al
    exact hR.fit.fl v (by omega) (by omega)

/-- The weight of the variables in the list whose element list has `x`. -/
def acc (X : ℤ → List ℤ) (ν : ℤ → ℤ) (P : List ℤ) (x : ℤ) : ℤ := ((P.filter (x ∈ X ·)).map ν).sum

@[simp] theorem acc_nil (X : ℤ → List ℤ) (ν : ℤ → ℤ) (x : ℤ) : acc X ν [] x = 0 := by simp [acc]

theorem acc_append (X : ℤ → List ℤ) (ν : ℤ → ℤ) (P Q : List ℤ) (x : ℤ) :
    acc X ν (P ++ Q) x = acc X ν P x + acc X ν Q x := by simp [acc]

theorem acc_one (X : ℤ → List ℤ) (ν : ℤ → ℤ) (i x : ℤ) :
    acc X ν [i] x = if x ∈ X i then ν i else 0 := by
  unfold acc
  by_cases h : x ∈ X i <;> simp [h]

theorem acc_nonneg (X : ℤ → List ℤ) {ν : ℤ → ℤ} {P : List ℤ} (h : ∀ i ∈ P, 0 < ν i) (x : ℤ) :
    0 ≤ acc X ν P x := by
  unfold acc
  apply List.sum_nonneg
  intro y hy
  rw [List.mem_map] at hy
  obtain ⟨i, hi, rfl⟩ := hy
  exact (h i (List.mem_of_mem_filter hi)).le

theorem acc_pos (X : ℤ → List ℤ) {ν : ℤ → ℤ} {P : List ℤ} (h : ∀ i ∈ P, 0 < ν i) {x i : ℤ} (hi : i ∈ P)
    (hx : x ∈ X i) : 0 < acc X ν P x := by
  obtain ⟨a, b, rfl⟩ := List.append_of_mem hi
  rw [show a ++ i :: b = a ++ ([i] ++ b) by simp, acc_append, acc_append, acc_one, if_pos hx]
  have := acc_nonneg X (P := a) (fun j hj => h j (by simp [hj])) x
  have := acc_nonneg X (P := b) (fun j hj => h j (by simp [hj])) x
  have := h i (by simp)
  omega

theorem acc_psum {X : ℤ → List ℤ} {ν : ℤ → ℤ} {P : List ℤ} (hnd : P.Nodup)
    (hb : ∀ c ∈ P, 0 ≤ c ∧ c < n) (x : ℤ) :
    acc X ν P x = psum n (fun i => i ∈ P ∧ x ∈ X i) ν := by
  unfold acc
  rw [psum_list (hnd.filter _) (fun c hc => hb c (List.mem_of_mem_filter hc))]
  exact psum_congr (fun i _ _ => by simp) fun _ _ _ _ => rfl

/-- The flags after scan 1 of the variables with accumulated weights `c`. -/
def wv (F : Sh) (wflg : ℤ) (t : ℤ → Prop) [DecidablePred t] (c : ℤ → ℤ) (x : ℤ) : ℤ :=
  if F .w x ≠ 0 ∧ t x then wflg + F .dg x - c x else F .w x

theorem scan1_spec {wflg : ℤ} (hR : Rm n Al L s F) (hP : seg (F .iw) pme1 P.length = P)
    (hp0 : 0 ≤ pme1) (hp1 : pme1 + P.length ≤ L)
    (hPr : ∀ i ∈ P, 0 ≤ i ∧ i < n ∧ 0 < -F .nv i ∧ 0 ≤ F .el i ∧ 0 ≤ F .pe i ∧ F .pe i + F .el i ≤ L)
    (hX : ∀ i ∈ P, (elL F i).Nodup ∧ ∀ e ∈ elL F i, 0 ≤ e ∧ e < n)
    (hdg : ∀ i ∈ P, ∀ e ∈ elL F i, F .w e ≠ 0 → acc (elL F) (fun j => -F .nv j) P e ≤ F .dg e)
    (hw : ∀ x, 0 ≤ x → x < n → 0 ≤ F .w x ∧ F .w x < wflg) (hw2 : 2 ≤ wflg)
    (hwf : WFit n wflg) (hnn : ∀ i ∈ P, -F .nv i ≤ n) (hdn : ∀ i ∈ P, ∀ e ∈ elL F i, F .w e ≠ 0 → F .dg e ≤ n) :
    wp (scan1 wflg pme1 (pme1 + P.length - 1) s)
      (fun s' => ∃ F', Rm n Al L s' F' ∧ (∀ f, f ≠ .w → F' f = F f) ∧
        F' .w = wv F wflg (fun x => ∃ i ∈ P, x ∈ elL F i) (acc (elL F) (fun j => -F .nv j) P))
      (fun _ => False) := by
  unfold scan1
  rw [show pme1 + (P.length : ℤ) - 1 + 1 = pme1 + P.length by ring]
  set ν : ℤ → ℤ := fun j => -F .nv j with hν
  have hνp : ∀ i ∈ P, 0 < ν i := fun i hi => (hPr i hi).2.2.1
  refine wp_post (wp_list P (fun pre (s : Mem) => ∃ F', Rm n Al L s F' ∧ (∀ f, f ≠ .w → F' f = F f) ∧
    F' .w = wv F wflg (fun x => ∃ i ∈ pre, x ∈ elL F i) (acc (elL F) ν pre)) ?_ ?_) fun s h => h
  · refine ⟨F, hR, fun _ _ => rfl, ?_⟩
    funext x
    simp [wv]
  · rintro pre i post s1 hpre ⟨F1, hR1, ho1, hw1⟩
    have hi : i ∈ P := by rw [hpre]; simp
    obtain ⟨i0, i1, i2, i3, i4, i5⟩ := hPr i hi
    have hlen : pre.length < P.length := by rw [hpre]; simp
    have hrd : F1 .iw (pme1 + pre.length) = i := by
      rw [ho1 .iw (by decide)]
      have := Slip.Colamd.seg_getElem (hP.trans hpre)
      exact this.1
    rw [hR1.rdi (by omega) (by omega), ok_bind, hrd, hR1.rdn .el (by decide) i0 i1, ok_bind,
      ho1 .el (by decide)]
    have hfin : ∀ F' : Sh, F' .w = wv F wflg (fun x => (∃ j ∈ pre, x ∈ elL F j) ∨ x ∈ elL F i)
          (fun x => acc (elL F) ν pre x + if x ∈ elL F i then ν i else 0) →
        F' .w = wv F wflg (fun x => ∃ j ∈ pre ++ [i], x ∈ elL F j) (acc (elL F) ν (pre ++ [i])) := by
      intro F' h
      rw [h]
      funext x
      unfold wv
      rw [acc_append, acc_one]
      have : ((∃ j ∈ pre, x ∈ elL F j) ∨ x ∈ elL F i) ↔ ∃ j ∈ pre ++ [i], x ∈ elL F j := by
        constructor
        · rintro (⟨j, h1, h2⟩ | h)
          · exact ⟨j, by simp [h1], h2⟩
          · exact ⟨i, by simp, h⟩
        · rintro ⟨j, h1, h2⟩
          rw [List.mem_append, List.mem_singleton] at h1
          rcases h1 with h1 | rfl
          · exact Or.inl ⟨j, h1, h2⟩
          · exact Or.inr h2
      simp only [this]
    by_cases hel : F .el i > 0
    · have hnni := hnn i hi
      rw [if_pos hel, hR1.rdn .nv (by decide) i0 i1, ok_bind, ho1 .nv (by decide)]
      cks hR1
      rw [hR1.rdn .pe (by decide) i0 i1, ok_bind, ho1 .pe (by decide)]
      unfold scan1Elems
      rw [hwf _ (by omega) (by omega), ok_bind]
      cks hR1
      obtain ⟨hnd, her⟩ := hX i hi
      refine wp_post (wp_seg (A := F .iw) i3 (fun pre' (s : Mem) => ∃ F', Rm n Al L s F' ∧
        (∀ f, f ≠ .w → F' f = F f) ∧
        F' .w = wv F wflg (fun x => (∃ j ∈ pre, x ∈ elL F j) ∨ x ∈ pre')
          (fun x => acc (elL F) ν pre x + if x ∈ pre' then ν i else 0)) ?_ ?_) ?_
      · refine ⟨F1, hR1, ho1, ?_⟩
        rw [hw1]
        funext x
        simp [wv]
      · rintro pre' e post' s2 hpre' hev hlt ⟨F2, hR2, ho2, hw2'⟩
        have hee : e ∈ elL F i := by unfold elL; rw [hpre']; simp
        have hen : e ∉ pre' := by
          have : (elL F i).Nodup := hnd
          unfold elL at this
          rw [hpre'] at this
          exact fun h => List.disjoint_of_nodup_append this h (by simp)
        obtain ⟨e0, e1⟩ := her e hee
        rw [hR2.rdi (by omega) (by omega), ok_bind, ho2 .iw (by decide), hev,
          hR2.rdn .w (by decide) e0 e1, ok_bind, hw2']
        have hwe := hw e e0 e1
        have hupd : ∀ v, v = wv F wflg (fun x => (∃ j ∈ pre, x ∈ elL F j) ∨ x ∈ pre' ++ [e])
            (fun x => acc (elL F) ν pre x + if x ∈ pre' ++ [e] then ν i else 0) e →
            wp (s2.wr .w e v) (fun s' => ∃ F', Rm n Al L s' F' ∧ (∀ f, f ≠ .w → F' f = F f) ∧
              F' .w = wv F wflg (fun x => (∃ j ∈ pre, x ∈ elL F j) ∨ x ∈ pre' ++ [e])
                (fun x => acc (elL F) ν pre x + if x ∈ pre' ++ [e] then ν i else 0)) (fun _ => False) := by
          intro v hv
          obtain ⟨s3, e3, g3⟩ := hR2.wrn .w (by decide) e0 e1 v
          rw [e3]
          refine wok ⟨_, g3, fun f hf => by rw [set_ne _ hf]; exact ho2 f hf, ?_⟩
          funext x
          by_cases hx : x = e
          · rw [hx, set_at]; exact hv
          · rw [set_nei _ _ _ _ hx, hw2']
            unfold wv
            simp [hx]
        by_cases hz : F .w e = 0
        · -- dead
          have hval : wv F wflg (fun x => (∃ j ∈ pre, x ∈ elL F j) ∨ x ∈ pre')
              (fun x => acc (elL F) ν pre x + if x ∈ pre' then ν i else 0) e = 0 := by
            unfold wv; rw [if_neg (by simp [hz])]; exact hz
          rw [hval, if_neg (by omega), if_neg (by simp)]
          apply hupd
          unfold wv; rw [if_neg (by simp [hz]), hz]
        · by_cases ht : ∃ j ∈ pre, e ∈ elL F j
          · have hval : wv F wflg (fun x => (∃ j ∈ pre, x ∈ elL F j) ∨ x ∈ pre')
                (fun x => acc (elL F) ν pre x + if x ∈ pre' then ν i else 0) e =
                wflg + F .dg e - acc (elL F) ν pre e := by
              unfold wv; rw [if_pos ⟨hz, Or.inl ht⟩]; simp only [if_neg hen, add_zero]
            have hb := hdg i hi e hee hz
            have : acc (elL F) ν P e = acc (elL F) ν pre e + (ν i + acc (elL F) ν post e) := by
              rw [hpre, show pre ++ i :: post = pre ++ ([i] ++ post) by simp, acc_append, acc_append, acc_one,
                if_pos hee]
            have := acc_nonneg (elL F) (P := post) (fun j hj => hνp j (by rw [hpre]; simp [hj])) e
            have := hνp i hi
            have hdne := hdn i hi e hee hz
            have hνi : ν i = -F .nv i := rfl
            have := acc_nonneg (elL F) (P := pre) (fun j hj => hνp j (by rw [hpre]; simp [hj])) e
            rw [hval, if_pos (by omega), hwf _ (by omega) (by omega), ok_bind]
            apply hupd
            unfold wv
            rw [if_pos ⟨hz, Or.inl ht⟩]
            have he : e ∈ pre' ++ [e] := by simp
            simp only [hν, if_pos he]; ring
          · have hval : wv F wflg (fun x => (∃ j ∈ pre, x ∈ elL F j) ∨ x ∈ pre')
                (fun x => acc (elL F) ν pre x + if x ∈ pre' then ν i else 0) e = F .w e := by
              unfold wv; rw [if_neg]; rintro ⟨_, h | h⟩; exact ht h; exact hen h
            have hacc : acc (elL F) ν pre e = 0 := by
              unfold acc
              rw [List.filter_eq_nil_iff.2]
              · simp
              · intro j hj; simp only [decide_eq_true_eq]; exact fun h => ht ⟨j, hj, h⟩
            rw [hval, if_neg (by omega), if_pos hz, hR2.rdn .dg (by decide) e0 e1, ok_bind, ho2 .dg (by decide)]
            have hdne := hdn i hi e hee hz
            have hb := hdg i hi e hee hz
            have hνi : ν i = -F .nv i := rfl
            have := acc_pos (elL F) hνp hi hee
            rw [hwf _ (by omega) (by omega), ok_bind]
            apply hupd
            unfold wv
            have he : e ∈ pre' ++ [e] := by simp
            rw [if_pos ⟨hz, Or.inr he⟩]
            simp only [hacc, if_pos he]
            simp only [hν]; ring
      · rintro s2 ⟨F2, hR2, ho2, hw2'⟩
        exact ⟨F2, hR2, ho2, hfin F2 hw2'⟩
    · rw [if_neg hel]
      refine wpr ⟨F1, hR1, ho1, hfin F1 ?_⟩
      have : elL F i = [] := by
        unfold elL; rw [show F .el i = 0 by omega, seg_zero]
      rw [hw1, this]
      funext x
      simp [wv]

end Slip.Amd
