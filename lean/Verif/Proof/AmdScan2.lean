import Verif.Proof.AmdScan1
import Verif.Proof.AmdHash

/-!
# AMD: scan 2, one variable
-/

namespace Slip.Amd

open Slip.Colamd (seg mem_seg seg_congr seg_succ length_seg seg_zero wp_seg wp_list csum seg_ext)

variable [Arith]

variable {n Al L : ℤ} {s : Mem} {F : Sh}

/-- The element `e` is absorbed by aggressive absorption. -/
def ab (agg : Bool) (F : Sh) (wflg e : ℤ) : Prop := F .w e ≠ 0 ∧ agg = true ∧ F .w e ≤ wflg

instance (agg : Bool) (F : Sh) (wflg e : ℤ) : Decidable (ab agg F wflg e) := by unfold ab; infer_instance

/-- The element `e` stays. -/
def kp (agg : Bool) (F : Sh) (wflg e : ℤ) : Prop := F .w e ≠ 0 ∧ ¬ (agg = true ∧ F .w e ≤ wflg)

instance (agg : Bool) (F : Sh) (wflg e : ℤ) : Decidable (kp agg F wflg e) := by unfold kp; infer_instance

theorem kp_iff {agg : Bool} {wflg e : ℤ} : kp agg F wflg e ↔ F .w e ≠ 0 ∧ ¬ ab agg F wflg e := by
  unfold kp ab
  constructor
  · rintro ⟨a, b⟩; exact ⟨a, fun h => b h.2⟩
  · rintro ⟨a, b⟩; exact ⟨a, fun h => b ⟨a, h⟩⟩

/-- Appending to a compressed list. -/
theorem seg_app {A : ℤ → ℤ} {p q v : ℤ} {k : List ℤ} (h : seg A p k.length = k) (hq : q = p + k.length) :
    seg (Function.update A q v) p (k ++ [v]).length = k ++ [v] := by
  rw [List.length_append, List.length_singleton]
  push_cast
  rw [seg_succ _ (by omega), ← hq, Function.update_self]
  congr 1
  conv_rhs => rw [← h]
  apply seg_congr
  intro i _ hi
  rw [Function.update_of_ne (by omega)]

theorem scan2Elems_spec {agg : Bool} {me wflg p1 eln : ℤ} (hR : Rm n Al L s F) (h0 : 0 ≤ p1)
    (hl : 0 ≤ eln) (h1 : p1 + eln ≤ L)
    (hI : ∀ p, 0 ≤ p → p < L → 0 ≤ F .iw p ∧ F .iw p < n) (hnd : (seg (F .iw) p1 eln).Nodup)
    (hw : ∀ e ∈ seg (F .iw) p1 eln, F .w e ≠ 0 → wflg ≤ F .w e)
    (hwn : ∀ e ∈ seg (F .iw) p1 eln, F .w e ≠ 0 → F .w e ≤ wflg + n) (hm : 0 ≤ me ∧ me < n) :
    wp (scan2Elems agg me wflg p1 (p1 + eln - 1) s)
      (fun y => ∃ F' k, Rm n Al L y.1 F' ∧ k = (seg (F .iw) p1 eln).filter (kp agg F wflg ·) ∧
        y.2.1 = p1 + k.length ∧ seg (F' .iw) p1 k.length = k ∧
        (∀ p, p < p1 ∨ p1 + eln ≤ p → F' .iw p = F .iw p) ∧ 0 ≤ y.2.2.1 ∧ 0 ≤ y.2.2.2 ∧
        (∀ x, F' .pe x = if x ∈ seg (F .iw) p1 eln ∧ ab agg F wflg x then flip me else F .pe x) ∧
        (∀ x, F' .w x = if x ∈ seg (F .iw) p1 eln ∧ ab agg F wflg x then 0 else F .w x) ∧
        (∀ f, f ≠ .iw → f ≠ .pe → f ≠ .w → F' f = F f) ∧
        (∀ p, 0 ≤ p → p < L → 0 ≤ F' .iw p ∧ F' .iw p < n) ∧ y.2.2.1 ≤ n * n)
      (fun _ => False) := by
  have hX : ∀ e ∈ seg (F .iw) p1 eln, 0 ≤ e ∧ e < n := by
    intro e he
    obtain ⟨p, a, b, rfl⟩ := mem_seg.1 he
    exact hI p (by omega) (by omega)
  have hXl := length_lt hnd hX
  unfold scan2Elems
  rw [show p1 + eln - 1 + 1 = p1 + eln by ring]
  refine wp_post (wp_seg (A := F .iw) hl (fun pre (y : Mem × ℤ × ℤ × ℤ) =>
    ∃ F' k, Rm n Al L y.1 F' ∧ k = pre.filter (kp agg F wflg ·) ∧
        y.2.1 = p1 + k.length ∧ seg (F' .iw) p1 k.length = k ∧
        (∀ p, p < p1 ∨ p1 + pre.length ≤ p → F' .iw p = F .iw p) ∧ 0 ≤ y.2.2.1 ∧ 0 ≤ y.2.2.2 ∧
        (∀ x, F' .pe x = if x ∈ pre ∧ ab agg F wflg x then flip me else F .pe x) ∧
        (∀ x, F' .w x = if x ∈ pre ∧ ab agg F wflg x then 0 else F .w x) ∧
        (∀ f, f ≠ .iw → f ≠ .pe → f ≠ .w → F' f = F f) ∧
        (∀ p, 0 ≤ p → p < L → 0 ≤ F' .iw p ∧ F' .iw p < n) ∧ y.2.2.1 ≤ n * pre.length) ?_ ?_) ?_
  · exact ⟨F, [], hR, by simp, by simp, by simp, fun _ _ => rfl, le_rfl, le_rfl, by simp, by simp,
      fun _ _ _ _ => rfl, hI, by simp⟩
  · rintro pre e post ⟨s1, pn, deg, hash⟩ hpre hev hlt ⟨F1, k, hR1, hk, hpn, hsk, hiw, hdeg, hhash, hpe, hw1, ho, hI1, hdn⟩
    dsimp only at hR1 hpn hdeg hhash hdn ⊢
    have hee : e ∈ seg (F .iw) p1 eln := by rw [hpre]; simp
    have hpl : ((pre ++ [e]).length : ℤ) = pre.length + 1 := by simp
    have hpn1 : (pre.length : ℤ) + 1 ≤ n := by
      have := congrArg List.length hpre
      simp only [List.length_append, List.length_cons] at this
      omega
    have hmn : n * ((pre.length : ℤ) + 1) ≤ n * n := by nlinarith
    have hmn2 : n * ((pre.length : ℤ) + 1) = n * pre.length + n := by ring
    have hen : e ∉ pre := by
      rw [hpre] at hnd
      exact fun h => List.disjoint_of_nodup_append hnd h (by simp)
    obtain ⟨e0, e1⟩ := hX e hee
    have hkl : k.length ≤ pre.length := by rw [hk]; exact List.length_filter_le _ _
    have hwe : F1 .w e = F .w e := by rw [hw1, if_neg fun h => hen h.1]
    rw [hR1.rdi (by omega) (by omega), ok_bind, hiw _ (Or.inr le_rfl), hev,
      hR1.rdn .w (by decide) e0 e1, ok_bind, hwe]
    by_cases hz : F .w e ≠ 0
    · rw [if_pos hz]
      have hwf := hw e hee hz
      have hwn1 := hwn e hee hz
      cks hR1
      by_cases ha : agg = true ∧ F .w e ≤ wflg
      · have : (agg && decide (¬ F .w e - wflg > 0)) = true := by
          simp only [Bool.and_eq_true, decide_eq_true_eq]
          exact ⟨ha.1, by omega⟩
        rw [if_pos this]
        cks hR1
        obtain ⟨s2, q2, g2⟩ := hR1.wrn .pe (by decide) e0 e1 (flip me)
        rw [q2, ok_bind]
        obtain ⟨s3, q3, g3⟩ := g2.wrn .w (by decide) e0 e1 0
        rw [q3, ok_bind]
        have hab : ab agg F wflg e := ⟨hz, ha⟩
        have hnk : ¬ kp agg F wflg e := fun h => h.2 ha
        have hiw3 : set (set F1 .pe e (flip me)) .w e 0 .iw = F1 .iw := by
          rw [set_ne _ (by decide), set_ne _ (by decide)]
        refine wpr ⟨_, k, g3, ?_, hpn, ?_, ?_, hdeg, hhash, ?_, ?_, ?_, by rw [hiw3]; exact hI1, by rw [hpl, hmn2]; dsimp only; omega⟩
        · rw [List.filter_append, ← hk]; simp [hnk]
        · rw [hiw3]; exact hsk
        · intro p hp
          rw [hiw3]
          simp only [List.length_append, List.length_singleton] at hp
          push_cast at hp
          exact hiw p (by omega)
        · intro x
          by_cases hx : x = e
          · rw [hx, set_ne _ (by decide), set_at, if_pos ⟨by simp, hab⟩]
          · rw [set_nei _ _ _ _ hx, set_nei _ _ _ _ hx, hpe]; simp [hx]
        · intro x
          by_cases hx : x = e
          · rw [hx, set_at, if_pos ⟨by simp, hab⟩]
          · rw [set_nei _ _ _ _ hx, set_nei _ _ _ _ hx, hw1]; simp [hx]
        · intro f a b c
          rw [set_ne _ c, set_ne _ b]; exact ho f a b c
      · have : ¬ (agg && decide (¬ F .w e - wflg > 0)) = true := by
          simp only [Bool.and_eq_true, decide_eq_true_eq]
          rintro ⟨a, b⟩
          exact ha ⟨a, by omega⟩
        rw [if_neg this]
        have hal := hR1.fit.al
        rw [hR1.fit.sq _ (by omega) (by omega), ok_bind]
        obtain ⟨s2, q2, g2⟩ := hR1.wri (i := pn) (by omega) (by omega) e
        rw [q2, ok_bind]
        cks hR1
        have hkp : kp agg F wflg e := ⟨hz, ha⟩
        have hnab : ¬ ab agg F wflg e := fun h => ha h.2
        have hlk : ((k ++ [e]).length : ℤ) = k.length + 1 := by simp
        refine wpr ⟨_, k ++ [e], g2, ?_, ?_, ?_, ?_, ?_, ?_, ?_, ?_, ?_, by
          intro p a b
          by_cases hp : p = pn
          · rw [hp, set_at]; exact ⟨e0, e1⟩
          · rw [set_nei _ _ _ _ hp]; exact hI1 p a b, by rw [hpl, hmn2]; dsimp only; omega⟩
        · rw [List.filter_append, ← hk]; simp [hkp]
        · show pn + 1 = _; omega
        · rw [set_same]; exact seg_app hsk hpn
        · intro p hp
          simp only [List.length_append, List.length_singleton] at hp
          push_cast at hp
          rw [set_nei _ _ _ _ (by omega)]
          exact hiw p (by omega)
        · show 0 ≤ deg + (F .w e - wflg); omega
        · show 0 ≤ (hash + e) % 18446744073709551616; omega
        · intro x
          rw [set_ne _ (by decide), hpe]
          by_cases hx : x = e
          · rw [hx, if_neg fun h => hen h.1, if_neg fun h => hnab h.2]
          · simp [hx]
        · intro x
          rw [set_ne _ (by decide), hw1]
          by_cases hx : x = e
          · rw [hx, if_neg fun h => hen h.1, if_neg fun h => hnab h.2]
          · simp [hx]
        · intro f a b c
          rw [set_ne _ a]; exact ho f a b c
    · rw [if_neg hz]
      push Not at hz
      have hnk : ¬ kp agg F wflg e := fun h => h.1 hz
      have hnab : ¬ ab agg F wflg e := fun h => h.1 hz
      refine wpr ⟨F1, k, hR1, ?_, hpn, hsk, ?_, hdeg, hhash, ?_, ?_, ho, hI1, by rw [hpl, hmn2]; dsimp only; omega⟩
      · rw [List.filter_append, ← hk]; simp [hnk]
      · intro p hp
        simp only [List.length_append, List.length_singleton] at hp
        push_cast at hp
        exact hiw p (by omega)
      · intro x
        rw [hpe]
        by_cases hx : x = e
        · rw [hx, if_neg fun h => hen h.1, if_neg fun h => hnab h.2]
        · simp [hx]
      · intro x
        rw [hw1]
        by_cases hx : x = e
        · rw [hx, if_neg fun h => hen h.1, if_neg fun h => hnab h.2]
        · simp [hx]
  · rintro ⟨s1, pn, deg, hash⟩ ⟨F1, k, hR1, hk, hpn, hsk, hiw, r1, r2, r3, r4, r5, r6, r7⟩
    refine ⟨F1, k, hR1, hk, hpn, hsk, fun p hp => hiw p ?_, r1, r2, r3, r4, r5, r6, ?_⟩
    · rw [length_seg]; omega
    · have : ((seg (F .iw) p1 eln).length : ℤ) ≤ n := by omega
      exact le_trans r7 (by nlinarith)

theorem scan2Vars_spec {p l pn0 deg0 hash0 : ℤ} (hR : Rm n Al L s F) (h0 : 0 ≤ pn0) (hp : pn0 ≤ p)
    (hl : 0 ≤ l) (h1 : p + l ≤ L) (hI : ∀ p, 0 ≤ p → p < L → 0 ≤ F .iw p ∧ F .iw p < n) (hd0 : 0 ≤ deg0)
    (hh0 : 0 ≤ hash0) (hd1 : deg0 ≤ n * n) (hnd : (seg (F .iw) p l).Nodup)
    (hS : psum n (fun x => x ∈ seg (F .iw) p l ∧ 0 < F .nv x) (F .nv) ≤ n) :
    wp (scan2Vars p (p + l) (s, pn0, deg0, hash0))
      (fun y => ∃ F' k, Rm n Al L y.1 F' ∧ k = (seg (F .iw) p l).filter (0 < F .nv ·) ∧
        y.2.1 = pn0 + k.length ∧ seg (F' .iw) pn0 k.length = k ∧
        (∀ q, q < pn0 ∨ p + l ≤ q → F' .iw q = F .iw q) ∧ 0 ≤ y.2.2.1 ∧ 0 ≤ y.2.2.2 ∧
        (∀ f, f ≠ .iw → F' f = F f) ∧ ∀ p, 0 ≤ p → p < L → 0 ≤ F' .iw p ∧ F' .iw p < n)
      (fun _ => False) := by
  have hX : ∀ e ∈ seg (F .iw) p l, 0 ≤ e ∧ e < n := by
    intro e he
    obtain ⟨p, a, b, rfl⟩ := mem_seg.1 he
    exact hI p (by omega) (by omega)
  have hal := hR.fit.al
  unfold scan2Vars
  refine wp_post (wp_seg (A := F .iw) hl (fun pre (y : Mem × ℤ × ℤ × ℤ) =>
    ∃ F' k, Rm n Al L y.1 F' ∧ k = pre.filter (0 < F .nv ·) ∧
        y.2.1 = pn0 + k.length ∧ seg (F' .iw) pn0 k.length = k ∧
        (∀ q, q < pn0 ∨ p + pre.length ≤ q → F' .iw q = F .iw q) ∧ 0 ≤ y.2.2.1 ∧ 0 ≤ y.2.2.2 ∧
        (∀ f, f ≠ .iw → F' f = F f) ∧ (∀ p, 0 ≤ p → p < L → 0 ≤ F' .iw p ∧ F' .iw p < n) ∧
        y.2.2.1 = deg0 + (k.map (F .nv)).sum) ?_ ?_) ?_
  · exact ⟨F, [], hR, by simp, by simp, by simp, fun _ _ => rfl, hd0, hh0, fun _ _ => rfl, hI, by simp⟩
  · rintro pre e post ⟨s1, pn, deg, hash⟩ hpre hev hlt ⟨F1, k, hR1, hk, hpn, hsk, hiw, hdeg, hhash, ho, hI1, hds⟩
    dsimp only at hR1 hpn hdeg hhash hds ⊢
    have hee : e ∈ seg (F .iw) p l := by rw [hpre]; simp
    obtain ⟨e0, e1⟩ := hX e hee
    have hkl : k.length ≤ pre.length := by rw [hk]; exact List.length_filter_le _ _
    rw [hR1.rdi (by omega) (by omega), ok_bind, hiw _ (Or.inr le_rfl), hev,
      hR1.rdn .nv (by decide) e0 e1, ok_bind, ho .nv (by decide)]
    by_cases hz : F .nv e > 0
    · rw [if_pos hz]
      have hs := sum_le_of_sub (n := n) (V := fun x => x ∈ seg (F .iw) p l ∧ 0 < F .nv x) (f := F .nv)
        (P := k ++ [e]) (by
          have : k ++ [e] = (pre ++ [e]).filter (0 < F .nv ·) := by
            rw [List.filter_append, ← hk]; simp [hz]
          rw [this]
          refine List.Nodup.filter _ ?_
          rw [hpre, show pre ++ e :: post = (pre ++ [e]) ++ post by simp] at hnd
          exact (List.nodup_append.1 hnd).1) (by
          intro x hx
          rcases List.mem_append.1 hx with hx | hx
          · rw [hk] at hx
            have := List.mem_filter.1 hx
            exact ⟨by rw [hpre]; simp [this.1], by simpa using this.2⟩
          · rw [List.mem_singleton.1 hx]; exact ⟨hee, hz⟩)
        fun x hx => ⟨(hX x hx.1).1, (hX x hx.1).2, hx.2⟩
      rw [List.map_append, List.sum_append, List.map_singleton, List.sum_singleton] at hs
      rw [hR1.fit.sq _ (by omega) (by omega), ok_bind]
      obtain ⟨s2, q2, g2⟩ := hR1.wri (i := pn) (by omega) (by omega) e
      rw [q2, ok_bind]
      cks hR1
      have hlk : ((k ++ [e]).length : ℤ) = k.length + 1 := by simp
      refine wpr ⟨_, k ++ [e], g2, ?_, ?_, ?_, ?_, ?_, ?_, ?_, by
          intro p a b
          by_cases hp : p = pn
          · rw [hp, set_at]; exact ⟨e0, e1⟩
          · rw [set_nei _ _ _ _ hp]; exact hI1 p a b, by
          rw [List.map_append, List.sum_append, List.map_singleton, List.sum_singleton]; dsimp only; omega⟩
      · rw [List.filter_append, ← hk]; simp [hz]
      · show pn + 1 = _; omega
      · rw [set_same]; exact seg_app hsk hpn
      · intro q hq
        simp only [List.length_append, List.length_singleton] at hq
        push_cast at hq
        rw [set_nei _ _ _ _ (by omega)]
        exact hiw q (by omega)
      · show 0 ≤ deg + F .nv e; omega
      · show 0 ≤ (hash + e) % 18446744073709551616; omega
      · intro f a
        rw [set_ne _ a]; exact ho f a
    · rw [if_neg hz]
      refine wpr ⟨F1, k, hR1, ?_, hpn, hsk, ?_, hdeg, hhash, ho, hI1, hds⟩
      · rw [List.filter_append, ← hk]; simp [hz]
      · intro q hq
        simp only [List.length_append, List.length_singleton] at hq
        push_cast at hq
        exact hiw q (by omega)
  · rintro ⟨s1, pn, deg, hash⟩ ⟨F1, k, hR1, hk, hpn, hsk, hiw, r1, r2, r3, r4, r5⟩
    refine ⟨F1, k, hR1, hk, hpn, hsk, fun q hq => hiw q ?_, r1, r2, r3, r4⟩
    rw [length_seg]; omega

/-- Lines 1238-1245: `me` goes to the front. -/
theorem front_perm {A B : ℤ → ℤ} {p1 p3 pn me : ℤ} {kE kV : List ℤ} (h3 : p3 = p1 + kE.length)
    (hn : pn = p3 + kV.length) (hE : seg A p1 kE.length = kE) (hV : seg A p3 kV.length = kV)
    (hB : B = Function.update (Function.update (Function.update A pn (A p3)) p3
      (Function.update A pn (A p3) p1)) p1 me) :
    B p1 = me ∧ (seg B p1 (kE.length + 1)).Perm (me :: kE) ∧ (seg B (p3 + 1) kV.length).Perm kV := by
  subst hB
  refine ⟨by simp, ?_, ?_⟩
  · rcases kE with _ | ⟨a, t⟩
    · simp [seg]
    · have hl : ((a :: t).length : ℤ) = t.length + 1 := by simp
      rw [hl] at h3 hE ⊢
      rw [seg_cons _ _ (by omega), show (t.length : ℤ) + 1 + 1 - 1 = t.length + 1 by ring, Function.update_self,
        seg_succ _ (by omega)]
      rw [seg_cons _ _ (by omega), show (t.length : ℤ) + 1 - 1 = t.length by ring] at hE
      have ha := (List.cons.inj hE).1
      have ht := (List.cons.inj hE).2
      have e1 : seg (Function.update (Function.update (Function.update A pn (A p3)) p3
          (Function.update A pn (A p3) p1)) p1 me) (p1 + 1) t.length = t := by
        conv_rhs => rw [← ht]
        apply seg_congr
        intro i _ _
        rw [Function.update_of_ne (by omega), Function.update_of_ne (by omega), Function.update_of_ne (by omega)]
      rw [e1, show p1 + 1 + (t.length : ℤ) = p3 by omega, Function.update_of_ne (by omega), Function.update_self,
        Function.update_of_ne (by omega), ha]
      exact List.Perm.cons _ (List.perm_append_comm (l₁ := t) (l₂ := [a]))
  · rcases kV with _ | ⟨a, t⟩
    · simp
    · have hl : ((a :: t).length : ℤ) = t.length + 1 := by simp
      rw [hl] at hn hV ⊢
      rw [seg_succ _ (by omega)]
      rw [seg_cons _ _ (by omega), show (t.length : ℤ) + 1 - 1 = t.length by ring] at hV
      have ha := (List.cons.inj hV).1
      have ht := (List.cons.inj hV).2
      have e1 : seg (Function.update (Function.update (Function.update A pn (A p3)) p3
          (Function.update A pn (A p3) p1)) p1 me) (p3 + 1) t.length = t := by
        conv_rhs => rw [← ht]
        apply seg_congr
        intro i _ _
        rw [Function.update_of_ne (by omega), Function.update_of_ne (by omega), Function.update_of_ne (by omega)]
      rw [e1, show p3 + 1 + (t.length : ℤ) = pn by omega, Function.update_of_ne (by omega),
        Function.update_of_ne (by omega), Function.update_self, ha]
      exact List.perm_append_comm (l₁ := t) (l₂ := [a])

/-! ## The state of scan 2 -/

/-- The elements that stay in the list of `i`. -/
def kE (agg : Bool) (G : Sh) (wflg i : ℤ) : List ℤ := (elL G i).filter (kp agg G wflg ·)

/-- The variables that stay in the list of `i`. -/
def kV (G : Sh) (i : ℤ) : List ℤ := (vaL G i).filter (0 < G .nv ·)

/-- The variable `i` is eliminated with the pivot. -/
def mass (agg : Bool) (G : Sh) (wflg i : ℤ) : Prop := kE agg G wflg i = [] ∧ kV G i = []

instance (agg : Bool) (G : Sh) (wflg i : ℤ) : Decidable (mass agg G wflg i) := by
  unfold mass; infer_instance

/-- The element `x` has been absorbed during the scan of `pre`. -/
def tch (agg : Bool) (G : Sh) (wflg : ℤ) (pre : List ℤ) (x : ℤ) : Prop :=
  ab agg G wflg x ∧ ∃ i ∈ pre, x ∈ elL G i

/-- The weight of the variables in `pre` that are eliminated with the pivot. -/
def mS (agg : Bool) (G : Sh) (wflg : ℤ) (pre : List ℤ) : ℤ :=
  ((pre.filter (mass agg G wflg ·)).map fun i => -G .nv i).sum

theorem mS_append (agg : Bool) (G : Sh) (wflg : ℤ) (pre : List ℤ) (i : ℤ) :
    mS agg G wflg (pre ++ [i]) = mS agg G wflg pre + if mass agg G wflg i then -G .nv i else 0 := by
  unfold mS
  rw [List.filter_append, List.map_append, List.sum_append]
  by_cases h : mass agg G wflg i <;> simp [h]

omit [Arith] in
theorem mS_le {agg : Bool} {G : Sh} {wflg : ℤ} {pre post : List ℤ} (h : ∀ i ∈ pre ++ post, G .nv i < 0) :
    0 ≤ mS agg G wflg pre ∧ mS agg G wflg pre ≤ ((pre ++ post).map fun i => -G .nv i).sum := by
  induction pre with
  | nil =>
    refine ⟨by simp [mS], ?_⟩
    simp only [mS, List.filter_nil, List.map_nil, List.sum_nil, List.nil_append]
    apply List.sum_nonneg
    intro x hx
    obtain ⟨y, hy, rfl⟩ := List.mem_map.1 hx
    have := h y (by simp [hy])
    omega
  | cons a t ih =>
    have ih := ih fun i hi => h i (by rw [List.cons_append]; exact List.mem_cons_of_mem _ hi)
    have ha := h a (by simp)
    unfold mS at ih ⊢
    rw [List.cons_append, List.map_cons, List.sum_cons, List.filter_cons]
    by_cases hm : mass agg G wflg a
    · simp only [hm, decide_true, if_true, List.map_cons, List.sum_cons]
      omega
    · simp only [hm, decide_false, Bool.false_eq_true, if_false]
      omega

/-- What scan 2 needs. -/
structure H2 (n L me pme1 wflg : ℤ) (agg : Bool) (P : List ℤ) (S : ℤ → Prop) (G : Sh) : Prop where
  rg : ∀ i ∈ P, 0 ≤ i ∧ i < n ∧ 0 ≤ G .pe i ∧ 0 ≤ G .el i ∧ G .el i ≤ G .ln i ∧ G .pe i + G .ln i ≤ L ∧
    G .nv i < 0 ∧ 0 ≤ G .dg i
  dj : ∀ i ∈ P, ∀ j ∈ P, i ≠ j → G .pe i + G .ln i ≤ G .pe j ∨ G .pe j + G .ln j ≤ G .pe i
  djm : ∀ i ∈ P, G .pe i + G .ln i ≤ pme1 ∨ pme1 + P.length ≤ G .pe i
  iw : ∀ p, 0 ≤ p → p < L → 0 ≤ G .iw p ∧ G .iw p < n
  nde : ∀ i ∈ P, (elL G i).Nodup
  elp : ∀ i ∈ P, ∀ e ∈ elL G i, e ∉ P ∧ e ≠ me
  we : ∀ i ∈ P, ∀ e ∈ elL G i, G .w e ≠ 0 → wflg ≤ G .w e
  room : ∀ i ∈ P, ((kE agg G wflg i).length : ℤ) + (kV G i).length < G .ln i
  ndp : P.Nodup
  m : 0 ≤ me ∧ me < n ∧ me ∉ P
  hP : seg (G .iw) pme1 P.length = P
  p0 : 0 ≤ pme1 ∧ pme1 + P.length ≤ L
  nS : ∀ i ∈ P, ¬ S i
  ndv : ∀ i ∈ P, (vaL G i).Nodup
  vs : ∀ i ∈ P, psum n (fun x => x ∈ vaL G i ∧ 0 < G .nv x) (G .nv) ≤ n
  wn : ∀ i ∈ P, ∀ e ∈ elL G i, G .w e ≠ 0 → G .w e ≤ wflg + n
  ps : (P.map fun i => -G .nv i).sum ≤ n
  dgn : ∀ i ∈ P, G .dg i ≤ n

/-- The state `F` when the variables `pre` have been scanned; `G` is the state before. -/
structure S2 (n L me wflg : ℤ) (agg : Bool) (S : ℤ → Prop) (G : Sh) (pre : List ℤ) (bk : ℤ → List ℤ)
    (F : Sh) : Prop where
  w1 : ∀ x, tch agg G wflg pre x → F .w x = 0
  w2 : ∀ x, ¬ tch agg G wflg pre x → F .w x = G .w x
  pe1 : ∀ x, tch agg G wflg pre x → F .pe x = flip me
  pe2 : ∀ x ∈ pre, mass agg G wflg x → F .pe x = flip me
  pe3 : ∀ x, ¬ tch agg G wflg pre x → ¬ (x ∈ pre ∧ mass agg G wflg x) → F .pe x = G .pe x
  nv1 : ∀ x ∈ pre, mass agg G wflg x → F .nv x = 0
  nv2 : ∀ x, ¬ (x ∈ pre ∧ mass agg G wflg x) → F .nv x = G .nv x
  el1 : ∀ x ∈ pre, mass agg G wflg x → F .el x = -1
  el2 : ∀ x ∈ pre, ¬ mass agg G wflg x → F .el x = (kE agg G wflg x).length + 1
  el3 : ∀ x, x ∉ pre → F .el x = G .el x
  ln2 : ∀ x ∈ pre, ¬ mass agg G wflg x → F .ln x = (kE agg G wflg x).length + 1 + (kV G x).length
  ln3 : ∀ x, ¬ (x ∈ pre ∧ ¬ mass agg G wflg x) → F .ln x = G .ln x
  iw : ∀ p, (∀ i ∈ pre, p < G .pe i ∨ G .pe i + G .ln i ≤ p) → F .iw p = G .iw p
  iwr : ∀ p, 0 ≤ p → p < L → 0 ≤ F .iw p ∧ F .iw p < n
  li : ∀ i ∈ pre, ¬ mass agg G wflg i → F .iw (G .pe i) = me ∧
    (seg (F .iw) (G .pe i) ((kE agg G wflg i).length + 1)).Perm (me :: kE agg G wflg i) ∧
    (seg (F .iw) (G .pe i + (kE agg G wflg i).length + 1) (kV G i).length).Perm (kV G i)
  dg1 : ∀ x ∈ pre, 0 ≤ F .dg x
  dg2 : ∀ x, x ∉ pre → F .dg x = G .dg x
  hb : HB n G F S bk
  bk : ∀ h, 0 ≤ h → h < n → ∀ x ∈ bk h, x ∈ pre ∧ ¬ mass agg G wflg x
  la : ∀ x ∈ pre, ¬ mass agg G wflg x → 0 ≤ F .la x ∧ F .la x < n
  dg3 : ∀ x ∈ pre, F .dg x ≤ n

end Slip.Amd
