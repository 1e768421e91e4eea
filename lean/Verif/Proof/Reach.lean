import Verif.SpecGraph
import Verif.Proof.Cost
import Mathlib.Data.Int.Interval
import Mathlib.Data.List.Nodup
import Mathlib.Logic.Relation

/-! # Proofs about `slip_dfs` and `slip_reach` -/

namespace Slip

/-- `xi[lo ..]` holds the list `l`. -/
def Seg (a : Arr Int) (lo : Int) (l : List Int) : Prop :=
  ∀ (t : Nat) (h : t < l.length), get a (lo + t) = some l[t]

theorem Seg.upd {a : Arr Int} {lo : Int} {l : List Int} (hs : Seg a lo l) {i v : Int}
    (h0 : 0 ≤ i) (h1 : i < (a.length : Int)) (h : i < lo ∨ lo + l.length ≤ i) :
    Seg (upd a i v) lo l := by
  intro t ht
  rw [get_upd_ne h0 h1]
  · exact hs t ht
  · omega

theorem Seg.nil (a : Arr Int) (lo : Int) : Seg a lo [] := fun t h => by simp at h

theorem Seg.cons {a : Arr Int} {lo v : Int} {l : List Int} (h : get a lo = some v)
    (hs : Seg a (lo + 1) l) : Seg a lo (v :: l) := by
  intro t ht
  cases t with
  | zero => simpa using h
  | succ t =>
    have := hs t (by simpa using ht)
    have e : lo + 1 + (t : Int) = lo + ((t + 1 : Nat) : Int) := by omega
    rw [e] at this
    simpa using this

theorem Seg.tail {a : Arr Int} {lo v : Int} {l : List Int} (h : Seg a lo (v :: l)) :
    Seg a (lo + 1) l := by
  intro t ht
  have := h (t + 1) (by simpa using ht)
  have e : lo + 1 + (t : Int) = lo + ((t + 1 : Nat) : Int) := by omega
  rw [e]
  simpa using this

theorem Seg.head {a : Arr Int} {lo v : Int} {l : List Int} (h : Seg a lo (v :: l)) :
    get a lo = some v := by
  have := h 0 (by simp)
  simpa using this

theorem Seg.snoc {a : Arr Int} {lo v : Int} {l : List Int} (hs : Seg a lo l)
    (h : get a (lo + l.length) = some v) : Seg a lo (l ++ [v]) := by
  intro t ht
  rw [List.getElem_append]
  split
  · exact hs t _
  · have : t = l.length := by simp at ht; omega
    subst this
    simpa using h

theorem Seg.left {a : Arr Int} {lo : Int} {l l' : List Int} (hs : Seg a lo (l ++ l')) :
    Seg a lo l := by
  intro t ht
  have := hs t (by simp; omega)
  rwa [List.getElem_append_left ht] at this

/-- `Lp` is `Lp0` with the entries in `M` marked. -/
structure Marks (Lp0 Lp : Arr Int) (M : List Int) : Prop where
  len : Lp.length = Lp0.length
  val : ∀ j : Int, get Lp j = if j ∈ M then (get Lp0 j).map flip else get Lp0 j

theorem flip_neg {v : Int} (h : 0 ≤ v) : flip v < 0 := by unfold flip; omega
theorem flip_flip (v : Int) : flip (flip v) = v := by unfold flip; omega
theorem unflip_pos {v : Int} (h : 0 ≤ v) : unflip v = v := by unfold unflip; rw [if_neg (by omega)]
theorem unflip_flip {v : Int} (h : 0 ≤ v) : unflip (flip v) = v := by
  unfold unflip; rw [if_pos (flip_neg h), flip_flip]

theorem Marks.rd_unflip {Lp0 Lp : Arr Int} {M : List Int} (h : Marks Lp0 Lp M) {j v : Int}
    (hv : get Lp0 j = some v) (h0 : 0 ≤ v) :
    ∃ u, get Lp j = some u ∧ unflip u = v := by
  rw [h.val, hv]
  split
  · exact ⟨_, rfl, unflip_flip h0⟩
  · exact ⟨_, rfl, unflip_pos h0⟩

theorem Marks.marked {Lp0 Lp : Arr Int} {M : List Int} (h : Marks Lp0 Lp M) {j v : Int}
    (hv : get Lp0 j = some v) (h0 : 0 ≤ v) : marked Lp j = .ok (decide (j ∈ M)) := by
  unfold Slip.marked
  by_cases hj : j ∈ M
  · have : get Lp j = some (flip v) := by rw [h.val, hv, if_pos hj]; rfl
    rw [rd_eq this]
    have := flip_neg h0
    simp [hj, this, pure, Except.pure]
  · have : get Lp j = some v := by rw [h.val, hv, if_neg hj]
    rw [rd_eq this]
    simp [hj, pure, Except.pure]; omega

theorem Marks.mark {Lp0 Lp : Arr Int} {M : List Int} (h : Marks Lp0 Lp M) {j v : Int}
    (hv : get Lp0 j = some v) (hj : j ∉ M) :
    ∃ Lp', Slip.mark Lp j = .ok Lp' ∧ Marks Lp0 Lp' (j :: M) := by
  have hg : get Lp j = some v := by rw [h.val, hv, if_neg hj]
  have hb := get_bounds hg
  refine ⟨_, by simp [Slip.mark, rd_eq hg, wr_eq hb.1 hb.2]; rfl, ?_, ?_⟩
  · simp [h.len]
  · intro i
    rw [get_upd hb.1 hb.2]
    by_cases hij : i = j
    · subst hij; simp [hv]
    · simp [hij, h.val]

theorem Marks.unmark {Lp0 Lp : Arr Int} {M : List Int} {j v : Int} (h : Marks Lp0 Lp (j :: M))
    (hv : get Lp0 j = some v) (hj : j ∉ M) :
    ∃ Lp', Slip.mark Lp j = .ok Lp' ∧ Marks Lp0 Lp' M := by
  have hg : get Lp j = some (flip v) := by rw [h.val, hv, if_pos (by simp)]; rfl
  have hb := get_bounds hg
  refine ⟨_, by simp [Slip.mark, rd_eq hg, wr_eq hb.1 hb.2]; rfl, ?_, ?_⟩
  · simp [h.len]
  · intro i
    rw [get_upd hb.1 hb.2]
    by_cases hij : i = j
    · subst hij; simp [hj, hv, flip_flip]
    · simp [hij, h.val]

theorem Marks.congr {Lp0 Lp : Arr Int} {M M' : List Int} (h : Marks Lp0 Lp M)
    (e : ∀ j, j ∈ M ↔ j ∈ M') : Marks Lp0 Lp M' :=
  ⟨h.len, fun j => by rw [h.val]; simp only [e]⟩

theorem Marks.nil_eq {Lp0 Lp : Arr Int} (h : Marks Lp0 Lp []) : Lp = Lp0 :=
  arr_ext h.len fun i => by rw [h.val]; simp

theorem nodup_length_le {l : List Int} {n : Nat} (hn : l.Nodup) (hr : ∀ x ∈ l, 0 ≤ x ∧ x < n) :
    l.length ≤ n := by
  have h1 : l.toFinset.card = l.length := List.toFinset_card_of_nodup hn
  have h2 : l.toFinset ⊆ Finset.Ico (0 : Int) n := by
    intro x hx
    have := hr x (by simpa using hx)
    simp [this]
  have := Finset.card_le_card h2
  simp at this
  omega

/-- Result of the neighbour scan. -/
theorem dfsScan_spec {n : Nat} {Lp0 Li pinv Lp : Arr Int} {M : List Int}
    (hG : Graph n Lp0 Li pinv) (hM : Marks Lp0 Lp M) :
    ∀ (m : Nat) (p : Int),
      (∀ p', p ≤ p' → p' < p + m → ∃ i, get Li p' = some i ∧ 0 ≤ i ∧ i < n) →
      (dfsScan Lp Li m p = .ok none ∧
          ∀ p', p ≤ p' → p' < p + m → ∀ i, get Li p' = some i → i ∈ M) ∨
      (∃ p1 i, dfsScan Lp Li m p = .ok (some (p1, i)) ∧ p ≤ p1 ∧ p1 < p + m ∧
          get Li p1 = some i ∧ i ∉ M ∧ 0 ≤ i ∧ i < n ∧
          ∀ p', p ≤ p' → p' < p1 → ∀ i, get Li p' = some i → i ∈ M)
  | 0, p, _ => by
    left
    refine ⟨rfl, fun p' h1 h2 => by omega⟩
  | m + 1, p, hrow => by
    obtain ⟨i, hi, hi0, hin⟩ := hrow p (by omega) (by omega)
    obtain ⟨v, hv, hv0⟩ := hG.ptr i hi0 (by omega)
    unfold dfsScan
    rw [rd_eq hi, ok_bind, hM.marked hv hv0, ok_bind]
    by_cases hiM : i ∈ M
    · simp only [hiM, decide_true, if_true]
      have hrow' : ∀ p', p + 1 ≤ p' → p' < p + 1 + m → ∃ i, get Li p' = some i ∧ 0 ≤ i ∧ i < n :=
        fun p' h1 h2 => hrow p' (by omega) (by omega)
      rcases dfsScan_spec hG hM m (p + 1) hrow' with ⟨h1, h2⟩ | ⟨p1, i1, h1, h2, h3, h4, h5, h6, h7, h8⟩
      · left
        refine ⟨h1, fun p' hp1 hp2 i' hi' => ?_⟩
        by_cases e : p' = p
        · subst e; rw [hi] at hi'; cases hi'; exact hiM
        · exact h2 p' (by omega) (by omega) i' hi'
      · right
        refine ⟨p1, i1, h1, by omega, by omega, h4, h5, h6, h7, fun p' hp1 hp2 i' hi' => ?_⟩
        by_cases e : p' = p
        · subst e; rw [hi] at hi'; cases hi'; exact hiM
        · exact h8 p' (by omega) (by omega) i' hi'
    · right
      refine ⟨p, i, ?_, by omega, by omega, hi, hiM, hi0, hin, fun p' h1 h2 => by omega⟩
      simp [hiM]

/-- The pstack entry of a stacked node that has been marked: everything before it is marked. -/
def PsOk (Lp0 Li pinv : Arr Int) (n : Nat) (xi : Arr Int) (M : List Int) (t : Nat) (j : Int) :
    Prop :=
  ∃ w a b p, get pinv j = some w ∧ get Lp0 w = some a ∧ get Lp0 (w + 1) = some b ∧
    get xi ((n : Int) + t) = some p ∧ a ≤ p ∧ p ≤ max a b ∧
    (∀ p', a ≤ p' → p' < p → p' < b → ∀ i, get Li p' = some i → i ∈ M)

/-- Invariant of the search: `stk` is the stack (bottom first), `out` the output list, `M` the
marked nodes, `R` any set of nodes closed under edges. -/
structure DInv (n : Nat) (Lp0 Li pinv : Arr Int) (R : Int → Prop) (out0 : List Int) (j0 : Int)
    (stk out M : List Int) (s : DfsSt) : Prop where
  head : s.head = (stk.length : Int) - 1
  top : s.top = (n : Int) - out.length
  len : s.xi.length = 2 * n
  segS : Seg s.xi 0 stk
  segO : Seg s.xi s.top out
  marks : Marks Lp0 s.Lp M
  nodup : (stk ++ out).Nodup
  range : ∀ x ∈ stk ++ out, 0 ≤ x ∧ x < n
  mem : ∀ x, x ∈ M → x ∈ stk ++ out
  memO : ∀ x ∈ out, x ∈ M
  memS : ∀ (t : Nat) (h : t < stk.length), t + 1 < stk.length → stk[t] ∈ M
  ps : ∀ (t : Nat) (h : t < stk.length), stk[t] ∈ M → PsOk Lp0 Li pinv n s.xi M t stk[t]
  closed : ∀ x ∈ out, ∀ y, Edge Lp0 Li pinv x y → y ∈ M
  suffix : ∃ l, out = l ++ out0
  reach : ∀ x ∈ stk ++ out, x ∈ out0 ∨ R x
  j0 : j0 ∈ stk ++ out

theorem PsOk.mono {Lp0 Li pinv : Arr Int} {n : Nat} {xi xi' : Arr Int} {M M' : List Int} {t : Nat}
    {j : Int} (h : PsOk Lp0 Li pinv n xi M t j) (hM : ∀ x ∈ M, x ∈ M')
    (hx : get xi' ((n : Int) + t) = get xi ((n : Int) + t)) : PsOk Lp0 Li pinv n xi' M' t j := by
  obtain ⟨w, a, b, p, h1, h2, h3, h4, h5, h7, h6⟩ := h
  exact ⟨w, a, b, p, h1, h2, h3, by rw [hx]; exact h4, h5, h7,
    fun p' a1 a2 a3 i hi => hM _ (h6 p' a1 a2 a3 i hi)⟩

/-- How much of the column of stacked node `j` at position `t` has been scanned. -/
def usedN (Lp0 pinv : Arr Int) (n : Nat) (xi : Arr Int) (t : Nat) (j : Int) : ℕ :=
  ((get xi ((n : Int) + t)).getD 0 - (get Lp0 ((get pinv j).getD 0)).getD 0).toNat

/-- The same for all marked nodes of the stack. -/
def Used (Lp0 pinv : Arr Int) (n : Nat) (xi : Arr Int) (M stk : List Int) : ℕ :=
  ∑ t ∈ Finset.range stk.length, if stk.getD t 0 ∈ M then usedN Lp0 pinv n xi t (stk.getD t 0) else 0

theorem Used.congr {Lp0 pinv : Arr Int} {n : Nat} {xi xi' : Arr Int} {M M' stk : List Int}
    (hx : ∀ t < stk.length, stk.getD t 0 ∈ M → get xi' ((n : Int) + t) = get xi ((n : Int) + t))
    (hM : ∀ (t : Nat) (h : t < stk.length), stk[t] ∈ M ↔ stk[t] ∈ M') :
    Used Lp0 pinv n xi' M' stk = Used Lp0 pinv n xi M stk := by
  refine Finset.sum_congr rfl fun t ht => ?_
  have ht := Finset.mem_range.1 ht
  have e : stk.getD t 0 = stk[t] := by simp [ht]
  have := hM t ht
  rw [← e] at this
  by_cases hm : stk.getD t 0 ∈ M
  · rw [if_pos hm, if_pos (this.1 hm)]
    unfold usedN
    rw [hx t ht hm]
  · rw [if_neg hm, if_neg (fun h => hm (this.2 h))]

theorem Used.snoc {Lp0 pinv : Arr Int} {n : Nat} {xi : Arr Int} {M stk : List Int} {j : Int} :
    Used Lp0 pinv n xi M (stk ++ [j]) =
      Used Lp0 pinv n xi M stk + if j ∈ M then usedN Lp0 pinv n xi stk.length j else 0 := by
  unfold Used
  rw [List.length_append, List.length_singleton, Finset.sum_range_succ]
  congr 1
  · refine Finset.sum_congr rfl fun t ht => ?_
    have ht := Finset.mem_range.1 ht
    have e : (stk ++ [j]).getD t 0 = stk.getD t 0 := by
      simp only [List.getD_eq_getElem?_getD, List.getElem?_append_left ht]
    rw [e]
  · simp

theorem usedN_eq {Lp0 pinv : Arr Int} {n : Nat} {xi : Arr Int} {t : Nat} {j w a p : Int}
    (hw : get pinv j = some w) (ha : get Lp0 w = some a) (hp : get xi ((n : Int) + t) = some p) :
    usedN Lp0 pinv n xi t j = (p - a).toNat := by
  unfold usedN
  simp only [hw, hp, Option.getD_some, ha]

/-- First half of a step: mark the node on top of the stack if it is fresh. -/
theorem dfs_mark {n : Nat} {Lp0 Li pinv : Arr Int} (hG : Graph n Lp0 Li pinv) {R : Int → Prop}
    {out0 : List Int} {j0 : Int} {stk : List Int} {j : Int} {out M : List Int} {s : DfsSt}
    (hI : DInv n Lp0 Li pinv R out0 j0 (stk ++ [j]) out M s) {w : Int} (hw : get pinv j = some w)
    (hw0 : 0 ≤ w) (hwn : w < n) :
    ∃ s', (if decide (j ∈ M) then pure s else do
        let Lp ← mark s.Lp j
        let p0 ← (if w < 0 then pure 0 else do let v ← rd Lp w; pure (unflip v))
        let xi ← wr s.xi ((n : Int) + s.head) p0
        pure { s with Lp := Lp, xi := xi } : C DfsSt) = .ok s' ∧
      ∃ M', DInv n Lp0 Li pinv R out0 j0 (stk ++ [j]) out M' s' ∧ j ∈ M' ∧
        Used Lp0 pinv n s'.xi M' (stk ++ [j]) = Used Lp0 pinv n s.xi M (stk ++ [j]) := by
  by_cases hj : j ∈ M
  · exact ⟨s, by simp [hj, pure, Except.pure], M, hI, hj, rfl⟩
  · have hjr := hI.range j (by simp)
    obtain ⟨v, hv, hv0⟩ := hG.ptr j hjr.1 (by omega)
    obtain ⟨Lp', hLp', hM'⟩ := hI.marks.mark hv hj
    obtain ⟨a, ha, ha0⟩ := hG.ptr w hw0 (by omega)
    obtain ⟨b, hb, hb0⟩ := hG.ptr (w + 1) (by omega) (by omega)
    obtain ⟨u, hu, huu⟩ := hM'.rd_unflip ha ha0
    have hhead := hI.head
    have hlen := nodup_length_le hI.nodup hI.range
    simp only [List.length_append, List.length_singleton] at hhead hlen
    have hb0' : 0 ≤ (n : Int) + s.head := by omega
    have hb1' : (n : Int) + s.head < (s.xi.length : Int) := by rw [hI.len]; omega
    refine ⟨{ s with Lp := Lp', xi := upd s.xi ((n : Int) + s.head) a }, ?_, j :: M, ?_, by simp, ?_⟩
    rotate_left
    rotate_left
    · rw [Used.snoc, Used.snoc, if_pos (by simp), if_neg hj, usedN_eq (a := a) hw ha, sub_self]
      · refine Used.congr (fun t ht _ => get_upd_ne hb0' hb1' _ (by omega)) fun t ht => ?_
        have := hI.memS t (by simp; omega) (by simp; omega)
        rw [List.getElem_append_left ht] at this
        simp [this]
      · have : (n : Int) + (stk.length : Nat) = (n : Int) + s.head := by omega
        rw [this]
        exact get_upd_self hb0' hb1' _
    · simp only [hj, decide_false, if_false, Bool.false_eq_true, hLp', ok_bind, if_neg (show ¬ w < 0 by omega),
        rd_eq hu, huu]
      simp only [pure_bind', wr_eq hb0' hb1', ok_bind]
      rfl
    · have htop := hI.top
      refine ⟨by simpa using hI.head, hI.top, by simpa using hI.len, ?_, ?_, hM', hI.nodup, hI.range,
        ?_, ?_, ?_, ?_, ?_, hI.suffix, hI.reach, hI.j0⟩
      · exact hI.segS.upd hb0' hb1' (by right; simp; omega)
      · exact hI.segO.upd hb0' hb1' (by right; omega)
      · intro x hx
        simp only [List.mem_cons] at hx
        rcases hx with rfl | hx
        · simp
        · exact hI.mem x hx
      · intro x hx
        simp [hI.memO x hx]
      · intro t h1 h2
        exact List.mem_cons_of_mem _ (hI.memS t h1 h2)
      · intro t h1 h2
        by_cases ht : t = stk.length
        · subst ht
          simp only [List.getElem_concat_length]
          refine ⟨w, a, b, a, hw, ha, hb, ?_, le_refl _, le_max_left _ _, fun p' h1 h2 => by omega⟩
          have : (n : Int) + (stk.length : Nat) = (n : Int) + s.head := by omega
          rw [this]
          exact get_upd_self hb0' hb1' _
        · have htl : t < stk.length := by simp at h1; omega
          have hmem := hI.memS t h1 (by simp; omega)
          refine (hI.ps t h1 hmem).mono (fun x hx => List.mem_cons_of_mem _ hx) ?_
          exact get_upd_ne hb0' hb1' _ (by omega)
      · intro x hx y hy
        exact List.mem_cons_of_mem _ (hI.closed x hx y hy)

theorem dfsScanT_none {β : ℕ} {Lp Li : Arr Int} : ∀ (m : ℕ) (p : Int), dfsScan Lp Li m p = .ok none →
    ∀ w, dfsScanT β Lp Li m p w = (.ok none, w + β * m)
  | 0, p, _, w => by simp [dfsScanT, pure]
  | m + 1, p, h, w => by
    unfold dfsScan at h
    cases h1 : rd Li p with
    | error e => simp [h1] at h
    | ok i =>
      cases h2 : marked Lp i with
      | error e => simp [h1, h2] at h
      | ok b =>
        cases b with
        | false => simp [h1, h2] at h
        | true =>
          simp only [h1, h2, ok_bind, if_true] at h
          unfold dfsScanT
          rw [W.bind_eq]
          simp only [tick, W.bind_eq, W.lift, h1, h2, if_true, dfsScanT_none m (p + 1) h]
          rw [Nat.mul_succ]
          congr 1
          omega

theorem dfsScanT_some {Lp Li : Arr Int} {p1 i1 : Int} : ∀ (m : ℕ) (p : Int),
    dfsScan Lp Li m p = .ok (some (p1, i1)) → p ≤ p1 ∧
    ∀ β w, dfsScanT β Lp Li m p w = (.ok (some (p1, i1)), w + β * ((p1 - p).toNat + 1))
  | 0, p, h => by simp [dfsScan] at h
  | m + 1, p, h => by
    unfold dfsScan at h
    cases h1 : rd Li p with
    | error e => simp [h1] at h
    | ok i =>
      cases h2 : marked Lp i with
      | error e => simp [h1, h2] at h
      | ok b =>
        cases b with
        | false =>
          simp only [h1, h2, ok_bind, Bool.false_eq_true, if_false, Except.ok.injEq, Option.some.injEq,
            Prod.mk.injEq] at h
          obtain ⟨rfl, rfl⟩ := h
          refine ⟨le_refl _, fun β w => ?_⟩
          unfold dfsScanT
          rw [W.bind_eq]
          simp [tick, W.bind_eq, W.lift, h1, h2, pure]
        | true =>
          simp only [h1, h2, ok_bind, if_true] at h
          obtain ⟨hle, hw⟩ := dfsScanT_some m (p + 1) h
          refine ⟨by omega, fun β w => ?_⟩
          unfold dfsScanT
          rw [W.bind_eq]
          simp only [tick, W.bind_eq, W.lift, h1, h2, if_true, hw]
          have e : β * ((p1 - p).toNat + 1) = β * ((p1 - (p + 1)).toNat + 1) + β := by
            rw [show (p1 - p).toNat + 1 = ((p1 - (p + 1)).toNat + 1) + 1 by omega, Nat.mul_succ]
          rw [e]
          congr 1
          omega

/-- The sum of the column lengths of the nodes in `l`. -/
def degSum (Lp pinv : Arr Int) (l : List Int) : ℕ := (l.map (degN Lp pinv)).sum

theorem W.lift_bind {α γ : Type} (a : α) (f : α → W γ) : (W.lift (.ok a) >>= f) = f a := rfl

theorem dfsStep_cost {β n : Nat} {Lp0 Li pinv : Arr Int} (hG : Graph n Lp0 Li pinv) {R : Int → Prop}
    (hR : ∀ x y, R x → Edge Lp0 Li pinv x y → R y)
    {out0 : List Int} (hout0 : ∀ x ∈ out0, ∀ y, Edge Lp0 Li pinv x y → y ∈ out0)
    {j0 : Int} {stk : List Int} {j : Int} {out M : List Int} {s : DfsSt}
    (hI : DInv n Lp0 Li pinv R out0 j0 (stk ++ [j]) out M s) :
    ∃ s' stk' out' M' cost, dfsStep n Li pinv s = .ok s' ∧
      (∀ w, dfsStepT β n Li pinv s w = (.ok s', w + β * cost)) ∧
      cost + Used Lp0 pinv n s.xi M (stk ++ [j]) + degSum Lp0 pinv out ≤
        Used Lp0 pinv n s'.xi M' stk' + degSum Lp0 pinv out' + 1 ∧
      DInv n Lp0 Li pinv R out0 j0 stk' out' M' s' ∧
      2 * out'.length + stk'.length = 2 * out.length + (stk ++ [j]).length + 1 := by
  have hjr := hI.range j (by simp)
  obtain ⟨w, hw, hw0, hwn⟩ := hG.pinv j hjr.1 hjr.2
  obtain ⟨v, hv, hv0⟩ := hG.ptr j hjr.1 (by omega)
  have hrdj : get s.xi s.head = some j := by
    have := hI.segS stk.length (by simp)
    have e := hI.head
    simp only [List.length_append, List.length_singleton] at e
    have e2 : (0 : Int) + (stk.length : Nat) = s.head := by omega
    rw [e2] at this
    simpa using this
  obtain ⟨s1, hs1, M1, hI1, hjM, hused⟩ := dfs_mark hG hI hw hw0 hwn
  rw [← hused]
  unfold dfsStep dfsStepT
  simp only [rd_eq hrdj, rd_eq hw, hI.marks.marked hv hv0, ok_bind, W.lift_bind]
  rw [hs1]
  simp only [W.lift_bind, ok_bind]
  obtain ⟨b, hb, hb0⟩ := hG.ptr (w + 1) (by omega) (by omega)
  obtain ⟨u, hu, huu⟩ := hI1.marks.rd_unflip hb hb0
  obtain ⟨w', a, b', p, hw', ha, hb', hp, hap, hpmax, hbefore⟩ := hI1.ps stk.length (by simp) (by simpa using hjM)
  simp only [List.getElem_concat_length] at hw'
  rw [hw] at hw'; cases hw'
  rw [hb] at hb'; cases hb'
  have hhead := hI1.head
  have htop := hI1.top
  have hlen := nodup_length_le hI1.nodup hI1.range
  simp only [List.length_append, List.length_singleton] at hhead hlen
  have ehead : (n : Int) + s1.head = (n : Int) + (stk.length : Nat) := by omega
  have hun := usedN_eq hw ha hp
  rw [← ehead] at hp
  have hpure : (pure b : C Int) = .ok b := rfl
  simp only [if_neg (show ¬ w < 0 by omega), rd_eq hu, ok_bind, huu, rd_eq hp, hpure, W.lift_bind]
  have hps0 : 0 ≤ (n : Int) + s1.head := by omega
  have hps1 : (n : Int) + s1.head < (s1.xi.length : Int) := by rw [hI1.len]; omega
  have hrow : ∀ p', p ≤ p' → p' < p + (b - p).toNat → ∃ i, get Li p' = some i ∧ 0 ≤ i ∧ i < n := by
    intro p' h1 h2
    exact hG.row w a b p' hw0 hwn ha hb (by omega) (by omega)
  rcases dfsScan_spec hG hI1.marks (b - p).toNat p hrow with
    ⟨h1, h2⟩ | ⟨p1, i, h1, h2, h3, h4, h5, h6, h7, h8⟩
  · -- node done
    rw [h1, ok_bind]
    have hrangej := hI1.range
    have hxi0 : 0 ≤ s1.top - 1 := by omega
    have hxi1 : s1.top - 1 < (s1.xi.length : Int) := by rw [hI1.len]; omega
    refine ⟨_, stk, j :: out, M1, (b - p).toNat, by simp only [wr_eq hxi0 hxi1, ok_bind]; rfl, ?_, ?_, ?_,
      by simp; omega⟩
    · intro w
      rw [W.bind_eq, dfsScanT_none _ _ h1]
      simp only [wr_eq hxi0 hxi1, ok_bind]
      rfl
    · rw [Used.snoc, if_pos hjM, hun]
      have e : Used Lp0 pinv n (upd s1.xi (s1.top - 1) j) M1 stk = Used Lp0 pinv n s1.xi M1 stk :=
        Used.congr (fun t _ _ => get_upd_ne hxi0 hxi1 _ (by omega)) fun _ _ => Iff.rfl
      simp only [e]
      have hd := degN_eq hw ha hb
      simp only [degSum, List.map_cons, List.sum_cons, hd]
      rcases le_max_iff.1 hpmax with h | h <;> omega
    have hperm : ∀ x, x ∈ stk ++ j :: out ↔ x ∈ (stk ++ [j]) ++ out := by simp
    refine ⟨?_, ?_, by simpa using hI1.len, ?_, ?_, hI1.marks, ?_, ?_, ?_, ?_, ?_, ?_, ?_, ?_, ?_, ?_⟩
    · show s1.head - 1 = _; omega
    · show s1.top - 1 = _; simp; omega
    · exact hI1.segS.left.upd hxi0 hxi1 (by right; omega)
    · apply Seg.cons
      · exact get_upd_self hxi0 hxi1 _
      · have e : s1.top - 1 + 1 = s1.top := by omega
        show Seg _ (s1.top - 1 + 1) out
        rw [e]
        exact hI1.segO.upd hxi0 hxi1 (by left; omega)
    · have := hI1.nodup
      simpa using this
    · intro x hx
      exact hI1.range x ((hperm x).mp hx)
    · intro x hx
      exact (hperm x).mpr (hI1.mem x hx)
    · intro x hx
      simp only [List.mem_cons] at hx
      rcases hx with rfl | hx
      · exact hjM
      · exact hI1.memO x hx
    · intro t ht1 ht2
      have := hI1.memS t (by simp; omega) (by simp; omega)
      rwa [List.getElem_append_left ht1] at this
    · intro t ht1 ht2
      have := hI1.ps t (by simp; omega) (by rwa [List.getElem_append_left ht1])
      rw [List.getElem_append_left ht1] at this
      refine this.mono (fun x hx => hx) (get_upd_ne hxi0 hxi1 _ (by omega))
    · intro x hx y hy
      simp only [List.mem_cons] at hx
      rcases hx with rfl | hx
      · obtain ⟨w2, a2, b2, p2, q1, q2, q3, q4, q5, q6⟩ := hy
        rw [hw] at q1; cases q1
        rw [ha] at q2; cases q2
        rw [hb] at q3; cases q3
        by_cases hpp : p2 < p
        · exact hbefore p2 q4 hpp q5 y q6
        · exact h2 p2 (by omega) (by omega) y q6
      · exact hI1.closed x hx y hy
    · obtain ⟨l, hl⟩ := hI1.suffix
      exact ⟨j :: l, by simp [hl]⟩
    · intro x hx
      exact hI1.reach x ((hperm x).mp hx)
    · exact (hperm j0).mpr hI1.j0
  · -- push
    rw [h1, ok_bind]
    have hiNot : i ∉ (stk ++ [j]) ++ out := by
      intro hmem
      rw [List.mem_append] at hmem
      rcases hmem with hmem | hmem
      · rw [List.mem_append] at hmem
        rcases hmem with hmem | hmem
        · obtain ⟨t, ht, rfl⟩ := List.getElem_of_mem hmem
          have := hI1.memS t (by simp; omega) (by simp; omega)
          rw [List.getElem_append_left ht] at this
          exact h5 this
        · simp at hmem; subst hmem; exact h5 hjM
      · exact h5 (hI1.memO i hmem)
    have hnd : (((stk ++ [j]) ++ [i]) ++ out).Nodup := by
      have : (i :: ((stk ++ [j]) ++ out)).Nodup := List.nodup_cons.mpr ⟨hiNot, hI1.nodup⟩
      refine (List.Perm.nodup_iff ?_).mp this
      have h := (List.perm_middle (a := i) (l₁ := stk ++ [j]) (l₂ := out)).symm
      simpa using h
    have hrg : ∀ x ∈ ((stk ++ [j]) ++ [i]) ++ out, 0 ≤ x ∧ x < n := by
      intro x hx
      have hx' : x = i ∨ x ∈ (stk ++ [j]) ++ out := by
        simp at hx ⊢; tauto
      rcases hx' with rfl | hx'
      · exact ⟨h6, h7⟩
      · exact hI1.range x hx'
    have hlen2 := nodup_length_le hnd hrg
    simp only [List.length_append, List.length_singleton] at hlen2
    have hx0 : 0 ≤ s1.head + 1 := by omega
    have hx1 : s1.head + 1 < ((upd s1.xi ((n : Int) + s1.head) p1).length : Int) := by
      rw [length_upd, hI1.len]; omega
    refine ⟨_, stk ++ [j] ++ [i], out, M1, (p1 - p).toNat + 1, by
      simp only [wr_eq hps0 hps1, ok_bind, wr_eq hx0 hx1]; rfl, ?_, ?_, ?_, by simp; omega⟩
    · intro w
      rw [W.bind_eq, (dfsScanT_some _ _ h1).2]
      simp only [wr_eq hps0 hps1, ok_bind, wr_eq hx0 hx1]
      rfl
    · rw [Used.snoc (stk := stk ++ [j]), if_neg h5, Used.snoc, Used.snoc, if_pos hjM, if_pos hjM, hun]
      have e : Used Lp0 pinv n (upd (upd s1.xi ((n : Int) + s1.head) p1) (s1.head + 1) i) M1 stk =
          Used Lp0 pinv n s1.xi M1 stk :=
        Used.congr (fun t ht _ => by
          rw [get_upd_ne hx0 hx1 _ (by omega), get_upd_ne hps0 hps1 _ (by omega)]) fun _ _ => Iff.rfl
      have e2 := usedN_eq (xi := upd (upd s1.xi ((n : Int) + s1.head) p1) (s1.head + 1) i)
        (t := stk.length) (p := p1) hw ha (by
          rw [← ehead, get_upd_ne hx0 hx1 _ (by omega)]
          exact get_upd_self hps0 hps1 _)
      simp only [e, e2]
      omega
    refine ⟨?_, hI1.top, by simpa using hI1.len, ?_, ?_, hI1.marks, hnd, hrg, ?_, hI1.memO, ?_, ?_,
      hI1.closed, hI1.suffix, ?_, ?_⟩
    · show s1.head + 1 = _; simp; omega
    · apply Seg.snoc
      · refine (hI1.segS.upd hps0 hps1 (by right; simp; omega)).upd hx0 hx1 (by right; simp; omega)
      · have e : (0 : Int) + ((stk ++ [j]).length : Nat) = s1.head + 1 := by simp; omega
        rw [e]
        exact get_upd_self hx0 hx1 _
    · refine (hI1.segO.upd hps0 hps1 (by right; omega)).upd hx0 hx1 (by left; omega)
    · intro x hx
      have := hI1.mem x hx
      simp at this ⊢; tauto
    · intro t ht1 ht2
      have ht3 : t < (stk ++ [j]).length := by simp at ht1 ht2 ⊢; omega
      rw [List.getElem_append_left ht3]
      by_cases htl : t = stk.length
      · subst htl; simpa using hjM
      · exact hI1.memS t ht3 (by simp at ht3 ⊢; omega)
    · intro t ht1 ht2
      by_cases htl : t = (stk ++ [j]).length
      · subst htl
        simp only [List.getElem_concat_length] at ht2
        exact absurd ht2 h5
      · have ht3 : t < (stk ++ [j]).length := by simp at ht1 htl ⊢; omega
        rw [List.getElem_append_left ht3] at ht2 ⊢
        by_cases htl2 : t = stk.length
        · subst htl2
          simp only [List.getElem_concat_length] at ht2 ⊢
          refine ⟨w, a, b, p1, hw, ha, hb, ?_, by omega, le_max_of_le_right (by omega), ?_⟩
          · rw [← ehead, get_upd_ne hx0 hx1 _ (by omega)]
            exact get_upd_self hps0 hps1 _
          · intro p' q1 q2 q3 i' hi'
            by_cases hpp : p' < p
            · exact hbefore p' q1 hpp q3 i' hi'
            · exact h8 p' (by omega) q2 i' hi'
        · refine (hI1.ps t ht3 ht2).mono (fun x hx => hx) ?_
          rw [get_upd_ne hx0 hx1 _ (by omega), get_upd_ne hps0 hps1 _ (by
            simp at ht3; omega)]
    · intro x hx
      have hx' : x = i ∨ x ∈ (stk ++ [j]) ++ out := by
        simp at hx ⊢; tauto
      rcases hx' with rfl | hx'
      · have hE : Edge Lp0 Li pinv j x := ⟨w, a, b, p1, hw, ha, hb, by omega, by omega, h4⟩
        rcases hI1.reach j (by simp) with hj0 | hj0
        · exact Or.inl (hout0 j hj0 x hE)
        · exact Or.inr (hR j x hj0 hE)
      · exact hI1.reach x hx'
    · have := hI1.j0
      simp at this ⊢; tauto

theorem dfsLoop_cost {β n : Nat} {Lp0 Li pinv : Arr Int} (hG : Graph n Lp0 Li pinv) {R : Int → Prop}
    (hR : ∀ x y, R x → Edge Lp0 Li pinv x y → R y)
    {out0 : List Int} (hout0 : ∀ x ∈ out0, ∀ y, Edge Lp0 Li pinv x y → y ∈ out0) {j0 : Int} :
    ∀ (f : Nat) (stk out M : List Int) (s : DfsSt),
      DInv n Lp0 Li pinv R out0 j0 stk out M s → 2 * n ≤ 2 * out.length + stk.length + f →
      ∃ s' out' M' cost, dfsLoop n Li pinv f s = .ok s' ∧
        (∀ w, dfsLoopT β n Li pinv f s w = (.ok s', w + β * cost)) ∧
        cost + Used Lp0 pinv n s.xi M stk + degSum Lp0 pinv out + 2 * (2 * out.length + stk.length) ≤
          degSum Lp0 pinv out' + 2 * (2 * out'.length) ∧
        DInv n Lp0 Li pinv R out0 j0 [] out' M' s'
  | 0, stk, out, M, s, hI, hf => by
    have hlen := nodup_length_le hI.nodup hI.range
    simp only [List.length_append] at hlen
    have : stk = [] := List.length_eq_zero_iff.mp (by omega)
    subst this
    have := hI.head
    have hneg : ¬ 0 ≤ s.head := by simp at this; omega
    refine ⟨s, out, M, 0, ?_, ?_, by simp [Used], hI⟩
    · unfold dfsLoop
      rw [if_neg hneg]
    · intro w
      unfold dfsLoopT
      rw [if_neg hneg]
      rfl
  | f + 1, stk, out, M, s, hI, hf => by
    rcases List.eq_nil_or_concat stk with rfl | ⟨stk', j, rfl⟩
    · have := hI.head
      have hneg : ¬ 0 ≤ s.head := by simp at this; omega
      refine ⟨s, out, M, 0, ?_, ?_, by simp [Used], hI⟩
      · unfold dfsLoop
        rw [if_neg hneg]
      · intro w
        unfold dfsLoopT
        rw [if_neg hneg]
        rfl
    · have h0 : 0 ≤ s.head := by
        have := hI.head
        simp at this; omega
      rw [List.concat_eq_append] at hI
      obtain ⟨s1, stk1, out1, M1, c1, hs1, hc1, hb1, hI1, hm⟩ := dfsStep_cost (β := β) hG hR hout0 hI
      obtain ⟨s2, out2, M2, c2, hs2, hc2, hb2, hI2⟩ := dfsLoop_cost (β := β) hG hR hout0 f stk1 out1 M1 s1 hI1 (by
        simp at hm hf; omega)
      refine ⟨s2, out2, M2, c1 + c2 + 1, ?_, ?_, ?_, hI2⟩
      · unfold dfsLoop
        rw [if_pos h0, hs1, ok_bind, hs2]
      · intro w
        unfold dfsLoopT
        rw [if_pos h0, W.bind_eq]
        simp only [tick, W.bind_eq, hc1, hc2]
        congr 1
        have e : β * (c1 + c2 + 1) = β * c1 + β * c2 + β := by
          rw [Nat.mul_add, Nat.mul_add, Nat.mul_one]
        omega
      · simp only [List.concat_eq_append]
        omega

/-- What is known about the search output between calls of `slip_dfs`. -/
structure RInv (n : Nat) (Lp0 Li pinv : Arr Int) (R : Int → Prop) (out : List Int)
    (top : Int) (Lp xi : Arr Int) : Prop where
  htop : top = (n : Int) - out.length
  len : xi.length = 2 * n
  seg : Seg xi top out
  marks : Marks Lp0 Lp out
  nodup : out.Nodup
  range : ∀ x ∈ out, 0 ≤ x ∧ x < n
  closed : ∀ x ∈ out, ∀ y, Edge Lp0 Li pinv x y → y ∈ out
  reach : ∀ x ∈ out, R x

theorem slip_dfs_cost {β n : Nat} {Lp0 Li pinv : Arr Int} (hG : Graph n Lp0 Li pinv) {R : Int → Prop}
    (hR : ∀ x y, R x → Edge Lp0 Li pinv x y → R y) {out : List Int} {top : Int} {Lp xi : Arr Int}
    (hI : RInv n Lp0 Li pinv R out top Lp xi) {j : Int} (hj0 : 0 ≤ j) (hjn : j < n) (hj : j ∉ out)
    (hRj : R j) :
    ∃ top' Lp' xi' l cost, slip_dfs n Li pinv top j Lp xi = .ok (top', Lp', xi') ∧
      (∀ w, slip_dfsT β n Li pinv top j Lp xi w = (.ok (top', Lp', xi'), w + β * cost)) ∧
      cost ≤ degSum Lp0 pinv l + 4 * l.length ∧
      RInv n Lp0 Li pinv R (l ++ out) top' Lp' xi' ∧ j ∈ l ++ out := by
  have hnd : (([j] : List Int) ++ out).Nodup := List.nodup_cons.mpr ⟨hj, hI.nodup⟩
  have hrg : ∀ x ∈ ([j] : List Int) ++ out, 0 ≤ x ∧ x < n := by
    intro x hx
    simp only [List.cons_append, List.nil_append, List.mem_cons] at hx
    rcases hx with rfl | hx
    · exact ⟨hj0, hjn⟩
    · exact hI.range x hx
  have hlen := nodup_length_le hnd hrg
  simp only [List.length_append, List.length_singleton] at hlen
  have h0 : (0 : Int) < (xi.length : Int) := by rw [hI.len]; omega
  have htop := hI.htop
  have hD : DInv n Lp0 Li pinv R out j [j] out out
      { head := 0, top := top, Lp := Lp, xi := upd xi 0 j } := by
    refine ⟨by simp, hI.htop, by simpa using hI.len, ?_, ?_, hI.marks, hnd, hrg, ?_, fun x hx => hx,
      ?_, ?_, hI.closed, ⟨[], rfl⟩, ?_, by simp⟩
    · exact Seg.cons (get_upd_self (le_refl _) h0 _) (Seg.nil _ _)
    · exact hI.seg.upd (le_refl _) h0 (by left; omega)
    · intro x hx; simp [hx]
    · intro t ht1 ht2; simp at ht2
    · intro t ht1 ht2
      have : t = 0 := by simp at ht1; omega
      subst this
      simp at ht2
      exact absurd ht2 hj
    · intro x hx
      simp only [List.cons_append, List.nil_append, List.mem_cons] at hx
      rcases hx with rfl | hx
      · exact Or.inr hRj
      · exact Or.inl hx
  obtain ⟨s', out', M', cost, hs', hcost, hb, hD'⟩ :=
    dfsLoop_cost (β := β) hG hR hI.closed (2 * n + 1) [j] out out _ hD (by omega)
  obtain ⟨l, hl⟩ := hD'.suffix
  subst hl
  refine ⟨s'.top, s'.Lp, s'.xi, l, cost, ?_, ?_, ?_, ?_, ?_⟩
  · unfold slip_dfs
    rw [wr_eq (le_refl _) h0, ok_bind]
    simp only [Int.toNat_natCast]
    rw [hs']; rfl
  · intro w
    unfold slip_dfsT
    rw [wr_eq (le_refl _) h0, W.lift_bind, W.bind_eq]
    simp only [Int.toNat_natCast]
    rw [hcost]; rfl
  · simp only [degSum, List.map_append, List.sum_append, List.length_append, List.length_singleton] at hb ⊢
    omega
  · have hmm : ∀ x, x ∈ M' ↔ x ∈ l ++ out := fun x =>
      ⟨fun h => by simpa using hD'.mem x h, fun h => hD'.memO x h⟩
    refine ⟨hD'.top, hD'.len, hD'.segO, hD'.marks.congr hmm, by simpa using hD'.nodup,
      by simpa using hD'.range, fun x hx y hy => (hmm y).mp (hD'.closed x hx y hy), ?_⟩
    intro x hx
    rcases hD'.reach x (by simpa using hx) with h | h
    · exact hI.reach x h
    · exact h
  · simpa using hD'.j0

theorem reach_unmark {n : Nat} {Lp0 Li pinv : Arr Int} (hG : Graph n Lp0 Li pinv)
    {xi : Arr Int} : ∀ (out : List Int) (top : Int) (Lp : Arr Int), Seg xi top out →
    Marks Lp0 Lp out → out.Nodup → (∀ x ∈ out, 0 ≤ x ∧ x < n) →
    forCnt out.length top Lp (fun p Lp => do let j ← rd xi p; mark Lp j) = .ok Lp0
  | [], top, Lp, _, hM, _, _ => by simp [forCnt, hM.nil_eq]
  | j :: out, top, Lp, hs, hM, hn, hr => by
    have hjr := hr j (by simp)
    obtain ⟨v, hv, _⟩ := hG.ptr j hjr.1 (by omega)
    rw [List.nodup_cons] at hn
    obtain ⟨Lp', h1, h2⟩ := hM.unmark hv hn.1
    simp only [List.length_cons, forCnt, rd_eq hs.head, ok_bind, h1]
    exact reach_unmark hG out (top + 1) Lp' hs.tail h2 hn.2 fun x hx => hr x (by simp [hx])

/-- The first loop of `slip_reach`. -/
theorem reachLoop_cost {n : Nat} {Ai Lp Li pinv : Arr Int} (hG : Graph n Lp Li pinv) {R : Int → Prop}
    (hR : ∀ x y, R x → Edge Lp Li pinv x y → R y) (β : ℕ) : ∀ (m : ℕ) (q : Int) (top : Int) (Lp' xi : Arr Int)
    (out : List Int), RInv n Lp Li pinv R out top Lp' xi →
    (∀ p, q ≤ p → p < q + m → ∃ i, get Ai p = some i ∧ 0 ≤ i ∧ i < n ∧ R i) →
    ∃ top' Lp'' xi' l cost, (forCnt m q (top, Lp', xi) fun p (st : Int × Arr Int × Arr Int) => do
        let i ← rd Ai p
        let b ← marked st.2.1 i
        if b then pure (st.1, st.2.1, st.2.2) else slip_dfs n Li pinv st.1 i st.2.1 st.2.2) =
          .ok (top', Lp'', xi') ∧
      (∀ w, (forCntT β m q (top, Lp', xi) fun p (st : Int × Arr Int × Arr Int) => do
        let i ← W.lift (rd Ai p)
        let b ← W.lift (marked st.2.1 i)
        if b then pure (st.1, st.2.1, st.2.2) else slip_dfsT β n Li pinv st.1 i st.2.1 st.2.2) w =
          (.ok (top', Lp'', xi'), w + β * cost)) ∧
      cost ≤ m + degSum Lp pinv l + 4 * l.length ∧ RInv n Lp Li pinv R (l ++ out) top' Lp'' xi' ∧
      ∀ p i, q ≤ p → p < q + m → get Ai p = some i → i ∈ l ++ out
  | 0, q, top, Lp', xi, out, hI, _ =>
    ⟨top, Lp', xi, [], 0, rfl, fun w => rfl, by omega, hI, fun p i h1 h2 => by omega⟩
  | m + 1, q, top, Lp', xi, out, hI, hrow => by
    obtain ⟨i, hi, hi0, hin, hRi⟩ := hrow q (le_refl _) (by omega)
    obtain ⟨v, hv, hv0⟩ := hG.ptr i hi0 (by omega)
    obtain ⟨top1, Lp1, xi1, l1, c1, h1, h2, h3, h4, h5⟩ : ∃ top1 Lp1 xi1 l1 c1,
        (if decide (i ∈ out) then pure (top, Lp', xi) else slip_dfs n Li pinv top i Lp' xi) =
          .ok (top1, Lp1, xi1) ∧
        (∀ w, (if decide (i ∈ out) then pure (top, Lp', xi) else slip_dfsT β n Li pinv top i Lp' xi : W _) w =
          (.ok (top1, Lp1, xi1), w + β * c1)) ∧ c1 ≤ degSum Lp pinv l1 + 4 * l1.length ∧
        RInv n Lp Li pinv R (l1 ++ out) top1 Lp1 xi1 ∧ i ∈ l1 ++ out := by
      by_cases hm : i ∈ out
      · simp only [hm, decide_true, if_true]
        exact ⟨top, Lp', xi, [], 0, rfl, fun w => rfl, by simp, hI, hm⟩
      · simp only [hm, decide_false, Bool.false_eq_true, if_false]
        exact slip_dfs_cost hG hR hI hi0 hin hm hRi
    obtain ⟨top2, Lp2, xi2, l2, c2, g1, g2, g3, g4, g5⟩ := reachLoop_cost hG hR β m (q + 1) top1 Lp1 xi1 _ h4
      fun p a b => hrow p (by omega) (by omega)
    refine ⟨top2, Lp2, xi2, l2 ++ l1, c1 + c2 + 1, ?_, ?_, ?_, by rwa [List.append_assoc], ?_⟩
    · unfold forCnt
      simp only [rd_eq hi, ok_bind, hI.marks.marked hv hv0]
      rw [h1, ok_bind, g1]
    · intro w
      unfold forCntT
      simp only [rd_eq hi, W.lift_bind, hI.marks.marked hv hv0]
      rw [W.bind_eq]
      simp only [tick]
      rw [W.bind_eq, h2]
      simp only [g2]
      congr 1
      rw [Nat.mul_add, Nat.mul_add, Nat.mul_one]
      omega
    · simp only [degSum, List.map_append, List.sum_append, List.length_append] at h3 g3 ⊢
      omega
    · intro p i' a1 a2 a3
      rw [List.append_assoc]
      by_cases e : p = q
      · subst e; rw [hi] at a3; cases a3; exact List.mem_append_right _ h5
      · exact g5 p i' (by omega) (by omega) a3

/-- `slip_reach` terminates without undefined behaviour, leaves `L->p` unchanged, and returns in
`xi[top..n-1]` exactly the reachable rows, each once.  Its loops make at most as many iterations as there are
entries in the columns of the rows returned, five for each row, and one for each entry of the column of `A`. -/
theorem slip_reach_cost {n : Nat} {Ap Ai Lp Li pinv : Arr Int} (hG : Graph n Lp Li pinv)
    {col a b : Int} (ha : get Ap col = some a) (hb : get Ap (col + 1) = some b)
    (hrow : ∀ p, a ≤ p → p < b → ∃ i, get Ai p = some i ∧ 0 ≤ i ∧ i < n)
    {xi : Arr Int} (hxi : xi.length = 2 * n) (β : ℕ) :
    ∃ xi' out, slip_reach n Ap Ai Li pinv col Lp xi = .ok ((n : Int) - out.length, Lp, xi') ∧
      xi'.length = 2 * n ∧ Seg xi' ((n : Int) - out.length) out ∧ out.Nodup ∧
      (∀ x ∈ out, 0 ≤ x ∧ x < n) ∧ (∀ x, x ∈ out ↔ Reachable Ap Ai Lp Li pinv col x) ∧
      Cnt (β * ((b - a).toNat + degSum Lp pinv out + 5 * out.length))
        (slip_reachT β n Ap Ai Li pinv col Lp xi) (slip_reach n Ap Ai Li pinv col Lp xi) := by
  have hR : ∀ x y, Reachable Ap Ai Lp Li pinv col x → Edge Lp Li pinv x y →
      Reachable Ap Ai Lp Li pinv col y := by
    rintro x y ⟨s, h1, h2⟩ h3
    exact ⟨s, h1, h2.tail h3⟩
  have hinit : RInv n Lp Li pinv (Reachable Ap Ai Lp Li pinv col) [] (n : Int) Lp xi :=
    ⟨by simp, hxi, Seg.nil _ _, ⟨rfl, fun j => by simp⟩, by simp, by simp, by simp, by simp⟩
  obtain ⟨top, Lp', xi', out, cost, hst, hcost, hle, hI, hall⟩ := reachLoop_cost hG hR β (b - a).toNat a _ _ _ _
    hinit fun p h1 h2 => by
      obtain ⟨i, hi, hi0, hin⟩ := hrow p h1 (by omega)
      exact ⟨i, hi, hi0, hin, i, ⟨a, b, p, ha, hb, h1, by omega, hi⟩, .refl⟩
  rw [List.append_nil] at hI hall
  have htop := hI.htop
  have h2 := reach_unmark hG out top Lp' hI.seg hI.marks hI.nodup hI.range
  have h3 : ((n : Int) - top).toNat = out.length := by omega
  have hrun : slip_reach n Ap Ai Li pinv col Lp xi = .ok ((n : Int) - out.length, Lp, xi') := by
    unfold slip_reach
    rw [rd_eq ha, ok_bind, rd_eq hb, ok_bind]
    have : (forRange a b ((n : Int), Lp, xi) fun p (x : Int × Arr Int × Arr Int) =>
        match x with
        | (top, Lp, xi) => do
          let i ← rd Ai p
          let b ← marked Lp i
          if b then pure (top, Lp, xi) else slip_dfs n Li pinv top i Lp xi) = .ok (top, Lp', xi') := hst
    rw [this, ok_bind]
    simp only [forRange, h3, h2, ok_bind]
    rw [← htop]; rfl
  refine ⟨xi', out, hrun, hI.len, by rw [← htop]; exact hI.seg, hI.nodup, hI.range, ?_, ?_⟩
  · intro x
    refine ⟨fun hx => hI.reach x hx, ?_⟩
    rintro ⟨s, ⟨a', b', p, g1, g2, g3, g4, g5⟩, h2⟩
    rw [ha] at g1; cases g1
    rw [hb] at g2; cases g2
    have hs : s ∈ out := hall p s g3 (by omega) g5
    induction h2 with
    | refl => exact hs
    | tail _ he ih => exact hI.closed _ ih _ he
  · intro w
    have hun : Cnt (out.length * (β + 0)) (forRangeT β top n Lp' fun p Lp => W.lift (do
        let j ← rd xi' p
        mark Lp j)) (forRange top n Lp' fun p Lp => do
        let j ← rd xi' p
        mark Lp j) := by
      rw [← h3]
      exact Cnt.forRange fun i s _ _ => Cnt.lift _
    obtain ⟨w', e, hw'⟩ := hun (w + β * cost)
    have hf : (forRange top n Lp' fun p Lp => do
        let j ← rd xi' p
        mark Lp j) = .ok Lp := by simp only [forRange, h3, h2]
    rw [hf] at e
    refine ⟨w', ?_, ?_⟩
    · rw [hrun]
      unfold slip_reachT
      rw [rd_eq ha, rd_eq hb]
      simp only [W.lift_bind]
      rw [W.bind_eq]
      have : (forRangeT β a b ((n : Int), Lp, xi) fun p (x : Int × Arr Int × Arr Int) =>
        match x with
        | (top, Lp, xi) => do
          let i ← W.lift (rd Ai p)
          let b ← W.lift (marked Lp i)
          if b then pure (top, Lp, xi) else slip_dfsT β n Li pinv top i Lp xi) w =
            (.ok (top, Lp', xi'), w + β * cost) := hcost w
      rw [this]
      simp only
      rw [W.bind_eq, e, ← htop]
      rfl
    · have : β * cost + β * out.length ≤ β * ((b - a).toNat + degSum Lp pinv out + 5 * out.length) := by
        rw [← Nat.mul_add]
        exact Nat.mul_le_mul_left _ (by omega)
      have e2 : out.length * (β + 0) = β * out.length := by rw [Nat.add_zero, Nat.mul_comm]
      rw [e2] at hw'
      omega

theorem slip_reach_spec {n : Nat} {Ap Ai Lp Li pinv : Arr Int} (hG : Graph n Lp Li pinv)
    {col a b : Int} (ha : get Ap col = some a) (hb : get Ap (col + 1) = some b)
    (hrow : ∀ p, a ≤ p → p < b → ∃ i, get Ai p = some i ∧ 0 ≤ i ∧ i < n)
    {xi : Arr Int} (hxi : xi.length = 2 * n) :
    ∃ xi' out, slip_reach n Ap Ai Li pinv col Lp xi = .ok ((n : Int) - out.length, Lp, xi') ∧
      xi'.length = 2 * n ∧ Seg xi' ((n : Int) - out.length) out ∧ out.Nodup ∧
      (∀ x ∈ out, 0 ≤ x ∧ x < n) ∧ ∀ x, x ∈ out ↔ Reachable Ap Ai Lp Li pinv col x := by
  obtain ⟨xi', out, h1, h2, h3, h4, h5, h6, _⟩ := slip_reach_cost hG ha hb hrow hxi 0
  exact ⟨xi', out, h1, h2, h3, h4, h5, h6⟩

end Slip
