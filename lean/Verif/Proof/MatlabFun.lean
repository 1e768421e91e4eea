import Verif.Model.MatlabFun
import Verif.SpecMatlab
import Mathlib.Algebra.BigOperators.Fin
import Mathlib.Algebra.BigOperators.Group.Finset.Basic
import Mathlib.Data.Int.Interval

/-!
# MATLAB's `sparse (A)` represents the same matrix
-/

namespace Slip

theorem get_map_nat {α β : Type} (l : List α) (f : α → β) (t : ℕ) :
    get (l.map fun e => some (f e)) (t : ℤ) = (l[t]?).map f := by
  unfold get
  rw [if_neg (by omega), Int.toNat_natCast, List.getElem?_map]
  cases l[t]? <;> rfl

/-- A sum over consecutive positions is a sum over a list. -/
theorem sum_Ico_list {γ : Type} (l : List γ) (g : γ → ℚ) (a : ℤ) (F : ℤ → ℚ)
    (h : ∀ (s : ℕ) (hs : s < l.length), F (a + s) = g l[s]) :
    ∑ t ∈ Finset.Ico a (a + l.length), F t = (l.map g).sum := by
  rw [← Fin.sum_univ_fun_getElem l g]
  trans ∑ s ∈ Finset.range l.length, if hs : s < l.length then g l[s] else 0
  · refine Finset.sum_nbij' (fun t => (t - a).toNat) (fun s => a + s) ?_ ?_ ?_ ?_ ?_
    · intro t ht; rw [Finset.mem_Ico] at ht; rw [Finset.mem_range]; omega
    · intro s hs; rw [Finset.mem_range] at hs; rw [Finset.mem_Ico]; omega
    · intro t ht; rw [Finset.mem_Ico] at ht; omega
    · intro s hs; omega
    · intro t ht
      rw [Finset.mem_Ico] at ht
      have hs : (t - a).toNat < l.length := by omega
      rw [dif_pos hs, ← h _ hs]
      congr 1
      omega
  · rw [Finset.sum_range]
    exact Finset.sum_congr rfl fun s _ => dif_pos s.2

theorem sum_filterMap {α γ : Type} (l : List α) (f : α → Option γ) (g : γ → ℚ) :
    ((l.filterMap f).map g).sum = (l.map fun i => ((f i).map g).getD 0).sum := by
  induction l with
  | nil => rfl
  | cons a l ih =>
    rw [List.filterMap_cons]
    cases hf : f a with
    | none => simp [hf, ih]
    | some c => simp [hf, ih]

namespace MxFull

variable {A : MxFull} {n : ℕ}

theorem upTo_succ (A : MxFull) (j : ℕ) : A.upTo (j + 1) = A.upTo j ++ A.column j := by
  unfold upTo
  rw [List.range_succ, List.flatMap_append, List.flatMap_singleton]

theorem upTo_split (A : MxFull) {j : ℕ} : ∀ {n : ℕ}, j < n → ∃ rest, A.upTo n = A.upTo j ++ A.column j ++ rest
  | 0, h => absurd h (by omega)
  | n + 1, h => by
    by_cases e : j = n
    · subst e
      exact ⟨[], by rw [upTo_succ, List.append_nil]⟩
    · obtain ⟨rest, hr⟩ := upTo_split A (show j < n by omega)
      exact ⟨rest ++ A.column n, by rw [upTo_succ, hr]; simp only [List.append_assoc]⟩

theorem upTo_get (A : MxFull) {j : ℕ} (h : j < n) {s : ℕ} (hs : s < (A.column j).length) :
    (A.upTo n)[(A.upTo j).length + s]? = some (A.column j)[s] := by
  obtain ⟨rest, e⟩ := A.upTo_split h
  rw [e, List.append_assoc, List.getElem?_append_right (by omega), Nat.add_sub_cancel_left,
    List.getElem?_append_left hs, List.getElem?_eq_getElem hs]

theorem jc_get (hn : A.n = n) {j : ℕ} (h : j ≤ n) : get A.sparse.jc (j : ℤ) = some ((A.upTo j).length : ℤ) := by
  show get ((List.range (A.n.toNat + 1)).map fun j => some ((A.upTo j).length : ℤ)) (j : ℤ) = _
  rw [get_map_nat (List.range (A.n.toNat + 1)) (fun j => ((A.upTo j).length : ℤ)), List.getElem?_range (by omega)]
  rfl

theorem ir_get (hn : A.n = n) {j : ℕ} (h : j < n) {s : ℕ} (hs : s < (A.column j).length) :
    get A.sparse.ir (((A.upTo j).length : ℤ) + s) = some (A.column j)[s].1 := by
  have e : A.n.toNat = n := by omega
  show get ((A.upTo A.n.toNat).map fun e => some e.1) _ = _
  rw [show ((A.upTo j).length : ℤ) + s = (((A.upTo j).length + s : ℕ) : ℤ) by push_cast; rfl,
    get_map_nat (A.upTo A.n.toNat) (fun e => e.1), e, A.upTo_get h hs]
  rfl

theorem pr_get (hn : A.n = n) {j : ℕ} (h : j < n) {s : ℕ} (hs : s < (A.column j).length) :
    get A.sparse.pr (((A.upTo j).length : ℤ) + s) = some (A.column j)[s].2 := by
  have e : A.n.toNat = n := by omega
  show get ((A.upTo A.n.toNat).map fun e => some e.2) _ = _
  rw [show ((A.upTo j).length : ℤ) + s = (((A.upTo j).length + s : ℕ) : ℤ) by push_cast; rfl,
    get_map_nat (A.upTo A.n.toNat) (fun e => e.2), e, A.upTo_get h hs]
  rfl

theorem mem_column (hm : A.m = n) {j : ℕ} {e : ℤ × Dbl} (h : e ∈ A.column j) :
    ∃ i : ℕ, i < n ∧ e.1 = i ∧ get A.pr ((i : ℤ) + j * n) = some e.2 := by
  unfold column at h
  rw [List.mem_filterMap] at h
  obtain ⟨i, hi, h⟩ := h
  rw [List.mem_range] at hi
  rw [hm] at h
  cases hg : get A.pr ((i : ℤ) + j * n) with
  | none => rw [hg] at h; cases h
  | some d =>
    rw [hg] at h
    dsimp only at h
    by_cases hd : d = .fin 0
    · rw [if_pos hd] at h; cases h
    · rw [if_neg hd] at h
      cases h
      exact ⟨i, by omega, rfl, hg⟩

theorem column_sorted (A : MxFull) (j : ℕ) : (A.column j).Pairwise fun e e' => e.1 < e'.1 := by
  unfold column
  rw [List.pairwise_filterMap]
  refine List.pairwise_lt_range.imp fun {a a'} h b hb b' hb' => ?_
  have key : ∀ {i : ℕ} {b : ℤ × Dbl}, (match get A.pr ((i : ℤ) + j * A.m) with
      | some d => if d = Dbl.fin 0 then none else some ((i : ℤ), d)
      | none => (none : Option (ℤ × Dbl))) = some b → b.1 = i := by
    intro i b hb
    split at hb
    · split at hb
      · cases hb
      · cases hb; rfl
    · cases hb
  rw [key hb, key hb']
  exact_mod_cast h

/-- `sparse (A)` is a valid sparse array. -/
theorem sparse_ok (h : A.Ok n n) : A.sparse.Ok n := by
  refine ⟨h.rows, h.cols, jc_get h.cols (Nat.zero_le n), fun j hj => ?_⟩
  refine ⟨_, _, jc_get h.cols (by omega), jc_get (j := j + 1) h.cols (by omega), ?_, ?_, ?_⟩
  · rw [upTo_succ, List.length_append]; push_cast; omega
  · intro t h1 h2
    rw [upTo_succ, List.length_append] at h2
    obtain ⟨s, rfl⟩ : ∃ s : ℕ, t = (A.upTo j).length + s := ⟨(t - (A.upTo j).length).toNat, by omega⟩
    have hs : s < (A.column j).length := by push_cast at h2; omega
    obtain ⟨i, hi, e1, e2⟩ := mem_column h.rows (List.getElem_mem hs)
    rw [ir_get h.cols hj hs, pr_get h.cols hj hs, e1]
    obtain ⟨v, hv⟩ := h.entry i hi j hj
    rw [e2] at hv
    exact ⟨⟨i, hi, rfl⟩, v, hv⟩
  · intro t t' h1 h2 h1' h2' e
    rw [upTo_succ, List.length_append] at h2 h2'
    obtain ⟨s, rfl⟩ : ∃ s : ℕ, t = (A.upTo j).length + s := ⟨(t - (A.upTo j).length).toNat, by omega⟩
    obtain ⟨s', rfl⟩ : ∃ s' : ℕ, t' = (A.upTo j).length + s' := ⟨(t' - (A.upTo j).length).toNat, by omega⟩
    have hs : s < (A.column j).length := by push_cast at h2; omega
    have hs' : s' < (A.column j).length := by push_cast at h2'; omega
    rw [ir_get h.cols hj hs, ir_get h.cols hj hs'] at e
    have e := Option.some.inj e
    have hp := List.pairwise_iff_getElem.1 (A.column_sorted j)
    rcases lt_trichotomy s s' with hl | hl | hl
    · have := hp s s' hs hs' hl
      omega
    · rw [hl]
    · have := hp s' s hs' hs hl
      omega

/-- `sparse (A)` stands for the same matrix. -/
theorem sparse_matrix (h : A.Ok n n) : A.sparse.matrix n = A.matrix n n := by
  ext i j
  unfold MxSparse.matrix MxFull.matrix
  rw [Matrix.of_apply, Matrix.of_apply]
  have h1 := jc_get h.cols (show (j : ℕ) ≤ n by omega)
  have h2 : get A.sparse.jc ((j : ℕ) + 1 : ℤ) = some (((A.upTo (j + 1)).length : ℕ) : ℤ) := by
    have := jc_get h.cols (show (j : ℕ) + 1 ≤ n by omega)
    push_cast at this
    exact this
  rw [h1, h2]
  dsimp only
  rw [show (((A.upTo ((j : ℕ) + 1)).length : ℕ) : ℤ) = ((A.upTo j).length : ℤ) + (A.column j).length by
    rw [upTo_succ, List.length_append]; push_cast; rfl]
  rw [sum_Ico_list (A.column j) (fun e => if e.1 = ((i : ℕ) : ℤ) then e.2.rat.getD 0 else 0)]
  · unfold column
    rw [sum_filterMap]
    have hm : A.m.toNat = n := by rw [h.rows]; omega
    rw [hm, h.rows]
    have e : ∀ k : ℕ, ((match get A.pr ((k : ℤ) + (j : ℕ) * n) with
          | some d => if d = Dbl.fin 0 then none else some ((k : ℤ), d)
          | none => (none : Option (ℤ × Dbl))).map fun e : ℤ × Dbl => if e.1 = ((i : ℕ) : ℤ) then e.2.rat.getD 0 else 0).getD 0 =
        if k = i then ((get A.pr ((k : ℤ) + (j : ℕ) * n)).bind Dbl.rat).getD 0 else 0 := by
      intro k
      cases hg : get A.pr ((k : ℤ) + (j : ℕ) * n) with
      | none => simp
      | some d =>
        by_cases hd : d = .fin 0
        · subst hd
          simp [Dbl.rat]
        · simp [hd]
    refine (congrArg List.sum (List.map_congr_left fun k _ => e k)).trans ?_
    have : ((List.range n).map fun k => if k = (i : ℕ) then
        ((get A.pr ((k : ℤ) + (j : ℕ) * n)).bind Dbl.rat).getD 0 else 0).sum =
        ∑ k ∈ Finset.range n, if k = (i : ℕ) then ((get A.pr ((k : ℤ) + (j : ℕ) * n)).bind Dbl.rat).getD 0 else 0 := rfl
    rw [this, Finset.sum_ite_eq' (Finset.range n) (i : ℕ), if_pos (Finset.mem_range.2 i.2)]
  · intro s hs
    rw [ir_get h.cols j.2 hs, pr_get h.cols j.2 hs]
    simp only [Option.some.injEq, Option.bind_some]

end MxFull

end Slip
