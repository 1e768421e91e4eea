import Verif.Model.Colamd
import Mathlib.Tactic.Common

/-!
# COLAMD: unbounded and 64-bit integers

A run of COLAMD with 64-bit integers either has an overflow (undefined behaviour), or it does the same
as the run with unbounded integers.
-/

namespace Slip

/-- `m'` is undefined, or the same as `m`. -/
def Le {α : Type} (m' m : C α) : Prop := m' = .error .ub ∨ m' = m

theorem Le.refl {α : Type} (m : C α) : Le m m := Or.inr rfl

theorem Le.bind {α β : Type} {m' m : C α} {f' f : α → C β} (h : Le m' m) (hf : ∀ a, Le (f' a) (f a)) :
    Le (m' >>= f') (m >>= f) := by
  rcases h with rfl | rfl
  · exact Or.inl rfl
  · cases m' with
    | error e => exact Or.inr rfl
    | ok a => exact hf a

theorem Le.forCnt {σ : Type} {f' f : Int → σ → C σ} (h : ∀ i s, Le (f' i s) (f i s)) :
    ∀ (k : Nat) (lo : Int) (s : σ), Le (Slip.forCnt k lo s f') (Slip.forCnt k lo s f)
  | 0, _, _ => Or.inr rfl
  | k + 1, lo, s => by
    unfold Slip.forCnt
    exact (h lo s).bind fun s => Le.forCnt h k (lo + 1) s

theorem Le.forRange {σ : Type} {f' f : Int → σ → C σ} {lo hi : Int} {s : σ}
    (h : ∀ i s, Le (f' i s) (f i s)) : Le (Slip.forRange lo hi s f') (Slip.forRange lo hi s f) :=
  Le.forCnt h _ lo s

theorem Le.forDownCnt {σ : Type} {f' f : Int → σ → C σ} (h : ∀ i s, Le (f' i s) (f i s)) :
    ∀ (k : Nat) (lo : Int) (s : σ), Le (Slip.forDownCnt k lo s f') (Slip.forDownCnt k lo s f)
  | 0, _, _ => Or.inr rfl
  | k + 1, lo, s => by
    unfold Slip.forDownCnt
    exact (h (lo + k) s).bind fun s => Le.forDownCnt h k lo s

theorem Le.forDown {σ : Type} {f' f : Int → σ → C σ} {lo hi : Int} {s : σ}
    (h : ∀ i s, Le (f' i s) (f i s)) : Le (Slip.forDown lo hi s f') (Slip.forDown lo hi s f) :=
  Le.forDownCnt h _ lo s

theorem Le.i64 (v : Int) : Le (Slip.i64 v) (.ok v) := by
  unfold Slip.i64
  split
  · exact Or.inr rfl
  · exact Or.inl rfl

theorem Le.ck (v : Int) : Le (Arith.ck (self := Arith.bits64) v) (Arith.ck (self := Arith.exact) v) :=
  Le.i64 v

theorem Le.eq {α : Type} {m' m : C α} (h : Le m' m) (hu : m' ≠ .error .ub) : m' = m := h.resolve_left hu

/-- Lemmas for the functions that are called. -/
syntax "le_leaf" : tactic

macro_rules | `(tactic| le_leaf) => `(tactic| with_reducible exact Le.refl _)
macro_rules | `(tactic| le_leaf) => `(tactic| with_reducible exact Le.ck _)

macro "les" : tactic => `(tactic| repeat' first
  | le_leaf
  | with_reducible apply Le.bind
  | with_reducible apply Le.forRange
  | with_reducible apply Le.forDown
  | intro _
  | split)

namespace Colamd

theorem initCols_le (n : Int) (s : Mem) :
    Le (initCols (ar := Arith.bits64) n s) (initCols (ar := Arith.exact) n s) := by
  unfold initCols
  les

macro_rules | `(tactic| le_leaf) => `(tactic| with_reducible exact initCols_le ..)

theorem scanEntry_le (m col : Int) (i : Int) (z : Scan) :
    Le (scanEntry (ar := Arith.bits64) m col i z) (scanEntry (ar := Arith.exact) m col i z) := by
  unfold scanEntry
  les

macro_rules | `(tactic| le_leaf) => `(tactic| with_reducible exact scanEntry_le ..)

theorem scanCols_le (n m : Int) (s : Mem) :
    Le (scanCols (ar := Arith.bits64) n m s) (scanCols (ar := Arith.exact) n m s) := by
  unfold scanCols
  les

macro_rules | `(tactic| le_leaf) => `(tactic| with_reducible exact scanCols_le ..)

theorem rowStarts_le (n m : Int) (s : Mem) :
    Le (rowStarts (ar := Arith.bits64) n m s) (rowStarts (ar := Arith.exact) n m s) := by
  unfold rowStarts
  les

macro_rules | `(tactic| le_leaf) => `(tactic| with_reducible exact rowStarts_le ..)

theorem fillRows_le (n : Int) (jumbled : Bool) (s : Mem) :
    Le (fillRows (ar := Arith.bits64) n jumbled s) (fillRows (ar := Arith.exact) n jumbled s) := by
  unfold fillRows
  les

macro_rules | `(tactic| le_leaf) => `(tactic| with_reducible exact fillRows_le ..)

theorem rebuildCols_le (n m : Int) (s : Mem) :
    Le (rebuildCols (ar := Arith.bits64) n m s) (rebuildCols (ar := Arith.exact) n m s) := by
  unfold rebuildCols
  les

macro_rules | `(tactic| le_leaf) => `(tactic| with_reducible exact rebuildCols_le ..)

theorem init_rows_cols_le (n m : Int) (s : Mem) :
    Le (init_rows_cols (ar := Arith.bits64) n m s) (init_rows_cols (ar := Arith.exact) n m s) := by
  unfold init_rows_cols
  les

macro_rules | `(tactic| le_leaf) => `(tactic| with_reducible exact init_rows_cols_le ..)

theorem killEmpty_le (n : Int) (s : Mem) (n2 : Int) :
    Le (killEmpty (ar := Arith.bits64) n s n2) (killEmpty (ar := Arith.exact) n s n2) := by
  unfold killEmpty
  les

macro_rules | `(tactic| le_leaf) => `(tactic| with_reducible exact killEmpty_le ..)

theorem killDense_le (n dc : Int) (s : Mem) (n2 : Int) :
    Le (killDense (ar := Arith.bits64) n dc s n2) (killDense (ar := Arith.exact) n dc s n2) := by
  unfold killDense
  les

macro_rules | `(tactic| le_leaf) => `(tactic| with_reducible exact killDense_le ..)

theorem scoreCol_le (n st len : Int) (s : Mem) :
    Le (scoreCol (ar := Arith.bits64) n st len s) (scoreCol (ar := Arith.exact) n st len s) := by
  unfold scoreCol
  les

macro_rules | `(tactic| le_leaf) => `(tactic| with_reducible exact scoreCol_le ..)

theorem scoreCols_le (n : Int) (s : Mem) (n2 : Int) :
    Le (scoreCols (ar := Arith.bits64) n s n2) (scoreCols (ar := Arith.exact) n s n2) := by
  unfold scoreCols
  les

macro_rules | `(tactic| le_leaf) => `(tactic| with_reducible exact scoreCols_le ..)

theorem init_scoring_le (n m : Int) (K : Knobs) (s : Mem) :
    Le (init_scoring (ar := Arith.bits64) n m K s) (init_scoring (ar := Arith.exact) n m K s) := by
  unfold init_scoring
  les

macro_rules | `(tactic| le_leaf) => `(tactic| with_reducible exact init_scoring_le ..)

theorem gcMark_le (m : Int) (s : Mem) :
    Le (gcMark (ar := Arith.bits64) m s) (gcMark (ar := Arith.exact) m s) := by
  unfold gcMark
  les

macro_rules | `(tactic| le_leaf) => `(tactic| with_reducible exact gcMark_le ..)

theorem gcRows_le  : ∀ (fuel : Nat) (src : Int) (dst : Int) (pfree : Int) (z0 : Mem),
    Le (gcRows (ar := Arith.bits64)  fuel src dst pfree z0) (gcRows (ar := Arith.exact)  fuel src dst pfree z0) := by
  intro fuel
  induction fuel with
  | zero => intros; exact Le.refl _
  | succ fuel ih =>
    intros
    unfold gcRows
    les <;> exact ih ..

macro_rules | `(tactic| le_leaf) => `(tactic| with_reducible exact gcRows_le ..)

theorem garbage_collection_le (n m : Int) (pfree : Int) (s : Mem) :
    Le (garbage_collection (ar := Arith.bits64) n m pfree s) (garbage_collection (ar := Arith.exact) n m pfree s) := by
  unfold garbage_collection
  les

macro_rules | `(tactic| le_leaf) => `(tactic| with_reducible exact garbage_collection_le ..)

theorem superInner_le (sc : Int) : ∀ (fuel : Nat) (prev : Int) (c : Int) (z0 : Mem),
    Le (superInner (ar := Arith.bits64) sc fuel prev c z0) (superInner (ar := Arith.exact) sc fuel prev c z0) := by
  intro fuel
  induction fuel with
  | zero => intros; exact Le.refl _
  | succ fuel ih =>
    intros
    unfold superInner
    les <;> exact ih ..

macro_rules | `(tactic| le_leaf) => `(tactic| with_reducible exact superInner_le ..)

theorem superOuter_le (F : Nat) : ∀ (fuel : Nat) (sc : Int) (z0 : Mem),
    Le (superOuter (ar := Arith.bits64) F fuel sc z0) (superOuter (ar := Arith.exact) F fuel sc z0) := by
  intro fuel
  induction fuel with
  | zero => intros; exact Le.refl _
  | succ fuel ih =>
    intros
    unfold superOuter
    les <;> exact ih ..

macro_rules | `(tactic| le_leaf) => `(tactic| with_reducible exact superOuter_le ..)

theorem superCol_le (n : Int) (i : Int) (s : Mem) :
    Le (superCol (ar := Arith.bits64) n i s) (superCol (ar := Arith.exact) n i s) := by
  unfold superCol
  les

macro_rules | `(tactic| le_leaf) => `(tactic| with_reducible exact superCol_le ..)

theorem detect_super_cols_le (n start len : Int) (s : Mem) :
    Le (detect_super_cols (ar := Arith.bits64) n start len s) (detect_super_cols (ar := Arith.exact) n start len s) := by
  unfold detect_super_cols
  les

macro_rules | `(tactic| le_leaf) => `(tactic| with_reducible exact detect_super_cols_le ..)

theorem scanMin_le (n : Int) : ∀ (fuel : Nat) (ms : Int) (z0 : Mem),
    Le (scanMin (ar := Arith.bits64) n fuel ms z0) (scanMin (ar := Arith.exact) n fuel ms z0) := by
  intro fuel
  induction fuel with
  | zero => intros; exact Le.refl _
  | succ fuel ih =>
    intros
    unfold scanMin
    les <;> exact ih ..

macro_rules | `(tactic| le_leaf) => `(tactic| with_reducible exact scanMin_le ..)

theorem rowUnion_le (st len : Int) (s : Mem) (pf deg : Int) :
    Le (rowUnion (ar := Arith.bits64) st len s pf deg) (rowUnion (ar := Arith.exact) st len s pf deg) := by
  unfold rowUnion
  les

macro_rules | `(tactic| le_leaf) => `(tactic| with_reducible exact rowUnion_le ..)

theorem buildRow_le (piv th pf : Int) (s : Mem) :
    Le (buildRow (ar := Arith.bits64) piv th pf s) (buildRow (ar := Arith.exact) piv th pf s) := by
  unfold buildRow
  les

macro_rules | `(tactic| le_leaf) => `(tactic| with_reducible exact buildRow_le ..)

theorem removeDeg_le (col : Int) (s : Mem) :
    Le (removeDeg (ar := Arith.bits64) col s) (removeDeg (ar := Arith.exact) col s) := by
  unfold removeDeg
  les

macro_rules | `(tactic| le_leaf) => `(tactic| with_reducible exact removeDeg_le ..)

theorem setDiffRow_le (tag th : Int) (aggressive : Bool) (i : Int) (s : Mem) :
    Le (setDiffRow (ar := Arith.bits64) tag th aggressive i s) (setDiffRow (ar := Arith.exact) tag th aggressive i s) := by
  unfold setDiffRow
  les

macro_rules | `(tactic| le_leaf) => `(tactic| with_reducible exact setDiffRow_le ..)

theorem setDiff_le (tag start len : Int) (aggressive : Bool) (s : Mem) :
    Le (setDiff (ar := Arith.bits64) tag start len aggressive s) (setDiff (ar := Arith.exact) tag start len aggressive s) := by
  unfold setDiff
  les

macro_rules | `(tactic| le_leaf) => `(tactic| with_reducible exact setDiff_le ..)

theorem addDiffCol_le (n tag st len : Int) (s : Mem) :
    Le (addDiffCol (ar := Arith.bits64) n tag st len s) (addDiffCol (ar := Arith.exact) n tag st len s) := by
  unfold addDiffCol
  les

macro_rules | `(tactic| le_leaf) => `(tactic| with_reducible exact addDiffCol_le ..)

theorem pushHash_le (col hash : Int) (s : Mem) :
    Le (pushHash (ar := Arith.bits64) col hash s) (pushHash (ar := Arith.exact) col hash s) := by
  unfold pushHash
  les

macro_rules | `(tactic| le_leaf) => `(tactic| with_reducible exact pushHash_le ..)

theorem addDiffOne_le (n tag : Int) (i : Int) (z : Mem × Int × Int) :
    Le (addDiffOne (ar := Arith.bits64) n tag i z) (addDiffOne (ar := Arith.exact) n tag i z) := by
  unfold addDiffOne
  les

macro_rules | `(tactic| le_leaf) => `(tactic| with_reducible exact addDiffOne_le ..)

theorem addDiff_le (n tag start len k deg : Int) (s : Mem) :
    Le (addDiff (ar := Arith.bits64) n tag start len k deg s) (addDiff (ar := Arith.exact) n tag start len k deg s) := by
  unfold addDiff
  les

macro_rules | `(tactic| le_leaf) => `(tactic| with_reducible exact addDiff_le ..)

theorem finalizeOne_le (n k prow deg : Int) (i : Int) (z : Mem × Int × Int) :
    Le (finalizeOne (ar := Arith.bits64) n k prow deg i z) (finalizeOne (ar := Arith.exact) n k prow deg i z) := by
  unfold finalizeOne
  les

macro_rules | `(tactic| le_leaf) => `(tactic| with_reducible exact finalizeOne_le ..)

theorem finalize_le (n k prow deg start len ms : Int) (s : Mem) :
    Le (finalize (ar := Arith.bits64) n k prow deg start len ms s) (finalize (ar := Arith.exact) n k prow deg start len ms s) := by
  unfold finalize
  les

macro_rules | `(tactic| le_leaf) => `(tactic| with_reducible exact finalize_le ..)

theorem makeRoom_le (n m Alen maxMark need pf tag : Int) (s : Mem) :
    Le (makeRoom (ar := Arith.bits64) n m Alen maxMark need pf tag s) (makeRoom (ar := Arith.exact) n m Alen maxMark need pf tag s) := by
  unfold makeRoom
  les

macro_rules | `(tactic| le_leaf) => `(tactic| with_reducible exact makeRoom_le ..)

theorem pivotStep_le (n m Alen maxMark : Int) (aggressive : Bool) (z : Ord) :
    Le (pivotStep (ar := Arith.bits64) n m Alen maxMark aggressive z) (pivotStep (ar := Arith.exact) n m Alen maxMark aggressive z) := by
  unfold pivotStep
  les

macro_rules | `(tactic| le_leaf) => `(tactic| with_reducible exact pivotStep_le ..)

theorem pivotLoop_le (n m Alen maxMark n2 : Int) (aggressive : Bool) : ∀ (fuel : Nat) (z0 : Ord),
    Le (pivotLoop (ar := Arith.bits64) n m Alen maxMark n2 aggressive fuel z0) (pivotLoop (ar := Arith.exact) n m Alen maxMark n2 aggressive fuel z0) := by
  intro fuel
  induction fuel with
  | zero => intros; exact Le.refl _
  | succ fuel ih =>
    intros
    unfold pivotLoop
    les <;> exact ih ..

macro_rules | `(tactic| le_leaf) => `(tactic| with_reducible exact pivotLoop_le ..)

theorem find_ordering_le (n m Alen n2 maxDeg pfree : Int) (aggressive : Bool) (s : Mem) :
    Le (find_ordering (ar := Arith.bits64) n m Alen n2 maxDeg pfree aggressive s) (find_ordering (ar := Arith.exact) n m Alen n2 maxDeg pfree aggressive s) := by
  unfold find_ordering
  les

macro_rules | `(tactic| le_leaf) => `(tactic| with_reducible exact find_ordering_le ..)

theorem orderUp_le (parent : Int) : ∀ (fuel : Nat) (c : Int) (order : Int) (z0 : Mem),
    Le (orderUp (ar := Arith.bits64) parent fuel c order z0) (orderUp (ar := Arith.exact) parent fuel c order z0) := by
  intro fuel
  induction fuel with
  | zero => intros; exact Le.refl _
  | succ fuel ih =>
    intros
    unfold orderUp
    les <;> exact ih ..

macro_rules | `(tactic| le_leaf) => `(tactic| with_reducible exact orderUp_le ..)

theorem order_children_le (n : Int) (s : Mem) :
    Le (order_children (ar := Arith.bits64) n s) (order_children (ar := Arith.exact) n s) := by
  unfold order_children
  les

macro_rules | `(tactic| le_leaf) => `(tactic| with_reducible exact order_children_le ..)

theorem colamd_le (n m Alen : Int) (A p : Arr Int) (K : Knobs) :
    Le (colamd (ar := Arith.bits64) n m Alen A p K) (colamd (ar := Arith.exact) n m Alen A p K) := by
  unfold colamd
  iterate 2 (split; exact Le.refl _)
  refine (Le.refl _).bind fun nnz => ?_
  split
  · exact Le.refl _
  refine (Le.refl _).bind fun p0 => ?_
  iterate 2 (split; exact Le.refl _)
  dsimp only
  rcases init_rows_cols_le n m (initMem n m (Alen - (colSize n + rowSize m)) A p) with h | h
  · rw [h]; exact Or.inl rfl
  · rw [h]
    split
    · exact Le.refl _
    · exact Le.refl _
    · les

end Colamd

end Slip
