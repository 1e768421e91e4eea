import Verif.Model.Amd
import Verif.Proof.ColLe

/-!
# AMD: unbounded and 64-bit integers

A run of AMD with 64-bit integers either has an overflow (undefined behaviour), or it does the same as
the run with unbounded integers.
-/

namespace Slip.Amd

theorem lowScan_le {σ : Type} (Ai : Arr Int) {f g : Int → Int → σ → C σ} (h : ∀ i j s, Le (f i j s) (g i j s))
    (k j pj2 : Int) : ∀ (fuel : Nat) (pj : Int) (s : σ), Le (lowScan Ai f k j pj2 fuel pj s) (lowScan Ai g k j pj2 fuel pj s) := by
  intro fuel
  induction fuel with
  | zero => intros; exact Le.refl _
  | succ fuel ih =>
    intros
    unfold lowScan
    les <;> first | exact h .. | exact ih ..

theorem upScan_le {σ : Type} (Ap Ai : Arr Int) {f g : Int → Int → σ → C σ} (h : ∀ i j s, Le (f i j s) (g i j s))
    (k p2 : Int) : ∀ (fuel : Nat) (p : Int) (s : σ) (Tp : Arr Int),
    Le (upScan Ap Ai f k p2 fuel p s Tp) (upScan Ap Ai g k p2 fuel p s Tp) := by
  intro fuel
  induction fuel with
  | zero => intros; exact Le.refl _
  | succ fuel ih =>
    intros
    unfold upScan
    les <;> first | exact h .. | exact lowScan_le _ h .. | exact ih ..

theorem scanAAT_le {σ : Type} (n : Int) (Ap Ai : Arr Int) {f g : Int → Int → σ → C σ}
    (h : ∀ i j s, Le (f i j s) (g i j s)) (s : σ) (Tp : Arr Int) :
    Le (scanAAT n Ap Ai f s Tp) (scanAAT n Ap Ai g s Tp) := by
  unfold scanAAT scanUpper scanRest
  les <;> first | exact h .. | exact upScan_le _ _ h ..

theorem preCount_le (n : Int) (Ap Ai W Flag : Arr Int) :
    Le (preCount (ar := Arith.bits64) n Ap Ai W Flag) (preCount (ar := Arith.exact) n Ap Ai W Flag) := by
  unfold preCount
  les

macro_rules | `(tactic| le_leaf) => `(tactic| with_reducible exact preCount_le ..)

theorem prePtr_le (n : Int) (Rp W : Arr Int) :
    Le (prePtr (ar := Arith.bits64) n Rp W) (prePtr (ar := Arith.exact) n Rp W) := by
  unfold prePtr
  les

macro_rules | `(tactic| le_leaf) => `(tactic| with_reducible exact prePtr_le ..)

theorem preFill_le (n : Int) (Ap Ai Ri W Flag : Arr Int) :
    Le (preFill (ar := Arith.bits64) n Ap Ai Ri W Flag) (preFill (ar := Arith.exact) n Ap Ai Ri W Flag) := by
  unfold preFill
  les

macro_rules | `(tactic| le_leaf) => `(tactic| with_reducible exact preFill_le ..)

theorem amd_preprocess_le (n : Int) (Ap Ai Rp Ri W Flag : Arr Int) :
    Le (amd_preprocess (ar := Arith.bits64) n Ap Ai Rp Ri W Flag) (amd_preprocess (ar := Arith.exact) n Ap Ai Rp Ri W Flag) := by
  unfold amd_preprocess
  les

macro_rules | `(tactic| le_leaf) => `(tactic| with_reducible exact amd_preprocess_le ..)

theorem addLen_le (i j : Int) (Len : Arr Int) :
    Le (addLen (ar := Arith.bits64) i j Len) (addLen (ar := Arith.exact) i j Len) := by
  unfold addLen
  les

macro_rules | `(tactic| le_leaf) => `(tactic| with_reducible exact addLen_le ..)

theorem amd_aat_le (n : Int) (Ap Ai Len Tp : Arr Int) :
    Le (amd_aat (ar := Arith.bits64) n Ap Ai Len Tp) (amd_aat (ar := Arith.exact) n Ap Ai Len Tp) := by
  unfold amd_aat
  les <;> exact scanAAT_le _ _ _ (fun _ _ _ => by le_leaf) _ _

macro_rules | `(tactic| le_leaf) => `(tactic| with_reducible exact amd_aat_le ..)

theorem initLists_le (n dense : Int) (s : Mem) :
    Le (initLists (ar := Arith.bits64) n dense s) (initLists (ar := Arith.exact) n dense s) := by
  unfold initLists
  les

macro_rules | `(tactic| le_leaf) => `(tactic| with_reducible exact initLists_le ..)

theorem selectPivot_le (deg me : Int) (s : Mem) :
    Le (selectPivot (ar := Arith.bits64) deg me s) (selectPivot (ar := Arith.exact) deg me s) := by
  unfold selectPivot
  les

macro_rules | `(tactic| le_leaf) => `(tactic| with_reducible exact selectPivot_le ..)

theorem buildInPlace_le (me : Int) (s : Mem) :
    Le (buildInPlace (ar := Arith.bits64) me s) (buildInPlace (ar := Arith.exact) me s) := by
  unfold buildInPlace
  les

macro_rules | `(tactic| le_leaf) => `(tactic| with_reducible exact buildInPlace_le ..)

theorem gcMark_le (n : Int) (s : Mem) :
    Le (gcMark (ar := Arith.bits64) n s) (gcMark (ar := Arith.exact) n s) := by
  unfold gcMark
  les

macro_rules | `(tactic| le_leaf) => `(tactic| with_reducible exact gcMark_le ..)

theorem gcMove_le (pend : Int) : ∀ (fuel : Nat) (psrc : Int) (pdst : Int) (z0 : Mem),
    Le (gcMove (ar := Arith.bits64) pend fuel psrc pdst z0) (gcMove (ar := Arith.exact) pend fuel psrc pdst z0) := by
  intro fuel
  induction fuel with
  | zero => intros; exact Le.refl _
  | succ fuel ih =>
    intros
    unfold gcMove
    les <;> exact ih ..

macro_rules | `(tactic| le_leaf) => `(tactic| with_reducible exact gcMove_le ..)

theorem garbage_le (n me e knt1 knt2 ln : Int) (z : Ptrs) (s : Mem) :
    Le (garbage (ar := Arith.bits64) n me e knt1 knt2 ln z s) (garbage (ar := Arith.exact) n me e knt1 knt2 ln z s) := by
  unfold garbage
  les

macro_rules | `(tactic| le_leaf) => `(tactic| with_reducible exact garbage_le ..)

theorem buildInner_le (n iwlen me e knt1 ln : Int) (z : Mem × Ptrs × Int) :
    Le (buildInner (ar := Arith.bits64) n iwlen me e knt1 ln z) (buildInner (ar := Arith.exact) n iwlen me e knt1 ln z) := by
  unfold buildInner
  les

macro_rules | `(tactic| le_leaf) => `(tactic| with_reducible exact buildInner_le ..)

theorem buildNew_le (n iwlen me elenme pfree : Int) (s : Mem) :
    Le (buildNew (ar := Arith.bits64) n iwlen me elenme pfree s) (buildNew (ar := Arith.exact) n iwlen me elenme pfree s) := by
  unfold buildNew
  les

macro_rules | `(tactic| le_leaf) => `(tactic| with_reducible exact buildNew_le ..)

theorem scan1Elems_le (wflg nvi p eln : Int) (s : Mem) :
    Le (scan1Elems (ar := Arith.bits64) wflg nvi p eln s) (scan1Elems (ar := Arith.exact) wflg nvi p eln s) := by
  unfold scan1Elems
  les

macro_rules | `(tactic| le_leaf) => `(tactic| with_reducible exact scan1Elems_le ..)

theorem scan1_le (wflg pme1 pme2 : Int) (s : Mem) :
    Le (scan1 (ar := Arith.bits64) wflg pme1 pme2 s) (scan1 (ar := Arith.exact) wflg pme1 pme2 s) := by
  unfold scan1
  les

macro_rules | `(tactic| le_leaf) => `(tactic| with_reducible exact scan1_le ..)

theorem scan2Elems_le (aggressive : Bool) (me wflg p1 p2 : Int) (s : Mem) :
    Le (scan2Elems (ar := Arith.bits64) aggressive me wflg p1 p2 s) (scan2Elems (ar := Arith.exact) aggressive me wflg p1 p2 s) := by
  unfold scan2Elems
  les

macro_rules | `(tactic| le_leaf) => `(tactic| with_reducible exact scan2Elems_le ..)

theorem scan2Vars_le (p p4 : Int) (z : Mem × Int × Int × Int) :
    Le (scan2Vars (ar := Arith.bits64) p p4 z) (scan2Vars (ar := Arith.exact) p p4 z) := by
  unfold scan2Vars
  les

macro_rules | `(tactic| le_leaf) => `(tactic| with_reducible exact scan2Vars_le ..)

theorem pushHash_le (i hash : Int) (s : Mem) :
    Le (pushHash (ar := Arith.bits64) i hash s) (pushHash (ar := Arith.exact) i hash s) := by
  unfold pushHash
  les

macro_rules | `(tactic| le_leaf) => `(tactic| with_reducible exact pushHash_le ..)

theorem massElim_le (me i : Int) (z : Sc2) :
    Le (massElim (ar := Arith.bits64) me i z) (massElim (ar := Arith.exact) me i z) := by
  unfold massElim
  les

macro_rules | `(tactic| le_leaf) => `(tactic| with_reducible exact massElim_le ..)

theorem updateVar_le (n me i p1 p3 pn deg hash : Int) (s : Mem) :
    Le (updateVar (ar := Arith.bits64) n me i p1 p3 pn deg hash s) (updateVar (ar := Arith.exact) n me i p1 p3 pn deg hash s) := by
  unfold updateVar
  les

macro_rules | `(tactic| le_leaf) => `(tactic| with_reducible exact updateVar_le ..)

theorem scan2One_le (n : Int) (aggressive : Bool) (me wflg : Int) (pme : Int) (z : Sc2) :
    Le (scan2One (ar := Arith.bits64) n aggressive me wflg pme z) (scan2One (ar := Arith.exact) n aggressive me wflg pme z) := by
  unfold scan2One
  les

macro_rules | `(tactic| le_leaf) => `(tactic| with_reducible exact scan2One_le ..)

theorem scan2_le (n : Int) (aggressive : Bool) (me wflg pme1 pme2 : Int) (z : Sc2) :
    Le (scan2 (ar := Arith.bits64) n aggressive me wflg pme1 pme2 z) (scan2 (ar := Arith.exact) n aggressive me wflg pme1 pme2 z) := by
  unfold scan2
  les

macro_rules | `(tactic| le_leaf) => `(tactic| with_reducible exact scan2_le ..)

theorem scatter_le (wflg p ln : Int) (s : Mem) :
    Le (scatter (ar := Arith.bits64) wflg p ln s) (scatter (ar := Arith.exact) wflg p ln s) := by
  unfold scatter
  les

macro_rules | `(tactic| le_leaf) => `(tactic| with_reducible exact scatter_le ..)

theorem superInner_le (wflg i ln eln : Int) : ∀ (fuel : Nat) (jlast : Int) (j : Int) (z0 : Mem),
    Le (superInner (ar := Arith.bits64) wflg i ln eln fuel jlast j z0) (superInner (ar := Arith.exact) wflg i ln eln fuel jlast j z0) := by
  intro fuel
  induction fuel with
  | zero => intros; exact Le.refl _
  | succ fuel ih =>
    intros
    unfold superInner
    les <;> exact ih ..

macro_rules | `(tactic| le_leaf) => `(tactic| with_reducible exact superInner_le ..)

theorem superOuter_le (ifuel : Nat) : ∀ (fuel : Nat) (i : Int) (wflg : Int) (z0 : Mem),
    Le (superOuter (ar := Arith.bits64) ifuel fuel i wflg z0) (superOuter (ar := Arith.exact) ifuel fuel i wflg z0) := by
  intro fuel
  induction fuel with
  | zero => intros; exact Le.refl _
  | succ fuel ih =>
    intros
    unfold superOuter
    les <;> exact ih ..

macro_rules | `(tactic| le_leaf) => `(tactic| with_reducible exact superOuter_le ..)

theorem takeBucket_le (hash : Int) (s : Mem) :
    Le (takeBucket (ar := Arith.bits64) hash s) (takeBucket (ar := Arith.exact) hash s) := by
  unfold takeBucket
  les

macro_rules | `(tactic| le_leaf) => `(tactic| with_reducible exact takeBucket_le ..)

theorem detectOne_le (n pme : Int) (z : Mem × Int) :
    Le (detectOne (ar := Arith.bits64) n pme z) (detectOne (ar := Arith.exact) n pme z) := by
  unfold detectOne
  les

macro_rules | `(tactic| le_leaf) => `(tactic| with_reducible exact detectOne_le ..)

theorem detect_le (n pme1 pme2 wflg : Int) (s : Mem) :
    Le (detect (ar := Arith.bits64) n pme1 pme2 wflg s) (detect (ar := Arith.exact) n pme1 pme2 wflg s) := by
  unfold detect
  les

macro_rules | `(tactic| le_leaf) => `(tactic| with_reducible exact detect_le ..)

theorem restore_le (n nel degme pme1 pme2 mindeg : Int) (s : Mem) :
    Le (restore (ar := Arith.bits64) n nel degme pme1 pme2 mindeg s) (restore (ar := Arith.exact) n nel degme pme1 pme2 mindeg s) := by
  unfold restore
  les

macro_rules | `(tactic| le_leaf) => `(tactic| with_reducible exact restore_le ..)

theorem finalize_le (me nvpiv elenme pme1 p pfree : Int) (s : Mem) :
    Le (finalize (ar := Arith.bits64) me nvpiv elenme pme1 p pfree s) (finalize (ar := Arith.exact) me nvpiv elenme pme1 p pfree s) := by
  unfold finalize
  les

macro_rules | `(tactic| le_leaf) => `(tactic| with_reducible exact finalize_le ..)

theorem build_le (n iwlen me elenme pfree : Int) (s : Mem) :
    Le (build (ar := Arith.bits64) n iwlen me elenme pfree s) (build (ar := Arith.exact) n iwlen me elenme pfree s) := by
  unfold build
  les

macro_rules | `(tactic| le_leaf) => `(tactic| with_reducible exact build_le ..)

theorem newElement_le (me pme1 q degme nvpiv : Int) (s : Mem) :
    Le (newElement (ar := Arith.bits64) me pme1 q degme nvpiv s) (newElement (ar := Arith.exact) me pme1 q degme nvpiv s) := by
  unfold newElement
  les

macro_rules | `(tactic| le_leaf) => `(tactic| with_reducible exact newElement_le ..)

theorem pivotStep_le (n iwlen wbig ndense : Int) (aggressive : Bool) (z : Ord) :
    Le (pivotStep (ar := Arith.bits64) n iwlen wbig ndense aggressive z) (pivotStep (ar := Arith.exact) n iwlen wbig ndense aggressive z) := by
  unfold pivotStep
  les

macro_rules | `(tactic| le_leaf) => `(tactic| with_reducible exact pivotStep_le ..)

theorem pivotLoop_le (n iwlen wbig ndense : Int) (aggressive : Bool) : ∀ (fuel : Nat) (z0 : Ord),
    Le (pivotLoop (ar := Arith.bits64) n iwlen wbig ndense aggressive fuel z0) (pivotLoop (ar := Arith.exact) n iwlen wbig ndense aggressive fuel z0) := by
  intro fuel
  induction fuel with
  | zero => intros; exact Le.refl _
  | succ fuel ih =>
    intros
    unfold pivotLoop
    les <;> exact ih ..

macro_rules | `(tactic| le_leaf) => `(tactic| with_reducible exact pivotLoop_le ..)

theorem unflip_le (n : Int) (s : Mem) :
    Le (unflip (ar := Arith.bits64) n s) (unflip (ar := Arith.exact) n s) := by
  unfold unflip
  les

macro_rules | `(tactic| le_leaf) => `(tactic| with_reducible exact unflip_le ..)

theorem countChildren_le (s : Mem) : ∀ (fuel : Nat) (f : Int) (head : Int),
    Le (countChildren (ar := Arith.bits64) s fuel f head) (countChildren (ar := Arith.exact) s fuel f head) := by
  intro fuel
  induction fuel with
  | zero => intros; exact Le.refl _
  | succ fuel ih =>
    intros
    unfold countChildren
    les <;> exact ih ..

macro_rules | `(tactic| le_leaf) => `(tactic| with_reducible exact countChildren_le ..)

theorem pushChildren_le  : ∀ (fuel : Nat) (f : Int) (h : Int) (z0 : Mem),
    Le (pushChildren (ar := Arith.bits64)  fuel f h z0) (pushChildren (ar := Arith.exact)  fuel f h z0) := by
  intro fuel
  induction fuel with
  | zero => intros; exact Le.refl _
  | succ fuel ih =>
    intros
    unfold pushChildren
    les <;> exact ih ..

macro_rules | `(tactic| le_leaf) => `(tactic| with_reducible exact pushChildren_le ..)

theorem postLoop_le (n : Int) : ∀ (fuel : Nat) (head : Int) (k : Int) (z0 : Mem),
    Le (postLoop (ar := Arith.bits64) n fuel head k z0) (postLoop (ar := Arith.exact) n fuel head k z0) := by
  intro fuel
  induction fuel with
  | zero => intros; exact Le.refl _
  | succ fuel ih =>
    intros
    unfold postLoop
    les <;> exact ih ..

macro_rules | `(tactic| le_leaf) => `(tactic| with_reducible exact postLoop_le ..)

theorem post_tree_le (n root k : Int) (s : Mem) :
    Le (post_tree (ar := Arith.bits64) n root k s) (post_tree (ar := Arith.exact) n root k s) := by
  unfold post_tree
  les

macro_rules | `(tactic| le_leaf) => `(tactic| with_reducible exact post_tree_le ..)

theorem postorder_le (n : Int) (s : Mem) :
    Le (postorder (ar := Arith.bits64) n s) (postorder (ar := Arith.exact) n s) := by
  unfold postorder
  les

macro_rules | `(tactic| le_leaf) => `(tactic| with_reducible exact postorder_le ..)

theorem placeElems_le (n : Int) : ∀ (fuel : Nat) (k : Int) (nel : Int) (z0 : Mem),
    Le (placeElems (ar := Arith.bits64) n fuel k nel z0) (placeElems (ar := Arith.exact) n fuel k nel z0) := by
  intro fuel
  induction fuel with
  | zero => intros; exact Le.refl _
  | succ fuel ih =>
    intros
    unfold placeElems
    les <;> exact ih ..

macro_rules | `(tactic| le_leaf) => `(tactic| with_reducible exact placeElems_le ..)

theorem placeVars_le (n nel : Int) (s : Mem) :
    Le (placeVars (ar := Arith.bits64) n nel s) (placeVars (ar := Arith.exact) n nel s) := by
  unfold placeVars
  les

macro_rules | `(tactic| le_leaf) => `(tactic| with_reducible exact placeVars_le ..)

theorem finish_le (n : Int) (s : Mem) :
    Le (finish (ar := Arith.bits64) n s) (finish (ar := Arith.exact) n s) := by
  unfold finish
  les

macro_rules | `(tactic| le_leaf) => `(tactic| with_reducible exact finish_le ..)

theorem amd_2_le (n iwlen pfree : Int) (K : Knobs) (s : Mem) :
    Le (amd_2 (ar := Arith.bits64) n iwlen pfree K s) (amd_2 (ar := Arith.exact) n iwlen pfree K s) := by
  unfold amd_2
  les

macro_rules | `(tactic| le_leaf) => `(tactic| with_reducible exact amd_2_le ..)

theorem aatPtr_le (n : Int) (Len : Arr Int) :
    Le (aatPtr (ar := Arith.bits64) n Len) (aatPtr (ar := Arith.exact) n Len) := by
  unfold aatPtr
  les

macro_rules | `(tactic| le_leaf) => `(tactic| with_reducible exact aatPtr_le ..)

theorem addIw_le (i j : Int) (z : Arr Int × Arr Int) :
    Le (addIw (ar := Arith.bits64) i j z) (addIw (ar := Arith.exact) i j z) := by
  unfold addIw
  les

macro_rules | `(tactic| le_leaf) => `(tactic| with_reducible exact addIw_le ..)

theorem amd_1_le (n : Int) (Ap Ai P Pinv Len : Arr Int) (slen : Int) (K : Knobs) :
    Le (amd_1 (ar := Arith.bits64) n Ap Ai P Pinv Len slen K) (amd_1 (ar := Arith.exact) n Ap Ai P Pinv Len slen K) := by
  unfold amd_1
  les <;> exact scanAAT_le _ _ _ (fun _ _ _ => by le_leaf) _ _

macro_rules | `(tactic| le_leaf) => `(tactic| with_reducible exact amd_1_le ..)

theorem amd_order_le (n : Int) (Ap Ai P : Arr Int) (M : Alloc) (K : Knobs) :
    Le (amd_order (ar := Arith.bits64) n Ap Ai P M K) (amd_order (ar := Arith.exact) n Ap Ai P M K) := by
  unfold amd_order
  les

macro_rules | `(tactic| le_leaf) => `(tactic| with_reducible exact amd_order_le ..)

end Slip.Amd
