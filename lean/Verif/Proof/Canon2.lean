import Verif.Proof.Canon

/-!
# Copies and SLIP_backslash with raw rationals
-/

namespace Slip.Raw

open Slip

/-- `type` is MPQ and the values are INT64. -/
def SetSi (type : Ty) (A : Slip.Mat) : Prop := type = .mpq ∧ ∃ a, A.x = some (.int64 a)

theorem newVals_mpq {type : Ty} {N : Int} {ini : Bool} {a : Arr ℚ}
    (h : Slip.newVals type N ini = some (.mpq a)) : type = .mpq := by
  cases type <;> simp [Slip.newVals] at h ⊢

theorem allocate_x {kind : Kind} {type : Ty} {m n nzmax : Int} {shallow ini : Bool} {c : Slip.Mat}
    (h : Slip.allocate kind type m n nzmax shallow ini = .ok c) (a : Arr ℚ)
    (hx : c.x = some (.mpq a)) : type = .mpq := by
  unfold Slip.allocate at h
  split at h
  · cases h
  · dsimp only at h
    cases shallow with
    | true => simp only [if_true] at h; cases h; simp at hx
    | false =>
      simp only [Bool.false_eq_true, if_false] at h
      cases h
      exact newVals_mpq hx

theorem not_via {type : Ty} {A c : Slip.Mat} (hA : ¬ SetSi type A)
    (hc : ∀ a, c.x = some (.mpq a) → type = .mpq) : ¬ viaSetSi c.x A.x := by
  intro h
  unfold viaSetSi at h
  split at h
  · rename_i a b h1 h2
    exact hA ⟨hc _ h1, _, h2⟩
  · exact h

/-- Step over `allocate` in both programs. -/
theorem alloc_bind {β γ : Type} (kind : Kind) (type : Ty) (m n nzmax : Int) (shallow ini : Bool)
    (g : β → γ) (f : Slip.Mat → C β) (f' : Mat → C γ)
    (h : ∀ c, (∀ a, c.x = some (.mpq a) → type = .mpq) → f' (Mat.of c) = g <$> f c) :
    (allocate kind type m n nzmax shallow ini >>= f') =
      g <$> (Slip.allocate kind type m n nzmax shallow ini >>= f) := by
  rw [allocate_eq]
  cases e : Slip.allocate kind type m n nzmax shallow ini with
  | error e => rfl
  | ok c => exact h c (allocate_x e)

theorem cast_matrix_eq (fp : Fp) (opt : Option Options) (type : Ty) (A : Slip.Mat)
    (hA : ¬ SetSi type A) :
    slip_cast_matrix fp opt type (Mat.of A) =
      Prod.map (Option.map Vals.of) Q.of <$> Slip.slip_cast_matrix fp opt type A := by
  unfold slip_cast_matrix Slip.slip_cast_matrix
  rw [Mat.val_of, map_bind]
  refine bind_congr fun nz => ?_
  refine alloc_bind _ _ _ _ _ _ _ _ _ _ fun Y hY => ?_
  have e : (Mat.of A).type = A.type := rfl
  rw [e]
  by_cases ht : type = A.type
  · rw [if_pos ht, if_pos ht]; rfl
  · rw [if_neg ht, if_neg ht]
    have := cast_array_eq fp opt Y.x A.x nz Y.scale A.scale (not_via hA hY)
    show (slip_cast_array fp opt (Y.x.map Vals.of) (A.x.map Vals.of) nz (Q.of Y.scale)
      (Q.of A.scale) >>= _) = _
    rw [this, bind_map_left, map_bind]
    rfl

/-! ## The loops over elements -/

section
variable {α β : Type} {e : Elt α} {e' : Elt β} {g : α → β}

theorem buildCsc_map (hs : ∀ v, e'.set (g v) = g (e.set v)) (Ai Aj : Arr Int) (nz : Int)
    (W Ci : Arr Int) (Cx Yx : Arr α) :
    buildCsc e' Ai Aj nz W Ci (amap g Cx) (amap g Yx) =
      Prod.map (amap g) id <$> buildCsc e Ai Aj nz W Ci Cx Yx := by
  unfold buildCsc
  have := forRange_map (σ := Arr Int × Arr Int × Arr α) (τ := Arr Int × Arr Int × Arr β)
    (Prod.map id (Prod.map id (amap g))) (lo := 0) (hi := nz) (s := (W, Ci, Cx))
    (f := fun k (W, Ci, Cx) => do
      let j ← rd Aj k
      let p ← rd W j
      let W ← wr W j (p + 1)
      let i ← rd Ai k
      let Ci ← wr Ci p i
      let v ← rd Yx k
      let Cx ← zset Cx p (e.set v)
      pure (W, Ci, Cx))
    (f' := fun k (W, Ci, Cx) => do
      let j ← rd Aj k
      let p ← rd W j
      let W ← wr W j (p + 1)
      let i ← rd Ai k
      let Ci ← wr Ci p i
      let v ← rd (amap g Yx) k
      let Cx ← zset Cx p (e'.set v)
      pure (W, Ci, Cx)) ?_
  · exact Eq.trans (congrArg (· >>= fun (r : Arr Int × Arr Int × Arr β) =>
      (pure (r.2.2, r.2.1) : C (Arr β × Arr Int))) this) (by rw [bind_map_left, map_bind]; rfl)
  · intro k s
    simp only [Prod.map, rd_amap, bind_map_left, hs, zset_amap, map_bind, map_pure, id]

theorem countNz_map (hz : ∀ v, e'.isZero (g v) = e.isZero v) (nz : Int) (Yx : Arr α) :
    countNz e' nz (amap g Yx) = countNz e nz Yx := by
  unfold countNz
  simp only [rd_amap, bind_map_left, hz]

theorem buildFromDense_map (hs : ∀ v, e'.set (g v) = g (e.set v))
    (hz : ∀ v, e'.isZero (g v) = e.isZero v) (m n : Int) (Cp Ci : Arr Int) (Cx Yx : Arr α) :
    buildFromDense e' m n Cp Ci (amap g Cx) (amap g Yx) =
      Prod.map (amap g) id <$> buildFromDense e m n Cp Ci Cx Yx := by
  unfold buildFromDense
  have := forRange_map (σ := Int × Arr Int × Arr Int × Arr α) (τ := Int × Arr Int × Arr Int × Arr β)
    (Prod.map id (Prod.map id (Prod.map id (amap g)))) (lo := 0) (hi := n) (s := (0, Cp, Ci, Cx))
    (f := fun j (nz, Cp, Ci, Cx) => do
      let Cp ← wr Cp j nz
      let (nz, Ci, Cx) ← forRange 0 m (nz, Ci, Cx) fun i (nz, Ci, Cx) => do
        let v ← rd Yx (i + j * m)
        if e.isZero v then pure (nz, Ci, Cx)
        else do
          let Ci ← wr Ci nz i
          let Cx ← zset Cx nz (e.set v)
          pure (nz + 1, Ci, Cx)
      pure (nz, Cp, Ci, Cx))
    (f' := fun j (nz, Cp, Ci, Cx) => do
      let Cp ← wr Cp j nz
      let (nz, Ci, Cx) ← forRange 0 m (nz, Ci, Cx) fun i (nz, Ci, Cx) => do
        let v ← rd (amap g Yx) (i + j * m)
        if e'.isZero v then pure (nz, Ci, Cx)
        else do
          let Ci ← wr Ci nz i
          let Cx ← zset Cx nz (e'.set v)
          pure (nz + 1, Ci, Cx)
      pure (nz, Cp, Ci, Cx)) ?_
  · exact Eq.trans (congrArg (· >>= fun (r : Int × Arr Int × Arr Int × Arr β) =>
      (wr r.2.1 n r.1 >>= fun Cp => pure (r.2.2.2, Cp, r.2.2.1) : C (Arr β × Arr Int × Arr Int)))
        this) (by rw [bind_map_left, map_bind]; simp only [map_bind]; rfl)
  · rintro j ⟨nz, Cp, Ci, Cx⟩
    simp only [Prod.map, map_bind]
    refine bind_congr fun Cp => ?_
    have := forRange_map (σ := Int × Arr Int × Arr α) (τ := Int × Arr Int × Arr β)
      (Prod.map id (Prod.map id (amap g))) (lo := 0) (hi := m) (s := (nz, Ci, Cx))
      (f := fun i (nz, Ci, Cx) => do
        let v ← rd Yx (i + j * m)
        if e.isZero v then pure (nz, Ci, Cx)
        else do
          let Ci ← wr Ci nz i
          let Cx ← zset Cx nz (e.set v)
          pure (nz + 1, Ci, Cx))
      (f' := fun i (nz, Ci, Cx) => do
        let v ← rd (amap g Yx) (i + j * m)
        if e'.isZero v then pure (nz, Ci, Cx)
        else do
          let Ci ← wr Ci nz i
          let Cx ← zset Cx nz (e'.set v)
          pure (nz + 1, Ci, Cx)) ?_
    · exact Eq.trans (congrArg (· >>= fun (r : Int × Arr Int × Arr β) =>
        (pure (r.1, Cp, r.2.1, r.2.2) : C (Int × Arr Int × Arr Int × Arr β))) this) (by
          rw [bind_map_left]; rfl)
    · rintro i ⟨nz, Ci, Cx⟩
      simp only [Prod.map, rd_amap, bind_map_left, hz, hs, map_bind, id]
      refine bind_congr fun v => ?_
      by_cases h : e.isZero v = true
      · rw [if_pos h, if_pos h]; rfl
      · rw [if_neg h, if_neg h]
        simp only [zset_amap, bind_map_left, map_bind]
        rfl

theorem scatterCsc_map (hs : ∀ v, e'.set (g v) = g (e.set v)) (m n : Int) (Ap Ai : Arr Int)
    (Cx Yx : Arr α) :
    scatterCsc e' m n Ap Ai (amap g Cx) (amap g Yx) = amap g <$> scatterCsc e m n Ap Ai Cx Yx := by
  unfold scatterCsc
  refine forRange_map (amap g) fun j s => ?_
  simp only [map_bind]
  refine bind_congr fun a => bind_congr fun b => ?_
  refine forRange_map (amap g) fun p s => ?_
  simp only [rd_amap, bind_map_left, hs, zset_amap, map_bind]

theorem scatterTriplet_map (hs : ∀ v, e'.set (g v) = g (e.set v)) (m nz : Int) (Ai Aj : Arr Int)
    (Cx Yx : Arr α) :
    scatterTriplet e' m nz Ai Aj (amap g Cx) (amap g Yx) =
      amap g <$> scatterTriplet e m nz Ai Aj Cx Yx := by
  unfold scatterTriplet
  refine forRange_map (amap g) fun k s => ?_
  simp only [rd_amap, bind_map_left, hs, zset_amap, map_bind]

end

theorem elt_set (v : ℚ) : eltQ.set (Q.of v) = Q.of (Slip.eltQ.set v) := rfl
theorem elt_zero (v : ℚ) : eltQ.isZero (Q.of v) = Slip.eltQ.isZero v := by
  simp [eltQ, Slip.eltQ, Q.of]

theorem withVals_eq {β : Type} (opt : Option Options) (c y : Option Slip.Vals)
    (f : {α : Type} → Elt α → Arr α → Arr α → C (Arr α × β))
    (hf : ∀ c y, f eltQ (amap Q.of c) (amap Q.of y) =
      Prod.map (amap Q.of) id <$> f Slip.eltQ c y) :
    withVals opt (c.map Vals.of) (y.map Vals.of) f =
      Prod.map Vals.of id <$> Slip.withVals opt c y f := by
  cases c with
  | none => rfl
  | some c =>
  cases y with
  | none => cases c <;> rfl
  | some y =>
  cases c <;> cases y <;>
    simp only [withVals, Slip.withVals, Option.map_some, Vals.of, hf, bind_map_left, map_bind,
      map_pure, Prod.map, id] <;> rfl

/-! ## SLIP_matrix_copy -/

theorem cast_bind {γ δ : Type} (fp : Fp) (opt : Option Options) (c A : Slip.Mat) (n : Int)
    (h : ¬ viaSetSi c.x A.x) (g : γ → δ) (f : Slip.Vals × ℚ → C γ) (f' : Vals × Q → C δ)
    (hf : ∀ v s, f' (Vals.of v, Q.of s) = g <$> f (v, s)) :
    (slip_cast_array fp opt (Mat.of c).x (Mat.of A).x n (Mat.of c).scale (Mat.of A).scale >>= f') =
      g <$> (Slip.slip_cast_array fp opt c.x A.x n c.scale A.scale >>= f) := by
  have := cast_array_eq fp opt c.x A.x n c.scale A.scale h
  show (slip_cast_array fp opt (c.x.map Vals.of) (A.x.map Vals.of) n (Q.of c.scale)
    (Q.of A.scale) >>= _) = _
  rw [this, bind_map_left, map_bind]
  exact bind_congr fun r => hf r.1 r.2

theorem castm_bind {γ δ : Type} (fp : Fp) (opt : Option Options) (type : Ty) (A : Slip.Mat)
    (h : ¬ SetSi type A) (g : γ → δ) (f : Option Slip.Vals × ℚ → C γ) (f' : Option Vals × Q → C δ)
    (hf : ∀ v s, f' (v.map Vals.of, Q.of s) = g <$> f (v, s)) :
    (slip_cast_matrix fp opt type (Mat.of A) >>= f') =
      g <$> (Slip.slip_cast_matrix fp opt type A >>= f) := by
  rw [cast_matrix_eq fp opt type A h, bind_map_left, map_bind]
  exact bind_congr fun r => hf r.1 r.2

theorem with_bind {β γ δ : Type} (opt : Option Options) (c y : Option Slip.Vals)
    (F : {α : Type} → Elt α → Arr α → Arr α → C (Arr α × β))
    (hF : ∀ c y, F eltQ (amap Q.of c) (amap Q.of y) =
      Prod.map (amap Q.of) id <$> F Slip.eltQ c y)
    (g : γ → δ) (f : Slip.Vals × β → C γ) (f' : Vals × β → C δ)
    (hf : ∀ v b, f' (Vals.of v, b) = g <$> f (v, b)) :
    (withVals opt (c.map Vals.of) (y.map Vals.of) F >>= f') =
      g <$> (Slip.withVals opt c y F >>= f) := by
  rw [withVals_eq opt c y F hF, bind_map_left, map_bind]
  exact bind_congr fun r => hf r.1 r.2

variable {fp : Fp} {opt : Option Options} {type : Ty} {A : Slip.Mat} {nz : Int}

theorem copyCscCsc_eq (hA : ¬ SetSi type A) :
    copyCscCsc fp opt type (Mat.of A) nz = Mat.of <$> Slip.copyCscCsc fp opt type A nz := by
  unfold copyCscCsc Slip.copyCscCsc
  refine alloc_bind _ _ _ _ _ _ _ _ _ _ fun c hc => ?_
  rw [map_bind]; refine bind_congr fun p => ?_
  rw [map_bind]; refine bind_congr fun i => ?_
  exact cast_bind _ _ _ _ _ (not_via hA hc) _ _ _ fun v s => rfl

theorem copyTripletCsc_eq (hA : ¬ SetSi type A) :
    copyTripletCsc fp opt type (Mat.of A) nz = Mat.of <$> Slip.copyTripletCsc fp opt type A nz := by
  unfold copyTripletCsc Slip.copyTripletCsc
  refine castm_bind _ _ _ _ hA _ _ _ fun y s => ?_
  refine alloc_bind _ _ _ _ _ _ _ _ _ _ fun c hc => ?_
  rw [map_bind]; refine bind_congr fun W => ?_
  rw [map_bind]; refine bind_congr fun pW => ?_
  refine with_bind opt c.x y _ ?_ _ _ _ fun v b => rfl
  intro c' y'
  exact buildCsc_map elt_set _ _ _ _ _ _ _

theorem copyDenseCsc_eq (hA : ¬ SetSi type A) :
    copyDenseCsc fp opt type (Mat.of A) nz = Mat.of <$> Slip.copyDenseCsc fp opt type A nz := by
  unfold copyDenseCsc Slip.copyDenseCsc
  refine castm_bind _ _ _ _ hA _ _ _ fun y s => ?_
  refine with_bind opt y y _ ?_ _ _ _ fun v a => ?_
  · intro c' y'
    rw [countNz_map elt_zero, map_bind]
    rfl
  refine alloc_bind _ _ _ _ _ _ _ _ _ _ fun c hc => ?_
  refine with_bind opt c.x y _ ?_ _ _ _ fun v b => rfl
  intro c' y'
  exact buildFromDense_map elt_set elt_zero _ _ _ _ _ _

theorem copyCscTriplet_eq (hA : ¬ SetSi type A) :
    copyCscTriplet fp opt type (Mat.of A) nz = Mat.of <$> Slip.copyCscTriplet fp opt type A nz := by
  unfold copyCscTriplet Slip.copyCscTriplet
  refine alloc_bind _ _ _ _ _ _ _ _ _ _ fun c hc => ?_
  refine cast_bind _ _ _ _ _ (not_via hA hc) _ _ _ fun v s => ?_
  dsimp only
  rw [map_bind]; refine bind_congr fun i => ?_
  rw [map_bind]; refine bind_congr fun j => ?_
  rfl

theorem copyTripletTriplet_eq (hA : ¬ SetSi type A) :
    copyTripletTriplet fp opt type (Mat.of A) nz =
      Mat.of <$> Slip.copyTripletTriplet fp opt type A nz := by
  unfold copyTripletTriplet Slip.copyTripletTriplet
  refine alloc_bind _ _ _ _ _ _ _ _ _ _ fun c hc => ?_
  rw [map_bind]; refine bind_congr fun j => ?_
  rw [map_bind]; refine bind_congr fun i => ?_
  exact cast_bind _ _ _ _ _ (not_via hA hc) _ _ _ fun v s => rfl

theorem copyCscDense_eq (hA : ¬ SetSi type A) :
    copyCscDense fp opt type (Mat.of A) nz = Mat.of <$> Slip.copyCscDense fp opt type A nz := by
  unfold copyCscDense Slip.copyCscDense
  refine alloc_bind _ _ _ _ _ _ _ _ _ _ fun c hc => ?_
  refine castm_bind _ _ _ _ hA _ _ _ fun y s => ?_
  refine with_bind opt c.x y _ ?_ _ _ _ fun v b => rfl
  intro c' y'
  rw [scatterCsc_map elt_set, map_bind, bind_map_left]
  rfl

theorem copyTripletDense_eq (hA : ¬ SetSi type A) :
    copyTripletDense fp opt type (Mat.of A) nz = Mat.of <$> Slip.copyTripletDense fp opt type A nz := by
  unfold copyTripletDense Slip.copyTripletDense
  refine alloc_bind _ _ _ _ _ _ _ _ _ _ fun c hc => ?_
  refine castm_bind _ _ _ _ hA _ _ _ fun y s => ?_
  refine with_bind opt c.x y _ ?_ _ _ _ fun v b => rfl
  intro c' y'
  rw [scatterTriplet_map elt_set, map_bind, bind_map_left]
  rfl

theorem copyDenseDense_eq (hA : ¬ SetSi type A) :
    copyDenseDense fp opt type (Mat.of A) nz = Mat.of <$> Slip.copyDenseDense fp opt type A nz := by
  unfold copyDenseDense Slip.copyDenseDense
  refine alloc_bind _ _ _ _ _ _ _ _ _ _ fun c hc => ?_
  exact cast_bind _ _ _ _ _ (not_via hA hc) _ _ _ fun v s => rfl

theorem copyDenseTriplet_eq (hA : ¬ SetSi type A)
    (hT : ∀ t, Slip.copyDenseCsc fp opt type A nz = .ok t → ¬ SetSi type t) :
    copyDenseTriplet fp opt type (Mat.of A) nz = Mat.of <$> Slip.copyDenseTriplet fp opt type A nz := by
  unfold copyDenseTriplet Slip.copyDenseTriplet
  rw [copyDenseCsc_eq hA, bind_map_left, map_bind]
  cases ht : Slip.copyDenseCsc fp opt type A nz with
  | error e => rfl
  | ok t =>
    simp only [ok_bind, Mat.val_of]
    rw [map_bind]; refine bind_congr fun tnz => ?_
    rw [copyCscTriplet_eq (hT t ht), bind_map_left, map_bind]
    rfl

theorem withVals_int64 {β : Type} {c y : Option Slip.Vals}
    {F : {α : Type} → Elt α → Arr α → Arr α → C (Arr α × β)} {a : Arr Int} {b : β}
    (h : Slip.withVals opt c y F = .ok (.int64 a, b)) : ∃ c', c = some (.int64 c') := by
  unfold Slip.withVals at h
  split at h
  · rename_i c y
    dsimp only at h
    cases hf : F eltZ c y with
    | error e => rw [hf] at h; cases h
    | ok r => rw [hf, ok_bind] at h; cases h
  · rename_i c y
    dsimp only at h
    cases hf : F Slip.eltQ c y with
    | error e => rw [hf] at h; cases h
    | ok r => rw [hf, ok_bind] at h; cases h
  · rename_i c y
    dsimp only at h
    cases hf : F (eltR opt) c y with
    | error e => rw [hf] at h; cases h
    | ok r => rw [hf, ok_bind] at h; cases h
  · exact ⟨_, rfl⟩
  · rename_i c y
    dsimp only at h
    cases hf : F eltD c y with
    | error e => rw [hf] at h; cases h
    | ok r => rw [hf, ok_bind] at h; cases h
  · cases h

theorem allocate_int64 {kind : Kind} {m n nzmax : Int} {shallow ini : Bool} {c : Slip.Mat}
    (h : Slip.allocate kind .mpq m n nzmax shallow ini = .ok c) (a : Arr Int)
    (hx : c.x = some (.int64 a)) : False := by
  unfold Slip.allocate at h
  split at h
  · cases h
  · dsimp only at h
    cases shallow with
    | true => simp only [if_true] at h; cases h; simp at hx
    | false =>
      simp only [Bool.false_eq_true, if_false] at h
      cases h
      simp [Slip.newVals] at hx

theorem copyDenseCsc_type {t : Slip.Mat} (h : Slip.copyDenseCsc fp opt type A nz = .ok t) :
    ¬ SetSi type t := by
  rintro ⟨rfl, a, ha⟩
  unfold Slip.copyDenseCsc at h
  cases h1 : Slip.slip_cast_matrix fp opt .mpq A with
  | error e => rw [h1] at h; cases h
  | ok r =>
  rw [h1, ok_bind] at h
  obtain ⟨y, s⟩ := r
  dsimp only at h
  generalize hw : Slip.withVals opt y y _ = w at h
  cases w with
  | error e => cases h
  | ok w =>
  rw [ok_bind] at h
  cases h2 : Slip.allocate .csc .mpq A.m A.n w.2 false true with
  | error e => rw [h2] at h; cases h
  | ok c =>
  rw [h2, ok_bind] at h
  generalize hv : Slip.withVals opt c.x y _ = v at h
  cases v with
  | error e => cases h
  | ok v =>
  rw [ok_bind] at h
  obtain ⟨x, p, i⟩ := v
  cases h
  simp only [Option.some.injEq] at ha
  subst ha
  obtain ⟨c', hc'⟩ := withVals_int64 hv
  exact allocate_int64 h2 c' hc'

theorem copyBody_eq (kind : Kind) (hA : ¬ SetSi type A) :
    copyBody fp opt kind type (Mat.of A) nz = Mat.of <$> Slip.copyBody fp opt kind type A nz := by
  unfold copyBody Slip.copyBody
  have e : (Mat.of A).kind = A.kind := rfl
  rw [e]
  cases kind <;> cases A.kind
  · exact copyCscCsc_eq hA
  · exact copyTripletCsc_eq hA
  · exact copyDenseCsc_eq hA
  · rfl
  · exact copyCscTriplet_eq hA
  · exact copyTripletTriplet_eq hA
  · exact copyDenseTriplet_eq hA fun t => copyDenseCsc_type
  · rfl
  · exact copyCscDense_eq hA
  · exact copyTripletDense_eq hA
  · exact copyDenseDense_eq hA
  all_goals rfl

theorem copyWrap_eq (m : C Slip.Mat) : copyWrap (Mat.of <$> m) = resOf <$> Slip.copyWrap m := by
  match m with
  | .ok d => rfl
  | .error (.ret e) => rfl
  | .error .ub => rfl
  | .error .fuel => rfl

theorem copy_eq (ini : Bool) (Ch : Handle Slip.Mat) (kind : Kind) (A : Option Slip.Mat)
    (hA : ∀ M, A = some M → ¬ SetSi type M) :
    SLIP_matrix_copy fp ini (hOf Ch) kind type (A.map Mat.of) opt =
      resOf <$> Slip.SLIP_matrix_copy fp ini Ch kind type A opt := by
  unfold SLIP_matrix_copy Slip.SLIP_matrix_copy
  by_cases h1 : (!ini) = true
  · rw [if_pos h1, if_pos h1]; rfl
  rw [if_neg h1, if_neg h1, map_val_of, map_bind]
  refine bind_congr fun nz => ?_
  cases A with
  | none => rfl
  | some A =>
    simp only [Option.map_some]
    have e : (hOf Ch = none ∨ nz < 0 ∨ (Mat.of A).type.ok = false ∨ kind.ok = false ∨
        type.ok = false) ↔ (Ch = none ∨ nz < 0 ∨ A.type.ok = false ∨ kind.ok = false ∨
        type.ok = false) := by rw [hOf_none]; rfl
    by_cases h : Ch = none ∨ nz < 0 ∨ A.type.ok = false ∨ kind.ok = false ∨ type.ok = false
    · rw [if_pos h, if_pos (e.mpr h)]; rfl
    · rw [if_neg h, if_neg (fun h' => h (e.mp h')), copyBody_eq kind (hA A rfl), copyWrap_eq]

theorem hOf_join (x : Handle Slip.Mat) : (hOf x).join = x.join.map Mat.of := by
  cases x with
  | none => rfl
  | some x => cases x <;> rfl

theorem backslash_eq (O : Orderings) (nc : Int → Int → ℚ → Bool) (ini : Bool)
    (X : Handle Slip.Mat) (A b : Option Slip.Mat) :
    SLIP_backslash fp O nc ini (hOf X) type (A.map Mat.of) (b.map Mat.of) opt =
      resOf <$> Slip.SLIP_backslash fp O nc ini X type A b opt := by
  unfold SLIP_backslash Slip.SLIP_backslash
  simp only [map_val_of]
  by_cases h1 : (!ini) = true
  · rw [if_pos h1, if_pos h1]; rfl
  rw [if_neg h1, if_neg h1]
  by_cases h2 : X = none
  · rw [if_pos h2, if_pos ((hOf_none X).mpr h2)]; rfl
  rw [if_neg h2, if_neg (fun h => h2 ((hOf_none X).mp h))]
  by_cases h3 : type ≠ .mpq ∧ type ≠ .fp64 ∧ type ≠ .mpfr
  · rw [if_pos h3, if_pos h3]; rfl
  rw [if_neg h3, if_neg h3]
  by_cases h4 : requireFails A .csc .mpz = true
  · rw [if_pos h4, if_pos h4]; rfl
  rw [if_neg h4, if_neg h4]
  by_cases h5 : requireFails b .dense .mpz = true
  · rw [if_pos h5, if_pos h5]; rfl
  rw [if_neg h5, if_neg h5, map_bind]
  refine bind_congr fun r => ?_
  obtain ⟨info, S⟩ := r
  dsimp only
  by_cases h6 : info ≠ .ok
  · rw [if_pos h6, if_pos h6]; rfl
  rw [if_neg h6, if_neg h6, map_bind]
  refine bind_congr fun f => ?_
  by_cases h7 : f.info ≠ .ok
  · rw [if_pos h7, if_pos h7]; rfl
  rw [if_neg h7, if_neg h7]
  have := solve_eq ini (some none) b A f.L.join f.U.join f.rhos.join S.join f.pinv.join opt
  have e0 : (hOf (some none) : Handle Mat) = some none := rfl
  rw [e0] at this
  rw [this, bind_map_left, map_bind]
  refine bind_congr fun r => ?_
  obtain ⟨info, x⟩ := r
  by_cases h8 : info = .ok
  swap
  · simp only [resOf, ne_eq, h8, not_false_eq_true, if_true]; rfl
  simp only [resOf, ne_eq, h8, not_true_eq_false, if_false]
  by_cases h9 : type = .mpq
  · rw [if_pos h9, if_pos h9]; rfl
  rw [if_neg h9, if_neg h9, hOf_join]
  have := copy_eq (fp := fp) (opt := opt) (type := type) ini (some none) .dense x.join
    (fun M _ h => h9 h.1)
  rw [e0] at this
  rw [this, bind_map_left, map_bind]
  refine bind_congr fun r => ?_
  obtain ⟨info, x2⟩ := r
  by_cases h10 : info = .ok
  · simp only [resOf, ne_eq, h10, not_true_eq_false, if_false]; rfl
  · simp only [resOf, ne_eq, h10, not_false_eq_true, if_true]; rfl

end Slip.Raw
