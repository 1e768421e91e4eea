import Verif.SpecRound
import Verif.Proof.Copy

/-!
# Conversions that round
-/

namespace Slip

/-- Stored elements as numbers. -/
def VC.ddec (s : ℚ) : (V : VC) → V.El → Dbl
  | .z => fun v : Int => .fin ((v : ℚ) / s)
  | .q => fun v : ℚ => .fin v
  | .r => fun v : Dbl => v
  | .i => fun v : Int => .fin (v : ℚ)
  | .d => fun v : Dbl => v

theorem VC.dval_mk (V : VC) (s : ℚ) (a : Arr V.El) (k : ℤ) :
    (V.mk a).dval s k = (Slip.get a k).map (V.ddec s) := by
  cases V <;> simp only [mk, Vals.dval, ddec] <;> cases Slip.get a k <;> rfl

/-- Only the first `N` elements differ. -/
def Tail {α : Type} (N : ℕ) (y0 y : Arr α) : Prop :=
  y.length = y0.length ∧ ∀ j : ℤ, (N : ℤ) ≤ j → get y j = get y0 j

theorem castLoop_dvals {V W : VC} {s : ℚ} {y0 : Arr W.El} {x : Arr V.El} {N : ℕ} {d d' : ℕ → Dbl}
    {f : Int → V.El → C W.El} (hy0 : ∀ k : ℕ, k < N → ∃ u, get y0 k = some u)
    (hx : ∀ k : ℕ, k < N → (V.mk x).dval s k = some (d k))
    (hf : ∀ (k : ℕ) (u : V.El), k < N → V.ddec s u = d k →
      ∃ w, f k u = .ok w ∧ W.ddec 1 w = d' k) :
    ∃ y, castLoop f y0 x N = .ok y ∧ (∀ k : ℕ, k < N → (W.mk y).dval 1 k = some (d' k)) ∧
      Tail N y0 y := by
  have hex : ∀ k : ℕ, k < N → ∃ u : V.El, get x k = some u ∧ ∃ w, f k u = .ok w ∧ W.ddec 1 w = d' k := by
    intro k hk
    have := hx k hk
    rw [VC.dval_mk, Option.map_eq_some_iff] at this
    obtain ⟨u, h1, h2⟩ := this
    exact ⟨u, h1, hf k u hk h2⟩
  have hne : Nonempty W.El := by
    cases W <;> exact ⟨by first | exact (0 : Int) | exact (0 : ℚ) | exact Dbl.nan⟩
  have hne' : Nonempty V.El := by
    cases V <;> exact ⟨by first | exact (0 : Int) | exact (0 : ℚ) | exact Dbl.nan⟩
  choose! u hu w hw1 hw2 using hex
  obtain ⟨y, e, hl, g, ht⟩ := castLoop_spec (w := w) hy0 hu hw1
  refine ⟨y, e, fun k hk => ?_, hl, ht⟩
  rw [VC.dval_mk, g k hk]
  simp [hw2 k hk]

theorem castLoop_ddone {W : VC} {N : ℕ} {d' : ℕ → Dbl} {m : C (Arr W.El)} {y0 : Arr W.El}
    (h : ∃ y, m = .ok y ∧ (∀ k : ℕ, k < N → (W.mk y).dval 1 k = some (d' k)) ∧ Tail N y0 y) :
    ∃ y : Arr W.El, (m >>= fun y => pure (W.mk y, (1 : ℚ))) = .ok (W.mk y, (1 : ℚ)) ∧
      (∀ k : ℕ, k < N → (W.mk y).dval 1 k = some (d' k)) ∧ Tail N y0 y := by
  obtain ⟨y, e, h⟩ := h
  exact ⟨y, by rw [e]; rfl, h⟩

theorem mpzGetSi_fits {z : ℤ} (h1 : -2 ^ 63 ≤ z) (h2 : z < 2 ^ 63) : mpzGetSi z = z := by
  unfold mpzGetSi
  split <;> omega

theorem cast_toInt64 {d : Dbl} (h : d ≠ .fin (2 ^ 63)) :
    ∃ r, slip_cast_double_to_int64 d = .ok r ∧ (.fin r : Dbl) = toInt64 1 d := by
  cases d with
  | nan => exact ⟨0, rfl, by simp [toInt64]⟩
  | posInf => exact ⟨int64Max, rfl, by norm_num [toInt64, int64Max]⟩
  | negInf => exact ⟨int64Min, rfl, by norm_num [toInt64, int64Min]⟩
  | fin v =>
    have hv : v ≠ 2 ^ 63 := fun e => h (by rw [e])
    have hpos : 0 ≤ v → roundInt 1 v = ⌊v⌋ := fun h => by simp [roundInt, h]
    have hneg : v < 0 → roundInt 1 v = ⌈v⌉ := fun h => by simp [roundInt, not_le.2 h]
    unfold slip_cast_double_to_int64 toInt64
    dsimp only
    by_cases h1 : v > 2 ^ 63
    · rw [if_pos h1]
      refine ⟨_, rfl, ?_⟩
      have h0 : 0 ≤ v := by norm_num at h1; linarith
      have : (2 ^ 63 : ℤ) ≤ roundInt 1 v := by
        rw [hpos h0]; exact Int.le_floor.2 (by push_cast; exact le_of_lt h1)
      congr 2
      rw [min_eq_left (by omega), max_eq_right (by norm_num)]; rfl
    rw [if_neg h1]
    by_cases h2 : v < -2 ^ 63
    · rw [if_pos h2]
      refine ⟨_, rfl, ?_⟩
      have h0 : v < 0 := by norm_num at h2; linarith
      have : roundInt 1 v ≤ (-2 ^ 63 : ℤ) := by
        rw [hneg h0]; exact Int.ceil_le.2 (by push_cast; exact le_of_lt h2)
      congr 2
      rw [min_eq_right (by omega), max_eq_left (by omega)]; rfl
    rw [if_neg h2]
    have h3 : v < 2 ^ 63 := lt_of_le_of_ne (not_lt.1 h1) hv
    have h4 : -2 ^ 63 ≤ v := not_lt.1 h2
    have h5 : (-2 ^ 63 : ℤ) ≤ roundInt 1 v ∧ roundInt 1 v ≤ 2 ^ 63 - 1 := by
      rcases le_or_gt 0 v with h0 | h0
      · rw [hpos h0]
        refine ⟨Int.le_floor.2 (by push_cast; linarith), ?_⟩
        have : ⌊v⌋ < (2 ^ 63 : ℤ) := Int.floor_lt.2 (by push_cast; linarith)
        omega
      · rw [hneg h0]
        refine ⟨?_, ?_⟩
        · have : (-2 ^ 63 : ℤ) - 1 < ⌈v⌉ := Int.lt_ceil.2 (by push_cast; linarith)
          omega
        · have : ⌈v⌉ ≤ (0 : ℤ) := Int.ceil_le.2 (by push_cast; linarith)
          omega
    rw [if_pos (by unfold int64Min int64Max; exact h5)]
    refine ⟨_, rfl, ?_⟩
    rw [min_eq_right h5.2, max_eq_right h5.1]

theorem mpfrGetSi_eq (mode : ℤ) (d : Dbl) : (.fin (mpfrGetSi mode d) : Dbl) = toInt64 mode d := by
  cases d <;> simp [mpfrGetSi, toInt64, int64Max, int64Min] <;> norm_num

/-- Rounding conversion of arrays. -/
theorem cast_round {fp : Fp} {R : ToDouble} (hR : fp.Rounds R) {opt : Option Options} {x : Vals} {s : ℚ}
    {N : ℕ} {W : VC} {y0 : Arr W.El} {d : ℕ → Dbl} (hs : s ≠ 0) (hW : W.ty = .mpfr ∨ W.ty = .fp64 ∨ W.ty = .int64)
    (hx : ∀ k : ℕ, k < N → x.dval s k = some (d k))
    (hy0 : ∀ k : ℕ, k < N → ∃ u, get y0 k = some u)
    (hC : ∀ k : ℕ, k < N → Converts R opt (s = 1) x.ty W.ty (d k)) :
    ∃ y : Arr W.El, slip_cast_array fp opt (some (W.mk y0)) (some x) N 1 s = .ok (W.mk y, 1) ∧
      (∀ k : ℕ, k < N → (W.mk y).dval 1 k = some (converted R opt (s = 1) x.ty W.ty (d k))) ∧
      Tail N y0 y := by
  obtain ⟨V, a, rfl, hV⟩ := VC.exists_mk x
  rw [← hV] at hC ⊢
  cases W <;> simp only [VC.ty, reduceCtorEq, or_false, false_or] at hW
  case r =>
    cases V
    case z =>
      exact castLoop_ddone (W := .r) (castLoop_dvals (V := .z) (W := .r) hy0 hx
        fun k u hk hu => ⟨mpfrRnd (optPrec opt) (optRound opt) (d k), by
          rw [unscaleZ_eq hs, ← hu]; rfl, rfl⟩)
    all_goals
      exact castLoop_ddone (W := .r) (castLoop_dvals (W := .r) hy0 hx
        fun k u hk hu => ⟨mpfrRnd (optPrec opt) (optRound opt) (d k), by rw [← hu]; rfl, rfl⟩)
  case d =>
    cases V
    case z =>
      exact castLoop_ddone (W := .d) (castLoop_dvals (V := .z) (W := .d) hy0 hx
        fun k u hk hu => ⟨R.trunc (((u : Int) : ℚ) / s), by
          split
          · rename_i h1; rw [hR.mpz, h1, div_one]; rfl
          · rw [unscaleZ_eq hs, ok_bind, hR.mpq]; rfl, by
          rw [← hu]; rfl⟩)
    case q =>
      exact castLoop_ddone (W := .d) (castLoop_dvals (V := .q) (W := .d) hy0 hx
        fun k u hk hu => ⟨R.trunc u, by rw [hR.mpq]; rfl, by rw [← hu]; rfl⟩)
    case r =>
      exact castLoop_ddone (W := .d) (castLoop_dvals (V := .r) (W := .d) hy0 hx
        fun k u hk hu => ⟨R.round (optRound opt) u, by rw [hR.mpfr]; rfl, by rw [← hu]; rfl⟩)
    case i =>
      exact castLoop_ddone (W := .d) (castLoop_dvals (V := .i) (W := .d) hy0 hx
        fun k u hk hu => ⟨R.round 0 (.fin ((u : Int) : ℚ)), by rw [hR.int64]; rfl, by rw [← hu]; rfl⟩)
    case d =>
      exact castLoop_ddone (W := .d) (castLoop_dvals (V := .d) (W := .d) hy0 hx
        fun k u hk hu => ⟨u, rfl, by rw [← hu]; rfl⟩)
  case i =>
    have hC' := fun k hk => hC k hk rfl
    cases V
    case z =>
      refine castLoop_ddone (W := .i) (castLoop_dvals (V := .z) (W := .i) hy0 hx
        fun k u hk hu => ?_)
      have h := hC' k hk
      simp only [VC.ty] at h
      have hu' : Dbl.fin (((u : Int) : ℚ) / s) = d k := hu
      by_cases h1 : s = 1
      · rw [if_pos h1] at h
        rw [if_pos h1]
        obtain ⟨h2, h3⟩ := h _ hu'.symm
        rw [h1, div_one] at h2 h3
        refine ⟨mpzGetSi u, rfl, ?_⟩
        rw [mpzGetSi_fits (by exact_mod_cast h2) (by exact_mod_cast h3), ← hu']
        simp [converted, VC.ddec, VC.ty, h1]
      · rw [if_neg h1] at h
        rw [if_neg h1, unscaleZ_eq hs, ok_bind, hR.mpq]
        rw [← hu'] at h
        obtain ⟨r, e, hr⟩ := cast_toInt64 h
        refine ⟨r, e, ?_⟩
        rw [← hu']
        simp only [VC.ddec, converted, VC.ty, if_neg h1]
        exact hr
    case q =>
      refine castLoop_ddone (W := .i) (castLoop_dvals (V := .q) (W := .i) hy0 hx
        fun k u hk hu => ?_)
      have h := hC' k hk
      have hu' : Dbl.fin u = d k := hu
      rw [← hu'] at h
      obtain ⟨r, e, hr⟩ := cast_toInt64 h
      refine ⟨r, by rw [hR.mpq]; exact e, ?_⟩
      rw [← hu']
      exact hr
    case r =>
      refine castLoop_ddone (W := .i) (castLoop_dvals (V := .r) (W := .i) hy0 hx
        fun k u hk hu => ⟨_, rfl, ?_⟩)
      have hu' : u = d k := hu
      rw [← hu']
      exact mpfrGetSi_eq _ u
    case i =>
      exact castLoop_ddone (W := .i) (castLoop_dvals (V := .i) (W := .i) hy0 hx
        fun k u hk hu => ⟨u, rfl, hu⟩)
    case d =>
      refine castLoop_ddone (W := .i) (castLoop_dvals (V := .d) (W := .i) hy0 hx
        fun k u hk hu => ?_)
      have h := hC' k hk
      have hu' : u = d k := hu
      rw [← hu'] at h
      obtain ⟨r, e, hr⟩ := cast_toInt64 h
      refine ⟨r, e, ?_⟩
      rw [← hu']
      exact hr

/-! ## Matrices -/

variable {fp : Fp} {R : ToDouble} {opt : Option Options} {m n N : ℕ} {A : Mat} {W : VC}

theorem Entries.nnz (h : Entries m n N A) : SLIP_matrix_nnz true (some A) = .ok (N : ℤ) := by
  have hs := h.shape
  unfold SLIP_matrix_nnz
  simp only [Bool.not_true, Bool.false_eq_true, if_false]
  cases hk : A.kind with
  | csc =>
    rw [hk] at hs
    obtain ⟨h1, h2, -⟩ := hs
    cases hp : A.p with
    | none => rw [hp] at h1; cases h1
    | some p =>
      rw [hp] at h2
      dsimp only
      rw [if_neg (by have := h.cols; omega), h.cols]
      exact rd_eq h2
  | triplet => rw [hk] at hs; simp only [hs.1]; rfl
  | dense =>
    rw [hk] at hs
    dsimp only
    rw [if_neg (by have := h.cols; have := h.rows; omega), h.rows, h.cols, hs]
    push_cast; rfl
  | bad v => rw [hk] at hs; exact hs.elim

theorem Entries.kind_ok (h : Entries m n N A) : A.kind.ok = true := by
  have hs := h.shape
  cases hk : A.kind with
  | bad v => rw [hk] at hs; exact hs.elim
  | csc => rfl
  | triplet => rfl
  | dense => rfl

theorem Entries.x (h : Entries m n N A) : ∃ x, A.x = some x ∧ x.ty = A.type ∧ ∃ d : ℕ → Dbl,
    ∀ k : ℕ, k < N → x.dval A.scale k = some (d k) ∧ A.dval k = some (d k) := by
  obtain ⟨x, hx, ht⟩ := h.typed
  have hv := h.vals
  have hne : Nonempty Dbl := ⟨.nan⟩
  choose! d hd using hv
  refine ⟨x, hx, ht, d, fun k hk => ⟨?_, hd k hk⟩⟩
  have := hd k hk
  unfold Mat.dval at this
  rw [hx] at this
  exact this

theorem copyInts_same {K : ℕ} {dst src : Arr Int} (hd : K ≤ dst.length)
    (hs : ∀ k : ℕ, k < K → ∃ v, get src k = some v) :
    ∃ d, copyInts dst src K = .ok d ∧ ∀ k : ℕ, k < K → get d k = get src k := by
  choose! v hv using hs
  obtain ⟨d, e, -, g⟩ := copyInts_spec (v := v) hd hv
  exact ⟨d, e, fun k hk => by rw [g k hk, hv k hk]⟩

/-- The values a conversion of all entries gives. -/
def Converted (R : ToDouble) (opt : Option Options) (N : ℕ) (A : Mat) (W : VC) (y0 y : Arr W.El) : Prop :=
  (∀ (k : ℕ) d, k < N → A.dval k = some d →
    (W.mk y).dval 1 k = some (converted R opt (A.scale = 1) A.type W.ty d)) ∧ Tail N y0 y

theorem Entries.cast (h : Entries m n N A) (hR : fp.Rounds R)
    (hW : W.ty = .mpfr ∨ W.ty = .fp64 ∨ W.ty = .int64)
    (hC : ∀ (k : ℕ) d, k < N → A.dval k = some d → Converts R opt (A.scale = 1) A.type W.ty d)
    {y0 : Arr W.El} (hy0 : ∀ k : ℕ, k < N → ∃ u, get y0 k = some u) :
    ∃ y : Arr W.El, slip_cast_array fp opt (some (W.mk y0)) A.x N 1 A.scale = .ok (W.mk y, 1) ∧
      Converted R opt N A W y0 y := by
  obtain ⟨x, hx, ht, d, hd⟩ := h.x
  obtain ⟨y, e, h1, h2⟩ := cast_round (opt := opt) hR h.scale hW (fun k hk => (hd k hk).1) hy0
    (fun k hk => by rw [ht]; exact hC k _ hk (hd k hk).2)
  refine ⟨y, by rw [hx]; exact e, fun k d' hk hd' => ?_, h2⟩
  rw [h1 k hk, ht]
  rw [(hd k hk).2] at hd'
  cases hd'
  rfl

theorem alloc_x {kind : Kind} {type : Ty} {m n nz : ℤ} {c : Mat}
    (h : allocate kind type m n nz false true = .ok c) :
    c.x = newVals type (max (if kind = .dense then m * n else nz) 1) true := by
  unfold allocate at h
  split at h
  · cases h
  · simp only [Bool.false_eq_true, if_false] at h
    cases h
    rfl

/-- Copying without changing the kind. -/
theorem copyBody_round (h : Entries m n N A) (hR : fp.Rounds R)
    (hW : W.ty = .mpfr ∨ W.ty = .fp64 ∨ W.ty = .int64)
    (hC : ∀ (k : ℕ) d, k < N → A.dval k = some d → Converts R opt (A.scale = 1) A.type W.ty d) :
    ∃ B, copyBody fp opt A.kind W.ty A N = .ok B ∧ SamePattern m n N A B ∧ Owns B ∧ B.type = W.ty ∧
      B.scale = 1 ∧ (∃ y0 y, B.x = some (W.mk y) ∧ newVals W.ty (max (N : ℤ) 1) true = some (W.mk y0) ∧
        Converted R opt N A W y0 y ∧
        slip_cast_array fp opt (newVals W.ty (max (N : ℤ) 1) true) A.x N 1 A.scale = .ok (W.mk y, 1)) := by
  have hs := h.shape
  unfold copyBody
  cases hk : A.kind with
  | csc =>
    rw [hk] at hs
    obtain ⟨h1, h2, h3, h4⟩ := hs
    obtain ⟨C0, a, e0, hCm, hCn, hCk, hCt, hCs, hO, hlp, hli, hCx, hu⟩ :=
      allocate_csc (W := W) (m := m) (n := n) (nz := (N : ℤ))
    obtain ⟨p', ep, gp⟩ := copyInts_same (K := n + 1) (dst := deref C0.p) (src := deref A.p)
      (by omega) (fun k hk => by obtain ⟨v, hv, -⟩ := h3 k (by omega); exact ⟨v, hv⟩)
    obtain ⟨i', ei, gi⟩ := copyInts_same (K := N) (dst := deref C0.i) (src := deref A.i) (by omega) h4
    obtain ⟨y, ey, hy⟩ := h.cast hR hW hC (y0 := a)
      (fun k hk => by obtain ⟨u, hu, -⟩ := hu 1 k (by omega); exact ⟨u, hu⟩)
    refine ⟨{ C0 with p := some p', i := some i', x := some (W.mk y), scale := 1 }, ?_, ?_, ?_, hCt, rfl, a, y,
      rfl, by rw [← hCx, alloc_x e0]; simp, hy, by rw [← ey, ← hCx, alloc_x e0]; simp⟩
    · dsimp only
      unfold copyCscCsc
      rw [h.rows, h.cols, e0]
      simp only [ok_bind]
      rw [show ((n : ℤ) + 1) = ((n + 1 : ℕ) : ℤ) by push_cast; rfl, ep]
      simp only [ok_bind, ei]
      rw [hCx, hCs, ey]
      rfl
    · exact ⟨hCm, hCn, by rw [hk]; exact hCk, fun _ j hj => gp j (by omega), fun _ => gi, by simp [hk],
        by simp [hk]⟩
    · exact ⟨hO.notShallow, by simp [hCk], by simp [hCk], hO.j, rfl⟩
  | triplet =>
    rw [hk] at hs
    obtain ⟨h1, h2⟩ := hs
    obtain ⟨C0, a, e0, hCm, hCn, hCk, hCt, hCs, hO, hlj, hli, hCx, hu⟩ :=
      allocate_triplet (W := W) (m := m) (n := n) (nz := (N : ℤ))
    obtain ⟨j', ej, gj⟩ := copyInts_same (K := N) (dst := deref C0.j) (src := deref A.j) (by omega)
      fun k hk => (h2 k hk).2
    obtain ⟨i', ei, gi⟩ := copyInts_same (K := N) (dst := deref C0.i) (src := deref A.i) (by omega)
      fun k hk => (h2 k hk).1
    obtain ⟨y, ey, hy⟩ := h.cast hR hW hC (y0 := a)
      (fun k hk => by obtain ⟨u, hu, -⟩ := hu 1 k (by omega); exact ⟨u, hu⟩)
    refine ⟨{ C0 with i := some i', j := some j', x := some (W.mk y), scale := 1, nz := N }, ?_, ?_, ?_, hCt,
      rfl, a, y, rfl, by rw [← hCx, alloc_x e0]; simp, hy, by rw [← ey, ← hCx, alloc_x e0]; simp⟩
    · dsimp only
      unfold copyTripletTriplet
      rw [h.rows, h.cols, e0]
      simp only [ok_bind, ej, ei]
      rw [hCx, hCs, ey]
      rfl
    · exact ⟨hCm, hCn, by rw [hk]; exact hCk, by simp [hk], fun _ => gi, fun _ => gj, fun _ => h1.symm⟩
    · exact ⟨hO.notShallow, hO.p, by simp [hCk], by simp [hCk], rfl⟩
  | dense =>
    rw [hk] at hs
    have hs' : N = m * n := hs
    obtain ⟨C0, a, e0, hCm, hCn, hCk, hCt, hCs, hO, hCx, hu⟩ :=
      allocate_dense (W := W) (m := m) (n := n) (nz := (N : ℤ))
    obtain ⟨y, ey, hy⟩ := h.cast hR hW hC (y0 := a)
      (fun k hk => by obtain ⟨u, hu, -⟩ := hu 1 k (by omega); exact ⟨u, hu⟩)
    refine ⟨{ C0 with x := some (W.mk y), scale := 1 }, ?_, ?_, ?_, hCt, rfl, a, y, rfl, by
      rw [← hCx, alloc_x e0, if_pos rfl, hs']; push_cast; rfl, hy, by
      rw [← ey, ← hCx, alloc_x e0, if_pos rfl, hs']; push_cast; rfl⟩
    · dsimp only
      unfold copyDenseDense
      rw [h.rows, h.cols, e0]
      simp only [ok_bind]
      rw [hCx, hCs, ey]
      rfl
    · exact ⟨hCm, hCn, by rw [hk]; exact hCk, by simp [hk], by simp [hk], by simp [hk], by simp [hk]⟩
    · exact ⟨hO.notShallow, hO.p, hO.i, hO.j, rfl⟩
  | bad v => rw [hk] at hs; exact hs.elim

/-! ## Changing the kind as well: the type changes first -/

theorem forCnt_congr {σ : Type} {f g : ℤ → σ → C σ} : ∀ (c : ℕ) (lo : ℤ) (s : σ),
    (∀ i, lo ≤ i → i < lo + c → ∀ s, f i s = g i s) → forCnt c lo s f = forCnt c lo s g
  | 0, _, _, _ => rfl
  | c + 1, lo, s, h => by
    simp only [forCnt]
    rw [h lo le_rfl (by push_cast; omega)]
    congr 1
    funext s
    exact forCnt_congr c (lo + 1) s fun i h1 h2 => h i (by omega) (by push_cast; omega)

theorem forRange_congr {σ : Type} {f g : ℤ → σ → C σ} {lo hi : ℤ} {s : σ}
    (h : ∀ i, lo ≤ i → i < hi → ∀ s, f i s = g i s) : forRange lo hi s f = forRange lo hi s g := by
  unfold forRange
  exact forCnt_congr _ _ _ fun i h1 h2 => h i h1 (by omega)

theorem rd_congr {α : Type} {a b : Arr α} {k : ℤ} (h : get a k = get b k) : rd a k = rd b k := by
  unfold rd; rw [h]

theorem SamePattern.entries {B : Mat} (h : Entries m n N A) (hp : SamePattern m n N A B) (hO : Owns B)
    {y : Vals} (hx : B.x = some y) (ht : y.ty = B.type) (hs : B.scale ≠ 0)
    (hv : ∀ k : ℕ, k < N → ∃ d, B.dval k = some d) : Entries m n N B := by
  refine ⟨⟨hp.rows, hp.cols, ⟨y, hx, ht⟩, hs⟩, ?_, hv⟩
  have hsh := h.shape
  rw [hp.kind]
  cases hk : A.kind with
  | csc =>
    rw [hk] at hsh
    obtain ⟨h1, h2, h3, h4⟩ := hsh
    refine ⟨hO.p.2 (by rw [hp.kind, hk]), by rw [hp.p hk n le_rfl, h2], fun j hj => ?_, fun k hk' => ?_⟩
    · rw [hp.p hk j hj]; exact h3 j hj
    · rw [hp.i (by rw [hk]; simp) k hk']; exact h4 k hk'
  | triplet =>
    rw [hk] at hsh
    refine ⟨by rw [hp.nz hk]; exact hsh.1, fun k hk' => ?_⟩
    rw [hp.i (by rw [hk]; simp) k hk', hp.j hk k hk']
    exact hsh.2 k hk'
  | dense => rw [hk] at hsh; exact hsh
  | bad v => rw [hk] at hsh; exact hsh.elim

theorem slip_cast_matrix_same {B : Mat} (hnz : SLIP_matrix_nnz true (some B) = .ok (N : ℤ))
    (ht : B.type = W.ty) : slip_cast_matrix fp opt W.ty B = .ok (B.x, 1) := by
  have hok : W.ty.ok = true := by cases W <;> rfl
  unfold slip_cast_matrix
  rw [hnz]
  simp only [ok_bind]
  have hal : allocate .dense W.ty (N : ℤ) 1 (N : ℤ) (decide (W.ty = B.type)) true = .ok
      { m := N, n := 1, nzmax := max ((N : ℤ) * 1) 1, nz := 0, kind := .dense, type := W.ty,
        p := none, pShallow := true, i := none, iShallow := true,
        j := none, jShallow := true, x := none, xShallow := true, scale := 1 } := by
    unfold allocate
    rw [if_neg (by simp [Kind.ok, hok]), decide_eq_true ht.symm]
    rfl
  rw [hal]
  simp only [ok_bind]
  rw [if_pos ht.symm]
  rfl

theorem slip_cast_matrix_other (h : Entries m n N A) (ht : W.ty ≠ A.type) {y : Vals}
    (e : slip_cast_array fp opt (newVals W.ty (max (N : ℤ) 1) true) A.x N 1 A.scale = .ok (y, 1)) :
    slip_cast_matrix fp opt W.ty A = .ok (some y, 1) := by
  unfold slip_cast_matrix
  rw [h.nnz]
  simp only [ok_bind]
  rw [decide_eq_false ht]
  obtain ⟨c, a, e0, -, -, -, -, hsc, -, hcx, -⟩ := allocate_dense (W := W) (m := N) (n := 1) (nz := (N : ℤ))
  rw [show ((1 : ℕ) : ℤ) = 1 from rfl] at e0
  rw [e0]
  simp only [ok_bind]
  rw [if_neg ht, alloc_x e0, if_pos rfl, mul_one, hsc, e]
  rfl

theorem arr_ext_nat {α : Type} {a b : Arr α} (hl : a.length = b.length)
    (h : ∀ k : ℕ, k < a.length → get a k = get b k) : a = b := by
  apply List.ext_getElem hl
  intro k h1 h2
  have := h k h1
  unfold get at this
  rw [if_neg (by omega), if_neg (by omega)] at this
  simpa [h1, h2] using this

/-- Converting values that already have the type and, for MPFR, the precision, changes nothing. -/
theorem cast_again {y0 y : Arr W.El} (hW : W.ty = .mpfr ∨ W.ty = .fp64 ∨ W.ty = .int64)
    (hy0 : ∀ k : ℕ, k < N → ∃ u, get y0 k = some u) (hT : Tail N y0 y)
    (hy : ∀ k : ℕ, k < N → ∃ d, (W.mk y).dval 1 k = some d ∧
      (W.ty = .mpfr → mpfrRnd (optPrec opt) (optRound opt) d = d)) :
    slip_cast_array fp opt (some (W.mk y0)) (some (W.mk y)) N 1 1 = .ok (W.mk y, 1) := by
  have key : ∀ f : Int → W.El → C W.El, (∀ (k : ℕ) u, k < N → get y k = some u → f k u = .ok u) →
      castLoop f y0 y N = .ok y := by
    intro f hf
    have hu : ∀ k : ℕ, k < N → ∃ u, get y k = some u := fun k hk => by
      obtain ⟨d, hd, -⟩ := hy k hk
      rw [VC.dval_mk, Option.map_eq_some_iff] at hd
      exact ⟨_, hd.choose_spec.1⟩
    have hne : Nonempty W.El := by
      cases W <;> exact ⟨by first | exact (0 : Int) | exact (0 : ℚ) | exact Dbl.nan⟩
    choose! u hu using hu
    obtain ⟨y', e, hl, g, ht⟩ := castLoop_spec (f := f) (w := u) hy0 hu (fun k hk => hf k _ hk (hu k hk))
    rw [e]
    congr 1
    refine arr_ext_nat (hl.trans hT.1.symm) fun k _ => ?_
    by_cases hk : k < N
    · rw [g k hk, hu k hk]
    · rw [ht k (by omega), hT.2 k (by omega)]
  cases W <;> simp only [VC.ty, reduceCtorEq, or_false, false_or] at hW
  case r =>
    have e := key (fun _ v => pure (mpfrRnd (optPrec opt) (optRound opt) v)) fun k u hk hu => by
      obtain ⟨d, hd, h⟩ := hy k hk
      rw [VC.dval_mk, hu] at hd
      simp only [Option.map_some, Option.some.injEq] at hd
      have hd : u = d := hd
      rw [hd, h rfl]; rfl
    show (castLoop (fun _ v => pure (mpfrRnd (optPrec opt) (optRound opt) v)) y0 y N >>= _) = _
    rw [e]; rfl
  case i =>
    have e := key (fun _ v => pure v) fun k u hk hu => rfl
    show (castLoop (fun _ v => pure v) y0 y N >>= _) = _
    rw [e]; rfl
  case d =>
    have e := key (fun _ v => pure v) fun k u hk hu => rfl
    show (castLoop (fun _ v => pure v) y0 y N >>= _) = _
    rw [e]; rfl

theorem copyCscTriplet_factor {B : Mat} (h : Entries m n N A) (hk : A.kind = .csc)
    (hp : SamePattern m n N A B) {y : Vals}
    (hA : slip_cast_array fp opt (newVals W.ty (max (N : ℤ) 1) true) A.x N 1 A.scale = .ok (y, 1))
    (hB : slip_cast_array fp opt (newVals W.ty (max (N : ℤ) 1) true) B.x N 1 B.scale = .ok (y, 1)) :
    copyCscTriplet fp opt W.ty A N = copyCscTriplet fp opt W.ty B N := by
  have hs := h.shape
  rw [hk] at hs
  obtain ⟨h1, h2, h3, h4⟩ := hs
  unfold copyCscTriplet
  rw [h.rows, h.cols, hp.rows, hp.cols]
  obtain ⟨c, a, e0, -, -, -, -, hsc, -, -, -, hcx, -⟩ :=
    allocate_triplet (W := W) (m := m) (n := n) (nz := (N : ℤ))
  rw [e0]
  simp only [ok_bind]
  have hx := alloc_x e0
  simp only [reduceCtorEq, if_false] at hx
  rw [hx, hsc, hA, hB]
  simp only [ok_bind]
  have k1 : copyInts (deref c.i) (deref A.i) N = copyInts (deref c.i) (deref B.i) N := by
    unfold copyInts
    refine forRange_congr fun t ht0 ht1 s => ?_
    obtain ⟨t', rfl⟩ := Int.eq_ofNat_of_zero_le ht0
    rw [rd_congr (hp.i (by rw [hk]; simp) t' (by omega))]
  rw [k1]
  congr 1
  funext i
  congr 1
  refine forRange_congr fun j hj0 hj1 s => ?_
  obtain ⟨j', rfl⟩ := Int.eq_ofNat_of_zero_le hj0
  have hj1 : j' < n := by exact_mod_cast hj1
  have g1 := hp.p hk j' (by omega)
  have g2 := hp.p hk (j' + 1) (by omega)
  push_cast at g2
  rw [rd_congr g1, rd_congr g2]

/-- Changing type and kind is changing the type, then the kind. -/
theorem copyBody_factor {B : Mat} {kind : Kind} (h : Entries m n N A)
    (hp : SamePattern m n N A B)
    (hA : slip_cast_matrix fp opt W.ty A = .ok (B.x, 1))
    (hBc : slip_cast_matrix fp opt W.ty B = .ok (B.x, 1)) (hne : kind ≠ A.kind)
    (hct : A.kind = .csc → kind ≠ .triplet) :
    copyBody fp opt kind W.ty A N = copyBody fp opt kind W.ty B N := by
  have hs := h.shape
  unfold copyBody
  rw [hp.kind]
  cases hk : A.kind with
  | csc =>
    rw [hk] at hs
    obtain ⟨h1, h2, h3, h4⟩ := hs
    cases kind with
    | csc => exact absurd hk.symm hne
    | triplet => exact absurd rfl (hct hk)
    | bad v => rfl
    | dense =>
      dsimp only
      unfold copyCscDense
      rw [hA, hBc, h.rows, h.cols, hp.rows, hp.cols]
      have key : ∀ {α : Type} (e : Elt α) (Cx Yx : Arr α),
          scatterCsc e m n (deref A.p) (deref A.i) Cx Yx = scatterCsc e m n (deref B.p) (deref B.i) Cx Yx := by
        intro α e Cx Yx
        unfold scatterCsc
        refine forRange_congr fun j hj0 hj1 s => ?_
        obtain ⟨j', rfl⟩ := Int.eq_ofNat_of_zero_le hj0
        have hj1 : j' < n := by exact_mod_cast hj1
        have g1 := hp.p hk j' (by omega)
        have g2 := hp.p hk (j' + 1) (by omega)
        obtain ⟨a, ha, ha0, -⟩ := h3 j' (by omega)
        obtain ⟨b, hb, -, hbN⟩ := h3 (j' + 1) (by omega)
        push_cast at g2 hb
        rw [ha] at g1
        rw [hb] at g2
        rw [rd_eq ha, rd_eq hb, rd_eq g1, rd_eq g2]
        simp only [ok_bind]
        refine forRange_congr fun t ht0 ht1 s => ?_
        obtain ⟨t', rfl⟩ := Int.eq_ofNat_of_zero_le (ha0.trans ht0)
        rw [rd_congr (hp.i (by rw [hk]; simp) t' (by omega))]
      simp only [key]
  | triplet =>
    rw [hk] at hs
    have gi := fun (k : ℕ) (hk' : k < N) => rd_congr (hp.i (by rw [hk]; simp) k hk')
    have gj := fun (k : ℕ) (hk' : k < N) => rd_congr (hp.j hk k hk')
    cases kind with
    | triplet => exact absurd hk.symm hne
    | bad v => rfl
    | dense =>
      dsimp only
      unfold copyTripletDense
      rw [hA, hBc, h.rows, h.cols, hp.rows, hp.cols]
      have key : ∀ {α : Type} (e : Elt α) (Cx Yx : Arr α),
          scatterTriplet e m N (deref A.i) (deref A.j) Cx Yx =
            scatterTriplet e m N (deref B.i) (deref B.j) Cx Yx := by
        intro α e Cx Yx
        unfold scatterTriplet
        refine forRange_congr fun k h0 h1 s => ?_
        obtain ⟨k', rfl⟩ := Int.eq_ofNat_of_zero_le h0
        rw [gi k' (by omega), gj k' (by omega)]
      simp only [key]
    | csc =>
      dsimp only
      unfold copyTripletCsc
      rw [hA, hBc, h.rows, h.cols, hp.rows, hp.cols]
      have key : ∀ {α : Type} (e : Elt α) (W Ci : Arr Int) (Cx Yx : Arr α),
          buildCsc e (deref A.i) (deref A.j) N W Ci Cx Yx =
            buildCsc e (deref B.i) (deref B.j) N W Ci Cx Yx := by
        intro α e W Ci Cx Yx
        unfold buildCsc
        congr 1
        refine forRange_congr fun k h0 h1 s => ?_
        obtain ⟨k', rfl⟩ := Int.eq_ofNat_of_zero_le h0
        rw [gi k' (by omega), gj k' (by omega)]
      have key2 : ∀ W : Arr Int, (forRange 0 (N : ℤ) W fun k W => do
            let j ← rd (deref A.j) k
            let w ← rd W j
            wr W j (w + 1)) = (forRange 0 (N : ℤ) W fun k W => do
            let j ← rd (deref B.j) k
            let w ← rd W j
            wr W j (w + 1)) := by
        intro W
        refine forRange_congr fun k h0 h1 s => ?_
        obtain ⟨k', rfl⟩ := Int.eq_ofNat_of_zero_le h0
        rw [gj k' (by omega)]
      simp only [key, key2]
  | dense =>
    have e1 : copyDenseCsc fp opt W.ty A N = copyDenseCsc fp opt W.ty B N := by
      unfold copyDenseCsc
      rw [hA, hBc, h.rows, h.cols, hp.rows, hp.cols]
    cases kind with
    | dense => exact absurd hk.symm hne
    | bad v => rfl
    | csc => exact e1
    | triplet =>
      dsimp only
      unfold copyDenseTriplet
      rw [e1]
  | bad v => rw [hk] at hs; exact hs.elim

/-! ## Errors -/

/-- The function does not return early with SLIP_OK. -/
def NRO {α : Type} (c : C α) : Prop := c ≠ .error (.ret .ok)

namespace NRO

variable {α β σ : Type}

theorem ok (a : α) : NRO (.ok a : C α) := by simp [NRO]
theorem pure (a : α) : NRO (Pure.pure a : C α) := ok a
theorem ub : NRO (.error .ub : C α) := by simp [NRO]
theorem bad : NRO (.error (.ret .incorrectInput) : C α) := by simp [NRO]

theorem bind {c : C α} {f : α → C β} (h : NRO c) (h' : ∀ a, NRO (f a)) : NRO (c >>= f) := by
  cases c with
  | ok a => exact h' a
  | error e => intro he; exact h (by cases he; rfl)

theorem ite {p : Prop} [Decidable p] {c d : C α} (h : NRO c) (h' : NRO d) :
    NRO (if p then c else d) := by
  split
  · exact h
  · exact h'

theorem rd (a : Arr α) (k : ℤ) : NRO (Slip.rd a k) := by
  unfold Slip.rd; split <;> simp [NRO]

theorem wr (a : Arr α) (k : ℤ) (v : α) : NRO (Slip.wr a k v) := by
  unfold Slip.wr; split <;> simp [NRO]

theorem zset (a : Arr α) (k : ℤ) (v : α) : NRO (Slip.zset a k v) := by
  unfold Slip.zset
  exact bind (rd _ _) fun _ => wr _ _ _

theorem forCnt {f : ℤ → σ → C σ} (h : ∀ i s, NRO (f i s)) :
    ∀ (c : ℕ) (lo : ℤ) (s : σ), NRO (Slip.forCnt c lo s f)
  | 0, _, s => ok s
  | c + 1, lo, s => bind (h lo s) fun s => forCnt h c (lo + 1) s

theorem forRange {f : ℤ → σ → C σ} {lo hi : ℤ} {s : σ} (h : ∀ i s, NRO (f i s)) :
    NRO (Slip.forRange lo hi s f) := forCnt h _ _ _

theorem castLoop {f : ℤ → α → C β} {y : Arr β} {x : Arr α} {n : ℤ} (h : ∀ k v, NRO (f k v)) :
    NRO (Slip.castLoop f y x n) :=
  forRange fun _ _ => bind (rd _ _) fun _ => bind (h _ _) fun _ => zset _ _ _

theorem allocate {k t m n z s i} : NRO (Slip.allocate k t m n z s i) := by
  unfold Slip.allocate
  split
  · exact bad
  · dsimp only
    split <;> exact ok _

theorem gcdLoop (x : Arr Int) : ∀ (c : ℕ) (i : ℤ) (s : Option (ℤ × ℤ)), NRO (Slip.gcdLoop x c i s)
  | 0, _, _ => ok _
  | c + 1, i, none => bind (rd _ _) fun v => ite (gcdLoop x c _ _) (gcdLoop x c _ _)
  | c + 1, i, some (k, g) => bind (rd _ _) fun v => ite (ok _) (gcdLoop x c _ _)

theorem reduceGcd {x : Arr Int} {s : ℚ} {n : ℤ} : NRO (Slip.reduceGcd x s n) := by
  unfold Slip.reduceGcd
  refine bind (gcdLoop _ _ _ _) fun r => ?_
  split
  · exact ok _
  · exact ok _
  · refine bind (forRange fun i a => bind (rd _ _) fun v => bind ?_ fun d => zset _ _ _) fun _ => ok _
    unfold divexact
    split <;> simp [NRO]

theorem unscaleZ {s : ℚ} {v : ℤ} : NRO (Slip.unscaleZ s v) := by
  unfold Slip.unscaleZ
  exact ite (ok _) (ite ub (ok _))

theorem toInt64 {d : Dbl} : NRO (slip_cast_double_to_int64 d) := by
  unfold slip_cast_double_to_int64
  split
  · exact ok _
  · exact ok _
  · exact ok _
  · exact ite (ok _) (ite (ok _) (ite (ok _) ub))

theorem cast {fp : Fp} {opt Y X n ys xs} : NRO (slip_cast_array fp opt Y X n ys xs) := by
  unfold slip_cast_array
  dsimp only
  split
  all_goals first
    | exact bad
    | refine bind (castLoop fun _ _ => ?_) fun _ => ok _
    | refine bind ?_ fun _ => ok _
  all_goals try first
    | exact ok _
    | exact unscaleZ
    | exact toInt64
    | exact bind unscaleZ fun _ => ok _
    | exact ite (ok _) (bind unscaleZ fun _ => toInt64)
    | exact ite (ok _) (bind unscaleZ fun _ => ok _)
    | (unfold mpqSetD; split <;> simp [NRO, Pure.pure, Except.pure])
  · unfold slip_expand_mpq_array
    exact bind (forRange fun _ _ => bind (rd _ _) fun _ => zset _ _ _) fun _ => bind (rd _ _) fun _ =>
      bind (forRange fun _ _ => bind (rd _ _) fun _ => ok _) fun _ =>
      bind (forRange fun _ _ => bind (rd _ _) fun _ => bind (zset _ _ _) fun _ => bind (rd _ _) fun _ =>
        bind (zset _ _ _) fun _ => ok _) fun _ => ok _
  · unfold slip_expand_mpfr_array
    exact bind (forRange fun _ _ => bind (rd _ _) fun _ => bind (zset _ _ _) fun _ => bind (rd _ _) fun _ =>
        bind (zset _ _ _) fun _ => ok _) fun _ => reduceGcd
  · unfold slip_expand_double_array
    exact bind (forRange fun _ _ => bind (rd _ _) fun _ => bind (zset _ _ _) fun _ => bind (rd _ _) fun _ =>
        bind (zset _ _ _) fun _ => bind (rd _ _) fun _ => bind (zset _ _ _) fun _ => ok _)
        fun _ => reduceGcd

theorem nnz {i A} : NRO (SLIP_matrix_nnz i A) := by
  unfold SLIP_matrix_nnz
  refine ite (ok _) ?_
  split
  · exact ok _
  · split
    · split
      · exact ok _
      · exact ite (ok _) (rd _ _)
    · exact ok _
    · exact ite (ok _) (ok _)
    · exact ok _

theorem castMatrix {fp : Fp} {opt t A} : NRO (slip_cast_matrix fp opt t A) :=
  bind nnz fun _ => bind allocate fun _ => ite (ok _) (bind cast fun _ => ok _)

theorem withVals {opt c y} {f : {α : Type} → Elt α → Arr α → Arr α → C (Arr α × β)}
    (h : ∀ {α : Type} (e : Elt α) (a b : Arr α), NRO (f e a b)) : NRO (Slip.withVals opt c y f) := by
  unfold Slip.withVals
  split
  all_goals first
    | exact ub
    | exact bind (h _ _ _) fun _ => ok _

theorem copyInts {d s : Arr Int} {n : ℤ} : NRO (Slip.copyInts d s n) :=
  forRange fun _ _ => bind (rd _ _) fun _ => wr _ _ _

theorem denseCsc {fp : Fp} {opt t A z} : NRO (copyDenseCsc fp opt t A z) := by
  unfold copyDenseCsc
  refine bind castMatrix fun _ => bind (withVals fun e a b => bind (forRange fun _ _ => bind (rd _ _)
    fun _ => ite (ok _) (ok _)) fun _ => ok _) fun _ => bind allocate fun _ => bind (withVals fun e a b =>
    bind (forRange fun _ _ => bind (wr _ _ _) fun _ => bind (forRange fun _ _ => bind (rd _ _) fun _ =>
      ite (ok _) (bind (wr _ _ _) fun _ => bind (zset _ _ _) fun _ => ok _)) fun _ => ok _) fun _ =>
      bind (wr _ _ _) fun _ => ok _) fun _ => ok _

theorem cscTriplet {fp : Fp} {opt t A z} : NRO (copyCscTriplet fp opt t A z) := by
  unfold copyCscTriplet
  exact bind allocate fun _ => bind cast fun _ => bind copyInts fun _ => bind (forRange fun _ _ =>
    bind (rd _ _) fun _ => bind (rd _ _) fun _ => forRange fun _ _ => wr _ _ _) fun _ => ok _

theorem copyBody {fp : Fp} {opt k t A z} : NRO (Slip.copyBody fp opt k t A z) := by
  unfold Slip.copyBody
  split
  · unfold copyCscCsc
    exact bind allocate fun _ => bind copyInts fun _ => bind copyInts fun _ => bind cast fun _ => ok _
  · unfold copyTripletCsc
    refine bind castMatrix fun _ => bind allocate fun _ => bind (forRange fun _ _ => bind (rd _ _) fun _ =>
      bind (rd _ _) fun _ => wr _ _ _) fun _ => bind ?_ fun _ => bind (withVals fun e a b => bind (forRange
      fun _ _ => bind (rd _ _) fun _ => bind (rd _ _) fun _ => bind (wr _ _ _) fun _ => bind (rd _ _)
      fun _ => bind (wr _ _ _) fun _ => bind (rd _ _) fun _ => bind (zset _ _ _) fun _ => ok _)
      fun _ => ok _) fun _ => ok _
    unfold slip_cumsum
    exact bind (forRange fun _ _ => bind (wr _ _ _) fun _ => bind (rd _ _) fun _ => bind (rd _ _) fun _ =>
      bind (wr _ _ _) fun _ => ok _) fun _ => bind (wr _ _ _) fun _ => ok _
  · exact denseCsc
  · exact cscTriplet
  · unfold copyTripletTriplet
    exact bind allocate fun _ => bind copyInts fun _ => bind copyInts fun _ => bind cast fun _ => ok _
  · unfold copyDenseTriplet
    exact bind denseCsc fun _ => bind nnz fun _ => bind cscTriplet fun _ => ok _
  · unfold copyCscDense
    exact bind allocate fun _ => bind castMatrix fun _ => bind (withVals fun e a b => bind (forRange
      fun _ _ => bind (rd _ _) fun _ => bind (rd _ _) fun _ => forRange fun _ _ => bind (rd _ _) fun _ =>
      bind (rd _ _) fun _ => zset _ _ _) fun _ => ok _) fun _ => ok _
  · unfold copyTripletDense
    exact bind allocate fun _ => bind castMatrix fun _ => bind (withVals fun e a b => bind (forRange
      fun _ _ => bind (rd _ _) fun _ => bind (rd _ _) fun _ => bind (rd _ _) fun _ => zset _ _ _)
      fun _ => ok _) fun _ => ok _
  · unfold copyDenseDense
    exact bind allocate fun _ => bind cast fun _ => ok _
  · exact ub

end NRO

end Slip
