import Verif.Proof.CopyRound
import Verif.Props.Round
import Verif.Props.Copy
import Verif.Props.Api

/-!
# Property C42: conversions that round; C34 for `SLIP_matrix_copy`
-/

namespace Slip

/-! ## C34 -/

/-- C34, copy: if the matrix or the handle is missing, the number of entries is negative or cannot be
determined, or a kind or type is not one of the enumerated ones, the result is SLIP_INCORRECT_INPUT
and the handle is not written. (`p[n]`, if there is one, is read first.) -/
theorem C34_copy (fp : Fp) (Ch : Handle Mat) (kind : Kind) (type : Ty) (A : Option Mat)
    (opt : Option Options)
    (hp : ∀ M p, A = some M → M.kind = .csc → M.p = some p → 0 ≤ M.n → ∃ v, get p M.n = some v)
    (h : A = none ∨ Ch = none ∨ (∃ v, kind = .bad v) ∨ (∃ v, type = .bad v) ∨
      ∃ M, A = some M ∧ ((∃ v, M.kind = .bad v) ∨ (∃ v, M.type = .bad v) ∨
        M.kind = .csc ∧ (M.p = none ∨ M.n < 0 ∨ ∃ p v, M.p = some p ∧ get p M.n = some v ∧ v < 0) ∨
        M.kind = .triplet ∧ M.nz < 0 ∨ M.kind = .dense ∧ (M.m < 0 ∨ M.n < 0))) :
    SLIP_matrix_copy fp true Ch kind type A opt = .ok (.incorrectInput, Ch) := by
  unfold SLIP_matrix_copy
  simp only [Bool.not_true, Bool.false_eq_true, if_false]
  cases A with
  | none => rfl
  | some M =>
    have hz : ∃ z, SLIP_matrix_nnz true (some M) = .ok z ∧
        ((∃ v, M.kind = .bad v) ∨
        M.kind = .csc ∧ (M.p = none ∨ M.n < 0 ∨ ∃ p v, M.p = some p ∧ get p M.n = some v ∧ v < 0) ∨
        M.kind = .triplet ∧ M.nz < 0 ∨ M.kind = .dense ∧ (M.m < 0 ∨ M.n < 0) → z < 0) := by
      unfold SLIP_matrix_nnz
      simp only [Bool.not_true, Bool.false_eq_true, if_false]
      cases hk : M.kind with
      | csc =>
        cases hpp : M.p with
        | none => exact ⟨-1, rfl, fun _ => by decide⟩
        | some p =>
          by_cases hn : M.n < 0
          · exact ⟨-1, by simp [hn]; rfl, fun _ => by decide⟩
          · obtain ⟨v, hv⟩ := hp M p rfl hk hpp (by omega)
            refine ⟨v, by simp [hn, rd_eq hv], fun h => ?_⟩
            simp only [reduceCtorEq, exists_false, true_and, false_and, or_false, false_or, hn,
              Option.some.injEq] at h
            obtain ⟨p', v', e1, e2, e3⟩ := h
            subst e1
            rw [hv] at e2
            cases e2
            exact e3
      | triplet => exact ⟨_, rfl, by simp⟩
      | dense =>
        by_cases hn : M.m < 0 ∨ M.n < 0
        · exact ⟨-1, by simp [hn]; rfl, fun _ => by decide⟩
        · exact ⟨_, by simp only [if_neg hn]; rfl, by simp [hn]⟩
      | bad v => exact ⟨-1, rfl, fun _ => by decide⟩
    obtain ⟨z, hz, hz'⟩ := hz
    rw [hz]
    simp only [ok_bind]
    rw [if_pos]
    · rfl
    · rcases h with h | h | ⟨v, rfl⟩ | ⟨v, rfl⟩ | ⟨M', e, h⟩
      · cases h
      · exact Or.inl h
      · exact Or.inr (Or.inr (Or.inr (Or.inl rfl)))
      · exact Or.inr (Or.inr (Or.inr (Or.inr rfl)))
      · cases e
        rcases h with h | ⟨v, h⟩ | h | h | h
        · exact Or.inr (Or.inl (hz' (Or.inl h)))
        · exact Or.inr (Or.inr (Or.inl (by rw [h]; rfl)))
        · exact Or.inr (Or.inl (hz' (Or.inr (Or.inl h))))
        · exact Or.inr (Or.inl (hz' (Or.inr (Or.inr (Or.inl h)))))
        · exact Or.inr (Or.inl (hz' (Or.inr (Or.inr (Or.inr h)))))

/-- C34, copy: whenever `SLIP_matrix_copy` returns, either the handle holds a new matrix and the result is
SLIP_OK, or the result is an error and the handle is NULL or, if the arguments were rejected, as it was. -/
theorem C34_copy_handle (fp : Fp) (Ch : Handle Mat) (kind : Kind) (type : Ty) (A : Option Mat)
    (opt : Option Options) {info : Info} {r : Handle Mat}
    (h : SLIP_matrix_copy fp true Ch kind type A opt = .ok (info, r)) :
    (∃ B, r = some (some B) ∧ info = .ok) ∨ info ≠ .ok ∧ (r = some none ∨ r = Ch) := by
  unfold SLIP_matrix_copy at h
  simp only [Bool.not_true, Bool.false_eq_true, if_false] at h
  cases hz : SLIP_matrix_nnz true A with
  | error f => rw [hz] at h; cases h
  | ok z =>
    rw [hz] at h
    simp only [ok_bind] at h
    cases A with
    | none => cases h; exact Or.inr ⟨by simp, Or.inr rfl⟩
    | some M =>
      dsimp only at h
      split at h
      · cases h; exact Or.inr ⟨by simp, Or.inr rfl⟩
      · cases hb : copyBody fp opt kind type M z with
        | ok B =>
          rw [hb] at h
          cases h
          exact Or.inl ⟨B, rfl, rfl⟩
        | error f =>
          rw [hb] at h
          have hn := NRO.copyBody (fp := fp) (opt := opt) (k := kind) (t := type) (A := M) (z := z)
          cases f with
          | ub => cases h
          | fuel => cases h
          | ret e =>
            cases h
            exact Or.inr ⟨fun he => hn (by rw [hb, he]), Or.inl rfl⟩

/-! ## C42 -/

section
variable {fp : Fp} {R : ToDouble} {opt : Option Options} {m n N : ℕ} {A : Mat} {type : Ty}

/-- The call succeeds if its body does. -/
theorem copy_call' {Ch : Handle Mat} (hCh : Ch ≠ none) {kind : Kind} {W : VC}
    (hk : kind.ok = true) (h : Entries m n N A) :
    SLIP_matrix_copy fp true Ch kind W.ty (some A) opt = copyWrap (copyBody fp opt kind W.ty A N) := by
  unfold SLIP_matrix_copy
  simp only [Bool.not_true, Bool.false_eq_true, if_false, h.nnz, ok_bind]
  rw [if_neg]
  have hV := vc_ok W
  have hA : A.type.ok = true := by
    obtain ⟨V, hV⟩ := h.toHeader.vc
    rw [← hV]; exact vc_ok V
  simp [hCh, hV, hk, hA]

theorem round_vc (ht : type = .mpfr ∨ type = .fp64 ∨ type = .int64) : ∃ W : VC, W.ty = type := by
  rcases ht with rfl | rfl | rfl
  · exact ⟨.r, rfl⟩
  · exact ⟨.d, rfl⟩
  · exact ⟨.i, rfl⟩

/-- C42: copying a matrix of any kind and type to the same kind and type MPFR, FP64 or INT64 keeps all
positions and replaces every value by the one value `converted` specifies: nothing depends on the other
entries, and each entry is rounded from the exact number it stands for (for MPZ: divided by the scale
factor). The values may be infinities or NaN. -/
theorem C42_entries_rounded {Ch : Handle Mat} (hCh : Ch ≠ none) (hR : fp.Rounds R)
    (hA : Entries m n N A) (ht : type = .mpfr ∨ type = .fp64 ∨ type = .int64)
    (hC : ∀ (k : ℕ) d, k < N → A.dval k = some d → Converts R opt (A.scale = 1) A.type type d) :
    ∃ B, SLIP_matrix_copy fp true Ch A.kind type (some A) opt = .ok (.ok, some (some B)) ∧
      B.type = type ∧ SamePattern m n N A B ∧ Entries m n N B ∧ Owns B ∧
      ∀ (k : ℕ) d, k < N → A.dval k = some d →
        B.dval k = some (converted R opt (A.scale = 1) A.type type d) := by
  obtain ⟨W, rfl⟩ := round_vc ht
  obtain ⟨B, e, hp, hO, hT, hs, y0, y, hx, -, hy, -⟩ := copyBody_round hA hR ht hC
  have hv : ∀ (k : ℕ) d, k < N → A.dval k = some d →
      B.dval k = some (converted R opt (A.scale = 1) A.type W.ty d) := fun k d hk hd => by
    unfold Mat.dval
    rw [hx, hs]
    exact hy.1 k d hk hd
  refine ⟨B, by rw [copy_call' hCh hA.kind_ok hA, e]; rfl, hT, hp, ?_, hO, hv⟩
  refine SamePattern.entries hA hp hO hx (by rw [VC.ty_mk, hT]) (by rw [hs]; exact one_ne_zero)
    fun k hk => ?_
  obtain ⟨d, hd⟩ := hA.vals k hk
  exact ⟨_, hv k d hk hd⟩

theorem mpfrRnd_idem {p : ℤ} (hp : 1 ≤ p) (mode : ℤ) (d : Dbl) :
    mpfrRnd p mode (mpfrRnd p mode d) = mpfrRnd p mode d := by
  cases d with
  | fin v =>
    simp only [mpfrRnd]
    congr 1
    obtain ⟨p, rfl⟩ := Int.eq_ofNat_of_zero_le (by omega : 0 ≤ p)
    exact isFloat_round (by omega) (by
      rw [Int.toNat_natCast]; exact C35_round_isFloat (by omega) mode v)
  | nan => rfl
  | posInf => rfl
  | negInf => rfl

/-- C42: changing the type and the kind at once is the same as first changing the type, which rounds each
entry as above, and then the kind of the result, which by C19 and C20 is exact. -/
theorem C42_type_then_kind {Ch Ch' : Handle Mat} (hCh : Ch ≠ none) (hCh' : Ch' ≠ none)
    (hR : fp.Rounds R) (hA : Entries m n N A) (ht : type = .mpfr ∨ type = .fp64 ∨ type = .int64)
    (hne : A.type ≠ type) (hprec : type = .mpfr → 1 ≤ optPrec opt) {kind : Kind} (hk : kind.ok = true)
    (hkn : kind ≠ A.kind)
    (hC : ∀ (k : ℕ) d, k < N → A.dval k = some d → Converts R opt (A.scale = 1) A.type type d) :
    ∃ B, SLIP_matrix_copy fp true Ch A.kind type (some A) opt = .ok (.ok, some (some B)) ∧
      SLIP_matrix_copy fp true Ch' kind type (some A) opt =
        SLIP_matrix_copy fp true Ch' kind type (some B) opt := by
  obtain ⟨W, rfl⟩ := round_vc ht
  obtain ⟨B, e, hp, hO, hT, hs, y0, y, hx, hy0, hy, ec⟩ := copyBody_round hA hR ht hC
  have hB : Entries m n N B := by
    refine SamePattern.entries hA hp hO hx (by rw [VC.ty_mk, hT]) (by rw [hs]; exact one_ne_zero)
      fun k hk => ?_
    obtain ⟨d, hd⟩ := hA.vals k hk
    exact ⟨_, by unfold Mat.dval; rw [hx, hs]; exact hy.1 k d hk hd⟩
  refine ⟨B, by rw [copy_call' hCh hA.kind_ok hA, e]; rfl, ?_⟩
  rw [copy_call' hCh' hk hA, copy_call' hCh' hk hB]
  congr 1
  by_cases hct : A.kind = .csc ∧ kind = .triplet
  · unfold copyBody
    rw [hp.kind, hct.1, hct.2]
    refine copyCscTriplet_factor hA hct.1 hp ec ?_
    rw [hy0, hx, hs]
    refine cast_again ht ?_ hy.2 fun k hk => ?_
    · intro k hk
      obtain ⟨a, ha, hu⟩ := VC.newVals_mk (V := W) (nzmax := max (N : ℤ) 1)
      rw [hy0] at ha
      obtain ⟨u, hu, -⟩ := hu 1 k (by omega)
      have : y0 = a := by cases W <;> simpa [VC.mk] using ha
      rw [this]
      exact ⟨u, hu⟩
    · obtain ⟨d, hd⟩ := hA.vals k hk
      refine ⟨_, hy.1 k d hk hd, fun hm => ?_⟩
      rw [hm]
      exact mpfrRnd_idem (hprec hm) _ _
  · exact copyBody_factor hA hp (by rw [slip_cast_matrix_other hA (Ne.symm hne) ec, hx])
      (slip_cast_matrix_same hB.nnz hT) hkn fun h1 h2 => hct ⟨h1, h2⟩

end

/-! ## Concrete cases -/

namespace RoundEx

open CopyEx

/-- Rounding to 53 bits (without the limits on the exponent). -/
def R : ToDouble := ⟨fun q => .fin (roundPrec 53 1 q), fun mode d => mpfrRnd 53 mode d⟩

/-- A library that rounds so. -/
def fp : Fp := ⟨fun q => .fin (roundPrec 53 1 q), fun z => .fin (roundPrec 53 1 z),
  fun mode d => mpfrRnd 53 mode d, fun z => .fin (roundPrec 53 0 z), fun _ => 64⟩

theorem fp_rounds : fp.Rounds R := ⟨fun _ => rfl, fun _ => rfl, fun _ _ => rfl, fun _ => rfl⟩

/-- The 1-by-2 dense matrix `[1/3 20/3]`, stored as `[1 20]` with scale factor 3. -/
def D : Mat := base 1 2 0 .dense .mpz (.mpz [some 1, some 20]) 3

/-- The 2-by-2 CSC matrix `[5/2 0; inf -5/2]` of type MPFR. -/
def F : Mat :=
  { base 2 2 0 .csc .mpfr (.mpfr [some (.fin (5/2)), some .posInf, some (.fin (-5/2))]) 1 with
    p := some [some 0, some 2, some 3], i := some [some 0, some 1, some 1] }

/-- Rounding up. -/
def up : Option Options := some ⟨.tolSmallest, .colamd, .fin 1, 0, 128, 2, false⟩

theorem D_entries : Entries 1 2 2 D := by
  refine ⟨⟨rfl, rfl, ⟨_, rfl, rfl⟩, by norm_num [D, base]⟩, rfl, fun k hk => ?_⟩
  interval_cases k <;> exact ⟨_, rfl⟩

theorem F_entries : Entries 2 2 3 F := by
  refine ⟨⟨rfl, rfl, ⟨_, rfl, rfl⟩, by norm_num [F, base]⟩, ⟨rfl, rfl, fun j hj => ?_, fun k hk => ?_⟩,
    fun k hk => ?_⟩
  · interval_cases j
    · exact ⟨0, rfl, by omega, by omega⟩
    · exact ⟨2, rfl, by omega, by omega⟩
    · exact ⟨3, rfl, by omega, by omega⟩
  · interval_cases k <;> exact ⟨_, rfl⟩
  · interval_cases k <;> exact ⟨_, rfl⟩

example := C42_entries_rounded (type := .fp64) (opt := none) (Ch := some none) (by simp) fp_rounds
  D_entries (by simp) (fun k d _ _ h => by cases h)
example := C42_entries_rounded (type := .mpfr) (opt := none) (Ch := some none) (by simp) fp_rounds
  D_entries (by simp) (fun k d _ _ h => by cases h)
example := C42_entries_rounded (type := .int64) (opt := up) (Ch := some none) (by simp) fp_rounds
  F_entries (by simp) (fun k d _ _ _ => trivial)
example := C42_type_then_kind (type := .int64) (opt := up) (Ch := some none) (Ch' := some none)
  (by simp) (by simp) fp_rounds F_entries (by simp) (by decide) (by simp) (kind := .triplet) rfl
  (by decide) (fun k d _ _ _ => trivial)
example := C42_type_then_kind (type := .mpfr) (opt := up) (Ch := some none) (Ch' := some none)
  (by simp) (by simp) fp_rounds D_entries (by simp) (by decide) (by decide) (kind := .csc) rfl
  (by decide) (fun k d _ _ h => by cases h)

/-- The values: 5/2 rounded up is 3, infinity is the largest integer, -5/2 rounded up is -2. -/
example : converted R up (F.scale = 1) F.type .int64 (.fin (5/2)) = .fin 3 ∧
    converted R up (F.scale = 1) F.type .int64 .posInf = .fin (2 ^ 63 - 1) ∧
    converted R up (F.scale = 1) F.type .int64 (.fin (-5/2)) = .fin (-2) := by decide +kernel

/-- `C34_copy` applies: a matrix of unknown type; a triplet matrix with a negative number of entries. -/
example := C34_copy fp (some none) .csc .mpz (some { D with type := .bad 7 }) none
  (fun M p h1 h2 => by cases h1; cases h2) (Or.inr (Or.inr (Or.inr (Or.inr ⟨_, rfl, Or.inr (Or.inl ⟨7, rfl⟩)⟩))))
example := C34_copy fp (some none) .csc .mpz (some { D with kind := .triplet, nz := -1 }) none
  (fun M p h1 h2 => by cases h1; cases h2) (Or.inr (Or.inr (Or.inr (Or.inr ⟨_, rfl, by simp⟩))))

end RoundEx

end Slip
