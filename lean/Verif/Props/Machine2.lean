import Verif.Proof.Machine6
import Verif.Props.Machine
import Verif.Props.Copy
import Verif.Props.Workflow

/-!
# Property C46, continued: SLIP_matrix_copy and SLIP_backslash
-/

namespace Slip
open M64

section
variable {fp : Fp} {O : Orderings} {nc : Int → Int → ℚ → Bool} {opt : Option Options} {m n k : ℕ} {A b : Mat}

/-- C46: copying a valid matrix to any kind and type does not overflow: whenever the copy is defined at
all, 64-bit arithmetic gives the same result. -/
theorem C46_copy {N : ℤ} {kind : Kind} {type : Ty} (hA : Valid m n A)
    (hN : SLIP_matrix_nnz true (some A) = .ok N) (hN1 : N ≤ 2 ^ 60) (hm : (m : ℤ) ≤ 2 ^ 60)
    (hn : (n : ℤ) ≤ 2 ^ 60) (hd : A.kind = .dense ∨ kind = .dense → (m : ℤ) * n ≤ 2 ^ 60) (Ch : Handle Mat)
    (hu : SLIP_matrix_copy fp true Ch kind type (some A) opt ≠ .error .ub) :
    SLIP_matrix_copy64 fp true Ch kind type (some A) opt =
      SLIP_matrix_copy fp true Ch kind type (some A) opt := by
  have hhead : A.m = m ∧ A.n = n := by
    rcases hA with h | h | h <;> exact ⟨h.rows, h.cols⟩
  obtain ⟨hAm, hAn⟩ := hhead
  have hd' : A.kind = .dense ∨ kind = .dense → A.m * A.n ≤ 2 ^ 60 := by rw [hAm, hAn]; exact hd
  have hn' : A.n ≤ 2 ^ 60 := by rw [hAn]; exact hn
  have hnn : SLIP_matrix_nnz64 true (some A) = .ok N := by
    have := (agree_nnz (A := A) fun h => by have := hd' (Or.inl h); omega).eq (by rw [hN]; simp)
    rw [this, hN]
  unfold SLIP_matrix_copy at hu
  unfold SLIP_matrix_copy64 SLIP_matrix_copy
  simp only [Bool.not_true, Bool.false_eq_true, if_false, hN, hnn, ok_bind] at hu ⊢
  by_cases hc : Ch = none ∨ N < 0 ∨ A.type.ok = false ∨ kind.ok = false ∨ type.ok = false
  · rw [if_pos hc, if_pos hc]
  · rw [if_neg hc] at hu
    rw [if_neg hc, if_neg hc]
    have h0 : 0 ≤ N := by
      by_contra h; exact hc (Or.inr (Or.inl (by omega)))
    have hu' : copyBody fp opt kind type A N ≠ .error .ub := by
      intro h; rw [h] at hu; exact hu rfl
    have key : Agree (copyBody64 fp opt kind type A N) (copyBody fp opt kind type A N) (fun _ => True) := by
      unfold copyBody64 copyBody
      rcases hA with h | h | h
      · have hk := h.kind
        rw [hk]
        cases kind with
        | csc => exact agree_copyCscCsc hn' h0 hN1
        | triplet => exact agree_copyCscTriplet hn' h0 hN1
        | dense =>
          refine agree_copyCscDense hk hN hN1 hn' (hd' (Or.inr rfl)) fun j a b p i hj0 hj1 ha hb hp0 hp1 hi => ?_
          obtain ⟨j, rfl⟩ := Int.eq_ofNat_of_zero_le hj0
          obtain ⟨a', b', ea, eb, -, hcol, -⟩ := h.col j (by omega)
          obtain rfl := Option.some.inj (ha.symm.trans ea)
          obtain rfl := Option.some.inj (hb.symm.trans eb)
          obtain ⟨⟨r, hr, er⟩, -⟩ := hcol p hp0 hp1
          rw [hi] at er
          cases er
          exact ⟨by omega, by omega⟩
        | bad v => exact Agree.error _
      · have hk := h.kind
        rw [hk]
        have hNz : A.nz = N := by
          unfold SLIP_matrix_nnz at hN
          simp only [Bool.not_true, Bool.false_eq_true, if_false, hk] at hN
          exact Except.ok.inj hN
        cases kind with
        | csc => exact agree_copyTripletCsc hk hN h0 hN1 hn'
        | triplet => exact agree_copyTripletTriplet h0 hN1
        | dense =>
          refine agree_copyTripletDense hk hN hN1 (hd' (Or.inr rfl)) fun t i j ht0 ht1 hi hj => ?_
          obtain ⟨⟨r, hr, er⟩, ⟨c, hc, ec⟩, -⟩ := h.entry t ht0 (by omega)
          rw [hi] at er
          rw [hj] at ec
          cases er
          cases ec
          exact ⟨⟨by omega, by omega⟩, by omega, by omega⟩
        | bad v => exact Agree.error _
      · have hk := h.kind
        have hmn := hd' (Or.inl hk)
        rw [hk]
        cases kind with
        | csc => exact (agree_copyDenseCsc hk hN hN1 hn' hmn).mono fun _ _ => trivial
        | triplet => exact agree_copyDenseTriplet hk hN hN1 hn' hmn
        | dense => exact agree_copyDenseDense (by omega)
        | bad v => exact Agree.error _
    rw [key.eq hu']

/-- C46 with C19: an exact copy of a valid matrix succeeds in 64-bit arithmetic and represents the same
rational matrix. -/
theorem C46_copy_exact {N : ℤ} {Ch : Handle Mat} (hCh : Ch ≠ none) {kind : Kind} {type : Ty}
    (hA : Valid m n A) (hk : kind.ok = true) (hE : ExactConv m n opt A type) (hK : KindOk m n A kind type)
    (hN : SLIP_matrix_nnz true (some A) = .ok N) (hN1 : N ≤ 2 ^ 60) (hm : (m : ℤ) ≤ 2 ^ 60)
    (hn : (n : ℤ) ≤ 2 ^ 60) (hd : A.kind = .dense ∨ kind = .dense → (m : ℤ) * n ≤ 2 ^ 60) :
    ∃ C, SLIP_matrix_copy64 fp true Ch kind type (some A) opt = .ok (.ok, some (some C)) ∧
      C.kind = kind ∧ C.type = type ∧ Valid m n C ∧ Owns C ∧
      ∀ i j, i < m → j < n → C.num i j = A.num i j := by
  obtain ⟨C, e, h⟩ := C19_copy_exact (fp := fp) hCh hA hk hE hK
  exact ⟨C, by rw [C46_copy hA hN hN1 hm hn hd Ch (by rw [e]; simp), e], h⟩

/-- C46: SLIP_backslash does not overflow for a matrix with at most `2^29` rows and a right-hand side
with at most `2^60` entries, whatever the matrix and the output type: in 64-bit arithmetic it returns
what C35 says. -/
theorem C46_backslash {X : Option Mat} {type : Ty} (hO : AmdOk O opt n) (hA : IsCsc n A)
    (hb : IsDenseZ n k b) (hn0 : 0 < n) (hsA : A.scale ≠ 0) (hsb : b.scale ≠ 0) (ht : TolOk opt)
    (hn : (n : ℤ) ≤ 2 ^ 29) (hnk : (n : ℤ) * k ≤ 2 ^ 60) :
    SLIP_backslash64 fp O nc true (some X) type (some A) (some b) opt =
        SLIP_backslash fp O nc true (some X) type (some A) (some b) opt ∧
      ∃ r, SLIP_backslash64 fp O nc true (some X) type (some A) (some b) opt = .ok r := by
  have e1 := (C46_analyze hO hn hA.kind hA.rows hA.cols hA.pattern hA.idx none).1
  unfold SLIP_backslash64 SLIP_backslash
  simp only [Bool.not_true, Bool.false_eq_true, if_false, reduceCtorEq]
  by_cases hty : type ≠ .mpq ∧ type ≠ .fp64 ∧ type ≠ .mpfr
  · rw [if_pos hty, if_pos hty]
    exact ⟨rfl, _, rfl⟩
  rw [if_neg hty, if_neg hty]
  have hrA : requireFails (some A) .csc .mpz = false := by simp [requireFails, hA.kind, hA.type]
  have hrb : requireFails (some b) .dense .mpz = false := by simp [requireFails, hb.kind, hb.type]
  rw [hrA, hrb]
  simp only [Bool.false_eq_true, if_false]
  rw [e1]
  by_cases hdet : (A.matrix n).det = 0
  · obtain ⟨S, e, ⟨τ, hτ, -⟩, s1, s2, s3, s4⟩ :=
      C17_analysis_usable hO hA.kind hA.rows hA.cols hA.pattern hA.idx none
    have hS : IsAnalysis n S := ⟨⟨τ, hτ⟩, s1, s2⟩
    have hnn : (n : ℤ) * n ≤ 2 ^ 60 := by nlinarith
    have e2 := (C46_factorize (nc := nc) hA hS ht hn (by omega) (by omega) none none none none).1
    have e3 := (C02_singular_verdict_exact (nc := nc) hA hS ht none none none none).1 hdet
    rw [e]
    simp only [ok_bind, ne_eq, not_true_eq_false, if_false, Option.join, Option.bind_some, id]
    rw [e2, e3]
    exact ⟨rfl, _, rfl⟩
  · obtain ⟨S, L, U, R, pinv, x, h1, h2, h3, hx, -⟩ :=
      C46_pipeline (nc := nc) (o₁ := opt) (o₂ := opt) (o₃ := opt) hO hA hb hn0 hsA hsb ht hdet hn hnk
    obtain ⟨S', e, ⟨τ, hτ, -⟩, s1, s2, s3, s4⟩ :=
      C17_analysis_usable hO hA.kind hA.rows hA.cols hA.pattern hA.idx none
    have hS : IsAnalysis n S' := ⟨⟨τ, hτ⟩, s1, s2⟩
    have hnn : (n : ℤ) * n ≤ 2 ^ 60 := by nlinarith
    have hSS : S' = S := by
      rw [e1, e] at h1
      cases h1
      rfl
    subst hSS
    have e2 := (C46_factorize (nc := nc) hA hS ht hn (by omega) (by omega) none none none none).1
    have e3 := (C46_solve (opt' := opt) hA hS ht (e2.symm.trans h2) hn0 hb hsb hn (by omega) (by omega) hnk none).1
    rw [e]
    simp only [ok_bind, ne_eq, not_true_eq_false, if_false, Option.join, Option.bind_some, id]
    rw [← e2, h2]
    simp only [ok_bind, ne_eq, not_true_eq_false, if_false, Option.join, Option.bind_some, id]
    rw [← e3, h3]
    simp only [ok_bind, ne_eq, not_true_eq_false, if_false, Option.join, Option.bind_some, id]
    by_cases hq : type = .mpq
    · rw [if_pos hq, if_pos hq]
      exact ⟨rfl, _, rfl⟩
    · rw [if_neg hq, if_neg hq]
      have hmn : x.m * x.n ≤ 2 ^ 60 := by rw [hx.rows, hx.cols]; exact hnk
      have hcopy : ∃ y, SLIP_matrix_copy fp true (some none) .dense type (some x) opt =
          .ok (.ok, some (some y)) := by
        by_cases hf : type = .fp64
        · rw [hf]
          obtain ⟨y, ey, -⟩ := (copy_denseQ (fp := fp) (opt := opt) hx).1
          exact ⟨y, ey⟩
        · have hr : type = .mpfr := by
            by_contra hr; exact hty ⟨hq, hf, hr⟩
          rw [hr]
          obtain ⟨y, ey, -⟩ := (copy_denseQ (fp := fp) (opt := opt) hx).2
          exact ⟨y, ey⟩
      obtain ⟨y, ey⟩ := hcopy
      have ey' : SLIP_matrix_copy64 fp true (some none) .dense type (some x) opt = .ok (.ok, some (some y)) := by
        have hnn : SLIP_matrix_nnz64 true (some x) = SLIP_matrix_nnz true (some x) :=
          (agree_nnz (A := x) fun _ => by omega).eq (by
            intro h
            unfold SLIP_matrix_nnz at h
            simp only [Bool.not_true, Bool.false_eq_true, if_false, hx.kind] at h
            split at h <;> cases h)
        rw [← ey]
        unfold SLIP_matrix_copy64
        unfold SLIP_matrix_copy at ey ⊢
        simp only [Bool.not_true, Bool.false_eq_true, if_false] at ey ⊢
        rw [hnn]
        cases hz : SLIP_matrix_nnz true (some x) with
        | error f => rw [hz] at ey; cases ey
        | ok N =>
          rw [hz] at ey
          simp only [ok_bind] at ey ⊢
          split at ey
          · cases ey
          · rename_i hc
            rw [if_neg hc, if_neg hc]
            have hbody : copyBody64 fp opt .dense type x N = copyBody fp opt .dense type x N := by
              unfold copyBody64 copyBody
              unfold copyBody at ey
              rw [hx.kind] at ey ⊢
              exact (agree_copyDenseDense (by omega)).eq fun h => by
                dsimp only at ey
                rw [h] at ey
                cases ey
            rw [hbody]
      rw [ey, ey']
      exact ⟨rfl, _, rfl⟩

end

example (fp : Fp) (kind : Kind) (hk : kind.ok = true) := C46_copy_exact (fp := fp) (opt := none) (N := 4)
  (Ch := some none) (kind := kind) (type := .mpq) (by simp) CopyEx.T_valid hk trivial
  ⟨fun h => (by cases h), fun h => (by cases h), fun h => (by cases h)⟩ rfl (by norm_num) (by norm_num)
  (by norm_num) (fun _ => by norm_num)

example (fp : Fp) := C46_backslash (fp := fp) (O := Ex.orderings) (nc := Ex.nc) (opt := none) (X := none)
  (type := .fp64) (Ex.orderings_ok none) Ex.A_csc Ex.b_dense (by decide) Ex.scale_ne.1 Ex.scale_ne.2 Ex.tol_ok
  (by norm_num) (by norm_num)

/-- A large triplet matrix with no entry. -/
def bigEx : Mat :=
  { m := 2 ^ 32, n := 2 ^ 32, nzmax := 1, nz := 0, kind := .triplet, type := .mpz, p := none,
    pShallow := false, i := some [], iShallow := false, j := some [], jShallow := false,
    x := some (.mpz []), xShallow := false, scale := 1 }

/-- Without the bound on `m*n` the copy to a dense matrix overflows: the size is computed in 64 bits. -/
theorem C46_copy_size_refuted (fp : Fp) :
    Valid (2 ^ 32) (2 ^ 32) bigEx ∧
    SLIP_matrix_copy64 fp true (some none) .dense .mpz (some bigEx) none = .error .ub := by
  refine ⟨Or.inr (Or.inl ⟨⟨?_, ?_, ⟨_, rfl, rfl⟩, by decide⟩, rfl, le_rfl, fun t h0 h1 => ?_,
    fun t t' h0 h1 => ?_⟩), ?_⟩
  · norm_num [bigEx]
  · norm_num [bigEx]
  · have : bigEx.nz = 0 := rfl
    omega
  · have : bigEx.nz = 0 := rfl
    omega
  · have h : i64 (bigEx.m * bigEx.n) = .error .ub := by
      unfold i64
      rw [if_neg (by norm_num [bigEx])]
    have e : SLIP_matrix_copy64 fp true (some none) .dense .mpz (some bigEx) none =
        copyWrap (copyTripletDense64 fp none .mpz bigEx 0) := rfl
    rw [e]
    unfold copyTripletDense64 allocate64
    rw [if_neg (by simp [bigEx, Kind.ok, Ty.ok]), if_pos rfl, h]
    rfl

end Slip
