import Verif.Props.Solve
import Verif.Props.Pivot
import Verif.Props.Analyze

/-!
# Claims of the documentation that the code does not meet, refuted by witnesses

Each theorem here is the negation of a documented claim, with the inputs that violate it.
-/

namespace Slip

/-- The `n`-by-`n` dense MPZ object with these entries (by columns). -/
def mkDense (m n : ℕ) (v : List Int) : Mat :=
  Mat.ofDenseZ m n (max (m * n : ℕ) 1) (v.map some)

/-- The CSC MPZ object with these pointers, rows and values. -/
def mkCsc (n : ℕ) (p i x : List Int) : Mat :=
  Mat.ofCsc { m := n, n := n, nzmax := max i.length 1, p := p.map some, i := i.map some,
              x := x.map some }

/-- The natural order with room for `n^2` entries. -/
def natAnalysis (n : ℕ) : Analysis :=
  { q := (List.range (n + 1)).map fun t : ℕ => some (t : ℤ), lnz := n * n, unz := n * n }

theorem natAnalysis_ok (n : ℕ) : IsAnalysis n (natAnalysis n) := by
  refine ⟨⟨1, ?_⟩, ?_, ?_⟩
  · intro t
    unfold Slip.get natAnalysis
    rw [if_neg (by omega)]
    have : (t : ℕ) < n + 1 := by omega
    simp [this]
  · show (n : ℤ) ≤ (n : ℤ) * n
    rcases Nat.eq_zero_or_pos n with rfl | h
    · simp
    · nlinarith
  · show (n : ℤ) ≤ (n : ℤ) * n
    rcases Nat.eq_zero_or_pos n with rfl | h
    · simp
    · nlinarith

/-- A decidable form of `IsCsc`. -/
def cscOk (n : ℕ) (p i x : List Int) : Bool :=
  decide (p[0]? = some 0) && (List.range n).all fun j =>
    match p[j]?, p[j + 1]? with
    | some a, some b => decide (0 ≤ a) && decide (a ≤ b) && decide (b ≤ i.length) &&
        decide (b ≤ x.length) &&
        (List.range i.length).all fun t =>
          if a ≤ t ∧ t < b then decide (0 ≤ i[t]?.getD (-1)) && decide (i[t]?.getD (-1) < n) &&
            (List.range i.length).all fun t' =>
              if a ≤ t' ∧ t' < b ∧ i[t]? = i[t']? then decide (t = t') else true
          else true
    | _, _ => false

theorem get_map_some (l : List Int) (t : ℕ) : get (l.map some) (t : ℤ) = l[t]? := by
  unfold Slip.get
  rw [if_neg (by omega)]
  simp only [Int.toNat_natCast, List.getElem?_map]
  cases l[t]? <;> rfl

theorem isCsc_of {n : ℕ} {p i x : List Int} (h : cscOk n p i x = true) :
    IsCsc n (mkCsc n p i x) := by
  unfold cscOk at h
  simp only [Bool.and_eq_true, decide_eq_true_eq, List.all_eq_true, List.mem_range] at h
  obtain ⟨h0, h⟩ := h
  refine ⟨rfl, rfl, rfl, rfl, ?_, ?_, by simp [mkCsc, Mat.ofCsc]⟩
  · show get (p.map some) ((0 : ℕ) : ℤ) = some 0
    rw [get_map_some]; exact h0
  intro j hj
  have hc := h j hj
  split at hc
  · rename_i a b ha hb
    simp only [Bool.and_eq_true, decide_eq_true_eq, List.all_eq_true, List.mem_range] at hc
    obtain ⟨⟨⟨⟨h1, h2⟩, h3⟩, h4⟩, h5⟩ := hc
    refine ⟨a, b, ?_, ?_, h2, ?_, ?_⟩
    · show get (p.map some) (j : ℤ) = _
      rw [get_map_some]; exact ha
    · show get (p.map some) ((j : ℤ) + 1) = _
      rw [show (j : ℤ) + 1 = ((j + 1 : ℕ) : ℤ) by push_cast; ring, get_map_some]; exact hb
    · intro t ht ht'
      lift t to ℕ using by omega
      have h6 := h5 t (by omega)
      rw [if_pos ⟨ht, ht'⟩] at h6
      simp only [Bool.and_eq_true, decide_eq_true_eq] at h6
      obtain ⟨⟨h7, h8⟩, -⟩ := h6
      have hit : t < i.length := by omega
      have hxt : t < x.length := by omega
      rw [List.getElem?_eq_getElem hit, Option.getD_some] at h7 h8
      refine ⟨⟨i[t].toNat, by omega, ?_⟩, x[t], ?_⟩
      · show get (i.map some) (t : ℤ) = _
        rw [get_map_some, List.getElem?_eq_getElem hit]; simp [Int.toNat_of_nonneg h7]
      · show get (x.map some) (t : ℤ) = _
        rw [get_map_some, List.getElem?_eq_getElem hxt]
    · intro t t' ht1 ht2 ht3 ht4 he
      lift t to ℕ using by omega
      lift t' to ℕ using by omega
      have h6 := h5 t (by omega)
      rw [if_pos ⟨ht1, ht2⟩] at h6
      simp only [Bool.and_eq_true, decide_eq_true_eq, List.all_eq_true, List.mem_range] at h6
      have h7 := h6.2 t' (by omega)
      have he' : get (i.map some) (t : ℤ) = get (i.map some) (t' : ℤ) := he
      rw [get_map_some, get_map_some] at he'
      rw [if_pos ⟨ht3, ht4, he'⟩] at h7
      simp only [decide_eq_true_eq] at h7
      rw [h7]
  · cases hc

/-! ## C03: "the determinant of A" -/

/-- C03, literal documentation ("rhos[n-1] is the determinant of A") is false: on `[0 1; 1 0]`
(determinant -1) with the natural column order the last pivot is 1. -/
theorem C03_literal_determinant_refuted :
    ∃ (A : Mat) (S : Analysis) (L U R : Mat) (pinv : Arr Int), IsCsc 2 A ∧ IsAnalysis 2 S ∧
      FactorizeOk Ex.nc none A S L U R pinv ∧
      get R.xz 1 = some 1 ∧ (A.matrix 2).det = -1 := by
  refine ⟨mkCsc 2 [0, 1, 2] [1, 0] [1, 1], natAnalysis 2,
    mkCsc 2 [0, 1, 2] [0, 1] [1, 1], mkCsc 2 [0, 1, 2] [0, 1] [1, 1],
    mkDense 2 1 [1, 1], [some 1, some 0], isCsc_of (by decide), natAnalysis_ok 2, ?_, rfl, ?_⟩
  · unfold FactorizeOk; decide +kernel
  · decide +kernel

/-! ## C08: the empty system -/

/-- C08: `SLIP_LU_solve` on the (valid, nonsingular) 0-by-0 system reads `rhos[-1]`. -/
theorem C08_solve_empty_refuted :
    ∃ (A b L U R : Mat) (S : Analysis) (pinv : Arr Int), IsCsc 0 A ∧ IsDenseZ 0 0 b ∧
      b.scale ≠ 0 ∧ IsAnalysis 0 S ∧ FactorizeOk Ex.nc none A S L U R pinv ∧
      SLIP_LU_solve true (some none) (some b) (some A) (some L) (some U) (some R) (some S)
        (some pinv) none = .error .ub := by
  refine ⟨mkCsc 0 [0] [] [], mkDense 0 0 [],
    Mat.ofCsc ⟨0, 0, 0, [some 0], [], []⟩, Mat.ofCsc ⟨0, 0, 0, [some 0], [], []⟩,
    Mat.ofDenseZ 0 1 1 [none], natAnalysis 0, [], isCsc_of (by decide), ⟨rfl, rfl, rfl, rfl, ?_⟩,
    by decide +kernel, natAnalysis_ok 0, ?_, ?_⟩
  · intro i hi; omega
  · unfold FactorizeOk; decide +kernel
  · decide +kernel

/-! ## C15: the tolerance test against a negative largest entry -/

/-- Options with this pivoting scheme and tolerance. -/
def pivOpt (p : Pivot) (tol : Dbl) : Option Options :=
  some { pivot := p, order := .none, tol := tol, printLevel := 0, prec := 128, round := 0,
         check := false }

/-- C15: with SLIP_TOL_LARGEST and tolerance 1, column 0 of `[1 0; -10 1]` has largest entry -10,
and the diagonal 1 is far too small; but GMP is given the denominator -10, for which it specifies
no answer. If it answers "greater", the diagonal is chosen. -/
theorem C15_tol_largest_negative_refuted :
    ∃ (nc : Int → Int → ℚ → Bool) (A : Mat) (S : Analysis) (L U R : Mat) (pinv : Arr Int),
      IsCsc 2 A ∧ IsAnalysis 2 S ∧
      FactorizeOk nc (pivOpt .tolLargest (.fin 1)) A S L U R pinv ∧
      pinv = [some 0, some 1] ∧ A.entry 0 0 = 1 ∧ A.entry 1 0 = -10 := by
  refine ⟨fun _ _ _ => true, mkCsc 2 [0, 2, 3] [0, 1, 1] [1, -10, 1], natAnalysis 2,
    mkCsc 2 [0, 2, 3] [0, 1, 1] [1, -10, 1], mkCsc 2 [0, 1, 2] [0, 1] [1, 1],
    mkDense 2 1 [1, 1], [some 0, some 1], isCsc_of (by decide), natAnalysis_ok 2, ?_, rfl, ?_, ?_⟩
  · unfold FactorizeOk; decide +kernel
  · decide +kernel
  · decide +kernel

/-- C08, C15: a NaN tolerance is passed to `mpq_set_d`, which does not accept it. -/
theorem C08_nan_tolerance_refuted :
    ∃ (A : Mat) (S : Analysis), IsCsc 1 A ∧ IsAnalysis 1 S ∧
      SLIP_LU_factorize Ex.nc true (some none) (some none) (some none) (some none) (some A) (some S)
        (pivOpt .tolSmallest .nan) = .error .ub :=
  ⟨mkCsc 1 [0, 1] [0] [5], natAnalysis 1, isCsc_of (by decide), natAnalysis_ok 1, by decide +kernel⟩

/-- C08: an analysis with an estimate below `n` (not produced by `SLIP_LU_analyze`, see
`C17_analysis_usable`, but constructible by the user) makes one doubling insufficient. -/
theorem C08_small_estimate_refuted :
    ∃ (A : Mat) (S : Analysis) (τ : Equiv.Perm (Fin 4)), IsCsc 4 A ∧ Holds S.q τ ∧ 0 ≤ S.lnz ∧
      SLIP_LU_factorize Ex.nc true (some none) (some none) (some none) (some none) (some A) (some S)
        none = .error .ub := by
  refine ⟨mkCsc 4 [0, 4, 5, 6, 7] [0, 1, 2, 3, 1, 2, 3] [1, 1, 1, 1, 1, 1, 1],
    { natAnalysis 4 with lnz := 1 }, 1, isCsc_of (by decide), ?_, by decide, by decide +kernel⟩
  intro t; fin_cases t <;> rfl

/-! ## C17, C34: what the analysis does not check -/

/-- C17: the return codes of AMD and COLAMD are ignored, so if AMD runs out of memory and leaves `q`
unwritten, `SLIP_LU_analyze` still returns SLIP_OK. -/
theorem C17_amd_failure_refuted :
    ∃ (O : Orderings) (A : Mat) (S : Analysis), IsCsc 3 A ∧
      SLIP_LU_analyze O true (some none) (some A)
        (some { pivot := .smallest, order := .amd, tol := .fin 1, printLevel := 0, prec := 128,
                round := 0, check := false }) = .ok (.ok, some (some S)) ∧
      get S.q 0 = none := by
  refine ⟨{ Ex.orderings with amdMem := fun _ _ _ => ⟨false, true, true⟩ }, Ex.A,
    { q := malloc Int 4, lnz := 2, unz := 2 }, Ex.A_csc, by decide +kernel, by decide +kernel⟩

/-- C17: for the empty matrix AMD does not compute its count and leaves -1, so the estimates of the
analysis are negative (with the other orderings they are 0). -/
theorem C17_amd_empty_refuted (O : Orderings) :
    ∃ A : Mat, IsCsc 0 A ∧
      SLIP_LU_analyze O true (some none) (some A)
        (some { pivot := .smallest, order := .amd, tol := .fin 1, printLevel := 0, prec := 128,
                round := 0, check := false }) =
          .ok (.ok, some (some { q := malloc Int 1, lnz := -1, unz := -1 })) :=
  ⟨mkCsc 0 [0] [] [], isCsc_of (by decide), rfl⟩

/-- C34: `SLIP_LU_analyze` accepts a CSC matrix without column pointers and dereferences them
(default options, COLAMD). -/
theorem C34_analyze_null_pointer_refuted (O : Orderings) :
    ∃ A : Mat, A.kind = .csc ∧ A.m = A.n ∧ A.p = none ∧
      SLIP_LU_analyze O true (some none) (some A) none = .error .ub :=
  ⟨{ Ex.A with p := none }, rfl, rfl, rfl, rfl⟩

end Slip
