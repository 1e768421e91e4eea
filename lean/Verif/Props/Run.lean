import Verif.Props.Factor

/-!
# The factorization while it runs: row permutation, graph search (C07, C09, C10)
-/

namespace Slip

/-- The variables of `SLIP_LU_factorize` after `k` columns have been processed. -/
def factAfter (nc : Int → Int → ℚ → Bool) (opt : Option Options) (A : Mat) (S : Analysis) (k : ℤ) :
    C FactSt := do
  let s ← factInit A.n S.lnz S.unz
  forRange 0 k s fun k s => factStep nc (optPivot opt) (optTol opt) A.toCsc S.q k s

theorem factStep_tol {nc order} {tol tol' : Dbl} (h : ¬ Pivot.usesTol order) :
    factStep nc order tol = factStep nc order tol' := by
  funext A q k s
  unfold factStep
  rw [slip_get_pivot_tol h]

section
variable {nc : Int → Int → ℚ → Bool} {opt : Option Options} {n : ℕ} {A : Mat} {S : Analysis}

theorem factAfter_spec (hA : IsCsc n A) {τ : Equiv.Perm (Fin n)} (hq : Holds S.q τ)
    (hl : (n : ℤ) ≤ S.lnz) (hu : (n : ℤ) ≤ S.unz) (ht : TolOk opt) (k : ℕ) (hk : k ≤ n) :
    ∃ (c : ℕ → ℕ) (tol : ℚ), (∀ t : Fin n, c t = (τ t : ℕ)) ∧ (∀ t < n, c t < n) ∧ IsFn n S.q c ∧
      wp (factAfter nc opt A S k)
        (fun s => ∃ r pi lp up, FInv (optPivot opt) tol A.entry c n k r pi lp up s)
        (fun e => e = .ret .singular ∧ (A.matrix n).det = 0) := by
  obtain ⟨ap, hok, -⟩ := hA.aok
  obtain ⟨c, ci, hc, hp, hcτ⟩ := hq.isFn
  obtain ⟨t, e⟩ : ∃ t : ℚ, factStep nc (optPivot opt) (optTol opt) =
      factStep nc (optPivot opt) (.fin t) := by
    by_cases hu : (optPivot opt).usesTol
    · obtain ⟨t, ht⟩ := ht hu; exact ⟨t, by rw [ht]⟩
    · exact ⟨0, factStep_tol hu⟩
  refine ⟨c, t, hcτ, hp.rlt, hc, ?_⟩
  obtain ⟨s0, e0, h0⟩ := factInit_spec (optPivot opt) t A.entry c hl hu
  unfold factAfter
  rw [hA.cols, e0, ok_bind, e]
  exact factLoop_spec hok hA.cols hc hp.rlt
    (fun t ht u hu e => by rw [← hp.pr t ht, ← hp.pr u hu, e]) ⟨_, _, _, _, h0⟩ k hk

/-- C07 (during the run): after any number `k` of columns, unless the matrix has been found to be
singular, `row_perm` and `pinv` hold a permutation and its inverse, and a row is marked as pivotal
exactly when its position is among the first `k`. -/
theorem C07_permutation_invariant (hA : IsCsc n A) (hS : IsAnalysis n S) (ht : TolOk opt) (k : ℕ)
    (hk : k ≤ n) :
    (factAfter nc opt A S k = .error (.ret .singular) ∧ (A.matrix n).det = 0) ∨
    ∃ s, factAfter nc opt A S k = .ok s ∧ ∃ σ : Equiv.Perm (Fin n),
      Holds s.row_perm σ ∧ Holds s.pinv σ.symm ∧
      ∀ i : Fin n, get s.pivs ((i : ℕ) : ℤ) = some (if (σ.symm i : ℕ) < k then 1 else -1) := by
  obtain ⟨τ, hq⟩ := hS.perm
  obtain ⟨c, tol, -, -, -, h⟩ := factAfter_spec (nc := nc) hA hq hS.lnz hS.unz ht k hk
  cases hf : factAfter nc opt A S k with
  | error e =>
    rw [hf, wp_error] at h
    exact Or.inl ⟨by rw [h.1], h.2⟩
  | ok s =>
    rw [hf, wp_ok] at h
    obtain ⟨r, pi, lp, up, hI⟩ := h
    exact Or.inr ⟨s, rfl, hI.perm.toPerm, fun t => hI.rperm t t.2, fun t => hI.pinv t t.2,
      fun i => hI.pivs i i.2⟩

example := C07_permutation_invariant (nc := Ex.nc) Ex.A_csc Ex.S_ok Ex.tol_ok 2 (by decide)

/-- C09: the pattern computed for a column is exactly the set of rows reachable from the rows of
the column of `A` along the edges of the graph of `L`; it is listed without repetition in
`xi[top..n-1]`. -/
theorem C09_pattern_is_reachable_set {Ap Ai Lp Li pinv : Arr Int} (hG : Graph n Lp Li pinv)
    {col a b : Int} (ha : get Ap col = some a) (hb : get Ap (col + 1) = some b)
    (hrow : ∀ p, a ≤ p → p < b → ∃ i, get Ai p = some i ∧ 0 ≤ i ∧ i < n)
    {xi : Arr Int} (hxi : xi.length = 2 * n) :
    ∃ (top : ℤ) (Lp' xi' : Arr Int) (out : List Int), slip_reach n Ap Ai Li pinv col Lp xi = .ok (top, Lp', xi') ∧
      top + out.length = n ∧
      (∀ (t : ℕ) (h : t < out.length), get xi' (top + t) = some out[t]) ∧ out.Nodup ∧
      ∀ x, x ∈ out ↔ Reachable Ap Ai Lp Li pinv col x := by
  obtain ⟨xi', out, e, -, hs, hn, -, hr⟩ := slip_reach_spec hG ha hb hrow hxi
  exact ⟨_, _, xi', out, e, by omega, hs, hn, hr⟩

example := C09_pattern_is_reachable_set Ex.graph (Ap := deref Ex.A.p) (Ai := deref Ex.A.i) (col := 0)
  rfl rfl Ex.A_col0 (xi := malloc Int 6) rfl

/-- C10: whatever the graph and the workspace `xi` hold, the search terminates within its fuel
(`2n+1` iterations of the `while` loop for each starting node) without overflowing its stacks, and
leaves the column pointers of `L` as they were. -/
theorem C10_search_terminates_and_restores {Ap Ai Lp Li pinv : Arr Int} (hG : Graph n Lp Li pinv)
    {col a b : Int} (ha : get Ap col = some a) (hb : get Ap (col + 1) = some b)
    (hrow : ∀ p, a ≤ p → p < b → ∃ i, get Ai p = some i ∧ 0 ≤ i ∧ i < n)
    {xi : Arr Int} (hxi : xi.length = 2 * n) :
    ∃ top xi', slip_reach n Ap Ai Li pinv col Lp xi = .ok (top, Lp, xi') ∧ 0 ≤ top ∧ top ≤ n ∧
      xi'.length = 2 * n := by
  obtain ⟨xi', out, e, hl, -, hn, hg, -⟩ := slip_reach_spec hG ha hb hrow hxi
  have := nodup_length_le hn hg
  exact ⟨_, xi', e, by omega, by omega, hl⟩

example := C10_search_terminates_and_restores Ex.graph (Ap := deref Ex.A.p) (Ai := deref Ex.A.i)
  (col := 0) rfl rfl Ex.A_col0 (xi := malloc Int 6) rfl

/-- C09, C10 for the states that occur: after `k < n` columns of a factorization, once `L->p[k]`
is set, the search for column `q[k]` works on a well-formed graph. It returns the reachable set,
leaves `L->p` unchanged, and every row outside the set holds a zero of the column to be computed
(the bordered minor that is the value of that row in column `k` of `L` or `U` is zero). -/
theorem C09_pattern_in_factorization (hA : IsCsc n A) (hS : IsAnalysis n S) (ht : TolOk opt)
    {k : ℕ} (hk : k < n) {s : FactSt} (hs : factAfter nc opt A S k = .ok s)
    {τ : Equiv.Perm (Fin n)} (hq : Holds S.q τ) :
    ∃ (σ : Equiv.Perm (Fin n)) (out : List Int) (xi' : Arr Int), Holds s.pinv σ.symm ∧
      slip_reach n (deref A.p) (deref A.i) s.L.i s.pinv (τ ⟨k, hk⟩ : ℕ)
        (upd s.L.p k s.lnz) s.xi = .ok ((n : ℤ) - out.length, upd s.L.p k s.lnz, xi') ∧
      (∀ (t : ℕ) (h : t < out.length), get xi' ((n : ℤ) - out.length + t) = some out[t]) ∧
      out.Nodup ∧
      (∀ x, x ∈ out ↔ Reachable (deref A.p) (deref A.i) (upd s.L.p k s.lnz) s.L.i s.pinv
        (τ ⟨k, hk⟩ : ℕ) x) ∧
      ∀ i : Fin n, ((i : ℕ) : ℤ) ∉ out → ∀ m, m = min k (σ.symm i : ℕ) → ∀ hm : m < n,
        Matrix.det ((A.matrix n).submatrix
          (fun x : Fin (m + 1) => if h : (x : ℕ) < m then σ ⟨x, by omega⟩ else i)
          (fun y : Fin (m + 1) => if h : (y : ℕ) < m then τ ⟨y, by omega⟩ else τ ⟨k, hk⟩)) = 0 := by
  obtain ⟨c, tol, hcτ, hclt, hc, h⟩ := factAfter_spec (nc := nc) hA hq hS.lnz hS.unz ht k (by omega)
  rw [hs, wp_ok] at h
  obtain ⟨r, pi, lp, up, hI⟩ := h
  obtain ⟨ap, hok, -⟩ := hA.aok
  have hG := hI.L.graph hI.pinv hI.perm hk
  have hck : c k = (τ ⟨k, hk⟩ : ℕ) := hcτ ⟨k, hk⟩
  have hck' := hclt k hk
  have h1 : get (deref A.p) ((c k : ℤ) + 1) = some (ap (c k + 1)) := by
    have := hok.ptr (c k + 1) (by omega); push_cast at this; exact this
  obtain ⟨xi', out, e, -, hseg, hn, hrg, hr⟩ := slip_reach_spec hG (Ap := deref A.p)
    (Ai := deref A.i) (hok.ptr (c k) (by omega)) h1
    (fun p ha hb => by
      obtain ⟨i, hi, h2, -⟩ := hok.ent (c k) hck' p ha hb
      exact ⟨i, h2, by omega, by omega⟩) hI.xi
  obtain ⟨t, pat, -, hT, hpat⟩ := slip_ref_triangular_solve_spec
    (L := { m := n, n := n, nzmax := 0, p := upd s.L.p (k : Int) s.lnz, i := s.L.i, x := s.L.x })
    (h := s.h) hok hA.cols rfl hI.L hI.perm hI.pinv hI.rperm hc hclt hI.rho hk hI.xi
    (le_of_eq hI.h.symm) hI.x
  rw [hck] at e hr
  refine ⟨hI.perm.toPerm, out, xi', fun t => hI.pinv t t.2, e, hseg, hn, hr, ?_⟩
  intro i hi m hm hmn
  have hz := hT.zero i i.2 (fun hc => hi ((hr _).mpr (by rw [← hck]; exact (hpat i).mp hc)))
  have hm' : m = min k (pi i) := hm
  rw [← hm'] at hz
  rw [← hz]
  unfold lev
  congr 1
  ext x y
  simp only [Matrix.of_apply, Matrix.submatrix_apply, Mat.matrix]
  have e1 : ((if h : (x : ℕ) < m then hI.perm.toPerm ⟨x, by omega⟩ else i : Fin n) : ℕ) =
      if (x : ℕ) < m then r x else i := by
    split
    · rfl
    · rfl
  have e2 : ((if h : (y : ℕ) < m then τ ⟨y, by omega⟩ else τ ⟨k, hk⟩ : Fin n) : ℕ) =
      if (y : ℕ) < m then c y else c k := by
    split
    · exact (hcτ _).symm
    · exact hck.symm
  rw [e1, e2]
  split <;> split <;> rfl

example : ∃ s, factAfter Ex.nc none Ex.A Ex.S ((1 : ℕ) : ℤ) = .ok s := by
  rcases C07_permutation_invariant (nc := Ex.nc) Ex.A_csc Ex.S_ok Ex.tol_ok 1 (by decide) with h | h
  · exact absurd h.2 (by rw [Ex.A_det]; decide)
  · exact ⟨h.choose, h.choose_spec.1⟩
example {s} (hs : factAfter Ex.nc none Ex.A Ex.S ((1 : ℕ) : ℤ) = .ok s) :=
  C09_pattern_in_factorization Ex.A_csc Ex.S_ok Ex.tol_ok (by decide) hs Ex.S_holds

end

end Slip
