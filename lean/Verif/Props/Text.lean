import Verif.Proof.TextListing
import Verif.Props.Print
import Verif.Props.Accepted
import Verif.Props.MatlabFun

/-!
# C59: what is printed can be read back
-/

namespace Slip

/-- C59: an integer or rational number, as it is printed, is read back (`Verif/SpecText.lean`) as the same number. -/
theorem C59_numbers (z : ℤ) (q : ℚ) : readInt (decimal z) = some z ∧ readRat (decimal z) = some (z : ℚ) ∧ readRat (fraction q) = some q :=
  ⟨readInt_decimal z, by rw [← fraction_int]; exact readRat_fraction _, readRat_fraction q⟩

theorem Msg.code_ne (msg : Msg) : msg.code ≠ .ok := by cases msg <;> simp [Msg.code]

theorem valid_nnz {m n : ℕ} {A : Mat} (h : Valid m n A) (ho : Owns A) : ∃ N, SLIP_matrix_nnz true (some A) = .ok N := by
  unfold SLIP_matrix_nnz
  simp only [Bool.not_true, Bool.false_eq_true, if_false]
  obtain ⟨N, hN⟩ := h.entries ho
  have hs := hN.shape
  cases hk : A.kind with
  | csc =>
    rw [hk] at hs
    simp only at hs
    obtain ⟨p, hp⟩ := Option.isSome_iff_exists.1 hs.1
    have h2 := hs.2.1
    rw [hp] at h2
    simp only [hp, hN.cols]
    split
    · exact ⟨_, rfl⟩
    · exact ⟨_, rd_eq h2⟩
  | triplet => exact ⟨_, rfl⟩
  | dense => simp only; split <;> exact ⟨_, rfl⟩
  | bad v => rw [hk] at hs; exact hs.elim

/-- At print level 3 and above a valid matrix is accepted, and the complete listing is printed. -/
theorem valid_listing {E : PrEnv} (hE : E.Formats) (hm : E.mem = true) {qs : List (Int × Int) → List (Int × Int)} (hq : QsortOk qs)
    {m n : ℕ} {A : Mat} (h : Valid m n A) (ho : Owns A) (hz : 0 < A.nzmax) {o : Option Options} (h3 : 3 ≤ optPrint o) :
    ∃ N, SLIP_matrix_nnz true (some A) = .ok N ∧ SLIP_matrix_checkP E qs true (some A) o = (.ok .ok, listing A N) := by
  obtain ⟨N, hN⟩ := valid_nnz h ho
  have hst : (SLIP_matrix_checkP E qs true (some A) o).1 = .ok .ok := by
    rw [C50_status hE hm]; exact C45_valid h ho hz qs hq o
  refine ⟨N, hN, ?_⟩
  have hv : ∀ l, view (optPrint o) l = l := fun l => by
    unfold view
    rw [if_neg (by omega), if_neg (by omega), if_neg (by omega)]
  rcases C50_output hE hq hN o o h3 (by rw [hst]; simp) with e | ⟨msg, pre, e, -, -⟩
  · rw [e, hv]
  · rw [e] at hst
    simp only [Except.ok.injEq] at hst
    exact absurd hst msg.code_ne

/-- C59: the text that `SLIP_matrix_check` prints at level 3 determines the matrix.  If two valid matrices of exact types (mpz, mpq,
int64) give the same text, they have the same kind, type, dimensions, number of entries, space and scale, and represent the same
matrix. -/
theorem C59_faithful {E E' : PrEnv} (hE : E.Formats) (hE' : E'.Formats) (hm : E.mem = true) (hm' : E'.mem = true)
    {qs : List (Int × Int) → List (Int × Int)} (hq : QsortOk qs) {m n m' n' : ℕ} {A B : Mat}
    (hA : Valid m n A) (hB : Valid m' n' B) (oA : Owns A) (oB : Owns B) (zA : 0 < A.nzmax) (zB : 0 < B.nzmax)
    (tA : A.type = .mpz ∨ A.type = .mpq ∨ A.type = .int64) (tB : B.type = .mpz ∨ B.type = .mpq ∨ B.type = .int64)
    {o o' : Option Options} (h3 : 3 ≤ optPrint o) (h3' : 3 ≤ optPrint o') (real real' : Num → List Char)
    (h : outText real (SLIP_matrix_checkP E qs true (some A) o).2 = outText real' (SLIP_matrix_checkP E' qs true (some B) o').2) :
    A.kind = B.kind ∧ A.type = B.type ∧ m = m' ∧ n = n' ∧ A.nzmax = B.nzmax ∧ A.scale = B.scale ∧
      SLIP_matrix_nnz true (some A) = SLIP_matrix_nnz true (some B) ∧
      ∀ i < m, ∀ j < n, A.num i j = B.num i j := by
  obtain ⟨N, hN, eA⟩ := valid_listing hE hm hq hA oA zA h3
  obtain ⟨N', hN', eB⟩ := valid_listing hE' hm' hq hB oB zB h3'
  rw [eA, eB, text_listing hA tA, text_listing hB tB] at h
  have good : ∀ {C : Mat} {m n : ℕ} (N : ℤ), Valid m n C → Ty.Exact C.type → ∀ l ∈ lns C N, l.Good := by
    intro C m n N hC tC l hl
    unfold lns at hl
    rcases List.mem_append.1 hl with hl | hl
    · simp only [List.mem_cons, List.not_mem_nil, or_false] at hl
      rcases hl with rfl | rfl
      · refine ⟨fun v hv => ?_, fun v hv => ?_⟩
        · rcases hC with h | h | h <;> rw [h.kind] at hv <;> cases hv
        · rcases tC with h | h | h <;> rw [h] at hv <;> cases hv
      · trivial
    · unfold bodyLines at hl
      split at hl
      · rw [List.mem_flatMap] at hl
        obtain ⟨j, -, hl⟩ := hl
        rcases List.mem_cons.1 hl with rfl | hl
        · trivial
        · unfold cscRows at hl
          obtain ⟨t, -, rfl⟩ := List.mem_map.1 hl
          trivial
      · unfold tripletRows at hl
        obtain ⟨t, -, rfl⟩ := List.mem_map.1 hl
        trivial
      · rw [List.mem_flatMap] at hl
        obtain ⟨j, -, hl⟩ := hl
        rcases List.mem_cons.1 hl with rfl | hl
        · trivial
        · unfold denseRows at hl
          obtain ⟨t, -, rfl⟩ := List.mem_map.1 hl
          trivial
      · simp at hl
  have e := lines_inj (good N hA tA) (good N' hB tB) h
  unfold lns at e
  simp only [List.cons_append, List.nil_append, List.cons.injEq, Ln.header.injEq, Ln.scale.injEq] at e
  obtain ⟨⟨e1, e2, e3, e4, e5, e6⟩, e7, e8⟩ := e
  have dims : ∀ {C : Mat} {m n : ℕ}, Valid m n C → C.m = m ∧ C.n = n := by
    rintro C m n (h | h | h) <;> exact ⟨h.rows, h.cols⟩
  have em : m = m' := by have := (dims hA).1; have := (dims hB).1; omega
  have en : n = n' := by have := (dims hA).2; have := (dims hB).2; omega
  subst em en
  refine ⟨e5, e6, rfl, rfl, e4, e7, by rw [hN, hN', e3], fun i hi j hj => ?_⟩
  have hjr : (j : ℤ) ∈ irange 0 A.n := mem_irange.2 ⟨by omega, by rw [(dims hA).2]; omega⟩
  unfold bodyLines at e8
  rw [← e5] at e8
  rcases hA with hA | hA | hA
  · rcases hB with hB | hB | hB
    · rw [hA.kind] at e8
      simp only [← e2] at e8
      have key := columns_eq (fun j _ x hx => by
          unfold cscRows at hx
          obtain ⟨t, -, rfl⟩ := List.mem_map.1 hx
          rfl) (fun j _ x hx => by
          unfold cscRows at hx
          obtain ⟨t, -, rfl⟩ := List.mem_map.1 hx
          rfl) e8 j hjr
      rw [csc_num hA tA i hj, csc_num hB tB i hj, key, e6, e7]
    · exact absurd (hA.kind.symm.trans (e5.trans hB.kind)) (by simp)
    · exact absurd (hA.kind.symm.trans (e5.trans hB.kind)) (by simp)
  · rcases hB with hB | hB | hB
    · exact absurd (hA.kind.symm.trans (e5.trans hB.kind)) (by simp)
    · rw [hA.kind] at e8
      simp only at e8
      rw [triplet_num hA tA i j, triplet_num hB tB i j, e8, e6, e7]
    · exact absurd (hA.kind.symm.trans (e5.trans hB.kind)) (by simp)
  · rcases hB with hB | hB | hB
    · exact absurd (hA.kind.symm.trans (e5.trans hB.kind)) (by simp)
    · exact absurd (hA.kind.symm.trans (e5.trans hB.kind)) (by simp)
    · rw [hA.kind] at e8
      simp only [← e2] at e8
      have key := columns_eq (fun j _ x hx => by
          unfold denseRows at hx
          obtain ⟨t, -, rfl⟩ := List.mem_map.1 hx
          rfl) (fun j _ x hx => by
          unfold denseRows at hx
          obtain ⟨t, -, rfl⟩ := List.mem_map.1 hx
          rfl) e8 j hjr
      unfold denseRows at key
      rw [← e1] at key
      have key := List.map_inj_left.1 key (i : ℤ) (mem_irange.2 ⟨by omega, by rw [hA.rows]; omega⟩)
      simp only [Ln.row.injEq, true_and] at key
      obtain ⟨v, hv⟩ := hA.entry i hi j hj
      obtain ⟨w, hw⟩ := hB.entry i hi j hj
      obtain ⟨-, -, -, h1⟩ := rawAt_spec hA.typed tA hv
      obtain ⟨-, -, -, h2⟩ := rawAt_spec hB.typed tB hw
      unfold Mat.num
      rw [hA.kind, hB.kind]
      simp only
      rw [← e1, hA.rows, hv, hw, Option.getD_some, Option.getD_some, h1, h2, ← e6, ← e7]
      rw [hA.rows] at key
      rw [key]

section
variable {fp : Fp} {O : Orderings} {nc : Int → Int → ℚ → Bool} {qs : List (Int × Int) → List (Int × Int)}
  {code : String → ℚ} {tenth : ℚ} {n k : ℕ} {A : MxArg} {M : Matrix (Fin n) (Fin n) ℚ} {b : MxFull} {option : Option MxArg}
  {o₀ o : Options} {mo : MexOptions}

/-- C59: with `option.solution = 'char'` the strings in the cell array that `SLIP_backslash` returns to MATLAB read as the exact
solution. -/
theorem C59_matlab_strings (hO : AmdOk O (some o) n) (hfp : Int64ToDExact fp) (hq : QsortOk qs) (hn0 : 0 < n)
    (hA : A.IsSquare n M) (hb : b.Ok n k) (h0 : SLIP_create_default_options true = some o₀)
    (ht : OptionsTyped code (settings option)) (hs : (settings option).solution = some (.text "char"))
    (hdig : ∀ t, (settings option).digits ≠ some (.text t))
    (hm : OptionsMean code tenth o₀ (settings option) o mo) (hn : (n : ℤ) ≤ 2 ^ 29) (hnk : (n : ℤ) * k ≤ 2 ^ 59)
    (hd : M.det ≠ 0) (s : Bool) :
    ∃ x : Matrix (Fin n) (Fin k) ℚ, M * x = b.matrix n k ∧
      ∃ a, SLIP_backslash_m fp O nc qs code tenth A (.full false b) option s = .ok (.ok (.mex (.cells n k a)), false) ∧
        ∀ (i : Fin n) (j : Fin k), ∃ str, get (cellStrings a) ((i : ℕ) + (j : ℕ) * n : ℤ) = some str ∧
          readRat str = some (x i j) := by
  obtain ⟨x, hx, r, e, hr⟩ := C58_solution (nc := nc) hO hfp hq hn0 hA hb h0 ht hdig hm hn hnk hd s
  have hc : mo.solution = .char := by
    rcases hm.solution with ⟨h, -⟩ | ⟨t, h, h'⟩
    · rw [hs] at h; cases h
    · rw [hs] at h
      simp only [Option.some.injEq, MxField.text.injEq] at h
      subst h
      simpa [solutionNames] using h'
  refine ⟨x, hx, ?_⟩
  rw [hc] at hr
  cases r with
  | vpa m' k' d a => exact absurd hr.1 (by simp)
  | mex r =>
    cases r with
    | double m' k' a => exact absurd hr.2.1 (by simp)
    | cells m' k' a =>
      obtain ⟨-, -, rfl, rfl, h⟩ := hr
      refine ⟨a, e, fun i j => ⟨fraction (x i j), ?_, readRat_fraction _⟩⟩
      have := h i j
      unfold cellStrings
      unfold get at this ⊢
      split at this
      · cases this
      · rw [if_neg ‹_›, List.getElem?_map]
        cases hg : a[((i : ℕ) + (j : ℕ) * n : ℤ).toNat]? with
        | none => rw [hg] at this; cases this
        | some v =>
          rw [hg] at this
          cases v with
          | none => cases this
          | some v => cases this; rfl

end

/-- SLIP_backslash.m says of these strings that `x {i} = 'numerator/denominator'`; that is so only if `x {i}` is not an integer. -/
theorem C59_slash_refuted (q : ℚ) : '/' ∈ fraction q ↔ q.den ≠ 1 := by
  unfold fraction
  by_cases h : q.den = 1
  · simp only [h, if_true, List.append_nil, ne_eq, not_true, iff_false]
    exact fun hc => (decimal_all _ _ hc).2 rfl
  · simp [h]

/-! ### Concrete cases -/

namespace TextEx

/-- A dense matrix of rationals, `[1/2; -7]`. -/
def D : Mat :=
  { m := 2, n := 1, nzmax := 2, nz := 0, kind := .dense, type := .mpq, p := none, pShallow := false, i := none,
    iShallow := false, j := none, jShallow := false, x := some (.mpq [some (1 / 2), some (-7)]), xShallow := false, scale := 1 }

theorem D_valid : Valid 2 1 D ∧ Owns D ∧ 0 < D.nzmax := by
  refine ⟨Or.inr (Or.inr ⟨⟨rfl, rfl, ⟨_, rfl, rfl⟩, by decide⟩, rfl, fun i hi j hj => ?_⟩),
    ⟨⟨rfl, rfl, rfl, rfl⟩, by decide, by decide, by decide, rfl⟩, by decide⟩
  interval_cases i <;> interval_cases j <;> exact ⟨_, rfl⟩

/-- The hypotheses of `C59_faithful` are met by this matrix, and this is its text. -/
example : outText (fun _ => []) (SLIP_matrix_checkP Ex.fine Ex.qs true (some D) (Ex.level 3)).2 =
    c!"SLIP_matrix: nrows: 2, ncols: 1, nz:2, nzmax: 2, kind: Dense, type: MPQ\nscale factor: 1\ncolumn 0 :\n  row 0 : 1/2 \n  row 1 : -7 \n" := by
  decide +kernel

/-- A dense 1-by-1 matrix of doubles. -/
def F1 (v : ℚ) : Mat :=
  { m := 1, n := 1, nzmax := 1, nz := 0, kind := .dense, type := .fp64, p := none, pShallow := false, i := none,
    iShallow := false, j := none, jShallow := false, x := some (.fp64 [some (.fin v)]), xShallow := false, scale := 1 }

/-- `%lf` for the positive numbers of this example. -/
def lf : Num → List Char
  | .fp64 (.fin v) => sixDecimals v
  | _ => []

end TextEx

/-- C59 is false for matrices of doubles: they are printed with six decimals only, and the text does not determine them. -/
theorem C59_double_refuted :
    (SLIP_matrix_checkP Ex.fine Ex.qs true (some (TextEx.F1 (1 / 2 ^ 30))) (Ex.level 3)).1 = .ok .ok ∧
    (SLIP_matrix_checkP Ex.fine Ex.qs true (some (TextEx.F1 (1 / 2 ^ 31))) (Ex.level 3)).1 = .ok .ok ∧
    outText TextEx.lf (SLIP_matrix_checkP Ex.fine Ex.qs true (some (TextEx.F1 (1 / 2 ^ 30))) (Ex.level 3)).2 =
      outText TextEx.lf (SLIP_matrix_checkP Ex.fine Ex.qs true (some (TextEx.F1 (1 / 2 ^ 31))) (Ex.level 3)).2 ∧
    (TextEx.F1 (1 / 2 ^ 30)).num 0 0 ≠ (TextEx.F1 (1 / 2 ^ 31)).num 0 0 :=
  ⟨by decide +kernel, by decide +kernel, by decide +kernel, by decide +kernel⟩

end Slip
