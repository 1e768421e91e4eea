import Verif.Proof.Canon2
import Verif.Props.Api

/-!
# C53: every rational handed out is in lowest terms

The theorems are about the transcription of `Verif/Model/Canon.lean`, in which an `mpq_t` is a numerator
and a denominator and GMP's arithmetic is undefined on operands that are not canonical.
-/

namespace Slip.Raw

open Slip

/-! ## Specification -/

/-- Every rational of the matrix (its scale, and its entries if it is of type MPQ) is canonical. -/
def Mat.Canonical (A : Mat) : Prop :=
  A.scale.Canonical ∧ ∀ a, A.x = some (.mpq a) → ∀ i v, get a i = some v → v.Canonical

/-- A call `r` returned the status and the matrix that a call `v` computing with rational numbers
returns, in canonical form; or both fail in the same way. -/
def SameCanonical (r : C (Info × Handle Mat)) (v : C (Info × Handle Slip.Mat)) : Prop :=
  match r, v with
  | .ok (info, h), .ok (info', h') =>
    info = info' ∧ h.map (Option.map Mat.val) = h' ∧ ∀ M, h = some (some M) → M.Canonical
  | .error e, .error e' => e = e'
  | _, _ => False

/-! ## From canonical matrices to rational numbers and back -/

theorem amap_of_val {a : Arr Q} (h : ∀ i v, get a i = some v → v.Canonical) :
    amap Q.of (amap Q.val a) = a := by
  simp only [amap, List.map_map]
  conv_rhs => rw [← List.map_id a]
  refine List.map_congr_left fun x hx => ?_
  cases x with
  | none => rfl
  | some v =>
    obtain ⟨k, hk, e⟩ := List.getElem_of_mem hx
    have : get a (k : ℤ) = some v := by
      simp [get, List.getElem?_eq_getElem hk, e]
    simp [Q.of_val (h _ _ this)]

theorem Mat.of_val {A : Mat} (h : A.Canonical) : Mat.of A.val = A := by
  cases A with
  | mk m n nzmax nz kind type p ps i is j js x xs scale =>
    simp only [Mat.of, Mat.val, Q.of_val h.1]
    cases x with
    | none => rfl
    | some x =>
      cases x with
      | mpq a => simp [Vals.val, Vals.of, amap_of_val (h.2 a rfl)]
      | _ => rfl

theorem Mat.of_canonical (A : Slip.Mat) : (Mat.of A).Canonical := by
  refine ⟨Q.of_canonical _, fun a ha i v hv => ?_⟩
  simp only [Mat.of] at ha
  cases hx : A.x with
  | none => rw [hx] at ha; cases ha
  | some x =>
    rw [hx] at ha
    cases x with
    | mpq b =>
      cases ha
      rw [get_amap] at hv
      cases hb : get b i with
      | none => rw [hb] at hv; cases hv
      | some q => rw [hb] at hv; cases hv; exact Q.of_canonical q
    | _ => cases ha

theorem optOf_val {A : Option Mat} (h : ∀ M, A = some M → M.Canonical) :
    (A.map Mat.val).map Mat.of = A := by
  cases A with
  | none => rfl
  | some A => simp [Mat.of_val (h A rfl)]

theorem hOf_val {A : Handle Mat} (h : ∀ M, A = some (some M) → M.Canonical) :
    hOf (A.map (Option.map Mat.val)) = A := by
  cases A with
  | none => rfl
  | some A =>
    cases A with
    | none => rfl
    | some A => simp [hOf, Mat.of_val (h A rfl)]

theorem SameCanonical.of_eq {r : C (Info × Handle Mat)} {v : C (Info × Handle Slip.Mat)}
    (h : r = resOf <$> v) : SameCanonical r v := by
  subst h
  match v with
  | .error e => rfl
  | .ok (info, none) => exact ⟨rfl, rfl, fun M h => by cases h⟩
  | .ok (info, some none) => exact ⟨rfl, rfl, fun M h => by cases h⟩
  | .ok (info, some (some M)) =>
    refine ⟨rfl, ?_, fun M' h => ?_⟩
    · simp [resOf, hOf]
    · cases h; exact Mat.of_canonical M

/-! ## Theorems -/

/-- C53: `SLIP_LU_solve` on matrices whose rationals are canonical never applies GMP's arithmetic to a
rational that is not, returns canonical rationals only, and they are those computed with rational
numbers. -/
theorem C53_solve (ini : Bool) {x : Handle Mat} {b A L U rhos : Option Mat} (S : Option Analysis)
    (pinv : Option (Arr Int)) (opt : Option Options)
    (hx : ∀ M, x = some (some M) → M.Canonical) (hb : ∀ M, b = some M → M.Canonical)
    (hA : ∀ M, A = some M → M.Canonical) (hL : ∀ M, L = some M → M.Canonical)
    (hU : ∀ M, U = some M → M.Canonical) (hR : ∀ M, rhos = some M → M.Canonical) :
    SameCanonical (SLIP_LU_solve ini x b A L U rhos S pinv opt)
      (Slip.SLIP_LU_solve ini (x.map (Option.map Mat.val)) (b.map Mat.val) (A.map Mat.val)
        (L.map Mat.val) (U.map Mat.val) (rhos.map Mat.val) S pinv opt) := by
  apply SameCanonical.of_eq
  rw [← solve_eq, hOf_val hx, optOf_val hb, optOf_val hA, optOf_val hL, optOf_val hU, optOf_val hR]

example := C53_solve true (x := some none) (b := some (Mat.of Ex.b)) (A := some (Mat.of Ex.A))
  (L := some (Mat.of Ex.L)) (U := some (Mat.of Ex.U)) (rhos := some (Mat.of Ex.R)) (some Ex.S)
  (some Ex.pinv) Ex.optCheck (by rintro M ⟨⟩) (by rintro M ⟨⟩; exact Mat.of_canonical _)
  (by rintro M ⟨⟩; exact Mat.of_canonical _) (by rintro M ⟨⟩; exact Mat.of_canonical _)
  (by rintro M ⟨⟩; exact Mat.of_canonical _) (by rintro M ⟨⟩; exact Mat.of_canonical _)

/-- C53: the same for `SLIP_matrix_copy` between any kinds and types, except INT64 to MPQ. -/
theorem C53_copy (fp : Fp) (ini : Bool) {Ch : Handle Mat} (kind : Kind) (type : Ty)
    {A : Option Mat} (opt : Option Options)
    (hC : ∀ M, Ch = some (some M) → M.Canonical) (hA : ∀ M, A = some M → M.Canonical)
    (hT : ∀ M, A = some M → ¬ (type = .mpq ∧ ∃ a, M.x = some (.int64 a))) :
    SameCanonical (SLIP_matrix_copy fp ini Ch kind type A opt)
      (Slip.SLIP_matrix_copy fp ini (Ch.map (Option.map Mat.val)) kind type (A.map Mat.val) opt) := by
  apply SameCanonical.of_eq
  rw [← copy_eq, hOf_val hC, optOf_val hA]
  rintro M hM ⟨h1, a, h2⟩
  cases A with
  | none => cases hM
  | some A =>
    cases hM
    refine hT A rfl ⟨h1, a, ?_⟩
    simp only [Mat.val] at h2
    cases hx : A.x with
    | none => rw [hx] at h2; cases h2
    | some x =>
      rw [hx] at h2
      cases x with
      | int64 a' => cases h2; rfl
      | _ => cases h2

example := C53_copy Ex.fp true (Ch := some none) .csc .mpz (A := some (Mat.of Ex.x)) none
  (by rintro M ⟨⟩) (by rintro M ⟨⟩; exact Mat.of_canonical _) (by rintro M ⟨⟩ ⟨h, -⟩; cases h)

/-- C53: the same for `SLIP_backslash`. -/
theorem C53_backslash (fp : Fp) (O : Orderings) (nc : Int → Int → ℚ → Bool) (ini : Bool)
    {X : Handle Mat} (type : Ty) {A b : Option Mat} (opt : Option Options)
    (hX : ∀ M, X = some (some M) → M.Canonical) (hA : ∀ M, A = some M → M.Canonical)
    (hb : ∀ M, b = some M → M.Canonical) :
    SameCanonical (SLIP_backslash fp O nc ini X type A b opt)
      (Slip.SLIP_backslash fp O nc ini (X.map (Option.map Mat.val)) type (A.map Mat.val)
        (b.map Mat.val) opt) := by
  apply SameCanonical.of_eq
  rw [← backslash_eq, hOf_val hX, optOf_val hA, optOf_val hb]

example := C53_backslash Ex.fp Ex.orderings Ex.nc true (X := some none) .fp64
  (A := some (Mat.of Ex.A)) (b := some (Mat.of Ex.b)) none (by rintro M ⟨⟩)
  (by rintro M ⟨⟩; exact Mat.of_canonical _) (by rintro M ⟨⟩; exact Mat.of_canonical _)

/-- C53: for a nonsingular system whose scale factors are in canonical form and not zero, entry `(i, j)`
of the array that `SLIP_backslash` hands out is a numerator and a denominator in lowest terms, the
denominator positive, and their quotient is entry `(i, j)` of the exact solution `Z`. -/
theorem C53_lowest_terms {n k : ℕ} {fp : Fp} {O : Orderings} {nc : Int → Int → ℚ → Bool}
    {opt : Option Options} {A b : Mat} (hO : AmdOk O opt n) (hA : IsCsc n A.val)
    (hb : IsDenseZ n k b.val) (hn : 0 < n) (hcA : A.Canonical) (hcb : b.Canonical)
    (hsA : A.scale.num ≠ 0) (hsb : b.scale.num ≠ 0) (ht : TolOk opt)
    {Z : Matrix (Fin n) (Fin k) ℚ} (hd : (A.val.matrix n).det ≠ 0)
    (hZ : Slip.unscale (A.val.matrix n) A.scale.val * Z =
      Slip.unscale (b.val.denseZ n k) b.scale.val) :
    ∃ x xs, SLIP_backslash fp O nc true (some none) .mpq (some A) (some b) opt =
        .ok (.ok, some (some x)) ∧ x.x = some (.mpq xs) ∧
      ∀ (i : Fin n) (j : Fin k), ∃ v, get xs ((i : ℕ) + (j : ℕ) * n : ℤ) = some v ∧
        0 < v.den ∧ Int.gcd v.num v.den = 1 ∧ (v.num : ℚ) / v.den = Z i j := by
  have ez : ∀ q : Q, q.Canonical → q.num ≠ 0 → q.val ≠ 0 := by
    intro q h1 h2
    have := h1.1
    unfold Q.val
    have hd : (q.den : ℚ) ≠ 0 := by exact_mod_cast this.ne'
    have hn : (q.num : ℚ) ≠ 0 := by exact_mod_cast h2
    exact div_ne_zero hn hd
  have hs := ez _ hcA.1 hsA
  obtain ⟨x, e, hx, hsol⟩ := C35_backslash_mpq (fp := fp) (nc := nc) (X := none) hO hA hb hn
    hs (ez _ hcb.1 hsb) ht hd
  have e1 := backslash_eq (fp := fp) (type := .mpq) (opt := opt) O nc true (some none) (some A.val)
    (some b.val)
  rw [e] at e1
  simp only [Option.map_some, Mat.of_val hcA, Mat.of_val hcb] at e1
  have hq : x.denseQ n k = Z := by
    refine unique_of_det hd ?_
    have h3 := hsol.trans hZ.symm
    have hu : ∀ Y : Matrix (Fin n) (Fin k) ℚ, Slip.unscale (A.val.matrix n) A.scale.val * Y =
        A.scale.val⁻¹ • ((A.val.matrix n).map (Int.cast : ℤ → ℚ) * Y) := by
      intro Y
      rw [← Matrix.smul_mul]
      congr 1
      ext i j
      simp [Slip.unscale, div_eq_inv_mul]
    have h4 : Slip.unscale (A.val.matrix n) A.scale.val * x.denseQ n k =
        Slip.unscale (A.val.matrix n) A.scale.val * Z := h3
    rw [hu, hu] at h4
    exact smul_right_injective _ (inv_ne_zero hs) h4
  have hxq : x.x = some (.mpq x.xq) := by
    have h0 := hx.len
    unfold Mat.xq at h0 ⊢
    split
    · assumption
    · rename_i h1
      exfalso
      have : ([] : Arr ℚ).length = max (n * k) 1 := by
        revert h0
        split
        · rename_i a h2; exact absurd h2 (h1 a)
        · exact id
      simp at this
      omega
  refine ⟨Mat.of x, amap Q.of x.xq, e1, by simp [Mat.of, hxq, Vals.of], fun i j => ?_⟩
  obtain ⟨q, hq'⟩ := hx.val i i.2 j j.2
  refine ⟨Q.of q, ?_, (Q.of_canonical q).1, (Q.of_canonical q).2, ?_⟩
  · rw [get_amap, hq']; rfl
  · have : Z i j = q := by rw [← hq]; simp [Mat.denseQ, hq']
    rw [this]
    exact Q.val_of q

example := C53_lowest_terms (fp := Ex.fp) (nc := Ex.nc) (A := Mat.of Ex.A) (b := Mat.of Ex.b)
  (opt := none) (Z := Ex.x.denseQ 3 2) (Ex.orderings_ok none) (by rw [Mat.val_of]; exact Ex.A_csc)
  (by rw [Mat.val_of]; exact Ex.b_dense) (by decide) (Mat.of_canonical _) (Mat.of_canonical _)
  (by decide +kernel) (by decide +kernel) Ex.tol_ok (by rw [Mat.val_of, Ex.A_det]; decide)
  (by
    have := (C01_solution_exact Ex.A_csc Ex.S_ok Ex.tol_ok Ex.factorize_ok (by decide)
      Ex.b_dense Ex.scale_ne.1 Ex.scale_ne.2 Ex.solve_ok).2
    have e : ∀ M : Slip.Mat, (Mat.of M).scale.val = M.scale := fun M => Q.val_of _
    rw [Mat.val_of, Mat.val_of, e, e]
    exact this)

/-! ## INT64 to MPQ -/

theorem castLoop_pure {α β : Type} {h : Int → α → β} {y0 y : Arr β} {x : Arr α} {n : Int}
    (hn : 0 ≤ n) (e : castLoop (fun k v => pure (h k v)) y0 x n = .ok y) :
    ∀ k v, 0 ≤ k → k < n → get x k = some v → get y k = some (h k v) := by
  have : wp (castLoop (fun k v => pure (h k v)) y0 x n)
      (fun y => ∀ k v, 0 ≤ k → k < n → get x k = some v → get y k = some (h k v))
      (fun _ => True) := by
    unfold castLoop
    refine wp_forRange (σ := Arr β) (fun m y => ∀ k v, 0 ≤ k → k < m → get x k = some v →
      get y k = some (h k v)) hn (fun k v h0 h1 => by omega) fun i y hi hi' hP => ?_
    cases hv : rd x i with
    | error e => exact trivial
    | ok v =>
      rw [ok_bind]
      show wp (zset y i (h i v)) _ _
      cases hz : zset y i (h i v) with
      | error e => exact trivial
      | ok y' =>
        intro k u h0 h1 hk
        have hb : ∃ w, get y i = some w := by
          unfold zset at hz
          cases hr : rd y i with
          | error e => rw [hr] at hz; cases hz
          | ok w => exact ⟨w, rd_ok hr⟩
        obtain ⟨w, hw⟩ := hb
        rw [zset_eq hw] at hz
        cases hz
        have hb := get_bounds hw
        by_cases hki : k = i
        · subst hki
          rw [rd_ok hv] at hk
          cases hk
          exact get_upd_self hb.1 hb.2 _
        · rw [get_upd_ne hb.1 hb.2 _ hki]
          exact hP k u h0 (by omega) hk
  rw [e] at this
  exact this

/-- C53 fails for INT64 to MPQ. In every copy of a dense INT64 matrix to a dense MPQ matrix, a nonzero
entry `v` is stored with the address of the output element as its denominator, not reduced; so if `v`
and that address are both even (addresses of `mpq_t` always are), the entry is not canonical. -/
theorem C53_int64_refuted {fp : Fp} {opt : Option Options} {A M : Mat} {x : Arr Int}
    (hx : A.x = some (.int64 x)) (hk : A.kind = .dense)
    (h : SLIP_matrix_copy fp true (some none) .dense .mpq (some A) opt = .ok (.ok, some (some M)))
    {k : Int} {v : Int} (h0 : 0 ≤ k) (h1 : k < A.m * A.n) (hv : get x k = some v) (hv0 : v ≠ 0) :
    ∃ a, M.x = some (.mpq a) ∧ get a k = some ⟨v, fp.addr k⟩ ∧
      (2 ∣ v → 2 ∣ fp.addr k → ¬ M.Canonical) := by
  unfold SLIP_matrix_copy at h
  simp only [Bool.not_true, Bool.false_eq_true, if_false, Option.map_some, Slip.SLIP_matrix_nnz] at h
  have ek : A.val.kind = .dense := hk
  have em : A.val.m = A.m := rfl
  have en : A.val.n = A.n := rfl
  rw [ek, em, en] at h
  dsimp only at h
  by_cases hneg : A.m < 0 ∨ A.n < 0
  · rw [if_pos hneg] at h
    simp only [pure_bind] at h
    rw [if_pos (by right; left; decide)] at h
    cases h
  rw [if_neg hneg] at h
  simp only [pure_bind] at h
  by_cases hc : (some none : Handle Mat) = none ∨ A.m * A.n < 0 ∨ A.type.ok = false ∨
      Kind.dense.ok = false ∨ Ty.mpq.ok = false
  · rw [if_pos hc] at h; cases h
  rw [if_neg hc] at h
  unfold copyBody at h
  rw [hk] at h
  dsimp only at h
  unfold copyDenseDense at h
  cases hal : allocate .dense .mpq A.m A.n (A.m * A.n) false true with
  | error e => rw [hal] at h; cases e <;> cases h
  | ok c =>
    rw [hal, ok_bind, hx] at h
    have hcx : ∃ y0, c.x = some (.mpq y0) := by
      unfold allocate at hal
      split at hal
      · cases hal
      · dsimp only at hal
        cases hal
        exact ⟨_, rfl⟩
    obtain ⟨y0, hy0⟩ := hcx
    rw [hy0] at h
    simp only [slip_cast_array] at h
    cases hl : castLoop (fun k (v : Int) => (pure (setUi v (fp.addr k)) : C Q)) y0 x
        (A.m * A.n) with
    | error e => rw [hl] at h; cases e <;> cases h
    | ok y =>
      rw [hl] at h
      simp only [ok_bind, pure_bind] at h
      cases h
      have hy := castLoop_pure (by omega) hl k v h0 h1 hv
      have hy' : get y k = some ⟨v, fp.addr k⟩ := by rw [hy]; simp [setUi, hv0]
      refine ⟨y, rfl, hy', fun hd hd' hcan => ?_⟩
      have h2 := (hcan.2 y rfl k _ hy').2
      have : (2 : ℤ) ∣ (Int.gcd v (fp.addr k) : ℤ) := Int.dvd_coe_gcd hd hd'
      rw [h2] at this
      omega

/-- The 1-by-1 dense INT64 matrix `[2]`. -/
def two : Mat :=
  { m := 1, n := 1, nzmax := 1, nz := 0, kind := .dense, type := .int64, p := none,
    pShallow := false, i := none, iShallow := false, j := none, jShallow := false,
    x := some (.int64 [some 2]), xShallow := false, scale := ⟨1, 1⟩ }

/-- The copy of `[2]` to MPQ, if the address of its entry is `a`. -/
def twoQ (a : ℤ) : Mat :=
  { two with type := .mpq, x := some (.mpq [some ⟨2, a⟩]) }

/-- The hypotheses of `C53_int64_refuted` are met, and the damage spreads: if the address is even, the
copy of `[2]` succeeds, and copying the result to MPZ makes GMP multiply an operand that is not
canonical, which is undefined. -/
theorem C53_int64_spreads {fp : Fp} (ha : 2 ∣ fp.addr 0) :
    SLIP_matrix_copy fp true (some none) .dense .mpq (some two) none =
      .ok (.ok, some (some (twoQ (fp.addr 0)))) ∧ ¬ (twoQ (fp.addr 0)).Canonical ∧
    SLIP_matrix_copy fp true (some none) .dense .mpz (some (twoQ (fp.addr 0))) none = .error .ub := by
  have e : SLIP_matrix_copy fp true (some none) .dense .mpq (some two) none =
      .ok (.ok, some (some (twoQ (fp.addr 0)))) := rfl
  refine ⟨e, ?_, ?_⟩
  · obtain ⟨a, -, -, h⟩ := C53_int64_refuted (x := [some 2]) (k := 0) (v := 2) rfl rfl e le_rfl
      (by decide) rfl (by decide)
    exact h (dvd_refl 2) ha
  · have hq : ¬ (⟨2, fp.addr 0⟩ : Q).Canonical := by
      rintro ⟨-, h2⟩
      have : (2 : ℤ) ∣ (Int.gcd 2 (fp.addr 0) : ℤ) := Int.dvd_coe_gcd (dvd_refl 2) ha
      simp only at h2
      rw [h2] at this
      omega
    have hm : ∀ s, mul ⟨2, fp.addr 0⟩ s = .error .ub := fun s => by simp [mul, ask, hq]
    show copyWrap (copyDenseDense fp none .mpz (twoQ (fp.addr 0)) 1) = .error .ub
    have : slip_expand_mpq_array [some 0] [some ⟨2, fp.addr 0⟩] 1 = .error .ub := by
      simp [slip_expand_mpq_array, forRange, forCnt, rd, get, zset, wr, upd, hm]
    show copyWrap ((slip_expand_mpq_array [some 0] [some ⟨2, fp.addr 0⟩] 1 >>= _) >>= _) = _
    rw [this]
    rfl

end Slip.Raw
