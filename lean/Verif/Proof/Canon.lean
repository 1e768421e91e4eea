import Verif.Model.Canon
import Mathlib.Data.Rat.Lemmas
import Mathlib.Tactic.FieldSimp

/-!
# The raw rationals refine the rational numbers
-/

namespace Slip.Raw

open Slip

/-! ## Canonical forms -/

theorem Q.of_canonical (q : ℚ) : (Q.of q).Canonical := by
  refine ⟨?_, ?_⟩
  · simp only [Q.of]; exact_mod_cast q.den_pos
  · simpa [Q.of, Int.gcd, Nat.Coprime] using q.reduced

@[simp] theorem Q.val_of (q : ℚ) : (Q.of q).val = q := by
  simp [Q.of, Q.val, Rat.num_div_den]

theorem Q.of_val {a : Q} (h : a.Canonical) : Q.of a.val = a := by
  obtain ⟨hd, hg⟩ := h
  have hc : Nat.Coprime a.num.natAbs a.den.natAbs := by simpa [Int.gcd] using hg
  have h1 := Rat.num_div_eq_of_coprime hd hc
  have h2 := Rat.den_div_eq_of_coprime hd hc
  cases a with
  | mk num den =>
    simp only [Q.of, Q.val] at h1 h2 ⊢
    rw [h1, h2]

theorem Q.of_inj {p q : ℚ} : Q.of p = Q.of q ↔ p = q :=
  ⟨fun h => by rw [← Q.val_of p, h, Q.val_of], fun h => by rw [h]⟩

theorem Q.of_int (z : ℤ) : Q.of (z : ℚ) = setZ z := by simp [Q.of, setZ]
theorem Q.of_zero : Q.of 0 = init := by simp [Q.of, init]
theorem Q.of_one : Q.of 1 = setUi 1 1 := by simp [Q.of, setUi]
theorem setNum_of_zero (z : ℤ) : setNum (Q.of 0) z = Q.of (z : ℚ) := by simp [Q.of, setNum]
theorem setNum_init (z : ℤ) : setNum init z = Q.of (z : ℚ) := by simp [Q.of, setNum, init]

@[simp] theorem ask_of (q : ℚ) : ask (Q.of q) = .ok q := by
  simp [ask, Q.of_canonical]

@[simp] theorem mul_of (p q : ℚ) : mul (Q.of p) (Q.of q) = .ok (Q.of (p * q)) := by
  simp [mul]
@[simp] theorem add_of (p q : ℚ) : add (Q.of p) (Q.of q) = .ok (Q.of (p + q)) := by
  simp [add]
theorem div_of (p q : ℚ) : div (Q.of p) (Q.of q) = Q.of <$> mpqDiv p q := by
  simp only [div, ask_of, ok_bind, mpqDiv]
  by_cases h : q = 0 <;> simp [h] <;> rfl
@[simp] theorem isOne_of (q : ℚ) : isOne (Q.of q) = .ok (decide (q = 1)) := by
  simp [isOne]
@[simp] theorem toZ_of (q : ℚ) : toZ (Q.of q) = .ok (roundInt 1 q) := by
  simp [toZ]
theorem equal_of (p q : ℚ) : equal (Q.of p) (Q.of q) = decide (p = q) := by
  unfold equal
  refine decide_eq_decide.mpr ⟨fun h => ?_, fun h => by simp [h]⟩
  have h2 : ((p.den : ℕ) : ℤ) = (q.den : ℕ) := h.2
  exact Rat.ext h.1 (by exact_mod_cast h2)

/-! ## Maps over arrays and loops -/

section
variable {α β γ δ σ τ : Type}

@[simp] theorem amap_id (a : Arr α) : amap id a = a := by simp [amap]

theorem get_amap (g : α → β) (a : Arr α) (i : Int) : get (amap g a) i = (get a i).map g := by
  unfold get amap
  split
  · rfl
  · rw [List.getElem?_map]
    cases a[i.toNat]? with
    | none => rfl
    | some v => cases v <;> rfl

theorem rd_amap (g : α → β) (a : Arr α) (i : Int) : rd (amap g a) i = g <$> rd a i := by
  unfold rd
  rw [get_amap]
  cases get a i <;> rfl

theorem upd_amap (g : α → β) (a : Arr α) (i : Int) (v : α) :
    upd (amap g a) i (g v) = amap g (upd a i v) := by
  simp [upd, amap, List.map_set]

theorem wr_amap (g : α → β) (a : Arr α) (i : Int) (v : α) :
    wr (amap g a) i (g v) = amap g <$> wr a i v := by
  unfold wr
  have : (amap g a).length = a.length := by simp [amap]
  rw [this]
  by_cases h : 0 ≤ i ∧ i < (a.length : Int)
  · rw [if_pos h, if_pos h, upd_amap]; rfl
  · rw [if_neg h, if_neg h]; rfl

theorem zset_amap (g : α → β) (a : Arr α) (i : Int) (v : α) :
    zset (amap g a) i (g v) = amap g <$> zset a i v := by
  unfold zset
  rw [rd_amap, wr_amap]
  cases rd a i <;> rfl

theorem replicate_amap (g : α → β) (n : Nat) (v : α) :
    (List.replicate n (some (g v)) : Arr β) = amap g (List.replicate n (some v)) := by
  simp [amap]

/-- A loop that commutes with `g` under an invariant. -/
theorem forCnt_map {f : Int → σ → C σ} {f' : Int → τ → C τ} (g : σ → τ) (P : Int → σ → Prop) :
    ∀ (m : Nat) (lo : Int) (s : σ), P lo s →
    (∀ i s, lo ≤ i → i < lo + m → P i s →
      f' i (g s) = g <$> f i s ∧ ∀ s', f i s = .ok s' → P (i + 1) s') →
    forCnt m lo (g s) f' = g <$> forCnt m lo s f
  | 0, _, _, _, _ => rfl
  | m + 1, lo, s, hP, h => by
    obtain ⟨h1, h2⟩ := h lo s le_rfl (by omega) hP
    simp only [forCnt]
    rw [h1]
    cases hf : f lo s with
    | error e => rfl
    | ok s' =>
      exact forCnt_map g P m (lo + 1) s' (h2 s' hf) fun i s hi hi' => h i s (by omega) (by omega)

theorem forRange_mapP {f : Int → σ → C σ} {f' : Int → τ → C τ} (g : σ → τ) (P : Int → σ → Prop)
    {lo hi : Int} {s : σ} (hP : P lo s)
    (h : ∀ i s, lo ≤ i → i < hi → P i s →
      f' i (g s) = g <$> f i s ∧ ∀ s', f i s = .ok s' → P (i + 1) s') :
    forRange lo hi (g s) f' = g <$> forRange lo hi s f :=
  forCnt_map g P _ lo s hP fun i s h0 h1 => h i s h0 (by omega)

theorem forRange_map {f : Int → σ → C σ} {f' : Int → τ → C τ} (g : σ → τ)
    {lo hi : Int} {s : σ} (h : ∀ i s, f' i (g s) = g <$> f i s) :
    forRange lo hi (g s) f' = g <$> forRange lo hi s f :=
  forRange_mapP g (fun _ _ => True) trivial fun i s _ _ _ => ⟨h i s, fun _ _ => trivial⟩

end

/-! ## The solve phase -/

/-- The dense matrix with canonical rationals. -/
def denseOf (d : Dense ℚ) : Dense Q := { m := d.m, n := d.n, nzmax := d.nzmax, x := amap Q.of d.x }

theorem allocQ_eq (m n : Int) : allocQ m n = denseOf (allocDense ℚ m n) := by
  simp only [allocQ, denseOf, allocDense, ← Q.of_zero, replicate_amap Q.of]

theorem matrix_div_eq (x : Dense Int) (s : Int) :
    slip_matrix_div x s = denseOf <$> Slip.slip_matrix_div x s := by
  unfold slip_matrix_div Slip.slip_matrix_div
  dsimp only
  rw [allocQ_eq]
  have := forRange_mapP (σ := Arr ℚ) (τ := Arr Q) (amap Q.of)
    (fun i y => ∀ j, i ≤ j → get y j = some 0 ∨ get y j = none)
    (lo := 0) (hi := x.m * x.n) (s := (allocDense ℚ x.m x.n).x)
    (f := fun i y => do
      let v ← rd x.x i
      let y ← zset y i (v : ℚ)
      let w ← rd y i
      let d ← mpqDiv w (s : ℚ)
      zset y i d)
    (f' := fun i y => do
      let v ← rd x.x i
      let a ← rd y i
      let y ← zset y i (setNum a v)
      let w ← rd y i
      let d ← div w (setNum init s)
      zset y i d) ?_ ?_
  · simp only [denseOf]
    rw [this]
    simp only [map_bind, bind_map_left, map_pure]
    rfl
  · intro j hj
    simp only [allocDense, get]
    rw [if_neg (by omega), List.getElem?_replicate]
    split
    · left; rfl
    · right; rfl
  · intro i y h0 h1 hP
    cases hv : rd x.x i with
    | error e => exact ⟨rfl, fun s' h => by cases h⟩
    | ok v =>
      simp only [ok_bind]
      rw [rd_amap]
      rcases hP i le_rfl with hy | hy
      · have hb := get_bounds hy
        rw [rd_eq hy]
        simp only [Functor.map, Except.map, ok_bind]
        rw [setNum_of_zero, setNum_init, zset_amap, zset_eq hy]
        simp only [Functor.map, Except.map, ok_bind]
        rw [rd_amap]
        have hy' : get (upd y i (v : ℚ)) i = some (v : ℚ) := get_upd_self hb.1 hb.2 _
        rw [rd_eq hy']
        simp only [Functor.map, Except.map, ok_bind]
        rw [div_of]
        cases hd : mpqDiv (v : ℚ) (s : ℚ) with
        | error e => exact ⟨rfl, fun s' h => by cases h⟩
        | ok d =>
          simp only [Functor.map, Except.map, ok_bind]
          refine ⟨zset_amap _ _ _ _, ?_⟩
          intro s' h j hj
          rw [zset_eq hy'] at h
          cases h
          rw [get_upd_ne hb.1 (by simpa using hb.2) _ (by omega), get_upd_ne hb.1 hb.2 _ (by omega)]
          exact hP j (by omega)
      · have e : rd y i = .error .ub := by simp [rd, hy]
        have e2 : zset y i (v : ℚ) = .error .ub := by simp [zset, e]
        rw [e, e2]
        exact ⟨rfl, fun s' h => by cases h⟩

theorem permute_x_eq (x2 : Dense ℚ) (q : Arr Int) :
    slip_permute_x (denseOf x2) q = denseOf <$> Slip.slip_permute_x x2 q := by
  unfold slip_permute_x Slip.slip_permute_x
  dsimp only
  rw [allocQ_eq]
  simp only [denseOf]
  rw [forRange_map (amap Q.of) (f := fun i y => forRange 0 x2.n y fun j y => do
      let p ← rd q i
      let v ← rd x2.x (ix2 x2.m i j)
      zset y (ix2 x2.m p j) v)]
  · simp only [map_bind, bind_map_left, map_pure]
    rfl
  · intro i s
    refine forRange_map (amap Q.of) ?_
    intro j s
    simp only [rd_amap, bind_map_left, map_bind, zset_amap]

theorem checkMul_eq (A : Csc) (x : Dense ℚ) (m n : Int) (b2 : Arr ℚ) :
    checkMul A (denseOf x) m n (amap Q.of b2) = amap Q.of <$> Slip.checkMul A x m n b2 := by
  unfold checkMul Slip.checkMul
  refine forRange_map (amap Q.of) fun j s => ?_
  refine forRange_map (amap Q.of) fun i s => ?_
  simp only [map_bind]
  refine bind_congr fun p0 => bind_congr fun p1 => ?_
  refine forRange_map (amap Q.of) fun p s => ?_
  simp only [denseOf, rd_amap, bind_map_left, map_bind, ← Q.of_int, mul_of, add_of, ok_bind,
    zset_amap]

theorem checkCmp_eq (b : Dense Int) (b2 : Arr ℚ) :
    checkCmp b (amap Q.of b2) = Slip.checkCmp b b2 := by
  unfold checkCmp Slip.checkCmp
  simp only [rd_amap, bind_map_left, ← Q.of_int, equal_of]

theorem check_solution_eq (A : Csc) (x : Dense ℚ) (b : Dense Int) :
    slip_check_solution A (denseOf x) b = Slip.slip_check_solution A x b := by
  unfold slip_check_solution Slip.slip_check_solution
  dsimp only
  rw [allocQ_eq]
  have := checkMul_eq A x b.m b.n (allocDense ℚ b.m b.n).x
  simp only [denseOf] at this ⊢
  rw [this]
  simp only [bind_map_left, checkCmp_eq]

theorem scaleSolution_eq (x : Dense ℚ) (sA sb : ℚ) :
    scaleSolution (denseOf x) (Q.of sA) (Q.of sb) = denseOf <$> Slip.scaleSolution x sA sb := by
  unfold scaleSolution Slip.scaleSolution
  rw [div_of]
  simp only [bind_map_left, map_bind, isOne_of, ok_bind]
  refine bind_congr fun s => ?_
  by_cases h : s = 1
  · simp [h]
  · rw [if_neg h, decide_eq_false h, if_neg (by decide)]
    simp only [denseOf]
    rw [forRange_map (amap Q.of) (f := fun i y => do
      let v ← rd y i
      zset y i (v * s))]
    · simp only [map_bind, bind_map_left, map_pure]
      rfl
    · intro i y
      simp only [rd_amap, bind_map_left, map_bind, mul_of, ok_bind, zset_amap]

theorem luSolve_eq (A : Csc) (sA : ℚ) (b : Dense Int) (sb : ℚ) (F : Factors) (q : Arr Int)
    (check : Bool) : luSolve A (Q.of sA) b (Q.of sb) F q check =
      denseOf <$> Slip.luSolve A sA b sb F q check := by
  unfold luSolve Slip.luSolve
  simp only [map_bind]
  refine bind_congr fun b2 => bind_congr fun b2 => bind_congr fun det => bind_congr fun b2 =>
    bind_congr fun b2 => bind_congr fun det => ?_
  rw [matrix_div_eq, bind_map_left]
  refine bind_congr fun x2 => ?_
  rw [permute_x_eq, bind_map_left]
  refine bind_congr fun x => ?_
  rw [check_solution_eq]
  cases check <;> simp [scaleSolution_eq]

/-! ## Matrices -/

theorem amap_val_of (a : Arr ℚ) : amap Q.val (amap Q.of a) = a := by
  simp only [amap, List.map_map]
  conv_rhs => rw [← List.map_id a]
  refine List.map_congr_left fun x _ => ?_
  cases x <;> simp

theorem Vals.val_of (v : Slip.Vals) : (Vals.of v).val = v := by
  cases v <;> simp [Vals.of, Vals.val, amap_val_of]

@[simp] theorem Mat.val_of (A : Slip.Mat) : (Mat.of A).val = A := by
  cases A with
  | mk m n nzmax nz kind type p ps i is j js x xs scale =>
    simp only [Mat.of, Mat.val, Q.val_of]
    cases x <;> simp [Vals.val_of]

@[simp] theorem map_val_of (A : Option Slip.Mat) : (A.map Mat.of).map Mat.val = A := by
  cases A <;> simp

theorem ofDenseQ_eq (d : Dense ℚ) : Mat.ofDenseQ (denseOf d) = Mat.of (Slip.Mat.ofDenseQ d) := by
  simp [Mat.ofDenseQ, denseOf, Mat.of, Slip.Mat.ofDenseQ, Vals.of, Q.of_one]

/-- A handle to matrices with canonical rationals. -/
def hOf (h : Handle Slip.Mat) : Handle Mat := h.map (Option.map Mat.of)

/-- The result of a call, with canonical rationals. -/
def resOf (r : Info × Handle Slip.Mat) : Info × Handle Mat := (r.1, hOf r.2)

theorem hOf_none (x : Handle Slip.Mat) : hOf x = none ↔ x = none := by
  cases x <;> simp [hOf]

theorem solveWrap_eq (m : C (Dense ℚ)) :
    solveWrap (denseOf <$> m) = resOf <$> Slip.solveWrap m := by
  match m with
  | .ok d => simp only [solveWrap, Slip.solveWrap, Functor.map, Except.map, ofDenseQ_eq]; rfl
  | .error (.ret e) => rfl
  | .error .ub => rfl
  | .error .fuel => rfl

theorem solve_eq (ini : Bool) (x : Handle Slip.Mat) (b A L U rhos : Option Slip.Mat)
    (S : Option Analysis) (pinv : Option (Arr Int)) (opt : Option Options) :
    SLIP_LU_solve ini (hOf x) (b.map Mat.of) (A.map Mat.of) (L.map Mat.of) (U.map Mat.of)
      (rhos.map Mat.of) S pinv opt =
    resOf <$> Slip.SLIP_LU_solve ini x b A L U rhos S pinv opt := by
  unfold SLIP_LU_solve Slip.SLIP_LU_solve
  simp only [map_val_of]
  by_cases h1 : (!ini) = true
  · rw [if_pos h1, if_pos h1]; rfl
  rw [if_neg h1, if_neg h1]
  by_cases h2 : requireFails b .dense .mpz = true
  · rw [if_pos h2, if_pos h2]; rfl
  rw [if_neg h2, if_neg h2]
  by_cases h3 : requireFails A .csc .mpz = true
  · rw [if_pos h3, if_pos h3]; rfl
  rw [if_neg h3, if_neg h3]
  by_cases h4 : requireFails L .csc .mpz = true
  · rw [if_pos h4, if_pos h4]; rfl
  rw [if_neg h4, if_neg h4]
  by_cases h5 : requireFails U .csc .mpz = true
  · rw [if_pos h5, if_pos h5]; rfl
  rw [if_neg h5, if_neg h5]
  by_cases h6 : requireFails rhos .dense .mpz = true
  · rw [if_pos h6, if_pos h6]; rfl
  rw [if_neg h6, if_neg h6]
  cases b with
  | none => rfl
  | some b =>
  cases A with
  | none => rfl
  | some A =>
  cases L with
  | none => rfl
  | some L =>
  cases U with
  | none => rfl
  | some U =>
  cases rhos with
  | none => rfl
  | some rhos =>
  cases S with
  | none => rfl
  | some S =>
  cases pinv with
  | none => rfl
  | some pinv =>
  simp only [Option.map_some]
  have e : (hOf x = none ∨ (Mat.of L).m ≠ (Mat.of A).m ∨ (Mat.of L).n ≠ (Mat.of U).m ∨
      (Mat.of U).n ≠ (Mat.of A).n ∨ (Mat.of A).n ≠ (Mat.of A).m ∨ (Mat.of A).m ≠ (Mat.of b).m) ↔
      (x = none ∨ L.m ≠ A.m ∨ L.n ≠ U.m ∨ U.n ≠ A.n ∨ A.n ≠ A.m ∨ A.m ≠ b.m) := by
    rw [hOf_none]; rfl
  by_cases h7 : x = none ∨ L.m ≠ A.m ∨ L.n ≠ U.m ∨ U.n ≠ A.n ∨ A.n ≠ A.m ∨ A.m ≠ b.m
  · rw [if_pos h7, if_pos (e.mpr h7)]; rfl
  · rw [if_neg h7, if_neg (fun h => h7 (e.mp h))]
    simp only [Mat.val_of]
    show solveWrap (luSolve A.toCsc (Q.of A.scale) b.toDense (Q.of b.scale) _ S.q (optCheck opt)) = _
    rw [luSolve_eq, solveWrap_eq]

/-! ## Conversions -/

theorem newVals_eq (type : Ty) (n : Int) (ini : Bool) :
    newVals type n ini = (Slip.newVals type n ini).map Vals.of := by
  cases type <;> cases ini <;> simp [newVals, Slip.newVals, Vals.of, amap, Q.of_zero]

theorem allocate_eq (kind : Kind) (type : Ty) (m n nzmax : Int) (shallow ini : Bool) :
    allocate kind type m n nzmax shallow ini =
      Mat.of <$> Slip.allocate kind type m n nzmax shallow ini := by
  unfold allocate Slip.allocate
  by_cases h : m < 0 ∨ n < 0 ∨ kind.ok = false ∨ type.ok = false
  · rw [if_pos h, if_pos h]; rfl
  · rw [if_neg h, if_neg h]
    dsimp only
    cases shallow with
    | true => simp [Mat.of, Q.of_one]
    | false => simp [Mat.of, Q.of_one, newVals_eq]

theorem expand_mpq_eq (x_out : Arr Int) (x : Arr ℚ) (n : Int) :
    slip_expand_mpq_array x_out (amap Q.of x) n =
      Prod.map id Q.of <$> Slip.slip_expand_mpq_array x_out x n := by
  unfold slip_expand_mpq_array Slip.slip_expand_mpq_array
  simp only [rd_amap, bind_map_left, map_bind, ← Q.of_int]
  refine bind_congr fun x3 => bind_congr fun t => bind_congr fun temp => ?_
  rw [← Q.of_zero, replicate_amap Q.of]
  have := forRange_map (σ := Arr ℚ × Arr Int) (τ := Arr Q × Arr Int) (Prod.map (amap Q.of) id)
    (lo := 0) (hi := n) (s := (List.replicate (max n 1).toNat (some 0), x_out))
    (f := fun i (x4, x_out) => do
      let v ← rd x i
      let x4 ← zset x4 i (v * (temp : ℚ))
      let w ← rd x4 i
      let x_out ← zset x_out i (roundInt 1 w)
      pure (x4, x_out))
    (f' := fun i (x4, x_out) => do
      let v ← rd x i
      let w ← mul (Q.of v) (Q.of (temp : ℚ))
      let x4 ← zset x4 i w
      let w ← rd x4 i
      let z ← toZ w
      let x_out ← zset x_out i z
      pure (x4, x_out)) ?_
  · exact Eq.trans (congrArg (· >>= fun (r : Arr Q × Arr Int) =>
      (pure (r.2, Q.of (temp : ℚ)) : C (Arr Int × Q))) this) (by
        rw [bind_map_left]; rfl)
  · intro i s
    simp only [Prod.map, mul_of, ok_bind, zset_amap, bind_map_left, rd_amap, toZ_of, map_bind,
      map_pure, id]

theorem gcdLoop_ne (x : Arr Int) : ∀ (c : Nat) (i : Int) (s : Option (Int × Int)),
    (∀ k g, s = some (k, g) → g ≠ 0) →
    ∀ k g b, gcdLoop x c i s = .ok (some (k, g, b)) → g ≠ 0
  | 0, _, s, hs, k, g, b, h => by
    cases s with
    | none => simp only [gcdLoop, Option.map_none] at h; cases h
    | some s =>
      obtain ⟨k', g'⟩ := s
      simp only [gcdLoop, Option.map_some] at h
      cases h
      exact hs k g rfl
  | c + 1, i, none, hs, k, g, b, h => by
    simp only [gcdLoop] at h
    cases hv : rd x i with
    | error e => rw [hv] at h; cases h
    | ok v =>
      rw [hv, ok_bind] at h
      by_cases h0 : v ≠ 0
      · rw [if_pos h0] at h
        exact gcdLoop_ne x c (i + 1) _ (by rintro k g ⟨⟩; exact h0) k g b h
      · rw [if_neg h0] at h
        exact gcdLoop_ne x c (i + 1) _ (by rintro k g ⟨⟩) k g b h
  | c + 1, i, some (k', g'), hs, k, g, b, h => by
    simp only [gcdLoop] at h
    cases hv : rd x i with
    | error e => rw [hv] at h; cases h
    | ok v =>
      rw [hv, ok_bind] at h
      have h0 : (Int.gcd g' v : Int) ≠ 0 := by
        have := hs k' g' rfl
        have : Int.gcd g' v ≠ 0 := by rw [Ne, Int.gcd_eq_zero_iff]; tauto
        exact_mod_cast this
      by_cases h1 : (Int.gcd g' v : Int) = 1
      · rw [if_pos h1] at h
        cases h
        exact h0
      · rw [if_neg h1] at h
        exact gcdLoop_ne x c (i + 1) _ (by rintro k g ⟨⟩; exact h0) k g b h

theorem reduceGcd_eq (x_out : Arr Int) (scale : ℚ) (n : Int) :
    reduceGcd x_out (Q.of scale) n = Prod.map id Q.of <$> Slip.reduceGcd x_out scale n := by
  unfold reduceGcd Slip.reduceGcd
  cases hr : gcdLoop x_out n.toNat 0 none with
  | error e => rfl
  | ok r =>
    simp only [ok_bind]
    match r, hr with
    | none, _ => simp [Prod.map, ← Q.of_int]
    | some (k, g, true), _ => rfl
    | some (k, g, false), hr =>
      have hg : g ≠ 0 := gcdLoop_ne x_out _ _ _ (by rintro k g ⟨⟩) k g false hr
      simp only [← Q.of_int, div_of, mpqDiv, map_bind]
      rw [if_neg (by exact_mod_cast hg)]
      rfl

theorem expand_double_eq (opt : Option Options) (x_out : Arr Int) (x : Arr Dbl) (n : Int) :
    slip_expand_double_array opt x_out x n =
      Prod.map id Q.of <$> Slip.slip_expand_double_array opt x_out x n := by
  unfold slip_expand_double_array Slip.slip_expand_double_array
  simp only [setD, ok_bind, map_bind, reduceGcd_eq]

theorem expand_mpfr_eq (opt : Option Options) (x_out : Arr Int) (x : Arr Dbl) (n : Int) :
    slip_expand_mpfr_array opt x_out x n =
      Prod.map id Q.of <$> Slip.slip_expand_mpfr_array opt x_out x n := by
  unfold slip_expand_mpfr_array Slip.slip_expand_mpfr_array
  have : setZ (2 ^ (optPrec opt).toNat) = Q.of ((2 : ℚ) ^ (optPrec opt).toNat) := by
    rw [← Q.of_int]; push_cast; rfl
  simp only [this, map_bind, reduceGcd_eq]

section
variable {α β γ δ : Type}

theorem castLoop_map (gx : α → γ) (gy : β → δ) {f : Int → α → C β} {f' : Int → γ → C δ}
    (h : ∀ k v, f' k (gx v) = gy <$> f k v) (y : Arr β) (x : Arr α) (n : Int) :
    castLoop f' (amap gy y) (amap gx x) n = amap gy <$> castLoop f y x n := by
  unfold castLoop
  refine forRange_map (amap gy) fun k s => ?_
  simp only [rd_amap, bind_map_left, h, map_bind, zset_amap]

theorem castLoop_out (gy : β → δ) {f : Int → α → C β} {f' : Int → α → C δ}
    (h : ∀ k v, f' k v = gy <$> f k v) (y : Arr β) (x : Arr α) (n : Int) :
    castLoop f' (amap gy y) x n = amap gy <$> castLoop f y x n := by
  have := castLoop_map id gy (f := f) (f' := f') h y x n
  rwa [amap_id] at this

theorem castLoop_in (gx : α → γ) {f : Int → α → C β} {f' : Int → γ → C β}
    (h : ∀ k v, f' k (gx v) = f k v) (y : Arr β) (x : Arr α) (n : Int) :
    castLoop f' y (amap gx x) n = castLoop f y x n := by
  have := castLoop_map gx id (f := f) (f' := f') (by simpa using h) y x n
  rw [amap_id] at this
  rw [this]
  cases castLoop f y x n <;> simp [Functor.map, Except.map]

end

theorem unscale_eq (xs : ℚ) (v : ℤ) :
    unscale (decide (xs = 1)) (Q.of xs) v = Q.of <$> unscaleZ xs v := by
  unfold unscale unscaleZ
  by_cases h : xs = 1
  · simp [h, Q.of_int]
  · rw [if_neg h, decide_eq_false h, if_neg (by decide), ← Q.of_int, div_of]
    unfold mpqDiv
    by_cases h0 : xs = 0 <;> simp [h0]
    rfl

theorem div_unscale {xs : ℚ} (h : xs ≠ 1) (v : ℤ) :
    div (setZ v) (Q.of xs) = Q.of <$> unscaleZ xs v := by
  have := unscale_eq xs v
  rwa [unscale, decide_eq_false h, if_neg (by decide)] at this

/-- The pairs of types that `slip_cast_array` converts through `mpq_set_si`. -/
def viaSetSi : Option Slip.Vals → Option Slip.Vals → Prop
  | some (.mpq _), some (.int64 _) => True
  | _, _ => False

theorem cast_array_eq (fp : Fp) (opt : Option Options) (Y X : Option Slip.Vals) (n : Int) (ys xs : ℚ)
    (h : ¬ viaSetSi Y X) :
    slip_cast_array fp opt (Y.map Vals.of) (X.map Vals.of) n (Q.of ys) (Q.of xs) =
      Prod.map Vals.of Q.of <$> Slip.slip_cast_array fp opt Y X n ys xs := by
  unfold slip_cast_array Slip.slip_cast_array
  cases Y with
  | none => rfl
  | some Y =>
  cases X with
  | none => cases Y <;> rfl
  | some X =>
  cases Y with
  | mpz y =>
    cases X with
    | mpz x => simp [Vals.of, Prod.map]
    | mpq x => simp [Vals.of, Prod.map, expand_mpq_eq]
    | mpfr x => simp [Vals.of, Prod.map, expand_mpfr_eq]
    | int64 x => simp [Vals.of, Prod.map, Q.of_one]
    | fp64 x => simp [Vals.of, Prod.map, expand_double_eq]
  | mpq y =>
    cases X with
    | mpz x =>
      simp only [Option.map_some, Vals.of, isOne_of, ok_bind]
      rw [castLoop_out Q.of (f := fun _ v => unscaleZ xs v) (fun k v => unscale_eq xs v)]
      simp [Vals.of, Prod.map]
    | mpq x =>
      simp only [Option.map_some, Vals.of]
      rw [castLoop_map Q.of Q.of (f := fun _ v => pure v) (f' := fun _ v => pure v) (fun k v => rfl)]
      simp [Vals.of, Prod.map]
    | mpfr x =>
      simp only [Option.map_some, Vals.of]
      rw [castLoop_out Q.of (f := fun _ v => pure (mpfrGetQ v))
        (fun k v => by cases v <;> simp [getQ, mpfrGetQ, Q.of_zero, init])]
      simp [Vals.of, Prod.map]
    | int64 x => exact absurd trivial h
    | fp64 x =>
      simp only [Option.map_some, Vals.of]
      rw [castLoop_out Q.of (f := fun _ v => mpqSetD v)
        (fun k v => by cases v <;> rfl)]
      simp [Vals.of, Prod.map]
  | mpfr y =>
    cases X with
    | mpz x =>
      simp only [Option.map_some, Vals.of, isOne_of, ok_bind, map_bind]
      by_cases h1 : xs = 1
      · simp [h1, unscaleZ, Vals.of, Prod.map]
      · simp [h1, div_unscale h1, Vals.of, Prod.map]
        rfl
    | mpq x =>
      simp only [Option.map_some, Vals.of]
      rw [castLoop_in Q.of (f := fun _ v => pure (mpfrRnd (optPrec opt) (optRound opt) (.fin v)))
        (fun k v => by simp; rfl)]
      simp [Vals.of, Prod.map]
    | mpfr x => simp [Vals.of, Prod.map]
    | int64 x => simp [Vals.of, Prod.map]
    | fp64 x => simp [Vals.of, Prod.map]
  | int64 y =>
    cases X with
    | mpz x =>
      simp only [Option.map_some, Vals.of, isOne_of, ok_bind, map_bind]
      by_cases h1 : xs = 1
      · simp [h1, Vals.of, Prod.map]
      · simp [h1, div_unscale h1, Vals.of, Prod.map]
    | mpq x =>
      simp only [Option.map_some, Vals.of]
      rw [castLoop_in Q.of (f := fun _ v => slip_cast_double_to_int64 (fp.mpqGetD v))
        (fun k v => by simp)]
      simp [Vals.of, Prod.map]
    | mpfr x => simp [Vals.of, Prod.map]
    | int64 x => simp [Vals.of, Prod.map]
    | fp64 x => simp [Vals.of, Prod.map]
  | fp64 y =>
    cases X with
    | mpz x =>
      simp only [Option.map_some, Vals.of, isOne_of, ok_bind, map_bind]
      by_cases h1 : xs = 1
      · simp [h1, Vals.of, Prod.map]
      · simp [h1, div_unscale h1, Vals.of, Prod.map]
        rfl
    | mpq x =>
      simp only [Option.map_some, Vals.of]
      rw [castLoop_in Q.of (f := fun _ v => pure (fp.mpqGetD v)) (fun k v => by simp; rfl)]
      simp [Vals.of, Prod.map]
    | mpfr x => simp [Vals.of, Prod.map]
    | int64 x => simp [Vals.of, Prod.map]
    | fp64 x => simp [Vals.of, Prod.map]

end Slip.Raw
