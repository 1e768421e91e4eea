import Verif.Model.CostCopy
import Verif.Proof.Cost
import Mathlib.Algebra.BigOperators.Ring.Finset
import Mathlib.Tactic.Ring

/-! # Counting the work of SLIP_matrix_copy -/

namespace Slip

/-- The metered `m'` does what `m` does, with at most `a` calls on entries, `b` iterations and `c` requested elements. -/
def Lin (α β γ : ℕ) {δ : Type} (a b c : ℕ) (m' : W δ) (m : C δ) : Prop := Cnt (α * a + β * b + γ * c) m' m

namespace Lin
variable {α β γ : ℕ} {δ ε : Type}

theorem mono {a b c a' b' c' : ℕ} {m' : W δ} {m : C δ} (h : Lin α β γ a b c m' m) (ha : a ≤ a') (hb : b ≤ b')
    (hc : c ≤ c') : Lin α β γ a' b' c' m' m :=
  Cnt.mono h (Nat.add_le_add (Nat.add_le_add (Nat.mul_le_mul_left _ ha) (Nat.mul_le_mul_left _ hb))
    (Nat.mul_le_mul_left _ hc))

theorem lift (m : C δ) : Lin α β γ 0 0 0 (W.lift m) m := Cnt.lift m

theorem pure (a : δ) : Lin α β γ 0 0 0 (Pure.pure a : W δ) (Pure.pure a : C δ) := Cnt.pure a

theorem bind {a1 b1 c1 a2 b2 c2 : ℕ} {m' : W δ} {m : C δ} {f' : δ → W ε} {f : δ → C ε}
    (h : Lin α β γ a1 b1 c1 m' m) (hf : ∀ a, m = .ok a → Lin α β γ a2 b2 c2 (f' a) (f a)) :
    Lin α β γ (a1 + a2) (b1 + b2) (c1 + c2) (m' >>= f') (m >>= f) :=
  (Cnt.bind h hf).mono (le_of_eq (by ring))

theorem liftBind {a b c : ℕ} {m : C δ} {f' : δ → W ε} {f : δ → C ε}
    (hf : ∀ x, m = .ok x → Lin α β γ a b c (f' x) (f x)) : Lin α β γ a b c (W.lift m >>= f') (m >>= f) :=
  Cnt.liftBind hf

theorem tickA {k a b c : ℕ} {f' : W ε} {m : C ε} (hf : Lin α β γ a b c f' m) :
    Lin α β γ (k + a) b c (tick (k * α) >>= fun _ => f') m :=
  (Cnt.tickBind hf).mono (le_of_eq (by ring))

theorem tick1 {a b c : ℕ} {f' : W ε} {m : C ε} (hf : Lin α β γ a b c f' m) :
    Lin α β γ (1 + a) b c (tick α >>= fun _ => f') m :=
  (Cnt.tickBind hf).mono (le_of_eq (by ring))

theorem tickB {k a b c : ℕ} {f' : W ε} {m : C ε} (hf : Lin α β γ a b c f' m) :
    Lin α β γ a (k + b) c (tick (β * k) >>= fun _ => f') m :=
  (Cnt.tickBind hf).mono (le_of_eq (by ring))

theorem tickB1 {a b c : ℕ} {f' : W ε} {m : C ε} (hf : Lin α β γ a b c f' m) :
    Lin α β γ a (1 + b) c (tick β >>= fun _ => f') m :=
  (Cnt.tickBind hf).mono (le_of_eq (by ring))

theorem tickC {k a b c : ℕ} {f' : W ε} {m : C ε} (hf : Lin α β γ a b c f' m) :
    Lin α β γ a b (k + c) (tick (γ * k) >>= fun _ => f') m :=
  (Cnt.tickBind hf).mono (le_of_eq (by ring))

/-- `x` is at most `k` calls. -/
theorem tickLe {x k a b c : ℕ} {f' : W ε} {m : C ε} (hx : x ≤ k * α) (hf : Lin α β γ a b c f' m) :
    Lin α β γ (k + a) b c (tick x >>= fun _ => f') m :=
  (Cnt.tickBind hf).mono (by rw [Nat.mul_add, Nat.mul_comm α k]; omega)

theorem temp {n : Int} {a b c : ℕ} {f' : W ε} {m : C ε} (hf : Lin α β γ a b c f' m) :
    Lin α β γ a ((max n 1).toNat + b) ((max n 1).toNat + c) (tempT β γ n >>= fun _ => f') m :=
  (Cnt.tickBind hf).mono (le_of_eq (by ring))

theorem ite {p : Prop} [Decidable p] {a b c : ℕ} {m1' m2' : W δ} {m1 m2 : C δ} (h1 : p → Lin α β γ a b c m1' m1)
    (h2 : ¬p → Lin α β γ a b c m2' m2) : Lin α β γ a b c (if p then m1' else m2') (if p then m1 else m2) :=
  Cnt.ite h1 h2

theorem forRange {a b c : ℕ} {f' : Int → δ → W δ} {f : Int → δ → C δ} {lo hi : Int} {s : δ}
    (h : ∀ i s, lo ≤ i → i < hi → Lin α β γ a b c (f' i s) (f i s)) :
    Lin α β γ ((hi - lo).toNat * a) ((hi - lo).toNat * (1 + b)) ((hi - lo).toNat * c)
      (forRangeT β lo hi s f') (Slip.forRange lo hi s f) :=
  (Cnt.forRange h).mono (le_of_eq (by ring))

/-- A loop whose iterations cost different amounts. -/
theorem forRangeSum {a b c : ℕ → ℕ} {f' : Int → δ → W δ} {f : Int → δ → C δ} {n : ℕ} {s : δ}
    (h : ∀ (t : ℕ) s, t < n → Lin α β γ (a t) (b t) (c t) (f' t s) (f t s)) :
    Lin α β γ (∑ t ∈ Finset.range n, a t) (∑ t ∈ Finset.range n, (1 + b t)) (∑ t ∈ Finset.range n, c t)
      (forRangeT β 0 n s f') (Slip.forRange 0 n s f) := by
  have := Cnt.forCntSum (c := β) (f' := f') (f := f) (b := fun t => α * a t + β * b t + γ * c t) n 0 s
    fun t s ht => by rw [zero_add]; exact h t s ht
  unfold forRangeT Slip.forRange
  rw [Int.sub_zero, Int.toNat_natCast]
  refine this.mono (le_of_eq ?_)
  rw [Finset.mul_sum, Finset.mul_sum, Finset.mul_sum, ← Finset.sum_add_distrib, ← Finset.sum_add_distrib]
  exact Finset.sum_congr rfl fun t _ => by ring

end Lin

variable {α β γ : ℕ}

/-! ## Values -/

theorem castLoopT_lin {δ ε : Type} {c k : ℕ} (hc : c ≤ k * α) (f : Int → δ → C ε) (y : Arr ε) (x : Arr δ) (n : Int) :
    Lin α β γ (n.toNat * k) n.toNat 0 (castLoopT β c f y x n) (castLoop f y x n) := by
  unfold castLoopT castLoop
  refine (Lin.forRange (a := k) (b := 0) (c := 0) fun i s _ _ => Lin.tickLe hc (Lin.lift _)).mono ?_ ?_ ?_ <;> simp

theorem slip_cumsumT_lin (p c : Arr Int) (n : Int) :
    Lin α β γ 0 n.toNat 0 (slip_cumsumT β p c n) (slip_cumsum p c n) := by
  unfold slip_cumsumT slip_cumsum
  refine ((Lin.forRange (a := 0) (b := 0) (c := 0) fun i s _ _ => Lin.lift _).bind fun s _ =>
    Lin.liftBind fun p _ => Lin.pure _).mono ?_ ?_ ?_ <;> simp

theorem copyIntsT_lin (dst src : Arr Int) (n : Int) :
    Lin α β γ 0 n.toNat 0 (copyIntsT β dst src n) (copyInts dst src n) := by
  unfold copyIntsT copyInts
  refine (Lin.forRange (a := 0) (b := 0) (c := 0) fun i s _ _ => Lin.lift _).mono ?_ ?_ ?_ <;> simp

theorem slip_expand_mpq_arrayT_lin (x_out : Arr Int) (x : Arr ℚ) (n : Int) :
    Lin α β γ (4 * n.toNat) (5 * n.toNat + 2) (2 * n.toNat + 2) (slip_expand_mpq_arrayT α β γ x_out x n)
      (slip_expand_mpq_array x_out x n) := by
  unfold slip_expand_mpq_arrayT slip_expand_mpq_array
  refine (Lin.temp <| Lin.temp <| (Lin.forRange (a := 1) (b := 0) (c := 0) fun i s _ _ =>
    Lin.tick1 (Lin.lift _)).bind fun x3 _ => Lin.liftBind fun t _ =>
    (Lin.forRange (a := 1) (b := 0) (c := 0) fun i s _ _ => Lin.tick1 (Lin.lift _)).bind fun temp _ =>
    (Lin.forRange (a := 2) (b := 0) (c := 0) fun i s _ _ => Lin.tickA (Lin.lift _)).bind fun s _ =>
    Lin.pure _).mono ?_ ?_ ?_
  all_goals omega

theorem gcdLoopT_lin (x : Arr Int) : ∀ (c : ℕ) (i : Int) (s : Option (Int × Int)),
    Lin α β γ (2 * c) c 0 (gcdLoopT α β x c i s) (gcdLoop x c i s)
  | 0, _, s => Lin.pure _
  | c + 1, i, none => by
    unfold gcdLoopT gcdLoop
    refine (Lin.tickB1 <| Lin.tick1 <| Lin.liftBind fun v _ => Lin.ite
      (fun _ => Lin.tick1 (gcdLoopT_lin x c (i + 1) _)) fun _ =>
        (gcdLoopT_lin x c (i + 1) _).mono (by omega) le_rfl le_rfl).mono ?_ ?_ ?_ <;> omega
  | c + 1, i, some (k, g) => by
    unfold gcdLoopT gcdLoop
    refine (Lin.tickB1 <| Lin.tickA <| Lin.liftBind fun v _ => Lin.ite
      (fun _ => (Lin.pure _).mono (Nat.zero_le _) (Nat.zero_le _) (Nat.zero_le _)) fun _ =>
        gcdLoopT_lin x c (i + 1) _).mono ?_ ?_ ?_ <;> omega

theorem gcdLoop_ge {x : Arr Int} : ∀ (c : ℕ) (i : Int) (s : Option (Int × Int)) {k g : Int} {b : Bool},
    0 ≤ i → (∀ q, s = some q → 0 ≤ q.1) → gcdLoop x c i s = .ok (some (k, g, b)) → 0 ≤ k
  | 0, i, s, k, g, b, hi, hs, h => by
    rcases s with _ | ⟨k', g'⟩
    · cases h
    · cases h; exact hs _ rfl
  | c + 1, i, none, k, g, b, hi, hs, h => by
    unfold gcdLoop at h
    cases h1 : rd x i with
    | error e => rw [h1] at h; cases h
    | ok v =>
      rw [h1] at h
      simp only [ok_bind] at h
      split at h
      · exact gcdLoop_ge c (i + 1) _ (by omega) (fun q hq => by cases hq; exact hi) h
      · exact gcdLoop_ge c (i + 1) _ (by omega) (fun q hq => by cases hq) h
  | c + 1, i, some (k', g'), k, g, b, hi, hs, h => by
    unfold gcdLoop at h
    cases h1 : rd x i with
    | error e => rw [h1] at h; cases h
    | ok v =>
      rw [h1] at h
      simp only [ok_bind] at h
      split at h
      · cases h; exact hs _ rfl
      · exact gcdLoop_ge c (i + 1) _ (by omega) (fun q hq => by cases hq; exact hs (k', g') rfl) h

theorem reduceGcdT_lin (x_out : Arr Int) (scale : ℚ) (n : Int) :
    Lin α β γ (3 * n.toNat) (2 * n.toNat) 0 (reduceGcdT α β x_out scale n) (reduceGcd x_out scale n) := by
  unfold reduceGcdT reduceGcd
  refine ((gcdLoopT_lin x_out n.toNat 0 none).bind (a2 := n.toNat) (b2 := n.toNat) (c2 := 0) fun r hr => ?_).mono
    ?_ ?_ ?_
  rotate_left
  · omega
  · omega
  · omega
  rcases r with _ | ⟨k, g, b⟩
  · exact (Lin.pure _).mono (Nat.zero_le _) (Nat.zero_le _) le_rfl
  · cases b
    · have hk := gcdLoop_ge _ _ _ le_rfl (fun q hq => by cases hq) hr
      refine ((Lin.forRange (a := 1) (b := 0) (c := 0) fun i s _ _ => Lin.tick1 (Lin.lift _)).bind fun s _ =>
        Lin.pure _).mono ?_ ?_ ?_
      all_goals omega
    · exact (Lin.pure _).mono (Nat.zero_le _) (Nat.zero_le _) le_rfl

theorem slip_expand_double_arrayT_lin (opt : Option Options) (x_out : Arr Int) (x : Arr Dbl) (n : Int) :
    Lin α β γ (6 * n.toNat) (4 * n.toNat + 1) (n.toNat + 1) (slip_expand_double_arrayT α β γ opt x_out x n)
      (slip_expand_double_array opt x_out x n) := by
  unfold slip_expand_double_arrayT slip_expand_double_array
  refine (Lin.temp <| (Lin.forRange (a := 3) (b := 0) (c := 0) fun i s _ _ => Lin.tickA (Lin.lift _)).bind fun s _ =>
    reduceGcdT_lin _ _ n).mono ?_ ?_ ?_
  all_goals omega

theorem slip_expand_mpfr_arrayT_lin (opt : Option Options) (x_out : Arr Int) (x : Arr Dbl) (n : Int) :
    Lin α β γ (5 * n.toNat) (4 * n.toNat + 1) (n.toNat + 1) (slip_expand_mpfr_arrayT α β γ opt x_out x n)
      (slip_expand_mpfr_array opt x_out x n) := by
  unfold slip_expand_mpfr_arrayT slip_expand_mpfr_array
  refine (Lin.temp <| (Lin.forRange (a := 2) (b := 0) (c := 0) fun i s _ _ => Lin.tickA (Lin.lift _)).bind fun s _ =>
    reduceGcdT_lin _ _ n).mono ?_ ?_ ?_
  all_goals omega

theorem castCase {δ ε ζ : Type} {c : ℕ} (hc : c ≤ 3 * α) (f : Int → δ → C ε) (y : Arr ε) (x : Arr δ) (n : Int)
    (g : Arr ε → ζ) :
    Lin α β γ (6 * n.toNat) (5 * n.toNat + 2) (2 * n.toNat + 2) (castLoopT β c f y x n >>= fun y => Pure.pure (g y))
      (castLoop f y x n >>= fun y => Pure.pure (g y)) := by
  refine ((castLoopT_lin hc f y x n).bind fun y _ => Lin.pure _).mono ?_ ?_ ?_ <;> omega

theorem ite_le (p : Prop) [Decidable p] {k : ℕ} (hk : 1 ≤ k ∧ k ≤ 3) : (if p then α else k * α) ≤ 3 * α := by
  split
  · omega
  · exact Nat.mul_le_mul_right _ hk.2

theorem slip_cast_arrayT_lin (fp : Fp) (opt : Option Options) (Y X : Option Vals) (n : Int) (ys xs : ℚ) :
    Lin α β γ (6 * n.toNat) (5 * n.toNat + 2) (2 * n.toNat + 2) (slip_cast_arrayT α β γ fp opt Y X n ys xs)
      (slip_cast_array fp opt Y X n ys xs) := by
  have hE : Lin α β γ (6 * n.toNat) (5 * n.toNat + 2) (2 * n.toNat + 2)
      (W.lift (.error (.ret .incorrectInput)) : W (Vals × ℚ)) (.error (.ret .incorrectInput)) :=
    (Lin.lift _).mono (Nat.zero_le _) (Nat.zero_le _) (Nat.zero_le _)
  rcases Y with _ | ⟨y⟩ | ⟨y⟩ | ⟨y⟩ | ⟨y⟩ | ⟨y⟩
  · exact hE
  all_goals rcases X with _ | ⟨x⟩ | ⟨x⟩ | ⟨x⟩ | ⟨x⟩ | ⟨x⟩
  all_goals first
    | exact hE
    | exact castCase (by omega) _ _ _ _ _
    | exact castCase (ite_le _ (by omega)) _ _ _ _ _
    | (unfold slip_cast_arrayT slip_cast_array
       exact ((slip_expand_mpq_arrayT_lin y x n).bind fun s _ => Lin.pure _).mono (by omega) (by omega) (by omega))
    | (unfold slip_cast_arrayT slip_cast_array
       exact ((slip_expand_double_arrayT_lin opt y x n).bind fun s _ => Lin.pure _).mono (by omega) (by omega) (by omega))
    | (unfold slip_cast_arrayT slip_cast_array
       exact ((slip_expand_mpfr_arrayT_lin opt y x n).bind fun s _ => Lin.pure _).mono (by omega) (by omega) (by omega))

/-! ## Allocation -/

theorem allocateT_lin (kind : Kind) (type : Ty) (m n nzmax : Int) (sh ini : Bool) :
    Lin α β γ 0 (max (if kind = .dense then m * n else nzmax) 1).toNat
      (allocElems kind n (max (if kind = .dense then m * n else nzmax) 1))
      (allocateT β γ kind type m n nzmax sh ini) (allocate kind type m n nzmax sh ini) := by
  unfold allocateT
  by_cases h1 : m < 0 ∨ n < 0 ∨ kind.ok = false ∨ type.ok = false
  · rw [if_pos h1]
    exact (Lin.lift _).mono (Nat.zero_le _) (Nat.zero_le _) (Nat.zero_le _)
  rw [if_neg h1]
  by_cases h2 : sh = true
  · rw [if_pos h2]
    exact (Lin.lift _).mono (Nat.zero_le _) (Nat.zero_le _) (Nat.zero_le _)
  rw [if_neg h2]
  refine (Lin.tickC <| Lin.tickB <| Lin.lift _).mono le_rfl ?_ (by omega)
  generalize max (if kind = .dense then m * n else nzmax) 1 = E
  unfold allocInits
  split
  all_goals first
    | omega
    | (split <;> omega)

theorem allocSparse_lin (kind : Kind) (hk : kind ≠ .dense) (type : Ty) (m n : Int) {nzmax : Int} {N : ℕ} (hN : nzmax ≤ N) :
    Lin α β γ 0 (N + 1) ((if kind = .csc then n.toNat + 2 else 0) + 3 * (N + 1))
      (allocateT β γ kind type m n nzmax false true) (allocate kind type m n nzmax false true) := by
  refine (allocateT_lin kind type m n nzmax false true).mono le_rfl ?_ ?_
  · rw [if_neg hk]; omega
  · rw [if_neg hk]
    unfold allocElems
    cases kind
    · dsimp only; rw [if_pos rfl]; omega
    · dsimp only; rw [if_neg (by decide)]; omega
    · exact absurd rfl hk
    · dsimp only; rw [if_neg (by simp)]; omega

theorem allocDense_lin (type : Ty) (m n : ℕ) (nzmax : Int) (sh : Bool) :
    Lin α β γ 0 (m * n + 1) (m * n + 1)
      (allocateT β γ .dense type m n nzmax sh true) (allocate .dense type m n nzmax sh true) := by
  refine (allocateT_lin .dense type m n nzmax sh true).mono le_rfl ?_ ?_
  all_goals
    rw [if_pos rfl, ← Nat.cast_mul]
    try unfold allocElems
    try dsimp only
    generalize m * n = k
    omega

theorem slip_cast_matrixT_lin (fp : Fp) (opt : Option Options) (type : Ty) {A : Mat} {N : ℕ}
    (hN : SLIP_matrix_nnz true (some A) = .ok (N : ℤ)) :
    Lin α β γ (6 * N) (6 * N + 3) (3 * N + 3) (slip_cast_matrixT α β γ fp opt type A)
      (slip_cast_matrix fp opt type A) := by
  unfold slip_cast_matrixT slip_cast_matrix
  refine Lin.liftBind fun nz hnz => ?_
  obtain rfl : nz = N := by rw [hN] at hnz; exact (Except.ok.inj hnz).symm
  refine ((allocDense_lin type N 1 N (decide (type = A.type))).bind (a2 := 6 * N) (b2 := 5 * N + 2) (c2 := 2 * N + 2)
    fun Y _ => Lin.ite (fun _ => (Lin.pure _).mono (Nat.zero_le _) (Nat.zero_le _) (Nat.zero_le _)) fun _ =>
    ((slip_cast_arrayT_lin fp opt Y.x A.x N Y.scale A.scale).bind fun s _ => Lin.pure _).mono ?_ ?_ ?_).mono ?_ ?_ ?_
  all_goals omega

end Slip
