import Verif.Proof.CopyLoops

/-!
# Exact conversions of value arrays
-/

namespace Slip

/-- The five cases of `withVals`. -/
inductive VC | z | q | r | i | d

namespace VC

/-- Element type. -/
abbrev El : VC → Type
  | z => Int | q => ℚ | r => Dbl | i => Int | d => Dbl

/-- Element operations. -/
def e (opt : Option Options) : (V : VC) → Elt V.El
  | z => eltZ | q => eltQ | r => eltR opt | i => eltZ | d => eltD

/-- The union member. -/
def mk : (V : VC) → Arr V.El → Vals
  | z => .mpz | q => .mpq | r => .mpfr | i => .int64 | d => .fp64

/-- The type tag. -/
def ty : VC → Ty
  | z => .mpz | q => .mpq | r => .mpfr | i => .int64 | d => .fp64

/-- The number an element stands for. -/
def dec (s : ℚ) : (V : VC) → V.El → Option ℚ
  | z => fun v : Int => some ((v : ℚ) / s)
  | q => fun v : ℚ => some v
  | r => fun v : Dbl => v.rat
  | i => fun v : Int => some (v : ℚ)
  | d => fun v : Dbl => v.rat

theorem ty_mk (V : VC) (a : Arr V.El) : (V.mk a).ty = V.ty := by cases V <;> rfl

theorem val_mk (V : VC) (s : ℚ) (a : Arr V.El) (k : ℤ) :
    (V.mk a).val s k = (Slip.get a k).bind (V.dec s) := by
  cases V <;> simp only [mk, Vals.val, dec] <;> cases Slip.get a k <;> rfl

theorem zero_iff {opt : Option Options} (V : VC) {s x : ℚ} (hs : s ≠ 0) {v : V.El}
    (h : V.dec s v = some x) : (V.e opt).isZero v = true ↔ x = 0 := by
  cases V with
  | z =>
    simp only [dec, Option.some.injEq] at h
    subst h
    simp [e, eltZ, hs]
  | q =>
    simp only [dec, Option.some.injEq] at h
    subst h
    simp [e, eltQ]
  | r =>
    simp only [dec] at h
    cases v <;> simp [Dbl.rat] at h
    subst h
    simp [e, eltR]
  | i =>
    simp only [dec, Option.some.injEq] at h
    subst h
    simp [e, eltZ]
  | d =>
    simp only [dec] at h
    cases v <;> simp [Dbl.rat] at h
    subst h
    simp [e, eltD]

theorem set_dec {opt : Option Options} (V : VC) {s x : ℚ} {v : V.El} (h : V.dec s v = some x)
    (hr : V.ty = .mpfr → roundPrec (optPrec opt) (optRound opt) x = x) :
    V.dec s ((V.e opt).set v) = some x := by
  cases V with
  | r =>
    simp only [dec] at h
    cases v <;> simp [Dbl.rat] at h
    subst h
    have := hr rfl
    simp [e, eltR, dec, mpfrRnd, Dbl.rat, this]
  | z => exact h
  | q => exact h
  | i => exact h
  | d => exact h

theorem exists_mk (x : Vals) : ∃ (V : VC) (a : Arr V.El), x = V.mk a ∧ V.ty = x.ty := by
  cases x with
  | mpz a => exact ⟨z, a, rfl, rfl⟩
  | mpq a => exact ⟨q, a, rfl, rfl⟩
  | mpfr a => exact ⟨r, a, rfl, rfl⟩
  | int64 a => exact ⟨i, a, rfl, rfl⟩
  | fp64 a => exact ⟨d, a, rfl, rfl⟩

theorem exists_mk_ty (x : Vals) (V : VC) (h : x.ty = V.ty) : ∃ a : Arr V.El, x = V.mk a := by
  cases V <;> cases x <;> simp [Vals.ty, ty] at h <;> exact ⟨_, rfl⟩

theorem withVals_eq {opt : Option Options} (V : VC) (Cx Yx : Arr V.El) {β : Type}
    (f : {α : Type} → Elt α → Arr α → Arr α → C (Arr α × β)) :
    withVals opt (some (V.mk Cx)) (some (V.mk Yx)) f =
      (f (V.e opt) Cx Yx >>= fun r => pure (V.mk r.1, r.2)) := by
  cases V <;> rfl

/-- Stored elements from their numbers. -/
theorem elems {V : VC} {s : ℚ} {a : Arr V.El} {N : ℕ} {v : ℕ → ℚ}
    (h : ∀ k : ℕ, k < N → (V.mk a).val s k = some (v k)) :
    ∃ w : ℕ → V.El, ∀ k : ℕ, k < N → Slip.get a k = some (w k) ∧ V.dec s (w k) = some (v k) := by
  have hex : ∀ k : ℕ, k < N → ∃ w : V.El, Slip.get a k = some w ∧ V.dec s w = some (v k) := by
    intro k hk
    have := h k hk
    rw [val_mk] at this
    exact Option.bind_eq_some_iff.1 this
  have hne : N = 0 ∨ Nonempty V.El := by cases V <;> exact Or.inr ⟨by first | exact (0 : Int) | exact (0 : ℚ) | exact Dbl.nan⟩
  rcases hne with h0 | h0
  · subst h0
    refine ⟨fun _ => ?_, by simp⟩
    cases V <;> first | exact (0 : Int) | exact (0 : ℚ) | exact Dbl.nan
  · choose! w hw using hex
    exact ⟨w, hw⟩

theorem newVals_mk {V : VC} {nzmax : ℤ} : ∃ a : Arr V.El, newVals V.ty nzmax true = some (V.mk a) ∧
    ∀ (s : ℚ) (k : ℕ), (k : ℤ) < nzmax → ∃ u, Slip.get a k = some u ∧
      (V.ty ≠ .mpfr → V.dec s u = some 0) := by
  cases V with
  | z => exact ⟨_, rfl, fun s k hk => ⟨(0 : Int), get_replicate_some (by omega), fun _ => by simp [dec]⟩⟩
  | q => exact ⟨_, rfl, fun s k hk => ⟨(0 : ℚ), get_replicate_some (by omega), fun _ => rfl⟩⟩
  | r => exact ⟨_, rfl, fun s k hk => ⟨Dbl.nan, get_replicate_some (by omega), fun h => absurd rfl h⟩⟩
  | i => exact ⟨_, rfl, fun s k hk => ⟨(0 : Int), get_replicate_some (by omega), fun _ => by simp [dec]⟩⟩
  | d => exact ⟨_, rfl, fun s k hk => ⟨Dbl.fin 0, get_replicate_some (by omega), fun _ => rfl⟩⟩

end VC

theorem Ty.ok_vc {t : Ty} (h : t.ok = true) : ∃ V : VC, V.ty = t := by
  cases t with
  | mpz => exact ⟨.z, rfl⟩
  | mpq => exact ⟨.q, rfl⟩
  | mpfr => exact ⟨.r, rfl⟩
  | int64 => exact ⟨.i, rfl⟩
  | fp64 => exact ⟨.d, rfl⟩
  | bad v => simp [Ty.ok] at h

/-- When is the conversion of the numbers `v 0 .. v (N-1)` exact? -/
def CastOk (opt : Option Options) (src dst : Ty) (N : ℕ) (v : ℕ → ℚ) : Prop :=
  match src, dst with
  | .mpz, .mpz => True
  | .mpz, .mpq => True
  | .mpq, .mpq => True
  | .mpfr, .mpq => True
  | .fp64, .mpq => True
  | .int64, .mpz => True
  | .int64, .int64 => True
  | .fp64, .fp64 => True
  | .mpq, .mpz => 0 < N
  | .fp64, .mpz => 93 ≤ optPrec opt ∧
      (∀ k, k < N → IsDouble (v k) ∧ ∃ z : ℤ, 10 ^ 17 * v k = z) ∧ ∃ k, k < N ∧ v k ≠ 0
  | .mpfr, .mpz => 0 ≤ optPrec opt ∧
      (∀ k, k < N → (∃ m e : ℤ, |m| < 2 ^ (optPrec opt).toNat ∧ v k = m * (2 : ℚ) ^ e) ∧
        ∃ z : ℤ, 2 ^ (optPrec opt).toNat * v k = z) ∧ ∃ k, k < N ∧ v k ≠ 0
  | .mpz, .mpfr | .mpq, .mpfr | .mpfr, .mpfr | .int64, .mpfr | .fp64, .mpfr =>
      ∀ k, k < N → roundPrec (optPrec opt) (optRound opt) (v k) = v k
  | _, _ => False

/-- `castLoop` on element arrays. -/
theorem castLoop_vals {V W : VC} {s s' : ℚ} {y0 : Arr W.El} {x : Arr V.El} {N : ℕ} {v : ℕ → ℚ}
    {f : Int → V.El → C W.El} (hy0 : ∀ k : ℕ, k < N → ∃ u, get y0 k = some u)
    (hx : ∀ k : ℕ, k < N → (V.mk x).val s k = some (v k))
    (hf : ∀ (k : ℕ) (u : V.El), k < N → V.dec s u = some (v k) →
      ∃ w, f k u = .ok w ∧ W.dec s' w = some (v k)) :
    ∃ y, castLoop f y0 x N = .ok y ∧ ∀ k : ℕ, k < N → (W.mk y).val s' k = some (v k) := by
  obtain ⟨u, hu⟩ := VC.elems hx
  have hex : ∀ k : ℕ, k < N → ∃ w, f k (u k) = .ok w ∧ W.dec s' w = some (v k) :=
    fun k hk => hf k (u k) hk (hu k hk).2
  have hne : Nonempty W.El := by
    cases W <;> exact ⟨by first | exact (0 : Int) | exact (0 : ℚ) | exact Dbl.nan⟩
  choose! w hw1 hw2 using hex
  obtain ⟨y, e, -, g, -⟩ := castLoop_spec (w := w) hy0 (fun k hk => (hu k hk).1) hw1
  refine ⟨y, e, fun k hk => ?_⟩
  rw [VC.val_mk, g k hk]
  exact hw2 k hk

/-- The shape of all results below. -/
theorem castLoop_done {W : VC} {s' : ℚ} {N : ℕ} {v : ℕ → ℚ} {m : C (Arr W.El)} (hs' : s' ≠ 0)
    (h : ∃ y, m = .ok y ∧ ∀ k : ℕ, k < N → (W.mk y).val s' k = some (v k)) :
    ∃ (y : Vals) (t : ℚ), (m >>= fun y => pure (W.mk y, s')) = .ok (y, t) ∧ y.ty = W.ty ∧ t ≠ 0 ∧
      ∀ k : ℕ, k < N → y.val t k = some (v k) := by
  obtain ⟨y, e, h⟩ := h
  exact ⟨W.mk y, s', by rw [e]; rfl, VC.ty_mk W y, hs', h⟩

theorem dbl_rat {d : Dbl} {x : ℚ} (h : d.rat = some x) : d = .fin x := by
  cases d <;> simp [Dbl.rat] at h
  rw [h]

theorem unscaleZ_eq {s : ℚ} (hs : s ≠ 0) (z : ℤ) : unscaleZ s z = .ok ((z : ℚ) / s) := by
  unfold unscaleZ
  split
  · rename_i h; subst h; simp; rfl
  · rfl

/-- Exact conversion of arrays. -/
theorem cast_exact {fp : Fp} {opt : Option Options} {x : Vals} {s : ℚ} {N : ℕ} {W : VC}
    {y0 : Arr W.El} {v : ℕ → ℚ} (hs : s ≠ 0) (hx : ∀ k : ℕ, k < N → x.val s k = some (v k))
    (hy0 : ∀ k : ℕ, k < N → ∃ u, get y0 k = some u) (hE : CastOk opt x.ty W.ty N v) :
    ∃ (y : Vals) (s' : ℚ), slip_cast_array fp opt (some (W.mk y0)) (some x) N 1 s = .ok (y, s') ∧
      y.ty = W.ty ∧ s' ≠ 0 ∧ ∀ k : ℕ, k < N → y.val s' k = some (v k) := by
  obtain ⟨V, a, rfl, hV⟩ := VC.exists_mk x
  rw [← hV] at hE
  cases V <;> cases W <;> simp only [VC.ty, CastOk] at hE
  case z.z =>
    exact castLoop_done (W := .z) hs (castLoop_vals (V := .z) (W := .z) hy0 hx
      fun k u hk hu => ⟨u, rfl, hu⟩)
  case z.q =>
    exact castLoop_done (W := .q) one_ne_zero (castLoop_vals (V := .z) (W := .q) hy0 hx
      fun k u hk hu => ⟨_, unscaleZ_eq hs u, hu⟩)
  case z.r =>
    exact castLoop_done (W := .r) one_ne_zero (castLoop_vals (V := .z) (W := .r) hy0 hx
      fun k u hk hu => by
        have h1 : ((u : Int) : ℚ) / s = v k := by simpa [VC.dec] using hu
        refine ⟨.fin (v k), ?_, rfl⟩
        rw [unscaleZ_eq hs, h1]
        show Except.ok (mpfrRnd _ _ (.fin (v k))) = _
        rw [mpfrRnd, hE k hk])
  case q.z =>
    obtain ⟨u, hu⟩ := VC.elems (V := .q) hx
    have hu' : ∀ k : ℕ, k < N → get a k = some (v k) := fun k hk => by
      have h2 : u k = v k := by simpa [VC.dec] using (hu k hk).2
      rw [← h2]; exact (hu k hk).1
    obtain ⟨y, e, -, h, -⟩ := slip_expand_mpq_array_spec hE hy0 hu'
    set L := ((Finset.range N).lcm fun k => (v k).den : ℕ) with hL
    have hL0 : (L : ℚ) ≠ 0 := by
      have : L ≠ 0 := by
        rw [hL, Ne, Finset.lcm_eq_zero_iff]
        rintro ⟨k, -, hk⟩
        exact (v k).den_nz hk
      exact_mod_cast this
    refine ⟨.mpz y, (L : ℚ), ?_, rfl, hL0, fun k hk => ?_⟩
    · show (slip_expand_mpq_array y0 a N >>= _) = _
      rw [e]; rfl
    · obtain ⟨z, g, hz⟩ := h k hk
      simp only [Vals.val, g, Option.map_some, hz]
      rw [mul_div_assoc, div_self hL0, mul_one]
  case q.q =>
    exact castLoop_done (W := .q) one_ne_zero (castLoop_vals (V := .q) (W := .q) hy0 hx
      fun k u hk hu => ⟨u, rfl, hu⟩)
  case q.r =>
    exact castLoop_done (W := .r) one_ne_zero (castLoop_vals (V := .q) (W := .r) hy0 hx
      fun k u hk hu => by
        have h1 : (u : ℚ) = v k := by simpa [VC.dec] using hu
        refine ⟨.fin (v k), ?_, rfl⟩
        show Except.ok (mpfrRnd _ _ (.fin u)) = _
        rw [mpfrRnd, h1, hE k hk])
  case r.z =>
    obtain ⟨hp0, hE1, k0, hk0, hk0'⟩ := hE
    obtain ⟨u, hu⟩ := VC.elems (V := .r) hx
    obtain ⟨p, hp⟩ := Int.eq_ofNat_of_zero_le hp0
    have hu' : ∀ k : ℕ, k < N → get a k = some (.fin (v k)) := fun k hk => by
      have h2 : u k = .fin (v k) := dbl_rat (hu k hk).2
      rw [← h2]; exact (hu k hk).1
    obtain ⟨y1, e, -, g, -⟩ := slip_expand_mpfr_array_eq (opt := opt) hy0 hu'
    have hz : ∀ k, k < N → ((mpfrToZ opt (.fin (v k)) : ℤ) : ℚ) = 2 ^ p * v k := by
      intro k hk
      obtain ⟨⟨m, e, hm, hv⟩, z, hz⟩ := hE1 k hk
      rw [hp, Int.toNat_natCast] at hm hz
      rw [mpfrToZ_exact hp hm hv, hz, roundInt_int]
    have hp2 : (2 : ℚ) ^ p ≠ 0 := by positivity
    obtain ⟨x', s', z, e', -, h0, hv, -, -⟩ := reduceGcd_spec (n := N) (s := 2 ^ p)
      (y := fun k => mpfrToZ opt (.fin (v k))) (by positivity) g ⟨k0, hk0, fun h => by
        have := hz k0 hk0
        rw [h] at this
        have := this.symm
        simp only [Int.cast_zero, mul_eq_zero, hp2, false_or] at this
        exact hk0' this⟩
    refine ⟨.mpz x', s', ?_, rfl, h0, fun k hk => ?_⟩
    · show (slip_expand_mpfr_array opt y0 a N >>= _) = _
      rw [e, hp, Int.toNat_natCast, e']; rfl
    · obtain ⟨g1, g2⟩ := hv k hk
      simp only [Vals.val, g1, Option.map_some, g2, hz k hk]
      rw [mul_div_cancel_left₀ _ hp2]
  case r.q =>
    exact castLoop_done (W := .q) one_ne_zero (castLoop_vals (V := .r) (W := .q) hy0 hx
      fun k u hk hu => by
        have h1 : u = .fin (v k) := dbl_rat hu
        exact ⟨v k, by rw [h1]; rfl, rfl⟩)
  case r.r =>
    exact castLoop_done (W := .r) one_ne_zero (castLoop_vals (V := .r) (W := .r) hy0 hx
      fun k u hk hu => by
        have h1 : u = .fin (v k) := dbl_rat hu
        refine ⟨.fin (v k), ?_, rfl⟩
        rw [h1]
        show Except.ok (mpfrRnd _ _ (.fin (v k))) = _
        rw [mpfrRnd, hE k hk])
  case i.z =>
    exact castLoop_done (W := .z) one_ne_zero (castLoop_vals (V := .i) (W := .z) hy0 hx
      fun k u hk hu => ⟨u, rfl, by simpa [VC.dec] using hu⟩)
  case i.r =>
    exact castLoop_done (W := .r) one_ne_zero (castLoop_vals (V := .i) (W := .r) hy0 hx
      fun k u hk hu => by
        have h1 : ((u : Int) : ℚ) = v k := by simpa [VC.dec] using hu
        refine ⟨.fin (v k), ?_, rfl⟩
        show Except.ok (mpfrRnd _ _ (.fin ((u : Int) : ℚ))) = _
        rw [mpfrRnd, h1, hE k hk])
  case i.i =>
    exact castLoop_done (W := .i) one_ne_zero (castLoop_vals (V := .i) (W := .i) hy0 hx
      fun k u hk hu => ⟨u, rfl, hu⟩)
  case d.z =>
    obtain ⟨hp93, hE1, k0, hk0, hk0'⟩ := hE
    obtain ⟨u, hu⟩ := VC.elems (V := .d) hx
    obtain ⟨p, hp⟩ := Int.eq_ofNat_of_zero_le (by omega : 0 ≤ optPrec opt)
    have hu' : ∀ k : ℕ, k < N → get a k = some (.fin (v k)) := fun k hk => by
      have h2 : u k = .fin (v k) := dbl_rat (hu k hk).2
      rw [← h2]; exact (hu k hk).1
    obtain ⟨y1, e, -, g, -⟩ := slip_expand_double_array_eq (opt := opt) hy0 hu'
    have hz : ∀ k, k < N → ((dblToZ opt (.fin (v k)) : ℤ) : ℚ) = 10 ^ 17 * v k := by
      intro k hk
      obtain ⟨hd, z, hz⟩ := hE1 k hk
      rw [dblToZ_exact hp (by omega) hd, hz, roundInt_int]
    obtain ⟨x', s', z, e', -, h0, hv, -, -⟩ := reduceGcd_spec (n := N) (s := 10 ^ 17)
      (y := fun k => dblToZ opt (.fin (v k))) (by positivity) g ⟨k0, hk0, fun h => by
        have := hz k0 hk0
        rw [h] at this
        have := this.symm
        simp only [Int.cast_zero, mul_eq_zero] at this
        rcases this with h | h
        · norm_num at h
        · exact hk0' h⟩
    refine ⟨.mpz x', s', ?_, rfl, h0, fun k hk => ?_⟩
    · show (slip_expand_double_array opt y0 a N >>= _) = _
      rw [e, e']; rfl
    · obtain ⟨g1, g2⟩ := hv k hk
      simp only [Vals.val, g1, Option.map_some, g2, hz k hk]
      rw [mul_div_cancel_left₀ _ (by norm_num)]
  case d.q =>
    exact castLoop_done (W := .q) one_ne_zero (castLoop_vals (V := .d) (W := .q) hy0 hx
      fun k u hk hu => by
        have h1 : u = .fin (v k) := dbl_rat hu
        exact ⟨v k, by rw [h1]; rfl, rfl⟩)
  case d.r =>
    exact castLoop_done (W := .r) one_ne_zero (castLoop_vals (V := .d) (W := .r) hy0 hx
      fun k u hk hu => by
        have h1 : u = .fin (v k) := dbl_rat hu
        refine ⟨.fin (v k), ?_, rfl⟩
        rw [h1]
        show Except.ok (mpfrRnd _ _ (.fin (v k))) = _
        rw [mpfrRnd, hE k hk])
  case d.d =>
    exact castLoop_done (W := .d) one_ne_zero (castLoop_vals (V := .d) (W := .d) hy0 hx
      fun k u hk hu => ⟨u, rfl, hu⟩)

/-! ## allocation -/

theorem allocate_csc {W : VC} {m n : ℕ} {nz : ℤ} :
    ∃ (c : Mat) (a : Arr W.El), allocate .csc W.ty m n nz false true = .ok c ∧
      c.m = m ∧ c.n = n ∧ c.kind = .csc ∧ c.type = W.ty ∧ c.scale = 1 ∧ Owns c ∧
      (deref c.p).length = n + 1 ∧ (deref c.i).length = (max nz 1).toNat ∧ c.x = some (W.mk a) ∧
      ∀ (s : ℚ) (k : ℕ), (k : ℤ) < max nz 1 → ∃ u, get a k = some u ∧
        (W.ty ≠ .mpfr → W.dec s u = some 0) := by
  obtain ⟨a, ha, h⟩ := VC.newVals_mk (V := W) (nzmax := max nz 1)
  have hok : W.ty.ok = true := by cases W <;> rfl
  unfold allocate
  rw [if_neg (by simp [Kind.ok, hok])]
  simp only [if_false, reduceCtorEq, Bool.false_eq_true, if_true, ha]
  refine ⟨_, a, rfl, rfl, rfl, rfl, rfl, rfl, ?_, ?_, ?_, rfl, h⟩
  · exact ⟨⟨rfl, rfl, rfl, rfl⟩, by simp, by simp, by simp, rfl⟩
  · simp [deref]
  · simp [deref]

theorem allocate_triplet {W : VC} {m n : ℕ} {nz : ℤ} :
    ∃ (c : Mat) (a : Arr W.El), allocate .triplet W.ty m n nz false true = .ok c ∧
      c.m = m ∧ c.n = n ∧ c.kind = .triplet ∧ c.type = W.ty ∧ c.scale = 1 ∧ Owns c ∧
      (deref c.j).length = (max nz 1).toNat ∧ (deref c.i).length = (max nz 1).toNat ∧
      c.x = some (W.mk a) ∧
      ∀ (s : ℚ) (k : ℕ), (k : ℤ) < max nz 1 → ∃ u, get a k = some u ∧
        (W.ty ≠ .mpfr → W.dec s u = some 0) := by
  obtain ⟨a, ha, h⟩ := VC.newVals_mk (V := W) (nzmax := max nz 1)
  have hok : W.ty.ok = true := by cases W <;> rfl
  unfold allocate
  rw [if_neg (by simp [Kind.ok, hok])]
  simp only [if_false, reduceCtorEq, Bool.false_eq_true, if_true, ha]
  refine ⟨_, a, rfl, rfl, rfl, rfl, rfl, rfl, ?_, ?_, ?_, rfl, h⟩
  · exact ⟨⟨rfl, rfl, rfl, rfl⟩, by simp, by simp, by simp, rfl⟩
  · simp [deref]
  · simp [deref]

theorem allocate_dense {W : VC} {m n : ℕ} {nz : ℤ} :
    ∃ (c : Mat) (a : Arr W.El), allocate .dense W.ty m n nz false true = .ok c ∧
      c.m = m ∧ c.n = n ∧ c.kind = .dense ∧ c.type = W.ty ∧ c.scale = 1 ∧ Owns c ∧
      c.x = some (W.mk a) ∧
      ∀ (s : ℚ) (k : ℕ), k < m * n → ∃ u, get a k = some u ∧
        (W.ty ≠ .mpfr → W.dec s u = some 0) := by
  obtain ⟨a, ha, h⟩ := VC.newVals_mk (V := W) (nzmax := max ((m : ℤ) * n) 1)
  have hok : W.ty.ok = true := by cases W <;> rfl
  unfold allocate
  rw [if_neg (by simp [Kind.ok, hok])]
  simp only [if_false, reduceCtorEq, Bool.false_eq_true, if_true, ha]
  refine ⟨_, a, rfl, rfl, rfl, rfl, rfl, rfl, ?_, rfl, fun s k hk => h s k ?_⟩
  · exact ⟨⟨rfl, rfl, rfl, rfl⟩, by simp, by simp, by simp, rfl⟩
  · have : ((k : ℕ) : ℤ) < ((m * n : ℕ) : ℤ) := by exact_mod_cast hk
    push_cast at this
    omega

/-! ## slip_cast_matrix -/

theorem castMatrix_exact {fp : Fp} {opt : Option Options} {A : Mat} {x : Vals} {N : ℕ} {W : VC}
    {v : ℕ → ℚ} (hnz : SLIP_matrix_nnz true (some A) = .ok (N : ℤ)) (hAx : A.x = some x)
    (hty : x.ty = A.type) (hs : A.scale ≠ 0) (hx : ∀ k : ℕ, k < N → A.val k = some (v k))
    (hE : CastOk opt A.type W.ty N v) (hz : A.type = .mpz → W.ty = .mpz → A.scale = 1) :
    ∃ (y : Arr W.El) (s' : ℚ), slip_cast_matrix fp opt W.ty A = .ok (some (W.mk y), s') ∧ s' ≠ 0 ∧
      ∀ k : ℕ, k < N → (W.mk y).val s' k = some (v k) := by
  have hx' : ∀ k : ℕ, k < N → x.val A.scale k = some (v k) := fun k hk => by
    have := hx k hk
    unfold Mat.val at this
    rw [hAx] at this
    exact this
  unfold slip_cast_matrix
  rw [hnz]
  simp only [ok_bind]
  by_cases he : W.ty = A.type
  · have hok : W.ty.ok = true := by cases W <;> rfl
    have hal : allocate .dense W.ty (N : ℤ) 1 (N : ℤ) (decide (W.ty = A.type)) true = .ok
        { m := N, n := 1, nzmax := max ((N : ℤ) * 1) 1, nz := 0, kind := .dense, type := W.ty,
          p := none, pShallow := true, i := none, iShallow := true,
          j := none, jShallow := true, x := none, xShallow := true, scale := 1 } := by
      unfold allocate
      rw [if_neg (by simp [Kind.ok, hok]), decide_eq_true he]
      rfl
    rw [hal]
    simp only [ok_bind]
    rw [if_pos he]
    obtain ⟨y, rfl⟩ := VC.exists_mk_ty x W (by rw [hty, he])
    rw [hAx]
    refine ⟨y, 1, rfl, one_ne_zero, fun k hk => ?_⟩
    rw [← hx' k hk]
    by_cases hmpz : W.ty = .mpz
    · rw [hz (by rw [← he, hmpz]) hmpz]
    · cases W <;> first | rfl | exact absurd rfl hmpz
  · have hd : decide (W.ty = A.type) = false := decide_eq_false he
    rw [hd]
    obtain ⟨c, a, e, -, -, -, -, hsc, -, hcx, hu⟩ := allocate_dense (W := W) (m := N) (n := 1) (nz := (N : ℤ))
    rw [show ((1 : ℕ) : ℤ) = 1 from rfl] at e
    rw [e]
    simp only [ok_bind]
    rw [if_neg he, hcx, hAx, hsc]
    obtain ⟨y, s', e', h1, h2, h3⟩ := cast_exact (fp := fp) (opt := opt) (W := W) (y0 := a) hs hx'
      (fun k hk => by obtain ⟨u, hu, -⟩ := hu 1 k (by omega); exact ⟨u, hu⟩) (by rw [hty]; exact hE)
    obtain ⟨y', rfl⟩ := VC.exists_mk_ty y W h1
    rw [e']
    exact ⟨y', s', rfl, h2, h3⟩

end Slip
