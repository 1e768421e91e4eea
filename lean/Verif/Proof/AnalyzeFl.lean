import Verif.Proof.Machine5
import Verif.SpecFl
import Mathlib.Data.Rat.Floor
import Mathlib.Algebra.Order.Round
import Mathlib.Data.Int.Log

/-!
# SLIP_LU_analyze with its `double` arithmetic: proofs
-/

namespace Slip
open M64

theorem dblToInt64_int {z : ℤ} (h0 : -(2 ^ 60) ≤ z) (h1 : z ≤ 2 ^ 60) : dblToInt64 (z : ℚ) = .ok z := by
  unfold dblToInt64
  rw [Int.floor_intCast, Int.ceil_intCast, ite_self, i64_eq (by omega) (by omega)]

theorem dblToInt64_nonneg {x : ℚ} (h0 : 0 ≤ x) (h1 : x ≤ 2 ^ 60) : dblToInt64 x = .ok ⌊x⌋ := by
  unfold dblToInt64
  rw [if_neg (by linarith)]
  have a : 0 ≤ ⌊x⌋ := Int.floor_nonneg.2 h0
  have b : ⌊x⌋ ≤ 2 ^ 60 := by
    have : (⌊x⌋ : ℚ) ≤ ((2 ^ 60 : ℤ) : ℚ) := (Int.floor_le x).trans (by push_cast; exact h1)
    exact_mod_cast this
  exact i64_eq (by omega) (by omega)

theorem malloc64_eq {v : ℤ} (h0 : 0 ≤ v) (h1 : v < 2 ^ 61) : malloc64 v = .ok (malloc Int v) := by
  unfold malloc64
  rw [if_pos ⟨h0, by omega⟩]

theorem ceil_half (z : ℤ) : ⌈(1 / 2 * z : ℚ)⌉ = (z + 1) / 2 := by
  rw [Int.ceil_eq_iff]
  obtain ⟨k, h | h⟩ := Int.even_or_odd' z
  · subst h
    rw [show (2 * k + 1) / 2 = k by omega]
    push_cast
    constructor <;> linarith
  · subst h
    rw [show (2 * k + 1 + 1) / 2 = k + 1 by omega]
    push_cast
    constructor <;> linarith

/-- The last two tests, when the two estimates are equal. -/
theorem bump_eq {n v : ℤ} (hn : 0 ≤ n) (hn29 : n ≤ 2 ^ 29) (h0 : 0 ≤ v) : (do
      let lnz ← (if v < n then i64 (v + n) else pure v)
      let unz ← (if v < n then i64 (v + n) else pure v)
      pure (lnz, unz) : C (Int × Int)) =
    .ok (if v < n then v + n else v, if v < n then v + n else v) := by
  have key : (if v < n then i64 (v + n) else pure v) = .ok (if v < n then v + n else v) := by
    by_cases h : v < n
    · rw [if_pos h, if_pos h, i64_eq (by omega) (by omega)]
    · rw [if_neg h, if_neg h]; rfl
  rw [key, ok_bind, ok_bind]
  rfl

/-- The comparison with `n*n`, and the halving. -/
theorem clampFl_test {D : Doubles} (hD : D.Ok) {n nz : ℤ} (hn : 0 ≤ n) (hn29 : n ≤ 2 ^ 29) (h0 : 0 ≤ nz)
    (h1 : nz ≤ 2 ^ 62) : ∃ v, (if D.rnd nz > D.rnd (D.rnd n * D.rnd n) then do
      let nnz ← dblToInt64 ⌈D.rnd (D.rnd (1 / 2 * D.rnd n) * D.rnd n)⌉
      pure (nnz, nnz)
    else pure (nz, nz) : C (Int × Int)) = .ok (v, v) ∧ 0 ≤ v ∧ (v - n * n) * 2 ^ 50 ≤ n * n ∧
      (n * n ≤ 2 ^ 52 → v = if nz > n * n then (n * n + 1) / 2 else nz) := by
  have hnn0 : 0 ≤ n * n := mul_nonneg hn hn
  have hnn : n * n ≤ 2 ^ 58 := by nlinarith
  have rn : D.rnd n = n := hD.int n hn (by omega)
  rw [rn, hD.half n hn (by omega), show (1 / 2 * (n : ℚ) * n) = 1 / 2 * ((n * n : ℤ) : ℚ) by push_cast; ring,
    show (n : ℚ) * n = ((n * n : ℤ) : ℚ) by push_cast; ring]
  generalize n * n = m at *
  by_cases hm : m ≤ 2 ^ 52
  · rw [hD.int m hnn0 (by omega), hD.half m hnn0 (by omega), ceil_half]
    have hc : (D.rnd nz > (m : ℚ)) ↔ nz > m := by
      by_cases hz : nz ≤ 2 ^ 53
      · rw [hD.int nz h0 hz, gt_iff_lt, Int.cast_lt]
      · have hz' : (2 ^ 53 : ℚ) + 1 ≤ nz := by
          have : (2 ^ 53 + 1 : ℤ) ≤ nz := by omega
          exact_mod_cast this
        have hz2 : (nz : ℚ) ≤ 2 ^ 62 := by exact_mod_cast h1
        have hm' : (m : ℚ) ≤ 2 ^ 52 := by exact_mod_cast hm
        have := hD.rel nz (by linarith) (by linarith)
        have h3 := (abs_le.1 (le_refl |D.rnd nz - nz|)).1
        constructor
        · intro _; omega
        · intro _
          nlinarith
    by_cases hg : nz > m
    · rw [if_pos (hc.2 hg), dblToInt64_int (by omega) (by omega), ok_bind]
      exact ⟨_, rfl, by omega, by omega, fun _ => by rw [if_pos hg]⟩
    · rw [if_neg (mt hc.1 hg)]
      exact ⟨_, rfl, h0, by omega, fun _ => by rw [if_neg hg]⟩
  · have mq : (2 ^ 52 : ℚ) ≤ m := by
      have : (2 ^ 52 : ℤ) ≤ m := by omega
      exact_mod_cast this
    have mq2 : (m : ℚ) ≤ 2 ^ 58 := by exact_mod_cast hnn
    have e1 := hD.rel m (by linarith) (by linarith)
    have e2 := hD.rel (1 / 2 * m) (by linarith) (by linarith)
    by_cases hg : D.rnd nz > D.rnd m
    · rw [if_pos hg]
      have a2 := abs_le.1 (le_refl |D.rnd (1 / 2 * m) - 1 / 2 * m|)
      have b1 : (2 ^ 40 : ℚ) ≤ D.rnd (1 / 2 * m) := by linarith
      have b2 : D.rnd (1 / 2 * m) ≤ m - 1 := by linarith
      have c1 : 0 ≤ ⌈D.rnd (1 / 2 * m)⌉ := Int.ceil_nonneg (by linarith)
      have c2 : ⌈D.rnd (1 / 2 * m)⌉ ≤ m := Int.ceil_le.2 (by linarith)
      rw [dblToInt64_int (by omega) (by omega), ok_bind]
      exact ⟨_, rfl, c1, by omega, fun h => absurd h hm⟩
    · rw [if_neg hg]
      refine ⟨_, rfl, h0, ?_, fun h => absurd h hm⟩
      by_cases hz : nz ≤ m
      · nlinarith
      · have hz' : (m : ℚ) ≤ nz := by exact_mod_cast (by omega : m ≤ nz)
        have hz2 : (nz : ℚ) ≤ 2 ^ 62 := by exact_mod_cast h1
        have e3 := hD.rel nz (by linarith) (by linarith)
        have a1 := abs_le.1 (le_refl |D.rnd m - m|)
        have a3 := abs_le.1 (le_refl |D.rnd nz - nz|)
        have : ((nz : ℚ) - m) * 2 ^ 50 ≤ m := by linarith
        exact_mod_cast this

/-- The estimates after the safety margin. -/
theorem clampFl_spec {D : Doubles} (hD : D.Ok) {n nz : ℤ} (hn : 0 ≤ n) (hn29 : n ≤ 2 ^ 29) (h0 : 0 ≤ nz)
    (h1 : nz ≤ 2 ^ 62) : ∃ v, clampFl D.rnd n nz nz = .ok (v, v) ∧ n ≤ v ∧
      (v - n * n) * 2 ^ 50 ≤ n * n ∧ (n * n ≤ 2 ^ 52 → clampNnz n nz nz = (v, v)) := by
  obtain ⟨v, e, v0, v1, v2⟩ := clampFl_test hD hn hn29 h0 h1
  refine ⟨if v < n then v + n else v, ?_, ?_, ?_, ?_⟩
  · unfold clampFl
    rw [e, ok_bind]
    exact bump_eq hn hn29 v0
  · by_cases h : v < n
    · rw [if_pos h]; omega
    · rw [if_neg h]; omega
  · by_cases h : v < n
    · rw [if_pos h]
      by_cases hn1 : n = 1
      · subst hn1; omega
      · have h2 : 2 ≤ n := by omega
        have : 2 * n ≤ n * n := by nlinarith
        have : (v + n - n * n) ≤ 0 := by omega
        nlinarith
    · rw [if_neg h]; exact v1
  · intro hm
    rw [v2 hm]
    unfold clampNnz
    by_cases h : nz > n * n
    · simp only [if_pos h]
    · simp only [if_neg h]

/-- The ordering part: its result is that of the exact model up to the rounding of AMD's estimate. -/
theorem analyzeOrderFl_spec {D : Doubles} (hD : D.Ok) {O : Orderings} {opt : Option Options} {n : ℕ}
    (hO : AmdOk O opt n) (hn29 : (n : ℤ) ≤ 2 ^ 29) {A : Mat} (hk : A.kind = .csc) (hn : A.n = n)
    (hp : IsPattern n (deref A.p) (deref A.i)) (hi : A.i ≠ none) :
    ∃ q nz nz', analyzeOrderFl D O A opt = .ok (q, nz') ∧
      analyzeBody O A opt = .ok ⟨q, (clampNnz n nz nz).1, (clampNnz n nz nz).2⟩ ∧
      0 ≤ nz' ∧ nz' ≤ 2 ^ 62 ∧ (nz ≤ 2 ^ 52 ∨ optOrder opt ≠ .amd → nz' = nz) ∧
      (optOrder opt = .amd → 2 * nz ≤ n * (n - 1)) := by
  obtain ⟨z, hz, z0, z1, hzg⟩ := nnz_le hk hn hp
  have hnn : (n : Int) * n ≤ 2 ^ 58 := by nlinarith
  rw [show (n : ℤ) * (n - 1) = n * n - n by ring]
  unfold analyzeOrderFl analyzeBody
  dsimp only
  rw [hz, ok_bind, ok_bind, hn, i64_eq (by omega) (by omega), ok_bind,
    show malloc64 ((n : ℤ) + 1) = .ok (malloc Int ((n : ℤ) + 1)) from malloc64_eq (by omega) (by omega), ok_bind]
  cases ho : optOrder opt with
  | none =>
    obtain ⟨q, e, -⟩ := fillLoop (m := (n : ℤ) + 1) (a := malloc Int ((n : ℤ) + 1))
      (g := fun i => .ok i) (f := fun i => i) (by omega) (by rw [length_malloc]; omega) (fun _ _ _ => rfl)
    simp only [ok_bind] at e
    refine ⟨q, 10 * z, 10 * z, ?_, ?_, by omega, by omega, fun _ => rfl, fun h => by cases h⟩
    · dsimp only
      rw [e, ok_bind, i64_eq (by omega) (by omega), ok_bind]; rfl
    · dsimp only
      rw [e, ok_bind]; rfl
  | amd =>
    obtain ⟨hn0, hM⟩ := hO ho
    have hpp : A.p = some (deref A.p) := by
      cases hAp : A.p with
      | none => have := hp.p0; rw [hAp] at this; simp [deref, Slip.get] at this
      | some p => rfl
    have hsq : Amd.SquarePattern n (deref A.p) (deref A.i) := ⟨hp.p0, fun j hj => by
      obtain ⟨a, b, h1, h2, h3, h4, -⟩ := hp.col j hj
      exact ⟨a, b, h1, h2, h3, h4⟩⟩
    have hii : A.i = some (deref A.i) := by
      cases hAi : A.i with
      | none => exact absurd hAi hi
      | some p => rfl
    obtain ⟨st, q, lnz, e, h⟩ := Amd.amd_order_pattern (ar := Arith.bits64) (P := malloc Int ((n : ℤ) + 1))
      ⟨true, true, true⟩ (O.amdKnobs n) (Amd.room_bits64 (by omega) hn29) hn0 hsq (by rw [length_malloc]; omega)
    have e' : Amd.amd_order (ar := Arith.exact) n (deref A.p) (deref A.i) (malloc Int ((n : ℤ) + 1))
        ⟨true, true, true⟩ (O.amdKnobs n) = .ok (st, q, lnz) := by
      rw [← (Amd.amd_order_le ..).eq (by rw [e]; intro h; cases h), e]
    have r64 : analyzeAmd (ar := Arith.bits64) O A (malloc Int ((n : ℤ) + 1)) = .ok (q, lnz) := by
      unfold analyzeAmd
      rw [hpp, hii]
      dsimp only
      rw [hn, hM, e, ok_bind]; rfl
    have rex : analyzeAmd (ar := Arith.exact) O A (malloc Int ((n : ℤ) + 1)) = .ok (q, lnz) := by
      unfold analyzeAmd
      rw [hpp, hii]
      dsimp only
      rw [hn, hM, e', ok_bind]; rfl
    have hl : 0 ≤ lnz ∧ 2 * lnz ≤ n * n - n := by
      rcases h with ⟨-, -, -, h, h'⟩ | ⟨h1, -⟩
      · rw [show (n : ℤ) * (n - 1) = n * n - n by ring] at h'
        exact ⟨h, h'⟩
      · exact absurd ⟨rfl, rfl, fun _ => rfl⟩ h1
    have hr := hD.amdRel A lnz hl.1
    have ha := abs_le.1 (le_refl |D.amdLnz A lnz - lnz|)
    have l0 : (0 : ℚ) ≤ lnz := by exact_mod_cast hl.1
    have l1 : (lnz : ℚ) ≤ 2 ^ 58 := by exact_mod_cast (by omega : lnz ≤ 2 ^ 58)
    have f0 : 0 ≤ D.amdLnz A lnz := by linarith
    have f1 : D.amdLnz A lnz ≤ 2 ^ 60 := by linarith
    have g0 : 0 ≤ ⌊D.amdLnz A lnz⌋ := Int.floor_nonneg.2 f0
    have g1 : ⌊D.amdLnz A lnz⌋ ≤ 2 ^ 60 := by
      have : (⌊D.amdLnz A lnz⌋ : ℚ) ≤ ((2 ^ 60 : ℤ) : ℚ) := (Int.floor_le _).trans (by push_cast; exact f1)
      exact_mod_cast this
    refine ⟨q, lnz, ⌊D.amdLnz A lnz⌋, ?_, ?_, g0, by omega, ?_, fun _ => hl.2⟩
    · dsimp only
      rw [r64, ok_bind]
      dsimp only
      rw [dblToInt64_nonneg f0 f1, ok_bind]; rfl
    · dsimp only
      rw [rex, ok_bind]; rfl
    · rintro (hs | hs)
      · rw [hD.amdExact A lnz (by omega) hs, Int.floor_intCast]
      · exact absurd rfl hs
  | colamd =>
    obtain ⟨q, A2, e1, e2, l1, l2, hrect⟩ := colamd_copy hp hzg z0
    obtain ⟨q', eq', -⟩ := Colamd.colamd_ok (ar := Arith.exact) (K := O.knobs n)
      (Alen := 2 * z + 6 * ((n : ℤ) + 1) + 6 * ((n : ℤ) + 1) + n) (by omega)
      (by rw [l2]) hrect (by omega) (fun _ _ _ => rfl)
    refine ⟨q', 10 * z, 10 * z, ?_, ?_, by omega, by omega, fun _ => rfl, fun h => by cases h⟩
    · dsimp only
      rw [i64_eq (by omega) (by omega), ok_bind, i64_eq (by omega) (by omega), ok_bind,
        i64_eq (by omega) (by omega), ok_bind, i64_eq (by omega) (by omega), ok_bind,
        i64_eq (by omega) (by omega), ok_bind, malloc64_eq (by omega) (by omega), ok_bind,
        e1, ok_bind, e2, ok_bind,
        colamd64_eq (by omega) (by rw [l2]) hrect (by omega) (by omega), eq', ok_bind,
        i64_eq (by omega) (by omega), ok_bind]
      rfl
    · dsimp only
      rw [e1, ok_bind, e2, ok_bind, eq', ok_bind]
      rfl

/-- Rounding a positive number to 53 significant bits (a half rounds up). -/
def rnd53 (x : ℚ) : ℚ :=
  round (x * 2 ^ (52 - Int.log 2 x)) * 2 ^ (Int.log 2 x - 52)

theorem rnd53_err {x : ℚ} (hx : 0 < x) : |rnd53 x - x| * 2 ^ 53 ≤ x := by
  unfold rnd53
  set e := Int.log 2 x
  have hp : (0 : ℚ) < 2 ^ (e - 52) := zpow_pos (by norm_num) _
  have hm : (2 : ℚ) ^ (52 - e) * 2 ^ (e - 52) = 1 := by
    rw [← zpow_add₀ (by norm_num), show 52 - e + (e - 52) = 0 by ring, zpow_zero]
  have h1 := abs_sub_round (x * 2 ^ (52 - e))
  have h2 : (2 : ℚ) ^ e ≤ x := by
    have := Int.zpow_log_le_self (b := 2) (by norm_num) hx
    exact_mod_cast this
  have h3 : (round (x * 2 ^ (52 - e)) : ℚ) * 2 ^ (e - 52) - x =
      -((x * 2 ^ (52 - e) - round (x * 2 ^ (52 - e))) * 2 ^ (e - 52)) := by
    rw [sub_mul, mul_assoc x, hm]; ring
  rw [h3, abs_neg, abs_mul, abs_of_pos hp]
  have h4 : (2 : ℚ) ^ (e - 52) * 2 ^ 53 = 2 * 2 ^ e := by
    rw [← zpow_natCast, ← zpow_add₀ (by norm_num), show e - 52 + ((53 : ℕ) : ℤ) = 1 + e by push_cast; ring,
      zpow_add₀ (by norm_num), zpow_one]
  calc _ = |x * 2 ^ (52 - e) - round (x * 2 ^ (52 - e))| * (2 ^ (e - 52) * 2 ^ 53) := by ring
    _ ≤ 1 / 2 * (2 * 2 ^ e) := by
        rw [h4]
        exact mul_le_mul_of_nonneg_right h1 (mul_nonneg (by norm_num) (zpow_pos (by norm_num) _).le)
    _ ≤ x := by linarith

/-- Numbers with at most 53 bits are not changed. -/
theorem rnd53_exact {x : ℚ} {k : ℤ} (hk : x * 2 ^ (52 - Int.log 2 x) = k) : rnd53 x = x := by
  unfold rnd53
  rw [hk, round_intCast, ← hk, mul_assoc, ← zpow_add₀ (by norm_num),
    show 52 - Int.log 2 x + (Int.log 2 x - 52) = 0 by ring, zpow_zero, mul_one]

theorem rnd53_half {z : ℤ} (h0 : 0 ≤ z) (h1 : z ≤ 2 ^ 53) : rnd53 (1 / 2 * z) = 1 / 2 * z := by
  by_cases hz : z = 0
  · subst hz; simp [rnd53]
  have hz' : 0 < (1 / 2 * z : ℚ) := by
    have : (0 : ℚ) < z := by exact_mod_cast (by omega : 0 < z)
    linarith
  by_cases he : z = 2 ^ 53
  · subst he
    refine rnd53_exact (k := 2 ^ 52) ?_
    have : Int.log 2 (1 / 2 * ((2 ^ 53 : ℤ) : ℚ)) = 52 := by
      rw [show (1 / 2 * ((2 ^ 53 : ℤ) : ℚ)) = ((2 ^ 52 : ℕ) : ℚ) by norm_num, Int.log_natCast,
        Nat.log_pow (by norm_num)]
      rfl
    rw [this]; norm_num
  · have hl : Int.log 2 (1 / 2 * z : ℚ) ≤ 51 := by
      have : Int.log 2 (1 / 2 * z : ℚ) < 52 := by
        rw [← Int.lt_zpow_iff_log_lt (by norm_num) hz']
        have : (z : ℚ) < 2 ^ 53 := by exact_mod_cast (by omega : z < 2 ^ 53)
        have e : ((2 : ℕ) : ℚ) ^ (52 : ℤ) = 2 ^ 52 := by norm_num
        rw [e]; linarith
      omega
    obtain ⟨t, ht⟩ := Int.eq_ofNat_of_zero_le (show 0 ≤ 51 - Int.log 2 (1 / 2 * z : ℚ) by omega)
    refine rnd53_exact (k := z * 2 ^ t) ?_
    rw [show 52 - Int.log 2 (1 / 2 * z : ℚ) = 1 + t by omega, zpow_add₀ (by norm_num)]
    push_cast
    rw [zpow_natCast]
    ring

theorem rnd53_int {z : ℤ} (h0 : 0 ≤ z) (h1 : z ≤ 2 ^ 53) : rnd53 z = z := by
  by_cases hz : z = 0
  · subst hz; simp [rnd53]
  have hz' : 0 < (z : ℚ) := by exact_mod_cast (by omega : 0 < z)
  by_cases he : z = 2 ^ 53
  · subst he
    refine rnd53_exact (k := 2 ^ 52) ?_
    have : Int.log 2 (((2 ^ 53 : ℤ) : ℚ)) = 53 := by
      rw [show (((2 ^ 53 : ℤ) : ℚ)) = ((2 ^ 53 : ℕ) : ℚ) by norm_num, Int.log_natCast,
        Nat.log_pow (by norm_num)]
      rfl
    rw [this]; norm_num
  · have hl : Int.log 2 (z : ℚ) ≤ 52 := by
      have : Int.log 2 (z : ℚ) < 53 := by
        rw [← Int.lt_zpow_iff_log_lt (by norm_num) hz']
        have : (z : ℚ) < 2 ^ 53 := by exact_mod_cast (by omega : z < 2 ^ 53)
        have e : ((2 : ℕ) : ℚ) ^ (53 : ℤ) = 2 ^ 53 := by norm_num
        rw [e]; linarith
      omega
    obtain ⟨t, ht⟩ := Int.eq_ofNat_of_zero_le (show 0 ≤ 52 - Int.log 2 (z : ℚ) by omega)
    refine rnd53_exact (k := z * 2 ^ t) ?_
    rw [ht]
    push_cast
    rfl

/-- The assumptions on `double` hold of rounding to 53 bits. -/
theorem rnd53_ok : Doubles.Ok ⟨rnd53, fun _ e => if e ≤ 2 ^ 52 then e else rnd53 e⟩ where
  rel x h0 _ := by
    have := rnd53_err (show 0 < x by linarith)
    have := abs_nonneg (rnd53 x - x)
    show |rnd53 x - x| * 2 ^ 52 ≤ x
    linarith
  int z h0 h1 := rnd53_int h0 h1
  half z h0 h1 := rnd53_half h0 h1
  amdRel A e h0 := by
    dsimp only
    by_cases h : e ≤ 2 ^ 52
    · rw [if_pos h]
      have : (0 : ℚ) ≤ e := by exact_mod_cast h0
      simpa using this
    · rw [if_neg h]
      have := rnd53_err (show (0 : ℚ) < e by exact_mod_cast (by omega : 0 < e))
      have := abs_nonneg (rnd53 e - e)
      linarith
  amdExact A e _ h := by dsimp only; rw [if_pos h]

end Slip
