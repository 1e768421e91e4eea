import Verif.SpecMat
import Verif.Proof.Convert

/-!
# The rounding used for MPFR numbers is correct rounding

`roundPrec`, by which the model describes MPFR, returns a number with `prec` bits: the nearest one, or
the neighbour in the direction asked for. Together with `C35_backslash_mpfr` this says how far the
result of `SLIP_backslash` can be from the exact solution.
-/

namespace Slip

/-- Rounding to nearest: no integer is closer. -/
theorem roundInt_nearest {mode : ℤ} (hm : mode = 0) (x : ℚ) (z : ℤ) :
    |(roundInt mode x : ℚ) - x| ≤ |(z : ℚ) - x| := by
  subst hm
  have h1 := Int.floor_le x
  have h2 := Int.lt_floor_add_one x
  have key : ∀ w : ℤ, (w = ⌊x⌋ ∧ x - ⌊x⌋ ≤ 1 / 2 ∨ w = ⌊x⌋ + 1 ∧ 1 / 2 ≤ x - ⌊x⌋) →
      |(w : ℚ) - x| ≤ |(z : ℚ) - x| := by
    intro w hw
    rcases le_or_gt z ⌊x⌋ with hz | hz
    · have hz' : (z : ℚ) ≤ ⌊x⌋ := by exact_mod_cast hz
      rw [abs_of_nonpos (by linarith : (z : ℚ) - x ≤ 0)]
      rcases hw with ⟨rfl, h⟩ | ⟨rfl, h⟩
      · rw [abs_of_nonpos (by linarith)]; linarith
      · push_cast; rw [abs_of_nonneg (by linarith)]; linarith
    · have hz' : (⌊x⌋ : ℚ) + 1 ≤ z := by exact_mod_cast hz
      rw [abs_of_nonneg (by linarith : (0 : ℚ) ≤ (z : ℚ) - x)]
      rcases hw with ⟨rfl, h⟩ | ⟨rfl, h⟩
      · rw [abs_of_nonpos (by linarith)]; linarith
      · push_cast; rw [abs_of_nonneg (by linarith)]; linarith
  apply key
  unfold roundInt
  simp only [show ¬ ((0 : ℤ) = 1) by decide, show ¬ ((0 : ℤ) = 2) by decide,
    show ¬ ((0 : ℤ) = 3) by decide, show ¬ ((0 : ℤ) = 4) by decide, if_false]
  split
  · left; exact ⟨rfl, by linarith⟩
  · split
    · right; exact ⟨rfl, by linarith⟩
    · split
      · left; exact ⟨rfl, by linarith⟩
      · right; exact ⟨rfl, by linarith⟩

/-- Every mode returns one of the two neighbouring integers. -/
theorem roundInt_neighbour (mode : ℤ) (x : ℚ) : ⌊x⌋ ≤ roundInt mode x ∧ roundInt mode x ≤ ⌈x⌉ := by
  have h : ⌊x⌋ ≤ ⌈x⌉ := Int.floor_le_ceil x
  have h' : ∀ c : ℚ, 0 < c → c ≤ x - ⌊x⌋ → ⌊x⌋ + 1 ≤ ⌈x⌉ := by
    intro c hc h1
    have : (⌊x⌋ : ℤ) < ⌈x⌉ := Int.lt_ceil.2 (by linarith)
    omega
  unfold roundInt
  split_ifs <;> first
    | exact ⟨le_rfl, h⟩
    | exact ⟨h, le_rfl⟩
    | (rename_i h1 h2 h3 h4 h5 h6
       exact ⟨by omega, h' (1 / 2) (by norm_num) (by linarith)⟩)

theorem log_bounds {q : ℚ} (hq : q ≠ 0) :
    (2 : ℚ) ^ Int.log 2 |q| ≤ |q| ∧ |q| < (2 : ℚ) ^ (Int.log 2 |q| + 1) := by
  have h := abs_pos.2 hq
  exact ⟨by exact_mod_cast Int.zpow_log_le_self (by norm_num : 1 < 2) h,
    by exact_mod_cast Int.lt_zpow_succ_log_self (by norm_num : 1 < 2) |q|⟩

/-- The result has at most `prec` bits. -/
theorem C35_round_isFloat {p : ℕ} (hp : 0 < p) (mode : ℤ) (q : ℚ) : IsFloat p (roundPrec p mode q) := by
  unfold roundPrec
  split
  · exact ⟨0, 0, by simp, by simp⟩
  rename_i hq
  obtain ⟨-, h2⟩ := log_bounds hq
  set L := Int.log 2 |q|
  have hu : (0 : ℚ) < (2 : ℚ) ^ (L + 1 - p) := zpow_pos (by norm_num) _
  have hx : |q / (2 : ℚ) ^ (L + 1 - p)| < ((2 ^ p : ℤ) : ℚ) := by
    rw [abs_div, abs_of_pos hu, div_lt_iff₀ hu]
    push_cast
    rw [← zpow_natCast, ← zpow_add₀ (by norm_num : (2 : ℚ) ≠ 0)]
    rwa [show (p : ℤ) + (L + 1 - p) = L + 1 by ring]
  obtain ⟨n1, n2⟩ := roundInt_neighbour mode (q / (2 : ℚ) ^ (L + 1 - p))
  rw [abs_lt] at hx
  have a1 : -(2 ^ p : ℤ) ≤ ⌊q / (2 : ℚ) ^ (L + 1 - p)⌋ := Int.le_floor.2 (by push_cast at hx ⊢; linarith)
  have a2 : ⌈q / (2 : ℚ) ^ (L + 1 - p)⌉ ≤ (2 ^ p : ℤ) := Int.ceil_le.2 (by linarith)
  dsimp only
  set r := roundInt mode (q / (2 : ℚ) ^ (L + 1 - p))
  have h2p : (1 : ℤ) < 2 ^ p := by
    exact_mod_cast Nat.one_lt_two_pow (by omega)
  rcases lt_or_eq_of_le (abs_le.2 ⟨by linarith, by linarith⟩ : |r| ≤ 2 ^ p) with h | h
  · exact ⟨r, L + 1 - p, h, rfl⟩
  · rcases (abs_eq (by positivity)).1 h with h | h
    · refine ⟨1, L + 1, by simpa using h2p, ?_⟩
      rw [h]; push_cast
      rw [← zpow_natCast, ← zpow_add₀ (by norm_num : (2 : ℚ) ≠ 0)]
      simp
    · refine ⟨-1, L + 1, by simpa using h2p, ?_⟩
      rw [h]; push_cast
      rw [← zpow_natCast, neg_mul, ← zpow_add₀ (by norm_num : (2 : ℚ) ≠ 0)]
      simp

/-- Rounding to nearest (the default): no number with `prec` bits is closer. -/
theorem C35_round_nearest {p : ℕ} (hp : 0 < p) (q f : ℚ) (hf : IsFloat p f) :
    |roundPrec p 0 q - q| ≤ |f - q| := by
  unfold roundPrec
  split
  · rename_i h; rw [h]; simp
  rename_i hq
  obtain ⟨h1, h2⟩ := log_bounds hq
  set L := Int.log 2 |q|
  have hu : (0 : ℚ) < (2 : ℚ) ^ (L + 1 - p) := zpow_pos (by norm_num) _
  dsimp only
  set u := (2 : ℚ) ^ (L + 1 - p)
  have near : ∀ z : ℤ, |(roundInt 0 (q / u) : ℚ) * u - q| ≤ |(z : ℚ) * u - q| := by
    intro z
    have := roundInt_nearest rfl (q / u) z
    have e : ∀ w : ℤ, |(w : ℚ) * u - q| = |(w : ℚ) - q / u| * u := fun w => by
      rw [← abs_of_pos hu, ← abs_mul, sub_mul, abs_of_pos hu, div_mul_cancel₀ _ hu.ne']
    rw [e, e]
    exact mul_le_mul_of_nonneg_right this hu.le
  obtain ⟨m, e, hm, rfl⟩ := hf
  have hm' : |(m : ℚ)| < (2 : ℚ) ^ (p : ℤ) := by rw [zpow_natCast]; exact_mod_cast hm
  rcases le_or_gt (L + 1 - p) e with he | he
  · obtain ⟨d, hd⟩ := Int.eq_ofNat_of_zero_le (sub_nonneg.2 he)
    have := near (m * 2 ^ d)
    have e2 : ((m * 2 ^ d : ℤ) : ℚ) * u = m * (2 : ℚ) ^ e := by
      push_cast
      rw [mul_assoc, ← zpow_natCast, ← zpow_add₀ (by norm_num : (2 : ℚ) ≠ 0)]
      congr 2; omega
    rwa [e2] at this
  · have hlt : |(m : ℚ) * (2 : ℚ) ^ e| ≤ (2 : ℚ) ^ L := by
      rw [abs_mul, abs_of_pos (zpow_pos (by norm_num) _ : (0 : ℚ) < (2 : ℚ) ^ e)]
      calc |(m : ℚ)| * (2 : ℚ) ^ e ≤ (2 : ℚ) ^ (p : ℤ) * (2 : ℚ) ^ e :=
            mul_le_mul_of_nonneg_right hm'.le (zpow_pos (by norm_num) _).le
        _ = (2 : ℚ) ^ ((p : ℤ) + e) := by rw [zpow_add₀ (by norm_num : (2 : ℚ) ≠ 0)]
        _ ≤ (2 : ℚ) ^ L := zpow_le_zpow_right₀ (by norm_num) (by omega)
    have hL : (2 : ℚ) ^ (p - 1) * u = (2 : ℚ) ^ L := by
      rw [← zpow_natCast, ← zpow_add₀ (by norm_num : (2 : ℚ) ≠ 0)]
      congr 1; push_cast [hp]; omega
    have far : |q| - (2 : ℚ) ^ L ≤ |(m : ℚ) * (2 : ℚ) ^ e - q| := by
      have := abs_sub_abs_le_abs_sub q (m * (2 : ℚ) ^ e)
      rw [abs_sub_comm] at this
      linarith
    refine le_trans ?_ far
    rcases le_or_gt 0 q with h0 | h0
    · have := near (2 ^ (p - 1))
      push_cast at this
      rw [hL] at this
      rw [abs_of_nonneg h0] at h1 ⊢
      rw [abs_of_nonpos (by linarith : (2 : ℚ) ^ L - q ≤ 0)] at this
      linarith
    · have := near (-2 ^ (p - 1))
      push_cast at this
      rw [neg_mul, hL] at this
      rw [abs_of_neg h0] at h1 ⊢
      rw [abs_of_nonneg (by linarith : (0 : ℚ) ≤ -(2 : ℚ) ^ L - q)] at this
      linarith

/-- The directed modes: towards zero (1), up (2), down (3), away from zero (4). -/
theorem C35_round_directed (p : ℤ) (q : ℚ) :
    |roundPrec p 1 q| ≤ |q| ∧ q ≤ roundPrec p 2 q ∧ roundPrec p 3 q ≤ q ∧ |q| ≤ |roundPrec p 4 q| := by
  unfold roundPrec
  split
  · rename_i h; simp [h]
  rename_i hq
  dsimp only
  have hu : (0 : ℚ) < (2 : ℚ) ^ (Int.log 2 |q| + 1 - p) := zpow_pos (by norm_num) _
  set u := (2 : ℚ) ^ (Int.log 2 |q| + 1 - p)
  have eq : q = q / u * u := by rw [div_mul_cancel₀ _ hu.ne']
  have f1 : (⌊q / u⌋ : ℚ) * u ≤ q := by
    nth_rewrite 2 [eq]; exact mul_le_mul_of_nonneg_right (Int.floor_le _) hu.le
  have f2 : q ≤ (⌈q / u⌉ : ℚ) * u := by
    nth_rewrite 1 [eq]; exact mul_le_mul_of_nonneg_right (Int.le_ceil _) hu.le
  have s1 : 0 ≤ q / u ↔ 0 ≤ q :=
    ⟨fun h => by rw [eq]; exact mul_nonneg h hu.le, fun h => div_nonneg h hu.le⟩
  refine ⟨?_, by simpa [roundInt] using f2, by simpa [roundInt] using f1, ?_⟩
  · simp only [roundInt, if_true]
    split
    · rename_i h
      have h0 : (0 : ℚ) ≤ ⌊q / u⌋ := by exact_mod_cast Int.floor_nonneg.2 h
      rw [abs_of_nonneg (by positivity), abs_of_nonneg (s1.1 h)]
      exact f1
    · rename_i h
      have h0 : (⌈q / u⌉ : ℚ) ≤ 0 := by exact_mod_cast Int.ceil_le.2 (by push_cast; linarith)
      rw [abs_of_nonpos (mul_nonpos_of_nonpos_of_nonneg h0 hu.le),
        abs_of_nonpos (by by_contra hh; exact h (s1.2 (by linarith)))]
      linarith
  · simp only [roundInt, show ¬ ((4 : ℤ) = 1) by decide, show ¬ ((4 : ℤ) = 2) by decide,
      show ¬ ((4 : ℤ) = 3) by decide, if_true, if_false]
    split
    · rename_i h
      rw [abs_of_nonneg (s1.1 h), abs_of_nonneg ((s1.1 h).trans f2)]
      exact f2
    · rename_i h
      have hq0 : q ≤ 0 := by by_contra hh; exact h (s1.2 (by linarith))
      rw [abs_of_nonpos hq0, abs_of_nonpos (f1.trans hq0)]
      linarith

example : roundPrec 3 0 (1 / 10) = 6 / 64 ∧ roundPrec 3 2 (1 / 10) = 7 / 64 := by decide +kernel

end Slip
