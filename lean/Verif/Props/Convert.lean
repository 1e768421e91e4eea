import Verif.Proof.Convert

/-!
# Properties C21, C22, C24, C25, C31, C32: value conversion, counting, options
-/

namespace Slip

/-! ## C25 -/

/-- C25: for every count array `cnt[0..n-1]`, `slip_cumsum` makes `p[j]` the sum of the counts before
`j`, for `j = 0..n`, and overwrites the counts with `p[0..n-1]`; nothing else changes. -/
theorem C25_cumsum {n : ℕ} {p c : Arr Int} {cnt : ℕ → ℤ} (hp : n + 1 ≤ p.length)
    (hc : ∀ j : ℕ, j < n → get c j = some (cnt j)) :
    ∃ p' c', slip_cumsum p c n = .ok (p', c') ∧ p'.length = p.length ∧ c'.length = c.length ∧
      (∀ j : ℕ, j ≤ n → get p' j = some (∑ t ∈ Finset.range j, cnt t)) ∧
      (∀ j : ℕ, j < n → get c' j = some (∑ t ∈ Finset.range j, cnt t)) ∧
      (∀ j : ℤ, (n : ℤ) < j → get p' j = get p j) ∧
      (∀ j : ℤ, (n : ℤ) ≤ j → get c' j = get c j) :=
  slip_cumsum_spec hp hc

example : slip_cumsum [none, none, none, none] [some 2, some 0, some 3] 3 =
    .ok ([some 0, some 2, some 2, some 5], [some 0, some 2, some 2]) := by decide

/-! ## C21 -/

/-- C21: for every nonempty array `v` of rationals, the conversion to integers returns the least
common multiple of the denominators as scale, and every integer divided by it is the rational. -/
theorem C21_mpq_exact {n : ℕ} (hn : 0 < n) {y : Arr Int} {x : Arr ℚ} {v : ℕ → ℚ}
    (hy : ∀ k : ℕ, k < n → ∃ u, get y k = some u) (hx : ∀ k : ℕ, k < n → get x k = some (v k)) :
    ∃ (y' : Arr Int) (s : ℚ), slip_expand_mpq_array y x n = .ok (y', s) ∧ 0 < s ∧
      s = (((Finset.range n).lcm fun k => (v k).den : ℕ) : ℚ) ∧
      ∀ k : ℕ, k < n → ∃ z : ℤ, get y' k = some z ∧ (z : ℚ) / s = v k := by
  obtain ⟨y', e, -, h, -⟩ := slip_expand_mpq_array_spec hn hy hx
  have hs : (0 : ℚ) < (((Finset.range n).lcm fun k => (v k).den : ℕ) : ℚ) := by
    have : ((Finset.range n).lcm fun k => (v k).den : ℕ) ≠ 0 := by
      rw [Ne, Finset.lcm_eq_zero_iff]
      rintro ⟨k, -, hk⟩
      exact (v k).den_nz hk
    exact_mod_cast Nat.pos_of_ne_zero this
  refine ⟨y', _, e, hs, rfl, fun k hk => ?_⟩
  obtain ⟨z, g, hz⟩ := h k hk
  refine ⟨z, g, ?_⟩
  rw [hz, mul_div_assoc, div_self (ne_of_gt hs), mul_one]

example : slip_expand_mpq_array [some 0, some 0, some 0] [some (1/2), some (-2/3), some 5] 3 =
    .ok ([some 3, some (-4), some 30], 6) := by decide +kernel

/-! ## C22 -/

/-- C22, rounding: the integer that appears in the statements below is the one that the rounding mode of the options asks
for - the nearest one, and the even one of two that are equally near (mode 0, `MPFR_RNDN`); towards zero (1); up (2); down
(3); away from zero (4). -/
theorem C22_rounding (q : ℚ) :
    (|q - roundInt 0 q| ≤ 1 / 2 ∧ (|q - roundInt 0 q| = 1 / 2 → Even (roundInt 0 q))) ∧
    (|(roundInt 1 q : ℚ)| ≤ |q| ∧ |q - roundInt 1 q| < 1 ∧ 0 ≤ roundInt 1 q * q) ∧
    (q ≤ roundInt 2 q ∧ (roundInt 2 q : ℚ) < q + 1) ∧
    ((roundInt 3 q : ℚ) ≤ q ∧ q < roundInt 3 q + 1) ∧
    (|q| ≤ |(roundInt 4 q : ℚ)| ∧ |q - roundInt 4 q| < 1 ∧ 0 ≤ roundInt 4 q * q) := by
  have h1 := Int.floor_le q
  have h2 := Int.lt_floor_add_one q
  have h3 := Int.le_ceil q
  have h4 := Int.ceil_lt_add_one q
  refine ⟨?_, ?_, ⟨h3, h4⟩, ⟨h1, h2⟩, ?_⟩
  · unfold roundInt
    rw [if_neg (by decide), if_neg (by decide), if_neg (by decide), if_neg (by decide)]
    by_cases ha : q - ⌊q⌋ < 1 / 2
    · rw [if_pos ha, abs_of_nonneg (by linarith)]
      exact ⟨ha.le, fun h => absurd h ha.ne⟩
    rw [if_neg ha]
    by_cases hb : 1 / 2 < q - ⌊q⌋
    · rw [if_pos hb]
      push_cast
      rw [abs_of_nonpos (by linarith)]
      exact ⟨by linarith, fun h => absurd h (by intro h; linarith)⟩
    rw [if_neg hb]
    have he : q - ⌊q⌋ = 1 / 2 := le_antisymm (not_lt.1 hb) (not_lt.1 ha)
    by_cases hc : (2 : ℤ) ∣ ⌊q⌋
    · rw [if_pos hc, he, abs_of_nonneg (by norm_num)]
      exact ⟨le_rfl, fun _ => even_iff_two_dvd.2 hc⟩
    · rw [if_neg hc]
      push_cast
      rw [show q - ((⌊q⌋ : ℚ) + 1) = -(1 / 2) by linarith, abs_neg, abs_of_nonneg (by norm_num)]
      refine ⟨le_rfl, fun _ => ?_⟩
      rw [even_iff_two_dvd]
      omega
  · unfold roundInt
    rw [if_pos rfl]
    by_cases h : 0 ≤ q
    · rw [if_pos h]
      have hf : (0 : ℚ) ≤ ⌊q⌋ := by exact_mod_cast Int.floor_nonneg.2 h
      rw [abs_of_nonneg hf, abs_of_nonneg h, abs_of_nonneg (by linarith)]
      exact ⟨h1, by linarith, mul_nonneg hf h⟩
    · rw [if_neg h]
      have h := (not_le.1 h).le
      have hf : (⌈q⌉ : ℚ) ≤ 0 := by exact_mod_cast Int.ceil_le.2 (by simpa using h)
      rw [abs_of_nonpos hf, abs_of_nonpos h, abs_of_nonpos (by linarith)]
      exact ⟨by linarith, by linarith, mul_nonneg_of_nonpos_of_nonpos hf h⟩
  · unfold roundInt
    rw [if_neg (by decide), if_neg (by decide), if_neg (by decide), if_pos rfl]
    by_cases h : 0 ≤ q
    · rw [if_pos h]
      rw [abs_of_nonneg h, abs_of_nonneg (by linarith), abs_of_nonpos (by linarith)]
      exact ⟨h3, by linarith, mul_nonneg (by linarith) h⟩
    · rw [if_neg h]
      have h := (not_le.1 h).le
      rw [abs_of_nonpos h, abs_of_nonpos (by linarith), abs_of_nonneg (by linarith)]
      exact ⟨by linarith, by linarith, mul_nonneg_of_nonpos_of_nonpos (by linarith) h⟩

/-- C22, `double`: with a precision of at least 93 bits (the default is 128), if `v` are doubles that
do not all round to zero, and the only nonzero is not a negative last entry, the result is integers
`z` and a positive scale `s` with `z_k / s = round (10^17 v_k) / 10^17`, and the `z` have no common
factor. -/
theorem C22_double {opt : Option Options} {n : ℕ} {y : Arr Int} {x : Arr Dbl} {v : ℕ → ℚ}
    (hp : 93 ≤ optPrec opt)
    (hy : ∀ k : ℕ, k < n → ∃ u, get y k = some u)
    (hx : ∀ k : ℕ, k < n → get x k = some (.fin (v k)) ∧ IsDouble (v k))
    (hnz : ∃ k, k < n ∧ roundInt (optRound opt) (10 ^ 17 * v k) ≠ 0)
    (hlast : ¬ (roundInt (optRound opt) (10 ^ 17 * v (n - 1)) < 0 ∧
      ∀ k, k < n - 1 → roundInt (optRound opt) (10 ^ 17 * v k) = 0)) :
    ∃ (y' : Arr Int) (s : ℚ) (z : ℕ → ℤ), slip_expand_double_array opt y x n = .ok (y', s) ∧ 0 < s ∧
      (∀ k : ℕ, k < n → get y' k = some (z k) ∧
        (z k : ℚ) / s = roundInt (optRound opt) (10 ^ 17 * v k) / 10 ^ 17) ∧
      (∀ d : ℤ, (∀ k : ℕ, k < n → d ∣ z k) → IsUnit d) := by
  obtain ⟨p, hp'⟩ := Int.eq_ofNat_of_zero_le (by omega : 0 ≤ optPrec opt)
  obtain ⟨y1, e, -, g, -⟩ := slip_expand_double_array_eq (opt := opt) (v := fun k => .fin (v k)) hy
    (fun k hk => (hx k hk).1)
  have hz : ∀ k, k < n → dblToZ opt (.fin (v k)) = roundInt (optRound opt) (10 ^ 17 * v k) :=
    fun k hk => dblToZ_exact hp' (by omega) (hx k hk).2
  obtain ⟨k0, hk0, hk0'⟩ := hnz
  obtain ⟨x', s', z, e', -, -, hv, hg, hs, -⟩ := reduceGcd_spec (n := n) (s := 10 ^ 17)
    (y := fun k => roundInt (optRound opt) (10 ^ 17 * v k)) (by norm_num)
    (fun j hj => by rw [g j hj, hz j hj]) ⟨k0, hk0, hk0'⟩
  exact ⟨x', s', z, by rw [e, e'], hs.2 hlast, hv, hg⟩

/-- C22, MPFR: as `C22_double`, for numbers with at most `prec` bits, with `2^prec`. -/
theorem C22_mpfr {opt : Option Options} {n p : ℕ} {y : Arr Int} {x : Arr Dbl} {v : ℕ → ℚ}
    (hp : optPrec opt = p)
    (hy : ∀ k : ℕ, k < n → ∃ u, get y k = some u)
    (hx : ∀ k : ℕ, k < n → get x k = some (.fin (v k)) ∧
      ∃ m e : ℤ, |m| < 2 ^ p ∧ v k = m * (2 : ℚ) ^ e)
    (hnz : ∃ k, k < n ∧ roundInt (optRound opt) (2 ^ p * v k) ≠ 0)
    (hlast : ¬ (roundInt (optRound opt) (2 ^ p * v (n - 1)) < 0 ∧
      ∀ k, k < n - 1 → roundInt (optRound opt) (2 ^ p * v k) = 0)) :
    ∃ (y' : Arr Int) (s : ℚ) (z : ℕ → ℤ), slip_expand_mpfr_array opt y x n = .ok (y', s) ∧ 0 < s ∧
      (∀ k : ℕ, k < n → get y' k = some (z k) ∧
        (z k : ℚ) / s = roundInt (optRound opt) (2 ^ p * v k) / 2 ^ p) ∧
      (∀ d : ℤ, (∀ k : ℕ, k < n → d ∣ z k) → IsUnit d) := by
  obtain ⟨y1, e, -, g, -⟩ := slip_expand_mpfr_array_eq (opt := opt) (v := fun k => .fin (v k)) hy
    (fun k hk => (hx k hk).1)
  have hz : ∀ k, k < n → mpfrToZ opt (.fin (v k)) = roundInt (optRound opt) (2 ^ p * v k) :=
    fun k hk => by
      obtain ⟨-, m, e, hm, hq⟩ := hx k hk
      exact mpfrToZ_exact hp hm hq
  obtain ⟨k0, hk0, hk0'⟩ := hnz
  obtain ⟨x', s', z, e', -, -, hv, hg, hs, -⟩ := reduceGcd_spec (n := n) (s := 2 ^ p)
    (y := fun k => roundInt (optRound opt) (2 ^ p * v k)) (by positivity)
    (fun j hj => by rw [g j hj, hz j hj]) ⟨k0, hk0, hk0'⟩
  refine ⟨x', s', z, ?_, hs.2 hlast, hv, hg⟩
  rw [e, hp, Int.toNat_natCast, e']

/-- Every finite input, every precision and rounding mode, no assumption on the values: the result is
the doubly rounded `10^17 x`, reduced by a common factor; the scale is positive except when the only
nonzero is a negative last entry (negative) or there is no nonzero (zero). -/
theorem C22_double_general {opt : Option Options} {n : ℕ} {y : Arr Int} {x : Arr Dbl} {v : ℕ → ℚ}
    (hy : ∀ k : ℕ, k < n → ∃ u, get y k = some u)
    (hx : ∀ k : ℕ, k < n → get x k = some (.fin (v k))) :
    let r : ℚ → ℚ := roundPrec (optPrec opt) (optRound opt)
    let c : ℕ → ℤ := fun k => roundInt (optRound opt) (r (r (v k) * 10 ^ 17))
    ∃ (y' : Arr Int) (s : ℚ) (z : ℕ → ℤ), slip_expand_double_array opt y x n = .ok (y', s) ∧
      (∀ k : ℕ, k < n → get y' k = some (z k)) ∧
      ((∀ k, k < n → c k = 0) → s = 0 ∧ ∀ k, k < n → z k = 0) ∧
      ((∃ k, k < n ∧ c k ≠ 0) →
        (∀ k, k < n → (z k : ℚ) / s = c k / 10 ^ 17) ∧
        (∀ d : ℤ, (∀ k : ℕ, k < n → d ∣ z k) → IsUnit d) ∧ s ≠ 0 ∧
        (0 < s ↔ ¬ (c (n - 1) < 0 ∧ ∀ k, k < n - 1 → c k = 0))) := by
  intro r c
  obtain ⟨y1, e, -, g, -⟩ := slip_expand_double_array_eq (opt := opt) (v := fun k => .fin (v k)) hy hx
  have g : ∀ k : ℕ, k < n → get y1 k = some (c k) := g
  by_cases h : ∃ k, k < n ∧ c k ≠ 0
  · obtain ⟨x', s', z, e', -, h0, hv, hg, hs, -⟩ := reduceGcd_spec (n := n) (s := 10 ^ 17)
      (y := c) (by norm_num) g h
    refine ⟨x', s', z, by rw [e, e'], fun k hk => (hv k hk).1, ?_,
      fun _ => ⟨fun k hk => (hv k hk).2, hg, h0, hs⟩⟩
    intro hall
    obtain ⟨k, hk, hk'⟩ := h
    exact absurd (hall k hk) hk'
  · push Not at h
    refine ⟨y1, 0, c, ?_, g, fun _ => ⟨rfl, h⟩, ?_⟩
    · rw [e, reduceGcd_zero]
      intro j hj; rw [g j hj, h j hj]
    · rintro ⟨k, hk, hk'⟩
      exact absurd (h k hk) hk'

theorem isDouble_int {z : ℤ} (h : |z| < 2 ^ 53) : IsDouble z := ⟨z, 0, h, by simp⟩

/-- C22 as stated is false: an array of zeros gets scale 0 (slip_expand_double_array.c lines 106-111
copy `one` after clearing it). -/
theorem C22_all_zero_refuted :
    slip_expand_double_array none [some 7, some 7] [some (.fin 0), some (.fin 0)] 2 =
      .ok ([some 0, some 0], 0) := by decide +kernel

/-- C22 as stated is false: the array `[-3.0]` becomes `[1]` with the negative scale `-1/3`
(`mpz_gcd` never runs, so the gcd is the negative entry itself). -/
theorem C22_negative_scale_refuted :
    slip_expand_double_array none [some 0] [some (.fin (-3))] 1 = .ok ([some 1], -1 / 3) := by
  decide +kernel

/-- Distinct doubles need not stay distinct: 2^-60 becomes 0, and NaN becomes 0. -/
theorem C22_tiny_and_nan_vanish :
    slip_expand_double_array none [some 0, some 0, some 0]
      [some (.fin 1), some (.fin (1 / 2 ^ 60)), some .nan] 3 =
      .ok ([some 1, some 0, some 0], 1) := by decide +kernel

/-- The hypotheses of `C22_double` are met by `[0.5, 0, -0.75]`. -/
example : ∃ (y' : Arr Int) (s : ℚ) (z : ℕ → ℤ),
    slip_expand_double_array none [some 0, some 0, some 0]
      [some (.fin (1 / 2)), some (.fin 0), some (.fin (-3 / 4))] (3 : ℕ) = .ok (y', s) ∧ 0 < s ∧
      (∀ k : ℕ, k < 3 → get y' k = some (z k) ∧ (z k : ℚ) / s =
        roundInt 0 (10 ^ 17 * (fun k => if k = 0 then 1 / 2 else if k = 1 then 0 else -3 / 4 : ℕ → ℚ) k)
          / 10 ^ 17) ∧ (∀ d : ℤ, (∀ k : ℕ, k < 3 → d ∣ z k) → IsUnit d) := by
  refine C22_double (opt := none) (v := fun k => if k = 0 then 1 / 2 else if k = 1 then 0 else -3 / 4)
    (by decide) ?_ ?_ ⟨0, by decide, by decide +kernel⟩ ?_
  · intro k hk
    match k, hk with
    | 0, _ => exact ⟨0, rfl⟩
    | 1, _ => exact ⟨0, rfl⟩
    | 2, _ => exact ⟨0, rfl⟩
  · intro k hk
    match k, hk with
    | 0, _ => exact ⟨rfl, 1, -1, by norm_num, by norm_num⟩
    | 1, _ => exact ⟨rfl, 0, 0, by norm_num, by norm_num⟩
    | 2, _ => exact ⟨rfl, -3, -2, by norm_num, by norm_num⟩
  · intro h
    exact absurd (h.2 0 (by decide)) (by decide +kernel)

example : slip_expand_double_array none [some 0, some 0, some 0]
      [some (.fin (1 / 2)), some (.fin 0), some (.fin (-3 / 4))] 3 =
      .ok ([some 2, some 0, some (-3)], 4) := by decide +kernel

example : slip_expand_mpfr_array none [some 0, some 0, some 0]
      [some (.fin (1 / 2)), some (.fin 0), some (.fin (-3 / 4))] 3 =
      .ok ([some 2, some 0, some (-3)], 4) := by decide +kernel

/-! ## C31 -/

/-- C31: every double except 2^63 itself: NaN gives 0, values beyond the range saturate, values in
range are truncated towards zero. -/
theorem C31_double_to_int64 (d : Dbl) (h : d ≠ .fin (2 ^ 63)) :
    ∃ r, slip_cast_double_to_int64 d = .ok r ∧ -2 ^ 63 ≤ r ∧ r ≤ 2 ^ 63 - 1 ∧
      (d = .nan → r = 0) ∧ (d = .posInf → r = 2 ^ 63 - 1) ∧ (d = .negInf → r = -2 ^ 63) ∧
      ∀ v : ℚ, d = .fin v →
        (2 ^ 63 ≤ v → r = 2 ^ 63 - 1) ∧ (v ≤ -2 ^ 63 → r = -2 ^ 63) ∧
        (0 ≤ v → v < 2 ^ 63 → r = ⌊v⌋) ∧ (v ≤ 0 → -2 ^ 63 < v → r = ⌈v⌉) := by
  cases d with
  | nan => exact ⟨0, rfl, by norm_num, by norm_num, by simp, by simp, by simp, by simp⟩
  | posInf => exact ⟨int64Max, rfl, by norm_num [int64Max], by norm_num [int64Max], by simp,
      by simp [int64Max], by simp, by simp⟩
  | negInf => exact ⟨int64Min, rfl, by norm_num [int64Min], by norm_num [int64Min], by simp,
      by simp, by simp [int64Min], by simp⟩
  | fin v =>
    have hv : v ≠ 2 ^ 63 := fun e => h (by rw [e])
    unfold slip_cast_double_to_int64
    dsimp only
    split
    · rename_i h1
      have h1 : (2 : ℚ) ^ 63 < v := h1
      refine ⟨int64Max, rfl, by norm_num [int64Max], by norm_num [int64Max], by simp, by simp,
        by simp, ?_⟩
      rintro w hw
      cases hw
      refine ⟨fun _ => by norm_num [int64Max], fun h => ?_, fun _ h => ?_, fun h => ?_⟩
      · exfalso; norm_num at h h1; linarith
      · exfalso; linarith
      · exfalso; norm_num at h1; linarith
    · rename_i h1
      have h1 : v < 2 ^ 63 := lt_of_le_of_ne (not_lt.1 h1) hv
      split
      · rename_i h2
        refine ⟨int64Min, rfl, by norm_num [int64Min], by norm_num [int64Min], by simp, by simp,
          by simp, ?_⟩
        rintro w hw
        cases hw
        refine ⟨fun h => ?_, fun _ => by norm_num [int64Min], fun h => ?_, fun _ h => ?_⟩
        · exfalso; linarith
        · exfalso; norm_num at h2; linarith
        · exfalso; linarith
      · rename_i h2
        have h2 : -2 ^ 63 ≤ v := not_lt.1 h2
        have hr : roundInt 1 v = if 0 ≤ v then ⌊v⌋ else ⌈v⌉ := by simp [roundInt]
        have hb : int64Min ≤ roundInt 1 v ∧ roundInt 1 v ≤ int64Max := by
          rw [hr]
          split
          · rename_i h0
            have : (0 : ℤ) ≤ ⌊v⌋ := Int.floor_nonneg.2 h0
            have h3 : ⌊v⌋ < 2 ^ 63 := Int.floor_lt.2 (by push_cast; exact h1)
            unfold int64Min int64Max
            constructor <;> [norm_num; skip] <;> [linarith; omega]
          · rename_i h0
            have h3 : ⌈v⌉ ≤ 0 := Int.ceil_le.2 (by push_cast; linarith)
            have h4 : (-2 ^ 63 : ℤ) ≤ ⌈v⌉ := by
              have : ((-2 ^ 63 : ℤ) : ℚ) ≤ (⌈v⌉ : ℚ) := by
                push_cast
                exact h2.trans (Int.le_ceil v)
              exact_mod_cast this
            unfold int64Min int64Max
            constructor <;> [exact h4; (norm_num; linarith)]
        rw [if_pos hb]
        refine ⟨_, rfl, hb.1, hb.2, by simp, by simp, by simp, ?_⟩
        rintro w hw
        cases hw
        refine ⟨fun h => absurd h (not_le.2 h1), fun h => ?_, fun h _ => ?_, fun h _ => ?_⟩
        · have e : v = ((-2 ^ 63 : ℤ) : ℚ) := by push_cast; exact le_antisymm h h2
          rw [e, roundInt_int]
        · rw [hr, if_pos h]
        · rw [hr]
          rcases lt_or_eq_of_le h with h | h
          · rw [if_neg (not_le.2 h)]
          · subst h; simp

/-- C31 as stated is false at exactly 2^63: the test `x > INT64_MAX` compares with 2^63, so the
undefined conversion is executed. -/
theorem C31_two_pow_63_refuted : slip_cast_double_to_int64 (.fin (2 ^ 63)) = .error .ub := by
  decide +kernel

example : slip_cast_double_to_int64 (.fin (-7 / 2)) = .ok (-3) := by decide +kernel
example : slip_cast_double_to_int64 (.fin (10 ^ 30)) = .ok 9223372036854775807 := by decide +kernel

/-! ## C24 -/

/-- C24: for a matrix whose column pointers exist when it is a CSC matrix with `n >= 0`, the count is
`p[n]`, `nz` or `m*n`; it is -1 when the library is not initialised, the matrix is missing, its kind
is invalid, its column pointers are missing, or a dimension is negative; an uninitialised `nz` or
`p[n]` can also make it negative only if that stored number is. -/
theorem C24_nnz (init : Bool) (A : Option Mat)
    (hp : ∀ B, A = some B → B.kind = .csc → ∀ p, B.p = some p → 0 ≤ B.n → ∃ v, get p B.n = some v) :
    ∃ r, SLIP_matrix_nnz init A = .ok r ∧
      ((init = false ∨ A = none) → r = -1) ∧
      ∀ B, init = true → A = some B →
        (B.kind = .csc → (B.p = none ∨ B.n < 0 → r = -1) ∧
          ∀ p v, B.p = some p → 0 ≤ B.n → get p B.n = some v → r = v) ∧
        (B.kind = .triplet → r = B.nz) ∧
        (B.kind = .dense → (B.m < 0 ∨ B.n < 0 → r = -1) ∧ (0 ≤ B.m → 0 ≤ B.n → r = B.m * B.n)) ∧
        ((∀ v, B.kind = .bad v → r = -1)) := by
  unfold SLIP_matrix_nnz
  cases init with
  | false => exact ⟨-1, rfl, fun _ => rfl, by simp⟩
  | true =>
    cases A with
    | none => exact ⟨-1, rfl, fun _ => rfl, by simp⟩
    | some B =>
      simp only [Bool.not_true, Bool.false_eq_true, if_false]
      cases hk : B.kind with
      | csc =>
        cases hpp : B.p with
        | none =>
          refine ⟨-1, rfl, fun _ => rfl, ?_⟩
          rintro B' - hB
          cases hB
          simp [hk, hpp]
        | some p =>
          by_cases hn : B.n < 0
          · refine ⟨-1, by simp [hn]; rfl, fun _ => rfl, ?_⟩
            rintro B' - hB
            cases hB
            simp only [hk, hpp]
            simp
            omega
          · obtain ⟨v, hv⟩ := hp B rfl hk p hpp (by omega)
            refine ⟨v, by simp [hn, rd_eq hv], by simp, ?_⟩
            rintro B' - hB
            cases hB
            simp only [hk]
            refine ⟨fun _ => ⟨fun h => ?_, ?_⟩, by simp, by simp, by simp⟩
            · rw [hpp] at h; simp at h; omega
            · intro p' v' hp' _ hv'
              rw [hpp] at hp'; cases hp'
              rw [hv] at hv'; exact Option.some.inj hv'
      | triplet =>
        refine ⟨B.nz, rfl, by simp, ?_⟩
        rintro B' - hB
        cases hB
        simp [hk]
      | dense =>
        by_cases hmn : B.m < 0 ∨ B.n < 0
        · refine ⟨-1, by simp [hmn]; rfl, fun _ => rfl, ?_⟩
          rintro B' - hB
          cases hB
          simp [hk]
          omega
        · refine ⟨B.m * B.n, by simp [hmn]; rfl, by simp, ?_⟩
          rintro B' - hB
          cases hB
          simp [hk]
          omega
      | bad v =>
        refine ⟨-1, rfl, fun _ => rfl, ?_⟩
        rintro B' - hB
        cases hB
        simp [hk]

end Slip
