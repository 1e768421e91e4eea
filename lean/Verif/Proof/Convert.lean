import Verif.Model.Convert
import Verif.Proof.DenseOps
import Mathlib.Algebra.GCDMonoid.Finset
import Mathlib.Algebra.GCDMonoid.Nat

/-!
# Proofs about value conversion: cumulative sums, array expansion, rounding
-/

namespace Slip

/-! ## slip_cumsum -/

theorem slip_cumsum_spec {n : ℕ} {p c : Arr Int} {cnt : ℕ → ℤ} (hp : n + 1 ≤ p.length)
    (hc : ∀ j : ℕ, j < n → get c j = some (cnt j)) :
    ∃ p' c', slip_cumsum p c n = .ok (p', c') ∧ p'.length = p.length ∧ c'.length = c.length ∧
      (∀ j : ℕ, j ≤ n → get p' j = some (∑ t ∈ Finset.range j, cnt t)) ∧
      (∀ j : ℕ, j < n → get c' j = some (∑ t ∈ Finset.range j, cnt t)) ∧
      (∀ j : ℤ, (n : ℤ) < j → get p' j = get p j) ∧
      (∀ j : ℤ, (n : ℤ) ≤ j → get c' j = get c j) := by
  have key : wp (slip_cumsum p c n) (fun r => r.1.length = p.length ∧ r.2.length = c.length ∧
      (∀ j : ℕ, j ≤ n → get r.1 j = some (∑ t ∈ Finset.range j, cnt t)) ∧
      (∀ j : ℕ, j < n → get r.2 j = some (∑ t ∈ Finset.range j, cnt t)) ∧
      (∀ j : ℤ, (n : ℤ) < j → get r.1 j = get p j) ∧
      (∀ j : ℤ, (n : ℤ) ≤ j → get r.2 j = get c j)) noFail := by
    unfold slip_cumsum
    refine wp_bind_ok (P := fun s : Arr Int × Arr Int × Int =>
      s.1.length = p.length ∧ s.2.1.length = c.length ∧
      (∀ j : ℕ, j < n → get s.1 j = some (∑ t ∈ Finset.range j, cnt t)) ∧
      (∀ j : ℕ, j < n → get s.2.1 j = some (∑ t ∈ Finset.range j, cnt t)) ∧
      s.2.2 = ∑ t ∈ Finset.range n, cnt t ∧
      (∀ j : ℤ, (n : ℤ) < j → get s.1 j = get p j) ∧
      (∀ j : ℤ, (n : ℤ) ≤ j → get s.2.1 j = get c j)) ?_ ?_
    · refine wp_post (wp_forRange (fun i s => ∃ k : ℕ, i = k ∧ k ≤ n ∧
        s.1.length = p.length ∧ s.2.1.length = c.length ∧
        (∀ j : ℕ, j < k → get s.1 j = some (∑ t ∈ Finset.range j, cnt t)) ∧
        (∀ j : ℕ, j < k → get s.2.1 j = some (∑ t ∈ Finset.range j, cnt t)) ∧
        s.2.2 = ∑ t ∈ Finset.range k, cnt t ∧
        (∀ j : ℤ, (n : ℤ) < j → get s.1 j = get p j) ∧
        (∀ j : ℤ, (k : ℤ) ≤ j → get s.2.1 j = get c j)) (by omega) ?_ ?_) ?_
      · exact ⟨0, rfl, by omega, rfl, rfl, by simp, by simp, by simp, by simp, by simp⟩
      · rintro i ⟨p', c', nz⟩ h0 h1 ⟨k, rfl, hk, l1, l2, i1, i2, i3, i4, i5⟩
        have hkn : k < n := by omega
        dsimp only at *
        rw [wr_eq (by omega) (by omega)]
        have g1 : get c' (k : ℤ) = some (cnt k) := by rw [i5 _ le_rfl]; exact hc k hkn
        have g2 : get (upd p' (k : ℤ) nz) (k : ℤ) = some nz := get_upd_self (by omega) (by omega) _
        have hb := get_bounds g1
        simp only [ok_bind, rd_eq g1, rd_eq g2, wr_eq hb.1 hb.2, wp_pure]
        refine ⟨k + 1, by push_cast; rfl, hkn, by simpa using l1, by simpa using l2, ?_, ?_, ?_, ?_, ?_⟩
        · intro j hj
          rw [get_upd (by omega) (by omega)]
          split
          · rename_i h; have : j = k := by omega
            subst this; rw [i3]
          · exact i1 j (by omega)
        · intro j hj
          rw [get_upd (by omega) (by omega)]
          split
          · rename_i h; have : j = k := by omega
            subst this; rw [i3]
          · exact i2 j (by omega)
        · rw [Finset.sum_range_succ, i3]
        · intro j hj
          rw [get_upd_ne (by omega) (by omega) _ (by omega)]; exact i4 j hj
        · intro j hj
          push_cast at hj
          rw [get_upd_ne (by omega) (by omega) _ (by omega)]; exact i5 j (by omega)
      · rintro ⟨p', c', nz⟩ ⟨k, hk, hkn, l1, l2, i1, i2, i3, i4, i5⟩
        have : k = n := by omega
        subst this
        exact ⟨l1, l2, i1, i2, i3, i4, i5⟩
    · rintro ⟨p', c', nz⟩ ⟨l1, l2, i1, i2, i3, i4, i5⟩
      dsimp only at *
      rw [wr_eq (by omega) (by omega)]
      simp only [ok_bind, wp_pure]
      refine ⟨by simpa using l1, l2, ?_, i2, ?_, i5⟩
      · intro j hj
        rw [get_upd (by omega) (by omega)]
        split
        · rename_i h; have : j = n := by omega
          subst this; rw [i3]
        · exact i1 j (by omega)
      · intro j hj
        rw [get_upd_ne (by omega) (by omega) _ (by omega)]; exact i4 j hj
  obtain ⟨⟨p', c'⟩, e, h⟩ := wp_noFail key
  exact ⟨p', c', e, h⟩

/-! ## element-wise loops -/

theorem zset_loop_spec {α : Type} {f : Int → Arr α → C (Arr α)} {n : ℕ} {y : Arr α} {w : ℕ → α}
    (hy : ∀ k : ℕ, k < n → ∃ v, get y k = some v)
    (hf : ∀ (k : ℕ) (y' : Arr α), k < n → y'.length = y.length →
      (∀ j : ℕ, j < k → get y' j = some (w j)) → (∀ j : ℤ, (k : ℤ) ≤ j → get y' j = get y j) →
      f k y' = zset y' k (w k)) :
    ∃ y', forRange 0 (n : ℤ) y f = .ok y' ∧ y'.length = y.length ∧
      (∀ k : ℕ, k < n → get y' k = some (w k)) ∧ (∀ j : ℤ, (n : ℤ) ≤ j → get y' j = get y j) := by
  apply wp_noFail
  refine wp_post (wp_forRange (fun i y' => ∃ k : ℕ, i = k ∧ k ≤ n ∧ y'.length = y.length ∧
    (∀ j : ℕ, j < k → get y' j = some (w j)) ∧ (∀ j : ℤ, (k : ℤ) ≤ j → get y' j = get y j))
    (by omega) ⟨0, rfl, by omega, rfl, by simp, by simp⟩ ?_) ?_
  · rintro i y' h0 h1 ⟨k, rfl, hk, hl, i1, i2⟩
    have hkn : k < n := by omega
    obtain ⟨v, hv⟩ := hy k hkn
    have g : get y' (k : ℤ) = some v := by rw [i2 _ le_rfl]; exact hv
    have hb := get_bounds g
    rw [hf k y' hkn hl i1 i2, zset_eq g, wp_ok]
    refine ⟨k + 1, by push_cast; rfl, hkn, by simpa using hl, ?_, ?_⟩
    · intro j hj
      rw [get_upd hb.1 hb.2]
      split
      · rename_i h; have : j = k := by omega
        subst this; rfl
      · exact i1 j (by omega)
    · intro j hj
      push_cast at hj
      rw [get_upd_ne hb.1 hb.2 _ (by omega)]; exact i2 j (by omega)
  · rintro y' ⟨k, hk, hkn, hl, i1, i2⟩
    have : k = n := by omega
    subst this
    exact ⟨hl, i1, i2⟩

theorem castLoop_spec {α β : Type} {f : Int → α → C β} {n : ℕ} {y : Arr β} {x : Arr α}
    {v : ℕ → α} {w : ℕ → β} (hy : ∀ k : ℕ, k < n → ∃ u, get y k = some u)
    (hx : ∀ k : ℕ, k < n → get x k = some (v k)) (hf : ∀ k : ℕ, k < n → f k (v k) = .ok (w k)) :
    ∃ y', castLoop f y x n = .ok y' ∧ y'.length = y.length ∧
      (∀ k : ℕ, k < n → get y' k = some (w k)) ∧ (∀ j : ℤ, (n : ℤ) ≤ j → get y' j = get y j) := by
  unfold castLoop
  refine zset_loop_spec hy fun k y' hk _ _ _ => ?_
  simp [rd_eq (hx k hk), hf k hk]

/-! ## rounding -/

theorem roundInt_int (mode z : ℤ) : roundInt mode (z : ℚ) = z := by
  unfold roundInt
  simp

theorem roundInt_zero (mode : ℤ) : roundInt mode 0 = 0 := by
  have := roundInt_int mode 0
  simpa using this

theorem roundPrec_zero (p m : ℤ) : roundPrec p m 0 = 0 := by simp [roundPrec]

/-- Numbers with at most `prec` significant bits are stored exactly. -/
theorem roundPrec_exact {prec : ℕ} {mode : ℤ} {q : ℚ} {m e : ℤ} (hm : |m| < 2 ^ prec)
    (hq : q = m * (2 : ℚ) ^ e) : roundPrec prec mode q = q := by
  unfold roundPrec
  split
  · rename_i h; exact h.symm
  rename_i h0
  have hlt : |q| < (2 : ℚ) ^ (e + prec) := by
    rw [hq, abs_mul, abs_of_pos (zpow_pos (by norm_num : (0 : ℚ) < 2) e), zpow_add₀ (by norm_num),
      mul_comm]
    refine mul_lt_mul_of_pos_left ?_ (zpow_pos (by norm_num) e)
    rw [zpow_natCast]
    exact_mod_cast hm
  have hlog : Int.log 2 |q| < e + prec := by
    have := (Int.lt_zpow_iff_log_lt (b := 2) (by norm_num) (x := e + prec) (abs_pos.mpr h0)).1
      (by exact_mod_cast hlt)
    exact this
  set d := Int.log 2 |q| + 1 - (prec : ℤ) with hd
  have hde : d ≤ e := by omega
  have e1 : q / (2 : ℚ) ^ d = ((m * 2 ^ (e - d).toNat : ℤ) : ℚ) := by
    rw [hq, mul_div_assoc, ← zpow_sub₀ (by norm_num)]
    push_cast
    congr 1
    rw [← zpow_natCast]
    congr 1
    omega
  show ((roundInt mode (q / (2 : ℚ) ^ d) : ℤ) : ℚ) * (2 : ℚ) ^ d = q
  rw [e1, roundInt_int, ← e1]
  exact div_mul_cancel₀ _ (zpow_ne_zero _ (by norm_num))


/-! ## slip_expand_mpq_array -/

theorem get_replicate_some {α : Type} {k : ℕ} {v : α} {i : ℕ} (h1 : i < k) :
    get (List.replicate k (some v)) (i : ℤ) = some v := get_replicate (by omega) (by omega)

theorem slip_expand_mpq_array_spec {n : ℕ} (hn : 0 < n) {y : Arr Int} {x : Arr ℚ} {v : ℕ → ℚ}
    (hy : ∀ k : ℕ, k < n → ∃ u, get y k = some u) (hx : ∀ k : ℕ, k < n → get x k = some (v k)) :
    ∃ y', slip_expand_mpq_array y x n =
        .ok (y', (((Finset.range n).lcm fun k => (v k).den : ℕ) : ℚ)) ∧ y'.length = y.length ∧
      (∀ k : ℕ, k < n → ∃ z : ℤ, get y' k = some z ∧
        (z : ℚ) = v k * (((Finset.range n).lcm fun k => (v k).den : ℕ) : ℚ)) ∧
      (∀ j : ℤ, (n : ℤ) ≤ j → get y' j = get y j) := by
  unfold slip_expand_mpq_array
  set s : ℕ := (Finset.range n).lcm fun k => (v k).den with hs
  have hmax : (max (n : ℤ) 1).toNat = n := by omega
  rw [hmax]
  obtain ⟨x3, e3, l3, g3, -⟩ := zset_loop_spec (n := n) (y := (List.replicate n (some 0) : Arr Int))
    (f := fun i (x3 : Arr Int) => do
      let v ← rd x i
      zset x3 i (v.den : ℤ)) (w := fun k => ((v k).den : ℤ))
    (fun k hk => ⟨0, get_replicate_some hk⟩)
    (fun k y' hk _ _ _ => by simp [rd_eq (hx k hk)])
  dsimp only
  rw [e3]
  simp only [ok_bind]
  have g30 := g3 0 hn
  rw [show ((0 : ℕ) : ℤ) = 0 from rfl] at g30
  rw [rd_eq g30]
  simp only [ok_bind]
  have e4 : forRange 1 (n : ℤ) ((v 0).den : ℤ) (fun i temp => do
      let d ← rd x3 i
      pure (Int.lcm d temp : Int)) = .ok (s : ℤ) := by
    obtain ⟨t, et, k, hk, -, ht⟩ := wp_noFail (wp_forRange (E := noFail) (lo := 1) (hi := (n : ℤ))
      (s := ((v 0).den : ℤ)) (f := fun i temp => do
        let d ← rd x3 i
        pure (Int.lcm d temp : Int))
      (fun i t => ∃ k : ℕ, i = k ∧ 1 ≤ k ∧ t = (((Finset.range k).lcm fun k => (v k).den : ℕ) : ℤ))
      (by omega) ⟨1, rfl, le_rfl, by simp⟩ (by
        rintro i t h0 h1 ⟨k, rfl, hk, rfl⟩
        have := g3 k (by omega)
        simp only [rd_eq this, ok_bind, wp_pure]
        refine ⟨k + 1, by push_cast; rfl, by omega, ?_⟩
        rw [Finset.range_add_one, Finset.lcm_insert]
        rfl))
    have : k = n := by omega
    subst this
    rw [et, ht]
  rw [e4]
  simp only [ok_bind]
  have hdvd : ∀ k, k < n → ∃ z : ℤ, (z : ℚ) = v k * (s : ℚ) := by
    intro k hk
    have : (v k).den ∣ s := Finset.dvd_lcm (Finset.mem_range.2 hk)
    obtain ⟨c, hc⟩ := this
    refine ⟨(v k).num * c, ?_⟩
    rw [hc]; push_cast
    rw [← mul_assoc, Rat.mul_den_eq_num]
  choose! z hz using hdvd
  have key := wp_noFail (wp_forRange (E := noFail) (lo := 0) (hi := (n : ℤ))
    (s := ((List.replicate n (some 0) : Arr ℚ), y))
    (f := fun i (x4, x_out) => do
      let v ← rd x i
      let x4 ← zset x4 i (v * ((s : ℤ) : ℚ))
      let w ← rd x4 i
      let x_out ← zset x_out i (roundInt 1 w)
      pure (x4, x_out))
    (fun i t => ∃ k : ℕ, i = k ∧ k ≤ n ∧ t.1.length = n ∧
      (∀ j : ℕ, k ≤ j → j < n → get t.1 j = some 0) ∧ t.2.length = y.length ∧
      (∀ j : ℕ, j < k → get t.2 j = some (z j)) ∧ (∀ j : ℤ, (k : ℤ) ≤ j → get t.2 j = get y j))
    (by omega) ⟨0, rfl, by omega, by simp, fun j _ hj => get_replicate_some hj, rfl, by simp, by simp⟩
    (by
      rintro i ⟨x4, yo⟩ h0 h1 ⟨k, rfl, hk, l1, a1, l2, b1, b2⟩
      dsimp only at *
      have hkn : k < n := by omega
      have ga := a1 k le_rfl hkn
      have hba := get_bounds ga
      obtain ⟨u, hu⟩ := hy k hkn
      have gb : get yo (k : ℤ) = some u := by rw [b2 _ le_rfl]; exact hu
      have hbb := get_bounds gb
      simp only [rd_eq (hx k hkn), ok_bind, zset_eq ga, rd_eq (get_upd_self hba.1 hba.2 _),
        zset_eq gb, wp_pure]
      refine ⟨k + 1, by push_cast; rfl, hkn, by simpa using l1, ?_, by simpa using l2, ?_, ?_⟩
      · intro j hj hjn
        rw [get_upd_ne hba.1 hba.2 _ (by omega)]; exact a1 j (by omega) hjn
      · intro j hj
        rw [get_upd hbb.1 hbb.2]
        split
        · rename_i h; have : j = k := by omega
          subst this
          have := hz j hkn
          push_cast
          rw [← this, roundInt_int]
        · exact b1 j (by omega)
      · intro j hj
        push_cast at hj
        rw [get_upd_ne hbb.1 hbb.2 _ (by omega)]; exact b2 j (by omega)))
  obtain ⟨⟨x4, yo⟩, e, k, hk, hkn, -, -, l2, b1, b2⟩ := key
  have : k = n := by omega
  subst this
  dsimp only at *
  refine ⟨yo, ?_, l2, fun j hj => ⟨z j, b1 j hj, hz j hj⟩, b2⟩
  rw [e]
  simp only [ok_bind]
  push_cast
  rfl

/-! ## reduction by the gcd -/

theorem gcdLoop_some {x : Arr Int} {y : ℕ → ℤ} : ∀ (c i k : ℕ) (g : ℤ),
    (∀ j : ℕ, j < i + c → get x j = some (y j)) →
    ∃ (g' : ℤ) (b : Bool), gcdLoop x c i (some ((k : ℤ), g)) = .ok (some ((k : ℤ), g', b)) ∧
      g' ∣ g ∧ (b = true → g' = 1 ∧ 0 < c) ∧
      (b = false → ∀ j : ℕ, i ≤ j → j < i + c → g' ∣ y j) ∧
      (∀ d : ℤ, d ∣ g → (∀ j : ℕ, i ≤ j → j < i + c → d ∣ y j) → d ∣ g') ∧
      (0 < c → 0 ≤ g') ∧ (c = 0 → g' = g)
  | 0, i, k, g, h => ⟨g, false, rfl, dvd_rfl, by simp, by intro _ j h1 h2; omega, fun d h _ => h,
      by omega, fun _ => rfl⟩
  | c + 1, i, k, g, h => by
    unfold gcdLoop
    have gi := h i (by omega)
    rw [rd_eq gi]
    simp only [ok_bind]
    have hd1 : (Int.gcd g (y i) : ℤ) ∣ g := Int.gcd_dvd_left _ _
    have hd2 : (Int.gcd g (y i) : ℤ) ∣ y i := Int.gcd_dvd_right _ _
    split
    · rename_i h1
      refine ⟨_, true, rfl, hd1, fun _ => ⟨h1, by omega⟩, by simp, ?_, by omega, by omega⟩
      intro d hd hj
      exact Int.dvd_coe_gcd hd (hj i le_rfl (by omega))
    · obtain ⟨g', b, e, a1, a2, a3, a4, a5, a6⟩ := gcdLoop_some c (i + 1) k (Int.gcd g (y i) : ℤ)
        (fun j hj => h j (by omega))
      refine ⟨g', b, by simpa using e, a1.trans hd1, fun hb => ⟨(a2 hb).1, by omega⟩, ?_, ?_, ?_, by omega⟩
      · intro hb j h1 h2
        rcases Nat.eq_or_lt_of_le h1 with h3 | h3
        · subst h3; exact a1.trans hd2
        · exact a3 hb j (by omega) (by omega)
      · intro d hd hj
        exact a4 d (Int.dvd_coe_gcd hd (hj i le_rfl (by omega))) fun j h1 h2 => hj j (by omega) (by omega)
      · intro _
        rcases Nat.eq_zero_or_pos c with hc | hc
        · rw [a6 hc]; omega
        · exact a5 hc

theorem gcdLoop_none {x : Arr Int} {y : ℕ → ℤ} : ∀ (c i : ℕ),
    (∀ j : ℕ, j < i + c → get x j = some (y j)) →
    (gcdLoop x c i none = .ok none ∧ ∀ j : ℕ, i ≤ j → j < i + c → y j = 0) ∨
    ∃ (k : ℕ) (g' : ℤ) (b : Bool), gcdLoop x c i none = .ok (some ((k : ℤ), g', b)) ∧ i ≤ k ∧
      k < i + c ∧ y k ≠ 0 ∧ (∀ j : ℕ, i ≤ j → j < k → y j = 0) ∧ g' ∣ y k ∧ (b = true → g' = 1) ∧
      (b = false → ∀ j : ℕ, k ≤ j → j < i + c → g' ∣ y j) ∧
      (∀ d : ℤ, (∀ j : ℕ, k ≤ j → j < i + c → d ∣ y j) → d ∣ g') ∧
      (k + 1 < i + c → 0 ≤ g') ∧ (k + 1 = i + c → g' = y k)
  | 0, i, h => Or.inl ⟨rfl, by intro j h1 h2; omega⟩
  | c + 1, i, h => by
    unfold gcdLoop
    have gi := h i (by omega)
    rw [rd_eq gi]
    simp only [ok_bind]
    split
    · rename_i h0
      right
      obtain ⟨g', b, e, a1, a2, a3, a4, a5, a6⟩ := gcdLoop_some c (i + 1) i (y i)
        (fun j hj => h j (by omega))
      refine ⟨i, g', b, by simpa using e, le_rfl, by omega, h0, by intro j h1 h2; omega, a1,
        fun hb => (a2 hb).1, ?_, ?_, fun h => a5 (by omega), fun h => a6 (by omega)⟩
      · intro hb j h1 h2
        rcases Nat.eq_or_lt_of_le h1 with h3 | h3
        · subst h3; exact a1
        · exact a3 hb j (by omega) (by omega)
      · intro d hd
        exact a4 d (hd i le_rfl (by omega)) fun j h1 h2 => hd j (by omega) (by omega)
    · rename_i h0
      have h0 : y i = 0 := by omega
      rcases gcdLoop_none c (i + 1) (fun j hj => h j (by omega)) with ⟨e, a⟩ |
        ⟨k, g', b, e, b1, b2, b3, b4, b5, b6, b7, b8, b9, b10⟩
      · left
        refine ⟨by simpa using e, ?_⟩
        intro j h1 h2
        rcases Nat.eq_or_lt_of_le h1 with h3 | h3
        · subst h3; exact h0
        · exact a j (by omega) (by omega)
      · right
        refine ⟨k, g', b, by simpa using e, by omega, by omega, b3, ?_, b5, b6, ?_, ?_,
          fun h => b9 (by omega), fun h => b10 (by omega)⟩
        · intro j h1 h2
          rcases Nat.eq_or_lt_of_le h1 with h3 | h3
          · subst h3; exact h0
          · exact b4 j (by omega) (by omega)
        · intro hb j h1 h2; exact b7 hb j (by omega) (by omega)
        · intro d hd; exact b8 d fun j h1 h2 => hd j h1 (by omega)

/-- All of an array is zero: the reduction makes the scale factor 0. -/
theorem reduceGcd_zero {n : ℕ} {x : Arr Int} {s : ℚ} (hx : ∀ j : ℕ, j < n → get x j = some 0) :
    reduceGcd x s n = .ok (x, 0) := by
  unfold reduceGcd
  rcases gcdLoop_none (y := fun _ => 0) n 0 (x := x) (fun j hj => hx j (by omega)) with ⟨e, -⟩ |
    ⟨k, g', b, e, b1, b2, b3, b4⟩
  · simp only [Int.toNat_natCast]
    rw [show ((0 : ℕ) : ℤ) = 0 from rfl] at e
    rw [e]; rfl
  · exact absurd rfl b3

/-- The reduction divides array and scale factor by the same number, and leaves entries with no
common factor. -/
theorem reduceGcd_spec {n : ℕ} {x : Arr Int} {s : ℚ} {y : ℕ → ℤ} (hs : 0 < s)
    (hx : ∀ j : ℕ, j < n → get x j = some (y j)) (hnz : ∃ j, j < n ∧ y j ≠ 0) :
    ∃ (x' : Arr Int) (s' : ℚ) (y' : ℕ → ℤ), reduceGcd x s n = .ok (x', s') ∧ x'.length = x.length ∧
      s' ≠ 0 ∧
      (∀ j : ℕ, j < n → get x' j = some (y' j) ∧ (y' j : ℚ) / s' = y j / s) ∧
      (∀ d : ℤ, (∀ j : ℕ, j < n → d ∣ y' j) → IsUnit d) ∧
      (0 < s' ↔ ¬ (y (n - 1) < 0 ∧ ∀ j : ℕ, j < n - 1 → y j = 0)) ∧
      (∀ j : ℤ, (n : ℤ) ≤ j → get x' j = get x j) := by
  unfold reduceGcd
  obtain ⟨j0, hj0, hj0'⟩ := hnz
  rcases gcdLoop_none (y := y) n 0 (x := x) (fun j hj => hx j (by omega)) with ⟨e, hz⟩ |
    ⟨k, g, b, e, b1, b2, b3, b4, b5, b6, b7, b8, b9, b10⟩
  · exact absurd (hz j0 (by omega) (by omega)) hj0'
  rw [Int.toNat_natCast]
  rw [show ((0 : ℕ) : ℤ) = 0 from rfl] at e
  rw [e]
  simp only [ok_bind]
  have hg0 : g ≠ 0 := fun h => b3 (by rw [h] at b5; exact Int.zero_dvd.1 b5)
  -- the sign condition
  have hsign : 0 < g ↔ ¬ (y (n - 1) < 0 ∧ ∀ j : ℕ, j < n - 1 → y j = 0) := by
    rcases Nat.lt_or_ge (k + 1) n with hk | hk
    · have : 0 < g := lt_of_le_of_ne (b9 (by omega)) (Ne.symm hg0)
      refine ⟨fun _ h => b3 (h.2 k (by omega)), fun _ => this⟩
    · have hk : k + 1 = n := by omega
      have : n - 1 = k := by omega
      rw [this, b10 (by omega)]
      constructor
      · intro h1 h2; omega
      · intro h
        by_contra hc
        exact h ⟨by omega, fun j hj => b4 j (by omega) (by omega)⟩
  cases b with
  | true =>
    have g1 := b6 rfl
    subst g1
    refine ⟨x, s, y, rfl, rfl, ne_of_gt hs, fun j hj => ⟨hx j hj, rfl⟩, ?_,
      ⟨fun _ => hsign.1 one_pos, fun _ => hs⟩, fun _ _ => rfl⟩
    intro d hd
    exact isUnit_of_dvd_one (b8 d fun j h1 h2 => hd j (by omega))
  | false =>
    have hdv := b7 rfl
    have hq : ∀ j : ℕ, k ≤ j → j < n → ∃ c, y j = c * g := by
      intro j h1 h2
      obtain ⟨c, hc⟩ := hdv j h1 (by omega)
      exact ⟨c, by rw [hc, mul_comm]⟩
    choose! c hc using hq
    obtain ⟨x', e', k', hk', hk'n, l', i1, i2⟩ := wp_noFail (wp_forRange (E := noFail) (lo := (k : ℤ))
      (hi := (n : ℤ)) (s := x) (f := fun i x_out => do
        let v ← rd x_out i
        let d ← divexact v g
        zset x_out i d)
      (fun i t => ∃ l : ℕ, i = l ∧ l ≤ n ∧ t.length = x.length ∧
        (∀ j : ℕ, k ≤ j → j < l → get t j = some (c j)) ∧
        (∀ j : ℤ, j < k ∨ (l : ℤ) ≤ j → get t j = get x j))
      (by omega) ⟨k, rfl, by omega, rfl, by intro j h1 h2; omega, by simp⟩ (by
        rintro i t h0 h1 ⟨l, rfl, hl, hlen, a1, a2⟩
        have hln : l < n := by omega
        have gl : get t (l : ℤ) = some (y l) := by rw [a2 _ (Or.inr le_rfl)]; exact hx l hln
        have hb := get_bounds gl
        simp only [rd_eq gl, ok_bind, divexact_eq hg0 (hc l (by omega) hln), zset_eq gl, wp_ok]
        refine ⟨l + 1, by push_cast; rfl, hln, by simpa using hlen, ?_, ?_⟩
        · intro j h1 h2
          rw [get_upd hb.1 hb.2]
          split
          · rename_i h; have : j = l := by omega
            subst this; rfl
          · exact a1 j h1 (by omega)
        · intro j hj
          rw [get_upd_ne hb.1 hb.2 _ (by push_cast at hj; omega)]
          exact a2 j (by push_cast at hj; omega)))
    have : k' = n := by omega
    subst this
    dsimp only
    rw [e']
    simp only [ok_bind]
    have hgq : (g : ℚ) ≠ 0 := by exact_mod_cast hg0
    refine ⟨x', s / g, fun j => if k ≤ j then c j else 0, rfl, l', div_ne_zero (ne_of_gt hs) hgq,
      ?_, ?_, ?_, fun j hj => i2 j (Or.inr hj)⟩
    · intro j hj
      by_cases hkj : k ≤ j
      · simp only [hkj, if_true]
        refine ⟨i1 j hkj hj, ?_⟩
        rw [hc j hkj hj]
        push_cast
        field_simp
      · simp only [hkj, if_false]
        refine ⟨?_, ?_⟩
        · rw [i2 _ (Or.inl (by omega)), hx j hj, b4 j (by omega) (by omega)]
        · rw [b4 j (by omega) (by omega)]; simp
    · intro d hd
      have h1 : d * g ∣ g := b8 (d * g) fun j h1 h2 => by
        have := hd j (by omega)
        simp only [h1, if_true] at this
        rw [hc j h1 (by omega)]
        exact mul_dvd_mul_right this g
      obtain ⟨t, ht⟩ := h1
      have h2 : g * 1 = g * (d * t) := by rw [mul_one]; nth_rewrite 1 [ht]; ring
      have := mul_left_cancel₀ hg0 h2
      exact isUnit_of_dvd_one ⟨t, this⟩
    · rw [← hsign, div_pos_iff_of_pos_left hs]
      exact_mod_cast Iff.rfl


/-! ## slip_expand_double_array, slip_expand_mpfr_array -/

/-- The integer obtained from a `double` before the reduction by the gcd. -/
def dblToZ (opt : Option Options) (d : Dbl) : ℤ :=
  mpfrGetZ (optRound opt) (mpfrRnd (optPrec opt) (optRound opt)
    ((mpfrRnd (optPrec opt) (optRound opt) d).mulPos (10 ^ 17)))

/-- The integer obtained from an `mpfr_t` before the reduction by the gcd. -/
def mpfrToZ (opt : Option Options) (d : Dbl) : ℤ :=
  mpfrGetZ (optRound opt) (mpfrRnd (optPrec opt) (optRound opt)
    (d.mulPos (2 ^ (optPrec opt).toNat)))

theorem pairLoop_spec {n : ℕ} {y : Arr Int} {x3 : Arr Dbl} {z : ℕ → ℤ}
    {f : Int → Arr Dbl × Arr Int → C (Arr Dbl × Arr Int)}
    (h3 : ∀ k : ℕ, k < n → ∃ u, get x3 k = some u) (hy : ∀ k : ℕ, k < n → ∃ u, get y k = some u)
    (hf : ∀ (k : ℕ) (a : Arr Dbl) (b : Arr Int) (u : Dbl) (w : ℤ), k < n → get a k = some u →
      get b k = some w → ∃ a', f k (a, b) = .ok (a', upd b k (z k)) ∧
        ∀ j : ℕ, j ≠ k → get a' j = get a j) :
    ∃ r, forRange 0 (n : ℤ) (x3, y) f = .ok r ∧ r.2.length = y.length ∧
      (∀ k : ℕ, k < n → get r.2 k = some (z k)) ∧ (∀ j : ℤ, (n : ℤ) ≤ j → get r.2 j = get y j) := by
  apply wp_noFail
  refine wp_post (wp_forRange (fun i t => ∃ k : ℕ, i = k ∧ k ≤ n ∧
    (∀ j : ℕ, k ≤ j → get t.1 j = get x3 j) ∧ t.2.length = y.length ∧
    (∀ j : ℕ, j < k → get t.2 j = some (z j)) ∧ (∀ j : ℤ, (k : ℤ) ≤ j → get t.2 j = get y j))
    (by omega) ⟨0, rfl, by omega, fun _ _ => rfl, rfl, by simp, by simp⟩ ?_) ?_
  · rintro i ⟨a, b⟩ h0 h1 ⟨k, rfl, hk, a1, l2, b1, b2⟩
    dsimp only at *
    have hkn : k < n := by omega
    obtain ⟨u, hu⟩ := h3 k hkn
    obtain ⟨w, hw⟩ := hy k hkn
    have ga : get a (k : ℤ) = some u := by rw [a1 _ le_rfl]; exact hu
    have gb : get b (k : ℤ) = some w := by rw [b2 _ le_rfl]; exact hw
    have hb := get_bounds gb
    obtain ⟨a', e, ha'⟩ := hf k a b u w hkn ga gb
    rw [e, wp_ok]
    refine ⟨k + 1, by push_cast; rfl, hkn, ?_, by simpa using l2, ?_, ?_⟩
    · intro j hj; rw [ha' j (by omega)]; exact a1 j (by omega)
    · intro j hj
      rw [get_upd hb.1 hb.2]
      split
      · rename_i h; have : j = k := by omega
        subst this; rfl
      · exact b1 j (by omega)
    · intro j hj
      push_cast at hj
      rw [get_upd_ne hb.1 hb.2 _ (by omega)]; exact b2 j (by omega)
  · rintro ⟨a, b⟩ ⟨k, hk, hkn, -, l2, b1, b2⟩
    have : k = n := by omega
    subst this
    exact ⟨l2, b1, b2⟩

/-- The first loop of `slip_expand_double_array`. -/
theorem slip_expand_double_array_eq {opt : Option Options} {n : ℕ} {y : Arr Int} {x : Arr Dbl}
    {v : ℕ → Dbl} (hy : ∀ k : ℕ, k < n → ∃ u, get y k = some u)
    (hx : ∀ k : ℕ, k < n → get x k = some (v k)) :
    ∃ y1, slip_expand_double_array opt y x n = reduceGcd y1 (10 ^ 17) n ∧ y1.length = y.length ∧
      (∀ k : ℕ, k < n → get y1 k = some (dblToZ opt (v k))) ∧
      (∀ j : ℤ, (n : ℤ) ≤ j → get y1 j = get y j) := by
  unfold slip_expand_double_array
  dsimp only
  obtain ⟨⟨a, b⟩, e, l, g1, g2⟩ := pairLoop_spec (n := n) (y := y)
    (x3 := List.replicate (max (n : ℤ) 1).toNat (some .nan)) (z := fun k => dblToZ opt (v k))
    (f := fun i (x3, x_out) => do
      let v ← rd x i
      let x3 ← zset x3 i (mpfrRnd (optPrec opt) (optRound opt) v)
      let v ← rd x3 i
      let x3 ← zset x3 i (mpfrRnd (optPrec opt) (optRound opt) (v.mulPos (10 ^ 17)))
      let v ← rd x3 i
      let x_out ← zset x_out i (mpfrGetZ (optRound opt) v)
      pure (x3, x_out))
    (fun k hk => ⟨.nan, get_replicate_some (by omega)⟩) hy (by
      intro k a b u w hk ga gb
      have hba := get_bounds ga
      have h1 : ∀ t, get (upd a (k : ℤ) t) (k : ℤ) = some t := fun t => get_upd_self hba.1 hba.2 t
      have hba2 : ∀ t, (k : ℤ) < ((upd a (k : ℤ) t).length : ℤ) := fun t => by simpa using hba.2
      have h2 : ∀ t t', get (upd (upd a (k : ℤ) t) (k : ℤ) t') (k : ℤ) = some t' :=
        fun t t' => get_upd_self hba.1 (hba2 t) t'
      simp only [rd_eq (hx k hk), ok_bind, zset_eq ga, rd_eq (h1 _), zset_eq (h1 _), rd_eq (h2 _ _),
        zset_eq gb]
      refine ⟨_, rfl, ?_⟩
      intro j hj
      rw [get_upd_ne hba.1 (hba2 _) _ (by omega), get_upd_ne hba.1 hba.2 _ (by omega)])
  rw [e]
  exact ⟨b, rfl, l, g1, g2⟩

/-- The first loop of `slip_expand_mpfr_array`. -/
theorem slip_expand_mpfr_array_eq {opt : Option Options} {n : ℕ} {y : Arr Int} {x : Arr Dbl}
    {v : ℕ → Dbl} (hy : ∀ k : ℕ, k < n → ∃ u, get y k = some u)
    (hx : ∀ k : ℕ, k < n → get x k = some (v k)) :
    ∃ y1, slip_expand_mpfr_array opt y x n = reduceGcd y1 (2 ^ (optPrec opt).toNat) n ∧
      y1.length = y.length ∧
      (∀ k : ℕ, k < n → get y1 k = some (mpfrToZ opt (v k))) ∧
      (∀ j : ℤ, (n : ℤ) ≤ j → get y1 j = get y j) := by
  unfold slip_expand_mpfr_array
  dsimp only
  obtain ⟨⟨a, b⟩, e, l, g1, g2⟩ := pairLoop_spec (n := n) (y := y)
    (x3 := List.replicate (max (n : ℤ) 1).toNat (some .nan)) (z := fun k => mpfrToZ opt (v k))
    (f := fun i (x3, x_out) => do
      let v ← rd x i
      let x3 ← zset x3 i (mpfrRnd (optPrec opt) (optRound opt)
        (v.mulPos ((2 : ℚ) ^ (optPrec opt).toNat)))
      let v ← rd x3 i
      let x_out ← zset x_out i (mpfrGetZ (optRound opt) v)
      pure (x3, x_out))
    (fun k hk => ⟨.nan, get_replicate_some (by omega)⟩) hy (by
      intro k a b u w hk ga gb
      have hba := get_bounds ga
      have h1 : ∀ t, get (upd a (k : ℤ) t) (k : ℤ) = some t := fun t => get_upd_self hba.1 hba.2 t
      simp only [rd_eq (hx k hk), ok_bind, zset_eq ga, rd_eq (h1 _), zset_eq gb]
      refine ⟨_, rfl, ?_⟩
      intro j hj
      rw [get_upd_ne hba.1 hba.2 _ (by omega)])
  rw [e]
  exact ⟨b, rfl, l, g1, g2⟩

/-- A `double` is `m * 2^e` with `|m| < 2^53`. -/
def IsDouble (q : ℚ) : Prop := ∃ m e : ℤ, |m| < 2 ^ 53 ∧ q = m * (2 : ℚ) ^ e

/-- With at least 93 bits, multiplying a `double` by 10^17 is exact. -/
theorem dblToZ_exact {opt : Option Options} {p : ℕ} (hp : optPrec opt = p) (h93 : 93 ≤ p) {q : ℚ}
    (hq : IsDouble q) : dblToZ opt (.fin q) = roundInt (optRound opt) (10 ^ 17 * q) := by
  obtain ⟨m, e, hm, hq⟩ := hq
  have h1 : roundPrec p (optRound opt) q = q :=
    roundPrec_exact (m := m) (e := e) (hm.trans_le (by
      exact_mod_cast Nat.pow_le_pow_right (by norm_num) (by omega : 53 ≤ p))) hq
  have h2 : roundPrec p (optRound opt) (q * 10 ^ 17) = q * 10 ^ 17 := by
    refine roundPrec_exact (m := m * 5 ^ 17) (e := e + 17) ?_ ?_
    · rw [abs_mul]
      have h5 : |(5 : ℤ) ^ 17| < 2 ^ 40 := by norm_num
      have hle : (2 : ℤ) ^ 93 ≤ 2 ^ p := by
        exact_mod_cast Nat.pow_le_pow_right (by norm_num) h93
      refine lt_of_lt_of_le ?_ hle
      calc |m| * |(5 : ℤ) ^ 17| < 2 ^ 53 * 2 ^ 40 :=
            mul_lt_mul'' hm h5 (abs_nonneg _) (abs_nonneg _)
        _ = 2 ^ 93 := by norm_num
    · rw [hq, zpow_add₀ (by norm_num)]
      push_cast
      norm_num
      ring
  unfold dblToZ
  simp only [mpfrRnd, Dbl.mulPos, mpfrGetZ, hp, h1, h2]
  rw [mul_comm]

/-- A number with at most `prec` bits: multiplying by `2^prec` is exact. -/
theorem mpfrToZ_exact {opt : Option Options} {p : ℕ} (hp : optPrec opt = p) {q : ℚ} {m e : ℤ}
    (hm : |m| < 2 ^ p) (hq : q = m * (2 : ℚ) ^ e) :
    mpfrToZ opt (.fin q) = roundInt (optRound opt) (2 ^ p * q) := by
  have h2 : roundPrec p (optRound opt) (q * 2 ^ p) = q * 2 ^ p := by
    refine roundPrec_exact (m := m) (e := e + p) hm ?_
    rw [hq, zpow_add₀ (by norm_num), zpow_natCast]
    ring
  unfold mpfrToZ
  simp only [mpfrRnd, Dbl.mulPos, mpfrGetZ, hp, Int.toNat_natCast, h2]
  rw [mul_comm]

end Slip
