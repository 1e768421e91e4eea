import Verif.Proof.Forward

/-! # Back substitution -/

namespace Slip

open Finset in
/-- State of the back substitution of one right-hand side when positions `≥ j` hold the solution
`z` and positions `< j` hold the remaining right-hand side. -/
structure BackInv (n k : ℕ) (V : ℕ → ℕ → ℤ) (z : ℕ → ℤ) (j : ℕ) (y : Arr Int) : Prop where
  done : ∀ s < n, j ≤ s → get y (ix2 (n : Int) (s : Int) (k : Int)) = some (z s)
  todo : ∀ s < n, s < j → get y (ix2 (n : Int) (s : Int) (k : Int)) =
    some (∑ t ∈ range j, V t s * z t)

/-- The integers of the back substitution of one right-hand side fit. -/
structure BackFits (fits : Int → Bool) (n : ℕ) (V : ℕ → ℕ → ℤ) (z : ℕ → ℤ) : Prop where
  sol : ∀ t < n, fits (z t) = true
  mul : ∀ t < n, ∀ s < n, fits (V t s * z t) = true
  sum : ∀ j ≤ n, ∀ s < n, fits (∑ t ∈ Finset.range j, V t s * z t) = true

theorem backStepB_spec {fits : Int → Bool} {n k j : ℕ} {up : ℕ → ℤ} {U : Csc} {V : ℕ → ℕ → ℤ} {z : ℕ → ℤ} {y : Arr Int}
    (hU : FinCols n (fun t s => s ≤ t) V up U)
    (hdiag : ∀ t < n, up t < up (t + 1) ∧ get U.i (up (t + 1) - 1) = some (t : Int))
    (hne : ∀ t < n, V t t ≠ 0) (hlow : ∀ t s, t < s → V t s = 0) (hj : j < n)
    (hI : BackInv n k V z (j + 1) y) (hz : BackFits fits n V z) :
    ∃ y', backStepB fits U (n : Int) (k : Int) (j : Int) y = .ok y' ∧ BackInv n k V z j y' ∧
      ColFrame n k y y' := by
  have hWj : ∑ t ∈ Finset.range (j + 1), V t j * z t = z j * V j j := by
    rw [Finset.sum_range_succ, Finset.sum_eq_zero, zero_add, mul_comm]
    intro t ht
    rw [hlow t j (by simpa using ht), zero_mul]
  have hyj := hI.todo j hj (by omega)
  rw [hWj] at hyj
  unfold backStepB
  rw [rd_eq hyj, ok_bind]
  by_cases h0 : z j * V j j = 0
  · rw [if_pos h0]
    have hz : z j = 0 := by
      rcases mul_eq_zero.mp h0 with h | h
      · exact h
      · exact absurd h (hne j hj)
    refine ⟨y, rfl, ⟨?_, ?_⟩, .refl _ _ _⟩
    · intro s hs hle
      rcases Nat.lt_or_ge j s with h | h
      · exact hI.done s hs (by omega)
      · have : s = j := by omega
        subst this
        rw [hyj, hz, zero_mul]
    · intro s hs hlt
      rw [hI.todo s hs (by omega), Finset.sum_range_succ, hz, mul_zero, add_zero]
  · rw [if_neg h0]
    obtain ⟨hd1, hd2⟩ := hdiag j hj
    have ep : ((j : ℕ) : Int) + 1 = ((j + 1 : ℕ) : Int) := by omega
    have hdx : get U.x (up (j + 1) - 1) = some (V j j) := by
      obtain ⟨s, hs, hsj, q1, q2⟩ := hU.ent j hj (up (j + 1) - 1) (by omega) (by omega)
      rw [hd2] at q1
      have : s = j := by have := Option.some.inj q1; omega
      rw [q2, this]
    rw [ep, rd_eq (hU.ptr (j + 1) (by omega)), ok_bind, rd_eq hdx, ok_bind,
      divexact_eq (hne j hj) rfl, ok_bind, zsetB_eq (hz.sol j hj) hyj, ok_bind, rd_eq (hU.ptr j (by omega)), ok_bind]
    have hb := get_bounds hyj
    have U1 : Upd1 y (upd y (ix2 (n : Int) (j : Int) (k : Int)) (z j)) _ _ := .of_upd hb.1 hb.2
    have hloop := wp_forRange (E := noFail) (lo := up j) (hi := up (j + 1) - 1)
      (s := upd y (ix2 (n : Int) (j : Int) (k : Int)) (z j))
      (f := fun i y => backInnerB fits U (n : Int) (k : Int) (j : Int) y i)
      (fun m y' => ColFrame n k y y' ∧
        (∀ s < n, j ≤ s → get y' (ix2 (n : Int) (s : Int) (k : Int)) = some (z s)) ∧
        (∀ s < n, s < j → ∃ w, get y' (ix2 (n : Int) (s : Int) (k : Int)) = some w ∧
          ((∃ m', up j ≤ m' ∧ m' < m ∧ get U.i m' = some (s : Int)) →
            w = ∑ t ∈ Finset.range j, V t s * z t) ∧
          ((∀ m', up j ≤ m' → m' < m → get U.i m' ≠ some (s : Int)) →
            w = ∑ t ∈ Finset.range (j + 1), V t s * z t)))
      (by omega)
      (by
        refine ⟨.of_upd1 hj U1, ?_, ?_⟩
        · intro s hs hle
          rcases Nat.lt_or_ge j s with h | h
          · rw [U1.ne (ix2_ne hs hj (Or.inl (by omega)))]
            exact hI.done s hs (by omega)
          · have : s = j := by omega
            subst this
            exact U1.self
        · intro s hs hlt
          refine ⟨_, ?_, fun hm => ?_, fun _ => rfl⟩
          · rw [U1.ne (ix2_ne hs hj (Or.inl (by omega)))]
            exact hI.todo s hs (by omega)
          · obtain ⟨m', q1, q2, _⟩ := hm; omega)
      (by
        rintro m y' hm1 hm2 ⟨fy, hdone, htodo⟩
        obtain ⟨s, hs, hsj, hUi, hUx⟩ := hU.ent j hj m hm1 (by omega)
        have hsj' : s < j := by
          rcases Nat.lt_or_ge s j with h | h
          · exact h
          · exfalso
            have : s = j := by omega
            subst this
            have := hU.inj s hj m (up (s + 1) - 1) hm1 (by omega) (by omega) (by omega)
              (by rw [hUi, hd2])
            omega
        have hlast : ∀ s' : ℕ, s' ≠ s →
            ((∃ m', up j ≤ m' ∧ m' < m + 1 ∧ get U.i m' = some (s' : Int)) →
              ∃ m', up j ≤ m' ∧ m' < m ∧ get U.i m' = some (s' : Int)) := by
          rintro s' hne ⟨m', q1, q2, q3⟩
          refine ⟨m', q1, ?_, q3⟩
          have : m' ≠ m := by
            rintro rfl
            rw [hUi] at q3
            have := Option.some.inj q3
            omega
          omega
        have hfirst : ∀ m', up j ≤ m' → m' < m → get U.i m' ≠ some (s : Int) := by
          intro m' q1 q2 q3
          have := hU.inj j hj m m' hm1 (by omega) q1 (by omega) (by rw [hUi, q3])
          omega
        obtain ⟨w, hw, hw1, hw2⟩ := htodo s hs hsj'
        have hwv := hw2 hfirst
        unfold backInnerB
        simp only [rd_eq hUx, ok_bind]
        by_cases hV : V j s = 0
        · rw [if_pos hV, wp_pure]
          refine ⟨fy, hdone, ?_⟩
          intro s' hs' hlt
          obtain ⟨w', q1, q2, q3⟩ := htodo s' hs' hlt
          refine ⟨w', q1, fun hex => ?_, fun hn => q3 fun m' e1 e2 => hn m' e1 (by omega)⟩
          by_cases he : s' = s
          · subst he
            rw [q3 hfirst, Finset.sum_range_succ, hV, zero_mul, add_zero]
          · exact q2 (hlast s' he hex)
        · rw [if_neg hV]
          have hsub : fits (w - V j s * z j) = true := by
            rw [hwv, Finset.sum_range_succ, add_sub_cancel_right]
            exact hz.sum j (by omega) s hs
          simp only [rd_eq hUi, rd_eq hw, rd_eq (hdone j hj (le_refl _)), ok_bind,
            zsubmulB_eq (hz.mul j hj s hs) hsub hw, wp_ok]
          have hb' := get_bounds hw
          have U2 : Upd1 y' (upd y' (ix2 (n : Int) (s : Int) (k : Int)) (w - V j s * z j)) _ _ :=
            .of_upd hb'.1 hb'.2
          refine ⟨fy.trans (.of_upd1 hs U2), ?_, ?_⟩
          · intro s' hs' hle
            rw [U2.ne (ix2_ne hs' hs (Or.inl (by omega)))]
            exact hdone s' hs' hle
          · intro s' hs' hlt
            by_cases he : s' = s
            · subst he
              refine ⟨_, U2.self, fun _ => ?_, fun hn => absurd hUi (hn m hm1 (by omega))⟩
              rw [hwv, Finset.sum_range_succ]; ring
            · obtain ⟨w', q1, q2, q3⟩ := htodo s' hs' hlt
              refine ⟨w', ?_, fun hex => q2 (hlast s' he hex),
                fun hn => q3 fun m' e1 e2 => hn m' e1 (by omega)⟩
              rw [U2.ne (ix2_ne hs' hs (Or.inl he))]; exact q1)
    obtain ⟨y', e, fy, hdone, htodo⟩ := wp_noFail hloop
    refine ⟨y', e, ⟨hdone, ?_⟩, fy⟩
    intro s hs hlt
    obtain ⟨w, hw, hw1, hw2⟩ := htodo s hs hlt
    rw [hw]
    congr 1
    by_cases hex : ∃ m', up j ≤ m' ∧ m' < up (j + 1) - 1 ∧ get U.i m' = some (s : Int)
    · exact hw1 hex
    · rw [hw2 fun m' q1 q2 q3 => hex ⟨m', q1, q2, q3⟩, Finset.sum_range_succ]
      have : V j s = 0 := by
        by_contra hV
        obtain ⟨m, q1, q2, q3⟩ := hU.full j hj s hs (by omega) hV
        refine hex ⟨m, q1, ?_, q3⟩
        have : m ≠ up (j + 1) - 1 := by
          rintro rfl
          rw [hd2] at q3
          have := Option.some.inj q3
          omega
        omega
      rw [this, zero_mul, add_zero]

/-- Back substitution solves `U z = y` when the integer solution `z` exists. -/
theorem slip_back_subB_spec {fits : Int → Bool} {n k : ℕ} {up : ℕ → ℤ} {U : Csc} {V : ℕ → ℕ → ℤ} {b : Dense Int}
    {f z : ℕ → ℕ → ℤ}
    (hU : FinCols n (fun t s => s ≤ t) V up U)
    (hdiag : ∀ t < n, up t < up (t + 1) ∧ get U.i (up (t + 1) - 1) = some (t : Int))
    (hne : ∀ t < n, V t t ≠ 0) (hlow : ∀ t s, t < s → V t s = 0)
    (hm : b.m = n) (hn : b.n = k) (hb : IsMat n k b.x f)
    (hz : ∀ j < k, ∀ s < n, f s j = ∑ t ∈ Finset.range n, V t s * z t j)
    (hfit : ∀ j < k, BackFits fits n V (fun s => z s j)) :
    ∃ y, slip_back_subB fits U b = .ok { b with x := y } ∧ y.length = b.x.length ∧ IsMat n k y z := by
  have hloop := wp_forRange (E := noFail) (lo := 0) (hi := (k : Int)) (s := b.x)
    (f := fun j y => forDown 0 (n : Int) y fun i y => backStepB fits U (n : Int) j i y)
    (fun p y => y.length = b.x.length ∧
      (∀ s < n, ∀ j < k, p ≤ (j : Int) → get y (ix2 (n : Int) (s : Int) (j : Int)) = some (f s j)) ∧
      (∀ s < n, ∀ j < k, (j : Int) < p → get y (ix2 (n : Int) (s : Int) (j : Int)) = some (z s j)))
    (by omega)
    ⟨rfl, fun s hs j hj _ => hb s hs j hj, fun s _ j _ h => by omega⟩
    (by
      rintro p y hp0 hp1 ⟨hl, hrest, hdone⟩
      obtain ⟨p, rfl⟩ := Int.eq_ofNat_of_zero_le hp0
      have hpk : p < k := by omega
      have hin := wp_forDown (E := noFail) (lo := 0) (hi := (n : Int)) (s := y)
        (f := fun i y => backStepB fits U (n : Int) (p : Int) i y)
        (fun t y' => BackInv n p V (fun s => z s p) t.toNat y' ∧ ColFrame n p y y')
        (by omega)
        ⟨⟨fun s hs h => by omega, fun s hs _ => by
          rw [hrest s hs p hpk (le_refl _), hz p hpk s hs]; simp⟩, .refl _ _ _⟩
        (by
          rintro t y1 ht0 ht1 ⟨hI, fy⟩
          obtain ⟨t, rfl⟩ := Int.eq_ofNat_of_zero_le ht0
          have et : ((t : Int) + 1).toNat = t + 1 := by omega
          rw [et] at hI
          obtain ⟨y', e, hI', fy'⟩ := backStepB_spec hU hdiag hne hlow (by omega) hI (hfit p hpk)
          rw [e, wp_ok]
          exact ⟨by simpa using hI', fy.trans fy'⟩)
      refine wp_post hin ?_
      rintro y' ⟨hI, fy⟩
      have hne' : ∀ s < n, ∀ j, j ≠ p → ∀ s' < n, ix2 (n : Int) (s : Int) (j : Int) ≠
          ix2 (n : Int) ((s' : ℕ) : Int) (p : Int) :=
        fun s hs j hj s' hs' => ix2_ne hs hs' (Or.inr hj)
      refine ⟨fy.len.trans hl, ?_, ?_⟩
      · intro s hs j hj hle
        rw [fy.same _ (hne' s hs j (by omega))]
        exact hrest s hs j hj (by omega)
      · intro s hs j hj hlt
        by_cases e : j = p
        · subst e
          exact hI.done s hs (by simp)
        · rw [fy.same _ (hne' s hs j e)]
          exact hdone s hs j hj (by omega))
  obtain ⟨y', e, hl, -, hd⟩ := wp_noFail hloop
  refine ⟨y', ?_, hl, fun s hs j hj => hd s hs j hj (by omega)⟩
  unfold slip_back_subB
  rw [hm, hn, hU.nEq, e]
  simp [← hm, ← hn]

@[simp] theorem backStepB_noLimit : backStepB noLimit = backStep := rfl

@[simp] theorem slip_back_subB_noLimit : slip_back_subB noLimit = slip_back_sub := by
  unfold slip_back_subB slip_back_sub
  simp only [backStepB_noLimit]

theorem slip_back_sub_spec {n k : ℕ} {up : ℕ → ℤ} {U : Csc} {V : ℕ → ℕ → ℤ} {b : Dense Int}
    {f z : ℕ → ℕ → ℤ}
    (hU : FinCols n (fun t s => s ≤ t) V up U)
    (hdiag : ∀ t < n, up t < up (t + 1) ∧ get U.i (up (t + 1) - 1) = some (t : Int))
    (hne : ∀ t < n, V t t ≠ 0) (hlow : ∀ t s, t < s → V t s = 0)
    (hm : b.m = n) (hn : b.n = k) (hb : IsMat n k b.x f)
    (hz : ∀ j < k, ∀ s < n, f s j = ∑ t ∈ Finset.range n, V t s * z t j) :
    ∃ y, slip_back_sub U b = .ok { b with x := y } ∧ y.length = b.x.length ∧ IsMat n k y z :=
  slip_back_subB_noLimit ▸ slip_back_subB_spec hU hdiag hne hlow hm hn hb hz fun _ _ =>
    ⟨fun _ _ => rfl, fun _ _ _ _ => rfl, fun _ _ _ _ => rfl⟩

end Slip
