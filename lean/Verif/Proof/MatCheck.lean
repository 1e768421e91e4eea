import Verif.SpecMat
import Verif.Model.MatCheck
import Mathlib.Tactic.Linarith

/-!
# `SLIP_matrix_check`: each part accepts exactly what it should
-/

namespace Slip

/-- Failing with SLIP_INCORRECT_INPUT because `P` is false. -/
abbrev rejects (P : Prop) : Fail → Prop := fun e => e = .ret .incorrectInput ∧ ¬ P

/-! ## column pointers -/

theorem checkPtr_spec {p : Arr Int} {P : ℤ → ℤ} {n : ℤ} (nz : ℤ) (hn : 0 ≤ n)
    (hp : ∀ j, 0 ≤ j → j ≤ n → get p j = some (P j)) :
    wp (checkPtr p n nz) (fun _ => ∀ j, 0 ≤ j → j < n → P j ≤ P (j + 1) ∧ P (j + 1) ≤ nz)
      (rejects (∀ j, 0 ≤ j → j < n → P j ≤ P (j + 1) ∧ P (j + 1) ≤ nz)) := by
  unfold checkPtr
  refine wp_post (wp_forRange (fun k _ => ∀ j, 0 ≤ j → j < k → P j ≤ P (j + 1) ∧ P (j + 1) ≤ nz) hn
    (fun j h1 h2 => by omega) ?_) fun _ h => h
  intro k _ hk0 hkn hI
  rw [rd_eq (hp k hk0 (by omega)), ok_bind, rd_eq (hp (k + 1) (by omega) (by omega)), ok_bind]
  split
  · rename_i h
    refine ⟨rfl, fun hall => ?_⟩
    have := hall k hk0 hkn
    omega
  · rename_i h
    rw [wp_pure]
    intro j h1 h2
    rcases lt_or_eq_of_le (Int.lt_add_one_iff.1 h2) with h3 | h3
    · exact hI j h1 h3
    · subst h3; omega

/-! ## row indices of a CSC matrix -/

/-- The rows of the entries `[a,b)` are in range and distinct. -/
def RowsOk (m : ℤ) (I : ℤ → ℤ) (a b : ℤ) : Prop :=
  (∀ t, a ≤ t → t < b → 0 ≤ I t ∧ I t < m) ∧
  ∀ t t', a ≤ t → t < b → a ≤ t' → t' < b → I t = I t' → t = t'

theorem checkRows_spec {A : Mat} {p i : Arr Int} {P I : ℤ → ℤ} {m n nz pr : ℤ}
    (hAm : A.m = m) (hAn : A.n = n) (hm : 0 ≤ m) (hn : 0 ≤ n)
    (hp : ∀ j, 0 ≤ j → j ≤ n → get p j = some (P j)) (h0 : P 0 = 0)
    (hmono : ∀ j, 0 ≤ j → j < n → P j ≤ P (j + 1) ∧ P (j + 1) ≤ nz)
    (hi : ∀ t, 0 ≤ t → t < nz → get i t = some (I t))
    (hx : 2 ≤ pr → ∀ t, 0 ≤ t → t < nz → printVal A t = .ok ()) :
    wp (checkRows A p i pr) (fun _ => ∀ j, 0 ≤ j → j < n → RowsOk m I (P j) (P (j + 1)))
      (rejects (∀ j, 0 ≤ j → j < n → RowsOk m I (P j) (P (j + 1)))) := by
  have hP0 : ∀ j : ℕ, (j : ℤ) ≤ n → 0 ≤ P j := by
    intro j
    induction j with
    | zero => intro _; simp [h0]
    | succ j ih =>
      intro hj
      have := hmono j (by omega) (by push_cast at hj; omega)
      push_cast
      have := ih (by push_cast at hj; omega)
      omega
  have hpos : ∀ j, 0 ≤ j → j ≤ n → 0 ≤ P j := by
    intro j h1 h2
    have := hP0 j.toNat (by omega)
    rwa [Int.toNat_of_nonneg h1] at this
  unfold checkRows
  rw [hAm, hAn]
  refine wp_bind_ok (P := fun _ => ∀ j, 0 ≤ j → j < n → RowsOk m I (P j) (P (j + 1))) ?_ fun _ h => h
  refine wp_post (wp_forRange (fun k (s : Arr Int × (Int × Int)) =>
    s.1.length = m.toNat ∧ (∀ r, 0 ≤ r → r < m → ∃ w, get s.1 r = some w ∧ w ≤ k) ∧
    (2 ≤ s.2.1 → 2 ≤ pr) ∧
    ∀ j, 0 ≤ j → j < k → RowsOk m I (P j) (P (j + 1))) hn ?_ ?_) fun s h => h.2.2.2
  · refine ⟨by simp, fun r h1 h2 => ⟨0, get_calloc h1 h2, le_rfl⟩, fun h => h, fun j h1 h2 => by omega⟩
  · rintro k ⟨work, s⟩ hk0 hkn ⟨hl, hw, hs, hI⟩
    dsimp only at hl hw hs hI ⊢
    rw [rd_eq (hp k hk0 (by omega)), ok_bind, rd_eq (hp (k + 1) (by omega) (by omega)), ok_bind]
    obtain ⟨hab, hbz⟩ := hmono k hk0 hkn
    have ha := hpos k hk0 (by omega)
    have hs' : 2 ≤ (prLimit s).1 → 2 ≤ pr := by
      unfold prLimit
      split <;> dsimp only
      · intro h; omega
      · exact hs
    refine wp_post (wp_forRange (fun t (st : Arr Int × (Int × Int)) =>
      st.1.length = m.toNat ∧ (∀ r, 0 ≤ r → r < m → ∃ w, get st.1 r = some w ∧ w ≤ k + 1 ∧
        (w = k + 1 ↔ ∃ t', P k ≤ t' ∧ t' < t ∧ I t' = r)) ∧
      (2 ≤ st.2.1 → 2 ≤ pr) ∧ RowsOk m I (P k) t) hab ?_ ?_) ?_
    · refine ⟨hl, fun r h1 h2 => ?_, hs', ⟨fun t h1 h2 => by omega, fun t t' h1 h2 => by omega⟩⟩
      obtain ⟨w, g, hle⟩ := hw r h1 h2
      exact ⟨w, g, by omega, fun h => by omega, fun ⟨t', h3, h4, _⟩ => by omega⟩
    · rintro t ⟨work, s⟩ hat htb ⟨hl, hw, hs, hC1, hC2⟩
      dsimp only at hl hw hs ⊢
      rw [rd_eq (hi t (by omega) (by omega)), ok_bind]
      split
      · rename_i h
        refine ⟨rfl, fun hall => ?_⟩
        have := (hall k hk0 hkn).1 t hat htb
        omega
      rename_i hr
      obtain ⟨w, g, hle, hiff⟩ := hw (I t) (by omega) (by omega)
      rw [rd_eq g, ok_bind]
      split
      · rename_i h
        refine ⟨rfl, fun hall => ?_⟩
        obtain ⟨t', h1, h2, h3⟩ := hiff.1 h
        have := (hall k hk0 hkn).2 t' t h1 (by omega) hat htb h3
        omega
      rename_i hne
      have fin : ∀ s' : Int × Int, (2 ≤ s'.1 → 2 ≤ pr) →
          wp (do
            let work ← wr work (I t) (k + 1)
            pure (work, s')) (fun (st : Arr Int × (Int × Int)) =>
            st.1.length = m.toNat ∧ (∀ r, 0 ≤ r → r < m → ∃ w, get st.1 r = some w ∧ w ≤ k + 1 ∧
              (w = k + 1 ↔ ∃ t', P k ≤ t' ∧ t' < t + 1 ∧ I t' = r)) ∧
            (2 ≤ st.2.1 → 2 ≤ pr) ∧ RowsOk m I (P k) (t + 1))
            (rejects (∀ j, 0 ≤ j → j < n → RowsOk m I (P j) (P (j + 1)))) := by
        intro s' hs''
        rw [wr_eq (by omega) (by omega), ok_bind, wp_pure]
        refine ⟨by simpa using hl, fun r h1 h2 => ?_, hs'', ⟨fun t' h1 h2 => ?_, fun t1 t2 h1 h2 h3 h4 e => ?_⟩⟩
        · dsimp only
          rw [get_upd (by omega) (by omega)]
          by_cases h : r = I t
          · rw [if_pos h]
            exact ⟨k + 1, rfl, le_rfl, fun _ => ⟨t, hat, by omega, h.symm⟩, fun _ => rfl⟩
          · rw [if_neg h]
            obtain ⟨w', g', hle', hiff'⟩ := hw r h1 h2
            refine ⟨w', g', hle', fun e => ?_, ?_⟩
            · obtain ⟨t', a1, a2, a3⟩ := hiff'.1 e
              exact ⟨t', a1, by omega, a3⟩
            · rintro ⟨t', a1, a2, a3⟩
              refine hiff'.2 ⟨t', a1, ?_, a3⟩
              rcases lt_or_eq_of_le (Int.lt_add_one_iff.1 a2) with h5 | h5
              · exact h5
              · subst h5; exact absurd a3.symm h
        · rcases lt_or_eq_of_le (Int.lt_add_one_iff.1 h2) with h5 | h5
          · exact hC1 t' h1 h5
          · subst h5; omega
        · have no : ∀ t', P k ≤ t' → t' < t → I t' ≠ I t := fun t' a1 a2 a3 =>
            hne (hiff.2 ⟨t', a1, a2, a3⟩)
          rcases lt_or_eq_of_le (Int.lt_add_one_iff.1 h2) with h5 | h5 <;>
          rcases lt_or_eq_of_le (Int.lt_add_one_iff.1 h4) with h6 | h6
          · exact hC2 t1 t2 h1 h5 h3 h6 e
          · subst h6; exact absurd e (no t1 h1 h5)
          · subst h5; exact absurd e.symm (no t2 h3 h6)
          · omega
      split
      · rename_i h2
        rw [hx (hs (by simpa using h2)) t (by omega) (by omega), ok_bind]
        refine fin _ ?_
        unfold prLimit
        split <;> dsimp only
        · intro h; omega
        · exact hs
      · exact fin _ hs
    · rintro ⟨work, s⟩ ⟨hl, hw, hs, hC⟩
      refine ⟨hl, fun r h1 h2 => ?_, hs, fun j h1 h2 => ?_⟩
      · obtain ⟨w, g, hle, -⟩ := hw r h1 h2
        exact ⟨w, g, hle⟩
      · rcases lt_or_eq_of_le (Int.lt_add_one_iff.1 h2) with h5 | h5
        · exact hI j h1 h5
        · subst h5; exact hC

/-! ## triplets -/

theorem checkTriplets_spec {A : Mat} {i j : Arr Int} {I J : ℤ → ℤ} {nz pr : ℤ} (hz : 0 ≤ nz)
    (hi : ∀ t, 0 ≤ t → t < nz → get i t = some (I t))
    (hj : ∀ t, 0 ≤ t → t < nz → get j t = some (J t))
    (hx : 2 ≤ pr → ∀ t, 0 ≤ t → t < nz → printVal A t = .ok ()) :
    wp (checkTriplets A i j nz pr)
      (fun _ => ∀ t, 0 ≤ t → t < nz → (0 ≤ I t ∧ I t < A.m) ∧ 0 ≤ J t ∧ J t < A.n)
      (rejects (∀ t, 0 ≤ t → t < nz → (0 ≤ I t ∧ I t < A.m) ∧ 0 ≤ J t ∧ J t < A.n)) := by
  unfold checkTriplets
  refine wp_bind_ok (P := fun _ => ∀ t, 0 ≤ t → t < nz → (0 ≤ I t ∧ I t < A.m) ∧ 0 ≤ J t ∧ J t < A.n)
    ?_ fun _ h => h
  refine wp_post (wp_forRange (fun k (s : Int × Int) => (2 ≤ s.1 → 2 ≤ pr) ∧
    ∀ t, 0 ≤ t → t < k → (0 ≤ I t ∧ I t < A.m) ∧ 0 ≤ J t ∧ J t < A.n) hz
    ⟨fun h => h, fun t h1 h2 => by omega⟩ ?_) fun _ h => h.2
  rintro k s hk0 hkn ⟨hs, hI⟩
  rw [rd_eq (hi k hk0 hkn), ok_bind, rd_eq (hj k hk0 hkn), ok_bind]
  split
  · rename_i h
    refine ⟨rfl, fun hall => ?_⟩
    have := hall k hk0 hkn
    omega
  rename_i h
  have hI' : ∀ t, 0 ≤ t → t < k + 1 → (0 ≤ I t ∧ I t < A.m) ∧ 0 ≤ J t ∧ J t < A.n := by
    intro t h1 h2
    rcases lt_or_eq_of_le (Int.lt_add_one_iff.1 h2) with h5 | h5
    · exact hI t h1 h5
    · subst h5; omega
  split
  · rename_i h2
    rw [hx (hs (by simpa using h2)) k (by omega) (by omega), ok_bind]
    refine ⟨?_, hI'⟩
    unfold prLimit
    split <;> dsimp only
    · intro h; omega
    · exact hs
  · exact ⟨hs, hI'⟩

/-- What the C library promises about `qsort`: the elements are kept and come out in order. -/
def QsortOk (qs : List (Int × Int) → List (Int × Int)) : Prop :=
  ∀ l, (qs l).Perm l ∧ (qs l).Pairwise fun a b => compar a b ≤ 0

theorem compar_lt {a b : Int × Int} : compar a b < 0 ↔ a.1 < b.1 ∨ a.1 = b.1 ∧ a.2 < b.2 := by
  unfold compar; split_ifs <;> omega

theorem compar_le {a b : Int × Int} : compar a b ≤ 0 ↔ a.1 < b.1 ∨ a.1 = b.1 ∧ a.2 ≤ b.2 := by
  unfold compar; split_ifs <;> omega

theorem sorted_nodup {l : List (Int × Int)} (h : l.Pairwise fun a b => compar a b ≤ 0)
    (hne : ∀ k (h1 : k + 1 < l.length), l[k + 1] ≠ l[k]) : l.Nodup := by
  have : l.Pairwise fun a b => compar a b < 0 := by
    have tr : IsTrans (Int × Int) fun a b => compar a b < 0 := ⟨fun a b c h1 h2 => by
      rw [compar_lt] at *; omega⟩
    rw [← List.isChain_iff_pairwise, List.isChain_iff_getElem]
    intro k hk
    have h1 := List.pairwise_iff_getElem.1 h k (k + 1) (by omega) (by omega) (by omega)
    have h2 := hne k (by omega)
    rw [compar_le] at h1
    rw [compar_lt]
    rcases h1 with h1 | ⟨h1, h3⟩
    · exact Or.inl h1
    · right
      refine ⟨h1, lt_of_le_of_ne h3 fun e => h2 ?_⟩
      ext
      · exact h1.symm
      · exact e.symm
  refine this.imp fun {a b} h e => ?_
  subst e
  rw [compar_lt] at h
  omega

theorem get_map_some_nat {l : List α} {t : ℕ} (h : t < l.length) : get (l.map some) t = some l[t] := by
  unfold get
  rw [if_neg (by omega)]
  simp [h, Option.join]

theorem checkDup_spec {qs : List (Int × Int) → List (Int × Int)} (hq : QsortOk qs) {i j : Arr Int}
    {I J : ℤ → ℤ} {nz : ℤ} (hz : 0 ≤ nz)
    (hi : ∀ t, 0 ≤ t → t < nz → get i t = some (I t))
    (hj : ∀ t, 0 ≤ t → t < nz → get j t = some (J t)) :
    wp (checkDup qs i j nz)
      (fun _ => ∀ t t', 0 ≤ t → t < nz → 0 ≤ t' → t' < nz → I t = I t' → J t = J t' → t = t')
      (rejects (∀ t t', 0 ≤ t → t < nz → 0 ≤ t' → t' < nz → I t = I t' → J t = J t' → t = t')) := by
  obtain ⟨N, rfl⟩ := Int.eq_ofNat_of_zero_le hz
  unfold checkDup
  set l : ℕ → List (Int × Int) := fun k => (List.range k).map fun t : ℕ => (J t, I t)
  refine wp_bind_ok (P := fun w => w = l N) ?_ ?_
  · refine wp_post (wp_forRange (fun k w => w = l k.toNat) (by omega) (by simp [l]) ?_) fun w h => h
    rintro k w hk0 hkn rfl
    rw [rd_eq (hj k hk0 hkn), ok_bind, rd_eq (hi k hk0 hkn), ok_bind, wp_pure]
    rw [show (k + 1).toNat = k.toNat + 1 by omega]
    simp only [l, List.range_succ, List.map_append, List.map_cons, List.map_nil]
    rw [Int.toNat_of_nonneg hk0]
  · rintro w rfl
    obtain ⟨hperm, hsort⟩ := hq (l N)
    have hlen : (qs (l N)).length = N := by rw [hperm.length_eq]; simp [l]
    have hnd : (qs (l N)).Nodup ↔
        ∀ t t', 0 ≤ t → t < (N : ℤ) → 0 ≤ t' → t' < (N : ℤ) → I t = I t' → J t = J t' → t = t' := by
      rw [hperm.nodup_iff]
      rw [List.nodup_map_iff_inj_on List.nodup_range]
      constructor
      · intro h t t' h1 h2 h3 h4 e1 e2
        have := h t.toNat (List.mem_range.2 (by omega)) t'.toNat (List.mem_range.2 (by omega)) (by
          rw [Int.toNat_of_nonneg h1, Int.toNat_of_nonneg h3, e1, e2])
        omega
      · intro h t ht t' ht' e
        have := h t t' (by omega) (by exact_mod_cast List.mem_range.1 ht) (by omega)
          (by exact_mod_cast List.mem_range.1 ht') (congrArg Prod.snd e) (congrArg Prod.fst e)
        exact_mod_cast this
    rw [← hnd]
    rcases Nat.eq_zero_or_pos N with h0 | h0
    · rw [forRange_empty (by omega)]
      rw [wp_ok]
      have : qs (l N) = [] := List.length_eq_zero_iff.1 (by omega)
      rw [this]
      exact List.nodup_nil
    refine wp_post (wp_forRange (fun k _ => ∀ t (h1 : t + 1 < (qs (l N)).length), (t : ℤ) + 1 < k →
      (qs (l N))[t + 1] ≠ (qs (l N))[t]) (by omega) (fun t h1 h2 => by omega) ?_) fun _ h =>
      sorted_nodup hsort fun t h1 => h t h1 (by omega)
    intro k _ hk1 hkn hI
    obtain ⟨t, rfl⟩ : ∃ t : ℕ, k = ((t + 1 : ℕ) : ℤ) := ⟨(k - 1).toNat, by omega⟩
    have ht : t + 1 < (qs (l N)).length := by omega
    rw [rd_eq (get_map_some_nat ht), ok_bind,
      show ((t + 1 : ℕ) : ℤ) - 1 = ((t : ℕ) : ℤ) by push_cast; omega,
      rd_eq (get_map_some_nat (show t < (qs (l N)).length by omega)), ok_bind]
    split
    · rename_i h
      refine ⟨rfl, fun hn => ?_⟩
      have := List.nodup_iff_injective_getElem.1 hn (a₁ := ⟨t + 1, ht⟩) (a₂ := ⟨t, by omega⟩)
        (Prod.ext h.1 h.2)
      simp at this
    · rename_i h
      rw [wp_pure]
      intro t' h1 h2
      by_cases h3 : (t' : ℤ) + 1 < ((t + 1 : ℕ) : ℤ)
      · exact hI t' h1 h3
      · obtain rfl : t' = t := by push_cast at h2 h3; omega
        intro e
        exact h ⟨congrArg Prod.fst e, congrArg Prod.snd e⟩

/-! ## dense -/

theorem checkDense_spec {A : Mat} {pr : ℤ} (hm : 0 ≤ A.m) (hn : 0 ≤ A.n)
    (hx : 2 ≤ pr → ∀ t, 0 ≤ t → t < A.m * A.n → printVal A t = .ok ()) :
    wp (checkDense A pr) (fun _ => True) noFail := by
  unfold checkDense
  refine wp_bind_ok (P := fun _ => True) ?_ fun _ _ => trivial
  refine wp_post (wp_forRange (fun _ (s : Int × Int) => 2 ≤ s.1 → 2 ≤ pr) hn (fun h => h) ?_) fun _ _ => trivial
  intro j s hj0 hjn hs
  have lim : ∀ s : Int × Int, (2 ≤ s.1 → 2 ≤ pr) → 2 ≤ (prLimit s).1 → 2 ≤ pr := by
    intro s hs
    unfold prLimit
    split <;> dsimp only
    · intro h; omega
    · exact hs
  refine wp_forRange (fun _ (s : Int × Int) => 2 ≤ s.1 → 2 ≤ pr) hm (lim s hs) ?_
  intro i s hi0 him hs
  split
  · rename_i h
    rw [hx (hs h) (i + j * A.m) (by positivity) (by nlinarith), ok_bind, wp_pure]
    exact lim s hs
  · exact hs

end Slip
