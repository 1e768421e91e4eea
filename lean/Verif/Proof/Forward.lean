import Verif.Proof.DenseOps
import Verif.Proof.Factorize

/-! # Forward substitution -/

namespace Slip

variable {A : ℕ → ℕ → ℤ} {r c : ℕ → ℕ}

/-- The update of the forward substitution is the IPGE update of the triangular solve. -/
theorem fwdUpdateB_eq {fits : Int → Bool} {rhos h x : Arr Int} {ij ii i l hv : Int}
    (hh : get h ij = some hv) (hhv : -1 ≤ hv) (hi : 0 ≤ i) :
    fwdUpdateB fits rhos h x ij ii i l = ipgeUpdateB fits rhos h x ij ii i l := by
  unfold fwdUpdateB ipgeUpdateB
  cases hxj : rd x ij with
  | error e => rfl
  | ok xj =>
    simp only [ok_bind]
    by_cases h0 : xj = 0
    · rw [if_pos h0, if_pos h0]
      by_cases hi0 : i < 1
      · have hng : ¬ i > 0 := by omega
        rw [if_pos hi0]
        simp only [if_neg hng, bind_assoc, pure_bind']
      · have hg : i > 0 := by omega
        rw [if_neg hi0]
        simp only [if_pos hg, bind_assoc]
    · rw [if_neg h0, if_neg h0]
      by_cases hi0 : i < 1
      · have hng : ¬ i > 0 := by omega
        have e0 : i = 0 := by omega
        subst e0
        rw [if_pos hi0]
        have hnh : ¬ hv < (0 : Int) - 1 := by omega
        simp only [if_neg hng, bind_assoc, pure_bind', rd_eq hh, ok_bind, histUpdateB, if_neg hnh]
        simp only [hxj, ok_bind]
      · have hg : i > 0 := by omega
        rw [if_neg hi0]
        simp only [if_pos hg, bind_assoc]

/-- State of the forward substitution of one right-hand side `v` (column `k` of the dense
matrix) when positions `< ν` are final. -/
structure FwdInv (A : ℕ → ℕ → ℤ) (r c : ℕ → ℕ) (n k : ℕ) (v : ℕ → ℤ) (ν : ℕ) (h x : Arr Int) :
    Prop where
  done : ∀ s < n, s < ν → get x (ix2 (n : Int) (s : Int) (k : Int)) = some (lev A r c s v (r s))
  todo : ∀ s < n, ν ≤ s → ∃ (g : ℕ) (xv : ℤ),
    get h (ix2 (n : Int) (s : Int) (k : Int)) = some ((g : Int) - 1) ∧
    get x (ix2 (n : Int) (s : Int) (k : Int)) = some xv ∧ Rel A r c v (r s) ν g xv

/-- Only entries of column `k` may differ. -/
structure ColFrame (n k : ℕ) (x x' : Arr Int) : Prop where
  len : x'.length = x.length
  same : ∀ t : Int, (∀ s < n, t ≠ ix2 (n : Int) ((s : ℕ) : Int) (k : Int)) → get x' t = get x t

theorem ColFrame.refl (n k : ℕ) (x : Arr Int) : ColFrame n k x x := ⟨rfl, fun _ _ => rfl⟩

theorem ColFrame.trans {n k : ℕ} {x y z : Arr Int} (h : ColFrame n k x y) (h' : ColFrame n k y z) :
    ColFrame n k x z := ⟨h'.len.trans h.len, fun t ht => (h'.same t ht).trans (h.same t ht)⟩

theorem ColFrame.of_upd1 {n k s : ℕ} {x y : Arr Int} {w : Int} (hs : s < n)
    (h : Upd1 x y (ix2 (n : Int) (s : Int) (k : Int)) w) : ColFrame n k x y :=
  ⟨h.len, fun _ ht => h.ne (ht s hs)⟩

theorem fwdStepB_spec {fits : Int → Bool} {n k ν : ℕ} {lp : ℕ → ℤ} {L : Csc} {rhos h x : Arr Int} {v : ℕ → ℤ}
    (hL : FinCols n (fun t s => t ≤ s) (fun t s => lev A r c t (fun i => A i (c t)) (r s)) lp L)
    (hρ : RhosOk A r c n rhos) (hν : ν < n) (hI : FwdInv A r c n k v ν h x)
    (hz : SizeOk fits A r c (fun i => ∃ s < n, i = r s) n v) :
    ∃ h' x', fwdStepB fits L rhos (n : Int) (k : Int) (ν : Int) h x = .ok (h', x') ∧
      FwdInv A r c n k v (ν + 1) h' x' ∧ ColFrame n k h h' ∧ ColFrame n k x x' := by
  obtain ⟨g, xv, hg, hxv, hRel⟩ := hI.todo ν hν (le_refl _)
  have hgle := hRel.2
  unfold fwdStepB
  rw [rd_eq hg, ok_bind, rd_eq hxv, ok_bind]
  by_cases hx0 : xv = 0
  · rw [if_pos hx0]
    subst hx0
    have hlz := hRel.lev_zero (hρ.ne g (by omega))
    refine ⟨h, x, rfl, ⟨?_, ?_⟩, .refl _ _ _, .refl _ _ _⟩
    · intro s hs hlt
      rcases Nat.lt_or_ge s ν with h1 | h1
      · exact hI.done s hs h1
      · have : s = ν := by omega
        subst this
        rw [hxv, hlz]
    · intro s hs hle
      obtain ⟨g', xv', h1, h2, h3⟩ := hI.todo s hs (by omega)
      exact ⟨g', xv', h1, h2, h3.skip (hρ.ne _ (by omega)) (by rw [hlz, mul_zero])⟩
  · rw [if_neg hx0]
    obtain ⟨x1, hx1, U1⟩ := histUpdateB_spec hρ hz hxv hRel (by omega) ⟨ν, hν, rfl⟩
    have ep : ((ν : ℕ) : Int) + 1 = ((ν + 1 : ℕ) : Int) := by omega
    rw [hx1, ok_bind, rd_eq (hL.ptr ν (by omega)), ok_bind, ep,
      rd_eq (hL.ptr (ν + 1) (by omega)), ok_bind]
    have hloop := wp_forRange (E := noFail) (lo := lp ν) (hi := lp (ν + 1)) (s := (h, x1))
      (f := fun j (st : Arr Int × Arr Int) => match st with
        | (h, x) => do
          let jnew ← rd L.i j
          let lji ← rd L.x j
          if lji = 0 then pure (h, x)
          else if jnew > (ν : Int) then
            fwdUpdateB fits rhos h x (ix2 (n : Int) jnew (k : Int)) (ix2 (n : Int) (ν : Int) (k : Int))
              (ν : Int) lji
          else pure (h, x))
      (fun m (st : Arr Int × Arr Int) =>
        ColFrame n k h st.1 ∧ ColFrame n k x st.2 ∧
        (∀ s < n, s ≤ ν → get st.2 (ix2 (n : Int) (s : Int) (k : Int)) =
          some (lev A r c s v (r s))) ∧
        (∀ s < n, ν < s → ∃ (g : ℕ) (xv : ℤ),
          get st.1 (ix2 (n : Int) (s : Int) (k : Int)) = some ((g : Int) - 1) ∧
          get st.2 (ix2 (n : Int) (s : Int) (k : Int)) = some xv ∧
          ((∃ m', lp ν ≤ m' ∧ m' < m ∧ get L.i m' = some (s : Int)) →
            Rel A r c v (r s) (ν + 1) g xv) ∧
          ((∀ m', lp ν ≤ m' → m' < m → get L.i m' ≠ some (s : Int)) →
            Rel A r c v (r s) ν g xv)))
      (hL.mono ν hν)
      (by
        refine ⟨.refl _ _ _, .of_upd1 hν U1, ?_, ?_⟩
        · intro s hs hle
          rcases Nat.lt_or_ge s ν with h1 | h1
          · rw [U1.ne (ix2_ne hs hν (Or.inl (by omega)))]
            exact hI.done s hs h1
          · have : s = ν := by omega
            subst this
            exact U1.self
        · intro s hs hlt
          obtain ⟨g', xv', h1, h2, h3⟩ := hI.todo s hs (by omega)
          refine ⟨g', xv', h1, ?_, fun hm => ?_, fun _ => h3⟩
          · rw [U1.ne (ix2_ne hs hν (Or.inl (by omega)))]; exact h2
          · obtain ⟨m', q1, q2, _⟩ := hm; omega)
      (by
        rintro m ⟨h2, x2⟩ hm1 hm2 ⟨fh, fx, hdone, htodo⟩
        simp only at fh fx hdone htodo
        obtain ⟨s, hs, hsν, hLi, hLx⟩ := hL.ent ν hν m hm1 hm2
        simp only [rd_eq hLi, rd_eq hLx, ok_bind]
        have hlast : ∀ s' : ℕ, s' ≠ s →
            ((∃ m', lp ν ≤ m' ∧ m' < m + 1 ∧ get L.i m' = some (s' : Int)) →
              ∃ m', lp ν ≤ m' ∧ m' < m ∧ get L.i m' = some (s' : Int)) := by
          rintro s' hne ⟨m', q1, q2, q3⟩
          refine ⟨m', q1, ?_, q3⟩
          have : m' ≠ m := by
            rintro rfl
            rw [hLi] at q3
            have := Option.some.inj q3
            omega
          omega
        have hfirst : ∀ m', lp ν ≤ m' → m' < m → get L.i m' ≠ some (s : Int) := by
          intro m' q1 q2 q3
          have := hL.inj ν hν m m' hm1 hm2 q1 (by omega) (by rw [hLi, q3])
          omega
        by_cases hl0 : lev A r c ν (fun i => A i (c ν)) (r s) = 0
        · rw [if_pos hl0, wp_pure]
          refine ⟨fh, fx, hdone, ?_⟩
          intro s' hs' hlt
          obtain ⟨g', xv', h1, h3, h4, h5⟩ := htodo s' hs' hlt
          refine ⟨g', xv', h1, h3, ?_, fun hn => h5 fun m' q1 q2 => hn m' q1 (by omega)⟩
          intro hex
          by_cases he : s' = s
          · subst he
            exact (h5 hfirst).skip (hρ.ne _ (by omega)) (by rw [hl0, zero_mul])
          · exact h4 (hlast s' he hex)
        · rw [if_neg hl0]
          by_cases hgt : ν < s
          · rw [if_pos (by omega)]
            obtain ⟨g', xv', h1, h3, h4, h5⟩ := htodo s hs hgt
            rw [fwdUpdateB_eq h1 (by omega) (by omega)]
            obtain ⟨h', x', e, Uh, Ux⟩ := ipgeUpdateB_spec hρ hz h3 (h5 hfirst) hν h1
              (ix2_ne hν hs (Or.inl (by omega))) (hdone ν hν (le_refl _)) ⟨s, hs, rfl⟩
            rw [e, wp_ok]
            refine ⟨fh.trans (.of_upd1 hs Uh), fx.trans (.of_upd1 hs Ux), ?_, ?_⟩
            · intro s' hs' hle
              rw [Ux.ne (ix2_ne hs' hs (Or.inl (by omega)))]
              exact hdone s' hs' hle
            · intro s' hs' hlt
              by_cases he : s' = s
              · subst he
                refine ⟨ν + 1, _, ?_, Ux.self, fun _ => Rel.exact _ _ _, fun hn => ?_⟩
                · rw [Uh.self]; congr 1; push_cast; ring
                · exact absurd hLi (hn m hm1 (by omega))
              · obtain ⟨g'', xv'', q1, q2, q3, q4⟩ := htodo s' hs' hlt
                refine ⟨g'', xv'', ?_, ?_, fun hex => q3 (hlast s' he hex),
                  fun hn => q4 fun m' w1 w2 => hn m' w1 (by omega)⟩
                · rw [Uh.ne (ix2_ne hs' hs (Or.inl he))]; exact q1
                · rw [Ux.ne (ix2_ne hs' hs (Or.inl he))]; exact q2
          · rw [if_neg (by omega), wp_pure]
            refine ⟨fh, fx, hdone, ?_⟩
            intro s' hs' hlt
            obtain ⟨g', xv', h1, h3, h4, h5⟩ := htodo s' hs' hlt
            exact ⟨g', xv', h1, h3, fun hex => h4 (hlast s' (by omega) hex),
              fun hn => h5 fun m' q1 q2 => hn m' q1 (by omega)⟩)
    obtain ⟨⟨h', x'⟩, e, fh, fx, hdone, htodo⟩ := wp_noFail hloop
    refine ⟨h', x', e, ⟨fun s hs hlt => hdone s hs (by omega), ?_⟩, fh, fx⟩
    intro s hs hle
    obtain ⟨g', xv', h1, h3, h4, h5⟩ := htodo s hs (by omega)
    refine ⟨g', xv', h1, h3, ?_⟩
    by_cases hl0 : lev A r c ν (fun i => A i (c ν)) (r s) = 0
    · by_cases hex : ∃ m', lp ν ≤ m' ∧ m' < lp (ν + 1) ∧ get L.i m' = some (s : Int)
      · exact h4 hex
      · refine (h5 fun m' q1 q2 q3 => hex ⟨m', q1, q2, q3⟩).skip (hρ.ne _ (by omega))
          (by rw [hl0, zero_mul])
    · exact h4 (hL.full ν hν s hs (by omega) hl0)

/-- Forward substitution turns each right-hand side `b_j` (permuted) into the vector of bordered
minors `lev s b_j (r s)`. -/
theorem slip_forward_subB_spec {fits : Int → Bool} {n k : ℕ} {lp : ℕ → ℤ} {L : Csc} {rhos : Arr Int} {b : Dense Int}
    {f : ℕ → ℕ → ℤ}
    (hL : FinCols n (fun t s => t ≤ s) (fun t s => lev A r c t (fun i => A i (c t)) (r s)) lp L)
    (hρ : RhosOk A r c n rhos) (hm : b.m = n) (hn : b.n = k)
    (hnz : b.nzmax = max ((n : Int) * k) 1)
    (hb : IsMat n k b.x (fun s j => f (r s) j))
    (hz : ∀ j < k, SizeOk fits A r c (fun i => ∃ s < n, i = r s) n (fun i => f i j)) :
    ∃ y, slip_forward_subB fits L b rhos = .ok { b with x := y } ∧ y.length = b.x.length ∧
      IsMat n k y (fun s j => lev A r c s (fun i => f i j) (r s)) := by
  -- the history array
  have hloop1 := wp_forRange (E := noFail) (lo := 0) (hi := max ((n : Int) * k) 1)
    (s := (allocDense Int (n : Int) (k : Int)).x) (f := fun i h => wr h i (-1))
    (fun p h => h.length = max (n * k) 1 ∧ ∀ t : Int, 0 ≤ t → t < p → get h t = some (-1))
    (by omega) ⟨allocDense_len, fun t h1 h2 => by omega⟩
    (by
      rintro p h hp0 hp1 ⟨hl, hg⟩
      have hb : p < (h.length : Int) := by rw [hl]; rw [mn_cast] at hp1; omega
      rw [wr_eq hp0 hb]
      simp only [wp_ok, length_upd]
      refine ⟨hl, fun t h1 h2 => ?_⟩
      rw [get_upd hp0 hb]
      by_cases e : t = p
      · simp [e]
      · rw [if_neg e]; exact hg t h1 (by omega))
  obtain ⟨h0, e0, hl0, hg0⟩ := wp_noFail hloop1
  have hh0 : ∀ s < n, ∀ j < k, get h0 (ix2 (n : Int) (s : Int) (j : Int)) = some (-1) := by
    intro s hs j hj
    have := ix2_lt hs hj
    rw [ix2_nat]
    exact hg0 _ (by omega) (by rw [mn_cast]; omega)
  have hloop2 := wp_forRange (E := noFail) (lo := 0) (hi := (k : Int)) (s := (h0, b.x))
    (f := fun j (st : Arr Int × Arr Int) => match st with
      | (h, y) => forRange 0 (n : Int) (h, y) fun i (st : Arr Int × Arr Int) => match st with
        | (h, y) => fwdStepB fits L rhos (n : Int) j i h y)
    (fun p st => st.2.length = b.x.length ∧
      (∀ s < n, ∀ j < k, p ≤ (j : Int) → get st.1 (ix2 (n : Int) (s : Int) (j : Int)) = some (-1) ∧
        get st.2 (ix2 (n : Int) (s : Int) (j : Int)) = some (f (r s) j)) ∧
      (∀ s < n, ∀ j < k, (j : Int) < p → get st.2 (ix2 (n : Int) (s : Int) (j : Int)) =
        some (lev A r c s (fun i => f i j) (r s))))
    (by omega)
    ⟨rfl, fun s hs j hj _ => ⟨hh0 s hs j hj, hb s hs j hj⟩, fun s _ j _ h => by omega⟩
    (by
      rintro p ⟨h, y⟩ hp0 hp1 ⟨hl, hrest, hdone⟩
      simp only at hl hrest hdone
      obtain ⟨p, rfl⟩ := Int.eq_ofNat_of_zero_le hp0
      have hpk : p < k := by omega
      have hin := wp_forRange (E := noFail) (lo := 0) (hi := (n : Int)) (s := (h, y))
        (f := fun i (st : Arr Int × Arr Int) => match st with
          | (h, y) => fwdStepB fits L rhos (n : Int) (p : Int) i h y)
        (fun t st => FwdInv A r c n p (fun i => f i p) t.toNat st.1 st.2 ∧
          ColFrame n p h st.1 ∧ ColFrame n p y st.2)
        (by omega)
        ⟨⟨fun s hs h => by omega, fun s hs _ => ⟨0, f (r s) p, (hrest s hs p hpk (le_refl _)).1,
          (hrest s hs p hpk (le_refl _)).2, Rel.zero (fun i => f i p) (r s)⟩⟩,
          .refl _ _ _, .refl _ _ _⟩
        (by
          rintro t ⟨h1, y1⟩ ht0 ht1 ⟨hI, fh, fy⟩
          obtain ⟨t, rfl⟩ := Int.eq_ofNat_of_zero_le ht0
          rw [Int.toNat_natCast] at hI
          simp only at hI fh fy ⊢
          obtain ⟨h', x', e, hI', fh', fx'⟩ := fwdStepB_spec hL hρ (by omega) hI (hz p hpk)
          rw [e, wp_ok]
          have et : ((t : Int) + 1).toNat = t + 1 := by omega
          rw [et]
          exact ⟨hI', fh.trans fh', fy.trans fx'⟩)
      refine wp_post hin ?_
      rintro ⟨h', y'⟩ ⟨hI, fh, fy⟩
      simp only at fh fy hI ⊢
      have hne : ∀ s < n, ∀ j, j ≠ p → ∀ s' < n, ix2 (n : Int) (s : Int) (j : Int) ≠
          ix2 (n : Int) ((s' : ℕ) : Int) (p : Int) :=
        fun s hs j hj s' hs' => ix2_ne hs hs' (Or.inr hj)
      refine ⟨fy.len.trans hl, ?_, ?_⟩
      · intro s hs j hj hle
        rw [fh.same _ (hne s hs j (by omega)), fy.same _ (hne s hs j (by omega))]
        exact hrest s hs j hj (by omega)
      · intro s hs j hj hlt
        by_cases e : j = p
        · subst e
          exact hI.done s hs (by simpa using hs)
        · rw [fy.same _ (hne s hs j e)]
          exact hdone s hs j hj (by omega))
  obtain ⟨⟨h', y'⟩, e, hl, -, hd⟩ := wp_noFail hloop2
  refine ⟨y', ?_, hl, fun s hs j hj => hd s hs j hj (by omega)⟩
  unfold slip_forward_subB
  simp only [hm, hn, hnz]
  rw [e0, ok_bind]
  have e' : (forRange 0 (k : Int) (h0, b.x) fun j (st : Arr Int × Arr Int) => match st with
      | (h, y) => forRange 0 (n : Int) (h, y) fun i (st : Arr Int × Arr Int) => match st with
        | (h, y) => fwdStepB fits L rhos (n : Int) j i h y) = .ok (h', y') := e
  rw [e', ok_bind]
  simp only [← hm, ← hn, ← hnz]
  rfl

@[simp] theorem fwdUpdateB_noLimit : fwdUpdateB noLimit = fwdUpdate := by
  unfold fwdUpdateB fwdUpdate
  simp only [histUpdateB_noLimit, zsetB_noLimit, zsubmulB_noLimit]

@[simp] theorem fwdStepB_noLimit : fwdStepB noLimit = fwdStep := by
  unfold fwdStepB fwdStep
  simp only [histUpdateB_noLimit, fwdUpdateB_noLimit]

@[simp] theorem slip_forward_subB_noLimit : slip_forward_subB noLimit = slip_forward_sub := by
  unfold slip_forward_subB slip_forward_sub
  simp only [fwdStepB_noLimit]

theorem slip_forward_sub_spec {n k : ℕ} {lp : ℕ → ℤ} {L : Csc} {rhos : Arr Int} {b : Dense Int}
    {f : ℕ → ℕ → ℤ}
    (hL : FinCols n (fun t s => t ≤ s) (fun t s => lev A r c t (fun i => A i (c t)) (r s)) lp L)
    (hρ : RhosOk A r c n rhos) (hm : b.m = n) (hn : b.n = k)
    (hnz : b.nzmax = max ((n : Int) * k) 1)
    (hb : IsMat n k b.x (fun s j => f (r s) j)) :
    ∃ y, slip_forward_sub L b rhos = .ok { b with x := y } ∧ y.length = b.x.length ∧
      IsMat n k y (fun s j => lev A r c s (fun i => f i j) (r s)) :=
  slip_forward_subB_noLimit ▸ slip_forward_subB_spec hL hρ hm hn hnz hb fun _ _ => .noLimit A r c _ n _

end Slip
