import Verif.Model.Solve
import Verif.Proof.Tri

/-! # Dense matrices: indexing, permutations, scaling -/

namespace Slip

variable {α : Type}

theorem ix2_nat (m i j : ℕ) : ix2 (m : Int) (i : Int) (j : Int) = ((i + j * m : ℕ) : Int) := by
  simp [ix2]

theorem ix2_lt {m n i j : ℕ} (hi : i < m) (hj : j < n) : i + j * m < m * n := by
  have : (j + 1) * m ≤ n * m := Nat.mul_le_mul_right m hj
  rw [Nat.add_mul, Nat.one_mul] at this
  rw [Nat.mul_comm m n]
  omega

theorem ix2_inj {m i j i' j' : ℕ} (hi : i < m) (hi' : i' < m)
    (h : i + j * m = i' + j' * m) : i = i' ∧ j = j' := by
  have hm : 0 < m := by omega
  have e1 : (i + j * m) % m = i := by rw [Nat.add_mul_mod_self_right, Nat.mod_eq_of_lt hi]
  have e2 : (i' + j' * m) % m = i' := by rw [Nat.add_mul_mod_self_right, Nat.mod_eq_of_lt hi']
  have e3 : i = i' := by rw [← e1, ← e2, h]
  subst e3
  refine ⟨rfl, ?_⟩
  have : j * m = j' * m := by omega
  exact Nat.eq_of_mul_eq_mul_right hm this

theorem ix2_surj {m n t : ℕ} (ht : t < m * n) : ∃ i < m, ∃ j < n, t = i + j * m := by
  have hm : 0 < m := by
    rcases Nat.eq_zero_or_pos m with h | h
    · subst h; simp at ht
    · exact h
  refine ⟨t % m, Nat.mod_lt _ hm, t / m, (Nat.div_lt_iff_lt_mul hm).mpr (by rwa [Nat.mul_comm]), ?_⟩
  have := Nat.mod_add_div t m
  rw [Nat.mul_comm] at this
  exact this.symm

/-- The dense `m`-by-`n` array holds the matrix `f`. -/
def IsMat (m n : ℕ) (a : Arr α) (f : ℕ → ℕ → α) : Prop :=
  ∀ i < m, ∀ j < n, get a (ix2 (m : Int) (i : Int) (j : Int)) = some (f i j)

theorem ix2_ne {m i j i' j' : ℕ} (hi : i < m) (hi' : i' < m) (h : i ≠ i' ∨ j ≠ j') :
    ix2 (m : Int) (i : Int) (j : Int) ≠ ix2 (m : Int) (i' : Int) (j' : Int) := by
  rw [ix2_nat, ix2_nat]
  intro e
  have := ix2_inj hi hi' (by exact_mod_cast e)
  omega

theorem get_replicate {k : ℕ} {v : α} {i : Int} (h0 : 0 ≤ i) (h1 : i < k) :
    get (List.replicate k (some v)) i = some v := by
  unfold get
  rw [if_neg (by omega), List.getElem?_replicate, if_pos (by omega)]; rfl

theorem allocDense_get [Zero α] {m n : ℕ} {t : Int} (h0 : 0 ≤ t) (h1 : t < (m : Int) * n) :
    get (allocDense α m n).x t = some 0 := by
  refine get_replicate h0 ?_
  have : (0 : Int) ≤ (m : Int) * n := by omega
  omega

theorem allocDense_len [Zero α] {m n : ℕ} :
    (allocDense α (m : Int) (n : Int)).x.length = max (m * n) 1 := by
  simp only [allocDense, List.length_replicate]
  have e : (m : Int) * n = ((m * n : ℕ) : Int) := by push_cast; rfl
  rw [e]; omega

/-- The common loop of `slip_permute_b` and `slip_permute_x`. -/
theorem permLoop_spec [Zero α] {m n : ℕ} {src : Arr α} {p : Arr Int} {pi : ℕ → ℕ} {f : ℕ → ℕ → α}
    (hp : IsFn m p pi) (hlt : ∀ i < m, pi i < m) (hinj : ∀ i < m, ∀ i' < m, pi i = pi i' → i = i')
    (hsrc : IsMat m n src f) :
    ∃ y, (forRange 0 (m : Int) (allocDense α (m : Int) (n : Int)).x fun i x =>
      forRange 0 (n : Int) x fun j x => do
        let q ← rd p i
        let v ← rd src (ix2 (m : Int) i j)
        zset x (ix2 (m : Int) q j) v) = .ok y ∧ y.length = max (m * n) 1 ∧
      (∀ i < m, ∀ j < n, get y (ix2 (m : Int) ((pi i : ℕ) : Int) (j : Int)) = some (f i j)) := by
  have hloop := wp_forRange (E := noFail) (lo := 0) (hi := (m : Int))
    (s := (allocDense α (m : Int) (n : Int)).x)
    (f := fun i x => forRange 0 (n : Int) x fun j x => do
        let q ← rd p i
        let v ← rd src (ix2 (m : Int) i j)
        zset x (ix2 (m : Int) q j) v)
    (fun t y => y.length = max (m * n) 1 ∧
      (∀ i < m, ∀ j < n, get y (ix2 (m : Int) (i : Int) (j : Int)) ≠ none) ∧
      ∀ i < m, (i : Int) < t → ∀ j < n, get y (ix2 (m : Int) ((pi i : ℕ) : Int) (j : Int)) =
        some (f i j))
    (by omega)
    ⟨allocDense_len, fun i hi j hj => by
      have := ix2_lt hi hj
      rw [ix2_nat, allocDense_get (by omega) (by exact_mod_cast this)]; simp,
      fun i _ h => by omega⟩
    (by
      rintro t y ht0 ht1 ⟨hl, hd, hg⟩
      obtain ⟨t, rfl⟩ := Int.eq_ofNat_of_zero_le ht0
      have htm : t < m := by omega
      have hin := wp_forRange (E := noFail) (lo := 0) (hi := (n : Int)) (s := y)
        (f := fun j x => do
          let q ← rd p (t : Int)
          let v ← rd src (ix2 (m : Int) (t : Int) j)
          zset x (ix2 (m : Int) q j) v)
        (fun u y => y.length = max (m * n) 1 ∧
          (∀ i < m, ∀ j < n, get y (ix2 (m : Int) (i : Int) (j : Int)) ≠ none) ∧
          (∀ i < m, i < t → ∀ j < n, get y (ix2 (m : Int) ((pi i : ℕ) : Int) (j : Int)) =
            some (f i j)) ∧
          ∀ j < n, (j : Int) < u → get y (ix2 (m : Int) ((pi t : ℕ) : Int) (j : Int)) =
            some (f t j))
        (by omega)
        ⟨hl, hd, fun i hi hit => hg i hi (by omega), fun j _ h => by omega⟩
        (by
          rintro u y hu0 hu1 ⟨hl, hd, hg, hu⟩
          obtain ⟨u, rfl⟩ := Int.eq_ofNat_of_zero_le hu0
          have hun : u < n := by omega
          simp only [rd_eq (hp t htm), ok_bind, rd_eq (hsrc t htm u hun)]
          obtain ⟨w, hw⟩ := Option.ne_none_iff_exists'.mp (hd (pi t) (hlt t htm) u hun)
          have hb := get_bounds hw
          rw [zset_eq hw]
          simp only [wp_ok, length_upd]
          refine ⟨hl, ?_, ?_, ?_⟩
          · intro i hi j hj
            rw [get_upd hb.1 hb.2]
            split
            · simp
            · exact hd i hi j hj
          · intro i hi hit j hj
            rw [get_upd_ne hb.1 hb.2]
            · exact hg i hi hit j hj
            · refine ix2_ne (hlt i hi) (hlt t htm) (Or.inl ?_)
              intro e; have := hinj i hi t htm e; omega
          · intro j hj hju
            rw [get_upd hb.1 hb.2]
            by_cases e : j = u
            · subst e; simp
            · rw [if_neg (ix2_ne (hlt t htm) (hlt t htm) (Or.inr e))]
              exact hu j hj (by omega))
      refine wp_post hin ?_
      rintro y ⟨hl, hd, hg, hu⟩
      refine ⟨hl, hd, ?_⟩
      intro i hi hit j hj
      rcases Nat.lt_or_ge i t with h | h
      · exact hg i hi h j hj
      · have : i = t := by omega
        subst this
        exact hu j hj (by omega))
  obtain ⟨y, hy, hl, -, hg⟩ := wp_noFail hloop
  exact ⟨y, hy, hl, fun i hi j hj => hg i hi (by omega) j hj⟩

/-- A loop that maps every entry of an array. -/
theorem mapAll_spec {β : Type} {N : ℕ} {a : Arr α} {y : Arr β} {f : Int → Arr β → C (Arr β)}
    {g : ℕ → α} {F : α → β} (_ha : ∀ t < N, get a (t : Int) = some (g t))
    (hf : ∀ (t : ℕ) (z : Arr β), t < N → z.length = y.length →
      (∀ u : ℕ, t ≤ u → get z (u : Int) = get y (u : Int)) →
      ∃ z', f (t : Int) z = .ok z' ∧ z'.length = z.length ∧ get z' (t : Int) = some (F (g t)) ∧
        ∀ u : ℕ, u ≠ t → get z' (u : Int) = get z (u : Int)) :
    ∃ y', forRange 0 (N : Int) y f = .ok y' ∧ y'.length = y.length ∧
      ∀ t < N, get y' (t : Int) = some (F (g t)) := by
  have hloop := wp_forRange (E := noFail) (lo := 0) (hi := (N : Int)) (s := y) (f := f)
    (fun p z => z.length = y.length ∧ (∀ u : ℕ, p ≤ u → get z (u : Int) = get y (u : Int)) ∧
      ∀ u : ℕ, (u : Int) < p → get z (u : Int) = some (F (g u)))
    (by omega) ⟨rfl, fun _ _ => rfl, fun u h => by omega⟩
    (by
      rintro p z hp0 hp1 ⟨hl, hr, hd⟩
      obtain ⟨p, rfl⟩ := Int.eq_ofNat_of_zero_le hp0
      obtain ⟨z', e, hl', hg', hr'⟩ := hf p z (by omega) hl (fun u hu => hr u (by omega))
      rw [e, wp_ok]
      refine ⟨by rw [hl', hl], ?_, ?_⟩
      · intro u hu; rw [hr' u (by omega)]; exact hr u (by omega)
      · intro u hu
        by_cases e : u = p
        · subst e; exact hg'
        · rw [hr' u e]; exact hd u (by omega))
  obtain ⟨y', e, hl, -, hd⟩ := wp_noFail hloop
  exact ⟨y', e, hl, fun t ht => hd t (by omega)⟩

theorem mn_cast (m n : ℕ) : (m : Int) * (n : Int) = ((m * n : ℕ) : Int) := by push_cast; rfl

/-- From a matrix to its linear array. -/
theorem IsMat.lin {m n : ℕ} {a : Arr α} {f : ℕ → ℕ → α} (h : IsMat m n a f) :
    ∀ t < m * n, get a (t : Int) = some (f (t % m) (t / m)) := by
  intro t ht
  obtain ⟨i, hi, j, hj, rfl⟩ := ix2_surj ht
  have := h i hi j hj
  rw [ix2_nat] at this
  rw [this, Nat.add_mul_mod_self_right, Nat.mod_eq_of_lt hi,
    Nat.add_mul_div_right _ _ (by omega), Nat.div_eq_of_lt hi, Nat.zero_add]

theorem isMat_of_lin {m n : ℕ} {a : Arr α} {f : ℕ → ℕ → α}
    (h : ∀ t < m * n, get a (t : Int) = some (f (t % m) (t / m))) : IsMat m n a f := by
  intro i hi j hj
  have := h (i + j * m) (ix2_lt hi hj)
  rw [ix2_nat, this, Nat.add_mul_mod_self_right, Nat.mod_eq_of_lt hi,
    Nat.add_mul_div_right _ _ (by omega), Nat.div_eq_of_lt hi, Nat.zero_add]

theorem slip_matrix_mulB_spec {fits : Int → Bool} {m n : ℕ} {x : Dense Int} {f : ℕ → ℕ → ℤ}
    (hm : x.m = m) (hn : x.n = n)
    (h : IsMat m n x.x f) (s : ℤ) (hfit : ∀ i < m, ∀ j < n, fits (f i j * s) = true) :
    ∃ y, slip_matrix_mulB fits x s = .ok { x with x := y } ∧ y.length = x.x.length ∧
      IsMat m n y (fun i j => f i j * s) := by
  obtain ⟨y, e, hl, hg⟩ := mapAll_spec (N := m * n) (a := x.x) (y := x.x)
    (f := fun i y => do
      let v ← rd y i
      zsetB fits y i (v * s)) (F := fun v => v * s) h.lin
    (by
      intro t z ht hl hr
      have hz := hr t (le_refl _)
      rw [h.lin t ht] at hz
      have hb := get_bounds hz
      have hm0 : 0 < m := by
        rcases Nat.eq_zero_or_pos m with e | e
        · rw [e, Nat.zero_mul] at ht; omega
        · exact e
      have hfit' := hfit (t % m) (Nat.mod_lt _ hm0) (t / m) (Nat.div_lt_of_lt_mul ht)
      refine ⟨_, by rw [rd_eq hz, ok_bind, zsetB_eq hfit' hz], length_upd _ _ _,
        get_upd_self hb.1 hb.2 _, ?_⟩
      intro u hu
      exact get_upd_ne hb.1 hb.2 _ (by omega))
  refine ⟨y, ?_, hl, isMat_of_lin hg⟩
  unfold slip_matrix_mulB
  rw [hm, hn, mn_cast, e]
  simp [← hm, ← hn]

theorem slip_matrix_mul_spec {m n : ℕ} {x : Dense Int} {f : ℕ → ℕ → ℤ} (hm : x.m = m) (hn : x.n = n)
    (h : IsMat m n x.x f) (s : ℤ) :
    ∃ y, slip_matrix_mul x s = .ok { x with x := y } ∧ y.length = x.x.length ∧
      IsMat m n y (fun i j => f i j * s) :=
  slip_matrix_mulB_spec (fits := noLimit) hm hn h s fun _ _ _ _ => rfl

theorem slip_matrix_div_spec {m n : ℕ} {x : Dense Int} {f : ℕ → ℕ → ℤ} (hm : x.m = m) (hn : x.n = n)
    (h : IsMat m n x.x f) {s : ℤ} (hs : s ≠ 0) :
    ∃ y, slip_matrix_div x s = .ok y ∧ y.m = m ∧ y.n = n ∧ y.x.length = max (m * n) 1 ∧
      IsMat m n y.x (fun i j => (f i j : ℚ) / (s : ℚ)) := by
  have hs' : (s : ℚ) ≠ 0 := by exact_mod_cast hs
  obtain ⟨y, e, hl, hg⟩ := mapAll_spec (N := m * n) (a := x.x)
    (y := (allocDense ℚ (m : Int) (n : Int)).x)
    (f := fun i y => do
      let v ← rd x.x i
      let y ← zset y i (v : ℚ)
      let w ← rd y i
      let d ← mpqDiv w (s : ℚ)
      zset y i d) (F := fun v => (v : ℚ) / (s : ℚ)) h.lin
    (by
      intro t z ht hl hr
      have hx := h.lin t ht
      have hz := hr t (le_refl _)
      rw [allocDense_get (by omega) (by rw [mn_cast]; omega)] at hz
      have hb := get_bounds hz
      have hz1 := get_upd_self hb.1 hb.2 ((f (t % m) (t / m) : ℤ) : ℚ)
      have hb1 := get_bounds hz1
      refine ⟨upd (upd z t _) t _, ?_, by simp, get_upd_self hb1.1 hb1.2 _, ?_⟩
      · simp only [rd_eq hx, ok_bind, zset_eq hz, rd_eq hz1, mpqDiv, if_neg hs', zset_eq hz1]
      · intro u hu
        rw [get_upd_ne hb1.1 hb1.2 _ (by omega), get_upd_ne hb.1 hb.2 _ (by omega)])
  refine ⟨{ allocDense ℚ (m : Int) (n : Int) with x := y }, ?_, rfl, rfl, ?_, isMat_of_lin hg⟩
  · unfold slip_matrix_div
    simp only [hm, hn]
    rw [mn_cast, e]
    rfl
  · simp only; rw [hl, allocDense_len]

theorem scaleSolution_spec {m n : ℕ} {x : Dense ℚ} {f : ℕ → ℕ → ℚ} (hm : x.m = m) (hn : x.n = n)
    (h : IsMat m n x.x f) {sA sb : ℚ} (hs : sb ≠ 0) :
    ∃ y, scaleSolution x sA sb = .ok { x with x := y } ∧ y.length = x.x.length ∧
      IsMat m n y (fun i j => f i j * (sA / sb)) := by
  unfold scaleSolution
  simp only [mpqDiv, if_neg hs, ok_bind]
  by_cases h1 : sA / sb = 1
  · rw [if_pos h1]
    refine ⟨x.x, rfl, rfl, ?_⟩
    rw [h1]; simpa using h
  · rw [if_neg h1]
    obtain ⟨y, e, hl, hg⟩ := mapAll_spec (N := m * n) (a := x.x) (y := x.x)
      (f := fun i y => do
        let v ← rd y i
        zset y i (v * (sA / sb))) (F := fun v => v * (sA / sb)) h.lin
      (by
        intro t z ht hl hr
        have hz := hr t (le_refl _)
        rw [h.lin t ht] at hz
        have hb := get_bounds hz
        refine ⟨_, by rw [rd_eq hz, ok_bind, zset_eq hz], length_upd _ _ _,
          get_upd_self hb.1 hb.2 _, ?_⟩
        intro u hu
        exact get_upd_ne hb.1 hb.2 _ (by omega))
    refine ⟨y, ?_, hl, isMat_of_lin hg⟩
    rw [hm, hn, mn_cast, e]
    simp [← hm, ← hn]

theorem slip_permute_b_spec {m n : ℕ} {b : Dense Int} {pinv : Arr Int} {pi r : ℕ → ℕ}
    {f : ℕ → ℕ → ℤ} (hm : b.m = m) (hn : b.n = n) (hb : IsMat m n b.x f)
    (hp : PermPair m pi r) (hpi : IsFn m pinv pi) :
    ∃ y, slip_permute_b b pinv = .ok y ∧ y.m = m ∧ y.n = n ∧ y.nzmax = max ((m : Int) * n) 1 ∧
      y.x.length = max (m * n) 1 ∧ IsMat m n y.x (fun s j => f (r s) j) := by
  obtain ⟨y, e, hl, hg⟩ := permLoop_spec hpi hp.plt
    (fun i hi i' hi' e => by rw [← hp.rp i hi, ← hp.rp i' hi', e]) hb
  refine ⟨{ allocDense Int (m : Int) (n : Int) with x := y }, ?_, rfl, rfl, rfl, hl, ?_⟩
  · unfold slip_permute_b
    simp only [hm, hn]
    rw [e]; rfl
  · intro s hs j hj
    have := hg (r s) (hp.rlt s hs) j hj
    rwa [hp.pr s hs] at this

theorem slip_permute_x_spec {m n : ℕ} {x : Dense ℚ} {q : Arr Int} {c ci : ℕ → ℕ}
    {f : ℕ → ℕ → ℚ} (hm : x.m = m) (hn : x.n = n) (hx : IsMat m n x.x f)
    (hp : PermPair m c ci) (hq : IsFn m q c) :
    ∃ y, slip_permute_x x q = .ok y ∧ y.m = m ∧ y.n = n ∧ y.nzmax = max ((m : Int) * n) 1 ∧
      y.x.length = max (m * n) 1 ∧ IsMat m n y.x (fun l j => f (ci l) j) := by
  obtain ⟨y, e, hl, hg⟩ := permLoop_spec hq hp.plt
    (fun i hi i' hi' e => by rw [← hp.rp i hi, ← hp.rp i' hi', e]) hx
  refine ⟨{ allocDense ℚ (m : Int) (n : Int) with x := y }, ?_, rfl, rfl, rfl, hl, ?_⟩
  · unfold slip_permute_x
    simp only [hm, hn]
    rw [e]; rfl
  · intro s hs j hj
    have := hg (ci s) (hp.rlt s hs) j hj
    rwa [hp.pr s hs] at this

end Slip
