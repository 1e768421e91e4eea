import Verif.Proof.Tri

/-! # `slip_ref_triangular_solve` -/

namespace Slip

theorem Seg.length_le {a : Arr Int} {lo : Int} {l : List Int} (h : Seg a lo l) (hl : l ≠ []) :
    0 ≤ lo ∧ lo + l.length ≤ a.length := by
  have hpos : 0 < l.length := List.length_pos_iff.mpr hl
  have h0 := get_bounds (h 0 hpos)
  have h1 := get_bounds (h (l.length - 1) (by omega))
  omega

/-- The loop `xi[j] = f[xi[j]]`. -/
theorem mapLoop_spec {f : Arr Int} {F : Int → Int} :
    ∀ (l : List Int) (lo : Int) (xi : Arr Int), Seg xi lo l →
    (∀ v ∈ l, get f v = some (F v)) →
    ∃ xi', forCnt l.length lo xi (fun j xi => do
        let v ← rd xi j
        let w ← rd f v
        wr xi j w) = .ok xi' ∧ xi'.length = xi.length ∧ Seg xi' lo (l.map F) ∧
      (∀ i, i < lo → get xi' i = get xi i)
  | [], lo, xi, _, _ => ⟨xi, rfl, rfl, by simpa using Seg.nil xi lo, fun _ _ => rfl⟩
  | v :: l, lo, xi, hs, hf => by
    have hb := get_bounds hs.head
    obtain ⟨xi', h1, h2, h3, h4⟩ := mapLoop_spec l (lo + 1) (upd xi lo (F v))
      (hs.tail.upd hb.1 hb.2 (by left; omega)) (fun w hw => hf w (by simp [hw]))
    refine ⟨xi', ?_, by simpa using h2, ?_, ?_⟩
    · simp only [List.length_cons, forCnt, rd_eq hs.head, ok_bind, rd_eq (hf v (by simp)),
        wr_eq hb.1 hb.2]
      exact h1
    · rw [List.map_cons]
      refine Seg.cons ?_ h3
      rw [h4 lo (by omega)]
      exact get_upd_self hb.1 hb.2 _
    · intro i hi
      rw [h4 i (by omega), get_upd_ne hb.1 hb.2 _ (by omega)]

theorem rdSeg_spec {a : Arr Int} : ∀ (l : List Int) (lo : Int), Seg a lo l →
    rdSeg a l.length lo = .ok l
  | [], _, _ => rfl
  | v :: l, lo, hs => by
    simp only [List.length_cons, rdSeg, rd_eq hs.head, ok_bind, rdSeg_spec l (lo + 1) hs.tail]
    rfl

theorem wrSeg_spec : ∀ (l : List Int) (a : Arr Int) (lo : Int), 0 ≤ lo → lo + l.length ≤ a.length →
    ∃ a', wrSeg l a lo = .ok a' ∧ a'.length = a.length ∧ Seg a' lo l ∧
      (∀ i, i < lo → get a' i = get a i)
  | [], a, lo, _, _ => ⟨a, rfl, rfl, Seg.nil _ _, fun _ _ => rfl⟩
  | v :: l, a, lo, h0, h1 => by
    simp only [List.length_cons, Nat.cast_add, Nat.cast_one] at h1
    have hb : lo < (a.length : Int) := by omega
    obtain ⟨a', e1, e2, e3, e4⟩ := wrSeg_spec l (upd a lo v) (lo + 1) (by omega)
      (by rw [length_upd]; omega)
    refine ⟨a', ?_, by simpa using e2, ?_, ?_⟩
    · simp only [wrSeg, wr_eq h0 hb, ok_bind, e1]
    · refine Seg.cons ?_ e3
      rw [e4 lo (by omega)]; exact get_upd_self h0 hb _
    · intro i hi
      rw [e4 i (by omega), get_upd_ne h0 hb _ (by omega)]

theorem qsortSeg_spec {xi : Arr Int} {top n : Int} {l : List Int} (hs : Seg xi top l)
    (hn : top + l.length = n) (h0 : 0 ≤ top) (hl : n ≤ xi.length) :
    ∃ xi', qsortSeg xi top n = .ok xi' ∧ xi'.length = xi.length ∧
      Seg xi' top (l.insertionSort (· ≤ ·)) := by
  have e : (n - top).toNat = l.length := by omega
  obtain ⟨a', e1, e2, e3, _⟩ := wrSeg_spec (l.insertionSort (· ≤ ·)) xi top h0
    (by rw [List.length_insertionSort]; omega)
  refine ⟨a', ?_, e2, e3⟩
  unfold qsortSeg
  rw [e, rdSeg_spec l top hs, ok_bind, e1]

/-- The loop `for i: x[xi[i]] = w` (`zset`). -/
theorem zeroLoop_spec {xi : Arr Int} (w : Int) :
    ∀ (l : List Int) (lo : Int) (x : Arr Int), Seg xi lo l → (∀ v ∈ l, get x v ≠ none) →
    ∃ x', forCnt l.length lo x (fun i x => do
        let v ← rd xi i
        zset x v w) = .ok x' ∧ x'.length = x.length ∧
      (∀ i, get x' i = if i ∈ l then some w else get x i)
  | [], lo, x, _, _ => ⟨x, rfl, rfl, fun i => by simp⟩
  | v :: l, lo, x, hs, hx => by
    obtain ⟨u, hu⟩ := Option.ne_none_iff_exists'.mp (hx v (by simp))
    have hb := get_bounds hu
    obtain ⟨x', e1, e2, e3⟩ := zeroLoop_spec w l (lo + 1) (upd x v w) hs.tail (by
      intro v' hv'
      rw [get_upd hb.1 hb.2]
      split
      · simp
      · exact hx v' (by simp [hv']))
    refine ⟨x', ?_, by simpa using e2, ?_⟩
    · simp only [List.length_cons, forCnt, rd_eq hs.head, ok_bind, zset_eq hu]
      exact e1
    · intro i
      rw [e3, get_upd hb.1 hb.2]
      by_cases h1 : i ∈ l
      · simp [h1]
      · by_cases h2 : i = v
        · simp [h2]
        · simp [h1, h2]

/-- The loop `for i: h[xi[i]] = w` (`wr`). -/
theorem histLoop_spec {xi : Arr Int} (w : Int) :
    ∀ (l : List Int) (lo : Int) (x : Arr Int), Seg xi lo l →
    (∀ v ∈ l, 0 ≤ v ∧ v < (x.length : Int)) →
    ∃ x', forCnt l.length lo x (fun i x => do
        let v ← rd xi i
        wr x v w) = .ok x' ∧ x'.length = x.length ∧
      (∀ i, get x' i = if i ∈ l then some w else get x i)
  | [], lo, x, _, _ => ⟨x, rfl, rfl, fun i => by simp⟩
  | v :: l, lo, x, hs, hx => by
    have hb := hx v (by simp)
    obtain ⟨x', e1, e2, e3⟩ := histLoop_spec w l (lo + 1) (upd x v w) hs.tail (by
      intro v' hv'
      rw [length_upd]
      exact hx v' (by simp [hv']))
    refine ⟨x', ?_, by simpa using e2, ?_⟩
    · simp only [List.length_cons, forCnt, rd_eq hs.head, ok_bind, wr_eq hb.1 hb.2]
      exact e1
    · intro i
      rw [e3, get_upd hb.1 hb.2]
      by_cases h1 : i ∈ l
      · simp [h1]
      · by_cases h2 : i = v
        · simp [h2]
        · simp [h1, h2]

/-- The arrays of a CSC matrix represent the first `n` columns of `A` (each entry stored once). -/
structure AOk (n : ℕ) (A : ℕ → ℕ → ℤ) (ap : ℕ → ℤ) (M : Csc) : Prop where
  ptr : ∀ j : ℕ, j ≤ n → get M.p (j : Int) = some (ap j)
  mono : ∀ j < n, ap j ≤ ap (j + 1)
  ent : ∀ j < n, ∀ p : ℤ, ap j ≤ p → p < ap (j + 1) →
    ∃ i : ℕ, i < n ∧ get M.i p = some (i : Int) ∧ get M.x p = some (A i j)
  full : ∀ j < n, ∀ i < n, A i j ≠ 0 → ∃ p, ap j ≤ p ∧ p < ap (j + 1) ∧ get M.i p = some (i : Int)

variable {A : ℕ → ℕ → ℤ} {r c : ℕ → ℕ}

/-- What the triangular solve for column `k` produces. -/
structure TriPost (A : ℕ → ℕ → ℤ) (r c : ℕ → ℕ) (n k : ℕ) (pi : ℕ → ℕ) (Lp : Arr Int) (h x : Arr Int)
    (t : TriOut) (pat : List ℕ) : Prop where
  lp : t.Lp = Lp
  top : t.top = (n : Int) - pat.length
  seg : Seg t.xi t.top (pat.map (fun i : ℕ => (i : Int)))
  lenXi : t.xi.length = 2 * n
  lenH : t.h.length = h.length
  lenX : t.x.length = x.length
  sorted : pat.Pairwise (fun i j => pi i < pi j)
  lt : ∀ i ∈ pat, i < n
  val : ∀ i ∈ pat, get t.x (i : Int) = some (lev A r c (min k (pi i)) (fun i => A i (c k)) i)
  zero : ∀ i < n, i ∉ pat → lev A r c (min k (pi i)) (fun i => A i (c k)) i = 0
  defd : ∀ i < n, get t.x (i : Int) ≠ none
  diag : c k ∉ pat → get t.x (c k : Int) = some 0

theorem slip_ref_triangular_solveB_spec {fits : Int → Bool} {n k : ℕ} {pi : ℕ → ℕ} {lp ap : ℕ → ℤ} {L M : Csc}
    {xi q rhos pinv row_perm h x : Arr Int}
    (hA : AOk n A ap M) (hMn : M.n = n) (hLn : L.n = n)
    (hL : LOk A r c n k pi lp L.p L.i L.x) (hp : PermPair n pi r)
    (hpi : IsFn n pinv pi) (hr : IsFn n row_perm r) (hq : IsFn n q c) (hc : ∀ t < n, c t < n)
    (hρ : RhosOk A r c k rhos) (hk : k < n) (hxi : xi.length = 2 * n) (hh : n ≤ h.length)
    (hx : ∀ i < n, get x (i : Int) ≠ none)
    (hz : SizeOk fits A r c (· < n) k (fun i => A i (c k))) :
    ∃ t pat, slip_ref_triangular_solveB fits L M (k : Int) xi q rhos pinv row_perm h x = .ok t ∧
      TriPost A r c n k pi L.p h x t pat ∧
      (∀ i : ℕ, i ∈ pat ↔ Reachable M.p M.i L.p L.i pinv (c k : Int) (i : Int)) := by
  have hck := hc k hk
  have hG := hL.graph hpi hp hk
  have hMp1 : get M.p ((c k : Int) + 1) = some (ap (c k + 1)) := by
    have := hA.ptr (c k + 1) (by omega)
    have e : ((c k + 1 : ℕ) : Int) = (c k : Int) + 1 := by omega
    rwa [e] at this
  obtain ⟨xi1, out, hreach, hlen1, hseg1, hnd, hrange, hmem⟩ :=
    slip_reach_spec (n := n) (Ap := M.p) (Ai := M.i) hG (hA.ptr (c k) (by omega)) hMp1
      (fun p h1 h2 => by
        obtain ⟨i, hi, hi2, _⟩ := hA.ent (c k) hck p h1 h2
        exact ⟨_, hi2, by omega, by omega⟩) hxi
  have houtlen := nodup_length_le hnd hrange
  -- the list of pivot positions
  let pos : List ℕ := out.map (fun v => pi v.toNat)
  let S : List ℕ := pos.insertionSort (· ≤ ·)
  let pat : List ℕ := S.map r
  have hposlen : pos.length = out.length := by simp [pos]
  have hSlen : S.length = out.length := by simp [S, hposlen]
  have hpatlen : pat.length = out.length := by simp [pat, hSlen]
  have hSmem : ∀ s, s ∈ S ↔ ∃ v ∈ out, pi v.toNat = s := by
    intro s
    simp [S, pos, List.mem_insertionSort]
  have hSlt : ∀ s ∈ S, s < n := by
    intro s hs
    obtain ⟨v, hv, rfl⟩ := (hSmem s).mp hs
    have := hrange v hv
    exact hp.plt _ (by omega)
  have hpatmem : ∀ i : ℕ, i ∈ pat ↔ (i : Int) ∈ out := by
    intro i
    simp only [pat, List.mem_map]
    constructor
    · rintro ⟨s, hs, rfl⟩
      obtain ⟨v, hv, rfl⟩ := (hSmem s).mp hs
      have := hrange v hv
      rw [hp.rp v.toNat (by omega)]
      have e : ((v.toNat : ℕ) : Int) = v := by omega
      rw [e]; exact hv
    · intro hi
      have := hrange _ hi
      refine ⟨pi i, (hSmem _).mpr ⟨i, hi, by simp⟩, hp.rp i (by omega)⟩
  have hposnd : pos.Nodup := by
    refine List.Nodup.map_on ?_ hnd
    intro v hv w hw e
    have h1 := hrange v hv
    have h2 := hrange w hw
    have e2 : r (pi v.toNat) = r (pi w.toNat) := by rw [e]
    rw [hp.rp _ (by omega), hp.rp _ (by omega)] at e2
    omega
  have hSsort : S.Pairwise (· < ·) := by
    have h1 : S.Pairwise (· ≤ ·) := List.pairwise_insertionSort _ _
    have h2 : S.Nodup := (List.perm_insertionSort _ _).nodup_iff.mpr hposnd
    exact (h1.and h2).imp fun h => by omega
  have hpatsort : pat.Pairwise (fun i j => pi i < pi j) := by
    refine List.pairwise_map.mpr (hSsort.imp_of_mem ?_)
    intro a b ha hb hab
    rw [hp.pr a (hSlt a ha), hp.pr b (hSlt b hb)]
    exact hab
  have hpatlt : ∀ i ∈ pat, i < n := by
    intro i hi
    have := hrange _ ((hpatmem i).mp hi)
    omega
  -- the code
  have htop0 : (0 : Int) ≤ (n : Int) - out.length := by omega
  have hcnt : ((n : Int) - ((n : Int) - (out.length : Int))).toNat = out.length := by omega
  obtain ⟨xi2, e2, l2, s2, _⟩ := mapLoop_spec (f := pinv) (F := fun v => ((pi v.toNat : ℕ) : Int))
    out _ xi1 hseg1 (by
      intro v hv
      have := hrange v hv
      have := hpi v.toNat (by omega)
      have e : ((v.toNat : ℕ) : Int) = v := by omega
      rwa [e] at this)
  have hmap2 : out.map (fun v => ((pi v.toNat : ℕ) : Int)) = pos.map (fun s : ℕ => (s : Int)) := by
    simp [pos, Function.comp_def]
  rw [hmap2] at s2
  obtain ⟨xi3, e3, l3, s3⟩ := qsortSeg_spec (n := (n : Int)) s2 (by simp [hposlen]) htop0
    (by omega)
  have hsortmap : (pos.map (fun s : ℕ => (s : Int))).insertionSort (· ≤ ·) =
      S.map (fun s : ℕ => (s : Int)) := by
    symm
    apply List.map_insertionSort
    intro a _ b _
    simp
  rw [hsortmap] at s3
  obtain ⟨xi4, e4, l4, s4, _⟩ := mapLoop_spec (f := row_perm) (F := fun v => ((r v.toNat : ℕ) : Int))
    _ _ xi3 s3 (by
      intro v hv
      obtain ⟨s, hs, rfl⟩ := List.mem_map.mp hv
      simpa using hr s (hSlt s hs))
  have hmap4 : (S.map (fun s : ℕ => (s : Int))).map (fun v => ((r v.toNat : ℕ) : Int)) =
      pat.map (fun i : ℕ => (i : Int)) := by
    simp [pat, Function.comp_def]
  rw [hmap4] at s4
  rw [show (S.map (fun s : ℕ => (s : Int))).length = out.length by simp [hSlen]] at e4
  have hplen : (pat.map (fun i : ℕ => (i : Int))).length = out.length := by simp [hpatlen]
  obtain ⟨x5, e5, l5, v5⟩ := zeroLoop_spec 0 _ _ x s4 (by
    intro v hv
    obtain ⟨i, hi, rfl⟩ := List.mem_map.mp hv
    exact hx i (hpatlt i hi))
  rw [hplen] at e5
  have hx5 : ∀ i < n, get x5 (i : Int) ≠ none := by
    intro i hi
    rw [v5]; split
    · simp
    · exact hx i hi
  obtain ⟨u6, hu6⟩ := Option.ne_none_iff_exists'.mp (hx5 (c k) hck)
  have hb6 := get_bounds hu6
  obtain ⟨h7, e7, l7, v7⟩ := histLoop_spec (-1) _ _ h s4 (by
    intro v hv
    obtain ⟨i, hi, rfl⟩ := List.mem_map.mp hv
    have := hpatlt i hi
    omega)
  rw [hplen] at e7
  have memcast : ∀ i : ℕ, ((i : Int) ∈ pat.map (fun i : ℕ => (i : Int))) ↔ i ∈ pat := by
    intro i; simp
  -- x = A(:,col)
  have hloop8 := wp_forRange (E := noFail)
    (f := fun p x => do
      let i ← rd M.i p
      let v ← rd M.x p
      zsetB fits x i v)
    (fun p (x' : Arr Int) => x'.length = x5.length ∧
      (∀ i < n, get x' (i : Int) ≠ none) ∧
      (∀ i < n, (∃ p', ap (c k) ≤ p' ∧ p' < p ∧ get M.i p' = some (i : Int)) →
        get x' (i : Int) = some (A i (c k))) ∧
      (∀ i < n, (∀ p', ap (c k) ≤ p' → p' < p → get M.i p' ≠ some (i : Int)) →
        get x' (i : Int) = get (upd x5 (c k : Int) 0) (i : Int)))
    (lo := ap (c k)) (hi := ap (c k + 1)) (s := upd x5 (c k : Int) 0) (hA.mono (c k) hck)
    (by
      refine ⟨by simp, ?_, ?_, fun _ _ _ => rfl⟩
      · intro i hi
        rw [get_upd hb6.1 hb6.2]; split
        · simp
        · exact hx5 i hi
      · rintro i hi ⟨p', q1, q2, _⟩; omega)
    (by
      rintro p x' hp1 hp2 ⟨hl, hd, hin, hout⟩
      obtain ⟨i, hi, hi2, hi3⟩ := hA.ent (c k) hck p hp1 hp2
      obtain ⟨u, hu⟩ := Option.ne_none_iff_exists'.mp (hd i hi)
      have hb := get_bounds hu
      rw [rd_eq hi2, ok_bind, rd_eq hi3, ok_bind,
        zsetB_eq (by simpa using hz.lev (s := 0) (i := i) (by omega) hi) hu]
      refine ⟨by simpa using hl, ?_, ?_, ?_⟩
      · intro i' hi'
        rw [get_upd hb.1 hb.2]; split
        · simp
        · exact hd i' hi'
      · rintro i' hi' ⟨p', q1, q2, q3⟩
        rw [get_upd hb.1 hb.2]
        by_cases he : i' = i
        · subst he; simp
        · rw [if_neg (by omega)]
          refine hin i' hi' ⟨p', q1, ?_, q3⟩
          have : p' ≠ p := by
            rintro rfl
            rw [hi2] at q3
            have : (i : Int) = (i' : Int) := by simpa using q3
            omega
          omega
      · intro i' hi' hno
        rw [get_upd hb.1 hb.2]
        have he : i' ≠ i := by
          rintro rfl
          exact hno p hp1 (by omega) hi2
        rw [if_neg (by omega)]
        exact hout i' hi' fun p' q1 q2 => hno p' q1 (by omega))
  obtain ⟨x8, e8, l8, d8, in8, out8⟩ := wp_noFail hloop8
  -- pattern facts
  have hcolpat : ∀ i : ℕ, ∀ p', ap (c k) ≤ p' → p' < ap (c k + 1) → get M.i p' = some (i : Int) →
      i ∈ pat := by
    intro i p' q1 q2 q3
    rw [hpatmem, hmem]
    exact ⟨_, ⟨_, _, p', hA.ptr (c k) (by omega), hMp1, q1, q2, q3⟩, .refl⟩
  have hP : PatOk n k pi lp L.i (fun i => A i (c k)) (fun i => i ∈ pat) := by
    refine ⟨?_, ?_⟩
    · intro i hi hne
      obtain ⟨p', q1, q2, q3⟩ := hA.full (c k) hck i hi hne
      exact hcolpat i p' q1 q2 q3
    · intro j hj hPj hlt m i q1 q2 q3
      rw [hpatmem, hmem] at hPj ⊢
      obtain ⟨s, g1, g2⟩ := hPj
      refine ⟨s, g1, g2.tail ⟨((pi j : ℕ) : Int), lp (pi j), lp (pi j + 1), m, hpi j hj,
        hL.ptr _ (by omega), ?_, q1, q2, q3⟩⟩
      have := hL.ptr (pi j + 1) (by omega)
      have e : ((pi j + 1 : ℕ) : Int) = ((pi j : ℕ) : Int) + 1 := by omega
      rwa [e] at this
  have hx8 : ∀ i < n, i ∈ pat → get x8 (i : Int) = some (A i (c k)) := by
    intro i hi hPi
    by_cases hex : ∃ p', ap (c k) ≤ p' ∧ p' < ap (c k + 1) ∧ get M.i p' = some (i : Int)
    · exact in8 i hi hex
    · rw [out8 i hi (fun p' q1 q2 q3 => hex ⟨p', q1, q2, q3⟩), get_upd hb6.1 hb6.2, v5]
      have hA0 : A i (c k) = 0 := by
        by_contra hne
        exact hex (hA.full (c k) hck i hi hne)
      rw [hA0]
      split
      · rfl
      · rw [if_pos ((memcast i).mpr hPi)]
  have hS0 : SInv A r c n k pi (fun i => A i (c k)) (fun i => i ∈ pat) 0 h7 x8 := by
    refine ⟨fun i hi hPi hlt => by omega, ?_⟩
    intro i hi hPi _
    refine ⟨0, A i (c k), ?_, hx8 i hi hPi, ?_⟩
    · rw [v7, if_pos ((memcast i).mpr hPi)]; rfl
    · have : min k 0 = 0 := by omega
      rw [this]; exact Rel.zero _ _
  -- main loop; the threshold after processing the first `p` entries
  let ν : ℕ → ℕ := fun t => if ht : t < pat.length then pi (pat[t]) else n
  have hνlast : ∀ t (ht : t < pat.length), ν t = pi (pat[t]) := by
    intro t ht; simp [ν, ht]
  have hadv0 : ∀ t (ht : t < pat.length), ∀ i < n, i ∈ pat → pi (pat[t]) + 1 ≤ pi i →
      ν (t + 1) ≤ pi i := by
    intro t ht i hi hPi hle
    obtain ⟨t', ht', rfl⟩ := List.getElem_of_mem hPi
    have hsort := List.pairwise_iff_getElem.mp hpatsort
    have htt : t < t' := by
      by_contra hcon
      rcases Nat.lt_or_ge t' t with h | h
      · have := hsort t' t ht' ht h
        omega
      · have : t' = t := by omega
        subst this; omega
    have ht1 : t + 1 < pat.length := by omega
    rw [hνlast _ ht1]
    rcases Nat.lt_or_ge (t + 1) t' with h | h
    · have := hsort (t + 1) t' ht1 ht' h
      omega
    · have : t' = t + 1 := by omega
      subst this; exact le_refl _
  have hνle : ∀ t, ν t ≤ n := by
    intro t
    simp only [ν]
    split
    · rename_i ht
      have := hp.plt _ (hpatlt _ (List.getElem_mem ht))
      omega
    · exact le_refl _
  have hνstep : ∀ t (ht : t < pat.length), pi (pat[t]) + 1 ≤ ν (t + 1) := by
    intro t ht
    simp only [ν]
    split
    · rename_i ht1
      have := List.pairwise_iff_getElem.mp hpatsort t (t + 1) ht ht1 (by omega)
      omega
    · have := hp.plt _ (hpatlt _ (List.getElem_mem ht))
      omega
  have hSν0 : SInv A r c n k pi (fun i => A i (c k)) (fun i => i ∈ pat) (ν 0) h7 x8 := by
    have := hS0.advance hL hp hρ (by omega) hP (ν 0) (by
      intro i hi hPi _
      obtain ⟨t', ht', rfl⟩ := List.getElem_of_mem hPi
      have h0 : 0 < pat.length := by omega
      rw [hνlast 0 h0, Nat.zero_add]
      rcases Nat.eq_zero_or_pos t' with h | h
      · subst h; exact le_refl _
      · have := List.pairwise_iff_getElem.mp hpatsort 0 t' h0 ht' h
        omega)
    simpa using this
  have hloop9 := wp_forRange (E := noFail)
    (f := fun p (st : Arr Int × Arr Int) => match st with
      | (h, x) => solveStepB fits L.p L.i L.x pinv rhos xi4 (k : Int) p h x)
    (fun p (st : Arr Int × Arr Int) => ∃ t : ℕ, p = (n : Int) - out.length + t ∧ t ≤ pat.length ∧
      st.1.length = h7.length ∧ st.2.length = x8.length ∧
      (∀ i < n, get st.2 (i : Int) ≠ none) ∧
      (∀ i : ℕ, i ∉ pat → get st.2 (i : Int) = get x8 (i : Int)) ∧
      SInv A r c n k pi (fun i => A i (c k)) (fun i => i ∈ pat) (ν t) st.1 st.2)
    (lo := (n : Int) - out.length) (hi := (n : Int)) (s := (h7, x8)) (by omega)
    ⟨0, by simp, by omega, rfl, rfl, d8, fun _ _ => rfl, hSν0⟩
    (by
      rintro p ⟨h', x'⟩ hp1 hp2 ⟨t, rfl, htle, hl1, hl2, hd, hnp, hS⟩
      have ht : t < pat.length := by omega
      rw [hνlast t ht] at hS
      have hPt : pat[t] ∈ pat := List.getElem_mem ht
      have hrd : get xi4 ((n : Int) - out.length + t) = some ((pat[t] : ℕ) : Int) := by
        have := s4 t (by simpa using ht)
        simpa using this
      obtain ⟨h'', x'', g1, g2, g3, g4, g5, g6⟩ := solveStepB_spec hL hp hpi hρ (by omega) hP hrd
        (hpatlt _ hPt) hPt hS hz
      refine wp_of_ok g1 ⟨t + 1, by push_cast; omega, by omega, g2.trans hl1, g3.trans hl2, ?_, ?_, ?_⟩
      · intro i hi; exact g4 _ (hd i hi)
      · intro i hi
        show get x'' _ = _
        rw [g5 i hi]; exact hnp i hi
      · have hst := hνstep t ht
        have := g6.advance hL hp hρ (by omega) hP (ν (t + 1) - (pi (pat[t]) + 1)) (by
          intro i hi hPi hle
          have := hadv0 t ht i hi hPi hle
          omega)
        have e : pi (pat[t]) + 1 + (ν (t + 1) - (pi (pat[t]) + 1)) = ν (t + 1) := by omega
        rwa [e] at this)
  obtain ⟨⟨h9, x9⟩, e9, t9, ht9, htle9, l9a, l9b, d9, np9, S9⟩ := wp_noFail hloop9
  simp only at l9a l9b d9 np9 S9
  have htlen : t9 = pat.length := by omega
  have hνn : ν t9 = n := by rw [htlen]; simp [ν]
  rw [hνn] at S9
  refine ⟨{ top := (n : Int) - out.length, Lp := L.p, xi := xi4, h := h9, x := x9 }, pat, ?_, ?_, ?_⟩
  · unfold slip_ref_triangular_solveB
    simp only [rd_eq (hq k hk), ok_bind, hMn, hLn, hreach, forRange, hcnt, e2, e3, e4, e5, zset_eq hu6,
      e7, rd_eq (hA.ptr (c k) (by omega)), rd_eq hMp1]
    simp only [forRange] at e8 e9
    simp only [e8, ok_bind]
    rw [hcnt] at e9
    rw [e9, ok_bind]
    rfl
  · refine ⟨rfl, by rw [hpatlen], s4, by simp only; omega, by simp only; omega, by
      simp only; rw [l9b, l8, l5], hpatsort, hpatlt, ?_, ?_, d9, ?_⟩
    · intro i hi
      have hin := hpatlt i hi
      exact S9.done i hin hi (hp.plt i hin)
    · intro i hi hni
      exact lev_zero_of_not_pat hL hp hρ (by omega) hP _ (by omega) i hi hni (by omega)
    · intro hni
      show get x9 _ = _
      rw [np9 _ hni, out8 _ hck (fun p' q1 q2 q3 => hni (hcolpat _ p' q1 q2 q3)),
        get_upd_self hb6.1 hb6.2]
  · intro i
    rw [hpatmem, hmem]

@[simp] theorem slip_ref_triangular_solveB_noLimit :
    slip_ref_triangular_solveB noLimit = slip_ref_triangular_solve := by
  unfold slip_ref_triangular_solveB slip_ref_triangular_solve
  simp only [solveStepB_noLimit, zsetB_noLimit]

theorem slip_ref_triangular_solve_spec {n k : ℕ} {pi : ℕ → ℕ} {lp ap : ℕ → ℤ} {L M : Csc}
    {xi q rhos pinv row_perm h x : Arr Int}
    (hA : AOk n A ap M) (hMn : M.n = n) (hLn : L.n = n)
    (hL : LOk A r c n k pi lp L.p L.i L.x) (hp : PermPair n pi r)
    (hpi : IsFn n pinv pi) (hr : IsFn n row_perm r) (hq : IsFn n q c) (hc : ∀ t < n, c t < n)
    (hρ : RhosOk A r c k rhos) (hk : k < n) (hxi : xi.length = 2 * n) (hh : n ≤ h.length)
    (hx : ∀ i < n, get x (i : Int) ≠ none) :
    ∃ t pat, slip_ref_triangular_solve L M (k : Int) xi q rhos pinv row_perm h x = .ok t ∧
      TriPost A r c n k pi L.p h x t pat ∧
      (∀ i : ℕ, i ∈ pat ↔ Reachable M.p M.i L.p L.i pinv (c k : Int) (i : Int)) :=
  slip_ref_triangular_solveB_noLimit ▸ slip_ref_triangular_solveB_spec hA hMn hLn hL hp hpi hr hq hc hρ hk hxi hh hx (.noLimit A r c _ k _)

end Slip
