import Verif.Proof.TriSolve
import Verif.Proof.Pivot

/-! # Storing a new column in L and U -/

namespace Slip

/-- `M'` is `M` with the rows `l` and values `v` appended at position `nz`. -/
structure Appended (M M' : Csc) (nz : Int) (l : List ℕ) (v : ℕ → ℤ) : Prop where
  m : M'.m = M.m
  n : M'.n = M.n
  nzmax : M'.nzmax = M.nzmax
  p : M'.p = M.p
  leni : M'.i.length = M.i.length
  lenx : M'.x.length = M.x.length
  segi : Seg M'.i nz (l.map (fun i : ℕ => (i : Int)))
  segx : Seg M'.x nz (l.map v)
  oldi : ∀ m, m < nz → get M'.i m = get M.i m
  oldx : ∀ m, m < nz → get M'.x m = get M.x m
  fresh : ∀ m, nz + l.length ≤ m → get M'.x m = none

theorem Appended.nil {M : Csc} {nz : Int} (v : ℕ → ℤ) (h : ∀ m, nz ≤ m → get M.x m = none) :
    Appended M M nz [] v :=
  ⟨rfl, rfl, rfl, rfl, rfl, rfl, fun t ht => by simp at ht, fun t ht => by simp at ht,
    fun _ _ => rfl, fun _ _ => rfl, fun m hm => h m (by simpa using hm)⟩

theorem Appended.push {M M' : Csc} {nz : Int} {l : List ℕ} {v : ℕ → ℤ} {i : ℕ}
    (h : Appended M M' nz l v) (h0 : 0 ≤ nz) (hi : nz + l.length < M.i.length)
    (hx : nz + l.length < M.x.length) :
    ∃ M'', pushEntry M' (nz + l.length) i (v i) = .ok M'' ∧ Appended M M'' nz (l ++ [i]) v := by
  have li : nz + l.length < (M'.i.length : Int) := by rw [h.leni]; exact hi
  have lx : nz + l.length < (M'.x.length : Int) := by rw [h.lenx]; exact hx
  have p0 : 0 ≤ nz + (l.length : Int) := by omega
  have hz := zinit_eq p0 lx (h.fresh _ (le_refl _))
  have hg := get_upd_self (v := (0 : Int)) p0 lx
  refine ⟨{ M' with
      i := upd M'.i (nz + l.length) (i : Int)
      x := upd (upd M'.x (nz + l.length) 0) (nz + l.length) (v i) }, ?_, ?_⟩
  · simp [pushEntry, wr_eq p0 li, hz, zset_eq hg]
  · have lx' : nz + l.length < ((upd M'.x (nz + l.length) (0 : Int)).length : Int) := by
      rw [length_upd]; exact lx
    refine ⟨h.m, h.n, h.nzmax, h.p, by simp [h.leni], by simp [h.lenx], ?_, ?_, ?_, ?_, ?_⟩
    · rw [List.map_append]
      refine Seg.snoc (Seg.upd h.segi p0 li (by right; simp)) ?_
      simpa using get_upd_self p0 li _
    · rw [List.map_append]
      refine Seg.snoc (Seg.upd (Seg.upd h.segx p0 lx (by right; simp)) p0 lx' (by right; simp)) ?_
      simpa using get_upd_self p0 lx' _
    · intro m hm
      show get (upd M'.i _ _) m = _
      rw [get_upd_ne p0 li _ (by omega)]; exact h.oldi m hm
    · intro m hm
      show get (upd (upd M'.x _ _) _ _) m = _
      rw [get_upd_ne p0 lx' _ (by omega), get_upd_ne p0 lx _ (by omega)]; exact h.oldx m hm
    · intro m hm
      simp only [List.length_append, List.length_singleton] at hm
      show get (upd (upd M'.x _ _) _ _) m = _
      rw [get_upd_ne p0 lx' _ (by push_cast at hm; omega),
        get_upd_ne p0 lx _ (by push_cast at hm; omega)]
      exact h.fresh m (by push_cast at hm; omega)

/-- The loop that populates column `k` of L and U: rows at pivot position `≥ k` go to L, rows at
position `≤ k` go to U, in the order of the pattern. -/
theorem populate_spec {n k : ℕ} {pi : ℕ → ℕ} {xi pinv x : Arr Int} {top lnz unz : Int}
    {pat : List ℕ} {v : ℕ → ℤ} {L U : Csc}
    (htop : top + pat.length = n) (hseg : Seg xi top (pat.map (fun i : ℕ => (i : Int))))
    (hpi : ∀ i ∈ pat, get pinv (i : Int) = some ((pi i : ℕ) : Int))
    (hx : ∀ i ∈ pat, get x (i : Int) = some (v i))
    (hl0 : 0 ≤ lnz) (hu0 : 0 ≤ unz)
    (hli : lnz + pat.length ≤ L.i.length) (hlx : lnz + pat.length ≤ L.x.length)
    (hui : unz + pat.length ≤ U.i.length) (hux : unz + pat.length ≤ U.x.length)
    (hlf : ∀ m, lnz ≤ m → get L.x m = none) (huf : ∀ m, unz ≤ m → get U.x m = none) :
    ∃ L' U', forRange top n (lnz, unz, L, U) (fun j st => popStep xi pinv x k j st) =
        .ok (lnz + (pat.filter (fun i => k ≤ pi i)).length,
             unz + (pat.filter (fun i => pi i ≤ k)).length, L', U') ∧
      Appended L L' lnz (pat.filter (fun i => k ≤ pi i)) v ∧
      Appended U U' unz (pat.filter (fun i => pi i ≤ k)) v := by
  have hloop := wp_forRange (E := noFail) (lo := top) (hi := n) (s := (lnz, unz, L, U))
    (f := fun j st => popStep xi pinv x k j st)
    (fun p s => ∃ L' U', s = (lnz + ((pat.take (p - top).toNat).filter (fun i => k ≤ pi i)).length,
        unz + ((pat.take (p - top).toNat).filter (fun i => pi i ≤ k)).length, L', U') ∧
      Appended L L' lnz ((pat.take (p - top).toNat).filter (fun i => k ≤ pi i)) v ∧
      Appended U U' unz ((pat.take (p - top).toNat).filter (fun i => pi i ≤ k)) v)
    (by omega)
    ⟨L, U, by simp, by simpa using Appended.nil v hlf, by simpa using Appended.nil v huf⟩
    (by
      rintro p s hp1 hp2 ⟨L', U', rfl, hL, hU⟩
      obtain ⟨t, rfl⟩ : ∃ t : ℕ, p = top + t := ⟨(p - top).toNat, by omega⟩
      have htl : t < pat.length := by omega
      have e1 : (top + t - top).toNat = t := by omega
      have e2 : (top + t + 1 - top).toNat = t + 1 := by omega
      rw [e1] at hL hU
      rw [e1, e2]
      have hmem : pat[t] ∈ pat := List.getElem_mem htl
      have hsg := hseg t (by simpa using htl)
      simp only [List.getElem_map] at hsg
      have htake : pat.take (t + 1) = pat.take t ++ [pat[t]] := by
        rw [List.take_add_one, List.getElem?_eq_getElem htl]; rfl
      have hlenL : ((pat.take t).filter (fun i => k ≤ pi i)).length ≤ t :=
        (List.length_filter_le _ _).trans (by simp)
      have hlenU : ((pat.take t).filter (fun i => pi i ≤ k)).length ≤ t :=
        (List.length_filter_le _ _).trans (by simp)
      simp only [popStep, rd_eq hsg, rd_eq (hpi _ hmem), rd_eq (hx _ hmem), ok_bind]
      rw [htake, List.filter_append, List.filter_append]
      obtain ⟨L'', eL, hL''⟩ := hL.push (i := pat[t]) hl0 (by omega) (by omega)
      obtain ⟨U'', eU, hU''⟩ := hU.push (i := pat[t]) hu0 (by omega) (by omega)
      by_cases h1 : pi pat[t] ≤ k
      · rw [if_pos (by omega : ((pi pat[t] : ℕ) : Int) ≤ k), eU]
        by_cases h2 : k ≤ pi pat[t]
        · rw [if_pos (by omega : ((pi pat[t] : ℕ) : Int) ≥ k)]
          simp only [ok_bind, pure_bind', eL, wp_pure]
          refine ⟨L'', U'', ?_, ?_, ?_⟩
          · simp [h1, h2]; constructor <;> ring
          · simpa [h2] using hL''
          · simpa [h1] using hU''
        · rw [if_neg (by omega : ¬ ((pi pat[t] : ℕ) : Int) ≥ k)]
          simp only [ok_bind, pure_bind', wp_pure]
          refine ⟨L', U'', ?_, ?_, ?_⟩
          · simp [h1, h2]; ring
          · simpa [h2] using hL
          · simpa [h1] using hU''
      · rw [if_neg (by omega : ¬ ((pi pat[t] : ℕ) : Int) ≤ k)]
        have h2 : k ≤ pi pat[t] := by omega
        rw [if_pos (by omega : ((pi pat[t] : ℕ) : Int) ≥ k)]
        simp only [ok_bind, pure_bind', eL, wp_pure]
        refine ⟨L'', U', ?_, ?_, ?_⟩
        · simp [h1, h2]; ring
        · simpa [h2] using hL''
        · simpa [h1] using hU)
  obtain ⟨s, hs, L', U', rfl, hL, hU⟩ := wp_noFail hloop
  have e : ((n : Int) - top).toNat = pat.length := by omega
  rw [e, List.take_length] at hs hL hU
  exact ⟨L', U', hs, hL, hU⟩

end Slip
