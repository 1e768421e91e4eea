import Verif.Proof.TriSolve
import Mathlib.Tactic.Ring

/-! # The work of the triangular solve -/

namespace Slip

/-- A loop over a segment of an array whose iterations cost different amounts. -/
theorem Cnt.forSeg {γ : Type} {c : ℕ} {f' : Int → γ → W γ} {f : Int → γ → C γ} {b : Int → ℕ} {xi : Arr Int}
    (h : ∀ v i s, get xi i = some v → Cnt (b v) (f' i s) (f i s)) :
    ∀ (l : List Int) (lo : Int) (s : γ), Seg xi lo l →
      Cnt (l.map fun v => c + b v).sum (forCntT c l.length lo s f') (Slip.forCnt l.length lo s f)
  | [], _, s, _ => Cnt.pure s
  | v :: l, lo, s, hs => by
    have := tickBind (c := c) ((h v lo s hs.head).bind fun a _ =>
      Cnt.forSeg (c := c) h l (lo + 1) a hs.tail)
    refine this.mono ?_
    rw [List.map_cons, List.sum_cons]
    omega

theorem bind_ok_iff {γ δ : Type} {m : C γ} {f : γ → C δ} {d : δ} :
    (m >>= f) = .ok d ↔ ∃ a, m = .ok a ∧ f a = .ok d := by
  cases m with
  | error e => simp
  | ok a => simp

theorem sum_cost (α β : ℕ) (d : Int → ℕ) : ∀ l : List Int,
    (l.map fun v => β + (2 * α + d v * (β + 5 * α))).sum =
      l.length * (β + 2 * α) + (l.map d).sum * (β + 5 * α)
  | [] => by simp
  | v :: l => by
    rw [List.map_cons, List.sum_cons, sum_cost α β d l, List.map_cons, List.sum_cons, List.length_cons,
      Nat.succ_mul l.length, Nat.add_mul (d v)]
    omega

theorem triW_cnt (α β : ℕ) {L M : Csc} {k : Int} {xi q rhos pinv row_perm h x : Arr Int} {t : TriOut}
    (hrun : slip_ref_triangular_solve L M k xi q rhos pinv row_perm h x = .ok t) {R : ℕ} {col a b : Int}
    (hq : get q k = some col)
    (hreach : Cnt R (slip_reachT β L.n M.p M.i L.i pinv col L.p xi) (slip_reach L.n M.p M.i L.i pinv col L.p xi))
    (ha : get M.p col = some a) (hb : get M.p (col + 1) = some b) {l : List Int}
    (htop : t.top = M.n - l.length) (hseg : Seg t.xi t.top l) :
    Cnt (R + 4 * (l.length * β) + (b - a).toNat * β + (l.length * (β + 2 * α) + degSum t.Lp pinv l * (β + 5 * α)))
      (slip_ref_triangular_solveT α β L M k xi q rhos pinv row_perm h x)
      (slip_ref_triangular_solve L M k xi q rhos pinv row_perm h x) := by
  unfold slip_ref_triangular_solve at hrun
  unfold slip_ref_triangular_solveT slip_ref_triangular_solve
  simp only [rd_eq hq, ok_bind, W.lift_bind, rd_eq ha, rd_eq hb] at hrun ⊢
  refine Cnt.mono (hreach.bind (b2 := 4 * (l.length * β) + (b - a).toNat * β + (l.length * (β + 2 * α) +
    degSum t.Lp pinv l * (β + 5 * α))) fun st hst => ?_) (by omega)
  obtain ⟨top, Lp, xi1⟩ := st
  rw [hst, ok_bind] at hrun
  simp only at hrun ⊢
  obtain ⟨xi2, e2, hrun⟩ := bind_ok_iff.1 hrun
  obtain ⟨xi3, e3, hrun⟩ := bind_ok_iff.1 hrun
  obtain ⟨xi4, e4, hrun⟩ := bind_ok_iff.1 hrun
  obtain ⟨x5, e5, hrun⟩ := bind_ok_iff.1 hrun
  obtain ⟨x6, e6, hrun⟩ := bind_ok_iff.1 hrun
  obtain ⟨h7, e7, hrun⟩ := bind_ok_iff.1 hrun
  obtain ⟨x8, e8, hrun⟩ := bind_ok_iff.1 hrun
  obtain ⟨⟨h9, x9⟩, e9, hrun⟩ := bind_ok_iff.1 hrun
  cases hrun
  simp only at htop hseg ⊢
  have lp : ∀ {γ : Type} {s : γ} {f : Int → γ → C γ}, Cnt (l.length * β)
      (forRangeT β top M.n s fun i s => W.lift (f i s)) (forRange top M.n s f) := by
    intro γ s f
    have := Cnt.forRange (c := β) (b := 0) (lo := top) (hi := M.n) (s := s) (f' := fun i s => W.lift (f i s))
      (f := f) fun i s _ _ => Cnt.lift _
    rw [Nat.add_zero, show (M.n - top).toNat = l.length by omega] at this
    exact this
  have lpA : ∀ {γ : Type} {s : γ} {f : Int → γ → C γ}, Cnt ((b - a).toNat * β)
      (forRangeT β a b s fun i s => W.lift (f i s)) (forRange a b s f) := by
    intro γ s f
    have := Cnt.forRange (c := β) (b := 0) (lo := a) (hi := b) (s := s) (f' := fun i s => W.lift (f i s))
      (f := f) fun i s _ _ => Cnt.lift _
    rwa [Nat.add_zero] at this
  refine Cnt.mono (lp.bind fun xi2' e => .liftBind fun xi3' e' => lp.bind fun xi4' e'' => lp.bind fun x5' _ =>
    .liftBind fun x6' _ => lp.bind fun h7' _ => lpA.bind fun x8' _ =>
    Cnt.bind (b2 := 0) ?_ fun _ _ => .pure _) (Nat.le_of_eq (?_ : _ + (_ + (_ + (_ + (_ + (l.length * (β + 2 * α) +
    degSum Lp pinv l * (β + 5 * α) + 0))))) = _))
  · rw [e2] at e; cases e
    rw [e3] at e'; cases e'
    rw [e4] at e''; cases e''
    unfold forRangeT forRange
    rw [show (M.n - top).toNat = l.length by omega, degSum, ← sum_cost]
    refine Cnt.forSeg (b := fun v => 2 * α + degN Lp pinv v * (β + 5 * α)) (fun v i s hv => ?_) _ _ _ hseg
    have := solveStepT_cnt α β Lp L.i L.x pinv rhos xi4 k i s.1 s.2
    rw [hv] at this
    exact this
  · omega

/-- The work of column `k`: `a` entries in the column of `A`, `P` rows in the pattern, and `D` entries in the
columns of `L` of these rows. -/
def stepCost (α β a P D : ℕ) : ℕ := α * (2 * P + 5 * D) + β * (2 * a + 2 * D + 13 * P)

variable {A : ℕ → ℕ → ℤ} {r c : ℕ → ℕ}

theorem slip_ref_triangular_solve_cost {n k : ℕ} {pi : ℕ → ℕ} {lp ap : ℕ → ℤ} {L M : Csc}
    {xi q rhos pinv row_perm h x : Arr Int}
    (hA : AOk n A ap M) (hMn : M.n = n) (hLn : L.n = n)
    (hL : LOk A r c n k pi lp L.p L.i L.x) (hp : PermPair n pi r)
    (hpi : IsFn n pinv pi) (hr : IsFn n row_perm r) (hq : IsFn n q c) (hc : ∀ t < n, c t < n)
    (hρ : RhosOk A r c k rhos) (hk : k < n) (hxi : xi.length = 2 * n) (hh : n ≤ h.length)
    (hx : ∀ i < n, get x (i : Int) ≠ none) :
    ∃ t pat, slip_ref_triangular_solve L M (k : Int) xi q rhos pinv row_perm h x = .ok t ∧
      TriPost A r c n k pi L.p h x t pat ∧
      (∀ i : ℕ, i ∈ pat ↔ Reachable M.p M.i L.p L.i pinv (c k : Int) (i : Int)) ∧
      ∀ α β, Cnt (stepCost α β (ap (c k + 1) - ap (c k)).toNat pat.length
          (degSum L.p pinv (pat.map fun i : ℕ => (i : Int))) - β * (3 * pat.length))
        (slip_ref_triangular_solveT α β L M (k : Int) xi q rhos pinv row_perm h x)
        (slip_ref_triangular_solve L M (k : Int) xi q rhos pinv row_perm h x) := by
  obtain ⟨t, pat, et, hT, hreach⟩ := slip_ref_triangular_solve_spec (xi := xi) (h := h) (x := x)
    hA hMn hLn hL hp hpi hr hq hc hρ hk hxi hh hx
  refine ⟨t, pat, et, hT, hreach, fun α β => ?_⟩
  have hck := hc k hk
  have hG := hL.graph hpi hp hk
  have hMp0 := hA.ptr (c k) (by omega)
  have hMp1 : get M.p ((c k : Int) + 1) = some (ap (c k + 1)) := by
    have := hA.ptr (c k + 1) (by omega)
    have e : ((c k + 1 : ℕ) : Int) = (c k : Int) + 1 := by omega
    rwa [e] at this
  obtain ⟨xi1, out, -, -, -, hnd, hrange, hmem, hcnt⟩ :=
    slip_reach_cost (n := n) (Ap := M.p) (Ai := M.i) hG hMp0 hMp1
      (fun p h1 h2 => by
        obtain ⟨i, hi, hi2, _⟩ := hA.ent (c k) hck p h1 h2
        exact ⟨_, hi2, by omega, by omega⟩) hxi β
  have hpatnd : pat.Nodup := hT.sorted.imp (fun {a b} hab e => by subst e; omega)
  have hperm : out.Perm (pat.map fun i : ℕ => (i : Int)) := by
    refine (List.perm_ext_iff_of_nodup hnd (hpatnd.map fun a b e => by simpa using e)).2 fun v => ?_
    rw [List.mem_map]
    constructor
    · intro hv
      have := hrange v hv
      refine ⟨v.toNat, ?_, by omega⟩
      rw [hreach, show ((v.toNat : ℕ) : Int) = v by omega, ← hmem]
      exact hv
    · rintro ⟨i, hi, rfl⟩
      rw [hmem, ← hreach]
      exact hi
  have hlen : out.length = pat.length := by rw [hperm.length_eq, List.length_map]
  have hdeg : degSum L.p pinv out = degSum L.p pinv (pat.map fun i : ℕ => (i : Int)) :=
    (hperm.map _).sum_eq
  rw [← hLn] at hcnt
  rw [hlen, hdeg] at hcnt
  have := triW_cnt α β et (hq k hk) hcnt hMp0 hMp1 (l := pat.map fun i : ℕ => (i : Int))
    (by rw [List.length_map, hMn]; exact hT.top) hT.seg
  rw [hT.lp, List.length_map] at this
  refine this.mono (Nat.le_of_eq ?_)
  unfold stepCost
  generalize degSum L.p pinv (pat.map fun i : ℕ => (i : Int)) = D
  generalize (ap (c k + 1) - ap (c k)).toNat = a
  generalize pat.length = P
  symm
  rw [Nat.sub_eq_iff_eq_add]
  · ring
  · calc β * (3 * P) ≤ β * (2 * a + 2 * D + 13 * P) := Nat.mul_le_mul_left _ (by omega)
      _ ≤ _ := Nat.le_add_left _ _

end Slip
