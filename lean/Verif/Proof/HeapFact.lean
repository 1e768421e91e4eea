import Verif.Proof.HeapSolve

/-!
# The functions behind SLIP_LU_analyze and SLIP_LU_factorize
-/

namespace Slip.Mem

variable {α β σ : Type} {base : Addr → Option ℕ} {own rest : Multiset Addr} {n : ℕ} {P : Prop}

/-! ## SLIP_LU_analyze -/

theorem does_anaFree {S : Option HAna} (h : own = anaBlks S + rest) :
    Does base own n (anaFree S) (fun _ own' n' => own' = rest ∧ n' = n) := by
  cases S with
  | none => exact Does.pure ⟨h.trans (zero_add _), rfl⟩
  | some S =>
    refine (does_free (rest := blk (some S.hdr) + rest) ?_).pass fun _ => does_free rfl
    rw [h, blk_some]
    unfold anaBlks
    dsimp only
    abel

theorem does_amdFinish {Len Pinv Rp Ri : Option Addr}
    (h : own = blk Rp + (blk Ri + (blk Len + (blk Pinv + rest)))) :
    Does base own n (amdFinish Len Pinv Rp Ri) (fun a own' n' => own' = rest ∧ (a = true → n' = n) ∧
      (a = false → n < n')) := by
  unfold amdFinish
  refine does_malloc'.bind ?_
  rintro S own1 n1 ⟨rfl, h1, h2⟩
  cases S with
  | none =>
    rw [if_pos (by rfl), blk_none, zero_add]
    refine (does_free h).pass fun _ => (does_free rfl).pass fun _ => (does_free rfl).pass fun _ =>
      (does_free rfl).pass fun _ => Does.pure ⟨rfl, nofun, fun _ => ?_⟩
    rw [h2 rfl]
    omega
  | some S =>
    rw [if_neg (by simp)]
    refine (does_free (rest := blk Ri + (blk Len + (blk Pinv + (blk (some S) + rest)))) ?_).pass fun _ =>
      (does_free rfl).pass fun _ => (does_free rfl).pass fun _ =>
      (does_free rfl).pass fun _ => (does_free rfl).pass fun _ => Does.pure ⟨rfl, fun _ => h1 rfl, nofun⟩
    rw [h]
    abel

/-- AMD: nothing is left, and if there is no order, a request was refused. -/
theorem does_amdOrder {m : ℕ} :
    Does base own n (amdOrder m) (fun a own' n' => own' = own ∧ (a = true → n' = n) ∧
      (a = false → n < n' ∧ 0 < m)) := by
  unfold amdOrder
  by_cases hm : m = 0
  · rw [if_pos hm]
    exact Does.pure ⟨rfl, fun _ => rfl, nofun⟩
  rw [if_neg hm]
  refine does_malloc'.bind ?_
  rintro Len own1 n1 ⟨rfl, h1, h1'⟩
  refine does_malloc'.bind ?_
  rintro Pinv own2 n2 ⟨rfl, h2, h2'⟩
  have g1 : n ≤ n1 := by cases Len with
    | none => rw [h1' rfl]; omega
    | some _ => rw [h1 rfl]
  have g2 : n1 ≤ n2 := by cases Pinv with
    | none => rw [h2' rfl]; omega
    | some _ => rw [h2 rfl]
  by_cases hLP : (Len.isNone || Pinv.isNone) = true
  · rw [if_pos hLP]
    refine (does_free (rest := blk Pinv + own) (by abel)).pass fun _ => (does_free rfl).pass fun _ =>
      Does.pure ⟨rfl, nofun, fun _ => ⟨?_, by omega⟩⟩
    rw [Bool.or_eq_true] at hLP
    rcases hLP with h | h
    · have := h1' h; omega
    · have := h2' h; omega
  rw [if_neg hLP]
  have hsome : Len.isSome ∧ Pinv.isSome := by
    cases Len <;> cases Pinv <;> simp_all
  refine does_choose.pass fun jumbled => ?_
  by_cases hj : jumbled = 0
  · rw [if_neg (not_not.2 hj)]
    refine (does_amdFinish (rest := own) ?_).mono ?_
    · rw [blk_none]; abel
    · rintro a own' n' ⟨e, k1, k2⟩
      refine ⟨e, fun h => by rw [k1 h, h2 hsome.2, h1 hsome.1], fun h => ⟨?_, by omega⟩⟩
      have := k2 h
      omega
  rw [if_pos hj]
  refine does_malloc'.bind ?_
  rintro Rp own3 n3 ⟨rfl, h3, h3'⟩
  refine does_malloc'.bind ?_
  rintro Ri own4 n4 ⟨rfl, h4, h4'⟩
  have g3 : n2 ≤ n3 := by cases Rp with
    | none => rw [h3' rfl]; omega
    | some _ => rw [h3 rfl]
  have g4 : n3 ≤ n4 := by cases Ri with
    | none => rw [h4' rfl]; omega
    | some _ => rw [h4 rfl]
  by_cases hR : (Rp.isNone || Ri.isNone) = true
  · rw [if_pos hR]
    refine (does_free (rest := blk Ri + (blk Len + (blk Pinv + own))) (by abel)).pass fun _ =>
      (does_free rfl).pass fun _ => (does_free rfl).pass fun _ => (does_free rfl).pass fun _ =>
      Does.pure ⟨rfl, nofun, fun _ => ⟨?_, by omega⟩⟩
    rw [Bool.or_eq_true] at hR
    rcases hR with h | h
    · have := h3' h; omega
    · have := h4' h; omega
  rw [if_neg hR]
  have hsome2 : Rp.isSome ∧ Ri.isSome := by
    cases Rp <;> cases Ri <;> simp_all
  refine (does_amdFinish (rest := own) (by abel)).mono ?_
  rintro a own' n' ⟨e, k1, k2⟩
  refine ⟨e, fun h => by rw [k1 h, h4 hsome2.2, h3 hsome2.1, h2 hsome.2, h1 hsome.1], fun h => ⟨?_, by omega⟩⟩
  have := k2 h
  omega

theorem does_luAnalyze {order : ColOrder} {m : ℕ} :
    Does base own n (luAnalyze order m) (fun a own' n' => own' = anaBlks a.2 + own ∧
      (a.1 ≠ .ok → a.2 = none) ∧ (a.1 = .ok → ∃ S, a.2 = some S ∧ ((n' = n ∧ S.Usable m) ∨
        (order = .amd ∧ 0 < m ∧ S.filled = false ∧ n < n')))) := by
  unfold luAnalyze
  refine does_malloc.bind ?_
  rintro S own1 n1 ⟨rfl, h1⟩
  cases S with
  | none => exact Does.pure ⟨rfl, fun _ => rfl, nofun⟩
  | some S =>
    dsimp only
    refine does_malloc.bind ?_
    rintro q own2 n2 ⟨rfl, h2⟩
    cases q with
    | none =>
      rw [if_pos (by rfl), blk_none, zero_add]
      refine (does_free rfl).pass fun _ => ?_
      exact Does.pure ⟨(zero_add _).symm, fun _ => rfl, nofun⟩
    | some q =>
      rw [if_neg (by simp)]
      have hn : n2 = n := by rw [h2 rfl, h1 rfl]
      refine does_choose.pass fun lnz => does_choose.pass fun unz => ?_
      have e : ∀ (l u : ℤ) (b : Bool), blk (some q) + (blk (some S) + own) =
          anaBlks (some { hdr := S, q := some q, lnz := l, unz := u, filled := b }) + own := by
        intro l u b
        unfold anaBlks
        simp only [blk_some]
        abel
      have hu : HAna.Usable m { hdr := S, q := some q, lnz := m + lnz, unz := m + unz, filled := true } :=
        ⟨rfl, rfl, fun _ => by dsimp only; omega, fun _ => by dsimp only; omega⟩
      cases order with
      | colamd =>
        refine does_malloc.bind ?_
        rintro A2 own3 n3 ⟨rfl, h3⟩
        cases A2 with
        | none =>
          rw [if_pos (by rfl), blk_none, zero_add]
          refine (does_anaFree (e _ _ _)).pass fun _ => ?_
          exact Does.pure ⟨(zero_add _).symm, fun _ => rfl, nofun⟩
        | some A2 =>
          rw [if_neg (by simp)]
          refine (does_free rfl).pass fun _ => ?_
          exact Does.pure ⟨e _ _ _, fun h => absurd rfl h, fun _ => ⟨_, rfl, Or.inl ⟨by rw [h3 rfl, hn], hu⟩⟩⟩
      | none => exact Does.pure ⟨e _ _ _, fun h => absurd rfl h, fun _ => ⟨_, rfl, Or.inl ⟨hn, hu⟩⟩⟩
      | amd =>
        refine does_amdOrder.bind ?_
        rintro done own3 n3 ⟨rfl, k1, k2⟩
        cases done with
        | false =>
          rw [if_neg (by simp)]
          refine Does.pure ⟨e _ _ _, fun h => absurd rfl h, fun _ => ⟨_, rfl, Or.inr ⟨rfl, (k2 rfl).2, rfl, ?_⟩⟩⟩
          have := (k2 rfl).1
          omega
        | true =>
          by_cases hm : 0 < m
          · rw [if_pos (by simp [hm])]
            exact Does.pure ⟨e _ _ _, fun h => absurd rfl h, fun _ => ⟨_, rfl, Or.inl ⟨by rw [k1 rfl, hn], hu⟩⟩⟩
          · rw [if_neg (by simp [hm])]
            exact Does.pure ⟨e _ _ _, fun h => absurd rfl h, fun _ => ⟨_, rfl, Or.inl ⟨by rw [k1 rfl, hn],
              ⟨rfl, rfl, fun h => absurd h hm, fun h => absurd h hm⟩⟩⟩⟩

/-! ## Pivots -/

theorem Keeps.call : Keeps base blks P Any Mem.call := Tri.call'

theorem Tri.initAny : Tri base blks P Blank Any Any Mem.init := Tri.init'

/-- A function whose only variable is a number, which is cleared at the end. -/
theorem neutral_temp {s : Step Obj} {w : ℕ} {r0 : Info} (hr0 : r0 ≠ .ok)
    (hs : Tri base blks P Blank Any Any s) :
    Neutral base P (do
      let (r, x) ← s (nulls w)
      clear x
      if r ≠ .ok then pure r
      else do
        let c ← choose
        if c = 0 then pure r0 else pure .ok) := by
  intro own n
  refine Does.congr (own' := blks (nulls w) + own) (by rw [blks_nulls, zero_add]) ?_
  refine (hs _ own n (blks_nulls w)).bind ?_
  rintro ⟨r, x⟩ own' n' ⟨e, _, hJ⟩
  dsimp only at *
  refine (does_clear e).pass fun _ => ?_
  split
  · rename_i hr
    exact Does.pure ⟨rfl, fun h => absurd h hr⟩
  · rename_i hr
    rw [not_not] at hr
    refine (does_verdict hr0).mono ?_
    rintro a own2 n2 ⟨rfl, rfl⟩
    exact ⟨rfl, fun _ => (hJ hr).2⟩

theorem neutral_smallest : Neutral base P slip_get_smallest_pivot :=
  neutral_temp (by decide) (Tri.initAny.cons (Keeps.cons (.anyTimes (.cons .query (.cons (.maybe .call) .nil)))
    (.cons (.anyTimes (.cons .query (.cons (.maybe (.cons .query (.cons (.maybe .call) .nil))) .nil))) .nil)))

theorem neutral_largest : Neutral base P slip_get_largest_pivot :=
  neutral_temp (by decide) (Tri.initAny.cons (Keeps.cons (.anyTimes (.cons .query (.cons (.maybe .call) .nil))) .nil))

theorem neutral_nonzero : Neutral base P slip_get_nonzero_pivot := by
  intro own n
  unfold slip_get_nonzero_pivot
  have hs : Keeps base (fun _ : Unit => 0) P (fun _ => True) (anyTimes query) := .anyTimes .query
  refine Does.congr (own' := 0 + own) (zero_add _).symm ?_
  refine (hs () own n trivial).bind ?_
  rintro ⟨r, x⟩ own' n' ⟨e, _, hJ⟩
  rw [zero_add] at e
  dsimp only at *
  split
  · rename_i hr
    exact Does.pure ⟨e, fun h => absurd h hr⟩
  · rename_i hr
    rw [not_not] at hr
    refine (does_verdict (by decide)).mono ?_
    rintro a own2 n2 ⟨rfl, rfl⟩
    exact ⟨e, fun _ => (hJ hr).2⟩

/-- An `mpq_t`. -/
abbrev Two : Obj → Prop := fun x => x.length = 2

theorem blks_pair (a b : Option Addr) : blks [a, b] = blks [a] + blks [b] := by
  cases a <;> cases b <;> (simp [blks, List.reduceOption]; try rfl)

theorem keeps_part {i : ℕ} (hi : i < 2) : Keeps base blks P Two (part i Mem.call) := by
  intro x rest n hx
  obtain ⟨a, b, rfl⟩ := List.length_eq_two.1 hx
  unfold part
  have h1 : ∀ c, Tri base blks P (fun x => x = [c]) (fun x => x.length = 1) (fun x => x.length = 1) Mem.call :=
    fun c => Tri.call.mono (fun x h => by rw [h]; rfl) (fun _ h => h) (fun _ h => h) id
  rcases (by omega : i = 0 ∨ i = 1) with rfl | rfl
  · dsimp only [List.getElem?_cons_zero]
    refine Does.congr (own' := blks [a] + (blks [b] + rest)) (by rw [blks_pair, add_assoc]) ?_
    refine (h1 a [a] _ n rfl).bind ?_
    rintro ⟨r, f⟩ own' n' ⟨e, h2, h3⟩
    obtain ⟨c, rfl⟩ := List.length_eq_one_iff.1 h2
    refine Does.pure ⟨?_, rfl, fun h => ⟨rfl, (h3 h).2⟩⟩
    rw [e]
    show _ = blks [c, b] + rest
    rw [blks_pair, add_assoc]
  · dsimp only [List.getElem?_cons_succ, List.getElem?_cons_zero]
    refine Does.congr (own' := blks [b] + (blks [a] + rest)) (by rw [blks_pair]; abel) ?_
    refine (h1 b [b] _ n rfl).bind ?_
    rintro ⟨r, f⟩ own' n' ⟨e, h2, h3⟩
    obtain ⟨c, rfl⟩ := List.length_eq_one_iff.1 h2
    refine Does.pure ⟨?_, rfl, fun h => ⟨rfl, (h3 h).2⟩⟩
    rw [e]
    show _ = blks [a, c] + rest
    rw [blks_pair]
    dsimp only
    abel

def PivotVars.cells (w : PivotVars) : Multiset Addr := blks w.tol + blks w.ratio + matBlks w.rhos

def PivotVars.I (pt po : Obj → Prop) (pr : Option HMat → Prop) (w : PivotVars) : Prop :=
  pt w.tol ∧ po w.ratio ∧ pr w.rhos

section
variable {pt po : Obj → Prop} {pr kr : Option HMat → Prop} {K J : Option HMat → Prop} {KO JO : Obj → Prop}
    {s : Step (Option HMat)} {so : Step Obj}

theorem PivotVars.on_tol (hs : Tri base blks P pt KO JO so) (hk : ∀ o, pr o → kr o) :
    Tri base PivotVars.cells P (PivotVars.I pt po pr) (PivotVars.I Any Any kr) (PivotVars.I JO po pr)
      (at! tol so) :=
  Tri.on [] (fun w a => by unfold PivotVars.cells; dsimp only; rw [blks_nil]; abel)
    (fun _ => rfl) hs (fun w h => h.1) (fun w a h _ => ⟨trivial, trivial, hk _ h.2.2⟩) (fun w a h _ h1 => ⟨h1, h.2⟩)

theorem PivotVars.on_ratio (hs : Tri base blks P po KO JO so) (hk : ∀ o, pr o → kr o) :
    Tri base PivotVars.cells P (PivotVars.I pt po pr) (PivotVars.I Any Any kr) (PivotVars.I pt JO pr)
      (at! ratio so) :=
  Tri.on [] (fun w a => by unfold PivotVars.cells; dsimp only; rw [blks_nil]; abel)
    (fun _ => rfl) hs (fun w h => h.2.1) (fun w a h _ => ⟨trivial, trivial, hk _ h.2.2⟩)
    (fun w a h _ h1 => ⟨h.1, h1, h.2.2⟩)

theorem PivotVars.on_rhos (hs : Tri base matBlks P pr K J s) (hk : ∀ o, K o → kr o) :
    Tri base PivotVars.cells P (PivotVars.I pt po pr) (PivotVars.I Any Any kr) (PivotVars.I pt po J)
      (at! rhos s) :=
  Tri.on none (fun w a => by unfold PivotVars.cells; dsimp only; rw [matBlks_none]; abel)
    (fun _ => rfl) hs (fun w h => h.2.2) (fun w a h h1 => ⟨trivial, trivial, hk _ h1⟩)
    (fun w a h _ h1 => ⟨h.1, h.2.1, h1⟩)
end

theorem Tri.initTwo : Tri base blks P (fun x => Two x ∧ Blank x) Two Two Mem.init := Tri.init
theorem Tri.callTwo : Tri base blks P Two Two Two Mem.call := Tri.call

theorem tri_pivot {order : Pivot} {k N : ℕ} {κ : Kind} {a b : ℤ} (hk : k < N) :
    Tri base matBlks P (PtrTo (Mat κ .mpz a b N k)) matSized (PtrTo (Mat κ .mpz a b N (k + 1)))
      (slip_get_pivot order k) := by
  intro rhos rest n hr
  set R := PtrTo (Mat κ .mpz a b N k) with hR
  set R' := PtrTo (Mat κ .mpz a b N (k + 1)) with hR'
  have hRs : ∀ o, R o → matSized o := fun _ h => h.sized
  have hRs' : ∀ o, R' o → matSized o := fun _ h => h.sized
  set N2 : Obj → Prop := fun x => Two x ∧ Blank x with hN2
  have hs : Tri base PivotVars.cells P (PivotVars.I N2 N2 R) (PivotVars.I Any Any matSized)
      (PivotVars.I Any Any R') (seq (σ := PivotVars)
    [match order with
     | .smallest => just slip_get_smallest_pivot
     | .diagonal => seq [query, maybe (just slip_get_smallest_pivot)]
     | .firstNonzero => just slip_get_nonzero_pivot
     | .tolLargest => seq
       [just slip_get_largest_pivot, query,
        maybe (seq
          [at! tol init, at! ratio init, at! tol call, at! ratio call, at! ratio call, at! ratio call,
           query])]
     | .largest => just slip_get_largest_pivot
     | .tolSmallest => seq
       [just slip_get_smallest_pivot, query,
        maybe (seq
          [at! tol init, at! ratio init, at! ratio (part 0 call), at! ratio (part 1 call), at! tol call,
           query])],
     query,
     at! rhos (there (entry k init)),
     at! rhos (there (entry k call))]) := by
    have hI : ∀ {p q}, ∀ w, PivotVars.I p q R w → PivotVars.I Any Any matSized w ∧ PivotVars.I Any Any R w :=
      fun w h => ⟨⟨trivial, trivial, hRs _ h.2.2⟩, trivial, trivial, h.2.2⟩
    have hI2 : ∀ {p q}, ∀ w, PivotVars.I p q R w → PivotVars.I Any Any matSized w ∧ PivotVars.I p q R w :=
      fun w h => ⟨(hI w h).1, h⟩
    refine Tri.cons (L := PivotVars.I Any Any R) ?_ (Tri.cons (Tri.query hI)
      (Tri.cons (PivotVars.on_rhos (Tri.there (Tri.entryInit rfl hk)) hRs')
        (Tri.cons (PivotVars.on_rhos (Tri.there (Tri.entryCall rfl hk (Nat.lt_succ_self k))) hRs')
          (Tri.nil fun w h => ⟨⟨trivial, trivial, hRs' _ h.2.2⟩, h⟩))))
    cases order with
    | smallest => exact Tri.just neutral_smallest hI
    | diagonal => exact (Tri.query hI).cons ((Tri.maybe (Tri.just neutral_smallest hI) hI).cons (Tri.nil hI))
    | firstNonzero => exact Tri.just neutral_nonzero hI
    | largest => exact Tri.just neutral_largest hI
    | tolLargest =>
      refine (Tri.just neutral_largest hI2).cons ((Tri.query hI2).cons ((Tri.maybe ?_ hI).cons (Tri.nil hI)))
      exact (PivotVars.on_tol Tri.initTwo hRs).cons ((PivotVars.on_ratio Tri.initTwo hRs).cons
        ((PivotVars.on_tol Tri.callTwo hRs).cons ((PivotVars.on_ratio Tri.callTwo hRs).cons
        ((PivotVars.on_ratio Tri.callTwo hRs).cons ((PivotVars.on_ratio Tri.callTwo hRs).cons
        ((Tri.query hI).cons (Tri.nil hI)))))))
    | tolSmallest =>
      refine (Tri.just neutral_smallest hI2).cons ((Tri.query hI2).cons ((Tri.maybe ?_ hI).cons (Tri.nil hI)))
      exact (PivotVars.on_tol Tri.initTwo hRs).cons ((PivotVars.on_ratio Tri.initTwo hRs).cons
        ((PivotVars.on_ratio (keeps_part (by decide)) hRs).cons ((PivotVars.on_ratio (keeps_part (by decide)) hRs).cons
        ((PivotVars.on_tol Tri.callTwo hRs).cons ((Tri.query hI).cons (Tri.nil hI))))))
  unfold slip_get_pivot
  refine Does.congr (own' := PivotVars.cells ⟨nulls 2, nulls 2, rhos⟩ + rest) (by
    unfold PivotVars.cells; rw [blks_nulls, zero_add, zero_add]) ?_
  refine (hs _ rest n ⟨⟨rfl, blks_nulls 2⟩, ⟨rfl, blks_nulls 2⟩, hr⟩).bind ?_
  rintro ⟨r, w⟩ own' n' ⟨e, hK, hJ⟩
  dsimp only at *
  refine (does_clear (rest := blks w.ratio + (matBlks w.rhos + rest)) (by
    rw [e]; unfold PivotVars.cells; simp only [add_assoc])).pass fun _ => (does_clear rfl).pass fun _ => ?_
  exact Does.pure ⟨rfl, hK.2.2, fun h => ⟨(hJ h).1.2.2, (hJ h).2⟩⟩

/-! ## SLIP_LU_factorize -/

/-- `slip_sparse_realloc` doubles the number of entries. -/
theorem tri_realloc {N k : ℕ} {a b : ℤ} :
    Tri base HMat.blocks P (Mat .csc .mpz a b N k) HMat.Sized (fun A => k ≤ N → Mat .csc .mpz a b (2 * N) k A)
      slip_sparse_realloc := by
  intro A rest n hA
  obtain ⟨hB, hN, hl, hb⟩ := hA
  obtain ⟨hdr, m, c, nzmax, nz, pn, kind, type, p, _, i, _, j, _, x, _, xs, scale, sval⟩ := A
  obtain ⟨e1, e2, e3, e4, e5, e6, e7, e8, h9, h10, h11, h12, h13, h14⟩ := hB
  dsimp only at *
  subst e1 e2 e3 e4 e5 e6 e7 e8 hN
  unfold slip_sparse_realloc
  dsimp only
  have hb0 : ∀ x i xs N, HMat.blocks
      { hdr := hdr, m := m, n := c, nzmax := N, nz := nz, pn := pn, kind := .csc, type := .mpz, p := p,
        pShallow := false, i := i, iShallow := false, j := j, jShallow := false, x := x, xShallow := false, xs := xs,
        scale := scale, sval := sval } =
      {hdr} + blk p + blk i + blk j + (blk x + arrBlks xs) + blks scale :=
    fun x i xs N => Raw.blocks ⟨rfl, rfl, rfl, rfl, rfl⟩
  refine (does_grow (rest := {hdr} + blk p + blk i + blk j + arrBlks xs + blks scale + rest) (by
    rw [hb0]; abel)).bind ?_
  rintro ⟨x', okx⟩ own1 n1 ⟨e1, h1, h1'⟩
  dsimp only at e1 h1 h1' ⊢
  refine (does_grow (rest := blk x' + ({hdr} + blk p + blk j + arrBlks xs + blks scale + rest)) (by
    rw [e1]; abel)).bind ?_
  rintro ⟨i', oki⟩ own2 n2 ⟨e2, h2, h2'⟩
  dsimp only at e2 h2 h2' ⊢
  have hx' : x'.isSome = true := h1' h12
  split
  · refine Does.pure ⟨?_, ?_, nofun⟩
    · dsimp only
      rw [e2, hb0]
      abel
    · exact fun _ => ⟨rfl, by dsimp only; rw [hx', hl]; rfl⟩
  · rename_i hok
    have hok : oki = true ∧ okx = true := by
      cases oki <;> cases okx <;> simp_all
    have hlen : (xs ++ List.replicate nzmax (nulls (width .mpz))).length = if isMp .mpz then 2 * nzmax else 0 := by
      rw [List.length_append, List.length_replicate, hl]
      show nzmax + nzmax = 2 * nzmax
      omega
    refine Does.pure ⟨?_, ?_, fun _ => ⟨fun hk => ?_, fun _ => by rw [h2 hok.1, h1 hok.2]⟩⟩
    · dsimp only
      rw [e2, hb0, arrBlks_append, arrBlks_nulls, add_zero]
      abel
    · exact fun _ => ⟨rfl, by dsimp only; rw [hx', hlen]; rfl⟩
    · refine ⟨⟨rfl, rfl, rfl, rfl, rfl, rfl, rfl, rfl, h9, ?_, h11, hx', h13, h14⟩, rfl, hlen,
        hb.append (blankFrom_nulls _ _ _)⟩
      exact h2' h10

/-- The entries of a matrix with room for `room` more of them. -/
def Grow (d c room k : ℕ) (o : Option HMat) : Prop :=
  ∃ N, c ≤ N ∧ k + room ≤ N ∧ PtrTo (Mat .csc .mpz d d N k) o

theorem Grow.sized {d c room k : ℕ} {o : Option HMat} (h : Grow d c room k o) : matSized o := by
  obtain ⟨N, _, _, h⟩ := h
  exact h.sized

theorem Grow.less {d c room room' k : ℕ} {o : Option HMat} (h : Grow d c room k o) (hr : room' ≤ room) :
    Grow d c room' k o := by
  obtain ⟨N, h1, h2, h3⟩ := h
  exact ⟨N, h1, by omega, h3⟩

def FactVars.cells (w : FactVars) : Multiset Addr :=
  blk w.pinv + blk w.pivs + blk w.h + blk w.xi + blk w.row_perm + matBlks w.rhos + matBlks w.L + matBlks w.U +
    matBlks w.x

/-- The variables can be freed. -/
def FactVars.Ready (w : FactVars) : Prop :=
  matSized w.rhos ∧ matSized w.L ∧ matSized w.U ∧ matSized w.x

/-- In the main loop. -/
def FactVars.Main (d k rl ru : ℕ) (w : FactVars) : Prop :=
  w.pinv.isSome ∧ PtrTo (Mat .dense .mpz d 1 (capacity .dense d 1 d) k) w.rhos ∧ Grow d d rl w.lnz w.L ∧
    Grow d d ru w.unz w.U ∧ PtrTo (Full .dense .mpz d 1 (capacity .dense d 1 d)) w.x

theorem FactVars.Main.ready {d k rl ru : ℕ} {w : FactVars} (h : w.Main d k rl ru) : w.Ready :=
  ⟨h.2.1.sized, h.2.2.1.sized, h.2.2.2.1.sized, h.2.2.2.2.sized⟩

theorem Tri.dep {cells : σ → Multiset Addr} {I K J : σ → Prop} {f : σ → Step σ}
    (h : ∀ w0, I w0 → Tri base cells P (fun w => w = w0) K J (f w0)) : Tri base cells P I K J (fun w => f w w) :=
  fun w rest n hw => h w hw w rest n rfl

/-- A statement on `L`. -/
theorem FactVars.on_L {I K J : FactVars → Prop} {Ia Ka Ja : Option HMat → Prop} {s : Step (Option HMat)}
    (hs : Tri base matBlks P Ia Ka Ja s) (h1 : ∀ w, I w → Ia w.L)
    (hK : ∀ w a, I w → Ka a → K { w with L := a }) (hJ : ∀ w a, I w → Ka a → Ja a → J { w with L := a }) :
    Tri base FactVars.cells P I K J (at! L s) :=
  Tri.on none (fun w a => by unfold FactVars.cells; dsimp only; rw [matBlks_none]; abel) (fun _ => rfl) hs h1 hK hJ

/-- A statement on `U`. -/
theorem FactVars.on_U {I K J : FactVars → Prop} {Ia Ka Ja : Option HMat → Prop} {s : Step (Option HMat)}
    (hs : Tri base matBlks P Ia Ka Ja s) (h1 : ∀ w, I w → Ia w.U)
    (hK : ∀ w a, I w → Ka a → K { w with U := a }) (hJ : ∀ w a, I w → Ka a → Ja a → J { w with U := a }) :
    Tri base FactVars.cells P I K J (at! U s) :=
  Tri.on none (fun w a => by unfold FactVars.cells; dsimp only; rw [matBlks_none]; abel) (fun _ => rfl) hs h1 hK hJ

/-- A statement on `x`. -/
theorem FactVars.on_x {I K J : FactVars → Prop} {Ia Ka Ja : Option HMat → Prop} {s : Step (Option HMat)}
    (hs : Tri base matBlks P Ia Ka Ja s) (h1 : ∀ w, I w → Ia w.x)
    (hK : ∀ w a, I w → Ka a → K { w with x := a }) (hJ : ∀ w a, I w → Ka a → Ja a → J { w with x := a }) :
    Tri base FactVars.cells P I K J (at! x s) :=
  Tri.on none (fun w a => by unfold FactVars.cells; dsimp only; rw [matBlks_none]; abel) (fun _ => rfl) hs h1 hK hJ

/-- A statement on `rhos`. -/
theorem FactVars.on_rhos {I K J : FactVars → Prop} {Ia Ka Ja : Option HMat → Prop} {s : Step (Option HMat)}
    (hs : Tri base matBlks P Ia Ka Ja s) (h1 : ∀ w, I w → Ia w.rhos)
    (hK : ∀ w a, I w → Ka a → K { w with rhos := a }) (hJ : ∀ w a, I w → Ka a → Ja a → J { w with rhos := a }) :
    Tri base FactVars.cells P I K J (at! rhos s) :=
  Tri.on none (fun w a => by unfold FactVars.cells; dsimp only; rw [matBlks_none]; abel) (fun _ => rfl) hs h1 hK hJ

theorem tri_addL {d k rl ru : ℕ} :
    Tri base FactVars.cells P (FactVars.Main d k (rl + 1) ru) FactVars.Ready (FactVars.Main d k rl ru) addL := by
  refine Tri.cons (Tri.query fun w h => ⟨h.ready, h⟩) ?_
  refine Tri.cons (L := fun w => ∃ N, d ≤ N ∧ w.lnz + 1 + rl ≤ N ∧ PtrTo (Mat .csc .mpz d d N (w.lnz + 1)) w.L ∧
    w.pinv.isSome ∧ PtrTo (Mat .dense .mpz d 1 (capacity .dense d 1 d) k) w.rhos ∧
    Grow d d ru w.unz w.U ∧ PtrTo (Full .dense .mpz d 1 (capacity .dense d 1 d)) w.x) (Tri.dep fun w0 h0 => ?_) ?_
  · obtain ⟨h1, h2, ⟨N, hN1, hN2, h3⟩, h4, h5⟩ := h0
    refine FactVars.on_L (Tri.there (Tri.entryInit (κ := .csc) (τ := .mpz) (m := d) (n := d) (k := w0.lnz) (N := N) rfl (by omega))) ?_ ?_ ?_
    · rintro _ rfl
      exact h3
    · rintro _ a rfl ha
      exact ⟨h2.sized, ha.sized, h4.sized, h5.sized⟩
    · rintro _ a rfl _ ha
      exact ⟨N, hN1, by dsimp only; omega, ha, h1, h2, h4, h5⟩
  · refine Tri.cons (L := fun w => ∃ N, d ≤ N ∧ w.lnz + 1 + rl ≤ N ∧ PtrTo (Mat .csc .mpz d d N (w.lnz + 1)) w.L ∧
      w.pinv.isSome ∧ PtrTo (Mat .dense .mpz d 1 (capacity .dense d 1 d) k) w.rhos ∧
      Grow d d ru w.unz w.U ∧ PtrTo (Full .dense .mpz d 1 (capacity .dense d 1 d)) w.x) (Tri.dep fun w0 h0 => ?_) ?_
    · obtain ⟨N, hN1, hN2, h3, h1, h2, h4, h5⟩ := h0
      refine FactVars.on_L (Tri.there (Tri.entryCall (κ := .csc) (τ := .mpz) (m := d) (n := d) (i := w0.lnz) (k := w0.lnz + 1) (N := N) rfl (by omega)
        (by omega))) ?_ ?_ ?_
      · rintro _ rfl
        exact h3
      · rintro _ a rfl ha
        exact ⟨h2.sized, ha.sized, h4.sized, h5.sized⟩
      · rintro _ a rfl _ ha
        exact ⟨N, hN1, by dsimp only; omega, ha, h1, h2, h4, h5⟩
    · refine Tri.cons (L := FactVars.Main d k rl ru) ?_ (Tri.nil fun w h => ⟨h.ready, h⟩)
      rintro w rest n ⟨N, hN1, hN2, h3, h1, h2, h4, h5⟩
      exact Does.pure ⟨rfl, ⟨h2.sized, h3.sized, h4.sized, h5.sized⟩,
        fun _ => ⟨⟨h1, h2, ⟨N, hN1, hN2, h3⟩, h4, h5⟩, fun _ => rfl⟩⟩

theorem tri_addU {d k rl ru : ℕ} :
    Tri base FactVars.cells P (FactVars.Main d k rl (ru + 1)) FactVars.Ready (FactVars.Main d k rl ru) addU := by
  refine Tri.cons (Tri.query fun w h => ⟨h.ready, h⟩) ?_
  refine Tri.cons (L := fun w => ∃ N, d ≤ N ∧ w.unz + 1 + ru ≤ N ∧ PtrTo (Mat .csc .mpz d d N (w.unz + 1)) w.U ∧
    w.pinv.isSome ∧ PtrTo (Mat .dense .mpz d 1 (capacity .dense d 1 d) k) w.rhos ∧
    Grow d d rl w.lnz w.L ∧ PtrTo (Full .dense .mpz d 1 (capacity .dense d 1 d)) w.x) (Tri.dep fun w0 h0 => ?_) ?_
  · obtain ⟨h1, h2, h4, ⟨N, hN1, hN2, h3⟩, h5⟩ := h0
    refine FactVars.on_U (Tri.there (Tri.entryInit (κ := .csc) (τ := .mpz) (m := d) (n := d) (k := w0.unz) (N := N) rfl (by omega))) ?_ ?_ ?_
    · rintro _ rfl
      exact h3
    · rintro _ a rfl ha
      exact ⟨h2.sized, h4.sized, ha.sized, h5.sized⟩
    · rintro _ a rfl _ ha
      exact ⟨N, hN1, by dsimp only; omega, ha, h1, h2, h4, h5⟩
  · refine Tri.cons (L := fun w => ∃ N, d ≤ N ∧ w.unz + 1 + ru ≤ N ∧ PtrTo (Mat .csc .mpz d d N (w.unz + 1)) w.U ∧
      w.pinv.isSome ∧ PtrTo (Mat .dense .mpz d 1 (capacity .dense d 1 d) k) w.rhos ∧
      Grow d d rl w.lnz w.L ∧ PtrTo (Full .dense .mpz d 1 (capacity .dense d 1 d)) w.x) (Tri.dep fun w0 h0 => ?_) ?_
    · obtain ⟨N, hN1, hN2, h3, h1, h2, h4, h5⟩ := h0
      refine FactVars.on_U (Tri.there (Tri.entryCall (κ := .csc) (τ := .mpz) (m := d) (n := d) (i := w0.unz) (k := w0.unz + 1) (N := N) rfl (by omega)
        (by omega))) ?_ ?_ ?_
      · rintro _ rfl
        exact h3
      · rintro _ a rfl ha
        exact ⟨h2.sized, h4.sized, ha.sized, h5.sized⟩
      · rintro _ a rfl _ ha
        exact ⟨N, hN1, by dsimp only; omega, ha, h1, h2, h4, h5⟩
    · refine Tri.cons (L := FactVars.Main d k rl ru) ?_ (Tri.nil fun w h => ⟨h.ready, h⟩)
      rintro w rest n ⟨N, hN1, hN2, h3, h1, h2, h4, h5⟩
      exact Does.pure ⟨rfl, ⟨h2.sized, h4.sized, h3.sized, h5.sized⟩,
        fun _ => ⟨⟨h1, h2, h4, ⟨N, hN1, hN2, h3⟩, h5⟩, fun _ => rfl⟩⟩

theorem FactVars.Main.less {d k rl ru rl' ru' : ℕ} {w : FactVars} (h : w.Main d k rl ru) (h1 : rl' ≤ rl)
    (h2 : ru' ≤ ru) : w.Main d k rl' ru' := ⟨h.1, h.2.1, h.2.2.1.less h1, h.2.2.2.1.less h2, h.2.2.2.2⟩

theorem tri_addEntry {d k r : ℕ} :
    Tri base FactVars.cells P (FactVars.Main d k (r + 1) (r + 1)) FactVars.Ready (FactVars.Main d k r r) addEntry := by
  refine Tri.choose (f := fun loc => seq [when (fun _ => loc ≤ 1) addU, when (fun _ => 1 ≤ loc) addL]) fun loc => ?_
  refine Tri.cons (L := FactVars.Main d k (r + 1) r) (Tri.when (tri_addU.mono (fun _ h => h.1) (fun _ h => h)
    (fun _ h => h) id) fun w h _ => ⟨h.ready, h.less le_rfl (by omega)⟩) ?_
  exact Tri.cons (L := FactVars.Main d k r r) (Tri.when (tri_addL.mono (fun _ h => h.1) (fun _ h => h)
    (fun _ h => h) id) fun w h _ => ⟨h.ready, h.less (by omega) le_rfl⟩) (Tri.nil fun w h => ⟨h.ready, h⟩)

theorem tri_column {d k : ℕ} {order : Pivot} (hk : k < d) :
    Tri base FactVars.cells P (FactVars.Main d k 0 0) FactVars.Ready (FactVars.Main d (k + 1) 0 0)
      (factColumn order d k) := by
  have hcap : d ≤ capacity .dense d 1 d := by have := cap_dense d 1 d; simpa using this
  refine Tri.cons (L := FactVars.Main d k d 0) ?_ (Tri.cons (L := FactVars.Main d k d d) ?_
    (Tri.cons (L := FactVars.Main d k d d) ?_ (Tri.cons (L := FactVars.Main d (k + 1) d d) ?_
    (Tri.cons (L := FactVars.Main d (k + 1) 0 0) ?_ (Tri.nil fun w h => ⟨h.ready, h⟩)))))
  · refine Tri.when ?_ ?_
    · intro w rest n hw
      obtain ⟨⟨h1, h2, ⟨N, hN1, hN2, h3⟩, h4, h5⟩, _⟩ := hw
      refine FactVars.on_L (I := fun w' => w' = w) (Tri.there (tri_realloc (a := d) (b := d) (N := N) (k := w.lnz))) ?_ ?_ ?_ w rest n rfl
      · rintro _ rfl
        exact h3
      · rintro _ a rfl ⟨A, rfl, hA⟩
        exact ⟨h2.sized, matSized_some hA, h4.sized, h5.sized⟩
      · rintro _ a rfl _ ⟨A, rfl, hA⟩
        exact ⟨h1, h2, ⟨2 * N, by omega, by dsimp only; omega, A, rfl, hA (by omega)⟩, h4, h5⟩
    · rintro w ⟨h1, h2, ⟨N, hN1, hN2, A, hA, h3⟩, h4, h5⟩ hc
      refine ⟨⟨h2.sized, by rw [hA]; exact matSized_some h3.sized, h4.sized, h5.sized⟩, h1, h2,
        ⟨N, hN1, ?_, A, hA, h3⟩, h4, h5⟩
      rw [hA] at hc
      have : nzmaxOf (some A) = N := h3.2.1
      rw [this] at hc
      simpa using hc
  · refine Tri.when ?_ ?_
    · intro w rest n hw
      obtain ⟨⟨h1, h2, h4, ⟨N, hN1, hN2, h3⟩, h5⟩, _⟩ := hw
      refine FactVars.on_U (I := fun w' => w' = w) (Tri.there (tri_realloc (a := d) (b := d) (N := N) (k := w.unz))) ?_ ?_ ?_ w rest n rfl
      · rintro _ rfl
        exact h3
      · rintro _ a rfl ⟨A, rfl, hA⟩
        exact ⟨h2.sized, h4.sized, matSized_some hA, h5.sized⟩
      · rintro _ a rfl _ ⟨A, rfl, hA⟩
        exact ⟨h1, h2, h4, ⟨2 * N, by omega, by dsimp only; omega, A, rfl, hA (by omega)⟩, h5⟩
    · rintro w ⟨h1, h2, h4, ⟨N, hN1, hN2, A, hA, h3⟩, h5⟩ hc
      refine ⟨⟨h2.sized, h4.sized, by rw [hA]; exact matSized_some h3.sized, h5.sized⟩, h1, h2, h4,
        ⟨N, hN1, ?_, A, hA, h3⟩, h5⟩
      rw [hA] at hc
      have : nzmaxOf (some A) = N := h3.2.1
      rw [this] at hc
      simpa using hc
  · refine FactVars.on_x (Keeps.there (.anyTimes (.cons .query (.cons (.maybe (Keeps.entryAny rfl (by omega)
      hcap)) .nil)))) (fun w h => h.2.2.2.2) ?_ ?_
    · intro w a h ha
      exact ⟨h.2.1.sized, h.2.2.1.sized, h.2.2.2.1.sized, ha.sized⟩
    · intro w a h _ ha
      exact ⟨h.1, h.2.1, h.2.2.1, h.2.2.2.1, ha⟩
  · refine FactVars.on_rhos (tri_pivot (by omega)) (fun w h => h.2.1) ?_ ?_
    · intro w a h ha
      exact ⟨ha, h.2.2.1.sized, h.2.2.2.1.sized, h.2.2.2.2.sized⟩
    · intro w a h _ ha
      exact ⟨h.1, ha, h.2.2.1, h.2.2.2.1, h.2.2.2.2⟩
  · refine Tri.choose (f := fun top => forN (d - top) (fun _ => addEntry)) fun top => ?_
    refine Tri.mono (Tri.forN (Inv := fun i => FactVars.Main d (k + 1) (d - i) (d - i)) (fun w h => h.ready)
      fun i hi => ?_) (fun _ h => h) (fun _ h => h) (fun w h => h.less (Nat.zero_le _) (Nat.zero_le _)) id
    have : d - i = d - (i + 1) + 1 := by omega
    rw [this]
    exact tri_addEntry

theorem does_collapse {A : HMat} {d N k : ℕ} (hA : Mat .csc .mpz d d N k A) (hk : k ≤ N) (hp : A.pn = k)
    (h : own = A.blocks + rest) :
    Does base own n (slip_sparse_collapse A) (fun B own' n' => own' = B.blocks + rest ∧ n' = n ∧
      Full .csc .mpz d d k B) := by
  obtain ⟨hB, hN, hl, hb⟩ := hA
  obtain ⟨hdr, m, c, nzmax, nz, pn, kind, type, p, _, i, _, j, _, x, _, xs, scale, sval⟩ := A
  obtain ⟨e1, e2, e3, e4, e5, e6, e7, e8, h9, h10, h11, h12, h13, h14⟩ := hB
  dsimp only at *
  subst e1 e2 e3 e4 e5 e6 e7 e8 hN hp
  have hb0 : ∀ x i xs N, HMat.blocks
      { hdr := hdr, m := d, n := d, nzmax := N, nz := nz, pn := k, kind := .csc, type := .mpz, p := p,
        pShallow := false, i := i, iShallow := false, j := j, jShallow := false, x := x, xShallow := false, xs := xs,
        scale := scale, sval := sval } =
      {hdr} + blk p + blk i + blk j + (blk x + arrBlks xs) + blks scale :=
    fun x i xs N => Raw.blocks ⟨rfl, rfl, rfl, rfl, rfl⟩
  rw [hb0] at h
  unfold slip_sparse_collapse
  have hnnz : (HMat.nnz
      { hdr := hdr, m := d, n := d, nzmax := nzmax, nz := nz, pn := k, kind := .csc, type := .mpz, p := p,
        pShallow := false, i := i, iShallow := false, j := j, jShallow := false, x := x, xShallow := false, xs := xs,
        scale := scale, sval := sval }).toNat = k := by
    unfold HMat.nnz
    dsimp only
    rw [if_neg (by
      rintro (h | h)
      · cases p with
        | none => cases h9
        | some p => cases h
      · omega)]
    rfl
  rw [hnnz]
  dsimp only
  refine (does_shrink (rest := {hdr} + blk p + blk j + (blk x + arrBlks xs) + blks scale + rest) (by
    rw [h]; abel) h10).bind ?_
  rintro i' own1 n1 ⟨e1, rfl, h1⟩
  refine (does_shrink (rest := {hdr} + blk p + blk i' + blk j + arrBlks xs + blks scale + rest) (by
    rw [e1]; abel) h12).bind ?_
  rintro x' own2 n2 ⟨e2, rfl, h2⟩
  refine Does.pure ⟨?_, rfl, ⟨rfl, rfl, rfl, rfl, rfl, rfl, rfl, rfl, h9, h1, h11, h2, h13, h14⟩, rfl, ?_, ?_⟩
  · rw [hb0, arrBlks_take hb, e2]
    abel
  · dsimp only
    rw [List.length_take, hl]
    exact min_eq_left hk
  · intro j o hj ho
    obtain ⟨hj', _⟩ := List.getElem?_eq_some_iff.1 ho
    dsimp only at hj'
    rw [List.length_take] at hj'
    omega

/-- `p = SLIP_malloc (...)`, which is checked later. -/
theorem Does.seqMalloc {get : σ → Option Addr} {set : σ → Option Addr → σ} {l : List (Step σ)} {w : σ}
    {Q : Info × σ → Multiset Addr → ℕ → Prop}
    (h : ∀ p n', (p.isSome → n' = n) → Does base (blk p + own) n' (seq l (set w p)) Q) :
    Does base own n (seq (on get set mallocTo :: l) w) Q := by
  unfold seq
  refine Does.bind (Q := fun a own' n' => ∃ p, a = (.ok, set w p) ∧ own' = blk p + own ∧ (p.isSome → n' = n)) ?_ ?_
  · refine Does.bind (Q := fun a own' n' => ∃ p, a = (.ok, p) ∧ own' = blk p + own ∧ (p.isSome → n' = n)) ?_ ?_
    · refine does_malloc.bind ?_
      rintro p own' n' ⟨e, h⟩
      exact Does.pure ⟨p, rfl, e, h⟩
    · rintro _ own' n' ⟨p, rfl, e, h⟩
      exact Does.pure ⟨p, rfl, e, h⟩
  · rintro _ own' n' ⟨p, rfl, rfl, h1⟩
    dsimp only
    rw [if_pos rfl]
    exact h p n' h1

/-- Before the matrices are allocated. -/
def FactVars.Start (w : FactVars) : Prop :=
  w.pinv.isSome ∧ NoMat w.rhos ∧ NoMat w.L ∧ NoMat w.U ∧ NoMat w.x ∧ w.lnz = 0 ∧ w.unz = 0

theorem cap_csc {d : ℕ} {nz : ℤ} (h : 0 < d → (d : ℤ) ≤ nz) : d ≤ capacity .csc d d nz := by
  unfold capacity
  rw [if_neg nofun]
  omega

/-- From the allocation of the matrices on. -/
theorem tri_factBody {order : Pivot} {d : ℕ} {lnz unz : ℤ} (hl : 0 < d → (d : ℤ) ≤ lnz)
    (hu : 0 < d → (d : ℤ) ≤ unz) :
    Tri base FactVars.cells P FactVars.Start FactVars.Ready (FactVars.Main d d 0 0) (seq
      [at! rhos (allocTo .dense .mpz d 1 d false false),
       at! L (allocTo .csc .mpz d d lnz false false),
       at! U (allocTo .csc .mpz d d unz false false),
       at! x (allocTo .dense .mpz d 1 d false false),
       forN d (fun i => at! x (there (entry i init))),
       forN d (factColumn order d)]) := by
  have hcap : d ≤ capacity .dense d 1 d := by have := cap_dense d 1 d; simpa using this
  set Nr := capacity .dense d 1 d with hNr
  have hlc := cap_csc hl
  have huc := cap_csc hu
  set NL := capacity .csc d d lnz with hNL
  set NU := capacity .csc d d unz with hNU
  set S1 : FactVars → Prop := fun w => w.pinv.isSome ∧ PtrTo (Mat .dense .mpz d 1 Nr 0) w.rhos ∧ NoMat w.L ∧ NoMat w.U ∧
    NoMat w.x ∧ w.lnz = 0 ∧ w.unz = 0 with hS1
  set S2 : FactVars → Prop := fun w => w.pinv.isSome ∧ PtrTo (Mat .dense .mpz d 1 Nr 0) w.rhos ∧
    PtrTo (Mat .csc .mpz d d NL 0) w.L ∧ NoMat w.U ∧ NoMat w.x ∧ w.lnz = 0 ∧ w.unz = 0 with hS2
  set S3 : FactVars → Prop := fun w => w.pinv.isSome ∧ PtrTo (Mat .dense .mpz d 1 Nr 0) w.rhos ∧
    PtrTo (Mat .csc .mpz d d NL 0) w.L ∧ PtrTo (Mat .csc .mpz d d NU 0) w.U ∧ NoMat w.x ∧ w.lnz = 0 ∧ w.unz = 0 with hS3
  set S4 : ℕ → FactVars → Prop := fun k w => w.pinv.isSome ∧ PtrTo (Mat .dense .mpz d 1 Nr 0) w.rhos ∧
    PtrTo (Mat .csc .mpz d d NL 0) w.L ∧ PtrTo (Mat .csc .mpz d d NU 0) w.U ∧ PtrTo (Mat .dense .mpz d 1 Nr k) w.x ∧
    w.lnz = 0 ∧ w.unz = 0 with hS4
  have hR4 : ∀ k w, S4 k w → w.Ready := fun k w h => ⟨h.2.1.sized, h.2.2.1.sized, h.2.2.2.1.sized, h.2.2.2.2.1.sized⟩
  refine Tri.cons (L := S1) (FactVars.on_rhos (Tri.alloc (ini := false)) (fun w h => h.2.1) ?_ ?_) ?_
  · exact fun w a h ha => ⟨ha, h.2.2.1.sized, h.2.2.2.1.sized, h.2.2.2.2.1.sized⟩
  · exact fun w a h _ ha => ⟨h.1, ha, h.2.2⟩
  refine Tri.cons (L := S2) (FactVars.on_L (Tri.alloc (ini := false)) (fun w h => h.2.2.1) ?_ ?_) ?_
  · exact fun w a h ha => ⟨h.2.1.sized, ha, h.2.2.2.1.sized, h.2.2.2.2.1.sized⟩
  · exact fun w a h _ ha => ⟨h.1, h.2.1, ha, h.2.2.2⟩
  refine Tri.cons (L := S3) (FactVars.on_U (Tri.alloc (ini := false)) (fun w h => h.2.2.2.1) ?_ ?_) ?_
  · exact fun w a h ha => ⟨h.2.1.sized, h.2.2.1.sized, ha, h.2.2.2.2.1.sized⟩
  · exact fun w a h _ ha => ⟨h.1, h.2.1, h.2.2.1, ha, h.2.2.2.2⟩
  refine Tri.cons (L := S4 0) (FactVars.on_x (Tri.alloc (ini := false)) (fun w h => h.2.2.2.2.1) ?_ ?_) ?_
  · exact fun w a h ha => ⟨h.2.1.sized, h.2.2.1.sized, h.2.2.2.1.sized, ha⟩
  · exact fun w a h _ ha => ⟨h.1, h.2.1, h.2.2.1, h.2.2.2.1, ha, h.2.2.2.2.2⟩
  refine Tri.cons (L := S4 d) (Tri.forN (Inv := S4) (hR4 d) fun i hi => ?_) ?_
  · refine FactVars.on_x (Tri.there (Tri.entryInit (κ := .dense) (τ := .mpz) (m := d) (n := 1) (k := i) (N := Nr) rfl
      (by omega))) (fun w h => h.2.2.2.2.1) ?_ ?_
    · exact fun w a h ha => ⟨h.2.1.sized, h.2.2.1.sized, h.2.2.2.1.sized, ha.sized⟩
    · exact fun w a h _ ha => ⟨h.1, h.2.1, h.2.2.1, h.2.2.2.1, ha, h.2.2.2.2.2⟩
  refine Tri.cons (L := FactVars.Main d d 0 0) ?_ (Tri.nil fun w h => ⟨h.ready, h⟩)
  refine Tri.mono (Tri.forN (Inv := fun k => FactVars.Main d k 0 0) (fun w h => h.ready) fun i hi => tri_column hi)
    ?_ (fun _ h => h) (fun _ h => h) id
  rintro w ⟨h1, h2, h3, h4, h5, h6, h7⟩
  refine ⟨h1, h2, ⟨NL, hlc, by omega, by rw [h6]; exact h3⟩, ⟨NU, huc, by omega, by rw [h7]; exact h4⟩, ?_⟩
  obtain ⟨A, hA, h5⟩ := h5
  exact ⟨A, hA, h5.mono hcap⟩

/-- The work space is freed: only the outputs are left. -/
theorem does_factFreeWork {w : FactVars} (hx : matSized w.x) :
    Does base (w.cells + own) n (factFreeWork w) (fun a own' n' =>
      a = { w with x := none, xi := none, h := none, pivs := none, row_perm := none } ∧
      own' = matBlks w.L + (matBlks w.U + (matBlks w.rhos + (blk w.pinv + own))) ∧ n' = n) := by
  unfold factFreeWork
  refine (does_matFree hx (rest := blk w.xi + (blk w.h + (blk w.pivs + (blk w.row_perm + (matBlks w.L +
    (matBlks w.U + (matBlks w.rhos + (blk w.pinv + own)))))))) (by unfold FactVars.cells; abel)).pass fun _ => ?_
  refine (does_free rfl).pass fun _ => (does_free rfl).pass fun _ => (does_free rfl).pass fun _ =>
    (does_free rfl).pass fun _ => ?_
  exact Does.pure ⟨rfl, rfl, rfl⟩

theorem does_luFactorize {order : Pivot} {d : ℕ} {lnz unz : ℤ} (hl : 0 < d → (d : ℤ) ≤ lnz)
    (hu : 0 < d → (d : ℤ) ≤ unz) :
    Does base own n (luFactorize order d lnz unz) (fun a own' n' =>
      own' = matBlks a.2.1 + matBlks a.2.2.1 + matBlks a.2.2.2.1 + blk a.2.2.2.2 + own ∧
      (a.1 ≠ .ok → a.2 = (none, none, none, none)) ∧
      (a.1 = .ok → (∃ N, PtrTo (Full .csc .mpz d d N) a.2.1) ∧ (∃ N, PtrTo (Full .csc .mpz d d N) a.2.2.1) ∧
        PtrTo (Mat .dense .mpz d 1 (capacity .dense d 1 d) d) a.2.2.2.1 ∧ a.2.2.2.2.isSome ∧ n' = n)) := by
  unfold luFactorize
  refine Does.bind (Q := fun a own' n' => own' = a.2.cells + own ∧ a.2.Ready ∧
    (a.1 = .ok → a.2.Main d d 0 0 ∧ n' = n)) ?_ ?_
  · refine Does.seqMalloc fun pinv n1 h1 => Does.seqMalloc fun pivs n2 h2 => Does.seqMalloc fun h n3 h3 =>
      Does.seqMalloc fun xi n4 h4 => Does.seqMalloc fun row_perm n5 h5 => ?_
    set w0 : FactVars := ⟨pinv, pivs, h, xi, row_perm, none, none, none, none, 0, 0⟩ with hw0
    have e0 : blk row_perm + (blk xi + (blk h + (blk pivs + (blk pinv + own)))) = w0.cells + own := by
      unfold FactVars.cells
      simp only [hw0, matBlks_none, add_zero]
      abel
    have hR : w0.Ready := ⟨matSized_none, matSized_none, matSized_none, matSized_none⟩
    rw [e0]
    show Does base (w0.cells + own) n5 (seq _ w0) _
    unfold seq
    dsimp only
    split
    · exact Does.bind (Q := fun a own' n' => a = (.outOfMemory, w0) ∧ own' = w0.cells + own) (Does.pure ⟨rfl, rfl⟩)
        (by rintro _ own' n' ⟨rfl, rfl⟩; exact Does.pure ⟨rfl, hR, nofun⟩)
    · rename_i hc
      refine Does.bind (Q := fun a own' n' => a = (.ok, w0) ∧ own' = w0.cells + own ∧ n' = n5) (Does.pure ⟨rfl, rfl, rfl⟩) ?_
      rintro _ own' n' ⟨rfl, rfl, rfl⟩
      dsimp only
      rw [if_pos rfl]
      have hsome : pinv.isSome ∧ pivs.isSome ∧ h.isSome ∧ xi.isSome ∧ row_perm.isSome := by
        cases pinv <;> cases pivs <;> cases h <;> cases xi <;> cases row_perm <;> simp_all
      refine (tri_factBody (P := True) hl hu w0 own n' ⟨hsome.1, rfl, rfl, rfl, rfl, rfl, rfl⟩).mono ?_
      rintro ⟨r, w⟩ own' n2' ⟨e, hK, hJ⟩
      refine ⟨e, hK, fun hr => ⟨(hJ hr).1, ?_⟩⟩
      rw [(hJ hr).2 trivial, h5 hsome.2.2.2.2, h4 hsome.2.2.2.1, h3 hsome.2.2.1, h2 hsome.2.1, h1 hsome.1]
  · rintro ⟨r, w⟩ own' n' ⟨rfl, hR, hJ⟩
    dsimp only at hR hJ ⊢
    split
    · rename_i hr
      refine Does.bind (Q := fun _ own' n2 => own' = own ∧ n2 = n') ?_ ?_
      · unfold factFreeAll
        refine (does_factFreeWork hR.2.2.2).bind ?_
        rintro _ own' n2 ⟨rfl, rfl, rfl⟩
        exact (does_matFree hR.2.1 rfl).pass fun _ => (does_matFree hR.2.2.1 rfl).pass fun _ =>
          (does_matFree hR.1 rfl).pass fun _ => does_free rfl
      · rintro _ own' n2 ⟨rfl, rfl⟩
        refine Does.pure ⟨?_, fun _ => rfl, fun h => absurd h hr⟩
        simp only [matBlks_none, blk_none, zero_add]
    · rename_i hr
      rw [not_not] at hr
      obtain ⟨⟨h1, h2, ⟨NL, _, hl2, A, hA, h3⟩, ⟨NU, _, hu2, B, hB, h4⟩, h5⟩, hn⟩ := hJ hr
      refine (does_factFreeWork hR.2.2.2).bind ?_
      rintro _ own' n2 ⟨rfl, rfl, rfl⟩
      dsimp only
      rw [hA, hB]
      dsimp only
      have h3' : Mat .csc .mpz d d NL w.lnz { A with pn := w.lnz } :=
        ⟨⟨h3.1.1, h3.1.2, h3.1.3, h3.1.4, h3.1.5, h3.1.6, h3.1.7, h3.1.8, h3.1.9, h3.1.10, h3.1.11, h3.1.12, h3.1.13,
          h3.1.14⟩, h3.2⟩
      have h4' : Mat .csc .mpz d d NU w.unz { B with pn := w.unz } :=
        ⟨⟨h4.1.1, h4.1.2, h4.1.3, h4.1.4, h4.1.5, h4.1.6, h4.1.7, h4.1.8, h4.1.9, h4.1.10, h4.1.11, h4.1.12, h4.1.13,
          h4.1.14⟩, h4.2⟩
      refine (does_collapse h3' (by omega) rfl rfl).bind ?_
      rintro L own' n3 ⟨rfl, rfl, hL⟩
      refine (does_collapse h4' (by omega) rfl
        (rest := L.blocks + (matBlks w.rhos + (blk w.pinv + own))) ?_).bind ?_
      · show _ + (B.blocks + _) = B.blocks + _
        abel
      rintro U own' n4 ⟨rfl, rfl, hU⟩
      refine Does.pure ⟨?_, fun h => absurd rfl h, fun _ => ⟨⟨_, L, rfl, hL⟩, ⟨_, U, rfl, hU⟩, h2, h1, hn⟩⟩
      show _ = L.blocks + U.blocks + _ + _ + _
      dsimp only
      abel

end Slip.Mem
